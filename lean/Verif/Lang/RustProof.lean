import Verif.Lang.Rust
import Verif.Lang.CommonProof
/-
The Rust backend satisfies the laws.
-/
namespace Beschi.Lang
open Spec

namespace Rust

section
variable {p : Protocol} (h : Usable p)

theorem readable_readPrim {n : NumTy} (hn : n ≠ .bool) : readable (readPrim n) = some n := by
  cases n <;> first | rfl | exact absurd rfl hn

theorem readable_numPrim (n : NumTy) : readable (numPrim n) = some n := by
  cases n <;> rfl

theorem primFor {prim : String} {n : NumTy} (hr : readable prim = some n) :
    PrimFor (readSem p) .eof prim n := by
  intro b pos
  simp only [readSem, readNum, hr]

include h in
theorem atomFor {t : String} (hk : KnownType p t) : AtomFor (readSem p) .eof p t (atom p t) := by
  unfold atom
  cases h.kind hk with
  | num n e ne num => subst e; rw [num]; exact .num (primFor (readable_numPrim n))
  | text e num => subst e; rw [num]; exact .text
  | enum e mem name ne num enum =>
    rw [num]
    simp only
    rw [if_neg ne, enum]
    subst name
    exact .enum mem (primFor (readable_readPrim (enc_ne_bool (h.enums e mem))))
  | struct s mem name ne num enum =>
    rw [num]
    simp only
    rw [if_neg ne, enum]
    subst name
    exact .struct mem

include h in
theorem stmtFor {m : Variable} (hk : KnownType p m.vartype) :
    StmtFor (readSem p) .eof p m (deserializer p m) (.var m.name) := by
  unfold deserializer
  cases hl : m.isList with
  | true => exact .list hl (primFor (readable_readPrim (integerType_ne_bool h.listSize))) (atomFor h hk)
  | false => exact .one hl (atomFor h hk)

theorem deserializer_locs (m : Variable) : (deserializer p m).locs =
    if m.isList then [.var m.name, .var (m.name ++ "_len")] else [.var m.name] := by
  unfold deserializer
  cases m.isList <;> rfl

theorem append_len_ne (s : String) : s ++ "_len" ≠ "reader" := by
  intro e
  have := congrArg (fun s => s.toList.reverse.head?) e
  simp at this

include h in
theorem funFor (hs : Supported p) {s : Struct} (hb : s ∈ bodies p) :
    FunFor (readSem p) .eof p s.members (fromBytes p s) where
  decls := by
    have : (s.members.filter fun m => m.isList && (m.name == "_el" || m.name == "reader")) = [] := by
      rw [List.filter_eq_nil_iff]
      intro m hm
      have := hs.names s hb m hm
      simp [this]
    simp only [fromBytes, this, List.map_nil, List.append_nil]
    exact hs.distinct s hb
  body := by
    refine bodyFor_map (fun m hm => stmtFor h (h.known hb hm)) ?_ ?_
    · have hd := hs.distinct s hb
      rw [List.nodup_iff_pairwise_ne, List.pairwise_map] at hd
      refine (hd.and (hs.apart s hb)).imp ?_
      rintro a b ⟨h1, h2⟩
      rw [deserializer_locs]
      cases hl : b.isList with
      | true => simpa using ⟨h1, fun e => h2 hl e.symm⟩
      | false => simpa using h1
    · intro m hm l hl
      have hne : s.members ≠ [] := by rintro e; rw [e] at hm; cases hm
      have hn := (hs.names s hb m hm).1
      simp only [fromBytes]
      rw [if_neg (by simpa using hne)]
      rw [deserializer_locs] at hl
      have : l = .var m.name ∨ l = .var (m.name ++ "_len") := by
        cases hl' : m.isList <;> rw [hl'] at hl <;> simp at hl <;> tauto
      rcases this with rfl | rfl
      · simpa using hn
      · simpa using append_len_ne m.name

theorem asUsize_nat {n : Nat} (hn : n < 2 ^ 64) : asUsize n = n := by
  unfold asUsize
  omega

include h in
theorem readString_at {b : Buf} (hb : b.length < 2 ^ 63) {pos : Nat} {len bs : List UInt8}
    (hat : At b pos (len ++ bs)) (hl : DecNum p.stringSize (.int bs.length) len)
    (ht : ValidUtf8 bs) : readString p b pos = .ok (.str bs, pos + (len ++ bs).length) := by
  have e := takeNum_at (e := .eof) hat.left hl
  have hle := hat.le
  simp only [List.length_append] at hle
  rw [readString, readNum, readable_readPrim (integerType_ne_bool h.stringSize)]
  simp only [e]
  rw [asUsize_nat (by omega), take, if_neg (by omega), takeN_at hat.right]
  simp [isUtf8_iff.2 ht, Nat.add_assoc]

include h in
theorem completeness {b : Buf} (hb : b.length < 2 ^ 63) : 
    Completeness (readSem p) p (written.restrict fun _ => True) b where
  num _ _ _ := .written
  text pos len bs s hat hn ht := by
    obtain ⟨⟨rfl, hv⟩, _⟩ := ht
    exact readString_at h hb hat (.written hn) hv
  enum e he i j hx := checkDeclared_declared h he hx
  count _ _ _ _ _ _ _ _ := by simp [readSem]

/-! ### Writing -/

theorem wprimFor {prim : String} {n : NumTy} (hw : writable prim = some n) :
    WPrimFor (writeSem p) written prim n := by
  intro v bs he
  simp only [writeSem, writeNum, hw, toLE_of_enc he]

theorem writable_native {n : NumTy} (hn : n ≠ .bool) : writable (native n ++ ".to_le_bytes") = some n := by
  cases n <;> first | rfl | exact absurd rfl hn

include h in
theorem watomFor {t : String} (hk : KnownType p t) {listed : Bool}
    (hl : listed = true → t ≠ "byte" ∧ t ≠ "bool") :
    WAtomFor (writeSem p) written p t (watom p listed t) := by
  unfold watom
  cases h.kind hk with
  | num n e ne num =>
    subst e; rw [num]
    cases n with
    | byte =>
      cases listed with
      | true => exact absurd rfl (hl rfl).1
      | false => exact .num (wprimFor rfl)
    | bool =>
      cases listed with
      | true => exact absurd rfl (hl rfl).2
      | false => exact .num (wprimFor rfl)
    | _ => exact .num (wprimFor (by rfl))
  | text e num => subst e; rw [num]; exact .text
  | enum e mem name ne num enum =>
    rw [num]
    simp only
    rw [if_neg ne, enum]
    subst name
    refine .enum mem (wprimFor ?_)
    split
    · rename_i he; rw [he]; rfl
    · exact writable_native (enc_ne_bool (h.enums e mem))
  | struct s mem name ne num enum =>
    rw [num]
    simp only
    rw [if_neg ne, enum]
    subst name
    exact .struct mem

include h in
theorem wfunFor (hs : Supported p) {s : Struct} (hb : s ∈ bodies p) :
    WFunFor (writeSem p) written p s.members (writeBytes p s) where
  decls := hs.distinct s hb
  names := hs.distinct s hb
  body := by
    simp only [writeBytes]
    rw [List.forall₂_map_right_iff, List.forall₂_same]
    intro m hm
    unfold serializer
    cases hl : m.isList with
    | true =>
      exact .list hl (wprimFor (writable_native (integerType_ne_bool h.listSize)))
        (watomFor h (h.known hb hm) (fun _ => hs.lists s hb m hm hl))
    | false => exact .one hl (watomFor h (h.known hb hm) (by simp))

include h in
theorem writes : Writes (writeSem p) p written where
  text len bs s hn ht := by
    obtain ⟨rfl, hv⟩ := ht
    refine ⟨[len, bs], ?_, by simp⟩
    have := wprimFor (p := p) (writable_native (integerType_ne_bool h.stringSize)) _ _ hn
    simp only [writeSem] at this
    simp [writeSem, this, bind, Except.bind, pure, Except.pure]
  count k len _ := by simp [writeSem]
  enum _ _ _ hd := hd.1

/-! ### The laws -/

include h in
theorem defaultsFor : DefaultsFor p (default p) := by
  intro s hs m hm
  unfold default
  cases hl : m.isList with
  | true => simp
  | false =>
    simp only [Bool.false_eq_true, if_false]
    cases h.kind (h.types s hs m hm) with
    | num n e ne num => rw [num]; exact ⟨_, rfl, e ▸ .num n⟩
    | text e num => rw [num, e]; exact ⟨_, rfl, .text⟩
    | enum e mem name ne num enum =>
      rw [num]
      simp only
      rw [if_neg ne, enum]
      have := (h.enums e mem).nonempty
      cases hv : e.values with
      | nil => exact absurd hv this
      | cons x xs =>
        exact ⟨.entry x.2, by simp [hv], name ▸ DefaultFor.enum (x := x.1) mem (by rw [hv]; rfl)⟩
    | struct s mem name ne num enum =>
      rw [num]
      simp only
      rw [if_neg ne, enum]
      exact ⟨_, rfl, name ▸ .struct mem⟩

theorem asI32_nat {n : Nat} (hn : n < 2 ^ 31) : asI32 n = n := by
  unfold asI32 toSigned
  split <;> omega

include h in
theorem read_encoded (hs : Supported p) {m : String} {v : Val} {bs : List UInt8} {b : Buf} {pos : Nat}
    (he : EncMsg p m v bs) (hb : b.length < 2 ^ 63) (hat : At b pos bs) :
    read p m b pos = .ok (v, pos + bs.length) :=
  readMessage_encoded h (completeness h hb) (fun _ => funFor h hs) he (texts_true (fun _ => trivial) v) hat

include h in
theorem step_reads (hs : Supported p) {b : Buf} (hb : b.length < 2 ^ 63) :
    StepReads (taggedStep (takeTag .eof b) (dispatch p) (fun m pos => read p m b pos) .invalid) p id
      (Texts fun _ => True) b :=
  taggedStep_reads h (fun _ _ _ hat => takeTag_at hat)
    (fun _ _ _ e => messageArms_of_split e)
    (fun m v bs pos he _ hat => by rw [Val.mapNames_id]; exact read_encoded h hs he hb hat)

include h in
/-- The laws for a protocol whose members have been renamed. -/
theorem core_laws (hs : Supported p) :
    Laws (core p) p id (fun _ => True) (fun _ => True) (2 ^ 63) := by
  refine Laws.of_core (L := core p) (header := [bsci]) (count := fun n => .ok (leBytes 4 n))
    (short := .eof) (countFail := .eof) (countTy := .uint32) (limit := fun n => .ok (asI32 n))
    ?_ ?_ ?_ ?_ ?_ ?_ ?_ ?_ ?_ ?_ ?_ ?_ ?_ ?_ ?_
  · intro pre d post e
    simp [core, messageIndex_of_split h e]
  · intro pre d post e
    exact messageArms_of_split e
  · intro t ht _
    exact dispatch_unknown ht
  · intro pre d post v bs tag e he
    exact writeMessage_encoded h (writes h) (fun _ => wfunFor h hs) e he tag
  · intro m v bs b pos he _ hb hat
    exact read_encoded h hs he hb hat
  · intro m v bs he hz
    exact sizeMessage_encoded h hs.distinct.members (measuresText_bytes rfl rfl)
      (fun _ _ hx => by cases hx) he hz
  · intro d fs hd hf
    exact makeMessage_spec h (defaultsFor h) hd hf
  · exact processLaws_of_steps (fun b hb => step_reads h hs hb)
      (finished := fun b pos => decide (b.length ≤ pos)) (fun b pos hp => by simpa using hp)
      (fun b pos hp => by left; simp [hp])
      (fun b pos hat => taggedStep_zero (fun _ _ _ hat => takeTag_at hat) hat)
  · intro ms; rfl
  · intro ms; rfl
  · rfl
  · intro n _; rw [leBytes_eq]
  · intro b pos; rfl
  · intro n hn; exact .written (littleEndian4 n (by omega))
  · intro n _ hn; simp [asI32_nat hn]

/-! ### Arbitrary data -/

include h in
theorem readNum_string (b : Buf) (pos : Nat) :
    readNum (readPrim p.stringSize) b pos = takeNum .eof p.stringSize b pos := by
  rw [readNum, readable_readPrim (integerType_ne_bool h.stringSize)]

theorem asUsize_unsigned {n : NumTy} (hu : Unsigned n) {i : Int} (hi : IntRange n i) :
    asUsize i = i.toNat ∧ 0 ≤ i := by
  unfold asUsize
  cases n <;> simp only [Unsigned, IntRange] at hu hi <;> omega

include h in
theorem readString_ok {b : Buf} (hb : b.length < 2 ^ 63) {pos pos' : Nat} {v : Val}
    (hr : readString p b pos = .ok (v, pos')) :
    ∃ len bs, v = .str bs ∧ At b pos (len ++ bs) ∧ pos' = pos + (len ++ bs).length ∧
      DecNum p.stringSize (.int bs.length) len ∧ ValidUtf8 bs := by
  rw [readString, readNum_string h] at hr
  split at hr
  · cases hr
  · rename_i i q hq
    obtain ⟨len, h1, h2, h3⟩ := takeNum_ok hq
    split at hr
    · cases hr
    · rename_i bs q' ht
      split at hr
      · rename_i hv
        cases hr
        unfold take at ht
        split at ht
        · cases ht
        · obtain ⟨h4, h5, h6⟩ := takeN_ok ht
          have hle := h4.le
          have hi := intRange_of_dec h2
          have hlen : (bs.length : Int) = i := by
            rw [h5]
            unfold asUsize at h5 ⊢
            revert hi
            cases p.stringSize <;> intro hi <;>
              first | exact (hi : False).elim | (simp only [IntRange] at hi; omega)
          rw [h3] at h4
          refine ⟨len, bs, rfl, h1.append h4, ?_, by rw [hlen]; exact h2, isUtf8_iff.1 hv⟩
          rw [List.length_append]; omega
      · cases hr
  · cases hr

include h in
theorem soundness (hl : Unsigned p.listSize) {b : Buf} (hb : b.length < 2 ^ 63) :
    Soundness (readSem p) p (readableBy Checked) b where
  num _ _ _ hn := hn
  text pos v pos' _ hr := by
    obtain ⟨len, bs, rfl, h1, h2, h3, h4⟩ := readString_ok h hb hr
    exact ⟨len, bs, bs, rfl, h1, h2, h3, rfl, h4⟩
  enum e he i v hv := checkDeclared_ok h he hv
  count i k hi hk := by
    have := (asUsize_unsigned hl hi).2
    simp only [readSem, Except.ok.injEq] at hk
    omega

include h in
theorem polite {E : Fail → Prop} (he : E .eof) (hi : E .invalid)
    (hc : E .crash ∨ p.stringSize ∈ [NumTy.byte, .uint16, .uint32]) {b : Buf}
    (hb : b.length < 2 ^ 63) : Polite (readSem p) p E b where
  text _ pos x hp hr := by
    simp only [readSem] at hr
    rw [readString, readNum_string h] at hr
    split at hr
    · rename_i ht; cases hr; rw [takeNum_error ht]; exact he
    · rename_i i q hq
      obtain ⟨len, h1, h2, h3⟩ := takeNum_ok hq
      have hle := h1.le
      have hi' := intRange_of_dec h2
      split at hr
      · rename_i ht
        cases hr
        unfold take at ht
        split at ht
        · rename_i hbig
          cases ht
          rcases hc with hc | hsz
          · exact hc
          · exfalso
            unfold asUsize at hbig
            simp only [List.mem_cons, List.not_mem_nil, or_false] at hsz
            rcases hsz with e | e | e <;> rw [e] at hi' <;> simp only [IntRange] at hi' <;> omega
        · rw [(takeN_error ht).1]; exact he
      · split at hr
        · cases hr
        · cases hr; exact hi
    · rename_i r hne hr'
      obtain ⟨cnt, h3, h4, h5⟩ := takeNum_ok (v := r.1) (pos' := r.2) hr'
      obtain ⟨i, hi⟩ := dec_int (integral_of_integerType h.stringSize) h4
      exact absurd (Prod.ext hi rfl : r = (Val.int i, r.2)) (fun e => hne i r.2 e)
  textPos pos v pos' _ hr := by
    obtain ⟨len, bs, rfl, h1, h2, _⟩ := readString_ok h hb hr
    have := h1.le
    omega
  enum e he i x hx := by rw [checkDeclared_error h he hx]; exact hi
  count i x _ hx := by cases hx

include h in
theorem core_sound (hs : Supported p) (hl : Unsigned p.listSize) :
    ReadSound (core p) p id (readableBy Checked) (2 ^ 63) := by
  intro m b pos v pos' hp hb hr
  obtain ⟨bs, h1, h2, h3⟩ := readMessage_sound h (soundness h hl hb) (fun _ => funFor h hs) hp hr
  exact ⟨v, bs, (Val.mapNames_id v).symm, h1, h2, h3⟩

include h in
theorem core_within (hs : Supported p) {E : Fail → Prop} (he : E .eof) (hi : E .invalid)
    (hc : E .crash ∨ p.stringSize ∈ [NumTy.byte, .uint16, .uint32]) :
    ReadWithin E (core p) p (2 ^ 63) := fun hm hp hb =>
  readMessage_within h he (polite h he hi hc hb) (fun _ => funFor h hs) hm hp

end

section
variable {p : Protocol} (h : Usable p) (noRename : Bool)
  (hs : Supported (p.rename (namer noRename)))
include h hs

/-- The generated Rust library satisfies the laws. -/
theorem laws : Laws (library noRename p) p (namer noRename) (fun _ => True) (fun _ => True) (2 ^ 63) :=
  Laws.rename (core_laws (h.rename _) hs)

theorem sound (hl : Unsigned p.listSize) :
    ReadSound (library noRename p) p (namer noRename) (readableBy Checked) (2 ^ 63) :=
  ReadSound.rename (fun _ _ _ h => h) (core_sound (h.rename _) hs hl)

theorem within {E : Fail → Prop} (he : E .eof) (hi : E .invalid)
    (hc : E .crash ∨ p.stringSize ∈ [NumTy.byte, .uint16, .uint32]) :
    ReadWithin E (library noRename p) p (2 ^ 63) :=
  ReadWithin.rename (core_within (h.rename _) hs he hi hc)

theorem streamWithin {E : Fail → Prop} (he : E .eof) (hi : E .invalid)
    (hc : E .crash ∨ p.stringSize ∈ [NumTy.byte, .uint16, .uint32]) :
    StreamWithin E (library noRename p) (2 ^ 63) :=
  streamWithin_tagged (L := library noRename p) (tagFail := .eof) (unknown := .invalid)
    (finished := fun b pos => decide (b.length ≤ pos)) he hi
    (fun _ _ ht => messageNames_rename' ▸ dispatch_known ht) (fun _ _ _ => rfl)
    (within h noRename hs he hi hc)

theorem streamRejects : StreamRejects (library noRename p) p (fun _ => True) (2 ^ 63) :=
  StreamRejects.rename <| streamRejects_tagged (L := library noRename p) (tagFail := .eof)
    (unknown := .invalid) (finished := fun b pos => decide (b.length ≤ pos))
    (fun b pos hp => by simpa using hp) (fun _ _ _ => rfl)
    (fun _ hb => step_reads (h.rename _) hs hb)

omit h hs in
theorem unpackChecks : UnpackChecks (library noRename p) (2 ^ 63) :=
  unpackChecks_with (short := .eof) (countFail := .eof) (limit := fun n => .ok (asI32 n))
    (proc := process (p.rename (namer noRename))) (fun _ _ => rfl)

theorem unpackFails {E : Fail → Prop} (he : E .eof) (hi : E .invalid)
    (hc : E .crash ∨ p.stringSize ∈ [NumTy.byte, .uint16, .uint32]) :
    UnpackFails E (library noRename p) (2 ^ 63) :=
  unpackFails_with (short := .eof) (countFail := .eof) (countTy := .uint32)
    (limit := fun n => .ok (asI32 n)) he he hi rfl (fun _ _ _ _ hx => by cases hx) (fun _ _ => rfl)
    (streamWithin h noRename hs he hi hc)
end

end Rust
end Beschi.Lang
