import Verif.Lang.Swift
import Verif.Lang.CommonProof
/-
The Swift backend satisfies the laws.
-/
namespace Beschi.Lang
open Spec

namespace Swift

section
variable {mark : List UInt8 → List UInt8} {p : Protocol} (h : Usable p)

theorem Supported.names (hs : Supported p) : NamesDistinct p := fun s hb =>
  (List.nodup_append.1 (hs.distinct s hb)).2.1

theorem readable_readPrim (n : NumTy) : readable (readPrim n) = some n := by cases n <;> rfl

theorem primFor (n : NumTy) : PrimFor (readSem mark p) .eof (readPrim n) n := by
  intro b pos
  simp only [readSem, readNum, readable_readPrim]

include h in
theorem atomFor {t : String} (hk : KnownType p t) :
    AtomFor (readSem mark p) .eof p t (atom p t) := by
  unfold atom
  cases h.kind hk with
  | num n e ne num enum => rw [num]; subst e; exact .num (primFor n)
  | text e num => rw [num]; simp only; rw [if_pos e]; subst e; exact .text
  | enum e mem name ne num enum =>
    rw [num]; simp only; rw [if_neg ne, enum]; subst name; exact .enum mem (primFor _)
  | struct s mem name ne num enum =>
    rw [num]; simp only; rw [if_neg ne, enum]; subst name; exact .struct mem

include h in
theorem stmtFor {m : Variable} (hk : KnownType p m.vartype) :
    StmtFor (readSem mark p) .eof p m (deserializer p m) (.mem m.name) := by
  unfold deserializer
  cases hl : m.isList with
  | true => exact .list hl (primFor _) (atomFor h hk)
  | false => exact .one hl (atomFor h hk)

include h in
theorem funFor (hs : Supported p) {s : Struct} (hb : s ∈ bodies p) :
    FunFor (readSem mark p) .eof p s.members (fromBytes p s) where
  decls := hs.locals s hb
  body := by
    refine bodyFor_mem (fun m hm => stmtFor h (h.known hb hm)) ?_ (hs.names s hb)
    intro m _ x hx
    unfold deserializer at hx
    cases hl : m.isList <;> rw [hl] at hx <;> simpa [RStmt.locs] using hx

theorem decode_valid {bs : List UInt8} (hv : ValidUtf8 bs) (hn : NoBom bs) :
    decode mark bs = .ok bs := by
  rw [decode, if_pos (isUtf8_iff.2 hv), noBom_iff.1 hn]
  rfl

theorem readString_at {b : Buf} (hb : b.length < 2 ^ 63) {pos : Nat} {len bs : List UInt8}
    (hat : At b pos (len ++ bs)) (hl : DecNum p.stringSize (.int bs.length) len)
    (ht : ValidUtf8 bs) (hn : NoBom bs) :
    readString mark p b pos = .ok (.str bs, pos + (len ++ bs).length) := by
  have e := takeNum_at (e := .eof) hat.left hl
  have hle := hat.le
  simp only [List.length_append] at hle
  rw [readString, readNum, readable_readPrim]
  simp only [e]
  rw [slice, if_neg (by omega)]
  simp only [Int.toNat_natCast, takeN_at hat.right, decode_valid ht hn, List.length_append,
    Nat.add_assoc]

include h in
theorem completeness {b : Buf} (hb : b.length < 2 ^ 63) :
    Completeness (readSem mark p) p (written.restrict NoBom) b where
  num _ _ _ := .written
  text pos len bs s hat hn ht := by
    obtain ⟨⟨rfl, hv⟩, hnb⟩ := ht
    exact readString_at hb hat (.written hn) hv hnb
  enum e he i j hx := checkDeclared_declared h he hx
  count _ _ _ _ _ _ _ _ := by simp [readSem]

/-! ### Writing -/

theorem writable_label (n : NumTy) : writable (label n) = some n := by cases n <;> rfl

theorem wprimFor (n : NumTy) : WPrimFor (writeSem p) written (label n) n := by
  intro v bs he
  simp only [writeSem, writeNum, writable_label, toLE_of_enc he]

include h in
theorem watomFor {t : String} (hk : KnownType p t) :
    WAtomFor (writeSem p) written p t (watom p t) := by
  unfold watom
  cases h.kind hk with
  | num n e ne num enum => rw [num]; subst e; exact .num (wprimFor n)
  | text e num => rw [num]; simp only; rw [if_pos e]; subst e; exact .text
  | enum e mem name ne num enum =>
    rw [num]; simp only; rw [if_neg ne, enum]; subst name; exact .enum mem (wprimFor _)
  | struct s mem name ne num enum =>
    rw [num]; simp only; rw [if_neg ne, enum]; subst name; exact .struct mem

theorem typeMembers_nodup {s : Struct}
    (hd : (methods s ++ s.members.map (·.name)).Nodup) : (typeMembers s).Nodup := by
  unfold typeMembers methods at *
  cases hm : s.isMessage
  · simpa [hm] using hd
  · simp only [hm, if_true] at hd ⊢
    refine (List.Perm.nodup_iff ?_).1 hd
    refine List.Perm.append_right (s.members.map (·.name))
      (l₁ := ["FromBytes", "WriteBytes", "GetMessageType", "GetSizeInBytes"])
      (l₂ := ["GetMessageType", "GetSizeInBytes", "FromBytes", "WriteBytes"]) ?_
    decide

include h in
theorem wfunFor (hs : Supported p) {s : Struct} (hb : s ∈ bodies p) :
    WFunFor (writeSem p) written p s.members (writeBytes p s) where
  decls := typeMembers_nodup (hs.distinct s hb)
  names := hs.names s hb
  body := by
    simp only [writeBytes]
    rw [List.forall₂_map_right_iff, List.forall₂_same]
    intro m hm
    unfold serializer
    cases hl : m.isList with
    | true => exact .list hl (wprimFor _) (watomFor h (h.known hb hm))
    | false => exact .one hl (watomFor h (h.known hb hm))

theorem convert_enc {n : NumTy} {k : Nat} {bs : List UInt8} (he : EncNum n (.int k) bs) :
    convert n k = .ok k := by
  rw [convert, if_pos (inRange_iff.2 (intRange_of_dec (.written he)))]

theorem writes : Writes (writeSem p) p written where
  text len bs s hn ht := by
    obtain ⟨rfl, hv⟩ := ht
    refine ⟨[len, bs], ?_, by simp⟩
    have := wprimFor (p := p) _ _ _ hn
    simp only [writeSem] at this
    simp [writeSem, convert_enc hn, this, bind, Except.bind, pure, Except.pure]
  count k len hn := by simp only [writeSem]; exact convert_enc hn
  enum _ _ _ hd := hd.1

/-! ### The laws -/

include h in
theorem defaultsFor : DefaultsFor p (default p) := by
  intro s hs m hm
  unfold default
  cases hl : m.isList with
  | true => simp
  | false =>
    simp only [Bool.false_eq_true, if_false]
    cases h.kind (h.types s hs m hm) with
    | num n e ne num enum struct => rw [num]; exact ⟨_, rfl, e ▸ .num n⟩
    | text e num => rw [num]; simp only; rw [if_pos e, e]; exact ⟨_, rfl, .text⟩
    | enum e mem name ne num enum =>
      rw [num]
      simp only
      rw [if_neg ne, enum]
      have := (h.enums e mem).nonempty
      cases hv : e.values with
      | nil => exact absurd hv this
      | cons x xs =>
        exact ⟨.entry x.2, by simp [hv], name ▸ DefaultFor.enum (x := x.1) mem (by rw [hv]; rfl)⟩
    | struct s mem name ne num enum struct =>
      rw [num]
      simp only
      rw [if_neg ne, enum]
      exact ⟨_, rfl, name ▸ .struct mem⟩

include h in
theorem read_encoded (hs : Supported p) {m : String} {v : Val} {bs : List UInt8} {b : Buf} {pos : Nat}
    (he : EncMsg p m v bs) (ht : Texts NoBom v) (hb : b.length < 2 ^ 63) (hat : At b pos bs) :
    read mark p m b pos = .ok (v, pos + bs.length) :=
  readMessage_encoded h (completeness h hb) (fun _ => funFor h hs) he ht hat

include h in
theorem step_reads (hs : Supported p) {b : Buf} (hb : b.length < 2 ^ 63) :
    StepReads (taggedStep (takeTag .eof b) (dispatch p) (fun m pos => read mark p m b pos) .invalid)
      p id (Texts NoBom) b :=
  taggedStep_reads h (fun _ _ _ hat => takeTag_at hat)
    (fun _ _ _ e => messageArms_of_split e)
    (fun m v bs pos he ht hat => by rw [Val.mapNames_id]; exact read_encoded h hs he ht hb hat)

include h in
/-- The generated Swift library satisfies the laws. -/
theorem laws (hs : Supported p) :
    Laws (library mark p) p id NoBom (fun _ => True) (2 ^ 63) := by
  refine Laws.of_core (L := library mark p) (header := [bsci]) (count := countBytes)
    (short := .crash) (countFail := .eof) (countTy := .uint32) (limit := fun n => .ok n)
    ?_ ?_ ?_ ?_ ?_ ?_ ?_ ?_ ?_ ?_ ?_ ?_ ?_ ?_ ?_
  · intro pre d post e
    simp [library, messageIndex_of_split h e]
  · intro pre d post e
    exact messageArms_of_split e
  · intro t ht _
    exact dispatch_unknown ht
  · intro pre d post v bs tag e he
    exact writeMessage_encoded h writes (fun _ => wfunFor h hs) e he tag
  · intro m v bs b pos he ht hb hat
    exact read_encoded h hs he ht hb hat
  · intro m v bs he hz
    exact sizeMessage_encoded h hs.names.members (measuresText_bytes rfl rfl)
      (fun _ _ hx => by cases hx) he hz
  · intro d fs hd hf
    exact makeMessage_spec h (defaultsFor h) hd hf
  · exact ProcessLaws.rebase (process := processData mark p) <|
      processLaws_of_steps (fun b hb => step_reads h hs hb)
      (finished := fun b pos => decide (b.length ≤ pos)) (fun b pos hp => by simpa using hp)
      (fun b pos hp => by left; simp [hp])
      (fun b pos hat => taggedStep_zero (fun _ _ _ hat => takeTag_at hat) hat)
  · intro ms; rfl
  · intro ms; rfl
  · rfl
  · intro n hn; rw [countBytes, if_pos (by omega), leBytes_eq]
  · intro b pos; rfl
  · intro n hn; exact .written (littleEndian4 n (by omega))
  · intro n _ hn; rfl

/-! ### Arbitrary data -/

theorem decode_ok {bs s : List UInt8} (hd : decode mark bs = .ok s) : Marked bs s := by
  unfold decode at hd
  split at hd
  · rename_i hv
    refine ⟨isUtf8_iff.1 hv, fun hn => ?_⟩
    rw [noBom_iff.1 hn] at hd
    cases hd
    rfl
  · cases hd

theorem readString_ok {b : Buf} {pos pos' : Nat} {v : Val}
    (hr : readString mark p b pos = .ok (v, pos')) :
    ∃ len bs s, v = .str s ∧ At b pos (len ++ bs) ∧ pos' = pos + (len ++ bs).length ∧
      DecNum p.stringSize (.int bs.length) len ∧ Marked bs s := by
  rw [readString, readNum, readable_readPrim] at hr
  simp only at hr
  split at hr
  · cases hr
  · rename_i i q hq
    obtain ⟨len, h1, h2, h3⟩ := takeNum_ok hq
    split at hr
    · cases hr
    · rename_i bs q' ht
      split at hr
      · cases hr
      · rename_i s hd
        cases hr
        unfold slice at ht
        split at ht
        · cases ht
        · rename_i hi
          obtain ⟨h4, h5, h6⟩ := takeN_ok ht
          have hlen : (bs.length : Int) = i := by omega
          rw [h3] at h4
          refine ⟨len, bs, s, rfl, h1.append h4, ?_, by rw [hlen]; exact h2, decode_ok hd⟩
          rw [List.length_append]; omega
  · cases hr

include h in
theorem soundness (b : Buf) : Soundness (readSem mark p) p (readableBy Marked) b where
  num _ _ _ hn := hn
  text pos v pos' _ hr := by
    obtain ⟨len, bs, s, rfl, h1, h2, h3, h4⟩ := readString_ok hr
    exact ⟨len, bs, s, rfl, h1, h2, h3, h4⟩
  enum e he i v hv := checkDeclared_ok h he hv
  count i k hi hk := by
    simp only [readSem] at hk
    split at hk
    · cases hk
    · cases hk; omega

include h in
theorem polite {E : Fail → Prop} (he : E .eof) (hi : E .invalid) {b : Buf}
    (hc : E .crash ∨ p.stringSize ∈ [NumTy.byte, .uint16, .uint32] ∧ Unsigned p.listSize ∧
      b.length < 2 ^ 62) : Polite (readSem mark p) p E b where
  text _ pos x hp hr := by
    simp only [readSem, readString, readNum, readable_readPrim] at hr
    split at hr
    · rename_i ht; cases hr; rw [takeNum_error ht]; exact he
    · rename_i i q hq
      obtain ⟨len, h1, h2, h3⟩ := takeNum_ok hq
      have hle := h1.le
      have hi' := intRange_of_dec h2
      split at hr
      · rename_i ht
        cases hr
        unfold slice at ht
        split at ht
        · rename_i hbig
          cases ht
          rcases hc with hc | ⟨hsz, _, hb⟩
          · exact hc
          · exfalso
            simp only [List.mem_cons, List.not_mem_nil, or_false] at hsz
            rcases hsz with e | e | e <;> rw [e] at hi' <;> simp only [IntRange] at hi' <;> omega
        · rw [(takeN_error ht).1]; exact he
      · split at hr
        · rename_i hd
          cases hr
          unfold decode at hd
          split at hd
          · cases hd
          · cases hd; exact hi
        · cases hr
    · rename_i r hne hr'
      obtain ⟨cnt, h3, h4, h5⟩ := takeNum_ok (v := r.1) (pos' := r.2) hr'
      obtain ⟨i, hi⟩ := dec_int (integral_of_integerType h.stringSize) h4
      exact absurd (Prod.ext hi rfl : r = (Val.int i, r.2)) (fun e => hne i r.2 e)
  textPos pos v pos' _ hr := by
    obtain ⟨len, bs, s, rfl, h1, h2, _⟩ := readString_ok hr
    have := h1.le
    omega
  enum e he i x hx := by rw [checkDeclared_error h he hx]; exact hi
  count i x hr hx := by
    simp only [readSem] at hx
    split at hx
    · rename_i hneg
      cases hx
      rcases hc with hc | ⟨_, hu, _⟩
      · exact hc
      · exfalso
        revert hr hu
        cases p.listSize <;> intro hr hu <;>
          first | exact (hu : False).elim | (simp only [IntRange] at hr; omega)
    · cases hx

/-- The same library with a stream processed in place. -/
def inPlace (mark : List UInt8 → List UInt8) (p : Protocol) : Library :=
  { library mark p with process := processData mark p }

variable (hs : Supported p)
include h hs

theorem sound : ReadSound (library mark p) p id (readableBy Marked) (2 ^ 63) := by
  intro m b pos v pos' hp _ hr
  obtain ⟨bs, h1, h2, h3⟩ := readMessage_sound h (soundness h b) (fun _ => funFor h hs) hp hr
  exact ⟨v, bs, (Val.mapNames_id v).symm, h1, h2, h3⟩

theorem within {E : Fail → Prop} {lim : Nat} (he : E .eof) (hi : E .invalid)
    (hc : E .crash ∨ p.stringSize ∈ [NumTy.byte, .uint16, .uint32] ∧ Unsigned p.listSize ∧
      lim ≤ 2 ^ 62) : ReadWithin E (library mark p) p lim := fun hm hp hb =>
  readMessage_within h he (polite h he hi (hc.imp id fun ⟨a, b, c⟩ => ⟨a, b, by omega⟩))
    (fun _ => funFor h hs) hm hp

theorem streamWithin {E : Fail → Prop} {lim : Nat} (he : E .eof) (hi : E .invalid)
    (hc : E .crash ∨ p.stringSize ∈ [NumTy.byte, .uint16, .uint32] ∧ Unsigned p.listSize ∧
      lim ≤ 2 ^ 62) : StreamWithin E (library mark p) lim :=
  StreamWithin.rebase (K := inPlace mark p) (fun _ _ _ => rfl) <|
    streamWithin_tagged (L := inPlace mark p) (tagFail := .eof) (unknown := .invalid)
    (finished := fun b pos => decide (b.length ≤ pos)) he hi
    (fun _ _ ht => dispatch_known ht) (fun _ _ _ => rfl) (within h hs he hi hc)

theorem streamRejects : StreamRejects (inPlace mark p) p NoBom (2 ^ 63) :=
  streamRejects_tagged (L := inPlace mark p) (tagFail := .eof)
    (unknown := .invalid) (finished := fun b pos => decide (b.length ≤ pos))
    (fun b pos hp => by simpa using hp) (fun _ _ _ => rfl)
    (fun _ hb => step_reads h hs hb)

theorem streamUnknown : StreamUnknown (library mark p) p NoBom (2 ^ 63) :=
  StreamUnknown.rebase (L := library mark p) (K := inPlace mark p) (fun _ _ _ => rfl) rfl
    (StreamRejects.unknown (streamRejects h hs))

theorem streamBroken : StreamBroken (library mark p) p NoBom (readableBy Marked) (2 ^ 63) :=
  StreamBroken.rebase (L := library mark p) (K := inPlace mark p) (fun _ _ _ => rfl) rfl
    (StreamRejects.broken (f := id) (streamRejects h hs) (sound (mark := mark) h hs))

omit h hs in
theorem unpackChecks : UnpackChecks (library mark p) (2 ^ 63) :=
  unpackChecks_with (short := .crash) (countFail := .eof) (limit := fun n => .ok n)
    (proc := process mark p) (fun _ _ => rfl)

theorem unpackFails {E : Fail → Prop} {lim : Nat} (he : E .eof) (hi : E .invalid) (hc : E .crash) :
    UnpackFails E (library mark p) lim :=
  unpackFails_with (short := .crash) (countFail := .eof) (countTy := .uint32)
    (limit := fun n => .ok n) hc he hi rfl (fun _ _ _ _ hx => by cases hx) (fun _ _ => rfl)
    (streamWithin h hs he hi (.inl hc))

end
end Swift
end Beschi.Lang
