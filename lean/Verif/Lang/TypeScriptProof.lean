import Verif.Lang.TypeScript
import Verif.Lang.CommonProof
/-
The TypeScript backend satisfies the laws.
-/
namespace Beschi.Lang
open Spec

/-- Loops that do not repeat a name have loop variables that do not hide one another. -/
theorem mfresh_of_loops {M : MStyle} {p : Protocol} {g : String → String}
    (hl : ∀ n lvl, M.loopVar n lvl = g n) (ht : ∀ n lvl, M.textVar n lvl = g n)
    (hg : Function.Injective g) : ∀ {fuel : Nat} {ms : List Variable} {used : List String} {lvl : Nat},
    (∀ ns, Loops p ms ns → ns.Nodup ∧ ∀ n ∈ ns, g n ∉ used) → MFresh M p fuel ms used lvl
  | 0, _, _, _, _ => trivial
  | fuel + 1, ms, used, lvl, h => by
    intro m hm
    refine ⟨fun h1 h2 => ?_, fun s hs => ?_⟩
    · rw [ht]
      exact (h _ (.text hm h1 h2)).2 _ (by simp)
    · obtain ⟨h1, h2⟩ := struct?_some hs
      split
      · rename_i h3
        rw [hl]
        refine ⟨(h _ (.last hm h3 h1 h2)).2 _ (by simp), mfresh_of_loops hl ht hg ?_⟩
        intro ns hns
        obtain ⟨h4, h5⟩ := h _ (.list hm h3 h1 h2 hns)
        rw [List.nodup_cons] at h4
        refine ⟨h4.2, fun n hn => ?_⟩
        rw [List.mem_cons, not_or]
        refine ⟨fun e => h4.1 (hg e ▸ hn), h5 n (by simp [hn])⟩
      · rename_i h3
        refine mfresh_of_loops hl ht hg ?_
        intro ns hns
        exact h ns (.member hm (by simpa using h3) h1 h2 hns)

namespace TypeScript

section
variable {lossy : List UInt8 → List UInt8} {p : Protocol} (h : Usable p) {buffer : Buf}

theorem Supported.names (hs : Supported p) : NamesDistinct p := fun s hb =>
  (List.nodup_append.1 (hs.distinct s hb)).2.1

theorem readable_readPrim (n : NumTy) : readable (readPrim n) = some n := by cases n <;> rfl

theorem primFor (n : NumTy) : PrimFor (readSem lossy p buffer) .eof (readPrim n) n := by
  intro b pos
  simp only [readSem, readNum, readable_readPrim]

include h in
theorem atomFor {t : String} (hk : KnownType p t) :
    AtomFor (readSem lossy p buffer) .eof p t (atom p t) := by
  unfold atom
  cases h.kind hk with
  | num n e ne num enum =>
    rw [if_neg ne, enum, num]; subst e; exact .num (primFor n)
  | text e num => rw [if_pos e]; subst e; exact .text
  | enum e mem name ne num enum =>
    rw [if_neg ne, enum]; subst name; exact .enum mem (primFor _)
  | struct s mem name ne num enum =>
    rw [if_neg ne, enum, num]; subst name; exact .struct mem

include h in
theorem stmtFor {m : Variable} (hk : KnownType p m.vartype) :
    StmtFor (readSem lossy p buffer) .eof p m (deserializer p m) (.mem m.name) := by
  unfold deserializer
  cases hl : m.isList with
  | true => exact .list hl (primFor _) (atomFor h hk)
  | false => exact .one hl (atomFor h hk)

include h in
theorem funFor (hs : Supported p) {s : Struct} (hb : s ∈ bodies p) :
    FunFor (readSem lossy p buffer) .eof p s.members (fromBytes p s) where
  decls := hs.locals s hb
  body := by
    refine bodyFor_mem (fun m hm => stmtFor h (h.known hb hm)) ?_ (hs.names s hb)
    intro m _ x hx
    unfold deserializer at hx
    cases hl : m.isList <;> rw [hl] at hx <;> simpa [RStmt.locs] using hx

theorem decode_valid {bs : List UInt8} (hv : ValidUtf8 bs) (hn : NoBom bs) :
    decode lossy bs = bs := by
  rw [decode, if_pos (isUtf8_iff.2 hv), noBom_iff.1 hn]
  rfl

theorem readString_at (hz : p.stringSize.size ≠ 8) {b : Buf} {pos : Nat} {len bs : List UInt8}
    (hat : At b pos (len ++ bs)) (hl : DecNum p.stringSize (.int bs.length) len)
    (ht : ValidUtf8 bs) (hn : NoBom bs) :
    readString lossy p b b pos = .ok (.str bs, pos + (len ++ bs).length) := by
  have e := takeNum_at (e := .eof) hat.left hl
  rw [readString, if_neg hz, readNum, readable_readPrim]
  simp only [e]
  rw [if_neg (by omega)]
  simp only [Int.toNat_natCast, takeN_at hat.right, decode_valid ht hn, List.length_append,
    Nat.add_assoc]

include h in
theorem completeness (hs : Supported p) {b : Buf} :
    Completeness (readSem lossy p b) p (written.restrict NoBom) b where
  num _ _ _ := .written
  text pos len bs s hat hn ht := by
    obtain ⟨⟨rfl, hv⟩, hnb⟩ := ht
    exact readString_at hs.stringSize hat (.written hn) hv hnb
  enum e he i j hx := checkDeclared_declared h he hx
  count _ _ _ _ _ _ _ _ := by simp [readSem, hs.listSize]

/-! ### Writing -/

theorem writable_writePrim (n : NumTy) : writable (writePrim n) = some n := by cases n <;> rfl

theorem wprimFor (n : NumTy) : WPrimFor (writeSem p) written (writePrim n) n := by
  intro v bs he
  simp only [writeSem, writeNum, writable_writePrim, toLE_of_enc he]

include h in
theorem watomFor {t : String} (hk : KnownType p t) :
    WAtomFor (writeSem p) written p t (watom p t) := by
  unfold watom
  cases h.kind hk with
  | num n e ne num enum => rw [if_neg ne, enum, num]; subst e; exact .num (wprimFor n)
  | text e num => rw [if_pos e]; subst e; exact .text
  | enum e mem name ne num enum =>
    rw [if_neg ne, enum]; subst name; exact .enum mem (wprimFor _)
  | struct s mem name ne num enum =>
    rw [if_neg ne, enum, num]; subst name; exact .struct mem

theorem classMembers_nodup {s : Struct}
    (hd : (methods s ++ s.members.map (·.name)).Nodup) : (classMembers s).Nodup := by
  refine (List.Perm.nodup_iff ?_).1 hd
  unfold classMembers methods
  have : ∀ (l : List String) (ns : List String),
      ("constructor" :: "writeBytes" :: l ++ ns).Perm ("constructor" :: ns ++ l ++ ["writeBytes"]) := by
    intro l ns
    simp only [List.cons_append, List.append_assoc]
    refine List.Perm.cons _ ?_
    rw [← List.append_assoc]
    refine (List.Perm.cons _ List.perm_append_comm).trans ?_
    exact (List.perm_append_singleton "writeBytes" (ns ++ l)).symm
  exact this _ _

include h in
theorem wfunFor (hs : Supported p) {s : Struct} (hb : s ∈ bodies p) :
    WFunFor (writeSem p) written p s.members (writeBytes p s) where
  decls := classMembers_nodup (hs.distinct s hb)
  names := hs.names s hb
  body := by
    simp only [writeBytes]
    rw [List.forall₂_map_right_iff, List.forall₂_same]
    intro m hm
    unfold serializer
    cases hl : m.isList with
    | true => exact .list hl (wprimFor _) (watomFor h (h.known hb hm))
    | false => exact .one hl (watomFor h (h.known hb hm))

theorem writes (hs : Supported p) : Writes (writeSem p) p written where
  text len bs s hn ht := by
    obtain ⟨rfl, hv⟩ := ht
    refine ⟨[len, bs], ?_, by simp⟩
    have := wprimFor (p := p) _ _ _ hn
    simp only [writeSem] at this
    simp [writeSem, hs.stringSize, this, bind, Except.bind, pure, Except.pure]
  count k len _ := by simp [writeSem, hs.listSize]
  enum _ _ _ hd := hd.1

/-! ### The laws -/

theorem native_of_none {t : String} (ht : NumTy.ofName? t = none) : native t = t := by
  rw [native, ht]

include h in
theorem defaultsFor (hs : Supported p) : DefaultsFor p (default p) := by
  intro s hsm m hm
  unfold default
  cases hl : m.isList with
  | true => simp
  | false =>
    simp only [Bool.false_eq_true, if_false]
    cases h.kind (h.types s hsm m hm) with
    | num n e ne num enum struct =>
      rw [enum, struct, num, e]
      refine ⟨.num (zeroOf n), ?_, .num n⟩
      rw [← e, native, num]
      cases n <;> rfl
    | text e num =>
      rw [native_of_none num, e]
      exact ⟨.text, rfl, .text⟩
    | enum e mem name ne num enum =>
      have hb := hs.builtin e.name (by simp [enumNames]; exact .inr ⟨e, mem, rfl⟩)
      rw [native_of_none num, enum, if_neg (name ▸ hb.1), if_neg (name ▸ hb.2), if_neg ne]
      have := (h.enums e mem).nonempty
      cases hv : e.values with
      | nil => exact absurd hv this
      | cons x xs =>
        exact ⟨.entry x.2, by simp [hv], name ▸ DefaultFor.enum (x := x.1) mem (by rw [hv]; rfl)⟩
    | struct s mem name ne num enum struct =>
      have hb := hs.builtin s.name (by simp [structNames]; exact .inl ⟨s, mem, rfl⟩)
      rw [native_of_none num, enum, struct, if_neg (name ▸ hb.1), if_neg (name ▸ hb.2), if_neg ne]
      exact ⟨_, rfl, name ▸ .struct mem⟩

theorem fresh (hs : Supported p) {d : Struct} (hd : d ∈ p.messages) :
    MFresh style p (depth p) d.members ["this"] 0 := by
  refine mfresh_of_loops (g := (· ++ "_i")) (fun _ _ => rfl) (fun _ _ => rfl)
    (fun a b e => (String.append_left_inj _).1 e) ?_
  intro ns hns
  refine ⟨hs.loops d hd ns hns, fun n _ hm => ?_⟩
  rw [List.mem_singleton] at hm
  have := congrArg (fun s => s.toList.getLast?) hm
  simp at this

include h in
theorem read_encoded (hs : Supported p) {m : String} {v : Val} {bs : List UInt8} {b : Buf} {pos : Nat}
    (he : EncMsg p m v bs) (ht : Texts NoBom v) (hat : At b pos bs) :
    read lossy p m b pos = .ok (v, pos + bs.length) :=
  readMessage_encoded h (completeness h hs) (fun _ => funFor h hs) he ht hat

include h in
theorem step_reads (hs : Supported p) (b : Buf) :
    StepReads (taggedStep (takeTag .eof b) (dispatch p) (fun m pos => read lossy p m b pos) .invalid)
      p id (Texts NoBom) b :=
  taggedStep_reads h (fun _ _ _ hat => takeTag_at hat)
    (fun _ _ _ e => messageArms_of_split e)
    (fun m v bs pos he ht hat => by rw [Val.mapNames_id]; exact read_encoded h hs he ht hat)

include h in
/-- The generated TypeScript library satisfies the laws. -/
theorem laws (hs : Supported p) :
    Laws (library lossy p) p id NoBom (fun _ => True) (2 ^ 53) := by
  refine Laws.of_core (L := library lossy p) (header := [bsci]) (count := fun n => .ok (leBytes 4 n))
    (short := .eof) (countFail := .eof) (countTy := .uint32) (limit := fun n => .ok n)
    ?_ ?_ ?_ ?_ ?_ ?_ ?_ ?_ ?_ ?_ ?_ ?_ ?_ ?_ ?_
  · intro pre d post e
    simp [library, messageIndex_of_split h e]
  · intro pre d post e
    exact messageArms_of_split e
  · intro t ht _
    exact dispatch_unknown ht
  · intro pre d post v bs tag e he
    exact writeMessage_encoded h (writes hs) (fun _ => wfunFor h hs) e he tag
  · intro m v bs b pos he ht _ hat
    exact read_encoded h hs he ht hat
  · intro m v bs he hz
    exact sizeMessage_encoded h hs.names.members (measuresText_bytes rfl rfl)
      (fun _ hd _ => fresh hs hd) he hz
  · intro d fs hd hf
    exact makeMessage_spec h (defaultsFor h hs) hd hf
  · exact processLaws_of_steps (fun b _ => step_reads h hs b)
      (finished := fun b pos => decide (b.length ≤ pos)) (fun b pos hp => by simpa using hp)
      (fun b pos hp => by left; simp [hp])
      (fun b pos hat => taggedStep_zero (fun _ _ _ hat => takeTag_at hat) hat)
  · intro ms; rfl
  · intro ms; rfl
  · rfl
  · intro n hn; rw [leBytes_eq]
  · intro b pos; rfl
  · intro n hn; exact .written (littleEndian4 n (by omega))
  · intro n _ hn; rfl

/-! ### Arbitrary data -/

theorem decode_lenient (bs : List UInt8) : Lenient bs (decode lossy bs) := fun hv hn =>
  (decode_valid hv hn).symm

theorem readString_ok {b : Buf} {pos pos' : Nat} {v : Val}
    (hr : readString lossy p b b pos = .ok (v, pos')) :
    ∃ len bs s, v = .str s ∧ At b pos (len ++ bs) ∧ pos' = pos + (len ++ bs).length ∧
      DecNum p.stringSize (.int bs.length) len ∧ Lenient bs s := by
  rw [readString] at hr
  split at hr
  · cases hr
  rw [readNum, readable_readPrim] at hr
  simp only at hr
  split at hr
  · cases hr
  · rename_i i q hq
    obtain ⟨len, h1, h2, h3⟩ := takeNum_ok hq
    split at hr
    · cases hr
    · rename_i hi
      split at hr
      · cases hr
      · rename_i bs q' ht
        cases hr
        obtain ⟨h4, h5, h6⟩ := takeN_ok ht
        have hlen : (bs.length : Int) = i := by omega
        rw [h3] at h4
        refine ⟨len, bs, _, rfl, h1.append h4, ?_, by rw [hlen]; exact h2, decode_lenient bs⟩
        rw [List.length_append]; omega
  · cases hr

include h in
theorem soundness (b : Buf) : Soundness (readSem lossy p b) p (readableBy Lenient) b where
  num _ _ _ hn := hn
  text pos v pos' _ hr := by
    obtain ⟨len, bs, s, rfl, h1, h2, h3, h4⟩ := readString_ok hr
    exact ⟨len, bs, s, rfl, h1, h2, h3, h4⟩
  enum e he i v hv := checkDeclared_ok h he hv
  count i k hi hk := by
    simp only [readSem] at hk
    split at hk
    · cases hk
    · split at hk
      · cases hk
      · cases hk; omega

include h in
theorem polite (hs : Supported p) {E : Fail → Prop} (he : E .eof) (hi : E .invalid) {b : Buf} :
    Polite (readSem lossy p b) p E b where
  text _ pos x hp hr := by
    simp only [readSem, readString, if_neg hs.stringSize, readNum, readable_readPrim] at hr
    split at hr
    · rename_i ht; cases hr; rw [takeNum_error ht]; exact he
    · split at hr
      · cases hr; exact hi
      · split at hr
        · rename_i ht; cases hr; rw [(takeN_error ht).1]; exact he
        · cases hr
    · rename_i r hne hr'
      obtain ⟨cnt, h3, h4, h5⟩ := takeNum_ok (v := r.1) (pos' := r.2) hr'
      obtain ⟨i, hi⟩ := dec_int (integral_of_integerType h.stringSize) h4
      exact absurd (Prod.ext hi rfl : r = (Val.int i, r.2)) (fun e => hne i r.2 e)
  textPos pos v pos' _ hr := by
    obtain ⟨len, bs, s, rfl, h1, h2, _⟩ := readString_ok hr
    have := h1.le
    omega
  enum e he i x hx := by rw [checkDeclared_error h he hx]; exact hi
  count i x hr hx := by
    simp only [readSem, if_neg hs.listSize] at hx
    split at hx
    · cases hx; exact hi
    · cases hx

variable (hs : Supported p)
include h hs

theorem sound : ReadSound (library lossy p) p id (readableBy Lenient) (2 ^ 53) := by
  intro m b pos v pos' hp _ hr
  obtain ⟨bs, h1, h2, h3⟩ := readMessage_sound h (soundness h b) (fun _ => funFor h hs) hp hr
  exact ⟨v, bs, (Val.mapNames_id v).symm, h1, h2, h3⟩

theorem within {E : Fail → Prop} (he : E .eof) (hi : E .invalid) :
    ReadWithin E (library lossy p) p (2 ^ 53) := fun hm hp _ =>
  readMessage_within h he (polite h hs he hi) (fun _ => funFor h hs) hm hp

theorem streamWithin {E : Fail → Prop} (he : E .eof) (hi : E .invalid) :
    StreamWithin E (library lossy p) (2 ^ 53) :=
  streamWithin_tagged (L := library lossy p) (tagFail := .eof) (unknown := .invalid)
    (finished := fun b pos => decide (b.length ≤ pos)) he hi
    (fun _ _ ht => dispatch_known ht) (fun _ _ _ => rfl) (within h hs he hi)

theorem streamRejects : StreamRejects (library lossy p) p NoBom (2 ^ 53) :=
  streamRejects_tagged (L := library lossy p) (tagFail := .eof)
    (unknown := .invalid) (finished := fun b pos => decide (b.length ≤ pos))
    (fun b pos hp => by simpa using hp) (fun _ _ _ => rfl)
    (fun b _ => step_reads h hs b)

omit h hs in
theorem unpackChecks : UnpackChecks (library lossy p) (2 ^ 53) :=
  unpackChecks_with (short := .eof) (countFail := .eof) (limit := fun n => .ok n)
    (proc := process lossy p) (fun _ _ => rfl)

theorem unpackFails {E : Fail → Prop} (he : E .eof) (hi : E .invalid) :
    UnpackFails E (library lossy p) (2 ^ 53) :=
  unpackFails_with (short := .eof) (countFail := .eof) (countTy := .uint32)
    (limit := fun n => .ok n) he he hi rfl (fun _ _ _ _ hx => by cases hx) (fun _ _ => rfl)
    (streamWithin h hs he hi)

end
end TypeScript
end Beschi.Lang
