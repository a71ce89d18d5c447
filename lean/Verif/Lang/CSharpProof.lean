import Mathlib.Data.List.Dedup
import Verif.Lang.CSharp
import Verif.Lang.CommonProof
/-
The C# backend satisfies the laws.
-/
namespace Beschi.Lang
open Spec

namespace CSharp

section
variable {lossy : List UInt8 → List UInt8} {p : Protocol} (h : Usable p)

theorem Supported.names (hs : Supported p) : NamesDistinct p := fun s hb =>
  (List.nodup_append.1 (hs.distinct s hb)).2.1

theorem readable_readPrim (n : NumTy) : readable (readPrim n) = some n := by cases n <;> rfl

theorem primFor (n : NumTy) : PrimFor (readSem lossy p) .eof (readPrim n) n := by
  intro b pos
  simp only [readSem, readNum, readable_readPrim]

include h in
theorem atomFor {t : String} (hk : KnownType p t) :
    AtomFor (readSem lossy p) .eof p t (atom p t) := by
  unfold atom
  cases h.kind hk with
  | num n e ne num enum =>
    rw [if_neg ne, enum, num]; subst e; exact .num (primFor n)
  | text e num => rw [if_pos e]; subst e; exact .text
  | enum e mem name ne num enum =>
    rw [if_neg ne, enum]; subst name; exact .enum mem (primFor _)
  | struct s mem name ne num enum =>
    rw [if_neg ne, enum, num]; subst name; exact .struct mem

include h in
theorem stmtFor {m : Variable} (hk : KnownType p m.vartype) :
    StmtFor (readSem lossy p) .eof p m (deserializer p m) (.mem m.name) := by
  unfold deserializer
  cases hl : m.isList with
  | true => exact .list hl (primFor _) (atomFor h hk)
  | false => exact .one hl (atomFor h hk)

include h in
theorem funFor (hs : Supported p) {s : Struct} (hb : s ∈ bodies p) :
    FunFor (readSem lossy p) .eof p s.members (fromBytes p s) where
  decls := by
    have h1 := hs.outer s hb
    have h2 := hs.inner s hb
    have : (outerNames p s ++ (s.members.flatMap (inner p)).dedup).Nodup := by
      refine List.nodup_append.2 ⟨h1, List.nodup_dedup _, ?_⟩
      intro x hx y hy e
      subst e
      simp only [List.mem_dedup, List.mem_flatMap] at hy
      obtain ⟨m, hm, hy⟩ := hy
      exact h2 m hm x hy hx
    exact this
  body := by
    refine bodyFor_mem (fun m hm => stmtFor h (h.known hb hm)) ?_ (hs.names s hb)
    intro m _ x hx
    unfold deserializer at hx
    cases hl : m.isList <;> rw [hl] at hx <;> simpa [RStmt.locs] using hx

theorem castInt_nat {n : Nat} (hn : n < 2 ^ 31) : castInt n = n := by
  unfold castInt toSigned
  split <;> omega

theorem decode_valid {bs : List UInt8} (hv : ValidUtf8 bs) : decode lossy bs = bs := by
  rw [decode, if_pos (isUtf8_iff.2 hv)]

theorem readString_at {b : Buf} (hb : b.length < 2 ^ 31) {pos : Nat} {len bs : List UInt8}
    (hat : At b pos (len ++ bs)) (hl : DecNum p.stringSize (.int bs.length) len)
    (ht : ValidUtf8 bs) : readString lossy p b pos = .ok (.str bs, pos + (len ++ bs).length) := by
  have e := takeNum_at (e := .eof) hat.left hl
  have hle := hat.le
  simp only [List.length_append] at hle
  rw [readString, readNum, readable_readPrim]
  simp only [e]
  have := takeN_at (e := .eof) hat.right
  unfold takeN at this
  split at this
  · simp only [Except.ok.injEq, Prod.mk.injEq] at this
    rw [castInt_nat (by omega), if_neg (by omega)]
    simp only [Int.toNat_natCast, this.1, decode_valid ht, List.length_append, Nat.add_assoc]
  · cases this

include h in
theorem completeness (hs : p.listSize ≠ .uint64) {b : Buf} (hb : b.length < 2 ^ 31) :
    Completeness (readSem lossy p) p (written.restrict fun _ => True) b where
  num _ _ _ := .written
  text pos len bs s hat hn ht := by
    obtain ⟨⟨rfl, hv⟩, _⟩ := ht
    exact readString_at hb hat (.written hn) hv
  enum e he i j hx := checkDeclared_declared h he hx
  count _ _ _ _ _ _ _ _ := by simp [readSem, hs]

/-! ### Writing -/

theorem writable_native (n : NumTy) : writable (native n) = some n := by cases n <;> rfl

theorem wprimFor (n : NumTy) : WPrimFor (writeSem p) written (native n) n := by
  intro v bs he
  simp only [writeSem, writeNum, writable_native, toLE_of_enc he]

include h in
theorem watomFor {t : String} (hk : KnownType p t) :
    WAtomFor (writeSem p) written p t (watom p t) := by
  unfold watom
  cases h.kind hk with
  | num n e ne num enum => rw [if_neg ne, enum, num]; subst e; exact .num (wprimFor n)
  | text e num => rw [if_pos e]; subst e; exact .text
  | enum e mem name ne num enum =>
    rw [if_neg ne, enum]; subst name; exact .enum mem (wprimFor _)
  | struct s mem name ne num enum =>
    rw [if_neg ne, enum, num]; subst name; exact .struct mem

theorem append_buffer_inj {a b : String} (e : a ++ "_Buffer" = b ++ "_Buffer") : a = b :=
  String.append_left_inj _ |>.1 e

theorem writeLocals_nodup {ms : List Variable} (hd : (ms.map (·.name)).Nodup)
    (ht : ∀ l ∈ ms, l.isList = true → l.vartype = "string" →
      ∀ m ∈ ms, m.isList = false → m.vartype = "string" → m.name ≠ "el") :
    (writeLocals ms).Nodup := by
  refine List.nodup_append.2 ⟨?_, ?_, ?_⟩
  · have h1 : ((ms.filter fun m => !m.isList && m.vartype == "string").map (·.name)).Nodup :=
      hd.sublist (List.Sublist.map _ List.filter_sublist)
    have h2 := h1.map_on (f := (· ++ "_Buffer")) (fun a _ b _ e => append_buffer_inj e)
    rw [List.map_map] at h2
    exact h2
  · split <;> simp
  · intro x hx y hy e
    subst e
    split at hy
    · rename_i hl
      simp only [List.any_eq_true, Bool.and_eq_true, beq_iff_eq] at hl
      obtain ⟨l, h1, h2, h3⟩ := hl
      simp only [List.mem_singleton] at hy
      simp only [List.mem_map, List.mem_filter, Bool.and_eq_true, Bool.not_eq_true', beq_iff_eq] at hx
      obtain ⟨m, ⟨h4, h5, h6⟩, rfl⟩ := hx
      exact ht l h1 h2 h3 m h4 h5 h6 (append_buffer_inj (b := "el") hy)
    · cases hy

theorem classMembers_nodup {s : Struct}
    (hd : (s.name :: methods s ++ s.members.map (·.name)).Nodup) : (classMembers s).Nodup := by
  unfold classMembers methods at *
  cases hm : s.isMessage <;> simpa [hm] using hd

include h in
theorem wfunFor (hs : Supported p) {s : Struct} (hb : s ∈ bodies p) :
    WFunFor (writeSem p) written p s.members (writeBytes p s) where
  decls := by
    refine List.nodup_append.2 ⟨?_, ?_, ?_⟩
    · exact (classMembers_nodup (hs.distinct s hb)).map_on fun a _ b _ e =>
        (String.append_right_inj _).1 e
    · exact (writeLocals_nodup (hs.names s hb) (hs.texts s hb)).map_on fun a _ b _ e =>
        (String.append_right_inj _).1 e
    · intro x hx y hy e
      subst e
      simp only [List.mem_map] at hx hy
      obtain ⟨a, _, rfl⟩ := hx
      obtain ⟨c, _, e⟩ := hy
      have := congrArg (fun s => s.toList.head?) e
      simp at this
  names := hs.names s hb
  body := by
    simp only [writeBytes]
    rw [List.forall₂_map_right_iff, List.forall₂_same]
    intro m hm
    unfold serializer
    cases hl : m.isList with
    | true => exact .list hl (wprimFor _) (watomFor h (h.known hb hm))
    | false => exact .one hl (watomFor h (h.known hb hm))

theorem writes : Writes (writeSem p) p written where
  text len bs s hn ht := by
    obtain ⟨rfl, hv⟩ := ht
    refine ⟨[len, bs], ?_, by simp⟩
    have := wprimFor (p := p) _ _ _ hn
    simp only [writeSem] at this
    simp [writeSem, this, bind, Except.bind, pure, Except.pure]
  count k len _ := by simp [writeSem]
  enum _ _ _ hd := hd.1

/-! ### The laws -/

include h in
theorem defaultsFor : DefaultsFor p (default p) := by
  intro s hs m hm
  unfold default
  cases hl : m.isList with
  | true => simp
  | false =>
    simp only [Bool.false_eq_true, if_false]
    cases h.kind (h.types s hs m hm) with
    | num n e ne num enum struct => rw [if_neg ne, enum, struct, num]; exact ⟨_, rfl, e ▸ .num n⟩
    | text e num => rw [if_pos e, e]; exact ⟨_, rfl, .text⟩
    | enum e mem name ne num enum =>
      rw [if_neg ne, enum]
      have := (h.enums e mem).nonempty
      cases hv : e.values with
      | nil => exact absurd hv this
      | cons x xs =>
        exact ⟨.entry x.2, by simp [hv], name ▸ DefaultFor.enum (x := x.1) mem (by rw [hv]; rfl)⟩
    | struct s mem name ne num enum struct =>
      rw [if_neg ne, enum, struct]
      exact ⟨_, rfl, name ▸ .struct mem⟩

theorem utf16Units_ascii {s : List UInt8} (hs : Ascii s) : utf16Units s = s.length := by
  unfold utf16Units
  rw [List.countP_eq_length.2, List.countP_eq_zero.2]
  · rfl
  · intro b hb
    have := hs b hb
    simp only [decide_eq_true_eq]
    intro hc
    have h1 := UInt8.lt_iff_toNat_lt.1 this
    have h2 := UInt8.le_iff_toNat_le.1 hc
    simp at h1 h2
    omega
  · intro b hb
    simp [hs b hb]

theorem measuresText : MeasuresText style (written.restrict Ascii) where
  sized _ _ _ hn := encNum_length hn
  text bs s ht := by obtain ⟨⟨rfl, _⟩, ha⟩ := ht; exact utf16Units_ascii ha
  texts bs s ht := by obtain ⟨⟨rfl, _⟩, _⟩ := ht; rfl

include h in
theorem read_encoded (hs : Supported p) {m : String} {v : Val} {bs : List UInt8} {b : Buf} {pos : Nat}
    (he : EncMsg p m v bs) (hb : b.length < 2 ^ 31) (hat : At b pos bs) :
    read lossy p m b pos = .ok (v, pos + bs.length) :=
  readMessage_encoded h (completeness h hs.listSize hb) (fun _ => funFor h hs) he
    (texts_true (fun _ => trivial) v) hat

include h in
theorem step_reads (hs : Supported p) {b : Buf} (hb : b.length < 2 ^ 31) :
    StepReads (taggedStep (takeTag .eof b) (dispatch p) (fun m pos => read lossy p m b pos) .invalid)
      p id (Texts fun _ => True) b :=
  taggedStep_reads h (fun _ _ _ hat => takeTag_at hat)
    (fun _ _ _ e => messageArms_of_split e)
    (fun m v bs pos he _ hat => by rw [Val.mapNames_id]; exact read_encoded h hs he hb hat)

include h in
/-- The generated C# library satisfies the laws. -/
theorem laws (hs : Supported p) :
    Laws (library lossy p) p id (fun _ => True) Ascii (2 ^ 31) := by
  refine Laws.of_core (L := library lossy p) (header := [bsci]) (count := fun n => .ok (leBytes 4 n))
    (short := .invalid) (countFail := .crash) (countTy := .uint32) (limit := toInt32)
    ?_ ?_ ?_ ?_ ?_ ?_ ?_ ?_ ?_ ?_ ?_ ?_ ?_ ?_ ?_
  · intro pre d post e
    simp [library, messageIndex_of_split h e]
  · intro pre d post e
    exact messageArms_of_split e
  · intro t ht _
    exact dispatch_unknown ht
  · intro pre d post v bs tag e he
    exact writeMessage_encoded h writes (fun _ => wfunFor h hs) e he tag
  · intro m v bs b pos he _ hb hat
    exact read_encoded h hs he hb hat
  · intro m v bs he hz
    exact sizeMessage_encoded h hs.names.members measuresText (fun _ _ hx => by cases hx) he hz
  · intro d fs hd hf
    exact makeMessage_spec h (defaultsFor h) hd hf
  · exact processLaws_of_steps (fun b hb => step_reads h hs hb)
      (finished := fun b pos => decide (b.length ≤ pos)) (fun b pos hp => by simpa using hp)
      (fun b pos hp => by left; simp [hp])
      (fun b pos hat => taggedStep_zero (fun _ _ _ hat => takeTag_at hat) hat)
  · intro ms; rfl
  · intro ms; rfl
  · rfl
  · intro n _; rw [leBytes_eq]
  · intro b pos; rfl
  · intro n hn; exact .written (littleEndian4 n (by omega))
  · intro n _ hn; rw [toInt32, if_pos (by omega)]

/-! ### Arbitrary data -/

theorem castInt_range {n : NumTy} (hn : n ∈ [NumTy.byte, .uint16]) {i : Int} (hi : IntRange n i) :
    0 ≤ castInt i := by
  simp only [List.mem_cons, List.not_mem_nil, or_false] at hn
  unfold castInt toSigned
  rcases hn with rfl | rfl <;> simp only [IntRange] at hi <;> split <;> omega

include h in
theorem polite (hs : p.listSize ≠ .uint64) {E : Fail → Prop} (he : E .eof) (hi : E .invalid)
    (hc : E .crash ∨ p.stringSize ∈ [NumTy.byte, .uint16]) (b : Buf) :
    Polite (readSem lossy p) p E b where
  text _ pos x hp hr := by
    simp only [readSem, readString, readNum, readable_readPrim] at hr
    split at hr
    · rename_i ht; cases hr; rw [takeNum_error ht]; exact he
    · rename_i i q hq
      obtain ⟨len, h1, h2, h3⟩ := takeNum_ok hq
      split at hr
      · rename_i hneg
        cases hr
        rcases hc with hc | hsz
        · exact hc
        · have := castInt_range hsz (intRange_of_dec h2)
          omega
      · cases hr
    · rename_i r hne hr'
      obtain ⟨cnt, h3, h4, h5⟩ := takeNum_ok (v := r.1) (pos' := r.2) hr'
      obtain ⟨i, hi⟩ := dec_int (integral_of_integerType h.stringSize) h4
      exact absurd (Prod.ext hi rfl : r = (Val.int i, r.2)) (fun e => hne i r.2 e)
  textPos pos v pos' _ hr := by
    simp only [readSem, readString, readNum, readable_readPrim] at hr
    split at hr
    · cases hr
    · rename_i i q hq
      obtain ⟨len, h1, h2, h3⟩ := takeNum_ok hq
      have hle := h1.le
      split at hr
      · cases hr
      · cases hr
        simp only [List.length_take, List.length_drop]
        omega
    · cases hr
  enum e he i x hx := by rw [checkDeclared_error h he hx]; exact hi
  count i x _ hx := by simp [readSem, hs] at hx

variable (hs : Supported p)
include h hs

theorem within {E : Fail → Prop} (he : E .eof) (hi : E .invalid)
    (hc : E .crash ∨ p.stringSize ∈ [NumTy.byte, .uint16]) :
    ReadWithin E (library lossy p) p (2 ^ 31) := fun hm hp _ =>
  readMessage_within h he (polite h hs.listSize he hi hc _) (fun _ => funFor h hs) hm hp

theorem streamWithin {E : Fail → Prop} (he : E .eof) (hi : E .invalid)
    (hc : E .crash ∨ p.stringSize ∈ [NumTy.byte, .uint16]) :
    StreamWithin E (library lossy p) (2 ^ 31) :=
  streamWithin_tagged (L := library lossy p) (tagFail := .eof) (unknown := .invalid)
    (finished := fun b pos => decide (b.length ≤ pos)) he hi
    (fun _ _ ht => dispatch_known ht) (fun _ _ _ => rfl) (within h hs he hi hc)

theorem streamRejects : StreamRejects (library lossy p) p (fun _ => True) (2 ^ 31) :=
  streamRejects_tagged (L := library lossy p) (tagFail := .eof)
    (unknown := .invalid) (finished := fun b pos => decide (b.length ≤ pos))
    (fun b pos hp => by simpa using hp) (fun _ _ _ => rfl)
    (fun _ hb => step_reads h hs hb)

omit h hs in
theorem unpackChecks : UnpackChecks (library lossy p) (2 ^ 31) :=
  unpackChecks_with (short := .invalid) (countFail := .crash) (limit := toInt32)
    (proc := process lossy p) (fun _ _ => rfl)

theorem unpackFails {E : Fail → Prop} (he : E .eof) (hi : E .invalid) (hc : E .crash) :
    UnpackFails E (library lossy p) (2 ^ 31) :=
  unpackFails_with (short := .invalid) (countFail := .crash) (countTy := .uint32)
    (limit := toInt32) hi hc hi rfl
    (fun i e _ _ hx => by unfold toInt32 at hx; split at hx <;> cases hx; exact hc) (fun _ _ => rfl)
    (streamWithin h hs he hi (.inl hc))

end
end CSharp
end Beschi.Lang
