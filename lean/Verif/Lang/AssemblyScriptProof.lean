import Verif.Lang.AssemblyScript
import Verif.Lang.TypeScriptProof
/-
The AssemblyScript backend satisfies the laws, except that packed data of fewer than twelve bytes is
not unpacked.
-/
namespace Beschi.Lang.AssemblyScript
open Spec

section
variable {lossy : List UInt8 → List UInt8} {p : Protocol} (h : Usable p)

theorem Supported.names (hs : Supported p) : NamesDistinct p := fun s hb =>
  (List.nodup_append.1 (hs.distinct s hb)).2.1

theorem primFor (n : NumTy) : PrimFor (readSem lossy p) .eof (readPrim n) n := by
  intro b pos
  simp only [readSem, readNum, TypeScript.readable_readPrim]

include h in
theorem atomFor {t : String} (hk : KnownType p t) :
    AtomFor (readSem lossy p) .eof p t (TypeScript.atom p t) := by
  unfold TypeScript.atom
  cases h.kind hk with
  | num n e ne num enum =>
    rw [if_neg ne, enum, num]; subst e; exact .num (primFor n)
  | text e num => rw [if_pos e]; subst e; exact .text
  | enum e mem name ne num enum =>
    rw [if_neg ne, enum]; subst name; exact .enum mem (primFor _)
  | struct s mem name ne num enum =>
    rw [if_neg ne, enum, num]; subst name; exact .struct mem

include h in
theorem stmtFor {m : Variable} (hk : KnownType p m.vartype) :
    StmtFor (readSem lossy p) .eof p m (TypeScript.deserializer p m) (.mem m.name) := by
  unfold TypeScript.deserializer
  cases hl : m.isList with
  | true => exact .list hl (primFor _) (atomFor h hk)
  | false => exact .one hl (atomFor h hk)

include h in
theorem locals_eq {m : Variable} (hk : KnownType p m.vartype) : locals p m =
    if m.isList then [m.name ++ "_Length"]
    else if (p.enum? m.vartype).isSome ∨ (p.struct? m.vartype).isSome then ["_" ++ m.name]
    else [] := by
  unfold locals
  cases hl : m.isList with
  | true => rfl
  | false =>
    cases h.kind hk with
    | num n e ne num enum struct => simp [ne, enum, num, struct]
    | text e num enum struct => rw [enum, struct]; simp [e]
    | enum e mem name ne num enum => simp [ne, enum]
    | struct s mem name ne num enum struct => simp [ne, enum, num, struct]

include h in
theorem readerNames_eq {s : Struct} (hb : s ∈ bodies p) :
    ("n" ++ s.name) :: s.members.flatMap (locals p) = readerNames p s := by
  unfold readerNames
  congr 1
  exact List.flatMap_congr fun m hm => locals_eq h (h.known hb hm)

include h in
theorem funFor (hs : Supported p) {s : Struct} (hb : s ∈ bodies p) :
    FunFor (readSem lossy p) .eof p s.members (fromBytes p s) where
  decls := by
    simp only [fromBytes]
    rw [readerNames_eq h hb]
    exact hs.locals s hb
  body := by
    refine bodyFor_mem (fun m hm => stmtFor h (h.known hb hm)) ?_ (hs.names s hb)
    intro m _ x hx
    unfold TypeScript.deserializer at hx
    cases hl : m.isList <;> rw [hl] at hx <;> simpa [RStmt.locs] using hx

theorem decode_valid {bs : List UInt8} (hv : ValidUtf8 bs) : decode lossy bs = bs := by
  rw [decode, if_pos (isUtf8_iff.2 hv)]

theorem readString_at (hz : p.stringSize.size ≠ 8) {b : Buf} {pos : Nat} {len bs : List UInt8}
    (hb : b.length < 2 ^ 31)
    (hat : At b pos (len ++ bs)) (hl : DecNum p.stringSize (.int bs.length) len)
    (ht : ValidUtf8 bs) :
    readString lossy p b pos = .ok (.str bs, pos + (len ++ bs).length) := by
  have e := takeNum_at (e := .eof) hat.left hl
  have hle := hat.le
  rw [List.length_append] at hle
  rw [readString, if_neg hz, readNum, TypeScript.readable_readPrim]
  simp only [e]
  rw [if_neg (by omega), if_neg (by omega)]
  simp only [Int.toNat_natCast, takeN_at hat.right, decode_valid ht, List.length_append,
    Nat.add_assoc]

theorem cast_range {n : NumTy} {i : Int} (hr : EnumRange n i) : cast n i = i := by
  unfold cast
  cases n <;> first
    | exact (hr : False).elim
    | (simp only [EnumRange] at hr
       simp only [signed, NumTy.size, Bool.false_and, Bool.true_and]
       norm_num
       try split
       all_goals omega)

include h in
theorem checkEnum_eq (hs : Supported p) {e : Enum} (he : e ∈ p.enums) :
    ∃ least last : Int, (∀ x ∈ e.values, least ≤ x.2 ∧ x.2 ≤ last) ∧ ∀ i, checkEnum p e.name i =
      .ok (.int (if i < least ∨ last + 1 ≤ i then last + 1 else i)) := by
  obtain ⟨h1, pre, x, l, h2, h3, h4⟩ := hs.enums e he
  cases hm : (e.values.map (·.2)).min? with
  | none =>
    rw [List.min?_eq_none_iff] at hm
    simp [h2] at hm
  | some least =>
    rw [List.min?_eq_some_iff] at hm
    refine ⟨least, l, fun y hy => ⟨hm.2 _ (List.mem_map_of_mem hy), h3 y hy⟩, fun i => ?_⟩
    have h5 : e.values.any (fun x => x.1 == "_Unknown") = false := by
      rw [List.any_eq_false]
      intro y hy
      simpa using h1 y hy
    have h6 : e.values.getLast? = some (x, l) := by rw [h2]; simp
    have h7 : (e.values.map (·.2)).min? = some least := by
      rw [List.min?_eq_some_iff]; exact hm
    rw [checkEnum, enum?_of_mem h.enumsDistinct he]
    simp only [h5, h6, h7, cast_range h4, Bool.false_eq_true, if_false]

include h in
theorem checkEnum_declared (hs : Supported p) {e : Enum} (he : e ∈ p.enums) {i : Int} {x : String}
    (hx : (x, i) ∈ e.values) : checkEnum p e.name i = .ok (.int i) := by
  obtain ⟨least, last, h1, h2⟩ := checkEnum_eq h hs he
  have := h1 _ hx
  simp only at this
  rw [h2, if_neg (by omega)]

include h in
theorem completeness (hs : Supported p) {b : Buf} (hb : b.length < 2 ^ 31) :
    Completeness (readSem lossy p) p (written.restrict fun _ => True) b where
  num _ _ _ := .written
  text pos len bs s hat hn ht := by
    obtain ⟨⟨rfl, hv⟩, _⟩ := ht
    exact readString_at hs.stringSize hb hat (.written hn) hv
  enum e he i j hx := by
    obtain ⟨hj, x, hx⟩ := hx
    subst hj
    exact checkEnum_declared h hs he hx
  count _ _ _ _ _ _ _ _ := by simp [readSem, hs.listSize]

/-! ### Writing -/

theorem wprimFor (n : NumTy) : WPrimFor (writeSem p) written (writePrim n) n := by
  intro v bs he
  simp only [writeSem, writeNum, TypeScript.writable_writePrim, toLE_of_enc he]

include h in
theorem watomFor {t : String} (hk : KnownType p t) :
    WAtomFor (writeSem p) written p t (TypeScript.watom p t) := by
  unfold TypeScript.watom
  cases h.kind hk with
  | num n e ne num enum => rw [if_neg ne, enum, num]; subst e; exact .num (wprimFor n)
  | text e num => rw [if_pos e]; subst e; exact .text
  | enum e mem name ne num enum =>
    rw [if_neg ne, enum]; subst name; exact .enum mem (wprimFor _)
  | struct s mem name ne num enum =>
    rw [if_neg ne, enum, num]; subst name; exact .struct mem

theorem classMembers_nodup {s : Struct}
    (hd : (methods s ++ s.members.map (·.name)).Nodup) : (classMembers s).Nodup := by
  refine (List.Perm.nodup_iff ?_).1 hd
  unfold classMembers methods
  have : ∀ (l : List String) (ns : List String),
      ("constructor" :: "writeBytes" :: l ++ ns).Perm ("constructor" :: ns ++ l ++ ["writeBytes"]) := by
    intro l ns
    simp only [List.cons_append, List.append_assoc]
    refine List.Perm.cons _ ?_
    rw [← List.append_assoc]
    refine (List.Perm.cons _ List.perm_append_comm).trans ?_
    exact (List.perm_append_singleton "writeBytes" (ns ++ l)).symm
  exact this _ _

include h in
theorem wfunFor (hs : Supported p) {s : Struct} (hb : s ∈ bodies p) :
    WFunFor (writeSem p) written p s.members (writeBytes p s) where
  decls := classMembers_nodup (hs.distinct s hb)
  names := hs.names s hb
  body := by
    simp only [writeBytes]
    rw [List.forall₂_map_right_iff, List.forall₂_same]
    intro m hm
    unfold TypeScript.serializer
    cases hl : m.isList with
    | true => exact .list hl (wprimFor _) (watomFor h (h.known hb hm))
    | false => exact .one hl (watomFor h (h.known hb hm))

theorem flatten_singletons {α : Type} (s : List α) : (s.map fun x => [x]).flatten = s := by
  induction s with
  | nil => rfl
  | cons x s ih => simp [ih]

theorem writes : Writes (writeSem p) p written where
  text len bs s hn ht := by
    obtain ⟨rfl, hv⟩ := ht
    refine ⟨len :: bs.map fun x => [x], ?_, by rw [List.flatten_cons, flatten_singletons]⟩
    have := wprimFor (p := p) _ _ _ hn
    simp only [writeSem] at this
    simp [writeSem, this, bind, Except.bind, pure, Except.pure]
  count k len _ := by simp [writeSem]
  enum _ _ _ hd := hd.1

/-! ### The laws -/

theorem native_of_none {t : String} (ht : NumTy.ofName? t = none) : native t = t := by
  rw [native, ht]

include h in
theorem defaultsFor (hs : Supported p) : DefaultsFor p (default p) := by
  intro s hsm m hm
  unfold default
  cases hl : m.isList with
  | true => simp
  | false =>
    simp only [Bool.false_eq_true, if_false]
    cases h.kind (h.types s hsm m hm) with
    | num n e ne num enum struct =>
      rw [enum, struct, num, e]
      refine ⟨.num (zeroOf n), ?_, .num n⟩
      rw [← e, native, num]
      cases n <;> rfl
    | text e num =>
      rw [native_of_none num, e]
      exact ⟨.text, rfl, .text⟩
    | enum e mem name ne num enum =>
      have hb := hs.builtin e.name (by simp [enumNames]; exact .inr ⟨e, mem, rfl⟩)
      rw [native_of_none num, enum, if_neg (name ▸ hb.1), if_neg (name ▸ hb.2), if_neg ne]
      have := (h.enums e mem).nonempty
      cases hv : e.values with
      | nil => exact absurd hv this
      | cons x xs =>
        exact ⟨.entry x.2, by simp [hv], name ▸ DefaultFor.enum (x := x.1) mem (by rw [hv]; rfl)⟩
    | struct s mem name ne num enum struct =>
      have hb := hs.builtin s.name (by simp [structNames]; exact .inl ⟨s, mem, rfl⟩)
      rw [native_of_none num, enum, struct, if_neg (name ▸ hb.1), if_neg (name ▸ hb.2), if_neg ne]
      exact ⟨_, rfl, name ▸ .struct mem⟩

theorem fresh (hs : Supported p) {d : Struct} (hd : d ∈ p.messages) :
    MFresh TypeScript.style p (depth p) d.members ["this"] 0 := by
  refine mfresh_of_loops (g := (· ++ "_i")) (fun _ _ => rfl) (fun _ _ => rfl)
    (fun a b e => (String.append_left_inj _).1 e) ?_
  intro ns hns
  refine ⟨hs.loops d hd ns hns, fun n _ hm => ?_⟩
  rw [List.mem_singleton] at hm
  have := congrArg (fun s => s.toList.getLast?) hm
  simp at this

include h in
theorem read_encoded (hs : Supported p) {m : String} {v : Val} {bs : List UInt8} {b : Buf} {pos : Nat}
    (he : EncMsg p m v bs) (ht : Texts (fun _ => True) v) (hb : b.length < 2 ^ 31) (hat : At b pos bs) :
    read lossy p m b pos = .ok (v, pos + bs.length) :=
  readMessage_encoded h (completeness h hs hb) (fun _ => funFor h hs) he ht hat

include h in
theorem step_reads (hs : Supported p) (b : Buf) (hb : b.length < 2 ^ 31) :
    StepReads (quiet (taggedStep (takeTag .eof b) (dispatch p) (fun m pos => read lossy p m b pos) .invalid))
      p id (Texts fun _ => True) b := by
  intro pre d post v bs pos e he ht hat
  rw [quiet, taggedStep_reads h (f := id) (Q := Texts fun _ => True) (fun _ _ _ hat => takeTag_at hat)
    (fun _ _ _ e => messageArms_of_split e)
    (fun m v bs pos he ht hat => by rw [Val.mapNames_id]; exact read_encoded h hs he ht hb hat)
    pre d post v bs pos e he ht hat]

theorem step_end (b : Buf) (pos : Nat) (hp : b.length ≤ pos) :
    quiet (taggedStep (takeTag .eof b) (dispatch p) (fun m pos => read lossy p m b pos) .invalid) pos =
      .ok (.stop pos) := by
  have : b[pos]? = none := List.getElem?_eq_none hp
  simp [quiet, taggedStep, takeTag, this, Fail.reported]

include h in
theorem processLaws (hs : Supported p) : ProcessLaws (process lossy p) p (fun _ => True) (2 ^ 31) :=
  processLaws_of_steps (fun b hb => step_reads h hs b hb)
    (finished := fun b pos => decide (b.length < pos))
    (fun b pos hp => by simp only [decide_eq_false_iff_not]; omega)
    (fun b pos hp => by right; exact step_end b pos (by omega))
    (fun b pos hat => by rw [quiet, taggedStep_zero (fun _ _ _ hat => takeTag_at hat) hat])

include h in
/-- The generated AssemblyScript library satisfies the laws. -/
theorem laws (hs : Supported p) :
    Laws (library lossy p) p id (fun _ => True) (fun _ => True) (2 ^ 31) 12 := by
  refine Laws.of_parts (L := library lossy p) (header := bsci.map fun x => [x])
    (count := fun n => .ok (leBytes 4 n)) ?_ ?_ ?_ ?_ ?_ ?_ ?_ ?_ ?_ ?_ ?_ ?_ ?_
  · intro pre d post e
    simp [library, messageIndex_of_split h e]
  · intro pre d post e
    exact messageArms_of_split e
  · intro t ht _
    exact dispatch_unknown ht
  · intro pre d post v bs tag e he
    exact writeMessage_encoded h writes (fun _ => wfunFor h hs) e he tag
  · intro m v bs b pos he ht hb hat
    exact read_encoded h hs he ht hb hat
  · intro m v bs he hz
    exact sizeMessage_encoded h hs.names.members (measuresText_bytes rfl rfl)
      (fun _ hd _ => fresh hs hd) he hz
  · intro d fs hd hf
    exact makeMessage_spec h (defaultsFor h hs) hd hf
  · exact processLaws h hs
  · intro ms; rfl
  · intro ms; rfl
  · rfl
  · intro n hn; rw [leBytes_eq]
  · intro ms bs b pos hst ht hn hle hl hat
    have hle' := hat.le
    simp only [List.length_append, littleEndian_length, bsci, List.length_cons, List.length_nil] at hle'
    have := unpackWith_law (processLaws h hs (lossy := lossy)).rebase (short := .invalid)
      (countFail := .invalid) (countTy := .uint32) (limit := fun n => .ok n)
      (fun n hn => .written (littleEndian4 n (by omega))) (fun _ _ _ => rfl) hst ht hn hl hat
    simp only [library, unpack]
    rw [if_neg (by omega), this]
    rfl

/-! ### Arbitrary data -/

theorem readString_ok {b : Buf} {pos pos' : Nat} {v : Val}
    (hr : readString lossy p b pos = .ok (v, pos')) :
    ∃ len bs s, v = .str s ∧ At b pos (len ++ bs) ∧ pos' = pos + (len ++ bs).length ∧
      DecNum p.stringSize (.int bs.length) len ∧ (ValidUtf8 bs → bs = s) := by
  rw [readString] at hr
  split at hr
  · cases hr
  rw [readNum, TypeScript.readable_readPrim] at hr
  simp only at hr
  split at hr
  · cases hr
  · rename_i i q hq
    obtain ⟨len, h1, h2, h3⟩ := takeNum_ok hq
    split at hr
    · cases hr
    split at hr
    · cases hr
    · rename_i hi
      split at hr
      · cases hr
      · rename_i bs q' ht
        cases hr
        obtain ⟨h4, h5, h6⟩ := takeN_ok ht
        have hlen : (bs.length : Int) = i := by omega
        rw [h3] at h4
        refine ⟨len, bs, _, rfl, h1.append h4, ?_, by rw [hlen]; exact h2, fun hv => (decode_valid hv).symm⟩
        rw [List.length_append]; omega
  · cases hr

include h in
theorem soundness (hs : Supported p) (b : Buf) : Soundness (readSem lossy p) p loose b where
  num _ _ _ hn := hn
  text pos v pos' _ hr := by
    obtain ⟨len, bs, s, rfl, h1, h2, h3, h4⟩ := readString_ok hr
    exact ⟨len, bs, s, rfl, h1, h2, h3, h4⟩
  enum e he i v hv := by
    obtain ⟨least, last, h1, h2⟩ := checkEnum_eq h hs he
    have hv : checkEnum p e.name i = .ok v := hv
    rw [h2] at hv
    cases hv
    refine ⟨_, rfl, fun ⟨x, hx⟩ => ?_⟩
    have := h1 _ hx
    simp only at this
    rw [if_neg (by omega)]
  count i k hi hk := by
    simp only [readSem] at hk
    split at hk
    · cases hk
    · split at hk
      · cases hk
      · cases hk; omega

include h in
theorem polite (hs : Supported p) {E : Fail → Prop} (he : E .eof)
    (hc : E .crash ∨ p.stringSize ∈ [NumTy.byte, .uint16] ∧ Unsigned p.listSize) {b : Buf} :
    Polite (readSem lossy p) p E b where
  text _ pos x hp hr := by
    simp only [readSem, readString, if_neg hs.stringSize, readNum, TypeScript.readable_readPrim] at hr
    split at hr
    · rename_i ht; cases hr; rw [takeNum_error ht]; exact he
    · rename_i i q hq
      obtain ⟨len, h1, h2, h3⟩ := takeNum_ok hq
      have hi' := intRange_of_dec h2
      split at hr
      · cases hr; exact he
      · split at hr
        · rename_i hbig
          cases hr
          rcases hc with hc | ⟨hsz, _⟩
          · exact hc
          · exfalso
            simp only [List.mem_cons, List.not_mem_nil, or_false] at hsz
            rcases hsz with e | e <;> rw [e] at hi' <;> simp only [IntRange] at hi' <;> omega
        · split at hr
          · rename_i ht; cases hr; rw [(takeN_error ht).1]; exact he
          · cases hr
    · rename_i r hne hr'
      obtain ⟨cnt, h3, h4, h5⟩ := takeNum_ok (v := r.1) (pos' := r.2) hr'
      obtain ⟨i, hi⟩ := dec_int (integral_of_integerType h.stringSize) h4
      exact absurd (Prod.ext hi rfl : r = (Val.int i, r.2)) (fun e => hne i r.2 e)
  textPos pos v pos' _ hr := by
    obtain ⟨len, bs, s, rfl, h1, h2, _⟩ := readString_ok hr
    have := h1.le
    omega
  enum e he i x hx := by
    obtain ⟨least, last, h1, h2⟩ := checkEnum_eq h hs he
    have hx : checkEnum p e.name i = .error x := hx
    rw [h2] at hx
    cases hx
  count i x hr hx := by
    simp only [readSem, if_neg hs.listSize] at hx
    split at hx
    · cases hx
      rcases hc with hc | ⟨_, hl⟩
      · exact hc
      · have := unsigned_nonneg hl hr; omega
    · cases hx

variable (hs : Supported p)
include h hs

theorem sound : ReadSound (library lossy p) p id loose (2 ^ 31) := by
  intro m b pos v pos' hp _ hr
  obtain ⟨bs, h1, h2, h3⟩ := readMessage_sound h (soundness h hs b) (fun _ => funFor h hs) hp hr
  exact ⟨v, bs, (Val.mapNames_id v).symm, h1, h2, h3⟩

theorem within {E : Fail → Prop} (he : E .eof)
    (hc : E .crash ∨ p.stringSize ∈ [NumTy.byte, .uint16] ∧ Unsigned p.listSize) :
    ReadWithin E (library lossy p) p (2 ^ 31) := fun hm hp _ =>
  readMessage_within h he (polite h hs he hc) (fun _ => funFor h hs) hm hp

theorem streamWithin {E : Fail → Prop}
    (hc : E .crash ∨ p.stringSize ∈ [NumTy.byte, .uint16] ∧ Unsigned p.listSize) :
    StreamWithin E (library lossy p) (2 ^ 31) := by
  intro b pos max hp hb
  refine processBytes_within (fun q hq _ => ?_) hp
  have hw := taggedStep_within (E := fun x => x = .eof ∨ x = .invalid ∨ E x) (b := b)
    (tag := takeTag .eof b) (dispatch := dispatch p) (read := fun m pos => read lossy p m b pos)
    (unknown := .invalid) (fun q hq => by
      cases htag : takeTag .eof b q with
      | error x => rw [(takeTag_error htag).1]; exact .inl rfl
      | ok r =>
        obtain ⟨h1, h2, _⟩ := takeTag_ok (t := r.1) (pos' := r.2) htag
        simp only
        omega) (.inr (.inl rfl))
    (fun t m hm q hq => within h hs (.inl rfl) (hc.imp (fun h => .inr (.inr h)) id) (dispatch_known hm) hq hb) hq
  unfold quiet
  split
  · rename_i x hx
    rw [hx] at hw
    rcases hw with rfl | rfl | hw
    · exact ⟨Nat.le_refl _, hq⟩
    · exact ⟨Nat.le_refl _, hq⟩
    · cases x with
      | eof | invalid => exact ⟨Nat.le_refl _, hq⟩
      | _ => exact hw
  · rename_i r hr
    rw [hr] at hw
    cases r <;> exact hw

omit h hs in
theorem unpackChecks : UnpackChecks (library lossy p) (2 ^ 31) := by
  intro b pos ms _ hr
  simp only [library, unpack] at hr
  split at hr
  · cases hr
  · refine unpackWith_ok (short := .invalid) (countFail := .invalid) (limit := fun n => .ok n) ?_
      (process := fun q k => rebased (fun b q => process lossy p b q k) b q)
    generalize unpackWith .invalid .invalid .uint32 (fun n => .ok n)
      (fun q k => rebased (fun b q => process lossy p b q k) b q) b pos = r at hr ⊢
    cases r with
    | error e => simp [thrown] at hr
    | ok r => simpa [thrown] using hr

theorem unpackFails {E : Fail → Prop} (hc : E .crash) : UnpackFails E (library lossy p) (2 ^ 31) := by
  intro b pos e hp hb hr
  simp only [library, unpack] at hr
  split at hr
  · cases hr; exact hc
  · cases hu : unpackWith .invalid .invalid .uint32 (fun n => .ok n)
      (fun q k => rebased (fun b q => process lossy p b q k) b q) b pos with
    | ok r => rw [hu] at hr; cases hr
    | error x =>
      have hx : x = .invalid ∨ E x := by
        refine unpackWith_error (E := fun x => x = .invalid ∨ E x) (.inl rfl) (.inl rfl) rfl
          (fun _ _ _ _ hx => by cases hx) ?_ (.inl rfl) hu
        intro q k x hq hx
        have := StreamWithin.rebase (K := library lossy p)
          (L := { library lossy p with
            process := fun b pos max => rebased (fun b q => process lossy p b q max) b pos })
          (fun _ _ _ => rfl) (streamWithin h hs (.inl hc)) (max := k) hq hb
        simp only at this
        rw [hx] at this
        exact .inr this
      rw [hu] at hr
      simp only [thrown, Except.error.injEq] at hr
      subst hr
      rcases hx with rfl | hx
      · exact hc
      · split
        · exact hc
        · exact hx

end
end Beschi.Lang.AssemblyScript
