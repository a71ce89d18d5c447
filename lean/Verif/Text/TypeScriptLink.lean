import Verif.Syntax.TypeScript
import Verif.Text.TypeScript
import Verif.Text.Follow
import Verif.Text.Lookup
import Verif.Text.TypeScriptLibrary
import Verif.Text.AssemblyScriptLibrary
/-
The text written for TypeScript and AssemblyScript is that of the statements in Verif/Lang/TypeScript.lean and
Verif/Lang/AssemblyScript.lean.
-/
namespace Beschi.Text.TypeScript.Link
set_option linter.unusedSectionVars false
set_option linter.unusedSimpArgs false
open Beschi.Spec Beschi.Lang

/-! ### Names without brackets -/

/-- What `deserializer` makes of a name (typescript.py L52). -/
abbrev clean (x : String) : String := replaceAll x [("[", "_"), ("]", "_")]

theorem clean_toList (x : String) :
    (clean x).toList = x.toList.map fun c => if ']' = (if '[' = c then '_' else c) then '_' else (if '[' = c then '_' else c) := by
  show (replace (replace x "[" "_") "]" "_").toList = _
  unfold replace
  rw [show "[".toList = ['['] from rfl, show "]".toList = [']'] from rfl, show "_".toList = ['_'] from rfl]
  rw [replaceChars_one, String.toList_ofList, String.toList_ofList, replaceChars_one, List.map_map]
  rfl

theorem clean_append (x y : String) : clean (x ++ y) = clean x ++ clean y := by
  apply String.toList_injective
  rw [String.toList_append, clean_toList, clean_toList, clean_toList, String.toList_append, List.map_append]

theorem clean_id {x : String} (h : ∀ c ∈ x.toList, c ≠ '[' ∧ c ≠ ']') : clean x = x := by
  apply String.toList_injective
  rw [clean_toList]
  conv_rhs => rw [← List.map_id x.toList]
  refine List.map_congr_left fun c hc => ?_
  obtain ⟨h1, h2⟩ := h c hc
  simp [h1.symm, h2.symm]

theorem clean_nat (k : Nat) : clean (toString k) = toString k := by
  refine clean_id fun c hc => ?_
  have hd : c.isDigit = true := by
    have h : (toString k).toList = Nat.toDigits 10 k := by
      show (Nat.repr k).toList = _
      simp [Nat.repr]
    rw [h] at hc
    exact Nat.isDigit_of_mem_toDigits (by decide) (by decide) hc
  constructor <;> (rintro rfl; exact absurd hd (by decide))

theorem clean_element {x : String} (h : clean x = x) (k : Nat) :
    clean (x ++ ("[i" ++ (toString k ++ "]"))) = x ++ ("_i" ++ (toString k ++ "_")) := by
  rw [clean_append, clean_append, clean_append, h, clean_nat]
  rfl

variable {w : Writer} {asm : Bool} (ha : w.assembly = asm)
  (T : Table w (fun n => Syntax.TypeScript.typeOf asm n.name) "string")
  (hc : ∀ n : NumTy, w.codec n.name = .ok (Lang.TypeScript.base n))

theorem ts_full (asm : Bool) : (Syntax.TypeScript.sizes asm).Full where
  init := by cases asm <;> decide
  ret n := by simp [Syntax.TypeScript.sizes]
  add n := by simp [Syntax.TypeScript.sizes]
  addCount a n := by simp [Syntax.TypeScript.sizes]
  addText a := by simp [Syntax.TypeScript.sizes]
  addTextPlus k a := by simp [Syntax.TypeScript.sizes]
  loop v t a l hl := by simp [Syntax.TypeScript.sizes] at hl; subst hl; simp
  close := by cases asm <;> decide

theorem least_eq {p : Protocol} (hu : Usable p) {t : String} {e : Enum} (he : e ∈ p.enums) (h : p.enum? t = some e) :
    ∃ x, Writer.minimumPair e = .ok x ∧ x.2 = Syntax.TypeScript.least p t := by
  have key : ∀ (xs : List (String × Int)) (x : String × Int), (Writer.leastPair x xs).2 = (xs.map (·.2)).foldl min x.2 := by
    intro xs
    induction xs with
    | nil => intro x; rfl
    | cons y ys ih =>
      intro x
      rw [Writer.leastPair, ih, List.map_cons, List.foldl_cons]
      congr 1
      split <;> omega
  unfold Syntax.TypeScript.least Writer.minimumPair
  rw [h]
  cases hv : e.values with
  | nil => exact absurd hv (hu.enums e he).nonempty
  | cons x xs =>
    refine ⟨_, rfl, ?_⟩
    rw [key]
    simp [hv, List.min?]

include ha T hc

theorem deserializer_one {n t tmp : String} (ht : asm = true → clean n = tmp) (hk : KnownType w.p t)
    (he : w.p.isEnum t = false) (fuel a : Nat) (acc x : String) :
    Emits w (deserializer w (fuel + 1) ⟨n, t, false⟩ acc) a
      (inside a (Syntax.TypeScript.readAtom asm w.p x tmp (acc ++ n) (Lang.TypeScript.atom w.p t))) a := by
  rw [deserializer, if_neg (by simp)]
  unfold Lang.TypeScript.atom
  cases T.usable.kind hk with
  | num m e ne num enum =>
    subst e
    simp only [beq_iff_eq, ne, if_false, Protocol.isEnum, enum, Option.isSome_none, Bool.false_eq_true, Writer.isNum, num,
      Option.isSome_some, if_true, hc, emit_lift_ok, emit_pure_bind, ha]
    cases asm
    all_goals
      simp only [Bool.false_eq_true, if_false, if_true]
      apply Emits.of_eq
      · emits []
      rows [Syntax.TypeScript.readAtom, Lang.TypeScript.readPrim, Syntax.TypeScript.stop]
  | text e num =>
    subst e
    simp only [beq_self_eq_true, if_true, ha]
    cases asm
    all_goals
      simp only [Bool.false_eq_true, if_false, if_true]
      apply Emits.of_eq
      · emits []
      rows [Syntax.TypeScript.readAtom, Syntax.TypeScript.stop]
  | enum e mem name ne num enum => simp [Protocol.isEnum, enum] at he
  | struct s mem name ne num enum struct =>
    simp only [beq_iff_eq, ne, if_false, he, Bool.false_eq_true, Writer.isNum, num, Option.isSome_none, enum, ha]
    cases asm
    · simp only [Bool.not_false, if_true]
      apply Emits.of_eq
      · emits []
      rows [Syntax.TypeScript.readAtom]
    · simp only [Bool.not_true, Bool.false_eq_true, if_false]
      have ht := ht rfl
      unfold clean at ht
      rw [ht]
      apply Emits.of_eq
      · emits []
      rows [Syntax.TypeScript.readAtom]

theorem enum_atom {t : String} (hk : KnownType w.p t) (he : w.p.isEnum t = true) :
    ∃ e, w.p.enum? t = some e ∧ w.enum t = .ok e ∧ Lang.TypeScript.atom w.p t = .enum (Lang.TypeScript.readPrim e.encoding) t ∧
      (t == "string") = false ∧ e ∈ w.p.enums := by
  unfold Lang.TypeScript.atom
  cases T.usable.kind hk with
  | num m e ne num enum => simp [Protocol.isEnum, enum] at he
  | text e num enum => subst e; simp [Protocol.isEnum, enum] at he
  | enum e mem name ne num enum => exact ⟨e, enum, Table.enum_eq enum, by simp [ne, enum], by simp [ne], mem⟩
  | struct s mem name ne num enum struct => simp [Protocol.isEnum, enum] at he

theorem elementType_eq {t : String} (hk : KnownType w.p t) :
    Syntax.TypeScript.elementType asm (Lang.TypeScript.atom w.p t) = nativeType (fun n => Syntax.TypeScript.typeOf asm n.name) "string" t := by
  unfold Lang.TypeScript.atom nativeType
  cases T.usable.kind hk with
  | num m e ne num enum => subst e; rw [num, enum, if_neg ne]; cases m <;> rfl
  | text e num => subst e; rw [num]; rfl
  | enum e mem name ne num enum => simp [num, ne, enum, Syntax.TypeScript.elementType]
  | struct s mem name ne num enum struct => simp [num, ne, enum, Syntax.TypeScript.elementType]

theorem deserializer_emits {m : Variable} (hb : clean m.name = m.name) (hk : KnownType w.p m.vartype) (k : Nat) (obj : String) :
    Emits w (deserializer w w.p.depth m (obj ++ ".")) k
      (inside k (Syntax.TypeScript.readStmt asm w.p obj k (Lang.TypeScript.deserializer w.p m))) k := by
  unfold Lang.TypeScript.deserializer
  unfold Protocol.depth
  cases hl : m.isList with
  | false =>
    cases he : w.p.isEnum m.vartype with
    | false =>
      obtain ⟨n, t, l⟩ := m; cases hl
      refine (deserializer_one ha T hc (x := n) (fun _ => hb) hk he _ k _).of_eq ?_
      rows [Syntax.TypeScript.readStmt, Syntax.TypeScript.name]
    | true =>
      obtain ⟨e, h0, h1, h2, h3, h4⟩ := enum_atom ha T hc hk he
      obtain ⟨x, h5, h6⟩ := least_eq T.usable h4 h0
      rw [deserializer, if_neg (by simp [hl])]
      simp only [h3, he, h1, h5, h6, Bool.false_eq_true, if_false, if_true, emit_lift_ok, emit_pure_bind, T.type_num, hc, ha]
      have h7 : Syntax.TypeScript.encoding asm w.p m.vartype = Syntax.TypeScript.typeOf asm e.encoding.name := by
        unfold Syntax.TypeScript.encoding; rw [h0]
      cases asm
      all_goals
        simp only [Bool.not_true, Bool.not_false, Bool.false_eq_true, if_false, if_true]
        apply Emits.of_eq
        · emits []
        rows [Syntax.TypeScript.readStmt, Syntax.TypeScript.name, h2, Syntax.TypeScript.readAtom, Syntax.TypeScript.readEnum,
          Lang.TypeScript.readPrim, Syntax.TypeScript.stop, h7]
  | true =>
    cases he : w.p.isEnum m.vartype with
    | false =>
      rw [deserializer, if_pos hl]
      unfold clean at hb
      simp only [hb, he, hc, T.listSize, T.type_num, T.type_known hk, ha, Bool.false_eq_true, if_false, if_true, emit_lift_ok, emit_pure_bind]
      have h1 := clean_element hb k
      cases asm
      all_goals
        simp only [Bool.not_true, Bool.not_false, Bool.false_eq_true, if_false, if_true]
        apply Emits.of_eq
        · emits []
          apply Emits.level
          emits [deserializer_one (x := m.name) (tmp := m.name ++ ("_i" ++ (toString k ++ "_"))) ha T hc
            (fun _ => by rw [← h1]; simp only [toString_cast, str_toString, cat_assoc]) hk he _ _ _]
        rows [Syntax.TypeScript.readStmt, Syntax.TypeScript.name, Syntax.TypeScript.stop, Lang.TypeScript.readPrim, toString_cast, elementType_eq ha T hc hk]
    | true =>
      obtain ⟨e, h0, h1, h2, h3, h4⟩ := enum_atom ha T hc hk he
      obtain ⟨x, h5, h6⟩ := least_eq T.usable h4 h0
      rw [deserializer, if_pos hl]
      unfold clean at hb
      have h7 : Syntax.TypeScript.encoding asm w.p m.vartype = Syntax.TypeScript.typeOf asm e.encoding.name := by
        unfold Syntax.TypeScript.encoding; rw [h0]
      have h8 : nativeType (fun n => Syntax.TypeScript.typeOf asm n.name) "string" m.vartype = m.vartype :=
        (elementType_eq ha T hc hk).symm.trans (by rw [h2]; rfl)
      simp only [hb, he, h1, h5, h6, hc, T.listSize, T.type_num, T.type_known hk, ha, Bool.false_eq_true, if_false, if_true, emit_lift_ok, emit_pure_bind]
      cases asm
      all_goals
        simp only [Bool.not_true, Bool.not_false, Bool.false_eq_true, if_false, if_true]
        apply Emits.of_eq
        · emits []
          apply Emits.level
          emits []
        rows [Syntax.TypeScript.readStmt, Syntax.TypeScript.name, h2, Syntax.TypeScript.readAtom, Syntax.TypeScript.readEnum,
          Lang.TypeScript.readPrim, Syntax.TypeScript.stop, Syntax.TypeScript.elementType, h7, h8, toString_cast]

theorem serializer_one {n t : String} (hk : KnownType w.p t) (fuel a : Nat) (acc : String) :
    Emits w (serializer w (fuel + 1) ⟨n, t, false⟩ acc) a
      (inside a (Syntax.TypeScript.writeAtom asm (Syntax.TypeScript.conversion asm w.p t) (acc ++ n) (Lang.TypeScript.watom w.p t))) a := by
  rw [serializer, if_neg (by simp)]
  unfold Lang.TypeScript.watom Syntax.TypeScript.conversion
  cases T.usable.kind hk with
  | num m e ne num enum =>
    subst e
    simp only [beq_iff_eq, ne, if_false, Protocol.isEnum, enum, Option.isSome_none, Bool.false_eq_true, Writer.isNum, num,
      Option.isSome_some, if_true, hc, emit_lift_ok, emit_pure_bind, ha, Bool.and_false]
    cases asm
    all_goals
      simp only [Bool.false_eq_true, if_false, if_true]
      apply Emits.of_eq
      · emits []
      rows [Syntax.TypeScript.writeAtom, Lang.TypeScript.writePrim, Syntax.TypeScript.stop]
  | text e num =>
    subst e
    simp only [beq_self_eq_true, if_true, ha]
    cases asm
    all_goals
      simp only [Bool.false_eq_true, if_false, if_true]
      apply Emits.of_eq
      · emits []
      rows [Syntax.TypeScript.writeAtom, Syntax.TypeScript.stop]
  | enum e mem name ne num enum =>
    simp only [beq_iff_eq, ne, if_false, Protocol.isEnum, enum, Option.isSome_some, if_true, hc, T.type_num, Table.enum_eq enum, emit_lift_ok,
      emit_pure_bind, ha, Bool.and_true, Syntax.TypeScript.encoding]
    cases asm
    all_goals
      simp only [Bool.not_true, Bool.not_false, Bool.false_eq_true, if_false, if_true]
      apply Emits.of_eq
      · emits []
      rows [Syntax.TypeScript.writeAtom, Lang.TypeScript.writePrim, Syntax.TypeScript.stop]
  | struct s mem name ne num enum struct =>
    simp only [beq_iff_eq, ne, if_false, Protocol.isEnum, Bool.false_eq_true, Writer.isNum, num, Option.isSome_none, enum, ha, Bool.and_false]
    cases asm
    all_goals
      simp only [Bool.not_true, Bool.not_false, Bool.false_eq_true, if_false, if_true]
      apply Emits.of_eq
      · emits []
      rows [Syntax.TypeScript.writeAtom]

theorem serializer_emits {m : Variable} (hk : KnownType w.p m.vartype) (k : Nat) :
    Emits w (serializer w w.p.depth m "this.") k
      (inside k (Syntax.TypeScript.writeStmt asm w.p (Syntax.TypeScript.conversion asm w.p m.vartype) (Lang.TypeScript.serializer w.p m))) k := by
  unfold Lang.TypeScript.serializer
  unfold Protocol.depth
  cases hl : m.isList with
  | false =>
    obtain ⟨n, t, l⟩ := m; cases hl
    refine (serializer_one ha T hc hk _ k _).of_eq ?_
    rows [Syntax.TypeScript.writeStmt]
  | true =>
    rw [serializer, if_pos hl]
    simp only [hc, T.type_num, ha, emit_lift_ok, emit_pure_bind]
    cases asm
    all_goals
      simp only [Bool.not_true, Bool.not_false, Bool.false_eq_true, if_false, if_true]
      apply Emits.of_eq
      · emits [serializer_one ha T hc hk _ _ _]
      rows [Syntax.TypeScript.writeStmt, Lang.TypeScript.writePrim, Syntax.TypeScript.stop]

theorem genMeasurement_step (hb : ∀ s ∈ w.p.structs ++ w.p.messages, ∀ m ∈ s.members, clean m.name = m.name)
    {fuel lvl : Nat} {s : Struct} (hs : s ∈ w.p.structs ++ w.p.messages) {at_ : MPath}
    (ih : ∀ {v s'} {at_ : MPath} {lvl : Nat}, v ∈ s.members → s' ∈ w.p.structs → w.p.struct? v.vartype = some s' →
      ∃ ls n, measureStruct Lang.TypeScript.style w.p fuel s' at_ lvl = some (ls, n) ∧
        genMeasurement w fuel s' (Syntax.path at_ ++ ".") = pure ((Syntax.TypeScript.sizes asm).texts w.tab ls, n)) :
    ∃ ls n, measureStruct Lang.TypeScript.style w.p (fuel + 1) s at_ lvl = some (ls, n) ∧
      genMeasurement w (fuel + 1) s (Syntax.path at_ ++ ".") = pure ((Syntax.TypeScript.sizes asm).texts w.tab ls, n) := by
  rw [genMeasurement, measureStruct]
  simp only [structSimple_eq T.usable hs, emit_lift_ok, emit_pure_bind]
  by_cases hz : w.p.simpleStruct s = true
  · refine ⟨_, _, by rw [if_pos hz], ?_⟩
    simp only [hz, if_true, sizeOf_struct_eq T.usable hs hz, emit_lift_ok, emit_pure_bind]
    texts [texts_one, Syntax.SizeSyntax.line, Syntax.TypeScript.sizes, Row.shown, repeated]
  · rw [if_neg hz, if_neg hz]
    rw [emit_eta fun _ => rfl]
    have hi : (do
        if !w.assembly then
          let sizeInit := "let size: number = 0;"
          pure sizeInit
        else
          let sizeInit := "let size: usize = 0;"
          pure sizeInit : Emit String) = pure (Syntax.TypeScript.sizes asm).init := by
      rw [ha]; cases asm <;> rfl
    rw [hi]
    rw [emit_pure_bind]
    refine measured_struct (fun m hm => ?_) (by simp [texts_one, Syntax.SizeSyntax.line, flush, Row.shown, repeated]) (fun x => rfl)
    have hk := T.usable.types s hs m hm
    have hb := hb s hs m hm
    unfold clean at hb
    unfold measureMember
    cases hl : m.isList with
    | true =>
      simp only [simple_eq T.usable hk (.inr rfl), emit_lift_ok, emit_pure_bind, if_true]
      by_cases hs : w.p.simpleVar m true = true
      · refine ⟨_, _, if_pos hs, fun n ls => ?_⟩
        rw [if_pos hs, sizeOf_eq T.usable hk (.inr rfl) hs]
        texts [texts_one, Syntax.SizeSyntax.line, Syntax.TypeScript.sizes, Row.shown, repeated, path_dot]
      rw [if_neg hs]
      by_cases ht : m.vartype = "string"
      · refine ⟨_, _, if_pos ht, fun n ls => ?_⟩
        rw [if_neg hs, if_pos (by simp [ht]), texts_loop (ts_full asm), texts_one]
        cases asm <;>
          texts [ha, Bool.not_false, Bool.not_true, Syntax.SizeSyntax.line, Syntax.TypeScript.sizes, Syntax.TypeScript.bytes, Row.shown, repeated, path_dot, path_at, Lang.TypeScript.style, MStyle.element]
      rw [if_neg ht]
      obtain ⟨s', h1, h2, h3⟩ := struct_varying T.usable hk (.inr rfl) hs ht
      obtain ⟨ls, n, h4, h5⟩ := ih (at_ := (at_.dot m.name).at (m.name ++ "_i")) (lvl := lvl + 1) hm h1 h2
      obtain ⟨ls, rfl⟩ := measured_init h3 h4
      refine ⟨_, _, by simp only [h2]; rw [show Lang.TypeScript.style.element (Lang.TypeScript.style.loopVar m.name lvl) (at_.dot m.name) = (at_.dot m.name).at (m.name ++ "_i") from rfl, h4], fun k lines => ?_⟩
      rw [if_neg hs, if_neg (by simpa using ht), texts_loop (ts_full asm)]
      have h6 : genMeasurement w fuel s' (toString (Syntax.path at_ ++ ".") ++ toString m.name ++ toString "[" ++ toString m.name ++ toString "_i].") =
          pure ((Syntax.TypeScript.sizes asm).texts w.tab (.init :: ls), n) := by
        rw [← h5, path_at, path_dot]
        simp only [str_toString, cat_assoc]
        rfl
      simp only [hb, struct_eq h2, emit_lift_ok, emit_pure_bind, h6, texts_cons, texts_append, texts_nil, dropInit, MLine.isInit, if_true]
      generalize (Syntax.TypeScript.sizes asm).texts w.tab ls = X
      texts [Syntax.SizeSyntax.line, Syntax.TypeScript.sizes, Row.shown, repeated, path_dot, Lang.TypeScript.style, headLine, texts_one, dropInit, MLine.isInit]
    | false =>
      simp only [simple_eq T.usable hk (.inl hl), emit_lift_ok, emit_pure_bind, if_false, Bool.false_eq_true]
      by_cases hs : w.p.simpleVar m false = true
      · refine ⟨_, _, if_pos hs, fun n ls => ?_⟩
        rw [if_pos hs, sizeOf_eq T.usable hk (.inl hl) hs]
        texts [Syntax.SizeSyntax.texts, Syntax.SizeSyntax.lines]
      rw [if_neg hs]
      by_cases ht : m.vartype = "string"
      · refine ⟨_, _, if_pos ht, fun n ls => ?_⟩
        rw [if_neg hs, if_pos (by simp [ht]), texts_one]
        cases asm <;>
          texts [ha, Bool.not_false, Bool.not_true, Syntax.SizeSyntax.line, Syntax.TypeScript.sizes, Syntax.TypeScript.bytes, Row.shown, repeated, path_dot]
      rw [if_neg ht]
      obtain ⟨s', h1, h2, h3⟩ := struct_varying T.usable hk (.inl hl) hs ht
      obtain ⟨ls, n, h4, h5⟩ := ih (at_ := at_.dot m.name) (lvl := lvl) hm h1 h2
      obtain ⟨ls, rfl⟩ := measured_init h3 h4
      refine ⟨_, _, by simp only [h2]; rw [show (if Lang.TypeScript.style.inlineDeeper then lvl + 1 else lvl) = lvl from rfl, h4], fun k lines => ?_⟩
      rw [if_neg hs, if_neg (by simpa using ht)]
      have h6 : genMeasurement w fuel s' (toString (Syntax.path at_ ++ ".") ++ toString m.name ++ toString ".") =
          pure ((Syntax.TypeScript.sizes asm).texts w.tab (.init :: ls), n) := by
        rw [path_dot] at h5; exact h5
      simp only [struct_eq h2, emit_lift_ok, emit_pure_bind, h6, texts_cons, dropInit, MLine.isInit, if_true]
      generalize (Syntax.TypeScript.sizes asm).texts w.tab ls = X
      texts [Syntax.SizeSyntax.line, Syntax.TypeScript.sizes, Row.shown, repeated, headLine, dropInit, MLine.isInit]

theorem genMeasurement_eq (hb : ∀ s ∈ w.p.structs ++ w.p.messages, ∀ m ∈ s.members, clean m.name = m.name)
    (fuel : Nat) {lvl : Nat} {s : Struct} (hs : s ∈ w.p.structs ++ w.p.messages)
    (hf : ∀ v ∈ s.members, fits w.p fuel v.vartype) {at_ : MPath} :
    ∃ ls n, measureStruct Lang.TypeScript.style w.p (fuel + 1) s at_ lvl = some (ls, n) ∧
      genMeasurement w (fuel + 1) s (Syntax.path at_ ++ ".") = pure ((Syntax.TypeScript.sizes asm).texts w.tab ls, n) := by
  induction fuel generalizing s at_ lvl with
  | zero => exact genMeasurement_step ha T hc hb hs (fun hv _ he => absurd (he.symm.trans (hf _ hv)) (by simp))
  | succ fuel ih => exact genMeasurement_step ha T hc hb hs (fun hv hs' he => ih (by simp [hs']) (hf _ hv _ he))

theorem measureFun_eq (hb : ∀ s ∈ w.p.structs ++ w.p.messages, ∀ m ∈ s.members, clean m.name = m.name)
    {s : Struct} (hs : s ∈ w.p.structs ++ w.p.messages) :
    ∃ ls n, genMeasurement w w.p.depth s "this." = pure ((Syntax.TypeScript.sizes asm).texts w.tab ls, n) ∧
      measureFun Lang.TypeScript.style w.p s "this" 0 =
        some ⟨if n > 0 then ls ++ [.add n] else ls, decide (((Syntax.TypeScript.sizes asm).texts w.tab ls).length > 1)⟩ := by
  obtain ⟨ls, n, h1, h2⟩ := genMeasurement_eq ha T hc hb (w.p.structs.length + 1) (lvl := 0) hs
    (fun v _ => fits_succ (T.usable.fits v.vartype)) (at_ := ⟨"this", []⟩)
  refine ⟨ls, n, h2, ?_⟩
  unfold measureFun
  have : depth w.p = w.p.structs.length + 1 + 1 := rfl
  rw [this, h1, measured_length h1]
  rfl

/-! ### Structs and messages -/

omit ha T hc in
theorem typeOf_own (asm : Bool) {t : String} (h : NumTy.ofName? t = none) : Syntax.TypeScript.typeOf asm t = t := by
  unfold Syntax.TypeScript.typeOf Lang.AssemblyScript.native Lang.TypeScript.native
  rw [h]
  cases asm <;> rfl

omit ha T hc in
theorem typeOf_eq (asm : Bool) (t : String) :
    nativeType (fun n => Syntax.TypeScript.typeOf asm n.name) "string" t = Syntax.TypeScript.typeOf asm t := by
  unfold nativeType
  cases h : NumTy.ofName? t with
  | some n => rw [ofName?_some h]
  | none =>
    rw [typeOf_own asm h]
    by_cases ht : t = "string"
    · simp [ht]
    · simp [ht]

theorem member_emits {m : Variable} (hk : KnownType w.p m.vartype) (a : Nat) :
    Emits w (do
      if m.isList then
        w.line s!"{m.name}: {← w.type m.vartype}[] = [];"
      else
        let defaultValue : Option String := some "0"
        let defaultValue ← (do
          if (← w.type m.vartype) == "bigint" then
            let defaultValue : Option String := some "0n"
            pure defaultValue
          else if (← w.type m.vartype) == "boolean" then
            let defaultValue : Option String := some "false"
            pure defaultValue
          else if (← w.type m.vartype) == "string" then
            let defaultValue : Option String := some "\"\""
            pure defaultValue
          else if w.p.isEnum m.vartype then
            let e ← w.enum m.vartype
            let defaultValue : Option String := some (s!"{m.vartype}.{(← Writer.defaultPair e).1}")
            pure defaultValue
          else if w.p.isStruct m.vartype then
            let defaultValue : Option String := some (s!"new {m.vartype}()")
            pure defaultValue
          else
            pure defaultValue)
        w.line s!"{m.name}: {← w.type m.vartype}{(if (defaultValue.getD "") != "" then s!" = {defaultValue.getD "None"}" else "")};") a
      [⟨a, Syntax.TypeScript.member asm w.p m⟩] a := by
  simp only [T.type_known hk, typeOf_eq, emit_lift_ok, emit_pure_bind]
  unfold Syntax.TypeScript.member Syntax.TypeScript.initialValue Lang.AssemblyScript.default Lang.TypeScript.default
  cases hl : m.isList with
  | true =>
    simp only [if_true]
    refine (Emits.line _).of_eq ?_
    cases asm <;> rows [Syntax.InitialSyntax.expr, Syntax.TypeScript.initial, false_and]
  | false =>
    simp only [Bool.false_eq_true, if_false]
    cases T.usable.kind hk with
    | num n e ne num enum hs =>
      simp only [num, Protocol.isEnum, Protocol.isStruct, Option.isSome_none, Bool.false_eq_true, if_false, enum, hs,
        Syntax.TypeScript.typeOf, Lang.AssemblyScript.native, Lang.TypeScript.native]
      cases n <;> cases asm <;>
        (simp
         refine (Emits.line _).of_eq ?_
         texts [Syntax.InitialSyntax.expr, Syntax.TypeScript.initial, zeroOf, show Int.repr 0 = "0" from rfl])
    | text e num enum hs =>
      simp only [num, Syntax.TypeScript.typeOf, Lang.AssemblyScript.native, Lang.TypeScript.native]
      cases asm <;>
        (simp [e]
         refine (Emits.line _).of_eq ?_
         texts [Syntax.InitialSyntax.expr, Syntax.TypeScript.initial])
    | enum e mem name ne num enum =>
      obtain ⟨x, h2, h3, h4⟩ := default_pair T.usable mem
      simp only [num, Syntax.TypeScript.typeOf, Lang.AssemblyScript.native, Lang.TypeScript.native, Protocol.isEnum, enum,
        Table.enum_eq enum, h2, h4, ne, beq_iff_eq, if_false, Option.isSome_some, if_true, emit_lift_ok, emit_pure_bind]
      by_cases hi : m.vartype = "bigint"
      · cases asm <;>
          (simp [hi]
           refine (Emits.line _).of_eq ?_
           texts [Syntax.InitialSyntax.expr, Syntax.TypeScript.initial])
      by_cases hb : m.vartype = "boolean"
      · cases asm <;>
          (simp [hb]
           refine (Emits.line _).of_eq ?_
           texts [Syntax.InitialSyntax.expr, Syntax.TypeScript.initial])
      cases asm <;>
        (simp [hi, hb, ne]
         refine (Emits.line _).of_eq ?_
         texts [Syntax.InitialSyntax.expr, Syntax.TypeScript.initial, entryName_default enum h4])
    | struct s mem name ne num enum struct =>
      simp only [num, Syntax.TypeScript.typeOf, Lang.AssemblyScript.native, Lang.TypeScript.native, Protocol.isEnum, enum,
        Protocol.isStruct, struct, Option.isSome_none, Bool.false_eq_true,
        ne, beq_iff_eq, if_false, Option.isSome_some, if_true, emit_lift_ok, emit_pure_bind]
      by_cases hi : m.vartype = "bigint"
      · cases asm <;>
          (simp [hi]
           refine (Emits.line _).of_eq ?_
           texts [Syntax.InitialSyntax.expr, Syntax.TypeScript.initial])
      by_cases hb : m.vartype = "boolean"
      · cases asm <;>
          (simp [hb]
           refine (Emits.line _).of_eq ?_
           texts [Syntax.InitialSyntax.expr, Syntax.TypeScript.initial])
      cases asm <;>
        (simp [hi, hb, ne]
         refine (Emits.line _).of_eq ?_
         texts [Syntax.InitialSyntax.expr, Syntax.TypeScript.initial])

theorem genEnum_emits (e : Enum) (a : Nat) :
    Emits w (genEnum w e.name e) a (inside a (Syntax.TypeScript.enum asm e ++ flush [""])) a := by
  unfold genEnum
  rw [ha]
  apply Emits.of_eq
  · emits [Emits.each fun x _ => Emits.line _, Emits.ite (fun _ => Emits.line _) (fun _ => Emits.pure)]
  cases asm <;> rows [Syntax.TypeScript.enum]

theorem genStruct_emits (hb : ∀ s ∈ w.p.structs ++ w.p.messages, ∀ m ∈ s.members, clean m.name = m.name)
    {s : Struct} (hs : s ∈ w.p.structs ++ w.p.messages) (a : Nat) :
    ∃ sz, measureFun Lang.TypeScript.style w.p s "this" 0 = some sz ∧
      Emits w (genStruct w s.name s) a (inside a (Syntax.TypeScript.type asm w.p a s sz ++ flush [""])) a := by
  obtain ⟨ls, n, h1, h2⟩ := measureFun_eq ha T hc hb hs
  refine ⟨_, h2, ?_⟩
  unfold genStruct
  have hk := T.usable.types s hs
  have hb := hb s hs
  have ht : w.type s.name = .ok s.name := by
    rcases List.mem_append.1 hs with h | h
    · exact T.type_struct h
    · exact T.type_message h
  have hl : ∀ a, inside a ((Syntax.TypeScript.sizes asm).lines (if n > 0 then ls ++ [MLine.add n] else ls)) =
      inside a ((Syntax.TypeScript.sizes asm).lines ls) ++ if n > 0 then [⟨a, s!"size += {n};"⟩] else [] := by
    intro a
    split
    · rw [lines_append, inside_append]
      congr 1
      simp [Syntax.SizeSyntax.lines, Syntax.SizeSyntax.line, Syntax.TypeScript.sizes, inside, flush, str_toString]
    · rw [List.append_nil]
  rw [h1]
  simp only [ht, emit_lift_ok, emit_pure_bind]
  cases hm : s.isMessage with
  | true =>
    cases asm with
    | false =>
      simp only [ha, if_true, if_false, Bool.not_false, Bool.false_eq_true, Bool.and_true, Bool.true_and, emit_pure_bind]
      apply Emits.of_eq
      · emits [Emits.each fun m hm => member_emits ha T hc (hk m hm) _,
          Emits.each fun m hm => deserializer_emits ha T hc (hb m hm) (hk m hm) _ _,
          Emits.each fun m hm => serializer_emits ha T hc (hk m hm) _,
          Emits.texts ls _,
          Emits.ite (fun _ => Emits.line _) (fun _ => Emits.pure)]
      rows [Syntax.TypeScript.type, Syntax.TypeScript.size, Syntax.TypeScript.reader, Syntax.TypeScript.readBody,
        Syntax.TypeScript.writer, hm, hl, Lang.TypeScript.fromBytes, Lang.TypeScript.writeBytes, Syntax.TypeScript.stop, zip_map]
    | true =>
      simp only [ha, if_true, if_false, Bool.not_true, Bool.false_eq_true, Bool.and_false, emit_pure_bind]
      apply Emits.of_eq
      · emits [Emits.each fun m hm => member_emits ha T hc (hk m hm) _,
          Emits.each fun m hm => deserializer_emits ha T hc (hb m hm) (hk m hm) _ _,
          Emits.each fun m hm => serializer_emits ha T hc (hk m hm) _,
          Emits.texts ls _,
          Emits.ite (fun _ => Emits.line _) (fun _ => Emits.pure)]
      rows [Syntax.TypeScript.type, Syntax.TypeScript.size, Syntax.TypeScript.reader, Syntax.TypeScript.readBody,
        Syntax.TypeScript.writer, hm, hl, Lang.AssemblyScript.fromBytes, Lang.AssemblyScript.writeBytes, Syntax.TypeScript.stop, zip_map]
  | false =>
    cases asm with
    | false =>
      simp only [ha, if_true, if_false, Bool.not_false, Bool.false_eq_true, Bool.and_true, Bool.false_and, emit_pure_bind]
      apply Emits.of_eq
      · emits [Emits.each fun m hm => member_emits ha T hc (hk m hm) _,
          Emits.each fun m hm => deserializer_emits ha T hc (hb m hm) (hk m hm) _ _,
          Emits.each fun m hm => serializer_emits ha T hc (hk m hm) _]
      rows [Syntax.TypeScript.type, Syntax.TypeScript.reader, Syntax.TypeScript.readBody,
        Syntax.TypeScript.writer, hm, Lang.TypeScript.fromBytes, Lang.TypeScript.writeBytes, Syntax.TypeScript.stop, zip_map]
    | true =>
      simp only [ha, if_true, if_false, Bool.not_true, Bool.false_eq_true, Bool.and_false, emit_pure_bind]
      apply Emits.of_eq
      · emits [Emits.each fun m hm => member_emits ha T hc (hk m hm) _,
          Emits.each fun m hm => deserializer_emits ha T hc (hb m hm) (hk m hm) _ _,
          Emits.each fun m hm => serializer_emits ha T hc (hk m hm) _]
      rows [Syntax.TypeScript.type, Syntax.TypeScript.reader, Syntax.TypeScript.readBody,
        Syntax.TypeScript.writer, hm, Lang.AssemblyScript.fromBytes, Lang.AssemblyScript.writeBytes, Syntax.TypeScript.stop, zip_map]

/-! ### The file -/

omit ha T hc in
/-- What the file contains; `k` is how far inside. -/
def Contained (asm : Bool) (p : Protocol) (k : Nat) (rs : List Row) : Prop :=
  (∃ e ∈ p.enums, rs = Syntax.TypeScript.enum asm e) ∨
  (∃ s ∈ p.structs ++ p.messages, ∃ sz, measureFun Lang.TypeScript.style p s "this" 0 = some sz ∧
    rs = Syntax.TypeScript.type asm p k s sz) ∨
  rs = Syntax.TypeScript.messageTypes asm (messageArms p 1) ∨
  rs = Syntax.TypeScript.process asm (messageArms p 1)

variable (hb : ∀ s ∈ w.p.structs ++ w.p.messages, ∀ m ∈ s.members, clean m.name = m.name) {rs : List Row} (k : Nat)

theorem enums_steps : Steps (each w.p.enums fun e => genEnum w e.name e) k k Any :=
  .each fun e _ => (genEnum_emits ha T hc e k).steps

theorem enums_puts {e : Enum} (he : e ∈ w.p.enums) :
    Puts w.tab (each w.p.enums fun e => genEnum w e.name e) k (inside k (Syntax.TypeScript.enum asm e)) :=
  .each (fun e _ => (genEnum_emits ha T hc e k).steps) he
    ((genEnum_emits ha T hc e k).puts (by rw [inside_append]; exact (List.prefix_append _ _).isInfix))

include hb

theorem structs_steps {l : List Struct} (h : ∀ s ∈ l, s ∈ w.p.structs ++ w.p.messages) :
    Steps (each l fun s => genStruct w s.name s) k k Any :=
  .each fun s hs => (genStruct_emits ha T hc hb (h s hs) k).choose_spec.2.steps

theorem structs_puts {l : List Struct} (h : ∀ s ∈ l, s ∈ w.p.structs ++ w.p.messages)
    {s : Struct} (hs : s ∈ l) {sz : MFun} (hz : measureFun Lang.TypeScript.style w.p s "this" 0 = some sz) :
    Puts w.tab (each l fun s => genStruct w s.name s) k (inside k (Syntax.TypeScript.type asm w.p k s sz)) := by
  refine .each (fun s hs => (genStruct_emits ha T hc hb (h s hs) k).choose_spec.2.steps) hs ?_
  obtain ⟨sz', h1, h2⟩ := genStruct_emits ha T hc hb (h s hs) k
  cases hz.symm.trans h1
  exact h2.puts (by rw [inside_append]; exact (List.prefix_append _ _).isInfix)

/-- The part of the file that can be inside a namespace. -/
theorem inner_puts {rest : Unit → Emit Unit} {j : Nat} (hr : Steps (rest ()) k j Any) (h : Contained asm w.p k rs) :
    Puts w.tab (do
      w.line "export enum MessageType {"
      shift 1
      each w.p.messages.zipIdx fun x => w.line s!"{x.1.name}Type = {(x.2 + 1)},"
      (do
        if w.assembly then
          w.line "_Unknown,")
      shift (-1)
      w.line "}"
      w.blank
      (do
        if !w.assembly then
          w.line "export function ProcessRawBytes(data: DataView|DataAccess, max: number): Message[] {"
          shift 1
          w.line "if (max === undefined) {"
          shift 1
          w.line "max = -1;"
          shift (-1)
          w.line "}"
          w.line "let da: DataAccess;"
          w.line "if (data instanceof DataView) {"
          shift 1
          w.line "da = new DataAccess(data);"
          shift (-1)
          w.line "}"
          w.line "else {"
          shift 1
          w.line "da = data;"
          shift (-1)
          w.line "}"
        else
          w.line "export function ProcessRawBytes(data: DataView, max: number): Message[] {"
          shift 1
          w.line "const da = new DataAccess(data);"
          w.line "return ProcessRawBytesDA(da, max);"
          shift (-1)
          w.line "}"
          w.blank
          w.line "export function ProcessRawBytesDA(da: DataAccess, max: number): Message[] {"
          shift 1)
      w.line "const msgList: Message[] = [];"
      w.line "if (max == 0) {"
      shift 1
      w.line "return msgList;"
      shift (-1)
      w.line "}"
      w.line "while (!da.isFinished() && (max < 0 || msgList.length < max)) {"
      shift 1
      w.line s!"const msgType: {← w.type "byte"} = da.getByte();"
      w.line "let newMsg: Message | null;"
      w.line s!"switch (msgType{(if w.assembly then " as i32" else "")}) \{"
      shift 1
      w.line "case 0:"
      shift 1
      w.line "return msgList;"
      shift (-1)
      each w.p.messages fun m => do
        w.line s!"case MessageType.{m.name}Type:"
        shift 1
        (do
          if w.assembly then
            w.line s!"newMsg = {m.name}.fromBytesDA(da);"
            w.line "if (newMsg == null) {"
            shift 1
            w.line "return msgList;"
            shift (-1)
            w.line "}"
          else
            w.line s!"newMsg = {m.name}.fromBytes(da);")
        w.line "msgList.push(newMsg);"
        w.line "break;"
        shift (-1)
      w.line "default:"
      shift 1
      (do
        if !w.assembly then
          w.line "throw new Error(`Unknown message type: ${msgType}`);"
        else
          w.line "return msgList;")
      shift (-1)
      shift (-1)
      w.line "}"
      shift (-1)
      w.line "}"
      w.line "return msgList;"
      shift (-1)
      w.line "}"
      w.blank
      each w.p.enums fun edata => do
        genEnum w edata.name edata
      each w.p.structs fun sdata => do
        genStruct w sdata.name sdata
      each w.p.messages fun mdata => do
        genStruct w mdata.name mdata
      rest ()) k (inside k rs) := by
  have ht : w.type "byte" = .ok (Syntax.TypeScript.typeOf asm "byte") := T.type_num .byte
  have he := enums_steps ha T hc k
  have hs := structs_steps ha T hc hb k (l := w.p.structs) fun s hs => List.mem_append_left _ hs
  have hm := structs_steps ha T hc hb k (l := w.p.messages) fun s hs => List.mem_append_right _ hs
  cases asm with
  | false =>
    simp only [ha, ht, emit_lift_ok, emit_pure_bind, Bool.not_false, if_true, if_false, Bool.false_eq_true]
    rcases h with ⟨e, h, rfl⟩ | ⟨s, h, sz, hz, rfl⟩ | rfl | rfl
    · have k := enums_puts ha T hc k h
      find_puts [k.left he fun _ _ => hs.bind fun _ _ => hm.bind fun _ _ => hr] []
    · rcases List.mem_append.1 h with h | h
      · have k := structs_puts ha T hc hb k (l := w.p.structs) (fun s hs => List.mem_append_left _ hs) h hz
        find_puts [k.left hs fun _ _ => hm.bind fun _ _ => hr] [he]
      · have k := structs_puts ha T hc hb k (l := w.p.messages) (fun s hs => List.mem_append_right _ hs) h hz
        find_puts [k.left hm fun _ _ => hr] [he, hs]
    · apply Starts.puts
      apply Starts.of_eq
      · starts [Emits.each fun _ _ => Emits.line _]
        steps [he, hs, hm, hr]
      rows [Syntax.TypeScript.messageTypes, messageArms]
    · iterate 6 skip_line []
      apply Starts.puts
      apply Starts.of_eq
      · starts [Emits.each fun _ _ => .bind (.line _) (.bind .up (.bind (.line _) (.bind (.line _) (.bind (.line _) .down))))]
        steps [he, hs, hm, hr]
      rw [flatMap_index w.p.messages 0]
      rows [Syntax.TypeScript.process, messageArms]
  | true =>
    simp only [ha, ht, emit_lift_ok, emit_pure_bind, Bool.not_true, if_true, if_false, Bool.false_eq_true]
    rcases h with ⟨e, h, rfl⟩ | ⟨s, h, sz, hz, rfl⟩ | rfl | rfl
    · have k := enums_puts ha T hc k h
      find_puts [k.left he fun _ _ => hs.bind fun _ _ => hm.bind fun _ _ => hr] []
    · rcases List.mem_append.1 h with h | h
      · have k := structs_puts ha T hc hb k (l := w.p.structs) (fun s hs => List.mem_append_left _ hs) h hz
        find_puts [k.left hs fun _ _ => hm.bind fun _ _ => hr] [he]
      · have k := structs_puts ha T hc hb k (l := w.p.messages) (fun s hs => List.mem_append_right _ hs) h hz
        find_puts [k.left hm fun _ _ => hr] [he, hs]
    · apply Starts.puts
      apply Starts.of_eq
      · starts [Emits.each fun _ _ => Emits.line _]
        steps [he, hs, hm, hr]
      rows [Syntax.TypeScript.messageTypes, messageArms]
    · iterate 7 skip_line []
      apply Starts.puts
      apply Starts.of_eq
      · apply Starts.bind
        · emits []
        starts [Emits.each fun _ _ => .bind (.line _) (.bind .up (.bind (.bind (.line _) (.bind (.line _) (.bind .up (.bind (.line _) (.bind .down (.line _))))))
          (.bind (.line _) (.bind (.line _) .down))))]
        steps [he, hs, hm, hr]
      rw [flatMap_index w.p.messages 0]
      rows [Syntax.TypeScript.process, messageArms]

/-- Without a namespace. -/
theorem generate_puts_none (hn : w.useNamespace = false) (h : Contained asm w.p 0 rs) :
    Puts w.tab (generate w) 0 (inside 0 rs) := by
  unfold generate
  simp only [hn, if_false, Bool.false_eq_true, emit_pure_bind]
  iterate 8 skip_line []
  refine inner_puts ha T hc hb 0 (j := 0) (rest := fun _ => do
    (do
      if !w.assembly then
        w.line "export const MessageTypeMap = new Map<MessageType, { new(): Message }>(["
        shift 1
        each w.p.messages fun m => do
          w.line s!"[MessageType.{m.name}Type, {m.name}],"
        shift (-1)
        w.line "]);"
        w.blank)
    w.blank
    assertBalanced) (by steps []) h

/-- Inside a namespace. -/
theorem generate_puts_some (hn : w.useNamespace = true) {n : String} (ht : w.nsText = .ok n) (h : Contained asm w.p 1 rs) :
    Puts w.tab (generate w) 0 (inside 1 rs) := by
  unfold generate
  simp only [hn, ht, if_true, emit_lift_ok, emit_pure_bind]
  iterate 9 skip_line []
  refine inner_puts ha T hc hb 1 (j := 0) (rest := fun _ => do
    (do
      if !w.assembly then
        w.line "export const MessageTypeMap = new Map<MessageType, { new(): Message }>(["
        shift 1
        each w.p.messages fun m => do
          w.line s!"[MessageType.{m.name}Type, {m.name}],"
        shift (-1)
        w.line "]);"
        w.blank)
    (do
      shift (-1)
      w.line "}")
    w.blank
    assertBalanced) (by steps []) h

/-- The lines of the library. -/
def Held (asm : Bool) (p : Protocol) (rs : List Row) : Prop :=
  if asm then AssemblyScript.Link.Library p rs else Library p rs

/-- What is filled into the library. -/
abbrev filled (asm : Bool) (n : NumTy) : List (String × Sub) :=
  [("{# STRING_SIZE_TYPE #}", .text (Lang.TypeScript.base n)), ("{# NATIVE_STRING_SIZE_TYPE #}", .text (Syntax.TypeScript.typeOf asm n.name))]

omit ha T hc hb k in
theorem held_puts (hl : w.boilerplate 0 = if asm then Boilerplate.assemblyScript else Boilerplate.typeScript)
    (ht : w.nativeTab = "  ") (h : Held asm w.p rs) (k : Nat) :
    Puts w.tab (w.addBoilerplate (filled asm w.p.stringSize) 0) k (inside k rs) := by
  cases asm with
  | true => exact AssemblyScript.Link.library_puts hl ht h k
  | false => exact library_puts hl ht h k

theorem generate_library_none (hl : w.boilerplate 0 = if asm then Boilerplate.assemblyScript else Boilerplate.typeScript)
    (ht : w.nativeTab = "  ") (hn : w.useNamespace = false) (h : Held asm w.p rs) :
    Puts w.tab (generate w) 0 (inside 0 rs) := by
  unfold generate
  have he := enums_steps ha T hc 0
  have hs := structs_steps ha T hc hb 0 (l := w.p.structs) fun s hs => List.mem_append_left _ hs
  have hm := structs_steps ha T hc hb 0 (l := w.p.messages) fun s hs => List.mem_append_right _ hs
  simp only [hn, if_false, Bool.false_eq_true, hc, T.type_num, emit_lift_ok, emit_pure_bind]
  iterate 5 skip_line []
  refine Puts.left (c := 0) (Q := Any) (held_puts hl ht h 0) Steps.boilerplate fun _ _ => ?_
  steps [he, hs, hm]

theorem generate_library_some (hl : w.boilerplate 0 = if asm then Boilerplate.assemblyScript else Boilerplate.typeScript)
    (ht : w.nativeTab = "  ") (hn : w.useNamespace = true) {n : String} (hx : w.nsText = .ok n) (h : Held asm w.p rs) :
    Puts w.tab (generate w) 0 (inside 1 rs) := by
  unfold generate
  have he := enums_steps ha T hc 1
  have hs := structs_steps ha T hc hb 1 (l := w.p.structs) fun s hs => List.mem_append_left _ hs
  have hm := structs_steps ha T hc hb 1 (l := w.p.messages) fun s hs => List.mem_append_right _ hs
  simp only [hn, hx, if_true, hc, T.type_num, emit_lift_ok, emit_pure_bind]
  iterate 6 skip_line []
  refine Puts.left (c := 0) (Q := Any) (held_puts hl ht h 1) Steps.boilerplate fun _ _ => ?_
  steps [he, hs, hm]

end Beschi.Text.TypeScript.Link
