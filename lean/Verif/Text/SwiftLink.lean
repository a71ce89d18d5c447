import Verif.Syntax.Swift
import Verif.Text.Swift
import Verif.Text.Lookup
import Verif.Text.SwiftLibrary
/-
The text written for Swift is that of the statements in Verif/Lang/Swift.lean.
-/
namespace Beschi.Text.Swift.Link
open Beschi.Spec Beschi.Lang

variable {w : Writer} (T : Table w Lang.Swift.native "String")

theorem swift_full : Syntax.Swift.sizes.Full where
  init := by decide
  ret n := by simp [Syntax.Swift.sizes, str_toString]
  add n := by simp [Syntax.Swift.sizes, str_toString]
  addCount a n := by simp [Syntax.Swift.sizes, str_toString]
  addText a := by simp [Syntax.Swift.sizes, str_toString]
  addTextPlus k a := by simp [Syntax.Swift.sizes, str_toString]
  loop v t a l hl := by simp [Syntax.Swift.sizes] at hl; subst hl; simp [str_toString]
  close := by decide

theorem lower_native (n : NumTy) : lower (Lang.Swift.native n) = Lang.Swift.label n := by cases n <;> rfl

theorem written_label (n : NumTy) : Syntax.Swift.written (Lang.Swift.label n) = Lang.Swift.native n := by cases n <;> rfl

include T

theorem deserializer_one {n t x v : String} (hk : KnownType w.p t) (he : w.p.isEnum t = false) (fuel a : Nat) (acc : String) :
    Emits w (deserializer w (fuel + 1) ⟨n, t, false⟩ acc) a
      (inside a (Syntax.Swift.readAtom x (acc ++ n) v (Lang.Swift.atom w.p t))) a ∧
      Syntax.Swift.isEnum (Lang.Swift.atom w.p t) = false := by
  rw [deserializer, if_neg (by simp)]
  unfold Lang.Swift.atom
  cases T.usable.kind hk with
  | num m e ne num enum =>
    subst e
    simp [Writer.isNum, num, T.type_num]
    refine ⟨(Emits.line _).of_eq ?_, rfl⟩
    texts [Syntax.Swift.readAtom, Lang.Swift.readPrim]
  | text e num =>
    subst e
    simp [Writer.isNum, num, T.type_text]
    refine ⟨(Emits.line _).of_eq ?_, rfl⟩
    texts [Syntax.Swift.readAtom]
  | enum e mem name ne num enum => simp [Protocol.isEnum, enum] at he
  | struct s mem name ne num enum struct =>
    simp [Writer.isNum, num, ne, Protocol.isEnum, enum]
    refine ⟨(Emits.line _).of_eq ?_, rfl⟩
    texts [Syntax.Swift.readAtom]

theorem enum_atom {t : String} (hk : KnownType w.p t) (he : w.p.isEnum t = true) :
    ∃ e, w.enum t = .ok e ∧ Lang.Swift.atom w.p t = .enum (Lang.Swift.readPrim e.encoding) t ∧
      Writer.isNum t = false ∧ (t == "string") = false := by
  unfold Lang.Swift.atom
  cases T.usable.kind hk with
  | num m e ne num enum => simp [Protocol.isEnum, enum] at he
  | text e num enum => subst e; simp [Protocol.isEnum, enum] at he
  | enum e mem name ne num enum => exact ⟨e, Table.enum_eq enum, by simp [num, ne, enum], by simp [Writer.isNum, num], by simp [ne]⟩
  | struct s mem name ne num enum struct => simp [Protocol.isEnum, enum] at he

theorem deserializer_emits {m : Variable} (hk : KnownType w.p m.vartype) (a : Nat) (obj : String) :
    Emits w (deserializer w w.p.depth m (obj ++ ".")) a
      (inside a (Syntax.Swift.readStmt obj (Lang.Swift.deserializer w.p m))) a := by
  unfold Lang.Swift.deserializer
  unfold Protocol.depth
  cases hl : m.isList with
  | false =>
    cases he : w.p.isEnum m.vartype with
    | false =>
      obtain ⟨n, t, l⟩ := m; cases hl
      obtain ⟨h1, h2⟩ := deserializer_one (x := n) (n := n) (v := "_" ++ n) T hk he (w.p.structs.length + 1) a (obj ++ ".")
      refine h1.of_eq ?_
      simp [Syntax.Swift.readStmt, Syntax.Swift.name, h2, str_toString, cat_assoc]
    | true =>
      obtain ⟨e, h1, h2, h3, h4⟩ := enum_atom T hk he
      rw [deserializer, if_neg (by simp [hl])]
      simp only [h3, h4, he, h1, Bool.or_self, Bool.false_eq_true, if_false, if_true, emit_lift_ok, emit_pure_bind, T.type_num]
      apply Emits.of_eq
      · emits []
      rows [Syntax.Swift.readStmt, Syntax.Swift.name, h2, Syntax.Swift.isEnum, Syntax.Swift.readAtom, Syntax.Swift.readEnum, Lang.Swift.readPrim]
  | true =>
    rw [deserializer, if_pos hl]
    cases he : w.p.isEnum m.vartype with
    | false =>
      obtain ⟨h1, h2⟩ := deserializer_one (n := s!"let _{m.name}_el") (x := m.name) (v := "_" ++ m.name ++ "_el") T hk he
        (w.p.structs.length) (a + 1) ""
      simp only [T.listSize, emit_lift_ok, emit_pure_bind, Bool.false_eq_true, if_false]
      apply Emits.of_eq
      · emits [h1]
      rows [Syntax.Swift.readStmt, Syntax.Swift.name, Lang.Swift.readPrim]
    | true =>
      obtain ⟨e, h1, h2, h3, h4⟩ := enum_atom T hk he
      simp only [T.listSize, emit_lift_ok, emit_pure_bind, if_true, h1, T.type_num]
      apply Emits.of_eq
      · emits []
      rows [Syntax.Swift.readStmt, Syntax.Swift.name, h2, Syntax.Swift.isEnum, Syntax.Swift.readAtom, Syntax.Swift.readEnum, Lang.Swift.readPrim]

theorem serializer_one {n t acc : String} (hk : KnownType w.p t) (fuel a : Nat) :
    Emits w (serializer w (fuel + 1) ⟨n, t, false⟩ acc) a
      (inside a (Syntax.Swift.writeAtom (w.p.isEnum t) (acc ++ n) (Lang.Swift.watom w.p t))) a := by
  rw [serializer, if_neg (by simp)]
  unfold Lang.Swift.watom
  cases T.usable.kind hk with
  | num m e ne num enum =>
    subst e
    simp [Writer.isNum, num, Protocol.isEnum, enum, T.type_num]
    refine (Emits.line _).of_eq ?_
    texts [Syntax.Swift.writeAtom, lower_native]
  | text e num enum =>
    subst e
    simp [Writer.isNum, num, T.type_text]
    refine (Emits.line _).of_eq ?_
    texts [Syntax.Swift.writeAtom, show lower "String" = "string" from rfl]
  | enum e mem name ne num enum =>
    simp [Writer.isNum, num, ne, Protocol.isEnum, enum, Table.enum_eq enum, T.type_num]
    refine (Emits.line _).of_eq ?_
    texts [Syntax.Swift.writeAtom, lower_native]
  | struct s mem name ne num enum struct =>
    simp [Writer.isNum, num, ne, Protocol.isEnum, enum]
    refine (Emits.line _).of_eq ?_
    texts [Syntax.Swift.writeAtom]

theorem serializer_emits {m : Variable} (hk : KnownType w.p m.vartype) (a : Nat) :
    Emits w (serializer w w.p.depth m "self.") a
      (inside a (Syntax.Swift.writeStmt (w.p.isEnum m.vartype) (Lang.Swift.serializer w.p m))) a := by
  unfold Lang.Swift.serializer
  cases hl : m.isList with
  | false =>
    obtain ⟨n, t, l⟩ := m; cases hl
    exact serializer_one T hk _ a
  | true =>
    unfold Protocol.depth
    rw [serializer, if_pos hl]
    simp only [T.listSize, emit_lift_ok, emit_pure_bind, lower_native]
    apply Emits.of_eq
    · emits [serializer_one T hk _ _]
    rows [Syntax.Swift.writeStmt, written_label]

theorem genMeasurement_step {fuel lvl : Nat} {s : Struct} (hs : s ∈ w.p.structs ++ w.p.messages) {at_ : MPath}
    (ih : ∀ {v s'} {at_ : MPath} {lvl : Nat}, v ∈ s.members → s' ∈ w.p.structs → w.p.struct? v.vartype = some s' →
      ∃ ls n, measureStruct Lang.Swift.style w.p fuel s' at_ lvl = some (ls, n) ∧
        genMeasurement w fuel s' (Syntax.path at_ ++ ".") = pure (Syntax.Swift.sizes.texts w.tab ls, n)) :
    ∃ ls n, measureStruct Lang.Swift.style w.p (fuel + 1) s at_ lvl = some (ls, n) ∧
      genMeasurement w (fuel + 1) s (Syntax.path at_ ++ ".") = pure (Syntax.Swift.sizes.texts w.tab ls, n) := by
  rw [genMeasurement, measureStruct]
  simp only [structSimple_eq T.usable hs, emit_lift_ok, emit_pure_bind]
  by_cases hz : w.p.simpleStruct s = true
  · refine ⟨_, _, by rw [if_pos hz], ?_⟩
    simp only [hz, if_true, sizeOf_struct_eq T.usable hs hz, emit_lift_ok, emit_pure_bind]
    texts [texts_one, Syntax.SizeSyntax.line, Syntax.Swift.sizes, Row.shown, repeated]
  · rw [if_neg hz, if_neg hz]
    rw [emit_eta fun _ => rfl]
    refine measured_struct (fun m hm => ?_) rfl (fun x => rfl)
    have hk := T.usable.types s hs m hm
    unfold measureMember
    cases hl : m.isList with
    | true =>
      simp only [simple_eq T.usable hk (.inr rfl), emit_lift_ok, emit_pure_bind, if_true]
      by_cases hs : w.p.simpleVar m true = true
      · refine ⟨_, _, if_pos hs, fun n ls => ?_⟩
        rw [if_pos hs, sizeOf_eq T.usable hk (.inr rfl) hs]
        texts [texts_one, Syntax.SizeSyntax.line, Syntax.Swift.sizes, Row.shown, repeated, path_dot]
      rw [if_neg hs]
      by_cases ht : m.vartype = "string"
      · refine ⟨_, _, if_pos ht, fun n ls => ?_⟩
        rw [if_neg hs, if_pos (by simp [ht]), texts_loop swift_full, texts_one]
        texts [Syntax.SizeSyntax.line, Syntax.Swift.sizes, Row.shown, repeated, path_dot, Lang.Swift.style, MStyle.element, path_root]
      rw [if_neg ht]
      obtain ⟨s', h1, h2, h3⟩ := struct_varying T.usable hk (.inr rfl) hs ht
      obtain ⟨ls, n, h4, h5⟩ := ih (at_ := ⟨m.name ++ "_el", []⟩) (lvl := lvl + 1) hm h1 h2
      obtain ⟨ls, rfl⟩ := measured_init h3 h4
      refine ⟨_, _, by simp only [h2]; rw [show Lang.Swift.style.element (Lang.Swift.style.loopVar m.name lvl) (at_.dot m.name) = ⟨m.name ++ "_el", []⟩ from rfl, h4], fun k lines => ?_⟩
      rw [if_neg hs, if_neg (by simpa using ht), texts_loop swift_full]
      have h6 : genMeasurement w fuel s' (toString m.name ++ toString "_el.") =
          pure (Syntax.Swift.sizes.texts w.tab (.init :: ls), n) := by
        rw [path_root, String.append_assoc] at h5; exact h5
      simp only [struct_eq h2, emit_lift_ok, emit_pure_bind, h6, texts_cons, texts_append, texts_nil, dropInit, MLine.isInit, if_true]
      generalize Syntax.Swift.sizes.texts w.tab ls = X
      texts [Syntax.SizeSyntax.line, Syntax.Swift.sizes, Row.shown, repeated, path_dot, Lang.Swift.style, headLine, texts_one, dropInit, MLine.isInit]
    | false =>
      simp only [simple_eq T.usable hk (.inl hl), emit_lift_ok, emit_pure_bind, if_false, Bool.false_eq_true]
      by_cases hs : w.p.simpleVar m false = true
      · refine ⟨_, _, if_pos hs, fun n ls => ?_⟩
        rw [if_pos hs, sizeOf_eq T.usable hk (.inl hl) hs]
        texts [Syntax.SizeSyntax.texts, Syntax.SizeSyntax.lines]
      rw [if_neg hs]
      by_cases ht : m.vartype = "string"
      · refine ⟨_, _, if_pos ht, fun n ls => ?_⟩
        rw [if_neg hs, if_pos (by simp [ht]), texts_one]
        texts [Syntax.SizeSyntax.line, Syntax.Swift.sizes, Row.shown, repeated, path_dot]
      rw [if_neg ht]
      obtain ⟨s', h1, h2, h3⟩ := struct_varying T.usable hk (.inl hl) hs ht
      obtain ⟨ls, n, h4, h5⟩ := ih (at_ := at_.dot m.name) (lvl := lvl) hm h1 h2
      obtain ⟨ls, rfl⟩ := measured_init h3 h4
      refine ⟨_, _, by simp only [h2]; rw [show (if Lang.Swift.style.inlineDeeper then lvl + 1 else lvl) = lvl from rfl, h4], fun k lines => ?_⟩
      rw [if_neg hs, if_neg (by simpa using ht)]
      have h6 : genMeasurement w fuel s' (toString (Syntax.path at_ ++ ".") ++ toString m.name ++ toString ".") =
          pure (Syntax.Swift.sizes.texts w.tab (.init :: ls), n) := by
        rw [path_dot] at h5; exact h5
      simp only [struct_eq h2, emit_lift_ok, emit_pure_bind, h6, texts_cons, dropInit, MLine.isInit, if_true]
      generalize Syntax.Swift.sizes.texts w.tab ls = X
      texts [Syntax.SizeSyntax.line, Syntax.Swift.sizes, Row.shown, repeated, headLine, dropInit, MLine.isInit]

theorem genMeasurement_eq (fuel : Nat) {lvl : Nat} {s : Struct} (hs : s ∈ w.p.structs ++ w.p.messages)
    (hf : ∀ v ∈ s.members, fits w.p fuel v.vartype) {at_ : MPath} :
    ∃ ls n, measureStruct Lang.Swift.style w.p (fuel + 1) s at_ lvl = some (ls, n) ∧
      genMeasurement w (fuel + 1) s (Syntax.path at_ ++ ".") = pure (Syntax.Swift.sizes.texts w.tab ls, n) := by
  induction fuel generalizing s at_ lvl with
  | zero => exact genMeasurement_step T hs (fun hv _ he => absurd (he.symm.trans (hf _ hv)) (by simp))
  | succ fuel ih => exact genMeasurement_step T hs (fun hv hs' he => ih (by simp [hs']) (hf _ hv _ he))

theorem measureFun_eq {s : Struct} (hs : s ∈ w.p.structs ++ w.p.messages) :
    ∃ ls n, genMeasurement w w.p.depth s "self." = pure (Syntax.Swift.sizes.texts w.tab ls, n) ∧
      measureFun Lang.Swift.style w.p s "self" 0 =
        some ⟨if n > 0 then ls ++ [.add n] else ls, decide ((Syntax.Swift.sizes.texts w.tab ls).length > 1)⟩ ∧
      NoAdd ls := by
  obtain ⟨ls, n, h1, h2⟩ := genMeasurement_eq T (w.p.structs.length + 1) (lvl := 0) hs
    (fun v _ => fits_succ (T.usable.fits v.vartype)) (at_ := ⟨"self", []⟩)
  refine ⟨ls, n, h2, ?_, measured_noAdd h1⟩
  unfold measureFun
  have : depth w.p = w.p.structs.length + 1 + 1 := rfl
  rw [this, h1, measured_length h1]
  rfl


theorem typeOf_atom {t : String} (hk : KnownType w.p t) :
    Syntax.Swift.typeOf (Lang.Swift.atom w.p t) = nativeType Lang.Swift.native "String" t := by
  unfold Lang.Swift.atom nativeType
  cases T.usable.kind hk with
  | num m e ne num enum => subst e; rw [num]; cases m <;> rfl
  | text e num => subst e; rw [num]; rfl
  | enum e mem name ne num enum => simp [num, ne, enum, Syntax.Swift.typeOf]
  | struct s mem name ne num enum struct => simp [num, ne, enum, Syntax.Swift.typeOf]

omit T in
theorem default_num (n : NumTy) : ∃ s, defaults.lookup n.name = some s ∧ s ≠ "" ∧
    ∀ p t x, Syntax.Swift.initial.expr p t x (.num (zeroOf n)) = s := by
  cases n <;> exact ⟨_, rfl, by decide, fun _ _ _ => rfl⟩

theorem member_emits (hd : w.defaults = defaults) {m : Variable} (hk : KnownType w.p m.vartype) (a : Nat) :
    Emits w (do
      if m.isList then
        w.line s!"public var {m.name}: [{← w.type m.vartype}] = []"
      else
        let defaultValue := (w.defaults.lookup m.vartype)
        let defaultValue ← (do
          if defaultValue.isNone then
            let defaultValue ← (do
              if w.p.isEnum m.vartype then
                let e ← w.enum m.vartype
                let defaultValue : Option String := some (s!"{m.vartype}.{(← Writer.defaultPair e).1}")
                pure defaultValue
              else
                let defaultValue : Option String := some (s!"{m.vartype}()")
                pure defaultValue)
            pure defaultValue
          else
            pure defaultValue)
        w.line s!"public var {m.name}: {← w.type m.vartype}{(if (defaultValue.getD "") != "" then s!" = {defaultValue.getD "None"}" else "")}")
      a [⟨a, Syntax.Swift.member w.p m⟩] a := by
  unfold Syntax.Swift.member
  rw [typeOf_atom T hk]
  unfold Lang.Swift.default
  cases hl : m.isList with
  | true =>
    simp only [if_true, T.type_known hk, emit_lift_ok, emit_pure_bind]
    refine (Emits.line _).of_eq ?_
    rows [Syntax.InitialSyntax.expr, Syntax.Swift.initial]
  | false =>
    simp only [if_false, Bool.false_eq_true, T.type_known hk, emit_lift_ok, emit_pure_bind, hd]
    cases T.usable.kind hk with
    | num n e ne num enum =>
      obtain ⟨d, h1, h2, h3⟩ := default_num n
      rw [num]
      simp only [e, h1, Option.isNone_some, Bool.false_eq_true, if_false, Option.getD_some, emit_pure_bind]
      refine (Emits.line _).of_eq ?_
      rows [bne_iff_ne, ne_eq, h2, not_false_eq_true, h3]
    | text e num =>
      have hn : defaults.lookup "string" = some "\"\"" := rfl
      rw [num]
      simp [e, hn]
      refine (Emits.line _).of_eq ?_
      texts [Syntax.InitialSyntax.expr, Syntax.Swift.initial]
    | enum e mem name ne num enum =>
      have hn := own_of (d := defaults) (by decide) num ne
      obtain ⟨x, h1, h2, h3⟩ := default_pair T.usable mem
      simp [hn, Protocol.isEnum, enum, Table.enum_eq enum, h1, h3, num, ne]
      refine (Emits.line _).of_eq ?_
      texts [Syntax.InitialSyntax.expr, Syntax.Swift.initial, entryName_default enum h3]
    | struct s mem name ne num enum struct =>
      have hn := own_of (d := defaults) (by decide) num ne
      simp [hn, Protocol.isEnum, enum, num, ne]
      refine (Emits.line _).of_eq ?_
      texts [Syntax.InitialSyntax.expr, Syntax.Swift.initial]

omit T in
theorem top_lines {ls : List MLine} (h : NoAdd ls) : ls.flatMap Syntax.Swift.sizeLine = Syntax.Swift.sizes.lines ls := by
  induction ls with
  | nil => rfl
  | cons l ls ih =>
    rw [List.flatMap_cons, ih fun x hx => h x (by simp [hx])]
    cases l with
    | add n => exact absurd rfl (h _ (by simp) n)
    | _ => rfl

theorem genEnum_emits {e : Enum} (he : e ∈ w.p.enums) (a : Nat) :
    Emits w (genEnum w e.name e) a (inside a (Syntax.Swift.enum e ++ flush [""])) a := by
  unfold genEnum
  simp only [T.type_num, emit_lift_ok, emit_pure_bind]
  apply Emits.of_eq
  · emits [Emits.each fun x _ => Emits.line _]
  rows [Syntax.Swift.enum]

theorem genStruct_emits (hd : w.defaults = defaults) {s : Struct} (hs : s ∈ w.p.structs ++ w.p.messages) (a : Nat) :
    ∃ sz, measureFun Lang.Swift.style w.p s "self" 0 = some sz ∧
      Emits w (genStruct w s.name s) a (inside a (Syntax.Swift.type w.p s sz ++ flush [""])) a := by
  obtain ⟨ls, n, h1, h2, h3⟩ := measureFun_eq T hs
  refine ⟨_, h2, ?_⟩
  unfold genStruct
  have hk := T.usable.types s hs
  rw [h1]
  have hl : (if n > 0 then ls ++ [MLine.add n] else ls).flatMap Syntax.Swift.sizeLine =
      Syntax.Swift.sizes.lines ls ++ if n > 0 then flush [s!"size += {n};"] else [] := by
    split
    · rw [List.flatMap_append, top_lines h3]; rfl
    · rw [top_lines h3, List.append_nil]
  cases hm : s.isMessage with
  | true =>
    simp only [if_true, emit_pure_bind, Bool.or_true]
    apply Emits.of_eq
    · emits [Emits.each (fun m hm => member_emits T hd (hk m hm) _),
       Emits.each fun m hm => deserializer_emits T (hk m hm) _ ("n" ++ s.name),
       Emits.each fun m hm => serializer_emits T (hk m hm) _,
       Emits.texts ls _,
       Emits.ite (fun _ => Emits.line _) (fun _ => Emits.pure)]
    rows [Syntax.Swift.type, Syntax.Swift.size, Syntax.Swift.reader, Syntax.Swift.writer,
      show (Lang.Swift.fromBytes w.p s).body = s.members.map (Lang.Swift.deserializer w.p) from rfl,
      show (Lang.Swift.writeBytes w.p s).body = s.members.map (Lang.Swift.serializer w.p) from rfl,
      hl, beq_iff_eq, hm, or_true]
  | false =>
    simp only [if_false, Bool.false_eq_true, emit_pure_bind, Bool.or_false]
    have hv : (do
        if (s.members.length == 0) = true then
          pure "let"
        else pure "var" : Emit String) = pure (if (s.members.length == 0) = true then "let" else "var") := by
      split <;> rfl
    rw [hv]
    simp only [emit_pure_bind]
    apply Emits.of_eq
    · emits [Emits.each (fun m hm => member_emits T hd (hk m hm) _),
       Emits.each fun m hm => deserializer_emits T (hk m hm) _ ("n" ++ s.name),
       Emits.each fun m hm => serializer_emits T (hk m hm) _]
    rows [Syntax.Swift.type, Syntax.Swift.size, Syntax.Swift.reader, Syntax.Swift.writer,
      show (Lang.Swift.fromBytes w.p s).body = s.members.map (Lang.Swift.deserializer w.p) from rfl,
      show (Lang.Swift.writeBytes w.p s).body = s.members.map (Lang.Swift.serializer w.p) from rfl,
      hm, beq_iff_eq, List.length_eq_zero_iff, List.map_eq_nil_iff, or_false, Bool.false_eq_true]

/-- What the file contains. -/
def Contained (p : Protocol) (rs : List Row) : Prop :=
  (∃ e ∈ p.enums, rs = Syntax.Swift.enum e) ∨
  (∃ s ∈ p.structs ++ p.messages, ∃ sz, measureFun Lang.Swift.style p s "self" 0 = some sz ∧
    rs = Syntax.Swift.type p s sz) ∨
  rs = Syntax.Swift.messageTypes (messageArms p 1) ∨
  rs = Syntax.Swift.process (Syntax.namespaceOf p) (messageArms p 1)

variable {rs : List Row} (k : Nat)

theorem enums_steps : Steps (each w.p.enums fun e => genEnum w e.name e) k k Any :=
  .each fun _ he => (genEnum_emits T he k).steps

theorem structs_steps (hd : w.defaults = defaults) {l : List Struct} (h : ∀ s ∈ l, s ∈ w.p.structs ++ w.p.messages) :
    Steps (each l fun s => genStruct w s.name s) k k Any :=
  .each fun s hs => (genStruct_emits T hd (h s hs) k).choose_spec.2.steps

theorem enums_puts {e : Enum} (he : e ∈ w.p.enums) :
    Puts w.tab (each w.p.enums fun e => genEnum w e.name e) k (inside k (Syntax.Swift.enum e)) :=
  .each (fun _ he => (genEnum_emits T he k).steps) he
    ((genEnum_emits T he k).puts (by rw [inside_append]; exact (List.prefix_append _ _).isInfix))

theorem structs_puts (hd : w.defaults = defaults) {l : List Struct} (h : ∀ s ∈ l, s ∈ w.p.structs ++ w.p.messages)
    {s : Struct} (hs : s ∈ l) {sz : MFun} (hz : measureFun Lang.Swift.style w.p s "self" 0 = some sz) :
    Puts w.tab (each l fun s => genStruct w s.name s) k (inside k (Syntax.Swift.type w.p s sz)) := by
  refine .each (fun s hs => (genStruct_emits T hd (h s hs) k).choose_spec.2.steps) hs ?_
  obtain ⟨sz', h1, h2⟩ := genStruct_emits T hd (h s hs) k
  cases hz.symm.trans h1
  exact h2.puts (by rw [inside_append]; exact (List.prefix_append _ _).isInfix)

theorem generate_puts_none (hd : w.defaults = defaults) (hn : w.p.ns = none) (h : Contained w.p rs) :
    Puts w.tab (generate w) 0 (inside 0 rs) := by
  have hg : w.nsGiven = false := by simp [Writer.nsGiven, hn]
  have ho : Syntax.namespaceOf w.p = none := by simp [Syntax.namespaceOf, hn]
  unfold generate
  simp only [hg, if_false, Bool.false_eq_true, emit_pure_bind]
  have he := enums_steps T 0
  have hs := structs_steps T 0 hd (l := w.p.structs) fun s hs => List.mem_append_left _ hs
  have hm := structs_steps T 0 hd (l := w.p.messages) fun s hs => List.mem_append_right _ hs
  rcases h with ⟨e, h, rfl⟩ | ⟨s, h, sz, hz, rfl⟩ | rfl | rfl
  · have k := enums_puts T 0 h
    find_puts [k.left he fun _ _ => hs.bind fun _ _ => hm.bind fun _ _ => by steps []] []
  · rcases List.mem_append.1 h with h | h
    · have k := structs_puts T 0 hd (l := w.p.structs) (fun s hs => List.mem_append_left _ hs) h hz
      find_puts [k.left hs fun _ _ => hm.bind fun _ _ => by steps []] [he]
    · have k := structs_puts T 0 hd (l := w.p.messages) (fun s hs => List.mem_append_right _ hs) h hz
      find_puts [k.left hm fun _ _ => by steps []] [he, hs]
  · iterate 10 skip_line []
    apply Starts.puts
    apply Starts.of_eq
    · starts [Emits.each fun _ _ => Emits.line _, Emits.ite (fun _ => Emits.line _) (fun _ => Emits.pure)]
      steps [he, hs, hm]
    cases hw : w.p.messages <;> rows [Syntax.Swift.messageTypes, messageArms, hw,
      List.zipIdx_nil, List.zipIdx_cons, List.length_nil, List.length_cons, List.map_cons, reduceCtorEq, beq_iff_eq, Nat.add_one_ne_zero]
  · iterate 17 skip_line []
    apply Starts.puts
    apply Starts.of_eq
    · starts [Emits.each fun _ _ => .bind (.line _) (.bind .up (.bind (.line _) .down)),
        Emits.ite (fun _ => .bind (.line _) (.bind .up (.bind (.line _) .down))) (fun _ => Emits.pure)]
      steps [he, hs, hm]
    rw [flatMap_index w.p.messages 0]
    cases hw : w.p.messages <;> rows [Syntax.Swift.process, messageArms, ho, hw, Option.isSome_none, Option.isSome_some, Bool.false_eq_true,
      List.flatMap_nil, List.flatMap_cons,
      List.zipIdx_nil, List.zipIdx_cons, List.length_nil, List.length_cons, List.map_cons, reduceCtorEq, beq_iff_eq, Nat.add_one_ne_zero]

theorem generate_puts_some (hd : w.defaults = defaults) {n : String} (hn : w.p.ns = some (.str n)) (h : Contained w.p rs) :
    Puts w.tab (generate w) 0 (inside 1 rs) := by
  have hg : w.nsGiven = true := by simp [Writer.nsGiven, hn]
  have ho : Syntax.namespaceOf w.p = some n := by simp [Syntax.namespaceOf, hn]
  have hx : w.nsText = .ok n := by simp [Writer.nsText, hn]
  unfold generate
  simp only [hg, if_true, hx, emit_lift_ok, emit_pure_bind]
  have he := enums_steps T 1
  have hs := structs_steps T 1 hd (l := w.p.structs) fun s hs => List.mem_append_left _ hs
  have hm := structs_steps T 1 hd (l := w.p.messages) fun s hs => List.mem_append_right _ hs
  rcases h with ⟨e, h, rfl⟩ | ⟨s, h, sz, hz, rfl⟩ | rfl | rfl
  · have k := enums_puts T 1 h
    find_puts [k.left he fun _ _ => hs.bind fun _ _ => hm.bind fun _ _ => by steps []] []
  · rcases List.mem_append.1 h with h | h
    · have k := structs_puts T 1 hd (l := w.p.structs) (fun s hs => List.mem_append_left _ hs) h hz
      find_puts [k.left hs fun _ _ => hm.bind fun _ _ => by steps []] [he]
    · have k := structs_puts T 1 hd (l := w.p.messages) (fun s hs => List.mem_append_right _ hs) h hz
      find_puts [k.left hm fun _ _ => by steps []] [he, hs]
  · iterate 11 skip_line []
    apply Starts.puts
    apply Starts.of_eq
    · starts [Emits.each fun _ _ => Emits.line _, Emits.ite (fun _ => Emits.line _) (fun _ => Emits.pure)]
      steps [he, hs, hm]
    cases hw : w.p.messages <;> rows [Syntax.Swift.messageTypes, messageArms, hw,
      List.zipIdx_nil, List.zipIdx_cons, List.length_nil, List.length_cons, List.map_cons, reduceCtorEq, beq_iff_eq, Nat.add_one_ne_zero]
  · iterate 18 skip_line []
    apply Starts.puts
    apply Starts.of_eq
    · starts [Emits.each fun _ _ => .bind (.line _) (.bind .up (.bind (.line _) .down)),
        Emits.ite (fun _ => .bind (.line _) (.bind .up (.bind (.line _) .down))) (fun _ => Emits.pure)]
      steps [he, hs, hm]
    rw [flatMap_index w.p.messages 0]
    cases hw : w.p.messages <;> rows [Syntax.Swift.process, messageArms, ho, hw, Option.isSome_none, Option.isSome_some, Bool.false_eq_true,
      List.flatMap_nil, List.flatMap_cons,
      List.zipIdx_nil, List.zipIdx_cons, List.length_nil, List.length_cons, List.map_cons, reduceCtorEq, beq_iff_eq, Nat.add_one_ne_zero]

theorem generate_library_none (hd : w.defaults = defaults) (hb : w.boilerplate 0 = Boilerplate.swift0)
    (ht : w.nativeTab = "    ") (hn : w.p.ns = none) (h : Library w.p rs) : Puts w.tab (generate w) 0 (inside 0 rs) := by
  have hg : w.nsGiven = false := by simp [Writer.nsGiven, hn]
  unfold generate
  simp only [hg, if_false, Bool.false_eq_true, T.stringSize, lower_native, emit_lift_ok, emit_pure_bind]
  have he := enums_steps T 0
  have hs := structs_steps T 0 hd (l := w.p.structs) fun s hs => List.mem_append_left _ hs
  have hm := structs_steps T 0 hd (l := w.p.messages) fun s hs => List.mem_append_right _ hs
  iterate 7 skip_line []
  refine Puts.left (c := 0) (Q := Any) (library_puts hb ht h 0) Steps.boilerplate fun _ _ => ?_
  steps [he, hs, hm]

theorem generate_library_some (hd : w.defaults = defaults) (hb : w.boilerplate 0 = Boilerplate.swift0)
    (ht : w.nativeTab = "    ") {n : String} (hn : w.p.ns = some (.str n)) (h : Library w.p rs) :
    Puts w.tab (generate w) 0 (inside 1 rs) := by
  have hg : w.nsGiven = true := by simp [Writer.nsGiven, hn]
  have hx : w.nsText = .ok n := by simp [Writer.nsText, hn]
  unfold generate
  simp only [hg, if_true, hx, T.stringSize, lower_native, emit_lift_ok, emit_pure_bind, str_toString, cat_assoc]
  have he := enums_steps T 1
  have hs := structs_steps T 1 hd (l := w.p.structs) fun s hs => List.mem_append_left _ hs
  have hm := structs_steps T 1 hd (l := w.p.messages) fun s hs => List.mem_append_right _ hs
  iterate 8 skip_line []
  refine Puts.left (c := 0) (Q := Any) (library_puts hb ht h 1) Steps.boilerplate fun _ _ => ?_
  steps [he, hs, hm]

theorem generate_packing_none (hd : w.defaults = defaults) (hb : w.boilerplate 1 = Boilerplate.swift1)
    (ht : w.nativeTab = "    ") (hn : w.p.ns = none) (h : Packing "" rs) : Puts w.tab (generate w) 0 rs := by
  have hg : w.nsGiven = false := by simp [Writer.nsGiven, hn]
  unfold generate
  simp only [hg, if_false, Bool.false_eq_true, emit_pure_bind]
  have he := enums_steps T 0
  have hs := structs_steps T 0 hd (l := w.p.structs) fun s hs => List.mem_append_left _ hs
  have hm := structs_steps T 0 hd (l := w.p.messages) fun s hs => List.mem_append_right _ hs
  find_puts [Puts.left (c := 0) (Q := Any) (packing_puts hb ht h) Steps.boilerplate fun _ _ => by steps []] [he, hs, hm]

theorem generate_packing_some (hd : w.defaults = defaults) (hb : w.boilerplate 1 = Boilerplate.swift1)
    (ht : w.nativeTab = "    ") {n : String} (hn : w.p.ns = some (.str n)) (h : Packing (n ++ ".") rs) :
    Puts w.tab (generate w) 0 rs := by
  have hg : w.nsGiven = true := by simp [Writer.nsGiven, hn]
  have hx : w.nsText = .ok n := by simp [Writer.nsText, hn]
  unfold generate
  simp only [hg, if_true, hx, emit_lift_ok, emit_pure_bind, str_toString, cat_assoc]
  have he := enums_steps T 1
  have hs := structs_steps T 1 hd (l := w.p.structs) fun s hs => List.mem_append_left _ hs
  have hm := structs_steps T 1 hd (l := w.p.messages) fun s hs => List.mem_append_right _ hs
  find_puts [Puts.left (c := 0) (Q := Any) (packing_puts hb ht h) Steps.boilerplate fun _ _ => by steps []] [he, hs, hm]

end Beschi.Text.Swift.Link
