import Verif.Text.CSharpLibrary
import Verif.Syntax.CSharp
import Verif.Text.CSharp
import Verif.Text.Lookup
/-
The text written for C# is that of the functions in Verif/Lang/CSharp.lean.
-/
namespace Beschi.Text.CSharp.Link
open Beschi.Spec Beschi.Lang

/-- Names as they are used in variables. -/
def clean (s : String) : String := replaceAll s [("[", "_"), ("]", "_"), (" ", "_")]

variable {w : Writer} (T : Table w Lang.CSharp.native "string")
  (hc : ∀ n : NumTy, w.codecs.lookup n.name = some (Lang.CSharp.readPrim n))
  (ho : ∀ t, NumTy.ofName? t = none → w.codecs.lookup t = none)

theorem csharp_full : Syntax.CSharp.sizes.Full where
  init := by decide
  ret n := by simp [Syntax.CSharp.sizes]
  add n := by simp [Syntax.CSharp.sizes]
  addCount a n := by simp [Syntax.CSharp.sizes]
  addText a := by simp [Syntax.CSharp.sizes]
  addTextPlus k a := by simp [Syntax.CSharp.sizes]
  loop v t a l hl := by
    simp [Syntax.CSharp.sizes] at hl
    rcases hl with rfl | rfl <;> simp
  close := by decide

theorem typeOf_eq (t : String) : nativeType Lang.CSharp.native "string" t = Syntax.CSharp.typeOf t := by
  unfold nativeType Syntax.CSharp.typeOf
  cases NumTy.ofName? t with
  | some n => rfl
  | none =>
    simp only []
    split
    · exact (‹t = "string"›).symm
    · rfl

theorem result_readPrim (n : NumTy) : Syntax.CSharp.result (Lang.CSharp.readPrim n) = Lang.CSharp.native n := by
  cases n <;> rfl

theorem typeOf_num (n : NumTy) : Syntax.CSharp.typeOf n.name = Lang.CSharp.native n := by
  cases n <;> rfl

theorem typeOf_other {t : String} (h : NumTy.ofName? t = none) : Syntax.CSharp.typeOf t = t := by
  unfold Syntax.CSharp.typeOf; rw [h]

include hc in
theorem codec_eq (n : NumTy) : w.codec n.name = .ok (Lang.CSharp.readPrim n) := by
  unfold Writer.codec Writer.look; rw [hc]

theorem clean_id {x : String} (h : ∀ c ∈ x.toList, c ≠ '[' ∧ c ≠ ']' ∧ c ≠ ' ') : clean x = x := by
  apply String.toList_injective
  show (replace (replace (replace x "[" "_") "]" "_") " " "_").toList = _
  unfold replace
  rw [show "[".toList = ['['] from rfl, show "]".toList = [']'] from rfl, show " ".toList = [' '] from rfl,
    show "_".toList = ['_'] from rfl]
  simp only [replaceChars_one, String.toList_ofList, List.map_map]
  conv_rhs => rw [← List.map_id x.toList]
  refine List.map_congr_left fun c hc => ?_
  obtain ⟨h1, h2, h3⟩ := h c hc
  simp [h1.symm, h2.symm, h3.symm]

theorem clean_string_el : clean ("string" ++ " _el") = "string__el" := by decide +kernel

include T hc ho

/-- Reading of a member that is not a list. -/
theorem deserializer_one {m : Variable} (hl : m.isList = false) (hn : clean m.name = m.name) (hk : KnownType w.p m.vartype)
    (fuel a : Nat) (obj : String) :
    Emits w (deserializer w (fuel + 1) m (obj ++ ".")) a
      (inside a (Syntax.CSharp.readOne w.p obj m.name (Lang.CSharp.atom w.p m.vartype))) a := by
  rw [deserializer, if_neg (by simp [hl])]
  have hn : replaceAll m.name [("[", "_"), ("]", "_"), (" ", "_")] = m.name := hn
  unfold Lang.CSharp.atom
  simp only [hn]
  cases T.usable.kind hk with
  | num n e ne num enum =>
    have hi : (w.codecs.lookup m.vartype).isSome = true := by rw [e, hc]; rfl
    have hcd : w.codec m.vartype = .ok (Lang.CSharp.readPrim n) := by rw [e]; exact codec_eq hc n
    simp only [ne, Protocol.isEnum, enum, Option.isSome_none, hi, hcd, num, beq_iff_eq, Bool.false_eq_true, if_false, if_true, emit_lift_ok, emit_pure_bind]
    refine (Emits.line _).of_eq ?_
    rows [Syntax.CSharp.readOne]
  | text e num enum =>
    simp only [e, beq_self_eq_true, if_true, T.stringSize, codec_eq hc, emit_lift_ok, emit_pure_bind]
    apply Emits.of_eq
    · emits []
    rows [Syntax.CSharp.readOne, Syntax.CSharp.readText]
  | enum e mem name ne num enum =>
    simp only [ne, Protocol.isEnum, enum, Option.isSome_some, Table.enum_eq enum, T.type_num, codec_eq hc, num, beq_iff_eq, if_false, if_true, emit_lift_ok, emit_pure_bind]
    apply Emits.of_eq
    · emits []
    rows [Syntax.CSharp.readOne, Syntax.CSharp.readEnum, Syntax.CSharp.block, result_readPrim]
  | struct s mem name ne num enum struct =>
    simp only [ne, Protocol.isEnum, enum, ho _ num, Option.isSome_none, num, beq_iff_eq, Bool.false_eq_true, if_false]
    refine (Emits.line _).of_eq ?_
    rows [Syntax.CSharp.readOne]

/-- Reading of an element that is not of an enum type. -/
theorem deserializer_element {t x obj : String} (hk : KnownType w.p t) (he : w.p.isEnum t = false) (fuel a : Nat) :
    Emits w (do
        deserializer w (fuel + 1) ⟨s!"{Syntax.CSharp.typeOf t} _el", t, false⟩ ""
        w.line s!"{obj ++ "."}{x}.Add(_el);") a
      (inside a (Syntax.CSharp.readElement w.p obj x (Lang.CSharp.atom w.p t))) a := by
  rw [deserializer, if_neg (by simp)]
  unfold Lang.CSharp.atom
  simp only [str_toString]
  cases T.usable.kind hk with
  | num n e ne num enum =>
    have hi : (w.codecs.lookup t).isSome = true := by rw [e, hc]; rfl
    have hcd : w.codec t = .ok (Lang.CSharp.readPrim n) := by rw [e]; exact codec_eq hc n
    simp only [ne, Protocol.isEnum, enum, Option.isSome_none, hi, hcd, num, beq_iff_eq, Bool.false_eq_true, if_false, if_true, emit_lift_ok, emit_pure_bind]
    apply Emits.of_eq
    · emits []
    rows [Syntax.CSharp.readElement, result_readPrim, show Syntax.CSharp.typeOf t = Lang.CSharp.native n by rw [e, typeOf_num]]
  | text e num enum =>
    have hcl : replaceAll ("string" ++ " _el") [("[", "_"), ("]", "_"), (" ", "_")] = "string__el" := clean_string_el
    simp only [e, beq_self_eq_true, if_true, T.stringSize, codec_eq hc, emit_lift_ok, emit_pure_bind, typeOf_other (e ▸ num), hcl]
    apply Emits.of_eq
    · emits []
    rows [Syntax.CSharp.readElement, Syntax.CSharp.readText]
  | enum e mem name ne num enum => simp [Protocol.isEnum, enum] at he
  | struct s mem name ne num enum struct =>
    simp only [ne, Protocol.isEnum, enum, ho _ num, Option.isSome_none, num, beq_iff_eq, Bool.false_eq_true, if_false]
    apply Emits.of_eq
    · emits []
    rows [Syntax.CSharp.readElement, typeOf_other num]

omit hc ho in
theorem elementType_atom {t : String} (hk : KnownType w.p t) :
    Syntax.CSharp.elementType (Lang.CSharp.atom w.p t) = Syntax.CSharp.typeOf t := by
  unfold Lang.CSharp.atom
  cases T.usable.kind hk with
  | num n e ne num enum => simp [ne, enum, num, Syntax.CSharp.elementType, result_readPrim, Syntax.CSharp.typeOf]
  | text e num enum => subst e; rfl
  | enum e mem name ne num enum => simp [ne, enum, Syntax.CSharp.elementType, typeOf_other num]
  | struct s mem name ne num enum => simp [ne, enum, num, Syntax.CSharp.elementType, typeOf_other num]

theorem deserializer_emits {m : Variable} (hn : clean m.name = m.name) (hk : KnownType w.p m.vartype) (a : Nat) (obj : String) :
    Emits w (deserializer w w.p.depth m (obj ++ ".")) a
      (inside a (Syntax.CSharp.readStmt w.p obj a (Lang.CSharp.deserializer w.p m))) a := by
  unfold Lang.CSharp.deserializer Protocol.depth
  cases hl : m.isList with
  | false =>
    simp only [Bool.false_eq_true, if_false]
    exact deserializer_one T hc ho hl hn hk _ a obj
  | true =>
    have hn : replaceAll m.name [("[", "_"), ("]", "_"), (" ", "_")] = m.name := hn
    simp only [if_true]
    rw [deserializer, if_pos hl]
    simp only [T.listSize, codec_eq hc, emit_lift_ok, emit_pure_bind, T.type_known hk, typeOf_eq, hn]
    cases he : w.p.isEnum m.vartype with
    | false =>
      simp only [if_false, Bool.false_eq_true]
      apply Emits.of_eq
      · emits []
        apply Emits.level
        emits [deserializer_element T hc ho hk he _ _]
      rows [Syntax.CSharp.readStmt, Syntax.CSharp.block, result_readPrim, Syntax.CSharp.name, elementType_atom T hk, toString_cast]
    | true =>
      obtain ⟨e, h1⟩ : ∃ e, w.p.enum? m.vartype = some e := Option.isSome_iff_exists.1 he
      have hat : Lang.CSharp.atom w.p m.vartype = .enum (Lang.CSharp.readPrim e.encoding) m.vartype ∧ True := by
        cases T.usable.kind hk with
        | num m e ne num enum => rw [enum] at h1; cases h1
        | text e num enum => exact absurd (h1.symm.trans enum) (by simp)
        | enum e mem name ne num enum => rw [enum] at h1; cases h1; exact ⟨by simp [Lang.CSharp.atom, ne, enum], trivial⟩
        | struct s mem name ne num enum struct => rw [enum] at h1; cases h1
      simp only [if_true, Table.enum_eq h1, T.type_num, codec_eq hc, emit_lift_ok, emit_pure_bind]
      apply Emits.of_eq
      · emits []
        apply Emits.level
        emits []
      rows [Syntax.CSharp.readStmt, Syntax.CSharp.block, result_readPrim, Syntax.CSharp.name, show Syntax.CSharp.typeOf m.vartype = m.vartype by rw [← elementType_atom T hk, hat.1]; rfl, toString_cast, hat.1,
        Syntax.CSharp.elementType, Syntax.CSharp.readElement, Syntax.CSharp.readEnum]

omit hc ho in
theorem serializer_one {n t acc : String} (hk : KnownType w.p t) (fuel a : Nat) :
    Emits w (serializer w (fuel + 1) ⟨n, t, false⟩ acc) a
      (inside a (Syntax.CSharp.writeAtom w.p (w.p.enum? t).isSome (acc ++ n) n (Lang.CSharp.watom w.p t))) a := by
  rw [serializer, if_neg (by simp)]
  unfold Lang.CSharp.watom
  cases T.usable.kind hk with
  | num m e ne num enum =>
    have hi : Writer.isNum t = true := by rw [e]; cases m <;> rfl
    simp only [ne, Protocol.isEnum, enum, Option.isSome_none, hi, num, beq_iff_eq, Bool.false_eq_true, if_false, if_true]
    refine (Emits.line _).of_eq ?_
    rows [Syntax.CSharp.writeAtom]
  | text e num enum =>
    simp only [e, beq_self_eq_true, if_true, T.stringSize, emit_lift_ok, emit_pure_bind]
    apply Emits.of_eq
    · emits []
    rows [Syntax.CSharp.writeAtom]
  | enum e mem name ne num enum =>
    simp only [ne, Protocol.isEnum, enum, Option.isSome_some, Table.enum_eq enum, T.type_num, num, beq_iff_eq, if_false, if_true, emit_lift_ok, emit_pure_bind]
    refine (Emits.line _).of_eq ?_
    rows [Syntax.CSharp.writeAtom]
  | struct s mem name ne num enum struct =>
    have hi : Writer.isNum t = false := by simp [Writer.isNum, num]
    simp only [ne, Protocol.isEnum, enum, Option.isSome_none, hi, num, beq_iff_eq, Bool.false_eq_true, if_false]
    refine (Emits.line _).of_eq ?_
    rows [Syntax.CSharp.writeAtom]

omit hc ho in
theorem serializer_emits {m : Variable} (hk : KnownType w.p m.vartype) (a : Nat) :
    Emits w (serializer w w.p.depth m "this.") a
      (inside a (Syntax.CSharp.writeStmt w.p m.vartype (Lang.CSharp.serializer w.p m))) a := by
  unfold Lang.CSharp.serializer
  cases hl : m.isList with
  | false =>
    obtain ⟨n, t, l⟩ := m; cases hl
    exact serializer_one T hk _ a
  | true =>
    unfold Protocol.depth
    rw [serializer, if_pos hl]
    simp only [T.listSize, T.type_known hk, typeOf_eq, emit_lift_ok, emit_pure_bind]
    apply Emits.of_eq
    · emits [serializer_one T hk _ _]
    rows [Syntax.CSharp.writeStmt, Syntax.CSharp.block]

/-! ### Sizes -/

omit hc ho in
theorem genMeasurement_step {fuel lvl : Nat} {s : Struct} (hs : s ∈ w.p.structs ++ w.p.messages) {at_ : MPath}
    (ih : ∀ {v s'} {at_ : MPath} {lvl : Nat}, v ∈ s.members → s' ∈ w.p.structs → w.p.struct? v.vartype = some s' →
      ∃ ls n, measureStruct Lang.CSharp.style w.p fuel s' at_ lvl = some (ls, n) ∧
        Gives (genMeasurement w fuel s' (Syntax.path at_ ++ ".")) lvl (Syntax.CSharp.sizes.texts w.tab ls, n) lvl) :
    ∃ ls n, measureStruct Lang.CSharp.style w.p (fuel + 1) s at_ lvl = some (ls, n) ∧
      Gives (genMeasurement w (fuel + 1) s (Syntax.path at_ ++ ".")) lvl (Syntax.CSharp.sizes.texts w.tab ls, n) lvl := by
  rw [genMeasurement, measureStruct]
  simp only [structSimple_eq T.usable hs, emit_lift_ok, emit_pure_bind]
  by_cases hz : w.p.simpleStruct s = true
  · refine ⟨_, _, by rw [if_pos hz], ?_⟩
    simp only [hz, if_true, sizeOf_struct_eq T.usable hs hz, emit_lift_ok, emit_pure_bind]
    texts [texts_one, Syntax.SizeSyntax.line, Syntax.CSharp.sizes, Row.shown, repeated]
    exact .pure _
  · rw [if_neg hz, if_neg hz]
    rw [emit_eta fun _ => rfl]
    refine gives_struct (fun m hm => ?_) rfl (fun x => rfl)
    have hk := T.usable.types s hs m hm
    unfold measureMember
    cases hl : m.isList with
    | true =>
      simp only [simple_eq T.usable hk (.inr rfl), emit_lift_ok, emit_pure_bind, if_true]
      by_cases hs : w.p.simpleVar m true = true
      · refine ⟨_, _, if_pos hs, fun n ls => ?_⟩
        rw [if_pos hs, sizeOf_eq T.usable hk (.inr rfl) hs]
        texts [texts_one, Syntax.SizeSyntax.line, Syntax.CSharp.sizes, Row.shown, repeated, path_dot]
        exact .pure _
      rw [if_neg hs]
      by_cases ht : m.vartype = "string"
      · refine ⟨_, _, if_pos ht, fun n ls => ?_⟩
        rw [if_neg hs, if_pos (by simp [ht]), texts_loop csharp_full, texts_one]
        texts [Syntax.SizeSyntax.line, Syntax.CSharp.sizes, Row.shown, repeated, path_dot, Lang.CSharp.style, MStyle.element, path_root, ht,
          show Syntax.CSharp.typeOf "string" = "string" from rfl]
        exact .pure _
      rw [if_neg ht]
      obtain ⟨s', h1, h2, h3⟩ := struct_varying T.usable hk (.inr rfl) hs ht
      have hty : Syntax.CSharp.typeOf m.vartype = m.vartype := by
        cases T.usable.kind hk with
        | num n e ne num enum struct => rw [struct] at h2; cases h2
        | text e => exact absurd e ht
        | enum e mem name ne num enum struct => exact typeOf_other num
        | struct s mem name ne num => exact typeOf_other num
      obtain ⟨ls, n, h4, h5⟩ := ih (at_ := ⟨"el" ++ toString lvl, []⟩) (lvl := lvl + 1) hm h1 h2
      obtain ⟨ls, rfl⟩ := measured_init h3 h4
      refine ⟨_, _, by simp only [h2]; rw [show Lang.CSharp.style.element (Lang.CSharp.style.loopVar m.name lvl) (at_.dot m.name) = ⟨"el" ++ toString lvl, []⟩ from rfl, h4], fun k lines => ?_⟩
      rw [if_neg hs, if_neg (by simpa using ht), texts_loop csharp_full]
      have h6 : Gives (genMeasurement w fuel s' ("el" ++ (toString lvl ++ "."))) (lvl + 1)
          (Syntax.CSharp.sizes.texts w.tab (.init :: ls), n) (lvl + 1) := by
        rw [path_root, String.append_assoc] at h5; exact h5
      simp only [emit_bind_assoc]
      refine Gives.bind .level ?_
      simp only [T.type_known hk, typeOf_eq, struct_eq h2, emit_lift_ok, emit_pure_bind, toString_cast, cat_assoc, str_toString]
      refine Gives.bind .up ?_
      refine Gives.bind h6 ?_
      simp only [texts_cons, texts_append, texts_nil, dropInit, MLine.isInit, if_true]
      generalize Syntax.CSharp.sizes.texts w.tab ls = X
      refine Gives.bind (v := "int size = 0;") (.pure _) (.bind .down ?_)
      refine (Gives.pure _).of_eq ?_
      texts [Syntax.SizeSyntax.line, Syntax.CSharp.sizes, Row.shown, repeated, path_dot, Lang.CSharp.style, texts_one]
    | false =>
      simp only [simple_eq T.usable hk (.inl hl), emit_lift_ok, emit_pure_bind, if_false, Bool.false_eq_true]
      by_cases hs : w.p.simpleVar m false = true
      · refine ⟨_, _, if_pos hs, fun n ls => ?_⟩
        rw [if_pos hs, sizeOf_eq T.usable hk (.inl hl) hs]
        texts [Syntax.SizeSyntax.texts, Syntax.SizeSyntax.lines]
        exact .pure _
      rw [if_neg hs]
      by_cases ht : m.vartype = "string"
      · refine ⟨_, _, if_pos ht, fun n ls => ?_⟩
        rw [if_neg hs, if_pos (by simp [ht]), texts_one]
        texts [Syntax.SizeSyntax.line, Syntax.CSharp.sizes, Row.shown, repeated, path_dot]
        exact .pure _
      rw [if_neg ht]
      obtain ⟨s', h1, h2, h3⟩ := struct_varying T.usable hk (.inl hl) hs ht
      obtain ⟨ls, n, h4, h5⟩ := ih (at_ := at_.dot m.name) (lvl := lvl) hm h1 h2
      obtain ⟨ls, rfl⟩ := measured_init h3 h4
      refine ⟨_, _, by simp only [h2]; rw [show (if Lang.CSharp.style.inlineDeeper then lvl + 1 else lvl) = lvl from rfl, h4], fun k lines => ?_⟩
      rw [if_neg hs, if_neg (by simpa using ht)]
      have h6 : Gives (genMeasurement w fuel s' (toString (Syntax.path at_ ++ ".") ++ toString m.name ++ toString ".")) lvl
          (Syntax.CSharp.sizes.texts w.tab (.init :: ls), n) lvl := by
        rw [path_dot] at h5; exact h5
      simp only [struct_eq h2, emit_lift_ok, emit_pure_bind, emit_bind_assoc]
      refine Gives.bind h6 ?_
      simp only [texts_cons, dropInit, MLine.isInit, if_true]
      generalize Syntax.CSharp.sizes.texts w.tab ls = X
      refine Gives.bind (v := "int size = 0;") (.pure _) ?_
      refine (Gives.pure _).of_eq ?_
      texts [Syntax.SizeSyntax.line, Syntax.CSharp.sizes, Row.shown, repeated]

omit hc ho in
theorem genMeasurement_eq (fuel : Nat) {lvl : Nat} {s : Struct} (hs : s ∈ w.p.structs ++ w.p.messages)
    (hf : ∀ v ∈ s.members, fits w.p fuel v.vartype) {at_ : MPath} :
    ∃ ls n, measureStruct Lang.CSharp.style w.p (fuel + 1) s at_ lvl = some (ls, n) ∧
      Gives (genMeasurement w (fuel + 1) s (Syntax.path at_ ++ ".")) lvl (Syntax.CSharp.sizes.texts w.tab ls, n) lvl := by
  induction fuel generalizing s at_ lvl with
  | zero => exact genMeasurement_step T hs (fun hv _ he => absurd (he.symm.trans (hf _ hv)) (by simp))
  | succ fuel ih => exact genMeasurement_step T hs (fun hv hs' he => ih (by simp [hs']) (hf _ hv _ he))

omit hc ho in
theorem measureFun_eq {s : Struct} (hs : s ∈ w.p.structs ++ w.p.messages) (lvl : Nat) :
    ∃ ls n, Gives (genMeasurement w w.p.depth s "this.") lvl (Syntax.CSharp.sizes.texts w.tab ls, n) lvl ∧
      measureFun Lang.CSharp.style w.p s "this" lvl =
        some ⟨if n > 0 then ls ++ [.add n] else ls, decide ((Syntax.CSharp.sizes.texts w.tab ls).length > 1)⟩ := by
  obtain ⟨ls, n, h1, h2⟩ := genMeasurement_eq T (w.p.structs.length + 1) (lvl := lvl) hs
    (fun v _ => fits_succ (T.usable.fits v.vartype)) (at_ := ⟨"this", []⟩)
  refine ⟨ls, n, h2, ?_⟩
  unfold measureFun
  have : depth w.p = w.p.structs.length + 1 + 1 := rfl
  rw [this, h1, measured_length h1]
  rfl

/-! ### Structs and messages -/

omit hc ho in
theorem member_emits {m : Variable} (hk : KnownType w.p m.vartype) (a : Nat) :
    Emits w (do
      if m.isList then
        w.line s!"public List<{← w.type m.vartype}> {m.name} = new List<{← w.type m.vartype}>();"
      else
        let default : Option String := none
        let default ← (do
          if m.vartype == "string" then
            let default : Option String := some "\"\""
            pure default
          else if w.p.isEnum m.vartype then
            let e ← w.enum m.vartype
            let default : Option String := some (s!"{m.vartype}.{(← Writer.defaultPair e).1}")
            pure default
          else if w.p.isStruct m.vartype then
            let default : Option String := some (s!"new {m.vartype}()")
            pure default
          else
            pure default)
        w.line s!"public {← w.type m.vartype} {m.name}{(if (default.getD "") != "" then s!" = {default.getD "None"}" else "")};") a
      [⟨a, Syntax.CSharp.member w.p m⟩] a := by
  simp only [T.type_known hk, typeOf_eq, emit_lift_ok, emit_pure_bind]
  unfold Syntax.CSharp.member Syntax.CSharp.initialValue Lang.CSharp.default
  cases hl : m.isList with
  | true =>
    simp only [if_true]
    refine (Emits.line _).of_eq ?_
    rows [Syntax.InitialSyntax.expr, Syntax.CSharp.initial]
  | false =>
    simp only [Bool.false_eq_true, if_false]
    cases T.usable.kind hk with
    | num n e ne num enum hs =>
      simp only [ne, num, Protocol.isEnum, Protocol.isStruct, Option.isSome_none, beq_iff_eq, Bool.false_eq_true, if_false, enum, hs, emit_pure_bind]
      refine (Emits.line _).of_eq ?_
      texts []
    | text e num enum hs =>
      simp only [e, beq_self_eq_true, if_true, emit_pure_bind]
      refine (Emits.line _).of_eq ?_
      texts [Syntax.InitialSyntax.expr, Syntax.CSharp.initial]
    | enum e mem name ne num enum =>
      obtain ⟨x, h2, h3, h4⟩ := default_pair T.usable mem
      simp only [ne, Protocol.isEnum, enum, Option.isSome_some, Table.enum_eq enum, h2, h4, beq_iff_eq, if_false, if_true, emit_lift_ok, emit_pure_bind]
      refine (Emits.line _).of_eq ?_
      texts [Syntax.InitialSyntax.expr, Syntax.CSharp.initial, entryName_default enum h4]
    | struct s mem name ne num enum struct =>
      simp only [ne, Protocol.isEnum, Protocol.isStruct, enum, struct, Option.isSome_none, Option.isSome_some, beq_iff_eq, Bool.false_eq_true, if_false, if_true, emit_pure_bind]
      refine (Emits.line _).of_eq ?_
      texts [Syntax.InitialSyntax.expr, Syntax.CSharp.initial]

theorem genStruct_emits (hb : ∀ s ∈ w.p.structs ++ w.p.messages, ∀ m ∈ s.members, clean m.name = m.name)
    {s : Struct} (hs : s ∈ w.p.structs ++ w.p.messages) (a : Nat) :
    ∃ sz, measureFun Lang.CSharp.style w.p s "this" (a + 2) = some sz ∧
      Emits w (genStruct w s.name s) a (inside a (Syntax.CSharp.type w.p a s sz ++ flush [""])) a := by
  obtain ⟨ls, n, h1, h2⟩ := measureFun_eq T hs (a + 2)
  refine ⟨_, h2, ?_⟩
  unfold genStruct
  have hk := T.usable.types s hs
  have hb := hb s hs
  have hl : ∀ a, inside a (Syntax.CSharp.sizes.lines (if n > 0 then ls ++ [MLine.add n] else ls)) =
      inside a (Syntax.CSharp.sizes.lines ls) ++ if n > 0 then [⟨a, "size += " ++ (toString n ++ ";")⟩] else [] := by
    intro a
    split
    · rw [lines_append, inside_append]
      congr 1
      simp [Syntax.SizeSyntax.lines, Syntax.SizeSyntax.line, Syntax.CSharp.sizes, inside, flush, cat_assoc]
    · rw [List.append_nil]
  cases hm : s.isMessage with
  | true =>
    simp only [if_true, emit_pure_bind, emit_bind_assoc]
    apply Emits.of_eq
    · emits [Emits.each fun m hm => member_emits T (hk m hm) _]
      apply Gives.emits h1
      emits [Emits.texts ls _,
        Emits.each fun m hm => deserializer_emits T hc ho (hb m hm) (hk m hm) _ _,
        Emits.each fun m hm => serializer_emits T (hk m hm) _,
        Emits.ite (fun _ => Emits.line _) (fun _ => Emits.pure)]
    rows [Syntax.CSharp.type, Syntax.CSharp.size, Syntax.CSharp.reader, Syntax.CSharp.readBody, Syntax.CSharp.block,
        Syntax.CSharp.writer, hm, hl, Lang.CSharp.fromBytes, Lang.CSharp.writeBytes, zip_map]
  | false =>
    simp only [if_false, Bool.false_eq_true, emit_pure_bind]
    apply Emits.of_eq
    · emits [Emits.each fun m hm => member_emits T (hk m hm) _,
        Emits.each fun m hm => deserializer_emits T hc ho (hb m hm) (hk m hm) _ _,
        Emits.each fun m hm => serializer_emits T (hk m hm) _]
    rows [Syntax.CSharp.type, Syntax.CSharp.reader, Syntax.CSharp.readBody, Syntax.CSharp.block,
        Syntax.CSharp.writer, hm, Lang.CSharp.fromBytes, Lang.CSharp.writeBytes, zip_map]

omit hc ho in
theorem genEnum_emits (e : Enum) (a : Nat) :
    Emits w (genEnum w e.name e) a (inside a (Syntax.CSharp.enum e ++ flush [""])) a := by
  unfold genEnum
  simp only [T.type_num, emit_lift_ok, emit_pure_bind]
  apply Emits.of_eq
  · emits [Emits.each fun x _ => Emits.line _]
  rows [Syntax.CSharp.enum, Syntax.CSharp.block]

/-! ### The file -/

omit T hc ho

/-- What the file contains; `k` is how far inside. -/
def Contained (p : Protocol) (k : Nat) (rs : List Row) : Prop :=
  (∃ e ∈ p.enums, rs = Syntax.CSharp.enum e) ∨
  (∃ s ∈ p.structs ++ p.messages, ∃ sz, measureFun Lang.CSharp.style p s "this" (k + 2) = some sz ∧
    rs = Syntax.CSharp.type p k s sz) ∨
  rs = Syntax.CSharp.messageTypes (messageArms p 1) ∨
  rs = inside 1 (Syntax.CSharp.process (messageArms p 1)) ∨
  Library rs

/-- The lines for one message. -/
def armLines (m : Struct) : List String := ["                case (byte)MessageType." ++ m.name ++ "Type:",
  "                    msgList.Add(" ++ m.name ++ ".FromBytes(br));", "                    break;"]

/-- The rows before those of the messages. -/
def processHead : List Row := [⟨1, "public static Message[] ProcessRawBytes(BinaryReader br, int max)"⟩, ⟨1, "{"⟩,
  ⟨2, "List<Message> msgList = new List<Message>();"⟩, ⟨2, "if (max == 0)"⟩, ⟨2, "{"⟩, ⟨3, "return msgList.ToArray();"⟩, ⟨2, "}"⟩,
  ⟨2, "while (br.BaseStream.Position < br.BaseStream.Length && (max < 0 || msgList.Count < max))"⟩, ⟨2, "{"⟩,
  ⟨3, "byte msgType = br.ReadByte();"⟩, ⟨3, "switch (msgType)"⟩, ⟨3, "{"⟩, ⟨4, "case 0:"⟩, ⟨5, "return msgList.ToArray();"⟩]

/-- The rows after those of the messages. -/
def processTail : List Row := [⟨4, "default:"⟩,
  ⟨5, "throw new UnknownMessageTypeException(String.Format(\"Unknown message type: {0}\", msgType));"⟩, ⟨3, "}"⟩, ⟨2, "}"⟩,
  ⟨2, "return msgList.ToArray();"⟩, ⟨1, "}"⟩]

/-- The rows of one message. -/
def armRows (m : String) : List Row := [⟨4, "case (byte)MessageType." ++ m ++ "Type:"⟩,
  ⟨5, "msgList.Add(" ++ m ++ ".FromBytes(br));"⟩, ⟨5, "break;"⟩]

theorem process_eq (arms : List (Nat × String)) :
    inside 1 (Syntax.CSharp.process arms) = processHead ++ (arms.flatMap (armRows ·.2) ++ processTail) := by
  rows [Syntax.CSharp.process, Syntax.CSharp.block, processHead, processTail, armRows]

theorem process_tidy (arms : List (Nat × String)) : ∀ r ∈ inside 1 (Syntax.CSharp.process arms), tidy r.text = true := by
  rw [process_eq]
  intro r hr
  rcases List.mem_append.1 hr with hr | hr
  · exact (by decide : ∀ r ∈ processHead, tidy r.text = true) r hr
  rcases List.mem_append.1 hr with hr | hr
  · obtain ⟨a, _, ha⟩ := List.mem_flatMap.1 hr
    simp only [armRows, List.mem_cons, List.not_mem_nil, or_false] at ha
    rcases ha with rfl | rfl | rfl
    · exact tidy_of_inked (inked_append (inked_append (by decide) _) _)
    · exact tidy_of_inked (inked_append (inked_append (by decide) _) _)
    · decide
  · exact (by decide : ∀ r ∈ processTail, tidy r.text = true) r hr

theorem shown_pad {k : Nat} {pad t : String} (h : repeated k "    " = pad) (ht : inked t = true) :
    Row.shown "    " ⟨k, t⟩ = pad ++ t := by
  subst h; rw [Row.shown, if_neg (inked_ne ht)]

theorem armRows_shown (m : Struct) : (armRows m.name).map (Row.shown "    ") = armLines m := by
  have h4 : repeated 4 "    " = "                " := by decide +kernel
  have h5 : repeated 5 "    " = "                    " := by decide +kernel
  simp only [armRows, armLines, List.map_cons, List.map_nil]
  rw [shown_pad h4 (inked_append (inked_append (by decide) _) _), shown_pad h5 (inked_append (inked_append (by decide) _) _),
    shown_pad h5 (by decide), ← String.append_assoc, ← String.append_assoc, ← String.append_assoc, ← String.append_assoc]
  rfl

theorem process_boilerplate (p : Protocol) :
    (inside 1 (Syntax.CSharp.process (messageArms p 1))).map (Row.shown "    ") <:+:
      [("{# MESSAGE_TYPE_CASES #}", Sub.lines (p.messages.flatMap armLines))].foldl substitute Boilerplate.cSharp1 := by
  refine ⟨Boilerplate.cSharp1.take 28, Boilerplate.cSharp1.drop 49, ?_⟩
  have h : Boilerplate.cSharp1 = (Boilerplate.cSharp1.take 28 ++ (Boilerplate.cSharp1.drop 28).take 14) ++
    "{# MESSAGE_TYPE_CASES #}" :: ((Boilerplate.cSharp1.drop 43).take 6 ++ Boilerplate.cSharp1.drop 49) := by rfl
  have h1 : processHead.map (Row.shown "    ") = (Boilerplate.cSharp1.drop 28).take 14 := by decide +kernel
  have h2 : processTail.map (Row.shown "    ") = (Boilerplate.cSharp1.drop 43).take 6 := by decide +kernel
  have ha : ((messageArms p 1).flatMap (armRows ·.2)).map (Row.shown "    ") = p.messages.flatMap armLines := by
    rw [List.map_flatMap, messageArms, List.flatMap_map]
    simp only [armRows_shown]
    exact (flatMap_index p.messages 0 _).symm
  rw [List.foldl_cons, List.foldl_nil]
  conv_rhs => rw [h]
  rw [substitute_lines (by decide +kernel) (by decide +kernel), process_eq, List.map_append, List.map_append, h1, h2, ha]
  simp only [List.append_assoc]

/-! #### All of it -/

section
variable {rs : List Row} (k : Nat) (hb : ∀ s ∈ w.p.structs ++ w.p.messages, ∀ m ∈ s.members, clean m.name = m.name)
include T

theorem enums_steps : Steps (each w.p.enums fun e => genEnum w e.name e) k k Any :=
  .each fun e _ => (genEnum_emits T e k).steps

theorem enums_puts {e : Enum} (he : e ∈ w.p.enums) :
    Puts w.tab (each w.p.enums fun e => genEnum w e.name e) k (inside k (Syntax.CSharp.enum e)) :=
  .each (fun e _ => (genEnum_emits T e k).steps) he
    ((genEnum_emits T e k).puts (by rw [inside_append]; exact (List.prefix_append _ _).isInfix))

include hc ho hb

theorem structs_steps {l : List Struct} (h : ∀ s ∈ l, s ∈ w.p.structs ++ w.p.messages) :
    Steps (each l fun s => genStruct w s.name s) k k Any :=
  .each fun s hs => (genStruct_emits T hc ho hb (h s hs) k).choose_spec.2.steps

theorem structs_puts {l : List Struct} (h : ∀ s ∈ l, s ∈ w.p.structs ++ w.p.messages)
    {s : Struct} (hs : s ∈ l) {sz : MFun} (hz : measureFun Lang.CSharp.style w.p s "this" (k + 2) = some sz) :
    Puts w.tab (each l fun s => genStruct w s.name s) k (inside k (Syntax.CSharp.type w.p k s sz)) := by
  refine .each (fun s hs => (genStruct_emits T hc ho hb (h s hs) k).choose_spec.2.steps) hs ?_
  obtain ⟨sz', h1, h2⟩ := genStruct_emits T hc ho hb (h s hs) k
  cases hz.symm.trans h1
  exact h2.puts (by rw [inside_append]; exact (List.prefix_append _ _).isInfix)

/-- The part of the file that can be inside a namespace. -/
theorem inner_puts (h1 : w.boilerplate 1 = Boilerplate.cSharp1) (h2 : w.nativeTab = "    ")
    {rest : Unit → Emit Unit} {j : Nat} (hr : Steps (rest ()) k j Any) (h : Contained w.p k rs) :
    Puts w.tab (do
      w.addBoilerplate [("{# MESSAGE_TYPE_CASES #}", .lines ([] ++ w.p.messages.flatMap armLines))] 1
      w.line "public enum MessageType"
      w.line "{"
      shift 1
      each w.p.messages.zipIdx fun x => w.line s!"{x.1.name}Type = {(x.2 + 1)},"
      shift (-1)
      w.line "}"
      w.blank
      each w.p.enums fun edata => do
        genEnum w edata.name edata
      each w.p.structs fun sdata => do
        genStruct w sdata.name sdata
      each w.p.messages fun mdata => do
        genStruct w mdata.name mdata
      rest ()) k (inside k rs) := by
  have he := enums_steps T k
  have hs := structs_steps T hc ho k hb (l := w.p.structs) fun s hs => List.mem_append_left _ hs
  have hm := structs_steps T hc ho k hb (l := w.p.messages) fun s hs => List.mem_append_right _ hs
  rcases h with ⟨e, h, rfl⟩ | ⟨s, h, sz, hz, rfl⟩ | rfl | rfl | h
  · have k := enums_puts T k h
    find_puts [k.left he fun _ _ => hs.bind fun _ _ => hm.bind fun _ _ => hr] []
  · rcases List.mem_append.1 h with h | h
    · have k := structs_puts T hc ho k hb (l := w.p.structs) (fun s hs => List.mem_append_left _ hs) h hz
      find_puts [k.left hs fun _ _ => hm.bind fun _ _ => hr] [he]
    · have k := structs_puts T hc ho k hb (l := w.p.messages) (fun s hs => List.mem_append_right _ hs) h hz
      find_puts [k.left hm fun _ _ => hr] [he, hs]
  · skip_line []
    apply Starts.puts
    apply Starts.of_eq
    · starts [Emits.each fun _ _ => Emits.line _]
      steps [he, hs, hm, hr]
    rows [Syntax.CSharp.messageTypes, Syntax.CSharp.block, messageArms]
  · have hp := Puts.boilerplate (w := w) (n := 1) (k := k) (subs := [("{# MESSAGE_TYPE_CASES #}", .lines (w.p.messages.flatMap armLines))])
      (by rw [h2]; decide) (process_tidy (messageArms w.p 1)) (by rw [h1, h2]; exact process_boilerplate w.p)
    refine Puts.left (c := j) (Q := Any) hp Steps.boilerplate fun _ _ => ?_
    steps [he, hs, hm, hr]
  · refine Puts.left (c := j) (Q := Any) (library_puts h1 h2 h) Steps.boilerplate fun _ _ => ?_
    steps [he, hs, hm, hr]

/-- Without a namespace. -/
theorem generate_puts_none (h1 : w.boilerplate 1 = Boilerplate.cSharp1) (h2 : w.nativeTab = "    ")
    (hn : w.nsTrue = false) (h : Contained w.p 0 rs) : Puts w.tab (generate w) 0 (inside 0 rs) := by
  unfold generate
  simp only [hn, if_false, Bool.false_eq_true, emit_pure_bind]
  rw [eachWith_collect (g := armLines) (fun b x => by simp [armLines, str_toString])]
  simp only [emit_pure_bind]
  iterate 6 skip_line []
  exact inner_puts T hc ho 0 hb h1 h2 (j := 0) (rest := fun _ => do w.blank; assertBalanced) (by steps []) h

/-- Inside a namespace. -/
theorem generate_puts_some (h1 : w.boilerplate 1 = Boilerplate.cSharp1) (h2 : w.nativeTab = "    ")
    (hn : w.nsTrue = true) {n : String} (ht : w.nsText = .ok n) (h : Contained w.p 1 rs) : Puts w.tab (generate w) 0 (inside 1 rs) := by
  unfold generate
  simp only [hn, ht, if_true, emit_lift_ok, emit_pure_bind]
  rw [eachWith_collect (g := armLines) (fun b x => by simp [armLines, str_toString])]
  simp only [emit_pure_bind]
  iterate 7 skip_line []
  exact inner_puts T hc ho 1 hb h1 h2 (j := 0) (rest := fun _ => do
    (do
      shift (-1)
      w.line "}")
    w.blank
    assertBalanced) (by steps []) h

end

end Beschi.Text.CSharp.Link
