import Verif.Syntax.Go
import Verif.Text.Go
import Verif.Text.Lookup
import Verif.Text.GoLibrary
/-
The text written for Go is that of the functions in Verif/Lang/Go.lean.
-/
namespace Beschi.Text.Go.Link
open Beschi.Spec Beschi.Lang

variable {w : Writer} (T : Table w Lang.Go.native "string")

theorem go_full : Syntax.Go.sizes.Full where
  init := by decide
  ret n := by simp [Syntax.Go.sizes, str_toString]
  add n := by simp [Syntax.Go.sizes, str_toString]
  addCount a n := by simp [Syntax.Go.sizes, str_toString]
  addText a := by simp [Syntax.Go.sizes, str_toString]
  addTextPlus k a := by simp [Syntax.Go.sizes, str_toString]
  loop v t a l hl := by simp [Syntax.Go.sizes] at hl; subst hl; simp [str_toString]
  close := by decide

theorem level_bind {f : Int → Emit Unit} {a b : Nat} {r : List Row} (h : Emits w (f a) a r b) : Emits w (level >>= f) a r b := h

theorem readFixed_eq (t : String) :
    Syntax.Go.readFixed t = "binary.Read(data, binary.LittleEndian, &" ++ (t ++ ")") := by
  delta Syntax.Go.readFixed
  simp only [str_toString, cat_assoc]

theorem writeFixed_eq (t : String) :
    Syntax.Go.writeFixed t = "binary.Write(data, binary.LittleEndian, " ++ (t ++ ")") := by
  delta Syntax.Go.writeFixed
  simp only [str_toString, cat_assoc]

theorem loop_eq (p : Protocol) (x : String) : Syntax.Go.loop p x =
    "for i1 := (" ++ (Lang.Go.native p.listSize ++ (")(0); i1 < " ++ (x ++ "_Len; i1++ {"))) := by
  delta Syntax.Go.loop
  simp only [str_toString, cat_assoc]

theorem level_one : toString ((1 : Nat) : Int) = "1" := rfl

theorem typeOf_eq (t : String) : nativeType Lang.Go.native "string" t = Syntax.Go.typeOf t := by
  unfold nativeType Syntax.Go.typeOf
  cases NumTy.ofName? t with
  | some n => rfl
  | none =>
    simp only []
    split
    · exact (‹t = "string"›).symm
    · rfl

include T

/-- Reading of one value that is not of an enum type. -/
theorem deserializer_one {n t x : String} (hk : KnownType w.p t) (he : w.p.isEnum t = false) (fuel a : Nat) (acc : String) (r : Bool) :
    Emits w (deserializer w (fuel + 1) ⟨n, t, false⟩ acc r true) a
      (inside a (Syntax.Go.readAtom (if r then "" else "nil, ") acc x (acc ++ "." ++ n) (Lang.Go.atom w.p t))) a := by
  rw [deserializer, if_neg (by simp)]
  unfold Lang.Go.atom
  have hsim := simple_eq T.usable (v := ⟨n, t, false⟩) (listed := false) hk (.inl rfl)
  have hat : w.p.simpleVar ⟨"", t, false⟩ false = w.p.simpleVar ⟨n, t, false⟩ false := rfl
  have hno : w.p.enum? t = none := by simpa [Protocol.isEnum] using he
  rw [hat]
  by_cases ht : t = "string"
  · simp only [ht, beq_self_eq_true, if_true]
    apply Emits.of_eq
    · emits []
    rows [Syntax.Go.readAtom, Syntax.Go.check]
  · simp only [ht, he, hno, hsim, beq_iff_eq, if_false, Bool.false_eq_true, emit_lift_ok, emit_pure_bind, Option.isSome_none]
    by_cases hz : w.p.simpleVar ⟨n, t, false⟩ false = true
    · simp only [hz, if_true]
      apply Emits.of_eq
      · emits []
      rows [Syntax.Go.readAtom, Syntax.Go.check, readFixed_eq]
    · simp only [hz, if_false, Bool.false_eq_true]
      apply Emits.of_eq
      · emits []
      rows [Syntax.Go.readAtom]

theorem deserializer_emits {m : Variable} (hk : KnownType w.p m.vartype) (acc : String) (r : Bool) :
    Emits w (deserializer w w.p.depth m acc r true) 1
      (inside 1 (Syntax.Go.readMember w.p (if r then "" else "nil, ") acc m)) 1 := by
  unfold Syntax.Go.readMember
  unfold Protocol.depth
  have hat : ∀ t, w.p.isEnum t = true → KnownType w.p t → Lang.Go.atom w.p t = .enum t ∧ (t == "string") = false := by
    intro t h h2
    cases T.usable.kind h2 with
    | num m e ne num enum => simp [Protocol.isEnum, enum] at h
    | text e num enum => subst e; simp [Protocol.isEnum, enum] at h
    | enum e mem name ne num enum => exact ⟨by simp [Lang.Go.atom, ne, enum], by simp [ne]⟩
    | struct s mem name ne num enum struct => simp [Protocol.isEnum, enum] at h
  cases hl : m.isList with
  | false =>
    simp only [if_false, Bool.false_eq_true]
    cases he : w.p.isEnum m.vartype with
    | false =>
      obtain ⟨n, t, l⟩ := m; cases hl
      refine (deserializer_one (x := n) (n := n) T hk he (w.p.structs.length + 1) 1 acc r).of_eq ?_
      texts []
    | true =>
      obtain ⟨h1, h2⟩ := hat _ he hk
      rw [deserializer, if_neg (by simp [hl])]
      simp only [h1, h2, he, Bool.false_eq_true, if_false, if_true]
      apply Emits.of_eq
      · emits []
      rows [Syntax.Go.readAtom, Syntax.Go.check, readFixed_eq]
  | true =>
    simp only [if_true]
    rw [deserializer, if_pos hl]
    simp only [T.listSize, emit_lift_ok, emit_pure_bind, T.type_known hk, typeOf_eq]
    cases he : w.p.isEnum m.vartype with
    | false =>
      simp only [if_false, Bool.false_eq_true]
      apply Emits.of_eq
      · emits []
        apply level_bind
        emits [deserializer_one (x := m.name) T hk he _ _ _ _]
      rows [Syntax.Go.check, readFixed_eq, loop_eq, level_one]
    | true =>
      obtain ⟨h1, h2⟩ := hat _ he hk
      simp only [if_true]
      apply Emits.of_eq
      · emits []
        apply level_bind
        emits []
      rows [h1, Syntax.Go.readAtom, Syntax.Go.check, readFixed_eq, loop_eq, level_one]

omit T in
theorem writeAtom_num (e k : String) :
    Syntax.Go.writeAtom w.p e (.num k) = "binary.Write(data, binary.LittleEndian, &" ++ (e ++ ")") := by
  delta Syntax.Go.writeAtom
  dsimp only
  rw [writeFixed_eq]
  rows []

omit T in
theorem writeAtom_text (e : String) :
    Syntax.Go.writeAtom w.p e .text = "writeString(data, &" ++ (e ++ ")") := by
  delta Syntax.Go.writeAtom
  dsimp only
  rows []

omit T in
theorem writeAtom_call (e s : String) :
    Syntax.Go.writeAtom w.p e (.call s) =
      if Syntax.Go.whole w.p s then "binary.Write(data, binary.LittleEndian, &" ++ (e ++ ")")
      else e ++ ".WriteBytes(data)" := by
  delta Syntax.Go.writeAtom
  dsimp only
  rw [writeFixed_eq]
  split <;> rows []

theorem serializer_one {n t : String} (hk : KnownType w.p t) (fuel a : Nat) :
    Emits w (serializer w (fuel + 1) ⟨n, t, false⟩ "output") a
      [⟨a, Syntax.Go.writeAtom w.p ("output." ++ n) (Lang.Go.watom w.p t)⟩] a := by
  rw [serializer, if_neg (by simp)]
  unfold Lang.Go.watom
  have hsim := simple_eq T.usable (v := ⟨n, t, false⟩) (listed := false) hk (.inl rfl)
  cases T.usable.kind hk with
  | num m e ne num enum =>
    subst e
    have hz : w.p.simpleVar ⟨n, m.name, false⟩ false = true :=
      (simpleVar_spec T.usable (.inl rfl) hk).2.2 (varying_num T.usable m)
    simp only [ne, Protocol.isEnum, enum, Option.isSome_none, hsim, hz, num, beq_iff_eq, Bool.false_eq_true, if_false, if_true, emit_lift_ok, emit_pure_bind]
    refine (Emits.line _).of_eq ?_
    rows [writeAtom_num, writeAtom_text, writeAtom_call, writeFixed_eq]
  | text e num enum =>
    subst e
    simp only [beq_self_eq_true, if_true, num]
    refine (Emits.line _).of_eq ?_
    rows [writeAtom_num, writeAtom_text, writeAtom_call]
  | enum e mem name ne num enum =>
    simp only [ne, Protocol.isEnum, enum, Option.isSome_some, Table.enum_eq enum, num, beq_iff_eq, if_false, if_true, emit_lift_ok, emit_pure_bind]
    refine (Emits.line _).of_eq ?_
    rows [writeAtom_num, writeAtom_text, writeAtom_call, writeFixed_eq]
  | struct s mem name ne num enum struct =>
    simp only [ne, Protocol.isEnum, enum, Option.isSome_none, hsim, num, beq_iff_eq, Bool.false_eq_true, if_false, emit_lift_ok, emit_pure_bind]
    have hw : Syntax.Go.whole w.p t = w.p.simpleVar ⟨n, t, false⟩ false := by
      unfold Syntax.Go.whole
      rw [struct]
      rw [Bool.eq_iff_iff, (simpleStruct_spec T.usable (T.usable.types s (by simp [mem]))).2, (simpleVar_spec T.usable (.inl rfl) hk).2]
      rw [← name, varying_struct T.usable mem]
    by_cases hz : w.p.simpleVar ⟨n, t, false⟩ false = true
    · simp only [hz, if_true]
      refine (Emits.line _).of_eq ?_
      rows [writeAtom_num, writeAtom_text, writeAtom_call, writeFixed_eq, hw, hz]
    · simp only [hz, if_false, Bool.false_eq_true]
      refine (Emits.line _).of_eq ?_
      rows [writeAtom_num, writeAtom_text, writeAtom_call, hw, hz]

theorem serializer_emits {m : Variable} (hk : KnownType w.p m.vartype) :
    Emits w (serializer w w.p.depth m "output") 1
      (inside 1 (Syntax.Go.writeStmt w.p (Lang.Go.serializer w.p m))) 1 := by
  unfold Lang.Go.serializer
  cases hl : m.isList with
  | false =>
    obtain ⟨n, t, l⟩ := m; cases hl
    refine (serializer_one T hk _ 1).of_eq ?_
    rows [Syntax.Go.writeStmt]
  | true =>
    unfold Protocol.depth
    rw [serializer, if_pos hl]
    simp only [T.listSize, emit_lift_ok, emit_pure_bind]
    apply Emits.of_eq
    · emits []
      apply level_bind
      emits [serializer_one T hk _ _]
    rows [Syntax.Go.writeStmt, writeFixed_eq, loop_eq, level_one]

theorem genMeasurement_step {fuel lvl : Nat} {s : Struct} (hs : s ∈ w.p.structs ++ w.p.messages) {at_ : MPath}
    (ih : ∀ {v s'} {at_ : MPath} {lvl : Nat}, v ∈ s.members → s' ∈ w.p.structs → w.p.struct? v.vartype = some s' →
      ∃ ls n, measureStruct Lang.Go.style w.p fuel s' at_ lvl = some (ls, n) ∧
        genMeasurement w fuel s' (Syntax.path at_ ++ ".") = pure (Syntax.Go.sizes.texts w.tab ls, n)) :
    ∃ ls n, measureStruct Lang.Go.style w.p (fuel + 1) s at_ lvl = some (ls, n) ∧
      genMeasurement w (fuel + 1) s (Syntax.path at_ ++ ".") = pure (Syntax.Go.sizes.texts w.tab ls, n) := by
  rw [genMeasurement, measureStruct]
  simp only [structSimple_eq T.usable hs, emit_lift_ok, emit_pure_bind]
  by_cases hz : w.p.simpleStruct s = true
  · refine ⟨_, _, by rw [if_pos hz], ?_⟩
    simp only [hz, if_true, sizeOf_struct_eq T.usable hs hz, emit_lift_ok, emit_pure_bind]
    texts [texts_one, Syntax.SizeSyntax.line, Syntax.Go.sizes, Row.shown, repeated]
  · rw [if_neg hz, if_neg hz]
    rw [emit_eta fun _ => rfl]
    refine measured_struct (fun m hm => ?_) rfl (fun x => rfl)
    have hk := T.usable.types s hs m hm
    unfold measureMember
    cases hl : m.isList with
    | true =>
      simp only [simple_eq T.usable hk (.inr rfl), emit_lift_ok, emit_pure_bind, if_true]
      by_cases hs : w.p.simpleVar m true = true
      · refine ⟨_, _, if_pos hs, fun n ls => ?_⟩
        rw [if_pos hs, sizeOf_eq T.usable hk (.inr rfl) hs]
        texts [texts_one, Syntax.SizeSyntax.line, Syntax.Go.sizes, Row.shown, repeated, path_dot]
      rw [if_neg hs]
      by_cases ht : m.vartype = "string"
      · refine ⟨_, _, if_pos ht, fun n ls => ?_⟩
        rw [if_neg hs, if_pos (by simp [ht]), texts_loop go_full, texts_one]
        texts [Syntax.SizeSyntax.line, Syntax.Go.sizes, Row.shown, repeated, path_dot, Lang.Go.style, MStyle.element, path_root]
      rw [if_neg ht]
      obtain ⟨s', h1, h2, h3⟩ := struct_varying T.usable hk (.inr rfl) hs ht
      obtain ⟨ls, n, h4, h5⟩ := ih (at_ := ⟨"el", []⟩) (lvl := lvl + 1) hm h1 h2
      obtain ⟨ls, rfl⟩ := measured_init h3 h4
      refine ⟨_, _, by simp only [h2]; rw [show Lang.Go.style.element (Lang.Go.style.loopVar m.name lvl) (at_.dot m.name) = ⟨"el", []⟩ from rfl, h4], fun k lines => ?_⟩
      rw [if_neg hs, if_neg (by simpa using ht), texts_loop go_full]
      have h6 : genMeasurement w fuel s' "el." =
          pure (Syntax.Go.sizes.texts w.tab (.init :: ls), n) := by
        rw [path_root] at h5; exact h5
      simp only [struct_eq h2, emit_lift_ok, emit_pure_bind, h6, texts_cons, texts_append, texts_nil, dropInit, MLine.isInit, if_true]
      generalize Syntax.Go.sizes.texts w.tab ls = X
      texts [Syntax.SizeSyntax.line, Syntax.Go.sizes, Row.shown, repeated, path_dot, Lang.Go.style, headLine, texts_one, dropInit, MLine.isInit]
    | false =>
      simp only [simple_eq T.usable hk (.inl hl), emit_lift_ok, emit_pure_bind, if_false, Bool.false_eq_true]
      by_cases hs : w.p.simpleVar m false = true
      · refine ⟨_, _, if_pos hs, fun n ls => ?_⟩
        rw [if_pos hs, sizeOf_eq T.usable hk (.inl hl) hs]
        texts [Syntax.SizeSyntax.texts, Syntax.SizeSyntax.lines]
      rw [if_neg hs]
      by_cases ht : m.vartype = "string"
      · refine ⟨_, _, if_pos ht, fun n ls => ?_⟩
        rw [if_neg hs, if_pos (by simp [ht]), texts_one]
        texts [Syntax.SizeSyntax.line, Syntax.Go.sizes, Row.shown, repeated, path_dot]
      rw [if_neg ht]
      obtain ⟨s', h1, h2, h3⟩ := struct_varying T.usable hk (.inl hl) hs ht
      obtain ⟨ls, n, h4, h5⟩ := ih (at_ := at_.dot m.name) (lvl := lvl) hm h1 h2
      obtain ⟨ls, rfl⟩ := measured_init h3 h4
      refine ⟨_, _, by simp only [h2]; rw [show (if Lang.Go.style.inlineDeeper then lvl + 1 else lvl) = lvl from rfl, h4], fun k lines => ?_⟩
      rw [if_neg hs, if_neg (by simpa using ht)]
      have h6 : genMeasurement w fuel s' (toString (Syntax.path at_ ++ ".") ++ toString m.name ++ toString ".") =
          pure (Syntax.Go.sizes.texts w.tab (.init :: ls), n) := by
        rw [path_dot] at h5; exact h5
      simp only [struct_eq h2, emit_lift_ok, emit_pure_bind, h6, texts_cons, dropInit, MLine.isInit, if_true]
      generalize Syntax.Go.sizes.texts w.tab ls = X
      texts [Syntax.SizeSyntax.line, Syntax.Go.sizes, Row.shown, repeated, headLine, dropInit, MLine.isInit]

theorem genMeasurement_eq (fuel : Nat) {lvl : Nat} {s : Struct} (hs : s ∈ w.p.structs ++ w.p.messages)
    (hf : ∀ v ∈ s.members, fits w.p fuel v.vartype) {at_ : MPath} :
    ∃ ls n, measureStruct Lang.Go.style w.p (fuel + 1) s at_ lvl = some (ls, n) ∧
      genMeasurement w (fuel + 1) s (Syntax.path at_ ++ ".") = pure (Syntax.Go.sizes.texts w.tab ls, n) := by
  induction fuel generalizing s at_ lvl with
  | zero => exact genMeasurement_step T hs (fun hv _ he => absurd (he.symm.trans (hf _ hv)) (by simp))
  | succ fuel ih => exact genMeasurement_step T hs (fun hv hs' he => ih (by simp [hs']) (hf _ hv _ he))

theorem measureFun_eq {s : Struct} (hs : s ∈ w.p.structs ++ w.p.messages) :
    ∃ ls n, genMeasurement w w.p.depth s "output." = pure (Syntax.Go.sizes.texts w.tab ls, n) ∧
      measureFun Lang.Go.style w.p s "output" 0 =
        some ⟨if n > 0 then ls ++ [.add n] else ls, decide ((Syntax.Go.sizes.texts w.tab ls).length > 1)⟩ := by
  obtain ⟨ls, n, h1, h2⟩ := genMeasurement_eq T (w.p.structs.length + 1) (lvl := 0) hs
    (fun v _ => fits_succ (T.usable.fits v.vartype)) (at_ := ⟨"output", []⟩)
  refine ⟨ls, n, h2, ?_⟩
  unfold measureFun
  have : depth w.p = w.p.structs.length + 1 + 1 := rfl
  rw [this, h1, measured_length h1]
  rfl



omit T in
theorem anyMember_eq {f : Variable → Except Exn Bool} {g : Variable → Bool} {ms : List Variable}
    (h : ∀ m ∈ ms, f m = .ok (g m)) : anyMember ms f = .ok (ms.any g) := by
  induction ms with
  | nil => rfl
  | cons m ms ih =>
    rw [anyMember, h m (by simp)]
    show (if g m = true then _ else _) = _
    rw [ih fun x hx => h x (by simp [hx])]
    cases hg : g m <;> simp [hg, pure, Except.pure]

omit T in
theorem hasEnums_eq (fuel : Nat) {s : Struct} (hf : ∀ v ∈ s.members, fits w.p fuel v.vartype) :
    structHasEnums w (fuel + 1) s = .ok (Lang.Go.hasEnums w.p (fuel + 1) s) := by
  induction fuel generalizing s with
  | zero =>
    rw [structHasEnums, Lang.Go.hasEnums]
    refine anyMember_eq fun m hm => ?_
    have : w.p.struct? m.vartype = none := hf m hm
    simp only [Protocol.isEnum, Protocol.isStruct, this]
    cases w.p.enum? m.vartype <;> rfl
  | succ fuel ih =>
    rw [structHasEnums, Lang.Go.hasEnums]
    refine anyMember_eq fun m hm => ?_
    simp only [Protocol.isEnum, Protocol.isStruct]
    by_cases he : (w.p.enum? m.vartype).isSome = true
    · simp only [he, if_true]; rfl
    · simp only [he, if_false, Bool.false_eq_true]
      obtain hs | ⟨s', hs⟩ : w.p.struct? m.vartype = none ∨ ∃ s', w.p.struct? m.vartype = some s' := by
        cases w.p.struct? m.vartype <;> simp
      · simp only [hs, Option.isSome_none, Bool.false_eq_true, if_false]; rfl
      · simp only [hs, Option.isSome_some, if_true, struct_eq hs, emit_lift_ok]
        exact ih (hf m hm _ hs)

theorem hasEnums_depth (s : Struct) : structHasEnums w w.p.depth s = .ok (Lang.Go.hasEnums w.p (depth w.p) s) :=
  hasEnums_eq _ fun v _ => fits_succ (T.usable.fits v.vartype)

omit T in
theorem eachWith_emits {α β : Type} {xs : List α} {f : β → α → Emit β} {g : α → List Row} {k : β → Emit Unit} {a c : Nat}
    {r : List Row}
    (h : ∀ b, ∀ x ∈ xs, ∃ b', ∀ before, f b x ⟨a, before⟩ = .ok (b', ⟨a, before ++ (g x).map (Row.shown w.tab)⟩))
    (hk : ∀ b, Emits w (k b) a r c) (b : β) :
    Emits w (eachWith xs b f >>= k) a (xs.flatMap g ++ r) c := by
  induction xs generalizing b with
  | nil => exact hk b
  | cons x xs ih =>
    intro before
    obtain ⟨b', h'⟩ := h b x (by simp)
    have := ih (fun b y hy => h b y (by simp [hy])) b' (before ++ (g x).map (Row.shown w.tab))
    rw [eachWith]
    show Emit.bind (Emit.bind (f b x) _) k _ = _
    rw [Emit.bind, Emit.bind, h' before]
    simp only [List.flatMap_cons, List.map_append, List.append_assoc] at this ⊢
    exact this

theorem member_emits {m : Variable} (hk : KnownType w.p m.vartype) (a : Nat) :
    Emits w (do
      if m.isList then
        w.line s!"{m.name} []{← w.type m.vartype}"
      else
        w.line s!"{m.name} {← w.type m.vartype}") a
      [⟨a, s!"{m.name} {if m.isList then "[]" else ""}{Syntax.Go.typeOf m.vartype}"⟩] a := by
  simp only [T.type_known hk, ← typeOf_eq, emit_lift_ok, emit_pure_bind]
  cases hl : m.isList
  · simp only [Bool.false_eq_true, if_false]
    refine (Emits.line _).of_eq ?_
    rows []
  · simp only [if_true]
    refine (Emits.line _).of_eq ?_
    rows []

theorem field_emits {m : Variable} (hk : KnownType w.p m.vartype) (a : Nat) :
    Emits w (do
        if (w.p.isEnum m.vartype && !m.isList) then
          let e ← w.enum m.vartype
          w.line s!"{m.name}: {m.vartype}{(← Writer.defaultPair e).1},"
        else if (w.p.isStruct m.vartype && !m.isList) then
          let s ← w.struct m.vartype
          if (← structHasEnums w w.p.depth s) then
            w.line s!"{m.name}: New{m.vartype}Default(),") a
      (inside a (Syntax.Go.field w.p m)) a := by
  unfold Syntax.Go.field Lang.Go.default
  cases hl : m.isList with
  | true =>
    simp only [Bool.not_true, Bool.and_false, Bool.false_eq_true, if_false, if_true]
    exact Emits.pure
  | false =>
    simp only [Bool.not_false, Bool.and_true, Bool.false_eq_true, if_false]
    cases T.usable.kind hk with
    | num n e ne num enum hs =>
      simp only [Protocol.isEnum, Protocol.isStruct, enum, hs, Option.isSome_none, Bool.false_eq_true, if_false]
      exact Emits.pure
    | text e num enum hs =>
      simp only [Protocol.isEnum, Protocol.isStruct, enum, hs, Option.isSome_none, Bool.false_eq_true, if_false]
      exact Emits.pure
    | enum e mem name ne num enum =>
      obtain ⟨x, h1, h2, h3⟩ := default_pair T.usable mem
      simp only [Protocol.isEnum, enum, Option.isSome_some, if_true, Table.enum_eq enum, h1, h3, emit_lift_ok, emit_pure_bind]
      refine (Emits.line _).of_eq ?_
      rows [entryName_default enum h3]
    | struct s mem name ne num enum struct =>
      simp only [Protocol.isEnum, Protocol.isStruct, enum, struct, Option.isSome_none, Option.isSome_some, Bool.false_eq_true, if_false,
        if_true, struct_eq struct, hasEnums_depth T, emit_lift_ok, emit_pure_bind]
      by_cases h : Lang.Go.hasEnums w.p (depth w.p) s = true
      · simp only [h, if_true]
        refine (Emits.line _).of_eq ?_
        rows []
      · simp only [h, if_false, Bool.false_eq_true]
        exact Emits.pure

theorem default_emits {s : Struct} (hk : ∀ m ∈ s.members, KnownType w.p m.vartype) (a : Nat) :
    Emits w (do
      if !(← structHasEnums w w.p.depth s) then
        w.line s!"return {s.name}\{}"
      else
        w.line s!"return {s.name}\{"
        shift 1
        each s.members fun var => do
          if (w.p.isEnum var.vartype && !var.isList) then
            let e ← w.enum var.vartype
            w.line s!"{var.name}: {var.vartype}{(← Writer.defaultPair e).1},"
          else if (w.p.isStruct var.vartype && !var.isList) then
            let s ← w.struct var.vartype
            if (← structHasEnums w w.p.depth s) then
              w.line s!"{var.name}: New{var.vartype}Default(),"
        shift (-1)
        w.line "}") a
      (inside a (if Lang.Go.hasEnums w.p (depth w.p) s then
        flush [s!"return {s.name}\{"] ++ inside 1 (s.members.flatMap (Syntax.Go.field w.p)) ++ flush ["}"]
      else flush [s!"return {s.name}\{}"])) a := by
  rw [hasEnums_depth T]
  refine Emits.lift rfl ?_
  by_cases h : Lang.Go.hasEnums w.p (depth w.p) s = true
  · rw [if_pos h, if_neg (by simp [h])]
    apply Emits.of_eq
    · emits [Emits.each fun m hm => field_emits T (hk m hm) _]
    rows []
  · rw [if_neg h, if_pos (by simp [h])]
    refine (Emits.line _).of_eq ?_
    rows []

theorem message_reader {s : Struct} (hk : ∀ m ∈ s.members, KnownType w.p m.vartype) :
    Emits w (do
      let _first ← eachWith s.members true fun first mem => do
        let first ← (do
          if first then
            let first := false
            deserializer w w.p.depth mem "msg" false true
            pure first
          else
            deserializer w w.p.depth mem "msg" false true
            pure first)
        pure first
      w.blank
      w.line "return msg, nil") 1
      (inside 1 (s.members.flatMap (Syntax.Go.readMember w.p "nil, " "msg")) ++ inside 1 (flush ["", "return msg, nil"])) 1 := by
  rw [show inside 1 (s.members.flatMap (Syntax.Go.readMember w.p "nil, " "msg")) =
    s.members.flatMap (fun m => inside 1 (Syntax.Go.readMember w.p "nil, " "msg" m)) by simp [inside, List.map_flatMap]]
  refine eachWith_emits (fun b m hm => ⟨false, fun before => ?_⟩) (fun b => ?_) true
  · have h := deserializer_emits T (hk m hm) "msg" false before
    cases b
    all_goals
      simp only [Bool.false_eq_true, if_false, if_true]
      show Emit.bind _ _ _ = _
      rw [Emit.bind, h]
      rfl
  · apply Emits.of_eq
    · emits []
    rows []

theorem genStruct_emits {s : Struct} (hs : s ∈ w.p.structs ++ w.p.messages) :
    ∃ sz, measureFun Lang.Go.style w.p s "output" 0 = some sz ∧
      Emits w (genStruct w s.name s) 0 (Syntax.Go.type w.p s sz ++ flush [""]) 0 := by
  obtain ⟨ls, n, h1, h2⟩ := measureFun_eq T hs
  refine ⟨_, h2, ?_⟩
  unfold genStruct
  have hk := T.usable.types s hs
  rw [h1]
  have hl : ∀ a, inside a (Syntax.Go.sizes.lines (if n > 0 then ls ++ [MLine.add n] else ls)) =
      inside a (Syntax.Go.sizes.lines ls) ++ if n > 0 then [⟨a, s!"size += {n}"⟩] else [] := by
    intro a
    split
    · rw [lines_append, inside_append]
      congr 1
      simp [Syntax.SizeSyntax.lines, Syntax.SizeSyntax.line, Syntax.Go.sizes, inside, flush]
    · rw [List.append_nil]
  cases hm : s.isMessage with
  | true =>
    simp only [if_true, emit_pure_bind]
    apply Emits.of_eq
    · emits [default_emits T hk _, message_reader T hk,
       Emits.each (g := fun m => [⟨_, s!"{m.name} {if m.isList then "[]" else ""}{Syntax.Go.typeOf m.vartype}"⟩]) (fun m hm => member_emits T (hk m hm) _),
       Emits.each fun m hm => serializer_emits T (hk m hm),
       Emits.texts ls _,
       Emits.ite (fun _ => Emits.line _) (fun _ => Emits.pure)]
    rows [Syntax.Go.type, Syntax.Go.declaration, Syntax.Go.create, Syntax.Go.size, Syntax.Go.reader, Syntax.Go.writer, hm, writeFixed_eq,
      show (Lang.Go.writeBytes w.p s).body = s.members.map (Lang.Go.serializer w.p) from rfl, hl]
  | false =>
    simp only [if_false, Bool.false_eq_true, emit_pure_bind]
    apply Emits.of_eq
    · emits [default_emits T hk _,
       Emits.each (g := fun m => [⟨_, s!"{m.name} {if m.isList then "[]" else ""}{Syntax.Go.typeOf m.vartype}"⟩]) (fun m hm => member_emits T (hk m hm) _),
       Emits.each fun m hm => deserializer_emits T (hk m hm) "input" true,
       Emits.each fun m hm => serializer_emits T (hk m hm)]
    rows [Syntax.Go.type, Syntax.Go.declaration, Syntax.Go.create, Syntax.Go.reader, Syntax.Go.writer, hm,
      show (Lang.Go.writeBytes w.p s).body = s.members.map (Lang.Go.serializer w.p) from rfl]

theorem longest_eq {e : Enum} (he : e ∈ w.p.enums) : longest e = .ok (Syntax.Go.width e) := by
  unfold longest Syntax.Go.width
  cases hv : e.values with
  | nil => exact absurd hv (T.usable.enums e he).nonempty
  | cons x xs =>
    simp only [List.map_cons, List.foldl_cons, Nat.zero_max, List.foldl_map]

theorem genEnum_emits {e : Enum} (he : e ∈ w.p.enums) :
    Emits w (genEnum w e.name e) 0 (Syntax.Go.enum e ++ flush [""]) 0 := by
  unfold genEnum
  simp only [T.type_num, longest_eq T he, emit_lift_ok, emit_pure_bind]
  apply Emits.of_eq
  · emits [Emits.each fun x _ => Emits.line _]
  rows [Syntax.Go.enum, padRight, times, repeated, Int.toNat_natCast]

variable {rs : List Row}

theorem enums_steps : Steps (each w.p.enums fun e => genEnum w e.name e) 0 0 Any :=
  .each fun _ he => (genEnum_emits T he).steps

theorem structs_steps {l : List Struct} (h : ∀ s ∈ l, s ∈ w.p.structs ++ w.p.messages) :
    Steps (each l fun s => genStruct w s.name s) 0 0 Any :=
  .each fun s hs => (genStruct_emits T (h s hs)).choose_spec.2.steps

theorem enums_puts {e : Enum} (he : e ∈ w.p.enums) :
    Puts w.tab (each w.p.enums fun e => genEnum w e.name e) 0 (Syntax.Go.enum e) :=
  .each (fun _ he => (genEnum_emits T he).steps) he ((genEnum_emits T he).puts (List.prefix_append _ _).isInfix)

theorem structs_puts {l : List Struct} (h : ∀ s ∈ l, s ∈ w.p.structs ++ w.p.messages) {s : Struct} (hs : s ∈ l) {sz : MFun}
    (hz : measureFun Lang.Go.style w.p s "output" 0 = some sz) :
    Puts w.tab (each l fun s => genStruct w s.name s) 0 (Syntax.Go.type w.p s sz) := by
  refine .each (fun s hs => (genStruct_emits T (h s hs)).choose_spec.2.steps) hs ?_
  obtain ⟨sz', h1, h2⟩ := genStruct_emits T (h s hs)
  cases hz.symm.trans h1
  exact h2.puts (List.prefix_append _ _).isInfix

omit T in
theorem fillings_steps (a : Nat) :
    Steps (do
      if w.nsTrue then
        let subs := [("{# STRING_SIZE_TYPE #}", Sub.text (Lang.Go.native w.p.stringSize))] ++ [("Beschi", Sub.text (← w.nsText))]
        if w.rename then
          let subs := subs ++ [("beschi", Sub.text (Lang.snake (← w.nsText)))]
          pure subs
        else
          pure subs
      else
        pure [("{# STRING_SIZE_TYPE #}", Sub.text (Lang.Go.native w.p.stringSize))]) a a (Fillings w.p.stringSize) := by
  refine Steps.ite (fun h => ?_) (fun h => ?_)
  · refine Steps.bind Steps.lift fun v hv => ?_
    refine Steps.ite (fun h => ?_) (fun h => ?_)
    · refine Steps.bind Steps.lift fun u hu => Steps.pure ?_
      refine ⟨[("Beschi", .text v), ("beschi", .text (Lang.snake u))], rfl, fun s hs => ?_⟩
      simp only [List.mem_cons, List.not_mem_nil, or_false] at hs
      rcases hs with rfl | rfl
      · exact ⟨_, .head _, v, rfl⟩
      · exact ⟨_, .tail _ (.head _), _, rfl⟩
    · refine Steps.pure ⟨[("Beschi", .text v)], rfl, fun s hs => ?_⟩
      simp only [List.mem_cons, List.not_mem_nil, or_false] at hs
      subst hs
      exact ⟨_, .head _, v, rfl⟩
  · exact Steps.pure ⟨[], rfl, by simp⟩

include T in
theorem generate_library (hb : w.boilerplate 0 = Boilerplate.go) (hn : w.nativeTab = "\t") (h : Library w.p rs) :
    Puts w.tab (generate w) 0 rs := by
  unfold generate
  have he := enums_steps T
  have hs := structs_steps T (l := w.p.structs) fun s hs => List.mem_append_left _ hs
  have hm := structs_steps T (l := w.p.messages) fun s hs => List.mem_append_right _ hs
  simp only [T.stringSize, emit_lift_ok, emit_pure_bind]
  iterate 5 skip_line []
  refine Puts.right (fillings_steps 0) fun subs hf => ?_
  refine Puts.left (c := 0) (Q := Any) (library_puts hb hn hf h) Steps.boilerplate fun _ _ => ?_
  steps [he, hs, hm]

theorem generate_puts
    (h : (∃ e ∈ w.p.enums, rs = Syntax.Go.enum e) ∨
      (∃ s ∈ w.p.structs ++ w.p.messages, ∃ sz, measureFun Lang.Go.style w.p s "output" 0 = some sz ∧
        rs = Syntax.Go.type w.p s sz) ∨
      rs = Syntax.Go.messageTypes (messageArms w.p 1) ∨
      rs = Syntax.Go.process (messageArms w.p 1)) :
    Puts w.tab (generate w) 0 rs := by
  unfold generate
  have he := enums_steps T
  have hs := structs_steps T (l := w.p.structs) fun s hs => List.mem_append_left _ hs
  have hm := structs_steps T (l := w.p.messages) fun s hs => List.mem_append_right _ hs
  rcases h with ⟨e, h, rfl⟩ | ⟨s, h, sz, hz, rfl⟩ | rfl | rfl
  · find_puts [Puts.left (enums_puts T h) he fun _ _ => hs.bind fun _ _ => hm.bind fun _ _ => Steps.blank.bind fun _ _ => Steps.assert] []
  · rcases List.mem_append.1 h with h | h
    · have k := structs_puts T (l := w.p.structs) (fun s hs => List.mem_append_left _ hs) h hz
      find_puts [k.left hs fun _ _ => hm.bind fun _ _ => Steps.blank.bind fun _ _ => Steps.assert] [he]
    · have k := structs_puts T (l := w.p.messages) (fun s hs => List.mem_append_right _ hs) h hz
      find_puts [k.left hm fun _ _ => Steps.blank.bind fun _ _ => Steps.assert] [he, hs]
  · iterate 9 skip_line []
    apply Starts.puts
    apply Starts.of_eq
    · starts [Emits.each fun _ _ => Emits.line _]
      steps [he, hs, hm]
    rows [Syntax.Go.messageTypes, messageArms]
  · iterate 24 skip_line []
    apply Starts.puts
    apply Starts.of_eq
    · starts [Emits.each fun _ _ => .bind (.line _) (.bind .up (.bind (.line _) (.bind (.line _) (.bind .up (.bind (.line _)
        (.bind .down (.bind (.line _) (.bind (.line _) .down))))))))]
      steps [he, hs, hm]
    rw [flatMap_index w.p.messages 0]
    rows [Syntax.Go.process, messageArms]

end Beschi.Text.Go.Link
