import Verif.Syntax.Zig
import Verif.Text.Zig
import Verif.Text.Lookup
import Verif.Text.ZigLibrary
/-
The text written for Zig is that of the functions in Verif/Lang/Zig.lean.
-/
namespace Beschi.Text.Zig.Link
open Beschi.Spec Beschi.Lang

variable {w : Writer} (T : Table w Lang.Zig.native "[]const u8")

theorem zig_full : Syntax.Zig.sizes.Full where
  init := by decide
  ret n := by simp [Syntax.Zig.sizes, str_toString]
  add n := by simp [Syntax.Zig.sizes, str_toString]
  addCount a n := by simp [Syntax.Zig.sizes, str_toString]
  addText a := by simp [Syntax.Zig.sizes, str_toString]
  addTextPlus k a := by simp [Syntax.Zig.sizes, str_toString]
  loop v t a l hl := by simp [Syntax.Zig.sizes] at hl; subst hl; simp [str_toString]
  close := by decide

theorem typeOf_eq (t : String) : nativeType Lang.Zig.native "[]const u8" t = Syntax.Zig.typeOf t := rfl

include T

theorem genMeasurement_step {fuel lvl : Nat} {s : Struct} (hs : s ∈ w.p.structs ++ w.p.messages) {at_ : MPath}
    (ih : ∀ {v s'} {at_ : MPath} {lvl : Nat}, v ∈ s.members → s' ∈ w.p.structs → w.p.struct? v.vartype = some s' →
      ∃ ls n, measureStruct Lang.Zig.style w.p fuel s' at_ lvl = some (ls, n) ∧
        genMeasurement w fuel s' (Syntax.path at_ ++ ".") lvl = pure (Syntax.Zig.sizes.texts w.tab ls, n)) :
    ∃ ls n, measureStruct Lang.Zig.style w.p (fuel + 1) s at_ lvl = some (ls, n) ∧
      genMeasurement w (fuel + 1) s (Syntax.path at_ ++ ".") lvl = pure (Syntax.Zig.sizes.texts w.tab ls, n) := by
  rw [genMeasurement, measureStruct]
  simp only [structSimple_eq T.usable hs, emit_lift_ok, emit_pure_bind]
  by_cases hz : w.p.simpleStruct s = true
  · refine ⟨_, _, by rw [if_pos hz], ?_⟩
    simp only [hz, if_true, sizeOf_struct_eq T.usable hs hz, emit_lift_ok, emit_pure_bind]
    texts [texts_one, Syntax.SizeSyntax.line, Syntax.Zig.sizes, Row.shown, repeated]
  · rw [if_neg hz, if_neg hz]
    refine measured_struct (fun m hm => ?_) rfl (fun x => rfl)
    have hk := T.usable.types s hs m hm
    unfold measureMember
    cases hl : m.isList with
    | true =>
      simp only [simple_eq T.usable hk (.inr rfl), emit_lift_ok, emit_pure_bind, if_true]
      by_cases hs : w.p.simpleVar m true = true
      · refine ⟨_, _, if_pos hs, fun n ls => ?_⟩
        rw [if_pos hs, sizeOf_eq T.usable hk (.inr rfl) hs]
        texts [texts_one, Syntax.SizeSyntax.line, Syntax.Zig.sizes, Row.shown, repeated, path_dot]
      rw [if_neg hs]
      by_cases ht : m.vartype = "string"
      · refine ⟨_, _, if_pos ht, fun n ls => ?_⟩
        rw [if_neg hs, if_pos (by simp [ht]), texts_loop zig_full, texts_one]
        texts [Syntax.SizeSyntax.line, Syntax.Zig.sizes, Row.shown, repeated, path_dot, Lang.Zig.style, MStyle.element, path_root]
      rw [if_neg ht]
      obtain ⟨s', h1, h2, h3⟩ := struct_varying T.usable hk (.inr rfl) hs ht
      obtain ⟨ls, n, h4, h5⟩ := ih (at_ := ⟨"el" ++ toString lvl, []⟩) (lvl := lvl + 1) hm h1 h2
      obtain ⟨ls, rfl⟩ := measured_init h3 h4
      refine ⟨_, _, by simp only [h2]; rw [show Lang.Zig.style.element (Lang.Zig.style.loopVar m.name lvl) (at_.dot m.name) = ⟨"el" ++ toString lvl, []⟩ from rfl, h4], fun k lines => ?_⟩
      rw [if_neg hs, if_neg (by simpa using ht), texts_loop zig_full]
      have h6 : genMeasurement w fuel s' (toString "el" ++ toString lvl ++ toString ".") (lvl + 1) =
          pure (Syntax.Zig.sizes.texts w.tab (.init :: ls), n) := by
        rw [path_root] at h5; exact h5
      simp only [struct_eq h2, emit_lift_ok, emit_pure_bind, h6, texts_cons, texts_append, texts_nil, dropInit, MLine.isInit, if_true]
      generalize Syntax.Zig.sizes.texts w.tab ls = X
      texts [Syntax.SizeSyntax.line, Syntax.Zig.sizes, Row.shown, repeated, path_dot, Lang.Zig.style, headLine, texts_one, dropInit, MLine.isInit]
    | false =>
      simp only [simple_eq T.usable hk (.inl hl), emit_lift_ok, emit_pure_bind, if_false, Bool.false_eq_true]
      by_cases hs : w.p.simpleVar m false = true
      · refine ⟨_, _, if_pos hs, fun n ls => ?_⟩
        rw [if_pos hs, sizeOf_eq T.usable hk (.inl hl) hs]
        texts [Syntax.SizeSyntax.texts, Syntax.SizeSyntax.lines]
      rw [if_neg hs]
      by_cases ht : m.vartype = "string"
      · refine ⟨_, _, if_pos ht, fun n ls => ?_⟩
        rw [if_neg hs, if_pos (by simp [ht]), texts_one]
        texts [Syntax.SizeSyntax.line, Syntax.Zig.sizes, Row.shown, repeated, path_dot]
      rw [if_neg ht]
      obtain ⟨s', h1, h2, h3⟩ := struct_varying T.usable hk (.inl hl) hs ht
      obtain ⟨ls, n, h4, h5⟩ := ih (at_ := at_.dot m.name) (lvl := lvl + 1) hm h1 h2
      obtain ⟨ls, rfl⟩ := measured_init h3 h4
      refine ⟨_, _, by simp only [h2]; rw [show (if Lang.Zig.style.inlineDeeper then lvl + 1 else lvl) = lvl + 1 from rfl, h4], fun k lines => ?_⟩
      rw [if_neg hs, if_neg (by simpa using ht)]
      have h6 : genMeasurement w fuel s' (toString (Syntax.path at_ ++ ".") ++ toString m.name ++ toString ".") (lvl + 1) =
          pure (Syntax.Zig.sizes.texts w.tab (.init :: ls), n) := by
        rw [path_dot] at h5; exact h5
      simp only [struct_eq h2, emit_lift_ok, emit_pure_bind, h6, texts_cons, dropInit, MLine.isInit, if_true]
      generalize Syntax.Zig.sizes.texts w.tab ls = X
      texts [Syntax.SizeSyntax.line, Syntax.Zig.sizes, Row.shown, repeated, headLine, dropInit, MLine.isInit]

theorem genMeasurement_eq (fuel : Nat) {lvl : Nat} {s : Struct} (hs : s ∈ w.p.structs ++ w.p.messages)
    (hf : ∀ v ∈ s.members, fits w.p fuel v.vartype) {at_ : MPath} :
    ∃ ls n, measureStruct Lang.Zig.style w.p (fuel + 1) s at_ lvl = some (ls, n) ∧
      genMeasurement w (fuel + 1) s (Syntax.path at_ ++ ".") lvl = pure (Syntax.Zig.sizes.texts w.tab ls, n) := by
  induction fuel generalizing s at_ lvl with
  | zero => exact genMeasurement_step T hs (fun hv _ he => absurd (he.symm.trans (hf _ hv)) (by simp))
  | succ fuel ih => exact genMeasurement_step T hs (fun hv hs' he => ih (by simp [hs']) (hf _ hv _ he))

theorem measureFun_eq {s : Struct} (hs : s ∈ w.p.structs ++ w.p.messages) :
    ∃ ls n, genMeasurement w w.p.depth s "self." 0 = pure (Syntax.Zig.sizes.texts w.tab ls, n) ∧
      measureStruct Lang.Zig.style w.p (depth w.p) s { root := "self" } 0 = some (ls, n) ∧
      measureFun Lang.Zig.style w.p s "self" 0 = some ⟨if n > 0 then ls ++ [.add n] else ls, true⟩ := by
  obtain ⟨ls, n, h1, h2⟩ := genMeasurement_eq T (w.p.structs.length + 1) (lvl := 0) hs
    (fun v _ => fits_succ (T.usable.fits v.vartype)) (at_ := ⟨"self", []⟩)
  refine ⟨ls, n, h2, h1, ?_⟩
  unfold measureFun
  have : depth w.p = w.p.structs.length + 1 + 1 := rfl
  rw [this, h1]
  rfl

/-- The lines of the size computation. -/
theorem size_emits {s : Struct} (hs : s ∈ w.p.structs ++ w.p.messages) (a : Nat) :
    ∃ sz, measureFun Lang.Zig.style w.p s "self" 0 = some sz ∧
      Emits w (do
        if (← w.structSimple s) then
          w.line "_ = self;"
          w.line s!"return {← w.sizeOf s.name};"
        else
          let (measureLines, accumulator) ← genMeasurement w w.p.depth s "self." 0
          each measureLines fun s => w.line s
          (do
            if decide (accumulator > 0) then
              w.line s!"size += {accumulator};")
          w.line "return size;") a
        (inside a (if w.p.simpleStruct s then flush ["_ = self;"] ++ Syntax.Zig.sizes.lines sz.lines
          else Syntax.Zig.sizes.lines sz.lines ++ flush ["return size;"])) a := by
  obtain ⟨ls, n, h1, h2, h3⟩ := measureFun_eq T hs
  refine ⟨_, h3, ?_⟩
  simp only [structSimple_eq T.usable hs, emit_lift_ok, emit_pure_bind]
  by_cases hz : w.p.simpleStruct s = true
  · simp only [hz, if_true, sizeOf_struct_eq T.usable hs hz, emit_lift_ok, emit_pure_bind]
    have : depth w.p = w.p.structs.length + 1 + 1 := rfl
    rw [this, measureStruct, if_pos hz] at h2
    cases h2
    rw [if_neg (Nat.lt_irrefl 0)]
    apply Emits.of_eq
    · emits []
    rows [Syntax.SizeSyntax.lines, Syntax.SizeSyntax.line, Syntax.Zig.sizes]
  · simp only [hz, if_false, Bool.false_eq_true, h1, emit_pure_bind]
    have hl : ∀ a, inside a (Syntax.Zig.sizes.lines (if n > 0 then ls ++ [MLine.add n] else ls)) =
        inside a (Syntax.Zig.sizes.lines ls) ++ if n > 0 then [⟨a, s!"size += {n};"⟩] else [] := by
      intro a
      split
      · rw [lines_append, inside_append]
        congr 1
        simp [Syntax.SizeSyntax.lines, Syntax.SizeSyntax.line, Syntax.Zig.sizes, inside, flush]
      · rw [List.append_nil]
    apply Emits.of_eq
    · emits [Emits.texts ls _, Emits.ite (fun _ => Emits.line _) (fun _ => Emits.pure)]
    rows [hl]

/-! ### Reading and writing -/

theorem deserializer_emits {m : Variable} (hk : KnownType w.p m.vartype) (s : Struct) (k : Int) (a : Nat) :
    Emits w (deserializer w w.p.depth m s.name false k) a
      (inside a (Syntax.Zig.readStmt (Lang.Zig.deserializer w.p s m))) a := by
  unfold Protocol.depth
  rw [deserializer]
  unfold Lang.Zig.deserializer
  have ht := T.type_known hk
  unfold nativeType at ht
  cases hl : m.isList with
  | true =>
    simp only [Bool.false_eq_true, if_false, if_true, ht, emit_lift_ok, emit_pure_bind]
    apply Emits.of_eq
    · emits []
    cases T.usable.kind hk with
    | num n e ne num enum => rows [Lang.Zig.atom, Syntax.Zig.atomType, num, Syntax.Zig.readStmt, Syntax.Zig.take, Syntax.Zig.place]
    | text e num enum => rw [e] at num; rows [Lang.Zig.atom, Syntax.Zig.atomType, num, e, Syntax.Zig.readStmt, Syntax.Zig.take, Syntax.Zig.place]
    | enum e mem name ne num enum =>
      rows [Lang.Zig.atom, Syntax.Zig.atomType, num, ne, enum, Syntax.Zig.readStmt, Syntax.Zig.take, Syntax.Zig.place]
    | struct s' mem name ne num enum struct =>
      have : Syntax.Zig.atomType (if w.p.simpleStruct s' = true then RAtom.whole m.vartype else RAtom.call m.vartype) = m.vartype := by
        split <;> rfl
      rows [Lang.Zig.atom, num, ne, enum, struct, this, Syntax.Zig.readStmt, Syntax.Zig.take, Syntax.Zig.place]
  | false =>
    simp only [Bool.false_eq_true, if_false, ht, emit_lift_ok, emit_pure_bind, simple_eq T.usable hk (.inl hl)]
    cases T.usable.kind hk with
    | num n e ne num enum =>
      simp only [Writer.isNum, num, Option.isSome_some, Bool.true_or, if_true]
      apply Emits.of_eq
      · emits []
      rows [Lang.Zig.atom, num, Syntax.Zig.readStmt, Syntax.Zig.take, Syntax.Zig.place, Syntax.Zig.readCall]
    | text e num enum =>
      rw [e] at num enum
      simp only [Writer.isNum, Protocol.isEnum, num, enum, e, Option.isSome_none, Bool.or_self, Bool.false_eq_true, if_false,
        beq_self_eq_true, if_true]
      apply Emits.of_eq
      · emits []
      rows [Lang.Zig.atom, num, e, Syntax.Zig.readStmt, Syntax.Zig.take, Syntax.Zig.place, Syntax.Zig.readCall]
    | enum e mem name ne num enum =>
      simp only [Writer.isNum, Protocol.isEnum, num, enum, Option.isSome_some, Option.isSome_none, Bool.false_or, if_true, ne, if_false]
      apply Emits.of_eq
      · emits []
      rows [Lang.Zig.atom, num, ne, enum, Syntax.Zig.readStmt, Syntax.Zig.take, Syntax.Zig.place, Syntax.Zig.readCall]
    | struct s' mem name ne num enum struct =>
      have hw : w.p.simpleStruct s' = w.p.simpleVar m false := by
        rw [Bool.eq_iff_iff, (simpleStruct_spec T.usable (T.usable.types s' (by simp [mem]))).2, (simpleVar_spec T.usable (.inl hl) hk).2]
        rw [← name, varying_struct T.usable mem]
      simp only [Writer.isNum, Protocol.isEnum, num, enum, Option.isSome_none, Bool.or_self, Bool.false_eq_true, if_false,
        beq_iff_eq, ne, ← hw]
      by_cases hz : w.p.simpleStruct s' = true
      · simp only [hz, if_true]
        apply Emits.of_eq
        · emits []
        rows [Lang.Zig.atom, num, ne, enum, struct, hz, Syntax.Zig.readStmt, Syntax.Zig.take, Syntax.Zig.place, Syntax.Zig.readCall]
      · simp only [hz, if_false, Bool.false_eq_true]
        apply Emits.of_eq
        · emits []
        rows [Lang.Zig.atom, num, ne, enum, struct, hz, Syntax.Zig.readStmt, Syntax.Zig.take, Syntax.Zig.place, Syntax.Zig.readCall]

theorem serializer_emits {m : Variable} (hk : KnownType w.p m.vartype) (k : Int) (a : Nat) :
    Emits w (serializer w w.p.depth m "self." false k) a
      [⟨a, s!"local_offset += {Syntax.Zig.writeCall w.p m};"⟩] a := by
  unfold Protocol.depth
  rw [serializer]
  unfold Syntax.Zig.writeCall
  have ht := T.type_known hk
  rw [typeOf_eq] at ht
  simp only [Bool.false_eq_true, if_false, ht, emit_lift_ok, emit_pure_bind, beq_iff_eq,
    show (Writer.isNum m.vartype || w.p.isEnum m.vartype) = ((NumTy.ofName? m.vartype).isSome || (w.p.enum? m.vartype).isSome) from rfl]
  split
  · refine (Emits.line _).of_eq ?_
    rows []
  split
  · refine (Emits.line _).of_eq ?_
    rows []
  split
  · refine (Emits.line _).of_eq ?_
    rows []
  · refine (Emits.line _).of_eq ?_
    rows []

/-- The lines of the steps of a loop that carries a value. -/
def rowsFrom {α β : Type} (g : β → α → List Row) (step : β → α → β) : β → List α → List Row
  | _, [] => []
  | b, x :: xs => g b x ++ rowsFrom g step (step b x) xs

omit T in
theorem eachWith_rows {α β : Type} {xs : List α} {f : β → α → Emit β} {k : β → Emit Unit} {a c : Nat} {r : List Row}
    (P : β → Prop) (b : β) (g : β → α → List Row) (step : β → α → β) (hb : P b)
    (h : ∀ b, P b → ∀ x ∈ xs, P (step b x) ∧ ∃ e : Emit Unit, Emits w e a (g b x) a ∧ f b x = (e >>= fun _ => pure (step b x)))
    (hk : Emits w (k (xs.foldl step b)) a r c) :
    Emits w (eachWith xs b f >>= k) a (rowsFrom g step b xs ++ r) c := by
  induction xs generalizing b with
  | nil => exact hk
  | cons x xs ih =>
    obtain ⟨h0, e, h1, h2⟩ := h b hb x (by simp)
    rw [eachWith, h2, emit_bind_assoc, emit_bind_assoc]
    simp only [emit_pure_bind]
    rw [rowsFrom, List.append_assoc]
    exact h1.bind (ih _ h0 (fun b hb y hy => h b hb y (by simp [hy])) hk)

omit T in
theorem rowsFrom_const {α β : Type} (g : α → List Row) (step : β → α → β) (b : β) (xs : List α) :
    rowsFrom (fun _ => g) step b xs = xs.flatMap g := by
  induction xs generalizing b with
  | nil => rfl
  | cons x xs ih => rw [rowsFrom, ih, List.flatMap_cons]

theorem deserializer_fixed {m : Variable} (hk : KnownType w.p m.vartype) (s : String) (k a : Nat) :
    Emits w (deserializer w w.p.depth m s true (k : Int)) a (inside a (Syntax.Zig.readFixedMember w.p s k m)) a := by
  unfold Protocol.depth
  rw [deserializer]
  unfold Syntax.Zig.readFixedMember
  have ht := T.type_known hk
  rw [typeOf_eq] at ht
  simp only [if_true, ht, emit_lift_ok, emit_pure_bind, toString_cast]
  cases T.usable.kind hk with
  | num n e ne num enum =>
    simp only [Writer.isNum, num, Option.isSome_some, Bool.true_or, if_true]
    refine (Emits.line _).of_eq ?_
    rows []
  | text e num enum =>
    simp only [Writer.isNum, Protocol.isEnum, num, enum, Option.isSome_none, Bool.or_self, Bool.false_eq_true, if_false]
    apply Emits.of_eq
    · emits []
    rows []
  | enum e mem name ne num enum =>
    simp only [Writer.isNum, Protocol.isEnum, num, enum, Option.isSome_some, Option.isSome_none, Bool.false_or, if_true,
      Bool.false_eq_true, if_false, Table.enum_eq enum, emit_lift_ok, emit_pure_bind]
    refine (Emits.line _).of_eq ?_
    rows [Syntax.Zig.typeOf, num, ne]
  | struct s' mem name ne num enum struct =>
    simp only [Writer.isNum, Protocol.isEnum, num, enum, Option.isSome_none, Bool.or_self, Bool.false_eq_true, if_false]
    apply Emits.of_eq
    · emits []
    rows []

theorem serializer_fixed {m : Variable} (hk : KnownType w.p m.vartype) (k a : Nat) :
    Emits w (serializer w w.p.depth m "self." true (k : Int)) a (inside a (Syntax.Zig.writeFixedMember k m)) a := by
  unfold Protocol.depth
  rw [serializer]
  unfold Syntax.Zig.writeFixedMember
  have ht := T.type_known hk
  unfold nativeType at ht
  simp only [if_true, ht, emit_lift_ok, emit_pure_bind, toString_cast, Writer.isNum]
  cases NumTy.ofName? m.vartype with
  | none => exact Emits.pure
  | some n =>
    simp only [Option.isSome_some, if_true]
    refine (Emits.line _).of_eq ?_
    rows []

/-- The members of a struct of fixed size. -/
theorem member_fixed {s : Struct} (hs : s ∈ w.p.structs ++ w.p.messages) (hz : w.p.simpleStruct s = true) {m : Variable}
    (hm : m ∈ s.members) : w.sizeOf m.vartype = .ok (w.p.sizeOf m.vartype) := by
  have hb := (simpleStruct_spec T.usable (T.usable.types s hs)).2.1 hz
  unfold Writer.sizeOf
  rw [(sizeOf_fixed T.usable (T.usable.types s hs m hm) fun hx => hb ⟨m, hm, .inr hx⟩).1]; rfl

omit T in
theorem readFixed_rows (p : Protocol) (s : String) (k : Nat) (ms : List Variable) (a : Nat) :
    rowsFrom (fun (k : Int) m => inside a (Syntax.Zig.readFixedMember p s k.toNat m)) (fun k m => k + (p.sizeOf m.vartype : Int)) k ms =
      inside a (Syntax.Zig.readFixed p s k ms) := by
  induction ms generalizing k with
  | nil => rfl
  | cons m ms ih => rw [rowsFrom, Syntax.Zig.readFixed, inside_append, ← Int.natCast_add, ih]; rfl

omit T in
theorem writeFixed_rows (p : Protocol) (k : Nat) (ms : List Variable) (a : Nat) :
    rowsFrom (fun (k : Int) m => inside a (Syntax.Zig.writeFixedMember k.toNat m)) (fun k m => k + (p.sizeOf m.vartype : Int)) k ms ++
      [⟨a, s!"return {ms.foldl (fun k m => k + (p.sizeOf m.vartype : Int)) (k : Int)};"⟩] =
      inside a (Syntax.Zig.writeFixed p k ms) := by
  induction ms generalizing k with
  | nil => rows [rowsFrom, Syntax.Zig.writeFixed, List.foldl_nil, toString_cast]
  | cons m ms ih =>
    rw [rowsFrom, Syntax.Zig.writeFixed, inside_append, ← ih, List.foldl_cons, List.append_assoc, ← Int.natCast_add]; rfl

/-! ### Release of memory -/

theorem destructor_one {x t : String} (hk : KnownType w.p t) (acc : String) (fuel a : Nat) :
    Emits w (destructor w (fuel + 1) ⟨x, t, false⟩ acc) a (inside a (Syntax.Zig.free w.p (acc ++ x) t)) a := by
  rw [destructor]
  unfold Syntax.Zig.free
  rw [simple_eq T.usable (v := ⟨x, t, false⟩) hk (.inl rfl)]
  simp only [emit_lift_ok, emit_pure_bind, Bool.false_eq_true, if_false]
  have hv := (simpleVar_spec T.usable (v := ⟨x, t, false⟩) (listed := false) (.inl rfl) hk).2
  cases T.usable.kind hk with
  | num n e ne num enum struct =>
    have : w.p.simpleVar ⟨x, t, false⟩ false = true := hv.2 (e ▸ varying_num T.usable n)
    simp only [this, if_true, ne, if_false, struct]
    exact Emits.pure
  | text e num enum =>
    subst e
    have : ¬ w.p.simpleVar ⟨x, "string", false⟩ false = true := fun h => hv.1 h .text
    simp only [this, if_false, beq_self_eq_true, if_true, Bool.false_eq_true]
    refine (Emits.line _).of_eq ?_
    rows []
  | enum e mem name ne num enum struct =>
    have : w.p.simpleVar ⟨x, t, false⟩ false = true := hv.2 (name ▸ varying_enum T.usable mem)
    simp only [this, if_true, ne, if_false, struct]
    exact Emits.pure
  | struct s' mem name ne num enum struct =>
    have hw : w.p.simpleStruct s' = w.p.simpleVar ⟨x, t, false⟩ false := by
      rw [Bool.eq_iff_iff, (simpleStruct_spec T.usable (T.usable.types s' (by simp [mem]))).2, hv]
      show _ ↔ ¬ Varying w.p t
      rw [← name, varying_struct T.usable mem]
    simp only [ne, if_false, struct, ← hw, beq_iff_eq]
    split
    · exact Emits.pure
    · refine (Emits.line _).of_eq ?_
      rows []

theorem destructor_emits {m : Variable} (hk : KnownType w.p m.vartype) :
    Emits w (destructor w w.p.depth m "self.") 2 (inside 2 (Syntax.Zig.freeMember w.p m)) 2 := by
  unfold Protocol.depth
  unfold Syntax.Zig.freeMember
  cases hl : m.isList with
  | false =>
    obtain ⟨n, t, l⟩ := m; cases hl
    exact destructor_one T hk "self." _ 2
  | true =>
    rw [destructor]
    have h0 : w.simple m false = .ok false := by
      unfold Writer.simple
      rw [(simpleVar_list hl).1, (simpleVar_list hl).2]; rfl
    have hv := (simpleVar_spec T.usable (v := m) (listed := true) (.inr rfl) hk).2
    simp only [h0, simple_eq T.usable hk (.inr rfl), hl, emit_lift_ok, emit_pure_bind, Bool.false_eq_true, if_false, if_true]
    have hf : w.p.simpleVar m true = true ↔ Syntax.Zig.free w.p "item2" m.vartype = [] := by
      rw [hv]
      unfold Syntax.Zig.free
      cases T.usable.kind hk with
      | num n e ne num enum struct => simp [e ▸ varying_num T.usable n, ne, struct]
      | text e num enum => simp [e, flush, Varying.text]
      | enum e mem name ne num enum struct => simp [name ▸ varying_enum T.usable mem, ne, struct]
      | struct s' mem name ne num enum struct =>
        have := (simpleStruct_spec T.usable (T.usable.types s' (by simp [mem]))).2
        rw [← varying_struct T.usable mem, name] at this
        simp only [ne, if_false, struct, ← this]
        split <;> simp_all [flush]
    by_cases hz : w.p.simpleVar m true = true
    · simp only [hz, hf.1 hz, Bool.not_true, Bool.false_eq_true, if_false, if_true]
      apply Emits.of_eq
      · emits []
      rows []
    · have hz' : w.p.simpleVar m true = false := by simpa using hz
      simp only [hz', hf.not.1 hz, Bool.not_false, if_false, if_true]
      apply Emits.of_eq
      · apply Emits.bind
        · apply Emits.level
          emits [destructor_one T hk _ _ _]
        · emits []
      rows [Bool.not_eq_true', beq_eq_false_iff_ne, ne_eq, ite_not]
      rfl

/-! ### Whole types -/

/-- Exactly these lines are written, and `v` is returned. -/
def Makes {α : Type} (w : Writer) (x : Emit α) (a : Nat) (rs : List Row) (b : Nat) (v : α) : Prop :=
  ∀ before, x ⟨a, before⟩ = .ok (v, ⟨b, before ++ rs.map (Row.shown w.tab)⟩)

section
omit T

theorem Makes.pure {α : Type} {v : α} {a : Nat} : Makes w (Pure.pure v) a [] a v := fun before => by
  simp only [List.map_nil, List.append_nil]; rfl

theorem Makes.bind {α : Type} {x : Emit Unit} {f : Unit → Emit α} {a b c : Nat} {r s : List Row} {v : α}
    (h : Emits w x a r b) (k : Makes w (f ()) b s c v) : Makes w (x >>= f) a (r ++ s) c v := by
  intro before
  show Emit.bind x f _ = _
  unfold Emit.bind
  rw [h before]
  simp only [k _, List.map_append, List.append_assoc]

theorem Makes.emits {α : Type} {x : Emit α} {f : α → Emit Unit} {a b c : Nat} {r s : List Row} {v : α}
    (h : Makes w x a r b v) (k : Emits w (f v) b s c) : Emits w (x >>= f) a (r ++ s) c := by
  intro before
  show Emit.bind x f _ = _
  unfold Emit.bind
  rw [h before]
  simp only [k _, List.map_append, List.append_assoc]

end

/-- Follow a function that returns a value. -/
macro "makes" : tactic => `(tactic| repeat' first
  | with_reducible exact Makes.pure
  | ((with_reducible apply Makes.bind); (· emits [])))

theorem member_emits (hd : w.defaults = defaults) {m : Variable} (hk : KnownType w.p m.vartype) (a : Nat) :
    Emits w (do
      if m.isList then
        w.line s!"{m.name}: []{← w.type m.vartype} = &.\{},"
      else
        let defaultValue := (w.defaults.lookup m.vartype)
        let defaultValue ← (do
          if defaultValue.isNone then
            let defaultValue ← (do
              if w.p.isEnum m.vartype then
                let e ← w.enum m.vartype
                let defaultValue : Option String := some (s!"{e.name}.{(← Writer.defaultPair e).1}")
                pure defaultValue
              else
                let defaultValue : Option String := some (s!"{m.vartype}\{}")
                pure defaultValue)
            pure defaultValue
          else
            pure defaultValue)
        w.line s!"{m.name}: {← w.type m.vartype} = {defaultValue.getD "None"},") a
      [⟨a, s!"{m.name}: {if m.isList then "[]" else ""}{Syntax.Zig.typeOf m.vartype} = {Syntax.Zig.defaultOf w.p m},"⟩] a := by
  have ht := T.type_known hk
  rw [typeOf_eq] at ht
  unfold Syntax.Zig.defaultOf Lang.Zig.default
  have hno : NumTy.ofName? m.vartype = none → m.vartype ≠ "string" → w.defaults.lookup m.vartype = none := by
    rw [hd]; exact own_of (by decide)
  simp only [ht, emit_lift_ok, emit_pure_bind]
  cases hl : m.isList with
  | true =>
    simp only [if_true]
    refine (Emits.line _).of_eq ?_
    rows [Syntax.InitialSyntax.expr, Syntax.Zig.initial]
  | false =>
    simp only [if_false, Bool.false_eq_true]
    cases T.usable.kind hk with
    | num n e ne num enum =>
      have h1 : w.defaults.lookup m.vartype =
          some (Syntax.Zig.initial.expr w.p m.vartype (Syntax.Zig.typeOf m.vartype) (.num (zeroOf n))) := by
        rw [hd, e]; cases n <;> rfl
      simp only [num, h1, Option.isNone_some, Bool.false_eq_true, if_false, emit_pure_bind, Option.getD_some]
      refine (Emits.line _).of_eq ?_
      rows []
    | text e num enum =>
      have h1 : w.defaults.lookup m.vartype = some "\"\"" := by rw [hd, e]; rfl
      simp only [num, h1, Option.isNone_some, Bool.false_eq_true, if_false, emit_pure_bind, Option.getD_some, if_pos e]
      refine (Emits.line _).of_eq ?_
      rows [Syntax.InitialSyntax.expr, Syntax.Zig.initial]
    | enum e mem name ne num enum =>
      obtain ⟨x, h1, h2, h3⟩ := default_pair T.usable mem
      simp only [num, hno num ne, ne, Option.isNone_none, if_true, if_false, Protocol.isEnum, enum, Option.isSome_some,
        Table.enum_eq enum, h1, h3, emit_lift_ok, emit_pure_bind, Option.getD_some]
      refine (Emits.line _).of_eq ?_
      rows [Syntax.InitialSyntax.expr, Syntax.Zig.initial, entryName_default enum h3, name]
    | struct s mem name ne num enum struct =>
      simp only [num, hno num ne, ne, Option.isNone_none, if_true, if_false, Protocol.isEnum, enum, Option.isSome_none,
        Bool.false_eq_true, emit_pure_bind, Option.getD_some]
      refine (Emits.line _).of_eq ?_
      rows [Syntax.InitialSyntax.expr, Syntax.Zig.initial]

theorem genStruct_emits (hd : w.defaults = defaults) {s : Struct} (hs : s ∈ w.p.structs ++ w.p.messages) :
    ∃ sz, measureFun Lang.Zig.style w.p s "self" 0 = some sz ∧
      Emits w (genStruct w s.name s) 0 (Syntax.Zig.type w.p
        (if s.isMessage then (Lang.Zig.core w.p).ident s.name else none) s sz ++ flush [""]) 0 := by
  obtain ⟨sz, h1, h2⟩ := size_emits T hs 2
  refine ⟨_, h1, ?_⟩
  unfold genStruct
  have hk := T.usable.types s hs
  have he : (s.members.length == 0) = decide (s.members = []) := by cases s.members <;> rfl
  simp only [structSimple_eq T.usable hs, emit_lift_ok, emit_pure_bind, he] at h2 ⊢
  cases hz : w.p.simpleStruct s with
  | true =>
    simp only [hz, if_true, sizeOf_struct_eq T.usable hs hz, emit_lift_ok, emit_pure_bind] at h2 ⊢
    cases hm : s.isMessage with
    | true =>
      obtain ⟨i, hi⟩ := message_number T.usable hs hm
      have hi' : (Lang.Zig.core w.p).ident s.name = some (i + 1) := by
        show (messageIndex w.p s.name).map (· + 1) = _
        unfold messageIndex; rw [hi]; rfl
      have hi'' : w.messageNumber s.name = .ok i := by unfold Writer.messageNumber; rw [hi]
      simp only [if_true, hi', hi'', emit_lift_ok, emit_pure_bind, Bool.not_true, Bool.and_false,
        Bool.false_eq_true, if_false]
      apply Emits.of_eq
      · emits [Emits.each (g := fun m => [⟨_, s!"{m.name}: {if m.isList then "[]" else ""}{Syntax.Zig.typeOf m.vartype} = {Syntax.Zig.defaultOf w.p m},"⟩]) (fun m hm => member_emits T hd (hk m hm) _), h2, Emits.ite (fun _ => .bind (.line _) (.line _)) (fun _ => .pure)]
        apply eachWith_rows (0 ≤ ·) (((0 : Nat) : Int)) (fun k m => inside 2 (Syntax.Zig.readFixedMember w.p s.name k.toNat m))
          (fun k m => k + (w.p.sizeOf m.vartype : Int)) (Int.le_refl 0)
        · rintro k hk0 m hm
          obtain ⟨k, rfl⟩ := Int.eq_ofNat_of_zero_le hk0
          exact ⟨by positivity, _, deserializer_fixed T (hk m hm) s.name k 2, by rw [member_fixed T hs hz hm]; rfl⟩
        emits [Emits.each fun _ _ => Emits.line _, Emits.ite (fun _ => .bind (.line _) .pure) (fun _ => .pure)]
        apply Makes.emits
        · makes
        apply eachWith_rows (fun _ => True) _ (fun _ m => [⟨2, s!"local_offset += {Syntax.Zig.writeCall w.p m};"⟩])
          (fun k m => k + (w.p.sizeOf m.vartype : Int)) trivial
          (fun k _ m hm => ⟨trivial, _, serializer_emits T (hk m hm) k 2, by rw [member_fixed T hs hz hm]; rfl⟩)
        emits []
      rw [readFixed_rows]
      rows [rowsFrom_const, Syntax.Zig.type, Syntax.Zig.members, Syntax.Zig.size, Syntax.Zig.reader, Syntax.Zig.writer, Syntax.Zig.tag, Syntax.Zig.deinit, Syntax.Zig.place, Lang.Zig.fromBytes, hz, decide_eq_true_eq, Option.isSome_some, Option.isSome_none, List.map_nil]
    | false =>
      simp only [if_true, emit_pure_bind, Bool.not_true, Bool.not_false, Bool.and_true,
        Bool.false_eq_true, if_false]
      apply Emits.of_eq
      · emits [Emits.each (g := fun m => [⟨_, s!"{m.name}: {if m.isList then "[]" else ""}{Syntax.Zig.typeOf m.vartype} = {Syntax.Zig.defaultOf w.p m},"⟩]) (fun m hm => member_emits T hd (hk m hm) _), h2, Emits.ite (fun _ => .bind (.line _) (.line _)) (fun _ => .pure)]
        apply eachWith_rows (0 ≤ ·) (((0 : Nat) : Int)) (fun k m => inside 2 (Syntax.Zig.readFixedMember w.p s.name k.toNat m))
          (fun k m => k + (w.p.sizeOf m.vartype : Int)) (Int.le_refl 0)
        · rintro k hk0 m hm
          obtain ⟨k, rfl⟩ := Int.eq_ofNat_of_zero_le hk0
          exact ⟨by positivity, _, deserializer_fixed T (hk m hm) s.name k 2, by rw [member_fixed T hs hz hm]; rfl⟩
        emits [Emits.each fun _ _ => Emits.line _, Emits.ite (fun _ => .bind (.line _) (.line _)) (fun _ => .pure)]
        apply eachWith_rows (0 ≤ ·) (((0 : Nat) : Int)) (fun k m => inside 2 (Syntax.Zig.writeFixedMember k.toNat m))
          (fun k m => k + (w.p.sizeOf m.vartype : Int)) (Int.le_refl 0)
        · rintro k hk0 m hm
          obtain ⟨k, rfl⟩ := Int.eq_ofNat_of_zero_le hk0
          exact ⟨by positivity, _, serializer_fixed T (hk m hm) k 2, by rw [member_fixed T hs hz hm]; rfl⟩
        emits []
      rw [readFixed_rows]
      rows [← writeFixed_rows w.p 0 s.members 2, Syntax.Zig.type, Syntax.Zig.members, Syntax.Zig.size, Syntax.Zig.reader, Syntax.Zig.writer, Syntax.Zig.tag, Syntax.Zig.deinit, Syntax.Zig.place, Lang.Zig.fromBytes, hz, decide_eq_true_eq, Option.isSome_some, Option.isSome_none, List.map_nil]
  | false =>
    simp only [hz, if_false, Bool.false_eq_true] at h2 ⊢
    cases hm : s.isMessage with
    | true =>
      obtain ⟨i, hi⟩ := message_number T.usable hs hm
      have hi' : (Lang.Zig.core w.p).ident s.name = some (i + 1) := by
        show (messageIndex w.p s.name).map (· + 1) = _
        unfold messageIndex; rw [hi]; rfl
      have hi'' : w.messageNumber s.name = .ok i := by unfold Writer.messageNumber; rw [hi]
      simp only [if_true, hi', hi'', emit_lift_ok, emit_pure_bind, Bool.not_true, Bool.not_false, Bool.false_and,
        Bool.false_eq_true, if_false]
      apply Emits.of_eq
      · emits [Emits.each (g := fun m => [⟨_, s!"{m.name}: {if m.isList then "[]" else ""}{Syntax.Zig.typeOf m.vartype} = {Syntax.Zig.defaultOf w.p m},"⟩]) (fun m hm => member_emits T hd (hk m hm) _), h2, Emits.ite (fun _ => .bind (.line _) (.line _)) (fun _ => .pure)]
        apply Makes.emits
        · makes
        apply eachWith_rows (fun _ => True) _ (fun _ m => inside 2 (Syntax.Zig.readStmt (Lang.Zig.deserializer w.p s m)))
          (fun k _ => k) trivial (fun k _ m hm => ⟨trivial, _, deserializer_emits T (hk m hm) s k 2, rfl⟩)
        emits [Emits.each fun _ _ => Emits.line _, Emits.ite (fun _ => .bind (.line _) .pure) (fun _ => .pure)]
        apply Makes.emits
        · makes
        apply eachWith_rows (fun _ => True) _ (fun _ m => [⟨2, s!"local_offset += {Syntax.Zig.writeCall w.p m};"⟩])
          (fun k _ => k) trivial (fun k _ m hm => ⟨trivial, _, serializer_emits T (hk m hm) k 2, rfl⟩)
        emits [Emits.each fun m hm => destructor_emits T (hk m hm)]
      rows [rowsFrom_const, Syntax.Zig.type, Syntax.Zig.members, Syntax.Zig.size, Syntax.Zig.reader, Syntax.Zig.writer, Syntax.Zig.tag, Syntax.Zig.deinit, Syntax.Zig.place, Lang.Zig.fromBytes, hz, decide_eq_true_eq, Option.isSome_some, Option.isSome_none, List.map_nil]
    | false =>
      simp only [if_true, Bool.not_false, Bool.false_and,
        Bool.false_eq_true, if_false]
      apply Emits.of_eq
      · emits [Emits.each (g := fun m => [⟨_, s!"{m.name}: {if m.isList then "[]" else ""}{Syntax.Zig.typeOf m.vartype} = {Syntax.Zig.defaultOf w.p m},"⟩]) (fun m hm => member_emits T hd (hk m hm) _), h2, Emits.ite (fun _ => .bind (.line _) (.line _)) (fun _ => .pure)]
        apply Makes.emits
        · makes
        apply eachWith_rows (fun _ => True) _ (fun _ m => inside 2 (Syntax.Zig.readStmt (Lang.Zig.deserializer w.p s m)))
          (fun k _ => k) trivial (fun k _ m hm => ⟨trivial, _, deserializer_emits T (hk m hm) s k 2, rfl⟩)
        emits [Emits.each fun _ _ => Emits.line _, Emits.ite (fun _ => .bind (.line _) (.line _)) (fun _ => .pure)]
        apply Makes.emits
        · makes
        apply eachWith_rows (fun _ => True) _ (fun _ m => [⟨2, s!"local_offset += {Syntax.Zig.writeCall w.p m};"⟩])
          (fun k _ => k) trivial (fun k _ m hm => ⟨trivial, _, serializer_emits T (hk m hm) k 2, rfl⟩)
        emits [Emits.each fun m hm => destructor_emits T (hk m hm)]
      rows [rowsFrom_const, Syntax.Zig.type, Syntax.Zig.members, Syntax.Zig.size, Syntax.Zig.reader, Syntax.Zig.writer, Syntax.Zig.tag, Syntax.Zig.deinit, Syntax.Zig.place, Lang.Zig.fromBytes, hz, decide_eq_true_eq, Option.isSome_some, Option.isSome_none, List.map_nil]

theorem genEnum_emits {e : Enum} (_ : e ∈ w.p.enums) :
    Emits w (genEnum w e.name e) 0 (Syntax.Zig.enum e ++ flush [""]) 0 := by
  unfold genEnum
  simp only [T.type_num, emit_lift_ok, emit_pure_bind]
  apply Emits.of_eq
  · emits [Emits.each fun x _ => Emits.line _]
  rows [Syntax.Zig.enum]

variable {rs : List Row}

theorem enums_steps : Steps (each w.p.enums fun e => genEnum w e.name e) 0 0 Any :=
  .each fun _ he => (genEnum_emits T he).steps

theorem structs_steps (hd : w.defaults = defaults) {l : List Struct} (h : ∀ s ∈ l, s ∈ w.p.structs ++ w.p.messages) :
    Steps (each l fun s => genStruct w s.name s) 0 0 Any :=
  .each fun s hs => (genStruct_emits T hd (h s hs)).choose_spec.2.steps

theorem enums_puts {e : Enum} (he : e ∈ w.p.enums) :
    Puts w.tab (each w.p.enums fun e => genEnum w e.name e) 0 (Syntax.Zig.enum e) :=
  .each (fun _ he => (genEnum_emits T he).steps) he ((genEnum_emits T he).puts (List.prefix_append _ _).isInfix)

theorem structs_puts (hd : w.defaults = defaults) {l : List Struct} (h : ∀ s ∈ l, s ∈ w.p.structs ++ w.p.messages) {s : Struct}
    (hs : s ∈ l) {sz : MFun} (hz : measureFun Lang.Zig.style w.p s "self" 0 = some sz) :
    Puts w.tab (each l fun s => genStruct w s.name s) 0 (Syntax.Zig.type w.p
      (if s.isMessage then (Lang.Zig.core w.p).ident s.name else none) s sz) := by
  refine .each (fun s hs => (genStruct_emits T hd (h s hs)).choose_spec.2.steps) hs ?_
  obtain ⟨sz', h1, h2⟩ := genStruct_emits T hd (h s hs)
  cases hz.symm.trans h1
  exact h2.puts (List.prefix_append _ _).isInfix

/-- The names of what has a fixed size. -/
theorem simpleNames_eq {l : List Struct} (h : ∀ s ∈ l, s ∈ w.p.structs ++ w.p.messages) :
    simpleNames w l = pure ((l.filter w.p.simpleStruct).map (·.name)) := by
  unfold simpleNames
  have : ∀ names, eachWith l names (fun names sdata => do
      if (← w.structSimple sdata) then pure (names ++ [sdata.name]) else pure names) =
      (pure (names ++ (l.filter w.p.simpleStruct).map (·.name)) : Emit (List String)) := by
    induction l with
    | nil => intro names; simp [eachWith]
    | cons s l ih =>
      intro names
      rw [eachWith, structSimple_eq T.usable (h s (by simp))]
      simp only [emit_lift_ok, emit_pure_bind]
      cases hz : w.p.simpleStruct s
      · simp only [Bool.false_eq_true, if_false, emit_pure_bind, ih (fun x hx => h x (by simp [hx])), List.filter_cons, hz]
      · simp only [if_true, emit_pure_bind, ih (fun x hx => h x (by simp [hx])), List.filter_cons, hz, List.map_cons,
          List.append_assoc, List.cons_append, List.nil_append]
  simpa using this []

theorem arm_emits {m : Struct} (hm : m ∈ w.p.messages) (a : Nat) :
    Emits w (do
      w.line s!".{m.name} => \{"
      shift 1
      (do
        if (← w.structSimple m) then
          w.line s!"const msg_read = try {m.name}.fromBytes(local_offset, buffer);"
        else
          w.line s!"const msg_read = try {m.name}.fromBytes(allocator, local_offset, buffer);")
      w.line "local_offset += msg_read.bytes_read;"
      w.line s!"try msg_list.append(Message\{ .{m.name} = msg_read.value });"
      shift (-1)
      w.line "},") a
      (inside a (flush [s!".{m.name} => \{"] ++
        inside 1 (flush [s!"const msg_read = try {Syntax.Zig.readMessage w.p m.name};", "local_offset += msg_read.bytes_read;",
          s!"try msg_list.append(Message\{ .{m.name} = msg_read.value });"]) ++
        flush ["},"])) a := by
  simp only [structSimple_eq T.usable (List.mem_append_right _ hm), emit_lift_ok, emit_pure_bind]
  have hr : w.p.message? m.name = some m := message?_of_mem T.usable.messagesDistinct hm
  cases hz : w.p.simpleStruct m
  · simp only [Bool.false_eq_true, if_false]
    apply Emits.of_eq
    · emits []
    rows [Syntax.Zig.readMessage, hr, hz]
  · simp only [if_true]
    apply Emits.of_eq
    · emits []
    rows [Syntax.Zig.readMessage, hr, hz]

omit T in
theorem map_index {α β : Type} (f : α → β) (l : List α) (k : Nat) : ((l.zipIdx k).map fun x => f x.1) = l.map f := by
  induction l generalizing k with
  | nil => rfl
  | cons x xs ih => rw [List.zipIdx_cons, List.map_cons, List.map_cons, ih]

theorem generate_puts (hd : w.defaults = defaults) (hb : w.boilerplate 0 = Boilerplate.zig) (hn : w.nativeTab = "    ")
    (h : (∃ e ∈ w.p.enums, rs = Syntax.Zig.enum e) ∨
      (∃ s ∈ w.p.structs ++ w.p.messages, ∃ sz, measureFun Lang.Zig.style w.p s "self" 0 = some sz ∧
        rs = Syntax.Zig.type w.p (if s.isMessage then (Lang.Zig.core w.p).ident s.name else none) s sz) ∨
      rs = Syntax.Zig.messageTypes (messageArms w.p 1) ∨
      rs = Syntax.Zig.message (messageArms w.p 1) ∨
      rs = Syntax.Zig.process w.p (messageArms w.p 1) ∨
      Library w.p rs) :
    Puts w.tab (generate w) 0 rs := by
  unfold generate
  rw [simpleNames_eq T (l := w.p.structs) fun s hs => List.mem_append_left _ hs,
    simpleNames_eq T (l := w.p.messages) fun s hs => List.mem_append_right _ hs]
  simp only [T.stringSize, T.listSize, emit_lift_ok, emit_pure_bind]
  have he := enums_steps T
  have hs := structs_steps T hd (l := w.p.structs) fun s hs => List.mem_append_left _ hs
  have hm := structs_steps T hd (l := w.p.messages) fun s hs => List.mem_append_right _ hs
  rcases h with ⟨e, h, rfl⟩ | ⟨s, h, sz, hz, rfl⟩ | rfl | rfl | rfl | h
  · find_puts [Puts.left (enums_puts T h) he fun _ _ => hs.bind fun _ _ => hm.bind fun _ _ => Steps.blank.bind fun _ _ => Steps.assert] []
  · rcases List.mem_append.1 h with h | h
    · have k := structs_puts T hd (l := w.p.structs) (fun s hs => List.mem_append_left _ hs) h hz
      find_puts [k.left hs fun _ _ => hm.bind fun _ _ => Steps.blank.bind fun _ _ => Steps.assert] [he]
    · have k := structs_puts T hd (l := w.p.messages) (fun s hs => List.mem_append_right _ hs) h hz
      find_puts [k.left hm fun _ _ => Steps.blank.bind fun _ _ => Steps.assert] [he, hs]
  · iterate 9 skip_line []
    apply Starts.puts
    apply Starts.of_eq
    · starts [Emits.each fun _ _ => Emits.line _]
      steps [he, hs, hm]
    rows [Syntax.Zig.messageTypes, messageArms, map_index (fun m : Struct => Row.mk 1 (m.name ++ ","))]
  · iterate 15 skip_line []
    apply Starts.puts
    apply Starts.of_eq
    · iterate 25 ((with_reducible apply Starts.bind); (· emits [Emits.each fun _ _ => Emits.line _]))
      apply Starts.blank
      steps [he, hs, hm]
    rows [Syntax.Zig.message, messageArms, map_index (fun m : Struct => Row.mk 1 (m.name ++ (": " ++ (m.name ++ ",")))),
      map_index (fun m : Struct => Row.mk 3 ("." ++ (m.name ++ (" => self." ++ (m.name ++ ".getSizeInBytes(),"))))),
      map_index (fun m : Struct => Row.mk 3 ("." ++ (m.name ++ (" => self." ++ (m.name ++ ".writeBytes(offset, buffer, tag),")))))]
  · iterate 41 skip_line []
    apply Starts.puts
    apply Starts.of_eq
    · starts [Emits.each fun _ hm => arm_emits T hm _]
      steps [he, hs, hm]
    rw [flatMap_index w.p.messages 0]
    rows [Syntax.Zig.process, messageArms]
  · iterate 7 skip_line []
    refine Puts.left (c := 0) (Q := Any) (library_puts hb hn h) Steps.boilerplate fun _ _ => ?_
    steps [he, hs, hm]

end Beschi.Text.Zig.Link
