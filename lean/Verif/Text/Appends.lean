import Lean
import Verif.Text.Generate
/-
The functions that write only add lines: they never look at the lines written before.
-/
namespace Beschi.Text

/-- The same with other lines before. -/
def later {α : Type} (before : List String) : Except Exn (α × Out) → Except Exn (α × Out)
  | .error e => .error e
  | .ok (a, o) => .ok (a, ⟨o.indent, before ++ o.lines⟩)

/-- The function adds lines to those written before and does not look at them. -/
def Appends {α : Type} (x : Emit α) : Prop :=
  ∀ i before ls, x ⟨i, before ++ ls⟩ = later before (x ⟨i, ls⟩)

variable {α β : Type} {w : Writer}

theorem appends_pure (a : α) : Appends (pure a : Emit α) := fun _ _ _ => rfl

theorem appends_bind {x : Emit α} {f : α → Emit β} (hx : Appends x) (hf : ∀ a, Appends (f a)) :
    Appends (x >>= f) := by
  intro i before ls
  show Emit.bind x f _ = later _ (Emit.bind x f _)
  unfold Emit.bind
  rw [hx i before ls]
  cases x ⟨i, ls⟩ with
  | error e => rfl
  | ok r => obtain ⟨a, o⟩ := r; exact hf a o.indent before o.lines

theorem appends_lift (x : Except Exn α) : Appends (liftM x : Emit α) := by
  intro i before ls
  show Emit.lift x _ = later _ (Emit.lift x _)
  cases x <;> rfl

theorem appends_raise (e : Exn) : Appends (Emit.raise e : Emit α) := fun _ _ _ => rfl

theorem appends_line (t : String) : Appends (w.line t) := by
  intro i before ls
  show Except.ok _ = Except.ok _
  simp

theorem appends_blank : Appends w.blank := appends_line ""

theorem appends_shift (k : Int) : Appends (shift k) := fun _ _ _ => rfl

theorem appends_level : Appends level := fun _ _ _ => rfl

theorem appends_balanced : Appends assertBalanced := by
  intro i before ls
  unfold assertBalanced
  by_cases h : i = 0 <;> simp [h, later]

theorem appends_ite {p : Prop} [Decidable p] {x y : Emit α} (hx : Appends x) (hy : Appends y) :
    Appends (if p then x else y) := by split <;> assumption

theorem appends_each {xs : List α} {f : α → Emit Unit} (h : ∀ x, Appends (f x)) : Appends (each xs f) := by
  induction xs with
  | nil => exact appends_pure ()
  | cons x xs ih => exact appends_bind (h x) fun _ => ih

theorem appends_eachWith {xs : List α} {b : β} {f : β → α → Emit β} (h : ∀ b x, Appends (f b x)) :
    Appends (eachWith xs b f) := by
  induction xs generalizing b with
  | nil => exact appends_pure b
  | cons x xs ih => exact appends_bind (h b x) fun _ => ih

theorem appends_boilerplate (subs : List (String × Sub)) (n : Nat) : Appends (w.addBoilerplate subs n) :=
  appends_each fun _ => appends_line _

/-- Functions of which it is known already. -/
syntax "appends_call" : tactic
macro_rules | `(tactic| appends_call) => `(tactic| assumption)

/-- One statement after the other. -/
macro "appends" : tactic => `(tactic| repeat' with_reducible first
  | exact appends_line _
  | exact appends_blank
  | exact appends_shift _
  | exact appends_pure _
  | exact appends_lift _
  | exact appends_level
  | exact appends_balanced
  | exact appends_raise _
  | exact appends_boilerplate _ _
  | appends_call
  | refine appends_bind ?_ fun _ => ?_
  | refine appends_ite ?_ ?_
  | refine appends_each fun _ => ?_
  | refine appends_eachWith fun _ _ => ?_
  | split)

/-! ### Rust -/

namespace Rust

theorem appends_deserializer (n : Nat) : ∀ a b, Appends (deserializer w n a b) := by
  induction n with
  | zero => intros; unfold deserializer; appends
  | succ n ih =>
    intros; unfold deserializer; appends
    all_goals exact ih _ _

macro_rules | `(tactic| appends_call) => `(tactic| exact appends_deserializer _ _ _)

theorem appends_serializer (n : Nat) : ∀ a b, Appends (serializer w n a b) := by
  induction n with
  | zero => intros; unfold serializer; appends
  | succ n ih =>
    intros; unfold serializer; appends
    all_goals exact ih _ _

macro_rules | `(tactic| appends_call) => `(tactic| exact appends_serializer _ _ _)

theorem appends_genMeasurement (n : Nat) : ∀ a b, Appends (genMeasurement w n a b) := by
  induction n with
  | zero => intros; unfold genMeasurement; appends
  | succ n ih =>
    intros; unfold genMeasurement; appends
    all_goals exact ih _ _

macro_rules | `(tactic| appends_call) => `(tactic| exact appends_genMeasurement _ _ _)

theorem appends_genEnum (a) (b) : Appends (genEnum w a b) := by
  unfold genEnum; appends

macro_rules | `(tactic| appends_call) => `(tactic| exact appends_genEnum _ _)

theorem appends_genStruct (a) (b) : Appends (genStruct w a b) := by
  unfold genStruct; appends

macro_rules | `(tactic| appends_call) => `(tactic| exact appends_genStruct _ _)

end Rust

/-! ### Swift -/

namespace Swift

theorem appends_deserializer (n : Nat) : ∀ a b, Appends (deserializer w n a b) := by
  induction n with
  | zero => intros; unfold deserializer; appends
  | succ n ih =>
    intros; unfold deserializer; appends
    all_goals exact ih _ _

macro_rules | `(tactic| appends_call) => `(tactic| exact appends_deserializer _ _ _)

theorem appends_serializer (n : Nat) : ∀ a b, Appends (serializer w n a b) := by
  induction n with
  | zero => intros; unfold serializer; appends
  | succ n ih =>
    intros; unfold serializer; appends
    all_goals exact ih _ _

macro_rules | `(tactic| appends_call) => `(tactic| exact appends_serializer _ _ _)

theorem appends_genMeasurement (n : Nat) : ∀ a b, Appends (genMeasurement w n a b) := by
  induction n with
  | zero => intros; unfold genMeasurement; appends
  | succ n ih =>
    intros; unfold genMeasurement; appends
    all_goals exact ih _ _

macro_rules | `(tactic| appends_call) => `(tactic| exact appends_genMeasurement _ _ _)

theorem appends_genEnum (a) (b) : Appends (genEnum w a b) := by
  unfold genEnum; appends

macro_rules | `(tactic| appends_call) => `(tactic| exact appends_genEnum _ _)

theorem appends_genStruct (a) (b) : Appends (genStruct w a b) := by
  unfold genStruct; appends

macro_rules | `(tactic| appends_call) => `(tactic| exact appends_genStruct _ _)

end Swift

/-! ### TypeScript -/

namespace TypeScript

theorem appends_deserializer (n : Nat) : ∀ a b, Appends (deserializer w n a b) := by
  induction n with
  | zero => intros; unfold deserializer; appends
  | succ n ih =>
    intros; unfold deserializer; appends
    all_goals exact ih _ _

macro_rules | `(tactic| appends_call) => `(tactic| exact appends_deserializer _ _ _)

theorem appends_serializer (n : Nat) : ∀ a b, Appends (serializer w n a b) := by
  induction n with
  | zero => intros; unfold serializer; appends
  | succ n ih =>
    intros; unfold serializer; appends
    all_goals exact ih _ _

macro_rules | `(tactic| appends_call) => `(tactic| exact appends_serializer _ _ _)

theorem appends_genMeasurement (n : Nat) : ∀ a b, Appends (genMeasurement w n a b) := by
  induction n with
  | zero => intros; unfold genMeasurement; appends
  | succ n ih =>
    intros; unfold genMeasurement; appends
    all_goals exact ih _ _

macro_rules | `(tactic| appends_call) => `(tactic| exact appends_genMeasurement _ _ _)

theorem appends_genEnum (a) (b) : Appends (genEnum w a b) := by
  unfold genEnum; appends

macro_rules | `(tactic| appends_call) => `(tactic| exact appends_genEnum _ _)

theorem appends_genStruct (a) (b) : Appends (genStruct w a b) := by
  unfold genStruct; appends

macro_rules | `(tactic| appends_call) => `(tactic| exact appends_genStruct _ _)

end TypeScript

/-! ### CSharp -/

namespace CSharp

theorem appends_deserializer (n : Nat) : ∀ a b, Appends (deserializer w n a b) := by
  induction n with
  | zero => intros; unfold deserializer; appends
  | succ n ih =>
    intros; unfold deserializer; appends
    all_goals exact ih _ _

macro_rules | `(tactic| appends_call) => `(tactic| exact appends_deserializer _ _ _)

theorem appends_serializer (n : Nat) : ∀ a b, Appends (serializer w n a b) := by
  induction n with
  | zero => intros; unfold serializer; appends
  | succ n ih =>
    intros; unfold serializer; appends
    all_goals exact ih _ _

macro_rules | `(tactic| appends_call) => `(tactic| exact appends_serializer _ _ _)

theorem appends_genMeasurement (n : Nat) : ∀ a b, Appends (genMeasurement w n a b) := by
  induction n with
  | zero => intros; unfold genMeasurement; appends
  | succ n ih =>
    intros; unfold genMeasurement; appends
    all_goals exact ih _ _

macro_rules | `(tactic| appends_call) => `(tactic| exact appends_genMeasurement _ _ _)

theorem appends_genEnum (a) (b) : Appends (genEnum w a b) := by
  unfold genEnum; appends

macro_rules | `(tactic| appends_call) => `(tactic| exact appends_genEnum _ _)

theorem appends_genStruct (a) (b) : Appends (genStruct w a b) := by
  unfold genStruct; appends

macro_rules | `(tactic| appends_call) => `(tactic| exact appends_genStruct _ _)

end CSharp

/-! ### C -/

namespace C

theorem appends_errCheckReturn : Appends (errCheckReturn w) := by
  unfold errCheckReturn; appends

macro_rules | `(tactic| appends_call) => `(tactic| exact appends_errCheckReturn)

theorem appends_deserializer (n : Nat) : ∀ a b, Appends (deserializer w n a b) := by
  induction n with
  | zero => intros; unfold deserializer; appends
  | succ n ih =>
    intros; unfold deserializer; appends
    all_goals exact ih _ _

macro_rules | `(tactic| appends_call) => `(tactic| exact appends_deserializer _ _ _)

theorem appends_serializer (n : Nat) : ∀ a b, Appends (serializer w n a b) := by
  induction n with
  | zero => intros; unfold serializer; appends
  | succ n ih =>
    intros; unfold serializer; appends
    all_goals exact ih _ _

macro_rules | `(tactic| appends_call) => `(tactic| exact appends_serializer _ _ _)

theorem appends_genMeasurement (n : Nat) : ∀ a b, Appends (genMeasurement w n a b) := by
  induction n with
  | zero => intros; unfold genMeasurement; appends
  | succ n ih =>
    intros; unfold genMeasurement; appends
    all_goals exact ih _ _

macro_rules | `(tactic| appends_call) => `(tactic| exact appends_genMeasurement _ _ _)

theorem appends_genDefault (n : Nat) : ∀ a, Appends (genDefault w n a) := by
  induction n with
  | zero => intros; unfold genDefault; appends
  | succ n ih =>
    intros; unfold genDefault; appends
    all_goals exact ih _

macro_rules | `(tactic| appends_call) => `(tactic| exact appends_genDefault _ _)

theorem appends_destructor (n : Nat) : ∀ a b, Appends (destructor w n a b) := by
  induction n with
  | zero => intros; unfold destructor; appends
  | succ n ih =>
    intros; unfold destructor; appends
    all_goals exact ih _ _

macro_rules | `(tactic| appends_call) => `(tactic| exact appends_destructor _ _ _)

theorem appends_genEnum (a) (b) : Appends (genEnum w a b) := by
  unfold genEnum; appends

macro_rules | `(tactic| appends_call) => `(tactic| exact appends_genEnum _ _)

theorem appends_genStruct (a) (b) : Appends (genStruct w a b) := by
  unfold genStruct; appends

macro_rules | `(tactic| appends_call) => `(tactic| exact appends_genStruct _ _)

theorem appends_genEnumImplementation (a) (b) : Appends (genEnumImplementation w a b) := by
  unfold genEnumImplementation; appends

macro_rules | `(tactic| appends_call) => `(tactic| exact appends_genEnumImplementation _ _)

theorem appends_genImplementation (a) (b) : Appends (genImplementation w a b) := by
  unfold genImplementation; appends

macro_rules | `(tactic| appends_call) => `(tactic| exact appends_genImplementation _ _)

end C

/-! ### Zig -/

namespace Zig

theorem appends_simpleNames (ss : List Struct) : Appends (simpleNames w ss) := by
  unfold simpleNames; appends

macro_rules | `(tactic| appends_call) => `(tactic| exact appends_simpleNames _)

theorem appends_deserializer (n : Nat) : ∀ a b c d, Appends (deserializer w n a b c d) := by
  induction n with
  | zero => intros; unfold deserializer; appends
  | succ n ih =>
    intros; unfold deserializer; appends

macro_rules | `(tactic| appends_call) => `(tactic| exact appends_deserializer _ _ _ _ _)

theorem appends_serializer (n : Nat) : ∀ a b c d, Appends (serializer w n a b c d) := by
  induction n with
  | zero => intros; unfold serializer; appends
  | succ n ih =>
    intros; unfold serializer; appends

macro_rules | `(tactic| appends_call) => `(tactic| exact appends_serializer _ _ _ _ _)

theorem appends_genMeasurement (n : Nat) : ∀ a b c, Appends (genMeasurement w n a b c) := by
  induction n with
  | zero => intros; unfold genMeasurement; appends
  | succ n ih =>
    intros; unfold genMeasurement; appends
    all_goals exact ih _ _ _

macro_rules | `(tactic| appends_call) => `(tactic| exact appends_genMeasurement _ _ _ _)

theorem appends_destructor (n : Nat) : ∀ a b, Appends (destructor w n a b) := by
  induction n with
  | zero => intros; unfold destructor; appends
  | succ n ih =>
    intros; unfold destructor; appends
    all_goals exact ih _ _

macro_rules | `(tactic| appends_call) => `(tactic| exact appends_destructor _ _ _)

theorem appends_genEnum (a) (b) : Appends (genEnum w a b) := by
  unfold genEnum; appends

macro_rules | `(tactic| appends_call) => `(tactic| exact appends_genEnum _ _)

theorem appends_genStruct (a) (b) : Appends (genStruct w a b) := by
  unfold genStruct; appends

macro_rules | `(tactic| appends_call) => `(tactic| exact appends_genStruct _ _)

end Zig

/-! ### Go -/

namespace Go

theorem appends_deserializer (n : Nat) : ∀ a b c d, Appends (deserializer w n a b c d) := by
  induction n with
  | zero => intros; unfold deserializer; appends
  | succ n ih =>
    intros; unfold deserializer; appends
    all_goals exact ih _ _ _ _

macro_rules | `(tactic| appends_call) => `(tactic| exact appends_deserializer _ _ _ _ _)

theorem appends_serializer (n : Nat) : ∀ a b, Appends (serializer w n a b) := by
  induction n with
  | zero => intros; unfold serializer; appends
  | succ n ih =>
    intros; unfold serializer; appends
    all_goals exact ih _ _

macro_rules | `(tactic| appends_call) => `(tactic| exact appends_serializer _ _ _)

theorem appends_genMeasurement (n : Nat) : ∀ a b, Appends (genMeasurement w n a b) := by
  induction n with
  | zero => intros; unfold genMeasurement; appends
  | succ n ih =>
    intros; unfold genMeasurement; appends
    all_goals exact ih _ _

macro_rules | `(tactic| appends_call) => `(tactic| exact appends_genMeasurement _ _ _)

theorem appends_genEnum (a) (b) : Appends (genEnum w a b) := by
  unfold genEnum; appends

macro_rules | `(tactic| appends_call) => `(tactic| exact appends_genEnum _ _)

theorem appends_genStruct (a) (b) : Appends (genStruct w a b) := by
  unfold genStruct; appends

macro_rules | `(tactic| appends_call) => `(tactic| exact appends_genStruct _ _)

end Go

end Beschi.Text
