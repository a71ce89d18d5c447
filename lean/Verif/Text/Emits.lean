import Verif.Spec.Rows
import Verif.Text.IndentProof
/-
Rules to show which lines a writing function writes.
-/
namespace Beschi.Text
open Beschi.Spec

/-- Starting at level `a`, exactly these lines are written; afterwards the level is `b`. -/
def Emits (w : Writer) (x : Emit Unit) (a : Nat) (rs : List Row) (b : Nat) : Prop :=
  ∀ before, x ⟨a, before⟩ = .ok ((), ⟨b, before ++ rs.map (Row.shown w.tab)⟩)

namespace Emits
variable {w : Writer} {x : Emit Unit} {a b c : Nat} {r s : List Row}

theorem bind {f : Unit → Emit Unit} (h : Emits w x a r b) (k : Emits w (f ()) b s c) :
    Emits w (x >>= f) a (r ++ s) c := by
  intro before
  show Emit.bind x f _ = _
  unfold Emit.bind
  rw [h before]
  simp only [k _, List.map_append, List.append_assoc]

theorem pure : Emits w (Pure.pure ()) a [] a := by
  intro before
  simp only [List.map_nil, List.append_nil]
  rfl

theorem line (t : String) : Emits w (w.line t) a [⟨a, t⟩] a := by
  intro before
  unfold Writer.line
  simp only [List.map_cons, List.map_nil, Row.shown]
  congr 5
  by_cases h : t = ""
  · subst h; rfl
  · rw [if_neg h, if_neg (by simpa using h)]
    rfl

theorem blank : Emits w w.blank a [⟨a, ""⟩] a := line ""

theorem up : Emits w (shift 1) a [] (a + 1) := by
  intro before
  simp [shift]

theorem down : Emits w (shift (-1)) (a + 1) [] a := by
  intro before
  simp [shift]

/-- A value that does not write. -/
theorem value {α} {e : Emit α} {v : α} {f : α → Emit Unit} (he : e = Pure.pure v) (h : Emits w (f v) a r b) :
    Emits w (e >>= f) a r b := by
  subst he
  exact h

theorem lift {α} {e : Except Exn α} {v : α} {f : α → Emit Unit} (he : e = .ok v) (h : Emits w (f v) a r b) :
    Emits w ((monadLift e : Emit α) >>= f) a r b := by
  intro before
  subst he
  exact h before

theorem level {f : Int → Emit Unit} (h : Emits w (f (a : Int)) a r b) : Emits w (level >>= f) a r b := by
  intro before
  exact h before

theorem each {α} {xs : List α} {f : α → Emit Unit} {g : α → List Row} (h : ∀ x ∈ xs, Emits w (f x) a (g x) a) :
    Emits w (each xs f) a (xs.flatMap g) a := by
  induction xs with
  | nil => exact pure
  | cons x xs ih =>
    rw [List.flatMap_cons]
    exact (h x (by simp)).bind (ih fun y hy => h y (by simp [hy]))

theorem ite {p : Prop} [Decidable p] {x y : Emit Unit} (h : p → Emits w x a r b) (k : ¬ p → Emits w y a s b) :
    Emits w (if p then x else y) a (if p then r else s) b := by
  by_cases hp : p
  · rw [if_pos hp, if_pos hp]; exact h hp
  · rw [if_neg hp, if_neg hp]; exact k hp

theorem pos {p : Prop} [Decidable p] {x y : Emit Unit} (hp : p) (h : Emits w x a r b) :
    Emits w (if p then x else y) a r b := by
  rw [if_pos hp]; exact h

theorem neg {p : Prop} [Decidable p] {x y : Emit Unit} (hp : ¬ p) (h : Emits w y a r b) :
    Emits w (if p then x else y) a r b := by
  rw [if_neg hp]; exact h

theorem of_eq (h : Emits w x a r b) (e : r = s) : Emits w x a s b := e ▸ h

/-- Only what the lines look like matters. -/
theorem of_rows (h : Emits w x a r b) (e : r.map (Row.shown w.tab) = s.map (Row.shown w.tab)) : Emits w x a s b := by
  intro before
  rw [h before, e]

/-- The writer matters only for its indentation. -/
theorem of_tab {w' : Writer} (h : Emits w x a r b) (e : w.tab = w'.tab) : Emits w' x a r b := by
  intro before
  rw [← e]
  exact h before

end Emits

/-! ### What is known of a run that has ended -/

/-- Starting at level `a`, the level afterwards is `b`, nothing that has been written before is changed, and
what is returned is in `Q`. -/
def Steps {α : Type} (x : Emit α) (a b : Nat) (Q : α → Prop) : Prop :=
  ∀ (o : Out) v o', o.indent = (a : Int) → x o = .ok (v, o') → o'.indent = (b : Int) ∧ o.lines <+: o'.lines ∧ Q v

/-- Starting at level `a`, these lines are written, among others. -/
def Puts {α : Type} (tab : String) (x : Emit α) (a : Nat) (rs : List Row) : Prop :=
  ∀ (o : Out) v o', o.indent = (a : Int) → x o = .ok (v, o') → rs.map (Row.shown tab) <:+: o'.lines

/-- Starting at level `a`, these lines are written first. -/
def Starts {α : Type} (tab : String) (x : Emit α) (a : Nat) (rs : List Row) : Prop :=
  ∀ (o : Out) v o', o.indent = (a : Int) → x o = .ok (v, o') → o.lines ++ rs.map (Row.shown tab) <+: o'.lines

theorem bind_ok {α β : Type} {x : Emit α} {f : α → Emit β} {o o' : Out} {v : β} (h : (x >>= f) o = .ok (v, o')) :
    ∃ u m, x o = .ok (u, m) ∧ f u m = .ok (v, o') := by
  change Emit.bind x f o = _ at h
  unfold Emit.bind at h
  cases hx : x o with
  | error e => rw [hx] at h; cases h
  | ok r => rw [hx] at h; exact ⟨r.1, r.2, rfl, h⟩

namespace Steps
variable {a b c : Nat}

theorem bind {α β : Type} {x : Emit α} {f : α → Emit β} {P : α → Prop} {Q : β → Prop} (h : Steps x a b P)
    (k : ∀ v, P v → Steps (f v) b c Q) : Steps (x >>= f) a c Q := by
  intro o v o' ho hr
  obtain ⟨u, m, h1, h2⟩ := bind_ok hr
  obtain ⟨h3, h4, h5⟩ := h _ _ _ ho h1
  obtain ⟨h6, h7, h8⟩ := k _ h5 _ _ _ h3 h2
  exact ⟨h6, h4.trans h7, h8⟩

theorem pure {α : Type} {v : α} {Q : α → Prop} (h : Q v) : Steps (Pure.pure v : Emit α) a a Q := by
  intro o v o' ho hr; cases hr; exact ⟨ho, List.prefix_rfl, h⟩

theorem value {α : Type} {v : α} : Steps (Pure.pure v : Emit α) a a Any := pure trivial

theorem raise {α : Type} {e : Exn} {Q : α → Prop} : Steps (Emit.raise e : Emit α) a b Q := by
  intro o v o' ho hr; cases hr

theorem line {w : Writer} {t : String} : Steps (w.line t) a a Any := by
  intro o v o' ho hr; cases hr; exact ⟨ho, List.prefix_append _ _, trivial⟩

theorem blank {w : Writer} : Steps w.blank a a Any := line

theorem up : Steps (shift 1) a (a + 1) Any := by
  intro o v o' ho hr; cases hr; exact ⟨by simp [ho], List.prefix_rfl, trivial⟩

theorem down : Steps (shift (-1)) (a + 1) a Any := by
  intro o v o' ho hr; cases hr; exact ⟨by simp [ho], List.prefix_rfl, trivial⟩

theorem level : Steps Text.level a a (· = (a : Int)) := by
  intro o v o' ho hr; cases hr; exact ⟨ho, List.prefix_rfl, ho⟩

theorem lift {α : Type} {e : Except Exn α} : Steps (monadLift e : Emit α) a a (fun v => e = .ok v) := by
  intro o v o' ho hr
  change Emit.lift e o = _ at hr
  unfold Emit.lift at hr
  cases e with
  | error e => cases hr
  | ok a => cases hr; exact ⟨ho, List.prefix_rfl, rfl⟩

theorem assert : Steps assertBalanced a a Any := by
  intro o v o' ho hr
  unfold assertBalanced at hr
  split at hr
  · cases hr; exact ⟨ho, List.prefix_rfl, trivial⟩
  · cases hr

theorem each {α : Type} {xs : List α} {f : α → Emit Unit} (h : ∀ x ∈ xs, Steps (f x) a a Any) :
    Steps (Text.each xs f) a a Any := by
  induction xs with
  | nil => exact pure trivial
  | cons x xs ih => exact (h x (by simp)).bind fun _ _ => ih fun y hy => h y (by simp [hy])

theorem eachWith {α β : Type} {xs : List α} {b : β} {f : β → α → Emit β} (h : ∀ b x, Steps (f b x) a a Any) :
    Steps (Text.eachWith xs b f) a a Any := by
  induction xs generalizing b with
  | nil => exact pure trivial
  | cons x xs ih => exact (h _ x).bind fun _ _ => ih

theorem ite {α : Type} {p : Prop} [Decidable p] {x y : Emit α} {Q : α → Prop} (h : p → Steps x a b Q)
    (k : ¬ p → Steps y a b Q) : Steps (if p then x else y) a b Q := by
  split
  · exact h ‹_›
  · exact k ‹_›

theorem boilerplate {w : Writer} {subs : List (String × Sub)} {n : Nat} : Steps (w.addBoilerplate subs n) a a Any :=
  each fun _ _ => line

theorem weaken {α : Type} {x : Emit α} {P Q : α → Prop} (h : Steps x a b P) (k : ∀ v, P v → Q v) : Steps x a b Q :=
  fun o v o' ho hr => ⟨(h o v o' ho hr).1, (h o v o' ho hr).2.1, k v (h o v o' ho hr).2.2⟩

end Steps

theorem Emits.run {w : Writer} {x : Emit Unit} {a b : Nat} {r : List Row} (h : Emits w x a r b) (o : Out) (v : Unit)
    (o' : Out) (ho : o.indent = (a : Int)) (hr : x o = .ok (v, o')) :
    o'.indent = (b : Int) ∧ o'.lines = o.lines ++ r.map (Row.shown w.tab) := by
  obtain ⟨i, ls⟩ := o
  have ho : i = (a : Int) := ho
  subst ho
  rw [h ls] at hr
  cases hr
  exact ⟨rfl, rfl⟩

theorem Emits.steps {w : Writer} {x : Emit Unit} {a b : Nat} {r : List Row} (h : Emits w x a r b) : Steps x a b Any := by
  intro o v o' ho hr
  obtain ⟨h1, h2⟩ := h.run o v o' ho hr
  exact ⟨h1, h2 ▸ List.prefix_append _ _, trivial⟩

theorem Emits.puts {w : Writer} {x : Emit Unit} {a b : Nat} {r : List Row} (h : Emits w x a r b) {s : List Row}
    (k : s <:+: r) : Puts w.tab x a s := by
  intro o v o' ho hr
  obtain ⟨_, h2⟩ := h.run o v o' ho hr
  rw [h2]
  exact (k.map _).trans (List.infix_append' o.lines _ [] |>.trans (by simp))

namespace Starts
variable {tab : String} {a b c : Nat} {r s : List Row}

theorem nil {α : Type} {x : Emit α} {Q : α → Prop} (h : Steps x a b Q) : Starts tab x a [] := by
  intro o v o' ho hr
  simpa using (h o v o' ho hr).2.1

/-- Up to an empty line. -/
theorem blank {β : Type} {w : Writer} {f : Unit → Emit β} {Q : β → Prop} (h : Steps (w.blank >>= f) a b Q) :
    Starts tab (w.blank >>= f) a [] := nil h

theorem bind {β : Type} {w : Writer} {x : Emit Unit} {f : Unit → Emit β} (h : Emits w x a r b)
    (k : Starts w.tab (f ()) b s) : Starts w.tab (x >>= f) a (r ++ s) := by
  intro o v o' ho hr
  obtain ⟨u, m, h1, h2⟩ := bind_ok hr
  obtain ⟨h3, h4⟩ := h.run _ _ _ ho h1
  have := k _ _ _ h3 h2
  rw [h4] at this
  simpa using this

theorem value {α β : Type} {e : Emit α} {v : α} {f : α → Emit β} (he : e = Pure.pure v) (h : Starts tab (f v) a r) :
    Starts tab (e >>= f) a r := by
  subst he
  exact h

theorem of_eq {α : Type} {x : Emit α} (h : Starts tab x a r) (e : r = s) : Starts tab x a s := e ▸ h

theorem puts {α : Type} {x : Emit α} (h : Starts tab x a r) : Puts tab x a r := by
  intro o v o' ho hr
  obtain ⟨t, ht⟩ := h o v o' ho hr
  exact ⟨o.lines, t, ht⟩

end Starts

namespace Puts
variable {tab : String} {a b c : Nat} {rs : List Row}

theorem left {α β : Type} {x : Emit α} {f : α → Emit β} {P : α → Prop} {Q : β → Prop} (h : Puts tab x a rs)
    (hs : Steps x a b P) (k : ∀ v, P v → Steps (f v) b c Q) : Puts tab (x >>= f) a rs := by
  intro o v o' ho hr
  obtain ⟨u, m, h1, h2⟩ := bind_ok hr
  obtain ⟨h3, h4, h5⟩ := hs _ _ _ ho h1
  exact (h _ _ _ ho h1).trans (k _ h5 _ _ _ h3 h2).2.1.isInfix

theorem right {α β : Type} {x : Emit α} {f : α → Emit β} {P : α → Prop} (h : Steps x a b P)
    (k : ∀ v, P v → Puts tab (f v) b rs) : Puts tab (x >>= f) a rs := by
  intro o v o' ho hr
  obtain ⟨u, m, h1, h2⟩ := bind_ok hr
  obtain ⟨h3, _, h4⟩ := h _ _ _ ho h1
  exact k _ h4 _ _ _ h3 h2

theorem part {α : Type} {x : Emit α} {s : List Row} (h : Puts tab x a rs) (k : s <:+: rs) : Puts tab x a s :=
  fun o v o' ho hr => (k.map _).trans (h o v o' ho hr)

theorem each {α : Type} {xs : List α} {f : α → Emit Unit} (h : ∀ x ∈ xs, Steps (f x) a a Any) {x : α} (hx : x ∈ xs)
    (hp : Puts tab (f x) a rs) : Puts tab (Text.each xs f) a rs := by
  induction xs with
  | nil => cases hx
  | cons y ys ih =>
    rcases List.mem_cons.1 hx with rfl | hx
    · exact hp.left (h x (by simp)) fun _ _ => .each fun z hz => h z (by simp [hz])
    · exact right (h y (by simp)) fun _ _ => ih (fun z hz => h z (by simp [hz])) hx

end Puts

theorem str_toString (s : String) : toString s = s := rfl
theorem cat_assoc (a b c : String) : a ++ b ++ c = a ++ (b ++ c) := String.append_assoc

open Lean Meta in
/-- Literals that stand next to each other are one literal. -/
simproc_decl mergeLiterals ((_ : String) ++ ((_ : String) ++ (_ : String))) := fun e => do
  let_expr HAppend.hAppend _ _ _ _ x y := e | return .continue
  let_expr HAppend.hAppend _ _ _ _ y z := y | return .continue
  let .lit (.strVal x') := x | return .continue
  let .lit (.strVal y') := y | return .continue
  let e' ← mkAppM ``HAppend.hAppend #[mkStrLit (x' ++ y'), z]
  let proof ← mkEqSymm (← mkAppM ``cat_assoc #[x, y, z])
  return .visit { expr := e', proof? := some (mkExpectedPropHint proof (← mkEq e e')) }

/-- Normalise the texts on both sides. -/
macro "texts" "[" ts:Lean.Parser.Tactic.simpLemma,* "]" : tactic => `(tactic|
  simp [str_toString, cat_assoc, mergeLiterals, inside, flush, $ts,*])

/-- Follow a function, line by line. -/
syntax "emits" "[" term,* "]" : tactic
macro_rules
  | `(tactic| emits [$ts,*]) => do
    let ts := ts.getElems
    let alts ← ts.mapM fun t => `(tactic| with_reducible exact $t)
    `(tactic| repeat' first
      | with_reducible exact Emits.line _
      | with_reducible exact Emits.blank
      | with_reducible exact Emits.up
      | with_reducible exact Emits.down
      | with_reducible exact Emits.pure
      $[| $alts:tactic]*
      | with_reducible apply Emits.bind)

/-- The lines from here on, as far as the given rules go. -/
syntax "starts_on" "[" term,* "]" : tactic
macro_rules
  | `(tactic| starts_on [$ts,*]) => `(tactic|
      repeat ((with_reducible apply Starts.bind); (· emits [$ts,*])))

/-- Only follow the level. -/
syntax "steps" "[" term,* "]" : tactic
macro_rules
  | `(tactic| steps [$ts,*]) => do
    let ts := ts.getElems
    let alts ← ts.mapM fun t => `(tactic| with_reducible exact $t)
    `(tactic| repeat' first
      | with_reducible exact Steps.line
      | with_reducible exact Steps.blank
      | with_reducible exact Steps.up
      | with_reducible exact Steps.down
      | with_reducible exact Steps.level
      | with_reducible exact Steps.lift
      | with_reducible exact Steps.boilerplate
      | with_reducible exact Steps.assert
      | with_reducible exact Steps.value
      $[| $alts:tactic]*
      | (with_reducible apply Steps.each; intro _ _)
      | ((with_reducible apply Steps.ite) <;> intro _)
      | (with_reducible apply Steps.bind; on_goal 2 => intro _ _))

/-- What comes before does not matter. -/
macro "skip_line" "[" ts:term,* "]" : tactic => `(tactic|
  ((with_reducible apply Puts.right); (· steps [$ts,*]); (intro _ _)))

/-- Look for what writes the lines; before it, only follow the level. -/
syntax "find_puts" "[" term,* "]" "[" term,* "]" : tactic
macro_rules
  | `(tactic| find_puts [$ts,*] [$us,*]) => do
    let ts := ts.getElems
    let alts ← ts.mapM fun t => `(tactic| with_reducible exact $t)
    `(tactic| repeat first
      $[| $alts:tactic]*
      | skip_line [$us,*])

/-- The lines from here to the next empty line. -/
syntax "starts" "[" term,* "]" : tactic
macro_rules
  | `(tactic| starts [$ts,*]) => `(tactic|
      repeat first
      | (with_reducible apply Starts.blank)
      | ((with_reducible apply Starts.bind); (· emits [$ts,*])))

end Beschi.Text
