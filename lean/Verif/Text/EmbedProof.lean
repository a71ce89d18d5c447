import Verif.Text.Appends
import Verif.Text.Runs
/-
What the option to embed the protocol changes in the output.
-/
namespace Beschi.Text

open Lean Elab Tactic Meta in
/-- Leave it to the kernel that both sides are the same by definition. -/
elab "kernel_rfl" : tactic => do
  let goal ← getMainGoal
  let some (_, a, _) := (← instantiateMVars (← goal.getType)).eq? | throwError "not an equation"
  goal.assign (← mkEqRefl a)
  replaceMainGoal []

variable {w : Writer}

theorem line_shown (t : String) (i : Int) (ls : List String) :
    w.line t ⟨i, ls⟩ = .ok ((), ⟨i, ls ++ [w.shown i t]⟩) := rfl

theorem shown_zero (t : String) : w.shown 0 t = t := by
  unfold Writer.shown Writer.indentString times
  split
  · rename_i h
    exact (String.length_eq_zero_iff.1 h).symm
  · simp [String.join]

theorem line_zero {β} (t : String) (f : Unit → Emit β) (ls : List String) :
    (w.line t >>= f) ⟨0, ls⟩ = f () ⟨0, ls ++ [t]⟩ := by
  show Emit.bind (w.line t) f _ = _
  simp only [Emit.bind, line_shown, shown_zero]

theorem blank_zero {β} (f : Unit → Emit β) (ls : List String) : (w.blank >>= f) ⟨0, ls⟩ = f () ⟨0, ls ++ [""]⟩ :=
  line_zero "" f ls

theorem each_zero (xs : List String) (g : String → String) (ls : List String) :
    each xs (fun l => w.line (g l)) ⟨0, ls⟩ = .ok ((), ⟨0, ls ++ xs.map g⟩) := by
  induction xs generalizing ls with
  | nil => show Except.ok _ = _; simp
  | cons x xs ih =>
    show (w.line (g x) >>= fun _ => each xs fun l => w.line (g l)) ⟨0, ls⟩ = _
    rw [line_zero, ih]
    simp

theorem each_zero_bind {β} (xs : List String) (g : String → String) (f : Unit → Emit β) (ls : List String) :
    (each xs (fun l => w.line (g l)) >>= f) ⟨0, ls⟩ = f () ⟨0, ls ++ xs.map g⟩ := by
  show Emit.bind _ f _ = _
  simp only [Emit.bind, each_zero]

/-- The comment with the protocol in all languages but Zig (c.py L405-414, csharp.py L256-265, go.py L307-316,
rust.py L262-271, swift.py L243-252, typescript.py L388-397). -/
def blockLines (s : String) : List String :=
  ["/*", "DATA PROTOCOL", "-----------------"] ++ splitlines s ++ ["-----------------", "END DATA PROTOCOL", "*/", "", ""]

/-- The comment with the protocol in Zig (zig.py L312-319). -/
def slashLines (s : String) : List String :=
  ["// DATA PROTOCOL", "// -----------------"] ++ (splitlines s).map ("// " ++ ·) ++
    ["// -----------------", "// END DATA PROTOCOL", "", ""]

/-- The statement that writes the comment, in all languages but Zig. -/
def Writer.block (w : Writer) : Emit Unit := do
  if w.embed.isSome then
    w.line "/*"
    w.line "DATA PROTOCOL"
    w.line "-----------------"
    each (splitlines (w.embed.getD "")) fun l => w.line s!"{l}"
    w.line "-----------------"
    w.line "END DATA PROTOCOL"
    w.line "*/"
    w.blank
    w.blank

/-- The same in Zig. -/
def Writer.slashes (w : Writer) : Emit Unit := do
  if w.embed.isSome then
    w.line "// DATA PROTOCOL"
    w.line "// -----------------"
    each (splitlines (w.embed.getD "")) fun l => w.line s!"// {l}"
    w.line "// -----------------"
    w.line "// END DATA PROTOCOL"
    w.blank
    w.blank

theorem block_zero {β} (f : Unit → Emit β) (ls : List String) :
    (w.block >>= f) ⟨0, ls⟩ = f () ⟨0, ls ++ (w.embed.map blockLines).getD []⟩ := by
  show Emit.bind w.block f _ = _
  unfold Writer.block
  cases h : w.embed with
  | none => simp only [Emit.bind]; simp; rfl
  | some s =>
    simp only [Option.isSome_some, if_true, Option.getD_some]
    show ((_ : Emit Unit) >>= f) _ = _
    simp only [Emit.bind, Bind.bind, line_shown, shown_zero, each_zero, Writer.blank]
    simp [blockLines, toString]

theorem slashes_zero {β} (f : Unit → Emit β) (ls : List String) :
    (w.slashes >>= f) ⟨0, ls⟩ = f () ⟨0, ls ++ (w.embed.map slashLines).getD []⟩ := by
  show Emit.bind w.slashes f _ = _
  unfold Writer.slashes
  cases h : w.embed with
  | none => simp only [Emit.bind]; simp; rfl
  | some s =>
    simp only [Option.isSome_some, if_true, Option.getD_some]
    show ((_ : Emit Unit) >>= f) _ = _
    simp only [Emit.bind, Bind.bind, line_shown, shown_zero, each_zero, Writer.blank]
    simp [slashLines, toString]

/-- A generator writes some lines, the comment if it is asked for, and then lines that do not depend on
that. -/
def Splits (gen : Writer → Emit Unit) (head : List String) (comment : String → List String) : Prop :=
  ∃ rest : Writer → Emit Unit, (∀ w e, rest { w with embed := e } = rest w) ∧ (∀ w, Appends (rest w)) ∧
    ∀ w, gen w ⟨0, []⟩ = rest w ⟨0, head ++ (w.embed.map comment).getD []⟩

/-- The first lines, in most languages. -/
def heading : List String :=
  ["// This file was automatically generated by Beschi v0.4.0", "// <https://github.com/sjml/beschi>",
    "// Do not edit directly.", ""]

theorem heading_zero {β} (f : Unit → Emit β) :
    (do
      w.line s!"// This file was automatically generated by {libName} v{libVersion}"
      w.line "// <https://github.com/sjml/beschi>"
      w.line "// Do not edit directly."
      w.blank
      f () : Emit β) ⟨0, []⟩ = f () ⟨0, heading⟩ := by
  simp only [line_zero, blank_zero]
  rfl

/-- The first lines in Swift. -/
def headingSwift : List String := heading ++ ["import Foundation", ""]

/-- The first lines in C. -/
def headingC : List String :=
  ["/*", "   This file was automatically generated by Beschi v0.4.0", "   <https://github.com/sjml/beschi>",
    "   Do not edit directly.", "*/", ""]

theorem headingSwift_zero {β} (f : Unit → Emit β) :
    (do
      w.line s!"// This file was automatically generated by {libName} v{libVersion}"
      w.line "// <https://github.com/sjml/beschi>"
      w.line "// Do not edit directly."
      w.blank
      w.line "import Foundation"
      w.blank
      f () : Emit β) ⟨0, []⟩ = f () ⟨0, headingSwift⟩ := by
  simp only [line_zero, blank_zero]
  rfl

theorem headingC_zero {β} (f : Unit → Emit β) :
    (do
      w.line "/*"
      w.line s!"   This file was automatically generated by {libName} v{libVersion}"
      w.line "   <https://github.com/sjml/beschi>"
      w.line "   Do not edit directly."
      w.line "*/"
      w.blank
      f () : Emit β) ⟨0, []⟩ = f () ⟨0, headingC⟩ := by
  simp only [line_zero, blank_zero]
  rfl

namespace Go
theorem splits : Splits generate heading blockLines := by
  have : ∃ rest : Writer → Emit Unit, (∀ w, generate w = (do
      w.line s!"// This file was automatically generated by {libName} v{libVersion}"
      w.line "// <https://github.com/sjml/beschi>"
      w.line "// Do not edit directly."
      w.blank
      w.block
      rest w)) ∧ (∀ w e, rest { w with embed := e } = rest w) ∧ ∀ w, Appends (rest w) := by
    refine ⟨?_, fun w => ?_, fun w e => ?_, fun w => ?_⟩
    rotate_left
    · unfold generate; rfl
    · kernel_rfl
    · appends
  obtain ⟨rest, h1, h2, h3⟩ := this
  refine ⟨rest, h2, h3, fun w => ?_⟩
  rw [h1, heading_zero fun _ => (do w.block; rest w), block_zero]
end Go

namespace Rust
theorem splits : Splits generate heading blockLines := by
  have : ∃ rest : Writer → Emit Unit, (∀ w, generate w = (do
      w.line s!"// This file was automatically generated by {libName} v{libVersion}"
      w.line "// <https://github.com/sjml/beschi>"
      w.line "// Do not edit directly."
      w.blank
      w.block
      rest w)) ∧ (∀ w e, rest { w with embed := e } = rest w) ∧ ∀ w, Appends (rest w) := by
    refine ⟨?_, fun w => ?_, fun w e => ?_, fun w => ?_⟩
    rotate_left
    · unfold generate; rfl
    · obtain ⟨⟨ns, _, _, _, _, _⟩, _, _, _, _, _, _, _, _, _, _, _, _⟩ := w
      rcases ns with _ | (_ | _ | _ | _ | _ | _) <;> kernel_rfl
    · appends
  obtain ⟨rest, h1, h2, h3⟩ := this
  refine ⟨rest, h2, h3, fun w => ?_⟩
  rw [h1, heading_zero fun _ => (do w.block; rest w), block_zero]
end Rust

namespace Swift
theorem splits : Splits generate headingSwift blockLines := by
  have : ∃ rest : Writer → Emit Unit, (∀ w, generate w = (do
      w.line s!"// This file was automatically generated by {libName} v{libVersion}"
      w.line "// <https://github.com/sjml/beschi>"
      w.line "// Do not edit directly."
      w.blank
      w.line "import Foundation"
      w.blank
      w.block
      rest w)) ∧ (∀ w e, rest { w with embed := e } = rest w) ∧ ∀ w, Appends (rest w) := by
    refine ⟨?_, fun w => ?_, fun w e => ?_, fun w => ?_⟩
    rotate_left
    · unfold generate; rfl
    · kernel_rfl
    · appends
  obtain ⟨rest, h1, h2, h3⟩ := this
  refine ⟨rest, h2, h3, fun w => ?_⟩
  rw [h1, headingSwift_zero fun _ => (do w.block; rest w), block_zero]
end Swift

namespace TypeScript
theorem splits : Splits generate heading blockLines := by
  have : ∃ rest : Writer → Emit Unit, (∀ w, generate w = (do
      w.line s!"// This file was automatically generated by {libName} v{libVersion}"
      w.line "// <https://github.com/sjml/beschi>"
      w.line "// Do not edit directly."
      w.blank
      w.block
      rest w)) ∧ (∀ w e, rest { w with embed := e } = rest w) ∧ ∀ w, Appends (rest w) := by
    refine ⟨?_, fun w => ?_, fun w e => ?_, fun w => ?_⟩
    rotate_left
    · unfold generate; rfl
    · kernel_rfl
    · appends
  obtain ⟨rest, h1, h2, h3⟩ := this
  refine ⟨rest, h2, h3, fun w => ?_⟩
  rw [h1, heading_zero fun _ => (do w.block; rest w), block_zero]
end TypeScript

namespace CSharp
theorem splits : Splits generate heading blockLines := by
  have : ∃ rest : Writer → Emit Unit, (∀ w, generate w = (do
      w.line s!"// This file was automatically generated by {libName} v{libVersion}"
      w.line "// <https://github.com/sjml/beschi>"
      w.line "// Do not edit directly."
      w.blank
      w.block
      rest w)) ∧ (∀ w e, rest { w with embed := e } = rest w) ∧ ∀ w, Appends (rest w) := by
    refine ⟨?_, fun w => ?_, fun w e => ?_, fun w => ?_⟩
    rotate_left
    · unfold generate; rfl
    · kernel_rfl
    · appends
  obtain ⟨rest, h1, h2, h3⟩ := this
  refine ⟨rest, h2, h3, fun w => ?_⟩
  rw [h1, heading_zero fun _ => (do w.block; rest w), block_zero]
end CSharp

namespace Zig
theorem splits : Splits generate heading slashLines := by
  have : ∃ rest : Writer → Emit Unit, (∀ w, generate w = (do
      w.line s!"// This file was automatically generated by {libName} v{libVersion}"
      w.line "// <https://github.com/sjml/beschi>"
      w.line "// Do not edit directly."
      w.blank
      w.slashes
      rest w)) ∧ (∀ w e, rest { w with embed := e } = rest w) ∧ ∀ w, Appends (rest w) := by
    refine ⟨?_, fun w => ?_, fun w e => ?_, fun w => ?_⟩
    rotate_left
    · unfold generate; rfl
    · kernel_rfl
    · appends
  obtain ⟨rest, h1, h2, h3⟩ := this
  refine ⟨rest, h2, h3, fun w => ?_⟩
  rw [h1, heading_zero fun _ => (do w.slashes; rest w), slashes_zero]
end Zig

namespace C
set_option maxRecDepth 4000 in
theorem splits : Splits generate headingC blockLines := by
  have : ∃ rest : Writer → Emit Unit, (∀ w, generate w = (do
      w.line "/*"
      w.line s!"   This file was automatically generated by {libName} v{libVersion}"
      w.line "   <https://github.com/sjml/beschi>"
      w.line "   Do not edit directly."
      w.line "*/"
      w.blank
      w.block
      rest w)) ∧ (∀ w e, rest { w with embed := e } = rest w) ∧ ∀ w, Appends (rest w) := by
    refine ⟨?_, fun w => ?_, fun w e => ?_, fun w => ?_⟩
    rotate_left
    · unfold generate; rfl
    · kernel_rfl
    · appends
  obtain ⟨rest, h1, h2, h3⟩ := this
  refine ⟨rest, h2, h3, fun w => ?_⟩
  rw [h1, headingC_zero fun _ => (do w.block; rest w), block_zero]
end C

end Beschi.Text
