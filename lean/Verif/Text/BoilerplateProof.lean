import Verif.Text.Rules
import Verif.Text.Boilerplate
/-
The brackets in the boilerplate files.
-/
namespace Beschi.Text.Boilerplate
open Lean Meta Elab Tactic

/-- `BumpLines` for the lines of a file. -/
elab "bump_lines" : tactic => withMainContext do
  let g ← getMainGoal
  let_expr BumpLines b S _ ls := (← instantiateMVars (← g.getType)) | throwError "not BumpLines"
  let some ls ← delta? ls | throwError "not a definition"
  let ls ← zetaReduce ls
  let (_, h) ← bumpLines b S ls
  unless ← isDefEq (← g.getType) (← inferType h) do throwError "brackets: {← inferType h}"
  g.assign h

set_option maxRecDepth 20000

variable {b : Bool}

theorem assemblyScript_closed : BumpLines b [] [] assemblyScript := by bump_lines
theorem c0_opens : BumpLines b [] ['}'] c0 := by bump_lines
theorem c1_closes : BumpLines b ['}'] [] c1 := by bump_lines
theorem c2_closed : BumpLines b [] [] c2 := by bump_lines
theorem cSharp0_closed : BumpLines b [] [] cSharp0 := by bump_lines
theorem cSharp1_closed : BumpLines b [] [] cSharp1 := by bump_lines
theorem go_closed : BumpLines b [] [] go := by bump_lines
theorem rust_closed : BumpLines b [] [] rust := by bump_lines
theorem swift0_closed : BumpLines b [] [] swift0 := by bump_lines
theorem swift1_closed : BumpLines b [] [] swift1 := by bump_lines
theorem typeScript_closed : BumpLines b [] [] typeScript := by bump_lines
theorem zig_closed : BumpLines b [] [] zig := by bump_lines

end Beschi.Text.Boilerplate
