import Verif.Spec.Rows
import Verif.Lang.Measure
/-
How size computations are written: what the languages have in common.
-/
namespace Beschi.Syntax
open Beschi.Spec Beschi.Lang

/-- A step of an access path. -/
def step : MStep → String
  | .fld n => s!".{n}"
  | .idx v => s!"[{v}]"

/-- An access path. -/
def path (a : MPath) : String := a.root ++ String.join (a.steps.map step)

/-- The lines for each kind of step.  Paths are given as text. -/
structure SizeSyntax where
  init : String
  ret : Nat → String
  add : Nat → String
  addCount : String → Nat → String
  addText : String → String
  addTextPlus : Nat → String → String
  /-- the lines that open a loop: the variable, the type of the elements, the list -/
  loop : String → String → String → List String
  close : String := "}"
  /-- how access paths are written -/
  path : MPath → String := Syntax.path
  /-- what stands for a text in a list -/
  element : MPath → String := path

mutual
/-- The lines of one step of a size computation. -/
def SizeSyntax.line (S : SizeSyntax) : MLine → List Row
  | .init => flush [S.init]
  | .ret n => flush [S.ret n]
  | .add n => flush [S.add n]
  | .addCount a n => flush [S.addCount (S.path a) n]
  | .addText a _ => flush [S.addText (S.path a)]
  | .addTextPlus k a _ => flush [S.addTextPlus k (S.element a)]
  | .each v t a body => flush (S.loop v t (S.path a)) ++ inside 1 (S.lines body) ++ flush [S.close]
  | .index v t a body => flush (S.loop v t (S.path a)) ++ inside 1 (S.lines body) ++ flush [S.close]
/-- The lines of a size computation. -/
def SizeSyntax.lines (S : SizeSyntax) : List MLine → List Row
  | [] => []
  | l :: ls => S.line l ++ S.lines ls
end

end Beschi.Syntax
