import Verif.Spec.Indent
/-
Lines of a program text.
-/
namespace Beschi.Spec

/-- A line: how deep it is indented, and its text. -/
structure Row where
  depth : Nat
  text : String

/-- The line as it is in a file that is indented with `tab`; empty lines are not indented. -/
def Row.shown (tab : String) (r : Row) : String :=
  if r.text = "" then "" else repeated r.depth tab ++ r.text

/-- The lines are further inside by `k` levels. -/
def inside (k : Nat) (rs : List Row) : List Row := rs.map fun r => ⟨r.depth + k, r.text⟩

/-- Lines that are not indented. -/
def flush (ls : List String) : List Row := ls.map (Row.mk 0)

/-- The text, split into lines, has these lines somewhere, one after the other, at level `k`. -/
def Shows (tab : String) (lines : List String) (k : Nat) (rs : List Row) : Prop :=
  (inside k rs).map (Row.shown tab) <:+: lines

end Beschi.Spec
