/-
Indented lines.
-/
namespace Beschi.Spec

/-- The text `n` times. -/
def repeated (n : Nat) (s : String) : String := String.join (List.replicate n s)

/-- The line is indented `k` times by `tab`; what follows is not indented further. -/
def Indented (tab line : String) (k : Nat) (rest : String) : Prop :=
  line = repeated k tab ++ rest ∧ ¬ tab.toList <+: rest.toList

/-- A space or a tabulator. -/
def Blank (c : Char) : Prop := c = ' ' ∨ c = '\t'

instance (c : Char) : Decidable (Blank c) := inferInstanceAs (Decidable (_ ∨ _))

/-- An indentation made of spaces and tabulators. -/
def Blanks (s : String) : Prop := s ≠ "" ∧ ∀ c ∈ s.toList, Blank c

end Beschi.Spec
