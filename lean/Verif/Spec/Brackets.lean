import Verif.Protocol.Basic
/-
Texts with matched brackets.
-/
namespace Beschi.Spec

/-- The three kinds of brackets. -/
inductive Pair : Char → Char → Prop
  | round : Pair '(' ')'
  | square : Pair '[' ']'
  | curly : Pair '{' '}'

/-- The characters that are brackets. -/
def brackets : List Char := ['(', ')', '[', ']', '{', '}']

/-- A text in which every bracket has its partner and pairs do not cross. -/
inductive Matched : List Char → Prop
  | nil : Matched []
  | char {c cs} : c ∉ brackets → Matched cs → Matched (c :: cs)
  | pair {a b inner rest} : Pair a b → Matched inner → Matched rest → Matched (a :: (inner ++ b :: rest))

/-- A text without brackets. -/
def NoBrackets (s : String) : Prop := ∀ c ∈ s.toList, c ∉ brackets

/-- The names in a protocol. -/
inductive NameIn (p : Protocol) : String → Prop
  | struct {s} : s ∈ p.structs → NameIn p s.name
  | message {s} : s ∈ p.messages → NameIn p s.name
  | member {s v} : s ∈ p.structs ∨ s ∈ p.messages → v ∈ s.members → NameIn p v.name
  | enum {e} : e ∈ p.enums → NameIn p e.name
  | value {e n i} : e ∈ p.enums → (n, i) ∈ e.values → NameIn p n
  | ns {n} : p.ns = some (.str n) → NameIn p n

end Beschi.Spec
