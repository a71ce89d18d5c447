/-
What renaming does to the name of a member: the conventions of Go and Rust.
-/
namespace Beschi.Spec

/-- `A` to `Z`. -/
def Capital (c : Char) : Prop := 'A' ≤ c ∧ c ≤ 'Z'
/-- `a` to `z`. -/
def Small (c : Char) : Prop := 'a' ≤ c ∧ c ≤ 'z'
/-- `0` to `9`. -/
def Digit (c : Char) : Prop := '0' ≤ c ∧ c ≤ '9'

instance (c : Char) : Decidable (Capital c) := by unfold Capital; infer_instance
instance (c : Char) : Decidable (Small c) := by unfold Small; infer_instance
instance (c : Char) : Decidable (Digit c) := by unfold Digit; infer_instance

/-- Does a word begin with the letter `c`, given the characters before and after it?  A capital letter
begins a word if there is a small letter or a digit before it, or if there is anything before it and a
small letter after it. -/
def WordBegins (before : Option Char) (c : Char) (after : Option Char) : Prop :=
  Capital c ∧ ∃ q ∈ before, (Small q ∨ Digit q) ∨ ∃ d ∈ after, Small d

instance (before : Option Char) (c : Char) (after : Option Char) : Decidable (WordBegins before c after) :=
  match before, after with
  | none, _ => .isFalse (fun ⟨_, q, h, _⟩ => nomatch h)
  | some q, none => decidable_of_iff (Capital c ∧ (Small q ∨ Digit q))
      ⟨fun ⟨h, k⟩ => ⟨h, q, rfl, .inl k⟩, fun ⟨h, q', e, k⟩ => by
        cases e
        exact ⟨h, k.resolve_right fun ⟨d, hd, _⟩ => nomatch hd⟩⟩
  | some q, some d => decidable_of_iff (Capital c ∧ ((Small q ∨ Digit q) ∨ Small d))
      ⟨fun ⟨h, k⟩ => ⟨h, q, rfl, k.imp id fun h => ⟨d, rfl, h⟩⟩, fun ⟨h, q', e, k⟩ => by
        cases e
        exact ⟨h, k.imp id fun ⟨d', e, h⟩ => by cases e; exact h⟩⟩

/-- Snake case: an underscore before each letter that begins a word, and no capital letters. -/
def snakeCase (before : Option Char) : List Char → List Char
  | [] => []
  | c :: cs =>
    (if WordBegins before c cs.head? then ['_', c.toLower] else [c.toLower]) ++ snakeCase (some c) cs

/-- A name without regard to case and underscores. -/
def folded (s : String) : List Char := (s.toList.map Char.toLower).filter (· ≠ '_')

/-- The first letter as a capital letter. -/
def capitalCase : List Char → List Char
  | [] => []
  | c :: cs => c.toUpper :: cs

example : snakeCase none "someHTTPValue2".toList = "some_http_value2".toList := by decide

end Beschi.Spec
