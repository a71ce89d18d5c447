import Mathlib.Data.List.Infix
/-
Specification of comments in the target languages, and of the lines of a text.
-/
namespace Beschi.Spec

/-- The characters that end a line. -/
def breaks : List Char :=
  ['\n', '\r', '\x0b', '\x0c', '\x1c', '\x1d', '\x1e', '\x85', Char.ofNat 0x2028, Char.ofNat 0x2029]

/-- The text consists of these lines.  Every line but the last ends with one of the characters above, or with
"\r\n"; the last one may, and is not empty if it does not. -/
inductive LinesOf : List Char → List (List Char) → Prop
  | nil : LinesOf [] []
  | last {l} : l ≠ [] → (∀ c ∈ l, c ∉ breaks) → LinesOf l [l]
  | crlf {l rest ls} : (∀ c ∈ l, c ∉ breaks) → LinesOf rest ls → LinesOf (l ++ '\r' :: '\n' :: rest) (l :: ls)
  | cons {l c rest ls} : (∀ c ∈ l, c ∉ breaks) → c ∈ breaks → (c = '\r' → ∀ r, rest ≠ '\n' :: r) →
      LinesOf rest ls → LinesOf (l ++ c :: rest) (l :: ls)

/-- The text is one comment in C, C#, Go, TypeScript and AssemblyScript: the first `*/` is at its end.
(In C this takes for granted that no line ends with a backslash, which would join it with the next one.) -/
def BlockComment (text : List Char) : Prop :=
  ∃ body, text = ['/', '*'] ++ body ++ ['*', '/'] ∧ ¬ ['*', '/'] <:+: body

/-- How deep inside of comments one is after the text, if one was `d` deep before it, in languages where
comments can be nested; nothing if the comment has ended before the end of the text. -/
def deep : Nat → List Char → Option Nat
  | d, [] => some d
  | 0, _ :: _ => none
  | d + 1, '/' :: '*' :: cs => deep (d + 2) cs
  | d + 1, '*' :: '/' :: cs => deep d cs
  | d + 1, _ :: cs => deep (d + 1) cs

/-- The text is one comment in Rust and Swift, where comments can be nested. -/
def NestedComment (text : List Char) : Prop := ∃ body, text = ['/', '*'] ++ body ∧ deep 1 body = some 0

/-- The line is a comment in Zig. -/
def LineComment (line : List Char) : Prop := ['/', '/'] <+: line ∧ '\n' ∉ line

/-- The lines in a comment, in all languages but Zig. -/
def blockAround (ls : List String) : List String :=
  ["/*", "DATA PROTOCOL", "-----------------"] ++ ls ++ ["-----------------", "END DATA PROTOCOL", "*/"]

/-- The lines in comments, in Zig. -/
def slashesAround (ls : List String) : List String :=
  ["// DATA PROTOCOL", "// -----------------"] ++ ls.map ("// " ++ ·) ++ ["// -----------------", "// END DATA PROTOCOL"]

end Beschi.Spec
