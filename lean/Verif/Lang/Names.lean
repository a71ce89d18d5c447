/-
Renaming of members to the conventions of the target language (`TextUtil`, writer.py L9-20).

Python's `upper` and `lower` are modelled on ASCII letters only; other letters are left alone.
-/
namespace Beschi.Lang

/-- `[A-Z]` -/
def isUpperAZ (c : Char) : Bool := 'A' ≤ c && c ≤ 'Z'
/-- `[a-z]` -/
def isLowerAZ (c : Char) : Bool := 'a' ≤ c && c ≤ 'z'
/-- `[a-z0-9]` -/
def isLowerAZ09 (c : Char) : Bool := isLowerAZ c || ('0' ≤ c && c ≤ '9')

/-- Does the text start with `[A-Z][a-z]`? -/
def startsWord : List Char → Bool
  | u :: l :: _ => isUpperAZ u && isLowerAZ l
  | _ => false

/-- Where the left-to-right scan for `(.)([A-Z][a-z]+)` stands: between matches, before the
`[A-Z]` of a match, or inside its `[a-z]+`. -/
inductive Scan where
  | between
  | upper
  | lowers
  deriving DecidableEq, Repr

/-- `re.sub('(.)([A-Z][a-z]+)', r'\1_\2', s)` (writer.py L11).  Matches are found from left to right
and do not overlap; `.` matches anything but a line break. -/
def splitWords : Scan → List Char → List Char
  | _, [] => []
  | .upper, c :: cs => c :: splitWords .lowers cs
  | .lowers, c :: cs =>
    if isLowerAZ c then c :: splitWords .lowers cs
    else if c ≠ '\n' ∧ startsWord cs then c :: '_' :: splitWords .upper cs
    else c :: splitWords .between cs
  | .between, c :: cs =>
    if c ≠ '\n' ∧ startsWord cs then c :: '_' :: splitWords .upper cs
    else c :: splitWords .between cs

/-- `re.sub('([a-z0-9])([A-Z])', r'\1_\2', s)` (writer.py L12); `skip` is true right after a match,
whose second character cannot start another one. -/
def splitHumps : Bool → List Char → List Char
  | _, [] => []
  | skip, c :: cs =>
    if !skip && isLowerAZ09 c && (cs.head?.any isUpperAZ) then c :: '_' :: splitHumps true cs
    else c :: splitHumps false cs

/-- `TextUtil.convert_to_lower_snake_case` (writer.py L10-12). -/
def snake (s : String) : String :=
  String.ofList ((splitHumps false (splitWords .between s.toList)).map Char.toLower)

/-- `TextUtil.capitalize` (writer.py L14-15). -/
def capitalize (s : String) : String :=
  match s.toList with
  | [] => s
  | c :: cs => String.ofList (c.toUpper :: cs)

example : snake "someIntValue" = "some_int_value" := by decide
example : snake "HTTPServer2Go" = "http_server2_go" := by decide
example : capitalize "theString" = "TheString" := by decide

end Beschi.Lang
