import Verif.Text.Follow
/-
The facts that the tactics of Follow.lean use.
-/
namespace Beschi.Text

theorem closed_libName {b : Bool} : Closed b libName := closed_of_matched (matched_of_scan (by decide))
theorem closed_libVersion {b : Bool} : Closed b libVersion := closed_of_matched (matched_of_scan (by decide))

macro_rules | `(tactic| closed_leaf) => `(tactic| first
  | assumption
  | exact closed_nat _
  | exact closed_int _
  | exact closed_num _
  | exact closed_libName
  | exact closed_libVersion
  | exact Good.tab here%
  | exact Good.pref here%
  | exact closed_upper (Good.pref here%)
  | exact closed_upper (by closed)
  | exact closed_lower (by closed)
  | exact closed_clean (by closed)
  | exact closed_clean' (by closed)
  | exact OptClosed.getD here% (by closed)
  | exact Good.structName here% here%
  | exact Good.messageName here% here%
  | exact Good.memberName here% here% here%
  | exact Good.valueName here% here% here%
  | exact Good.vartype here% here%
  | exact Good.vartype here% (Good.memberType here% here% here%)
  | exact closed_intercalate (by closed) (Good.memberNames here% here%)
  | exact NamesClosed.bodies (Good.names here%) _ here%
  | exact NamesClosed.enums (Good.names here%) _ here%)

macro_rules | `(tactic| lines_leaf) => `(tactic| first
  | assumption
  | exact Good.embed here%
  | exact closedLines_drop (by assumption) (by assumption) (by closed))

theorem and_left {a c : Bool} (h : (a && c) = true) : a = true := by
  cases a with
  | true => rfl
  | false => cases h

theorem optClosed_default {b : Bool} {w : Writer} {t : String} (g : Good b w) : OptClosed b (w.defaults.lookup t) :=
  fun _ h => g.defaults _ (mem_of_lookup h)

macro_rules | `(tactic| opt_leaf) => `(tactic| first
  | assumption
  | exact optClosed_default here%)

macro_rules | `(tactic| look) => `(tactic| first
  | exact Good.listSize here%
  | exact Good.stringSize here%
  | exact Good.byte here%
  | exact Good.uint32 here%
  | exact Good.string here%
  | exact Good.type_num here% _
  | exact Good.type_known here% here%
  | exact Good.type_known here% (Good.memberType here% here% here%)
  | exact Good.type_body here% here%
  | exact Good.type_isSome here% here%
  | exact Good.codec_isSome here% here%
  | exact has_of_isSome (Good.defaults here%) here%
  | exact Good.codec_num here% here% _
  | exact Good.codec_isNum here% here% here%
  | exact Good.enum here%
  | exact Good.enum (and_left here%)
  | exact Good.struct_of_isStruct here%
  | exact Good.struct_of_isStruct (and_left here%)
  | exact Good.defaultPair here% here%
  | exact Good.minimumPair here% here%
  | exact Good.simple here% _ here%
  | exact Good.simple here% _ (Good.memberType here% here% here%)
  | exact Good.structSimple' here% here%
  | exact Good.structSimple here% here%
  | exact Good.structSimple' here% (List.mem_append_right _ here%)
  | exact Good.sizeOf_var here% here% here%
  | exact Good.sizeOf_var here% (Good.memberType here% here% here%) here%
  | exact Good.sizeOf_body here% here% here%
  | exact Good.sizeOf_member here% here% here% here%
  | exact Good.struct_element here% (Good.memberType here% here% here%) here% here%
  | exact Good.struct_alone here% (Good.memberType here% here% here%) here% here% here%
  | exact Good.struct_alone here% here% here% here% here%
  | exact Good.messageNumber here% here% here%
  | exact Good.nsText here% here%
  | exact has_headLine here%)

/-- The boilerplate changes no brackets. -/
def PlainBoilerplate (b : Bool) (w : Writer) : Prop := ∀ n, ClosedLines b (w.boilerplate n)

theorem runs_plain {b : Bool} {w : Writer} {c : Int} {i : Nat} {S : List Char} {n : Nat} {subs : List (String × Sub)}
    (g : Good b w) (h : PlainBoilerplate b w) (hs : SubsClosed b subs) :
    Runs b c i S i S Any (w.addBoilerplate subs n) :=
  runs_boilerplate g.tab g.nativeTab hs ((h n).bump S)

macro_rules | `(tactic| call) => `(tactic| exact runs_plain here% here% (by subs))

end Beschi.Text
