import Verif.Spec.Wire
/-
Specification of default values: zero, false, empty, first listed enum entry.
-/
namespace Beschi.Spec

/-- Zero of a number type. -/
def zeroOf : NumTy → Val
  | .bool => .bool false
  | .float => .bits 0
  | .double => .bits 0
  | _ => .int 0

mutual
/-- The default value of the type named `t`. -/
inductive IsDefault (p : Protocol) : String → Val → Prop
  | num {n} : IsDefault p n.name (zeroOf n)
  | text : IsDefault p "string" (.str [])
  | enum {e x i} : e ∈ p.enums → e.values.head? = some (x, i) → IsDefault p e.name (.int i)
  | struct {s fs} : s ∈ p.structs → IsDefaultFields p s.members fs → IsDefault p s.name (.record fs)
/-- The default members of a struct or message. -/
inductive IsDefaultFields (p : Protocol) : List Variable → List (String × Val) → Prop
  | nil : IsDefaultFields p [] []
  | one {m ms v fs} : m.isList = false → IsDefault p m.vartype v → IsDefaultFields p ms fs →
      IsDefaultFields p (m :: ms) ((m.name, v) :: fs)
  | list {m ms fs} : m.isList = true → IsDefaultFields p ms fs →
      IsDefaultFields p (m :: ms) ((m.name, .list []) :: fs)
end

end Beschi.Spec
