import Verif.Spec.Wire
/-
Specification of the values a program can put into a message.
-/
namespace Beschi.Spec

/-- The values of a number type; floating point numbers as bit patterns. -/
inductive IsNum : NumTy → Val → Prop
  | int {n i} : IntRange n i → IsNum n (.int i)
  | bool {b} : IsNum .bool (.bool b)
  | float {w} : w < 2 ^ 32 → IsNum .float (.bits w)
  | double {w} : w < 2 ^ 64 → IsNum .double (.bits w)

mutual
/-- A value of the (non-list) type named `t`: texts are valid and not too long for the protocol's
size type, enums hold declared numbers. -/
inductive HasType (p : Protocol) : String → Val → Prop
  | num {n v} : IsNum n v → HasType p n.name v
  | text {s} : ValidUtf8 s → IntRange p.stringSize s.length → HasType p "string" (.str s)
  | enum {e x i} : e ∈ p.enums → (x, i) ∈ e.values → HasType p e.name (.int i)
  | struct {s fs} : s ∈ p.structs → HasFields p s.members fs → HasType p s.name (.record fs)

/-- Values of one type. -/
inductive HaveType (p : Protocol) : String → List Val → Prop
  | nil {t} : HaveType p t []
  | cons {t v vs} : HasType p t v → HaveType p t vs → HaveType p t (v :: vs)

/-- The members of a struct or message; lists are not too long for the protocol's size type. -/
inductive HasFields (p : Protocol) : List Variable → List (String × Val) → Prop
  | nil : HasFields p [] []
  | one {m ms v fs} : m.isList = false → HasType p m.vartype v → HasFields p ms fs →
      HasFields p (m :: ms) ((m.name, v) :: fs)
  | list {m ms vs fs} : m.isList = true → HaveType p m.vartype vs →
      IntRange p.listSize vs.length → HasFields p ms fs →
      HasFields p (m :: ms) ((m.name, .list vs) :: fs)
end

/-- A value of the message named `m`. -/
def IsMessage (p : Protocol) (m : String) (v : Val) : Prop :=
  ∃ d fs, d ∈ p.messages ∧ d.name = m ∧ v = .record fs ∧ HasFields p d.members fs

end Beschi.Spec
