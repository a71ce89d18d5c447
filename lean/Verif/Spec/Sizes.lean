import Verif.Spec.Wire
/-
Specification for static sizes.
-/
namespace Beschi.Spec

/-- A string or a list can be reached inside the type named `t`. -/
inductive Varying (p : Protocol) : String → Prop
  | text : Varying p "string"
  | list {s m} : s ∈ p.structs → m ∈ s.members → m.isList = true → Varying p s.name
  | inside {s m} : s ∈ p.structs → m ∈ s.members → Varying p m.vartype → Varying p s.name

/-- The same for a member or the body of a message. -/
def VaryingBody (p : Protocol) (ms : List Variable) : Prop :=
  ∃ m ∈ ms, m.isList = true ∨ Varying p m.vartype

/-- Values of the type have a text inside that is not in a list. -/
inductive TextInside (p : Protocol) : String → Prop
  | text : TextInside p "string"
  | struct {s m} : s ∈ p.structs → m ∈ s.members → m.isList = false → TextInside p m.vartype →
      TextInside p s.name

end Beschi.Spec
