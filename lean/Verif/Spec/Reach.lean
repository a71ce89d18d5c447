import Verif.Spec.WellFormed
/-
Which types occur inside which.
-/
namespace Beschi.Spec

/-- The type `t` is, or has inside it, the type `u`. -/
inductive Reaches (p : Protocol) : String → String → Prop
  | refl {t} : Reaches p t t
  | member {s v u} : s ∈ p.structs → v ∈ s.members → Reaches p v.vartype u → Reaches p s.name u

/-- The message has no text inside it. -/
def TextFree (p : Protocol) (m : String) : Prop :=
  ∀ d ∈ p.messages, d.name = m → ∀ v ∈ d.members, ¬ Reaches p v.vartype "string"

end Beschi.Spec
