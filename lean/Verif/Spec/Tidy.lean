import Verif.Spec.Sizes
/-
Specification of the types in which at most the last thing read takes memory of its own.
-/
namespace Beschi.Spec

/-- A list can be reached inside the type named `t`. -/
inductive HasList (p : Protocol) : String → Prop
  | list {s m} : s ∈ p.structs → m ∈ s.members → m.isList = true → HasList p s.name
  | inside {s m} : s ∈ p.structs → m ∈ s.members → HasList p m.vartype → HasList p s.name

/-- The same for the body of a struct or message. -/
def HasListBody (p : Protocol) (ms : List Variable) : Prop :=
  ∃ m ∈ ms, m.isList = true ∨ HasList p m.vartype

mutual
/-- Nothing comes after a text or list in values of the type, in structs inside neither. -/
inductive Tidy (p : Protocol) : String → Prop
  | fixed {t} : ¬ Varying p t → Tidy p t
  | text : Tidy p "string"
  | struct {s : Struct} : s ∈ p.structs → TidyBody p s.members → Tidy p s.name
/-- The same for the body of a struct or message: members of fixed size, and at most one other, which is
the last one. -/
inductive TidyBody (p : Protocol) : List Variable → Prop
  | nil : TidyBody p []
  | last {m : Variable} : Tidy p m.vartype → TidyBody p [m]
  | skip {m : Variable} {ms} : m.isList = false → ¬ Varying p m.vartype → TidyBody p ms →
      TidyBody p (m :: ms)
end

/-- The value contains a text or list that is not empty. -/
inductive Heavy : Val → Prop
  | text {s} : s ≠ [] → Heavy (.str s)
  | list {vs} : vs ≠ [] → Heavy (.list vs)
  | record {fs n v} : (n, v) ∈ fs → Heavy v → Heavy (.record fs)

mutual
/-- The bytes of a value of the type, cut off inside a struct. -/
inductive Cut (A : Atoms) (p : Protocol) : String → List UInt8 → Prop
  | struct {s : Struct} {bs} : s ∈ p.structs → CutBody A p s.members bs → Cut A p s.name bs
/-- The bytes of the body of a struct or message, cut off where a text or list that is not empty has been
complete in the same struct: between two members, inside of a member, inside of an element of a list. -/
inductive CutBody (A : Atoms) (p : Protocol) : List Variable → List UInt8 → Prop
  | here {pre m post fs n v bs} : LayoutFields A p pre fs bs → (n, v) ∈ fs → Heavy v →
      CutBody A p (pre ++ m :: post) bs
  | inside {pre m post fs a b} : LayoutFields A p pre fs a → m.isList = false → Cut A p m.vartype b →
      CutBody A p (pre ++ m :: post) (a ++ b)
  | item {pre m post fs vs a len c b} {n : Nat} : LayoutFields A p pre fs a → m.isList = true →
      A.num p.listSize (.int n) len → LayoutItems A p m.vartype vs c → vs.length < n →
      Cut A p m.vartype b → CutBody A p (pre ++ m :: post) (a ++ (len ++ (c ++ b)))
end

end Beschi.Spec
