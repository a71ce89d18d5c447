import Verif.Spec.Typed
/-
Specification of what a value read from arbitrary data must look like, and of the types that contain
text.
-/
namespace Beschi.Spec

mutual
/-- A value of the (non-list) type named `t`, whatever its texts: numbers are in range, enums hold
declared numbers. -/
inductive HasShape (p : Protocol) : String → Val → Prop
  | num {n v} : IsNum n v → HasShape p n.name v
  | text {s} : HasShape p "string" (.str s)
  | enum {e x i} : e ∈ p.enums → (x, i) ∈ e.values → HasShape p e.name (.int i)
  | struct {s fs} : s ∈ p.structs → FieldsShape p s.members fs → HasShape p s.name (.record fs)

/-- Values of one type. -/
inductive ItemsShape (p : Protocol) : String → List Val → Prop
  | nil {t} : ItemsShape p t []
  | cons {t v vs} : HasShape p t v → ItemsShape p t vs → ItemsShape p t (v :: vs)

/-- The members of a struct or message. -/
inductive FieldsShape (p : Protocol) : List Variable → List (String × Val) → Prop
  | nil : FieldsShape p [] []
  | one {m ms v fs} : m.isList = false → HasShape p m.vartype v → FieldsShape p ms fs →
      FieldsShape p (m :: ms) ((m.name, v) :: fs)
  | list {m ms vs fs} : m.isList = true → ItemsShape p m.vartype vs → FieldsShape p ms fs →
      FieldsShape p (m :: ms) ((m.name, .list vs) :: fs)
end

/-- A value of the message named `m`, whatever its texts. -/
def MessageShape (p : Protocol) (m : String) (v : Val) : Prop :=
  ∃ d fs, d ∈ p.messages ∧ d.name = m ∧ v = .record fs ∧ FieldsShape p d.members fs

/-- If the member is of an enum's type, or a list of such, then it holds declared values. -/
def DirectEnum (p : Protocol) (m : Variable) (v : Val) : Prop :=
  ∀ e ∈ p.enums, m.vartype = e.name →
    (m.isList = false → ∃ x i, v = .int i ∧ (x, i) ∈ e.values) ∧
    (m.isList = true → ∃ vs, v = .list vs ∧ ∀ w ∈ vs, ∃ x i, w = .int i ∧ (x, i) ∈ e.values)

/-- A text can be reached inside the type named `t`. -/
inductive HasText (p : Protocol) : String → Prop
  | text : HasText p "string"
  | inside {s m} : s ∈ p.structs → m ∈ s.members → HasText p m.vartype → HasText p s.name

end Beschi.Spec
