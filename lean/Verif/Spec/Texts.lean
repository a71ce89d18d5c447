import Verif.Spec.Wire
/-
Specification of conditions on all the texts inside a value.
-/
namespace Beschi.Spec

mutual
/-- Every text inside the value satisfies `T`. -/
def Texts (T : List UInt8 → Prop) : Val → Prop
  | .str s => T s
  | .list vs => TextsList T vs
  | .record fs => TextsFields T fs
  | .int _ => True
  | .bool _ => True
  | .bits _ => True
/-- Every text inside the elements satisfies `T`. -/
def TextsList (T : List UInt8 → Prop) : List Val → Prop
  | [] => True
  | v :: vs => Texts T v ∧ TextsList T vs
/-- Every text inside the members satisfies `T`. -/
def TextsFields (T : List UInt8 → Prop) : List (String × Val) → Prop
  | [] => True
  | (_, v) :: fs => Texts T v ∧ TextsFields T fs
end

end Beschi.Spec
