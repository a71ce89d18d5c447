import Verif.Spec.Texts
import Verif.Lang.Rename
/-
Lemmas about conditions on the texts inside a value.
-/
namespace Beschi
open Spec

/-- The atoms with a further condition on texts. -/
def Spec.Atoms.restrict (A : Atoms) (T : List UInt8 → Prop) : Atoms where
  num := A.num
  text bs s := A.text bs s ∧ T s
  enum := A.enum

section
variable {A : Atoms} {T : List UInt8 → Prop} {p : Protocol}

mutual
theorem Layout.restrict : ∀ {t v bs}, Layout A p t v bs → Texts T v → Layout (A.restrict T) p t v bs
  | _, _, _, .num h, _ => .num h
  | _, _, _, .text h1 h2, ht => .text h1 ⟨h2, ht⟩
  | _, _, _, .enum h1 h2 h3, _ => .enum h1 h2 h3
  | _, _, _, .struct h1 h2, ht => .struct h1 (LayoutFields.restrict h2 ht)
theorem LayoutItems.restrict : ∀ {t vs bs}, LayoutItems A p t vs bs → TextsList T vs →
    LayoutItems (A.restrict T) p t vs bs
  | _, _, _, .nil, _ => .nil
  | _, _, _, .cons h1 h2, ht => .cons (Layout.restrict h1 ht.1) (LayoutItems.restrict h2 ht.2)
theorem LayoutFields.restrict : ∀ {ms fs bs}, LayoutFields A p ms fs bs → TextsFields T fs →
    LayoutFields (A.restrict T) p ms fs bs
  | _, _, _, .nil, _ => .nil
  | _, _, _, .one h1 h2 h3, ht => .one h1 (Layout.restrict h2 ht.1) (LayoutFields.restrict h3 ht.2)
  | _, _, _, .list h1 h2 h3 h4, ht =>
    .list h1 h2 (LayoutItems.restrict h3 ht.1) (LayoutFields.restrict h4 ht.2)
end

mutual
theorem texts_mapNames (f : String → String) : ∀ v : Val, Texts T (v.mapNames f) ↔ Texts T v
  | .str _ => Iff.rfl
  | .list vs => textsList_mapNames f vs
  | .record fs => textsFields_mapNames f fs
  | .int _ => Iff.rfl
  | .bool _ => Iff.rfl
  | .bits _ => Iff.rfl
theorem textsList_mapNames (f : String → String) : ∀ vs : List Val,
    TextsList T (mapNamesList f vs) ↔ TextsList T vs
  | [] => Iff.rfl
  | v :: vs => and_congr (texts_mapNames f v) (textsList_mapNames f vs)
theorem textsFields_mapNames (f : String → String) : ∀ fs : List (String × Val),
    TextsFields T (mapNamesFields f fs) ↔ TextsFields T fs
  | [] => Iff.rfl
  | (_, v) :: fs => and_congr (texts_mapNames f v) (textsFields_mapNames f fs)
end

mutual
theorem texts_mono {U : List UInt8 → Prop} (h : ∀ s, T s → U s) : ∀ v : Val, Texts T v → Texts U v
  | .str s => h s
  | .list vs => textsList_mono h vs
  | .record fs => textsFields_mono h fs
  | .int _ => id
  | .bool _ => id
  | .bits _ => id
theorem textsList_mono {U : List UInt8 → Prop} (h : ∀ s, T s → U s) :
    ∀ vs : List Val, TextsList T vs → TextsList U vs
  | [] => id
  | v :: vs => fun ⟨a, b⟩ => ⟨texts_mono h v a, textsList_mono h vs b⟩
theorem textsFields_mono {U : List UInt8 → Prop} (h : ∀ s, T s → U s) :
    ∀ fs : List (String × Val), TextsFields T fs → TextsFields U fs
  | [] => id
  | (_, v) :: fs => fun ⟨a, b⟩ => ⟨texts_mono h v a, textsFields_mono h fs b⟩
end

mutual
theorem texts_true (h : ∀ s, T s) : ∀ v : Val, Texts T v
  | .str s => h s
  | .list vs => textsList_true h vs
  | .record fs => textsFields_true h fs
  | .int _ => trivial
  | .bool _ => trivial
  | .bits _ => trivial
theorem textsList_true (h : ∀ s, T s) : ∀ vs : List Val, TextsList T vs
  | [] => trivial
  | v :: vs => ⟨texts_true h v, textsList_true h vs⟩
theorem textsFields_true (h : ∀ s, T s) : ∀ fs : List (String × Val), TextsFields T fs
  | [] => trivial
  | (_, v) :: fs => ⟨texts_true h v, textsFields_true h fs⟩
end

end
end Beschi
