import Verif.Protocol.SizeLemmas
import Verif.Lang.Numbers
/-
Helper lemmas about the wire format: it can be read in only one way.
-/
namespace Beschi
open Spec

/-- Atoms whose bytes determine them. -/
structure Spec.Atoms.Det (A : Atoms) : Prop where
  sized : ∀ n v bs, A.num n v bs → bs.length = n.size
  num : ∀ n v v' bs, A.num n v bs → A.num n v' bs → v = v'
  text : ∀ bs s s', A.text bs s → A.text bs s' → s = s'
  enum : ∀ e i j j', A.enum e i j → A.enum e i j' → j = j'

theorem written_det : Spec.Atoms.Det written where
  sized _ _ _ h := Lang.encNum_length h
  num _ _ _ _ h h' := Lang.decNum_functional (.written h) (.written h')
  text _ _ _ h h' := h.1.symm.trans h'.1
  enum _ _ _ _ h h' := h.1.trans h'.1.symm

theorem readableRaw_det : Spec.Atoms.Det readableRaw where
  sized _ _ _ h := Lang.decNum_length h
  num _ _ _ _ h h' := Lang.decNum_functional h h'
  text _ _ _ h h' := h.symm.trans h'
  enum _ _ _ _ h h' := h.trans h'.symm

/-- One family of atoms admits another. -/
structure Spec.Atoms.Le (A B : Atoms) : Prop where
  num : ∀ n v bs, A.num n v bs → B.num n v bs
  text : ∀ bs s, A.text bs s → B.text bs s
  enum : ∀ e i j, A.enum e i j → B.enum e i j

mutual
theorem Layout.mono {A B : Atoms} (hle : Spec.Atoms.Le A B) {p : Protocol} :
    ∀ {t v bs}, Layout A p t v bs → Layout B p t v bs
  | _, _, _, .num h => .num (hle.num _ _ _ h)
  | _, _, _, .text h1 h2 => .text (hle.num _ _ _ h1) (hle.text _ _ h2)
  | _, _, _, .enum h1 h2 h3 => .enum h1 (hle.enum _ _ _ h2) (hle.num _ _ _ h3)
  | _, _, _, .struct h1 h2 => .struct h1 (LayoutFields.mono hle h2)
theorem LayoutItems.mono {A B : Atoms} (hle : Spec.Atoms.Le A B) {p : Protocol} :
    ∀ {t vs bs}, LayoutItems A p t vs bs → LayoutItems B p t vs bs
  | _, _, _, .nil => .nil
  | _, _, _, .cons h1 h2 => .cons (Layout.mono hle h1) (LayoutItems.mono hle h2)
theorem LayoutFields.mono {A B : Atoms} (hle : Spec.Atoms.Le A B) {p : Protocol} :
    ∀ {ms fs bs}, LayoutFields A p ms fs bs → LayoutFields B p ms fs bs
  | _, _, _, .nil => .nil
  | _, _, _, .one h1 h2 h3 => .one h1 (Layout.mono hle h2) (LayoutFields.mono hle h3)
  | _, _, _, .list h1 h2 h3 h4 =>
    .list h1 (hle.num _ _ _ h2) (LayoutItems.mono hle h3) (LayoutFields.mono hle h4)
end

theorem written_le_raw : Spec.Atoms.Le written readableRaw :=
  ⟨fun _ _ _ h => .written h, fun _ _ h => h.1, fun _ _ _ h => h.1⟩

/-- Two parses starting at the same place with the same length split the same way. -/
theorem append_split {a b c d : List UInt8} (h : a ++ c = b ++ d) (hl : a.length = b.length) :
    a = b ∧ c = d := List.append_inj h hl

theorem num_split {A : Atoms} (hA : Spec.Atoms.Det A) {n : NumTy} {v v' : Val} {bs bs' r r' : List UInt8}
    (h1 : A.num n v bs) (h2 : A.num n v' bs') (he : bs ++ r = bs' ++ r') :
    v = v' ∧ bs = bs' ∧ r = r' := by
  obtain ⟨rfl, rfl⟩ := append_split he ((hA.sized _ _ _ h1).trans (hA.sized _ _ _ h2).symm)
  exact ⟨hA.num _ _ _ _ h1 h2, rfl, rfl⟩

mutual
theorem Layout.det {A : Atoms} (hA : Spec.Atoms.Det A) {p : Protocol} (h : Usable p) :
    ∀ {t v bs v' bs' r r'}, Layout A p t v bs → Layout A p t v' bs' → bs ++ r = bs' ++ r' →
      v = v' ∧ bs = bs' ∧ r = r'
  | _, _, _, _, _, _, _, .num h1, h2, he => num_split hA h1 (layout_num h h2) he
  | _, _, _, _, _, _, _, .text (s := s) h1 h2, h3, he => by
    obtain ⟨s', len', cs', rfl, rfl, h4, h5⟩ := layout_text h h3
    rw [List.append_assoc, List.append_assoc] at he
    obtain ⟨e1, rfl, e2⟩ := num_split hA h1 h4 he
    simp only [Val.int.injEq, Int.natCast_inj] at e1
    obtain ⟨rfl, rfl⟩ := append_split e2 e1
    rw [hA.text _ _ _ h2 h5]
    exact ⟨rfl, rfl, rfl⟩
  | _, _, _, _, _, _, _, .enum h1 h2 h3, h4, he => by
    obtain ⟨i, j, rfl, h6, h5⟩ := layout_enum h h1 h4
    obtain ⟨e1, e2⟩ := num_split hA h3 h5 he
    simp only [Val.int.injEq] at e1
    subst e1
    rw [hA.enum _ _ _ _ h2 h6]
    exact ⟨rfl, e2⟩
  | _, _, _, _, _, _, _, .struct h1 h2, h3, he => by
    obtain ⟨fs, rfl, h4⟩ := layout_struct h h1 h3
    obtain ⟨rfl, rfl, rfl⟩ := LayoutFields.det hA h h2 h4 he
    exact ⟨rfl, rfl, rfl⟩
theorem LayoutItems.det {A : Atoms} (hA : Spec.Atoms.Det A) {p : Protocol} (h : Usable p) :
    ∀ {t vs bs vs' bs' r r'}, LayoutItems A p t vs bs → LayoutItems A p t vs' bs' →
      vs.length = vs'.length → bs ++ r = bs' ++ r' → vs = vs' ∧ bs = bs' ∧ r = r'
  | _, _, _, _, _, _, _, .nil, .nil, _, he => ⟨rfl, rfl, by simpa using he⟩
  | _, _, _, _, _, _, _, .nil, .cons _ _, hl, _ => by simp at hl
  | _, _, _, _, _, _, _, .cons _ _, .nil, hl, _ => by simp at hl
  | _, _, _, _, _, _, _, .cons h1 h2, .cons h3 h4, hl, he => by
    rw [List.append_assoc, List.append_assoc] at he
    obtain ⟨rfl, rfl, e⟩ := Layout.det hA h h1 h3 he
    obtain ⟨rfl, rfl, rfl⟩ := LayoutItems.det hA h h2 h4 (by simpa using hl) e
    exact ⟨rfl, rfl, rfl⟩
theorem LayoutFields.det {A : Atoms} (hA : Spec.Atoms.Det A) {p : Protocol} (h : Usable p) :
    ∀ {ms fs bs fs' bs' r r'}, LayoutFields A p ms fs bs → LayoutFields A p ms fs' bs' →
      bs ++ r = bs' ++ r' → fs = fs' ∧ bs = bs' ∧ r = r'
  | _, _, _, _, _, _, _, .nil, .nil, he => ⟨rfl, rfl, by simpa using he⟩
  | _, _, _, _, _, _, _, .one _ h1 h2, .one _ h3 h4, he => by
    rw [List.append_assoc, List.append_assoc] at he
    obtain ⟨rfl, rfl, e⟩ := Layout.det hA h h1 h3 he
    obtain ⟨rfl, rfl, rfl⟩ := LayoutFields.det hA h h2 h4 e
    exact ⟨rfl, rfl, rfl⟩
  | _, _, _, _, _, _, _, .one hl _ _, .list hl' _ _ _, _ => by rw [hl] at hl'; cases hl'
  | _, _, _, _, _, _, _, .list hl _ _ _, .one hl' _ _, _ => by rw [hl] at hl'; cases hl'
  | _, _, _, _, _, _, _, .list _ h0 h1 h2, .list _ h0' h3 h4, he => by
    simp only [List.append_assoc] at he
    obtain ⟨e1, rfl, e2⟩ := num_split hA h0 h0' he
    simp only [Val.int.injEq, Int.natCast_inj] at e1
    obtain ⟨rfl, rfl, e⟩ := LayoutItems.det hA h h1 h3 e1 e2
    obtain ⟨rfl, rfl, rfl⟩ := LayoutFields.det hA h h2 h4 e
    exact ⟨rfl, rfl, rfl⟩
end

end Beschi
