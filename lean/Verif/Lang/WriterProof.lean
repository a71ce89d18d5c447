import Verif.Lang.Writer
import Verif.Lang.ReaderProof
/-
Generic lemmas about writing functions: if every statement writes what the member's type calls for,
the function writes exactly the bytes of the wire format.
-/
namespace Beschi.Lang
open Spec

/-- The primitive writes numbers of type `n` that the atoms `A` describe. -/
def WPrimFor (S : WriteSem) (A : Atoms) (prim : String) (n : NumTy) : Prop :=
  ∀ v bs, A.num n v bs → S.num prim v = .ok bs

/-- The write `a` is the right one for the type `t`. -/
inductive WAtomFor (S : WriteSem) (A : Atoms) (p : Protocol) : String → WAtom → Prop
  | num {n prim} : WPrimFor S A prim n → WAtomFor S A p n.name (.num prim)
  | text : WAtomFor S A p "string" .text
  | enum {en prim} : en ∈ p.enums → WPrimFor S A prim en.encoding → WAtomFor S A p en.name (.num prim)
  | struct {s} : s ∈ p.structs → WAtomFor S A p s.name (.call s.name)

/-- The statement is the right one for the member. -/
inductive WStmtFor (S : WriteSem) (A : Atoms) (p : Protocol) : Variable → WStmt → Prop
  | one {m a} : m.isList = false → WAtomFor S A p m.vartype a → WStmtFor S A p m (.one m.name a)
  | list {m a prim} : m.isList = true → WPrimFor S A prim p.listSize →
      WAtomFor S A p m.vartype a → WStmtFor S A p m (.list m.name prim a)

/-- The function writes these members. -/
structure WFunFor (S : WriteSem) (A : Atoms) (p : Protocol) (ms : List Variable) (f : WFun) : Prop where
  decls : f.decls.Nodup
  names : (ms.map (·.name)).Nodup
  body : List.Forall₂ (WStmtFor S A p) ms f.body

/-- Every struct has a writing function that writes its members. -/
def WFunsFor (S : WriteSem) (A : Atoms) (p : Protocol) (fn : String → Option WFun) : Prop :=
  ∀ s ∈ p.structs, ∃ f, fn s.name = some f ∧ WFunFor S A p s.members f

/-- The runtime writes texts and lengths as the atoms `A` describe. -/
structure Writes (S : WriteSem) (p : Protocol) (A : Atoms) : Prop where
  text : ∀ len bs s, A.num p.stringSize (.int bs.length) len → A.text bs s →
    ∃ cs, S.text s = .ok cs ∧ cs.flatten = len ++ bs
  count : ∀ (k : Nat) len, A.num p.listSize (.int k) len → S.count k = .ok k
  enum : ∀ e i j, A.enum e i j → j = i
  loops : ∀ (k : Nat) len, A.num p.listSize (.int k) len → S.loops k k = k := by intros; rfl

section
variable {S : WriteSem} {A : Atoms} {p : Protocol} (h : Usable p) {a : WAtom}
include h

theorem wAtomFor_num {n : NumTy} (ha : WAtomFor S A p n.name a) :
    ∃ prim, a = .num prim ∧ WPrimFor S A prim n := by
  generalize ht : n.name = t at ha
  cases ha with
  | num hp => cases name_inj ht; exact ⟨_, rfl, hp⟩
  | text => exact absurd ht (name_ne_string n)
  | enum he _ => exact absurd ht (num_ne_enum h he)
  | struct hs => exact absurd ht (num_ne_struct h hs)

theorem wAtomFor_text (ha : WAtomFor S A p "string" a) : a = .text := by
  generalize ht : "string" = t at ha
  cases ha with
  | num hp => exact absurd ht.symm (name_ne_string _)
  | text => rfl
  | enum he _ => exact absurd ht (text_ne_enum h he)
  | struct hs => exact absurd ht (text_ne_struct h hs)

theorem wAtomFor_enum {en : Enum} (hen : en ∈ p.enums) (ha : WAtomFor S A p en.name a) :
    ∃ prim, a = .num prim ∧ WPrimFor S A prim en.encoding := by
  generalize ht : en.name = t at ha
  cases ha with
  | num hp => exact absurd ht.symm (num_ne_enum h hen)
  | text => exact absurd ht.symm (text_ne_enum h hen)
  | enum he hp => cases mem_enums_unique h hen he ht; exact ⟨_, rfl, hp⟩
  | struct hs => exact absurd ht (enum_ne_struct h hen hs)

theorem wAtomFor_struct {s : Struct} (hs : s ∈ p.structs) (ha : WAtomFor S A p s.name a) :
    a = .call s.name := by
  generalize ht : s.name = t at ha
  cases ha with
  | num hp => exact absurd ht.symm (num_ne_struct h hs)
  | text => exact absurd ht.symm (text_ne_struct h hs)
  | enum he hp => exact absurd ht.symm (enum_ne_struct h he hs)
  | struct _ => rfl
end

theorem lookup_append_notMem {n : String} : ∀ {pre fs : List (String × Val)}, n ∉ pre.map (·.1) →
    (pre ++ fs).lookup n = fs.lookup n
  | [], _, _ => rfl
  | (k, v) :: new, env, h => by
    simp only [List.map_cons, List.mem_cons, not_or] at h
    simp only [List.cons_append, List.lookup_cons]
    rw [show (n == k) = false from by simpa using h.1]
    exact lookup_append_notMem h.2

theorem layoutFields_names {A : Atoms} {p : Protocol} {ms : List Variable}
    {fs : List (String × Val)} {bs : List UInt8} (h : LayoutFields A p ms fs bs) :
    fs.map (·.1) = ms.map (·.name) := by
  induction ms generalizing fs bs with
  | nil => cases h; rfl
  | cons m ms ih =>
    cases h with
    | one _ _ h => simpa using ih h
    | list _ _ _ h => simpa using ih h

mutual
theorem Layout.writes {S : WriteSem} {A : Atoms} {p : Protocol} {fn : String → Option WFun}
    (h : Usable p) (hC : Writes S p A) (hF : WFunsFor S A p fn) :
    ∀ {t v bs}, Layout A p t v bs → ∀ {d fuel a}, fits p d t → d < fuel → WAtomFor S A p t a →
      ∃ cs, writeAtom S fn fuel a v = .ok cs ∧ cs.flatten = bs
  | _, _, _, .num hn, d, fuel + 1, a, hf, hd, ha => by
    obtain ⟨prim, rfl, hp⟩ := wAtomFor_num h ha
    exact ⟨[_], by simp only [writeAtom, hp _ _ hn]; rfl, by simp⟩
  | _, _, _, .text h1 h2, d, fuel + 1, a, hf, hd, ha => by
    cases wAtomFor_text h ha
    exact hC.text _ _ _ h1 h2
  | _, _, _, .enum he hx hn, d, fuel + 1, a, hf, hd, ha => by
    obtain ⟨prim, rfl, hp⟩ := wAtomFor_enum h he ha
    obtain rfl := hC.enum _ _ _ hx
    exact ⟨[_], by simp only [writeAtom, hp _ _ hn]; rfl, by simp⟩
  | _, _, _, .struct (s := s) hs hfs, 0, fuel + 1, a, hf, hd, ha => by
    have hf : p.struct? s.name = none := hf
    rw [struct?_of_mem h.structsDistinct hs] at hf
    cases hf
  | _, _, _, .struct hs hfs, d + 1, fuel + 1, a, hf, hd, ha => by
    cases wAtomFor_struct h hs ha
    obtain ⟨f, hfn, hff⟩ := hF _ hs
    simp only [writeAtom, hfn, runWrite]
    rw [if_neg (not_not.2 hff.decls)]
    exact LayoutFields.writes h hC hF hfs (pre := []) (by
        simpa [layoutFields_names hfs] using hff.names)
      (hf _ (struct?_of_mem h.structsDistinct hs)) (by omega) hff.body
theorem LayoutItems.writes {S : WriteSem} {A : Atoms} {p : Protocol} {fn : String → Option WFun}
    (h : Usable p) (hC : Writes S p A) (hF : WFunsFor S A p fn) :
    ∀ {t vs bs}, LayoutItems A p t vs bs → ∀ {d fuel a}, fits p d t → d < fuel → WAtomFor S A p t a →
      ∃ cs, writeItems (writeAtom S fn fuel a) vs = .ok cs ∧ cs.flatten = bs
  | _, _, _, .nil, d, fuel, a, hf, hd, ha => ⟨[], rfl, rfl⟩
  | _, _, _, .cons h1 h2, d, fuel, a, hf, hd, ha => by
    obtain ⟨c1, e1, f1⟩ := Layout.writes h hC hF h1 hf hd ha
    obtain ⟨c2, e2, f2⟩ := LayoutItems.writes h hC hF h2 hf hd ha
    exact ⟨c1 ++ c2, by simp [writeItems, e1, e2, bind, Except.bind, pure, Except.pure], by simp [f1, f2]⟩
theorem LayoutFields.writes {S : WriteSem} {A : Atoms} {p : Protocol} {fn : String → Option WFun}
    (h : Usable p) (hC : Writes S p A) (hF : WFunsFor S A p fn) :
    ∀ {ms fs bs}, LayoutFields A p ms fs bs → ∀ {pre d fuel sts},
      ((pre ++ fs).map (·.1)).Nodup → (∀ m ∈ ms, fits p d m.vartype) → d < fuel →
      List.Forall₂ (WStmtFor S A p) ms sts →
      ∃ cs, writeBody S (writeAtom S fn fuel) (pre ++ fs) sts = .ok cs ∧ cs.flatten = bs
  | _, _, _, .nil, pre, d, fuel, _, hnd, hf, hd, .nil => ⟨[], rfl, rfl⟩
  | _, _, _, .one (m := m) (v := v) (fs := fs) hl h1 h2, pre, d, fuel, _, hnd, hf, hd, .cons (.one _ ha) hb => by
    obtain ⟨c1, e1, f1⟩ := Layout.writes h hC hF h1 (hf _ (by simp)) hd ha
    obtain ⟨c2, e2, f2⟩ := LayoutFields.writes h hC hF h2 (pre := pre ++ [(m.name, v)])
      (by simpa using hnd) (fun m hm => hf m (by simp [hm])) hd hb
    rw [List.append_assoc] at e2
    have hlk : getField (pre ++ (m.name, v) :: fs) m.name = .ok v := by
      rw [getField, lookup_append_notMem]
      · simp
      · intro hm
        rw [List.map_append, List.nodup_append] at hnd
        exact hnd.2.2 _ hm _ (by simp) rfl
    refine ⟨c1 ++ c2, ?_, by simp [f1, f2]⟩
    simp only [List.singleton_append] at e2
    simp [writeBody, writeStmt, hlk, e1, e2, bind, Except.bind, pure, Except.pure]
  | _, _, _, .one hl h1 h2, pre, d, fuel, _, hnd, hf, hd, .cons (.list hl' _ _) hb => by
    rw [hl] at hl'; cases hl'
  | _, _, _, .list hl hn h1 h2, pre, d, fuel, _, hnd, hf, hd, .cons (.one hl' _) hb => by
    rw [hl] at hl'; cases hl'
  | _, _, _, .list (m := m) (vs := vs) (fs := fs) (len := len) hl hn h1 h2, pre, d, fuel, _, hnd, hf, hd,
      .cons (.list _ hp ha) hb => by
    obtain ⟨c1, e1, f1⟩ := LayoutItems.writes h hC hF h1 (hf _ (by simp)) hd ha
    obtain ⟨c2, e2, f2⟩ := LayoutFields.writes h hC hF h2 (pre := pre ++ [(m.name, .list vs)])
      (by simpa using hnd) (fun m hm => hf m (by simp [hm])) hd hb
    rw [List.append_assoc] at e2
    have hlk : getField (pre ++ (m.name, .list vs) :: fs) m.name = .ok (.list vs) := by
      rw [getField, lookup_append_notMem]
      · simp
      · intro hm
        rw [List.map_append, List.nodup_append] at hnd
        exact hnd.2.2 _ hm _ (by simp) rfl
    refine ⟨len :: (c1 ++ c2), ?_, by simp [f1, f2]⟩
    simp only [List.singleton_append] at e2
    simp [writeBody, writeStmt, hlk, asList, hC.count _ _ hn, hC.loops _ _ hn, hp _ _ hn, e1, e2, bind, Except.bind, pure, Except.pure]
end

/-- The members of a struct or message are written as specified. -/
theorem fields_write {S : WriteSem} {A : Atoms} {p : Protocol} {fn : String → Option WFun}
    (h : Usable p) (hC : Writes S p A) (hF : WFunsFor S A p fn) {ms : List Variable}
    {fs : List (String × Val)} {bs : List UInt8} (hl : LayoutFields A p ms fs bs) {f : WFun}
    (hf : WFunFor S A p ms f) :
    ∃ cs, runWrite S (writeAtom S fn (depth p)) (.record fs) f = .ok cs ∧ cs.flatten = bs := by
  simp only [runWrite]
  rw [if_neg (not_not.2 hf.decls)]
  exact LayoutFields.writes h hC hF hl (pre := []) (by simpa [layoutFields_names hl] using hf.names)
    (fun m _ => h.fits m.vartype) (by simp [depth]) hf.body

end Beschi.Lang
