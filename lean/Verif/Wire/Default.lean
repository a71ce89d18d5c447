import Verif.Wire.Layout
import Verif.Spec.Default
/-
Default values exist and can be written.
-/
namespace Beschi
open Spec

theorem encNum_zero (n : NumTy) : ∃ bs, EncNum n (zeroOf n) bs := by
  cases n
  case bool => exact ⟨_, .false⟩
  case float => exact ⟨_, .float (by norm_num)⟩
  case double => exact ⟨_, .double (by norm_num)⟩
  all_goals exact ⟨_, .int (by simp [IntRange])⟩

theorem encNum_length_zero {n : NumTy} (h : IntegerType n) : ∃ bs, EncNum n (.int 0) bs := by
  obtain ⟨h1, h2, h3⟩ := h
  cases n <;> first | contradiction | exact ⟨_, .int (by simp [IntRange])⟩

theorem encNum_of_enumRange {n : NumTy} {i : Int} (h : EnumRange n i) :
    EncNum n (.int i) (littleEndian (width n) i) := by
  cases n <;> first | exact .int h | exact absurd h id

theorem validUtf8_nil : ValidUtf8 [] := ⟨[], rfl⟩

theorem default_fields {p : Protocol} {ms : List Variable}
    (hm : ∀ m ∈ ms, ∃ v, IsDefault p m.vartype v) : ∃ fs, IsDefaultFields p ms fs := by
  induction ms with
  | nil => exact ⟨_, .nil⟩
  | cons m ms ih =>
    obtain ⟨fs, hfs⟩ := ih (fun x hx => hm x (by simp [hx]))
    cases hl : m.isList with
    | true => exact ⟨_, .list hl hfs⟩
    | false =>
      obtain ⟨v, hv⟩ := hm m (by simp)
      exact ⟨_, .one hl hv hfs⟩

theorem default_exists_fits {p : Protocol} (h : Usable p) (n : Nat) :
    ∀ t, fits p n t → KnownType p t → ∃ v, IsDefault p t v := by
  induction n with
  | zero =>
    intro t hf hk
    cases h.kind hk with
    | num n e => subst e; exact ⟨_, .num⟩
    | text e => subst e; exact ⟨_, .text⟩
    | enum e mem name =>
      subst name
      have := (h.enums e mem).nonempty
      cases hv : e.values with
      | nil => exact absurd hv this
      | cons x xs => exact ⟨_, .enum (x := x.1) (i := x.2) mem (by rw [hv]; rfl)⟩
    | struct s mem name ne num enum struct =>
      rw [show p.struct? t = none from hf] at struct; cases struct
  | succ n ih =>
    intro t hf hk
    cases h.kind hk with
    | num n e => subst e; exact ⟨_, .num⟩
    | text e => subst e; exact ⟨_, .text⟩
    | enum e mem name =>
      subst name
      have := (h.enums e mem).nonempty
      cases hv : e.values with
      | nil => exact absurd hv this
      | cons x xs => exact ⟨_, .enum (x := x.1) (i := x.2) mem (by rw [hv]; rfl)⟩
    | struct s mem name ne num enum struct =>
      obtain ⟨fs, hfs⟩ := default_fields (ms := s.members)
        (fun m hm => ih _ (hf s struct m hm) (h.known_of_struct mem hm))
      subst name
      exact ⟨_, .struct mem hfs⟩

/-- Every type has a default value. -/
theorem default_exists {p : Protocol} (h : Usable p) {t : String} (hk : KnownType p t) :
    ∃ v, IsDefault p t v := default_exists_fits h _ t (h.fits t) hk

theorem default_fields_exist {p : Protocol} (h : Usable p) {s : Struct}
    (hs : s ∈ p.structs ++ p.messages) : ∃ fs, IsDefaultFields p s.members fs :=
  default_fields (fun m hm => default_exists h (h.types s hs m hm))

mutual
/-- Default values can be written. -/
theorem IsDefault.enc {p : Protocol} (h : Usable p) :
    ∀ {t v}, IsDefault p t v → ∃ bs, Enc p t v bs
  | _, _, .num (n := n) => by
    obtain ⟨bs, hb⟩ := encNum_zero n
    exact ⟨bs, .num hb⟩
  | _, _, .text => by
    obtain ⟨bs, hb⟩ := encNum_length_zero h.stringSize
    exact ⟨bs ++ [], .text hb ⟨rfl, validUtf8_nil⟩⟩
  | _, _, .enum (e := e) he hx => by
    have hm := List.mem_of_mem_head? hx
    exact ⟨_, .enum he ⟨rfl, _, hm⟩ (encNum_of_enumRange ((h.enums e he).inRange _ (List.mem_map_of_mem hm)))⟩
  | _, _, .struct hs hf => by
    obtain ⟨bs, hb⟩ := IsDefaultFields.enc h hf
    exact ⟨bs, .struct hs hb⟩
theorem IsDefaultFields.enc {p : Protocol} (h : Usable p) :
    ∀ {ms fs}, IsDefaultFields p ms fs → ∃ bs, LayoutFields written p ms fs bs
  | _, _, .nil => ⟨[], .nil⟩
  | _, _, .one hl hv hf => by
    obtain ⟨a, ha⟩ := IsDefault.enc h hv
    obtain ⟨b, hb⟩ := IsDefaultFields.enc h hf
    exact ⟨a ++ b, .one hl ha hb⟩
  | _, _, .list hl hf => by
    obtain ⟨a, ha⟩ := encNum_length_zero h.listSize
    obtain ⟨b, hb⟩ := IsDefaultFields.enc h hf
    exact ⟨a ++ [] ++ b, .list hl ha .nil hb⟩
end

mutual
theorem IsDefault.unique {p : Protocol} (h : Usable p) :
    ∀ {t v v'}, IsDefault p t v → IsDefault p t v' → v = v'
  | _, _, v', .num (n := n), h2 => by
    generalize ht : n.name = t at h2
    cases h2 with
    | num =>
      have := ofName?_name n
      rw [ht, ofName?_name] at this
      cases this; rfl
    | text => exact absurd ht (name_ne_string n)
    | enum he =>
      exact absurd (ht ▸ name_builtin n) (h.notBuiltin _ (by simp [enumNames]; exact .inr (.inr ⟨_, he, rfl⟩))).1
    | struct hs =>
      exact absurd (ht ▸ name_builtin n) (h.notBuiltin _ (by simp [structNames]; exact .inl ⟨_, hs, rfl⟩)).1
  | _, _, v', .text, h2 => by
    generalize ht : "string" = t at h2
    cases h2 with
    | num => exact absurd ht.symm (name_ne_string _)
    | text => rfl
    | enum he =>
      exact absurd ht.symm (h.notBuiltin _ (by simp [enumNames]; exact .inr (.inr ⟨_, he, rfl⟩))).2
    | struct hs =>
      exact absurd ht.symm (h.notBuiltin _ (by simp [structNames]; exact .inl ⟨_, hs, rfl⟩)).2
  | _, _, v', .enum (e := e) he hx, h2 => by
    have hm : e.name ∈ enumNames p := List.mem_map_of_mem he
    have hb := h.notBuiltin e.name (by simp [hm])
    generalize ht : e.name = t at h2
    cases h2 with
    | num => exact absurd (ht ▸ name_builtin _) hb.1
    | text => exact absurd ht hb.2
    | enum he' hx' =>
      cases mem_enums_unique h he he' ht
      rw [hx] at hx'; cases hx'; rfl
    | struct hs => exact absurd (ht ▸ hm) (h.structEnum _ (List.mem_map_of_mem hs))
  | _, _, v', .struct (s := s) hs hf, h2 => by
    have hm : s.name ∈ structNames p := List.mem_map_of_mem hs
    have hb := h.notBuiltin s.name (by simp [hm])
    generalize ht : s.name = t at h2
    cases h2 with
    | num => exact absurd (ht ▸ name_builtin _) hb.1
    | text => exact absurd ht hb.2
    | enum he' hx' => exact absurd (List.mem_map_of_mem he') (h.structEnum _ (ht ▸ hm))
    | struct hs' hf' =>
      cases mem_structs_unique h hs hs' ht
      rw [IsDefaultFields.unique h hf hf']
theorem IsDefaultFields.unique {p : Protocol} (h : Usable p) :
    ∀ {ms fs fs'}, IsDefaultFields p ms fs → IsDefaultFields p ms fs' → fs = fs'
  | _, _, _, .nil, .nil => rfl
  | _, _, _, .one _ h1 h2, .one _ h3 h4 => by
    rw [IsDefault.unique h h1 h3, IsDefaultFields.unique h h2 h4]
  | _, _, _, .one hl _ _, .list hl' _ => by rw [hl] at hl'; cases hl'
  | _, _, _, .list hl _, .one hl' _ _ => by rw [hl] at hl'; cases hl'
  | _, _, _, .list _ h2, .list _ h4 => by rw [IsDefaultFields.unique h h2 h4]
end

end Beschi
