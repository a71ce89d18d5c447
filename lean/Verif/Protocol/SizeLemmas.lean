import Verif.Protocol.Usable
import Verif.Protocol.Sizes
import Verif.Spec.Sizes
/-
Helper lemmas for C09.
-/
namespace Beschi
open Spec

theorem varying_num {p : Protocol} (h : Usable p) (n : NumTy) : ¬ Varying p n.name := by
  intro hv
  generalize ht : n.name = t at hv
  cases hv with
  | text => exact name_ne_string n ht
  | list hs _ _ =>
    exact (h.notBuiltin _ (by simp [structNames]; exact .inl ⟨_, hs, rfl⟩)).1 (ht ▸ name_builtin n)
  | inside hs _ _ =>
    exact (h.notBuiltin _ (by simp [structNames]; exact .inl ⟨_, hs, rfl⟩)).1 (ht ▸ name_builtin n)

theorem varying_enum {p : Protocol} (h : Usable p) {e : Enum} (he : e ∈ p.enums) :
    ¬ Varying p e.name := by
  have hm : e.name ∈ enumNames p := List.mem_map_of_mem he
  intro hv
  generalize ht : e.name = t at hv hm
  cases hv with
  | text => exact (h.notBuiltin "string" (by simp [hm])).2 rfl
  | list hs _ _ => exact h.structEnum _ (List.mem_map_of_mem hs) hm
  | inside hs _ _ => exact h.structEnum _ (List.mem_map_of_mem hs) hm

theorem mem_structs_unique {p : Protocol} (h : Usable p) {s s' : Struct} (hs : s ∈ p.structs)
    (hs' : s' ∈ p.structs) (hn : s.name = s'.name) : s = s' := by
  have := struct?_of_mem h.structsDistinct hs
  rw [hn, struct?_of_mem h.structsDistinct hs'] at this
  cases this; rfl

theorem mem_enums_unique {p : Protocol} (h : Usable p) {s s' : Enum} (hs : s ∈ p.enums)
    (hs' : s' ∈ p.enums) (hn : s.name = s'.name) : s = s' := by
  have := enum?_of_mem h.enumsDistinct hs
  rw [hn, enum?_of_mem h.enumsDistinct hs'] at this
  cases this; rfl

theorem mem_messages_unique {p : Protocol} (h : Usable p) {s s' : Struct} (hs : s ∈ p.messages)
    (hs' : s' ∈ p.messages) (hn : s.name = s'.name) : s = s' := by
  have := message?_of_mem h.messagesDistinct hs
  rw [hn, message?_of_mem h.messagesDistinct hs'] at this
  cases this; rfl

theorem varying_struct {p : Protocol} (h : Usable p) {s : Struct} (hs : s ∈ p.structs) :
    Varying p s.name ↔ VaryingBody p s.members := by
  constructor
  · intro hv
    generalize ht : s.name = t at hv
    cases hv with
    | text =>
      exact absurd ht (h.notBuiltin s.name (by simp [structNames]; exact .inl ⟨s, hs, rfl⟩)).2
    | list hs' hm hl => cases mem_structs_unique h hs hs' ht; exact ⟨_, hm, .inl hl⟩
    | inside hs' hm hl => cases mem_structs_unique h hs hs' ht; exact ⟨_, hm, .inr hl⟩
  · rintro ⟨m, hm, hl | hv⟩
    · exact .list hs hm hl
    · exact .inside hs hm hv

/-- What `is_simple` answers for a list of members. -/
theorem mapM_simple {p : Protocol} {ms : List Variable} {fuel : Nat}
    (hm : ∀ m ∈ ms, ∃ b, varIsSimple p fuel m false = .ok b ∧
      (b = true ↔ ¬ (m.isList = true ∨ Varying p m.vartype))) :
    ∃ b, (ms.mapM fun m => varIsSimple p fuel m false).map (fun bs => bs.all id) = .ok b ∧
      (b = true ↔ ¬ VaryingBody p ms) := by
  induction ms with
  | nil => exact ⟨true, rfl, by simp [VaryingBody]⟩
  | cons m ms ih =>
    obtain ⟨b1, h1, h2⟩ := hm m (by simp)
    obtain ⟨b2, h3, h4⟩ := ih (fun x hx => hm x (by simp [hx]))
    rw [List.mapM_cons, h1]
    cases hq : (ms.mapM fun m => varIsSimple p fuel m false) with
    | error e => rw [hq] at h3; cases h3
    | ok bs =>
      rw [hq] at h3
      simp only [Except.map, Except.ok.injEq] at h3
      refine ⟨b1 && b2, ?_, ?_⟩
      · simp only [bind, Except.bind, pure, Except.pure, Except.map, List.all_cons, id, h3]
      · simp only [Bool.and_eq_true, h2, h4, VaryingBody, List.mem_cons, exists_eq_or_imp]
        exact not_or.symm

/-- What `is_simple` answers for a type. -/
theorem varIsSimple_spec {p : Protocol} (h : Usable p) (n : Nat) :
    ∀ (v : Variable) (listed : Bool), (v.isList = false ∨ listed = true) → fits p n v.vartype →
      KnownType p v.vartype →
      ∃ b, varIsSimple p (n + 1) v listed = .ok b ∧ (b = true ↔ ¬ Varying p v.vartype) := by
  induction n with
  | zero =>
    intro v listed hl hf hk
    unfold varIsSimple
    have hc : (v.isList && !listed) = false := by rcases hl with hl | hl <;> simp [hl]
    rw [if_neg (by simp [hc])]
    cases h.kind hk with
    | num n e ne num enum struct message =>
      exact ⟨true, by simp [num], by simp [e, varying_num h]⟩
    | text e num enum struct message =>
      refine ⟨false, by rw [if_neg (by simp [num]), if_pos (by simp [e])], ?_⟩
      rw [e]; simp [Varying.text]
    | enum e mem name ne num enum struct message =>
      exact ⟨true, by simp [num, ne, Protocol.isEnum, enum], by simp [← name, varying_enum h mem]⟩
    | struct s mem name ne num enum struct message =>
      rw [show p.struct? v.vartype = none from hf] at struct; cases struct
  | succ n ih =>
    intro v listed hl hf hk
    unfold varIsSimple
    have hc : (v.isList && !listed) = false := by rcases hl with hl | hl <;> simp [hl]
    rw [if_neg (by simp [hc])]
    cases h.kind hk with
    | num n e ne num enum struct message =>
      exact ⟨true, by simp [num], by simp [e, varying_num h]⟩
    | text e num enum struct message =>
      refine ⟨false, by rw [if_neg (by simp [num]), if_pos (by simp [e])], ?_⟩
      rw [e]; simp [Varying.text]
    | enum e mem name ne num enum struct message =>
      exact ⟨true, by simp [num, ne, Protocol.isEnum, enum], by simp [← name, varying_enum h mem]⟩
    | struct s mem name ne num enum struct message =>
      have := mapM_simple (p := p) (ms := s.members) (fuel := n + 1) (fun m hm => by
        cases hml : m.isList with
        | true => exact ⟨false, by simp [varIsSimple, hml], by simp⟩
        | false =>
          obtain ⟨b, h1, h2⟩ := ih m false (.inl hml) (hf s struct m hm) (h.known_of_struct mem hm)
          exact ⟨b, h1, by simp [h2]⟩)
      obtain ⟨b, h1, h2⟩ := this
      refine ⟨b, ?_, ?_⟩
      · simp only [num, Option.isSome_none, Bool.false_eq_true, if_false, Protocol.isEnum, enum,
          struct, beq_iff_eq, ne]
        exact h1
      · rw [h2, ← name, varying_struct h mem]

theorem simpleVar_spec {p : Protocol} (h : Usable p) {v : Variable} {listed : Bool}
    (hl : v.isList = false ∨ listed = true) (hk : KnownType p v.vartype) :
    varIsSimple p p.depth v listed = .ok (p.simpleVar v listed) ∧
      (p.simpleVar v listed = true ↔ ¬ Varying p v.vartype) := by
  obtain ⟨b, h1, h2⟩ := varIsSimple_spec h (p.structs.length + 1) v listed hl
    (fits_succ (h.fits v.vartype)) hk
  have h1' : varIsSimple p p.depth v listed = .ok b := h1
  have : p.simpleVar v listed = b := by unfold Protocol.simpleVar; rw [h1']
  rw [this]; exact ⟨h1', h2⟩

theorem simpleVar_list {p : Protocol} {v : Variable} (hl : v.isList = true) :
    varIsSimple p p.depth v false = .ok (p.simpleVar v false) ∧ p.simpleVar v false = false := by
  have : varIsSimple p p.depth v false = .ok false := by
    simp [Protocol.depth, varIsSimple, hl]
  simp [Protocol.simpleVar, this]

theorem simpleStruct_spec {p : Protocol} (h : Usable p) {s : Struct}
    (hk : ∀ v ∈ s.members, KnownType p v.vartype) :
    structIsSimple p p.depth s = .ok (p.simpleStruct s) ∧
      (p.simpleStruct s = true ↔ ¬ VaryingBody p s.members) := by
  obtain ⟨b, h1, h2⟩ := mapM_simple (p := p) (ms := s.members) (fuel := p.depth) (fun m hm => by
    cases hml : m.isList with
    | true => exact ⟨false, by simp [Protocol.depth, varIsSimple, hml], by simp⟩
    | false =>
      obtain ⟨h1, h2⟩ := simpleVar_spec h (.inl hml) (hk m hm) (listed := false)
      exact ⟨_, h1, by simp [h2]⟩)
  have h1' : structIsSimple p p.depth s = .ok b := h1
  have : p.simpleStruct s = b := by unfold Protocol.simpleStruct; rw [h1']
  rw [this]; exact ⟨h1', h2⟩

/-! ### Sizes -/

/-- Every number type takes a fixed number of bytes. -/
def Atoms.Sized (A : Atoms) : Prop := ∀ n v bs, A.num n v bs → bs.length = n.size

/-- The body of a fixed-size struct or message takes a fixed number of bytes. -/
theorem sizeMembers_spec {p : Protocol} {ms : List Variable} {fuel : Nat}
    (hm : ∀ m ∈ ms, m.isList = false ∧ ∃ k, getSizeOf p fuel m.vartype = .ok k ∧
      ∀ A, Atoms.Sized A → ∀ v bs, Layout A p m.vartype v bs → bs.length = k) (acc : Nat) :
    ∃ k, (ms.foldlM (init := acc) fun size m =>
        if m.isList then (.error .list : Except SizeErr Nat)
        else (getSizeOf p fuel m.vartype).map (size + ·)) = .ok (acc + k) ∧
      ∀ A, Atoms.Sized A → ∀ fs bs, LayoutFields A p ms fs bs → bs.length = k := by
  induction ms generalizing acc with
  | nil => exact ⟨0, rfl, fun A _ fs bs hl => by cases hl; rfl⟩
  | cons m ms ih =>
    obtain ⟨hl, k1, h1, h2⟩ := hm m (by simp)
    obtain ⟨k2, h3, h4⟩ := ih (fun x hx => hm x (by simp [hx])) (acc + k1)
    refine ⟨k1 + k2, ?_, ?_⟩
    · rw [List.foldlM_cons, hl]
      simp only [Bool.false_eq_true, if_false, h1, Except.map, bind, Except.bind]
      rw [← Nat.add_assoc]
      exact h3
    · intro A hA fs bs hlay
      cases hlay with
      | one _ ha hb => rw [List.length_append, h2 A hA _ _ ha, h4 A hA _ _ hb]
      | list hl' => rw [hl] at hl'; cases hl'

theorem layout_num {A : Atoms} {p : Protocol} (h : Usable p) {n : NumTy} {v : Val} {bs : List UInt8}
    (hl : Layout A p n.name v bs) : A.num n v bs := by
  generalize ht : n.name = t at hl
  cases hl with
  | num ha =>
    have := ofName?_name n
    rw [ht, ofName?_name] at this
    cases this; exact ha
  | text => exact absurd ht (name_ne_string n)
  | enum he =>
    exact absurd (ht ▸ name_builtin n) (h.notBuiltin _ (by simp [enumNames]; exact .inr (.inr ⟨_, he, rfl⟩))).1
  | struct hs =>
    exact absurd (ht ▸ name_builtin n) (h.notBuiltin _ (by simp [structNames]; exact .inl ⟨_, hs, rfl⟩)).1

theorem layout_text {A : Atoms} {p : Protocol} (h : Usable p) {v : Val} {bs : List UInt8}
    (hl : Layout A p "string" v bs) : ∃ s len cs, v = .str s ∧ bs = len ++ cs ∧
      A.num p.stringSize (.int cs.length) len ∧ A.text cs s := by
  generalize ht : "string" = t at hl
  cases hl with
  | num ha => exact absurd ht.symm (name_ne_string _)
  | text h1 h2 => exact ⟨_, _, _, rfl, rfl, h1, h2⟩
  | enum he =>
    exact absurd ht.symm (h.notBuiltin _ (by simp [enumNames]; exact .inr (.inr ⟨_, he, rfl⟩))).2
  | struct hs =>
    exact absurd ht.symm (h.notBuiltin _ (by simp [structNames]; exact .inl ⟨_, hs, rfl⟩)).2

theorem layout_enum {A : Atoms} {p : Protocol} (h : Usable p) {e : Enum} (he : e ∈ p.enums)
    {v : Val} {bs : List UInt8} (hl : Layout A p e.name v bs) :
    ∃ i j, v = .int j ∧ A.enum e i j ∧ A.num e.encoding (.int i) bs := by
  have hm : e.name ∈ enumNames p := List.mem_map_of_mem he
  have hb := h.notBuiltin e.name (by simp [hm])
  generalize ht : e.name = t at hl
  cases hl with
  | num ha => exact absurd (ht ▸ name_builtin _) hb.1
  | text h1 h2 => exact absurd ht hb.2
  | enum he' hx hn => cases mem_enums_unique h he he' ht; exact ⟨_, _, rfl, hx, hn⟩
  | struct hs => exact absurd (ht ▸ hm) (h.structEnum _ (List.mem_map_of_mem hs))

theorem layout_struct {A : Atoms} {p : Protocol} (h : Usable p) {s : Struct} (hs : s ∈ p.structs)
    {v : Val} {bs : List UInt8} (hl : Layout A p s.name v bs) :
    ∃ fs, v = .record fs ∧ LayoutFields A p s.members fs bs := by
  have hm : s.name ∈ structNames p := List.mem_map_of_mem hs
  have hb := h.notBuiltin s.name (by simp [hm])
  generalize ht : s.name = t at hl
  cases hl with
  | num ha => exact absurd (ht ▸ name_builtin _) hb.1
  | text h1 h2 => exact absurd ht hb.2
  | enum he' hx hn => exact absurd (List.mem_map_of_mem he') (h.structEnum _ (ht ▸ hm))
  | struct hs' hf => cases mem_structs_unique h hs hs' ht; exact ⟨_, rfl, hf⟩

/-- What `get_size_of` answers for a fixed-size type. -/
theorem getSizeOf_fixed {p : Protocol} (h : Usable p) (n : Nat) :
    ∀ t, fits p n t → KnownType p t → ¬ Varying p t →
      ∃ k, getSizeOf p (n + 1) t = .ok k ∧
        ∀ A, Atoms.Sized A → ∀ v bs, Layout A p t v bs → bs.length = k := by
  induction n with
  | zero =>
    intro t hf hk hv
    unfold getSizeOf
    cases h.kind hk with
    | num n e ne num enum struct message =>
      refine ⟨n.size, by rw [num], fun A hA v bs hl => hA n v bs ?_⟩
      subst e; exact layout_num h hl
    | text e num enum struct message => subst e; exact absurd .text hv
    | enum e mem name ne num enum struct message =>
      refine ⟨e.encoding.size, by simp only [num, enum], fun A hA v bs hl => ?_⟩
      subst name
      obtain ⟨_, _, _, _, h3⟩ := layout_enum h mem hl
      exact hA _ _ _ h3
    | struct s mem name ne num enum struct message =>
      rw [show p.struct? t = none from hf] at struct; cases struct
  | succ n ih =>
    intro t hf hk hv
    unfold getSizeOf
    cases h.kind hk with
    | num n e ne num enum struct message =>
      refine ⟨n.size, by rw [num], fun A hA v bs hl => hA n v bs ?_⟩
      subst e; exact layout_num h hl
    | text e num enum struct message => subst e; exact absurd .text hv
    | enum e mem name ne num enum struct message =>
      refine ⟨e.encoding.size, by simp only [num, enum], fun A hA v bs hl => ?_⟩
      subst name
      obtain ⟨_, _, _, _, h3⟩ := layout_enum h mem hl
      exact hA _ _ _ h3
    | struct s mem name ne num enum struct message =>
      have hv' : ¬ VaryingBody p s.members := by rw [← name, varying_struct h mem] at hv; exact hv
      obtain ⟨k, h1, h2⟩ := sizeMembers_spec (p := p) (ms := s.members) (fuel := n + 1) (fun m hm => by
        have hml : m.isList = false := by
          cases hml : m.isList with
          | false => rfl
          | true => exact absurd ⟨m, hm, .inl hml⟩ hv'
        exact ⟨hml, ih m.vartype (hf s struct m hm) (h.known_of_struct mem hm)
          (fun hx => hv' ⟨m, hm, .inr hx⟩)⟩) 0
      refine ⟨k, ?_, fun A hA v bs hl => ?_⟩
      · simp only [num, enum, struct, beq_iff_eq, ne, if_false]
        simpa using h1
      · subst name
        obtain ⟨fs, _, hl⟩ := layout_struct h mem hl
        exact h2 A hA fs bs hl

/-- `get_size_of` refuses every type that can vary in size. -/
theorem getSizeOf_varying {p : Protocol} (h : Usable p) (n : Nat) :
    ∀ t, fits p n t → KnownType p t → Varying p t →
      getSizeOf p (n + 1) t = .error .text ∨ getSizeOf p (n + 1) t = .error .list := by
  induction n with
  | zero =>
    intro t hf hk hv
    cases h.kind hk with
    | num n e ne num enum struct message => subst e; exact absurd hv (varying_num h n)
    | text e num enum struct message =>
      left; unfold getSizeOf; simp only [num, enum]; rw [if_pos (by simp [e])]
    | enum e mem name ne num enum struct message => subst name; exact absurd hv (varying_enum h mem)
    | struct s mem name ne num enum struct message =>
      rw [show p.struct? t = none from hf] at struct; cases struct
  | succ n ih =>
    intro t hf hk hv
    cases h.kind hk with
    | num n e ne num enum struct message => subst e; exact absurd hv (varying_num h n)
    | text e num enum struct message =>
      left; unfold getSizeOf; simp only [num, enum]; rw [if_pos (by simp [e])]
    | enum e mem name ne num enum struct message => subst name; exact absurd hv (varying_enum h mem)
    | struct s mem name ne num enum struct message =>
      unfold getSizeOf
      simp only [num, enum, struct, beq_iff_eq, ne, if_false, Option.orElse_eq_orElse, Option.orElse_eq_or,
        Option.some_or]
      have hv' : VaryingBody p s.members := by rw [← name, varying_struct h mem] at hv; exact hv
      have hall : ∀ m ∈ s.members, fits p n m.vartype ∧ KnownType p m.vartype := fun m hm =>
        ⟨hf s struct m hm, h.known_of_struct mem hm⟩
      revert hv' hall
      generalize s.members = ms
      generalize (0 : Nat) = acc
      intro hv' hall
      induction ms generalizing acc with
      | nil => obtain ⟨m, hm, _⟩ := hv'; cases hm
      | cons m ms ihm =>
        rw [List.foldlM_cons]
        cases hml : m.isList with
        | true => right; simp [bind, Except.bind]
        | false =>
          simp only [Bool.false_eq_true, if_false]
          obtain ⟨hf', hk'⟩ := hall m (by simp)
          by_cases hvm : Varying p m.vartype
          · rcases ih m.vartype hf' hk' hvm with he | he
            · left; rw [he]; rfl
            · right; rw [he]; rfl
          · obtain ⟨k, hk1, _⟩ := getSizeOf_fixed h n m.vartype hf' hk' hvm
            rw [hk1]
            simp only [Except.map, bind, Except.bind]
            refine ihm (acc + k) ?_ (fun x hx => hall x (by simp [hx]))
            obtain ⟨m', hm', hor⟩ := hv'
            rcases List.mem_cons.1 hm' with rfl | hm'
            · rcases hor with hor | hor
              · rw [hml] at hor; cases hor
              · exact absurd hor hvm
            · exact ⟨m', hm', hor⟩

theorem sizeOf_fixed {p : Protocol} (h : Usable p) {t : String} (hk : KnownType p t)
    (hv : ¬ Varying p t) : getSizeOf p p.depth t = .ok (p.sizeOf t) ∧
      ∀ A, Atoms.Sized A → ∀ v bs, Layout A p t v bs → bs.length = p.sizeOf t := by
  obtain ⟨k, h1, h2⟩ := getSizeOf_fixed h (p.structs.length + 1) t (fits_succ (h.fits t)) hk hv
  have h1' : getSizeOf p p.depth t = .ok k := h1
  have : p.sizeOf t = k := by unfold Protocol.sizeOf; rw [h1']
  rw [this]; exact ⟨h1', h2⟩

/-- `get_size_of` on the name of a struct or message. -/
theorem sizeOf_body {p : Protocol} (h : Usable p) {s : Struct} (hs : s ∈ p.structs ++ p.messages)
    (hv : ¬ VaryingBody p s.members) : getSizeOf p p.depth s.name = .ok (p.sizeOf s.name) ∧
      ∀ A, Atoms.Sized A → ∀ fs bs, LayoutFields A p s.members fs bs → bs.length = p.sizeOf s.name := by
  obtain ⟨k, h1, h2⟩ := sizeMembers_spec (p := p) (ms := s.members) (fuel := p.structs.length + 1)
    (fun m hm => by
      have hml : m.isList = false := by
        cases hml : m.isList with
        | false => rfl
        | true => exact absurd ⟨m, hm, .inl hml⟩ hv
      exact ⟨hml, getSizeOf_fixed h _ m.vartype (h.fits _) (h.types s hs m hm)
        (fun hx => hv ⟨m, hm, .inr hx⟩)⟩) 0
  have hnb := h.notBuiltin s.name (by
    rcases List.mem_append.1 hs with hs | hs <;> simp [structNames, messageNames]
    · exact .inl ⟨s, hs, rfl⟩
    · exact .inr (.inl ⟨s, hs, rfl⟩))
  have henum : p.enum? s.name = none := enum?_none fun he => by
    rcases List.mem_append.1 hs with hs | hs
    · exact h.structEnum _ (List.mem_map_of_mem hs) he
    · exact h.messageEnum _ (List.mem_map_of_mem hs) he
  have hfind : (p.struct? s.name <|> p.message? s.name) = some s := by
    rcases List.mem_append.1 hs with hs | hs
    · rw [struct?_of_mem h.structsDistinct hs]; rfl
    · rw [struct?_none fun hn => h.structMessage _ hn (List.mem_map_of_mem hs),
        message?_of_mem h.messagesDistinct hs]; rfl
  have h1' : getSizeOf p p.depth s.name = .ok k := by
    unfold Protocol.depth getSizeOf
    simp only [ofName?_none hnb.1, henum, beq_iff_eq, hnb.2, if_false, hfind]
    simpa using h1
  have : p.sizeOf s.name = k := by unfold Protocol.sizeOf; rw [h1']
  rw [this]; exact ⟨h1', h2⟩

end Beschi
