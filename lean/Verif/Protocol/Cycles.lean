import Verif.Protocol.LoadLemmas
import Mathlib.Data.List.Nodup
import Mathlib.Data.List.Perm.Subperm
/-
Helper lemmas about the cycle check.
-/
namespace Beschi
open Spec

theorem struct?_of_mem {p : Protocol} (hn : (structNames p).Nodup) {s : Struct}
    (hs : s ∈ p.structs) : p.struct? s.name = some s :=
  find?_of_mem_nodup (fun s : Struct => s.name) p.structs hn hs

theorem contains_iff {p : Protocol} (hn : (structNames p).Nodup) {a b : String} :
    Contains p a b ↔ ∃ s, p.struct? a = some s ∧ b ∈ structNames p ∧ ∃ v ∈ s.members, v.vartype = b := by
  constructor
  · rintro ⟨s, hs, rfl, hb, hv⟩
    exact ⟨s, struct?_of_mem hn hs, hb, hv⟩
  · rintro ⟨s, hs, hb, hv⟩
    exact ⟨s, (struct?_some hs).1, (struct?_some hs).2, hb, hv⟩

theorem Spec.Contains.left_mem {p : Protocol} {a b : String} (h : Contains p a b) : a ∈ structNames p := by
  obtain ⟨s, hs, rfl, _⟩ := h
  exact List.mem_map_of_mem hs

theorem Spec.Contains.right_mem {p : Protocol} {a b : String} (h : Contains p a b) : b ∈ structNames p := by
  obtain ⟨s, hs, rfl, hb, _⟩ := h
  exact hb

theorem Spec.ContainsPlus.left_mem {p : Protocol} {a b : String} (h : ContainsPlus p a b) :
    a ∈ structNames p := by
  cases h with
  | one h => exact h.left_mem
  | more h _ => exact h.left_mem

theorem Spec.ContainsPlus.right_mem {p : Protocol} {a b : String} (h : ContainsPlus p a b) :
    b ∈ structNames p := by
  induction h with
  | one h => exact h.right_mem
  | more _ _ ih => exact ih

theorem Spec.ContainsPlus.trans {p : Protocol} {a b c : String} (h : ContainsPlus p a b)
    (h' : ContainsPlus p b c) : ContainsPlus p a c := by
  induction h with
  | one h => exact .more h h'
  | more h _ ih => exact .more h (ih h')

theorem scanMembers_ok {p : Protocol} {start : String} {vs : List Variable} {fr fr' : List String} :
    scanMembers p start vs fr = .ok fr' ↔
      (∀ v ∈ vs, v.vartype ≠ start) ∧
      fr' = ((vs.map (·.vartype)).filter p.isStruct).reverse ++ fr := by
  induction vs generalizing fr with
  | nil => simp [scanMembers, eq_comm]
  | cons v vs ih =>
    unfold scanMembers
    split
    · simp_all
    · rename_i h1
      split
      · rename_i h2
        simp only [Bool.not_eq_true'] at h2
        simp only [beq_iff_eq] at h1
        simp [ih, h1, h2]
      · rename_i h2
        simp only [Bool.not_eq_true', Bool.not_eq_false] at h2
        simp only [beq_iff_eq] at h1
        simp [ih, h1, h2]

theorem scanMembers_error {p : Protocol} {start : String} {vs : List Variable} {fr : List String}
    {e : LoadErr} (h : scanMembers p start vs fr = .error e) :
    e = .cycle start start ∧ ∃ v ∈ vs, v.vartype = start := by
  induction vs generalizing fr with
  | nil => simp [scanMembers] at h
  | cons v vs ih =>
    unfold scanMembers at h
    split at h
    · rename_i h1
      simp only [beq_iff_eq] at h1
      cases h
      exact ⟨by rw [h1], v, by simp, h1⟩
    · split at h
      · obtain ⟨h1, w, hw, h2⟩ := ih h
        exact ⟨h1, w, by simp [hw], h2⟩
      · obtain ⟨h1, w, hw, h2⟩ := ih h
        exact ⟨h1, w, by simp [hw], h2⟩

/-- A check that succeeds has seen that nothing on its stack leads back to the start, and that
everything on its stack is well founded. -/
theorem cycleLoop_ok {p : Protocol} (hn : (structNames p).Nodup) {start : String} {n : Nat}
    {fr : List String} (h : cycleLoop p start n fr = some (.ok ())) :
    ∀ t ∈ fr, t ≠ start ∧ ¬ ContainsPlus p t start ∧ Acc (fun b a => Contains p a b) t := by
  induction n generalizing fr with
  | zero => simp [cycleLoop] at h
  | succ n ih =>
    cases fr with
    | nil => simp
    | cons t fr =>
      unfold cycleLoop at h
      split at h
      · simp at h
      · rename_i hne
        simp only [beq_iff_eq] at hne
        split at h
        · simp at h
        · rename_i st hst
          split at h
          · simp at h
          · rename_i fr' hscan
            obtain ⟨h1, h2⟩ := scanMembers_ok.1 hscan
            have ih := ih h
            have hchild : ∀ b, Contains p t b → b ∈ fr' := by
              intro b hb
              obtain ⟨s, hs, hbs, v, hv, rfl⟩ := (contains_iff hn).1 hb
              rw [hst] at hs; cases hs
              rw [h2]
              simp only [List.mem_append, List.mem_reverse, List.mem_filter, List.mem_map]
              exact .inl ⟨⟨v, hv, rfl⟩, (isStruct_iff _ _).2 hbs⟩
            intro x hx
            rcases List.mem_cons.1 hx with rfl | hx
            · refine ⟨hne, ?_, ?_⟩
              · intro hcp
                cases hcp with
                | one hc => exact (ih _ (hchild _ hc)).1 rfl
                | more hc hcp => exact (ih _ (hchild _ hc)).2.1 hcp
              · exact Acc.intro x (fun b hb => (ih b (hchild b hb)).2.2)
            · exact ih x (by rw [h2]; simp [hx])

theorem cycleLoop_mono {p : Protocol} {start : String} {n m : Nat} {fr : List String}
    {r : Except LoadErr Unit} (h : cycleLoop p start n fr = some r) (hm : n ≤ m) :
    cycleLoop p start m fr = some r := by
  induction n generalizing fr m with
  | zero => simp [cycleLoop] at h
  | succ n ih =>
    obtain ⟨m, rfl⟩ : ∃ k, m = k + 1 := ⟨m - 1, by omega⟩
    cases fr with
    | nil => simpa [cycleLoop] using h
    | cons t fr =>
      unfold cycleLoop at h ⊢
      split at h
      · rename_i h1; rw [if_pos h1]; exact h
      · rename_i h1
        rw [if_neg h1]
        split at h
        · exact h
        · rename_i st hst
          split at h
          · exact h
          · exact ih h (by omega)

theorem mem_initialFrontier {p : Protocol} {s : Struct} {t : String} :
    t ∈ initialFrontier p s ↔ t ∈ structNames p ∧ ∃ v ∈ s.members, v.vartype = t := by
  simp only [initialFrontier, List.mem_reverse, List.mem_filter, List.mem_map, isStruct_iff]
  exact and_comm

theorem checkAll_ok {p : Protocol} {fuel : Nat} {l : List Struct} :
    checkAll p fuel l = some (.ok ()) ↔ ∀ s ∈ l, checkForCycles p fuel s = some (.ok ()) := by
  induction l with
  | nil => simp [checkAll]
  | cons s l ih =>
    unfold checkAll
    split
    · simp_all
    · simp_all
    · rename_i h; simp [ih, h]

theorem checkAll_mono {p : Protocol} {n m : Nat} {l : List Struct} {r : Except LoadErr Unit}
    (h : checkAll p n l = some r) (hm : n ≤ m) : checkAll p m l = some r := by
  induction l with
  | nil => simpa [checkAll] using h
  | cons s l ih =>
    unfold checkAll at h ⊢
    cases hc : checkForCycles p n s with
    | none => simp [hc] at h
    | some r' =>
      have : checkForCycles p m s = some r' := cycleLoop_mono hc hm
      rw [hc] at h
      rw [this]
      cases r' with
      | error e => simpa using h
      | ok u => cases u; exact ih h

theorem load_mono {n m : Nat} {data : Toml} {r : Except LoadErr Protocol}
    (h : load n data = some r) (hm : n ≤ m) : load m data = some r := by
  unfold load at h ⊢
  split at h
  · exact h
  · rename_i p hp
    cases hc : checkAll p n (p.structs ++ p.messages) with
    | none => simp [hc] at h
    | some r' => rw [checkAll_mono hc hm]; simpa [hc] using h

theorem loads_unique {data : Toml} {r r' : Except LoadErr Protocol} (h : Loads data r)
    (h' : Loads data r') : r = r' := by
  obtain ⟨n, h⟩ := h
  obtain ⟨m, h'⟩ := h'
  have a := load_mono h (Nat.le_max_left n m)
  have b := load_mono h' (Nat.le_max_right n m)
  rw [a] at b
  exact Option.some.inj b

theorem diverges_iff {data : Toml} : Diverges data ↔ ¬ ∃ r, Loads data r := by
  constructor
  · rintro h ⟨r, n, hr⟩; rw [h n] at hr; cases hr
  · intro h n
    cases hl : load n data with
    | none => rfl
    | some r => exact absurd ⟨r, n, hl⟩ h

theorem loads_ok_iff {data : Toml} {p : Protocol} :
    Loads data (.ok p) ↔ loadPhase1 data = .ok p ∧
      ∃ fuel, checkAll p fuel (p.structs ++ p.messages) = some (.ok ()) := by
  unfold Loads load
  constructor
  · rintro ⟨n, h⟩
    split at h
    · simp at h
    · rename_i q hq
      split at h
      · simp at h
      · simp at h
      · simp only [Option.some.injEq, Except.ok.injEq] at h
        subst h
        exact ⟨hq, n, by assumption⟩
  · rintro ⟨h, n, hc⟩
    exact ⟨n, by simp [h, hc]⟩

theorem acyclic_of_checkAll {p : Protocol} (hn : (structNames p).Nodup) {fuel : Nat}
    {l : List Struct} (hl : ∀ s ∈ p.structs, s ∈ l)
    (h : checkAll p fuel l = some (.ok ())) : Acyclic p := by
  intro a ha
  obtain ⟨s, hs, rfl⟩ : ∃ s ∈ p.structs, s.name = a := by
    simpa [structNames] using ha.left_mem
  have hc := checkAll_ok.1 h s (hl s hs)
  unfold checkForCycles at hc
  have hok := cycleLoop_ok hn hc
  have hfr : ∀ b, Contains p s.name b → b ∈ initialFrontier p s := by
    intro b hb
    obtain ⟨s', hs', hbs, hv⟩ := (contains_iff hn).1 hb
    rw [struct?_of_mem hn hs] at hs'; cases hs'
    exact mem_initialFrontier.2 ⟨hbs, hv⟩
  cases ha with
  | one h => exact (hok _ (hfr _ h)).1 rfl
  | more h h' => exact (hok _ (hfr _ h)).2.1 h'

/-! ### Nesting depth -/

/-- The structs reachable from type `t` nest at most `n` deep. -/
def fits (p : Protocol) : Nat → String → Prop
  | 0, t => p.struct? t = none
  | n + 1, t => ∀ s, p.struct? t = some s → ∀ v ∈ s.members, fits p n v.vartype

theorem fits_succ {p : Protocol} {n : Nat} {t : String} (h : fits p n t) : fits p (n + 1) t := by
  induction n generalizing t with
  | zero => intro s hs; rw [show p.struct? t = none from h] at hs; cases hs
  | succ n ih => intro s hs v hv; exact ih (h s hs v hv)

theorem fits_mono {p : Protocol} {n m : Nat} {t : String} (h : fits p n t) (hm : n ≤ m) :
    fits p m t := by
  induction hm with
  | refl => exact h
  | step _ ih => exact fits_succ ih

/-- A chain of containments. -/
def IsPath (p : Protocol) : List String → Prop
  | [] => True
  | [a] => a ∈ structNames p
  | a :: b :: l => Contains p a b ∧ IsPath p (b :: l)

theorem isPath_reach {p : Protocol} {a : String} {l : List String} (h : IsPath p (a :: l)) :
    ∀ x ∈ l, ContainsPlus p a x := by
  induction l generalizing a with
  | nil => simp
  | cons b l ih =>
    intro x hx
    have h1 : ContainsPlus p a b := .one h.1
    rcases List.mem_cons.1 hx with rfl | hx
    · exact h1
    · exact .more h.1 (ih h.2 x hx)

theorem isPath_mem {p : Protocol} {l : List String} (h : IsPath p l) :
    ∀ x ∈ l, x ∈ structNames p := by
  induction l with
  | nil => simp
  | cons a l ih =>
    intro x hx
    cases l with
    | nil => simp only [List.mem_singleton] at hx; subst hx; exact h
    | cons b l =>
      rcases List.mem_cons.1 hx with rfl | hx
      · exact h.1.left_mem
      · exact ih h.2 x hx

theorem isPath_nodup {p : Protocol} (ha : Acyclic p) {l : List String} (h : IsPath p l) :
    l.Nodup := by
  induction l with
  | nil => simp
  | cons a l ih =>
    rw [List.nodup_cons]
    refine ⟨fun hm => ha a (isPath_reach h a hm), ?_⟩
    cases l with
    | nil => simp
    | cons b l => exact ih h.2

theorem path_of_not_fits {p : Protocol} (hn : (structNames p).Nodup) {n : Nat} {t : String}
    (h : ¬ fits p n t) : ∃ l, IsPath p (t :: l) ∧ l.length = n := by
  induction n generalizing t with
  | zero =>
    refine ⟨[], ?_, rfl⟩
    show t ∈ structNames p
    rw [← isStruct_iff, Protocol.isStruct]
    cases hs : p.struct? t with
    | none => exact absurd hs h
    | some _ => rfl
  | succ n ih =>
    simp only [fits, Classical.not_forall] at h
    obtain ⟨s, hs, v, hv, h⟩ := h
    obtain ⟨l, hl, hlen⟩ := ih h
    refine ⟨v.vartype :: l, ⟨?_, hl⟩, by simp [hlen]⟩
    exact (contains_iff hn).2 ⟨s, hs, isPath_mem hl _ (by simp), v, hv, rfl⟩

theorem fits_of_acyclic {p : Protocol} (hn : (structNames p).Nodup) (ha : Acyclic p) (t : String) :
    fits p p.structs.length t := by
  apply Classical.byContradiction
  intro h
  obtain ⟨l, hl, hlen⟩ := path_of_not_fits hn h
  have h1 := isPath_nodup ha hl
  have h2 : (t :: l).Subperm (structNames p) :=
    List.subperm_of_subset h1 (isPath_mem hl)
  have := h2.length_le
  simp only [List.length_cons, structNames, List.length_map] at this
  omega

/-! ### Errors and termination of the cycle check -/

/-- Everything on the stack was reached from the members of the struct being checked. -/
def FromRoot (p : Protocol) (s : Struct) (t : String) : Prop :=
  t ∈ structNames p ∧ ∃ v ∈ s.members, v.vartype = t ∨ ContainsPlus p v.vartype t

theorem cycleLoop_error {p : Protocol} (hn : (structNames p).Nodup) {s : Struct} {n : Nat}
    {fr : List String} {e : LoadErr} (hfr : ∀ t ∈ fr, FromRoot p s t)
    (h : cycleLoop p s.name n fr = some (.error e)) :
    e = .cycle s.name s.name ∧
      ((∃ v ∈ s.members, v.vartype = s.name ∧ s.name ∈ structNames p) ∨
       (∃ t, FromRoot p s t ∧ ∃ st, p.struct? t = some st ∧ ∃ v ∈ st.members, v.vartype = s.name)) := by
  induction n generalizing fr with
  | zero => simp [cycleLoop] at h
  | succ n ih =>
    cases fr with
    | nil => simp [cycleLoop] at h
    | cons t fr =>
      have ht := hfr t (by simp)
      unfold cycleLoop at h
      split at h
      · rename_i h1
        simp only [beq_iff_eq] at h1
        simp only [Option.some.injEq, Except.error.injEq] at h
        subst h; subst h1
        refine ⟨rfl, ?_⟩
        obtain ⟨hs, v, hv, hv' | hv'⟩ := ht
        · exact .inl ⟨v, hv, hv', hs⟩
        · right
          have : ∃ u, Contains p u s.name ∧ (u = v.vartype ∨ ContainsPlus p v.vartype u) := by
            clear hv hfr
            generalize v.vartype = a at hv'
            generalize s.name = b at hv'
            induction hv' with
            | one h => exact ⟨_, h, .inl rfl⟩
            | more h _ ih =>
              obtain ⟨u, hu, hu' | hu'⟩ := ih
              · exact ⟨u, hu, .inr (hu' ▸ .one h)⟩
              · exact ⟨u, hu, .inr (.more h hu')⟩
          obtain ⟨u, hu, hu'⟩ := this
          refine ⟨u, ⟨hu.left_mem, v, hv, ?_⟩, ?_⟩
          · rcases hu' with rfl | hu'
            · exact .inl rfl
            · exact .inr hu'
          · obtain ⟨st, hst, _, w, hw, hw'⟩ := (contains_iff hn).1 hu
            exact ⟨st, hst, w, hw, hw'⟩
      · split at h
        · rename_i hnone
          have := (isStruct_iff p t).2 ht.1
          simp [Protocol.isStruct, hnone] at this
        · rename_i st hst
          split at h
          · rename_i e' hscan
            simp only [Option.some.injEq, Except.error.injEq] at h
            subst h
            obtain ⟨h1, v, hv, h2⟩ := scanMembers_error hscan
            exact ⟨h1, .inr ⟨t, ht, st, hst, v, hv, h2⟩⟩
          · rename_i fr' hscan
            obtain ⟨h1, h2⟩ := scanMembers_ok.1 hscan
            apply ih _ h
            intro x hx
            rw [h2] at hx
            simp only [List.mem_append, List.mem_reverse, List.mem_filter, List.mem_map,
              isStruct_iff] at hx
            rcases hx with ⟨⟨v, hv, rfl⟩, hx⟩ | hx
            · have hc : Contains p t v.vartype :=
                (contains_iff hn).2 ⟨st, hst, hx, v, hv, rfl⟩
              obtain ⟨_, w, hw, rfl | hw'⟩ := ht
              · exact ⟨hx, w, hw, .inr (.one hc)⟩
              · exact ⟨hx, w, hw, .inr (hw'.trans (.one hc))⟩
            · exact hfr x (by simp [hx])

theorem fromRoot_initial {p : Protocol} {s : Struct} : ∀ t ∈ initialFrontier p s, FromRoot p s t := by
  intro t ht
  obtain ⟨h1, v, hv, h2⟩ := mem_initialFrontier.1 ht
  exact ⟨h1, v, hv, .inl h2⟩

/-- A struct for which the check raises lies on a cycle. -/
theorem check_error_struct {p : Protocol} (hn : (structNames p).Nodup) {s : Struct}
    (hs : s ∈ p.structs) {n : Nat} {e : LoadErr} (h : checkForCycles p n s = some (.error e)) :
    e = .cycle s.name s.name ∧ ContainsPlus p s.name s.name := by
  obtain ⟨h1, h2⟩ := cycleLoop_error hn fromRoot_initial h
  refine ⟨h1, ?_⟩
  have hmem : s.name ∈ structNames p := List.mem_map_of_mem hs
  have hroot : ∀ v ∈ s.members, v.vartype ∈ structNames p → Contains p s.name v.vartype :=
    fun v hv hv' => (contains_iff hn).2 ⟨s, struct?_of_mem hn hs, hv', v, hv, rfl⟩
  rcases h2 with ⟨v, hv, h3, h4⟩ | ⟨t, ⟨ht1, v, hv, ht2⟩, st, hst, w, hw, h5⟩
  · have := hroot v hv (h3 ▸ h4)
    rw [h3] at this
    exact .one this
  · have hc : Contains p t s.name := (contains_iff hn).2 ⟨st, hst, hmem, w, hw, h5⟩
    rcases ht2 with rfl | ht2
    · exact .more (hroot v hv ht1) (.one hc)
    · exact .more (hroot v hv ht2.left_mem) (ht2.trans (.one hc))

/-- The check never raises for a message of a validated protocol. -/
theorem check_error_message {p : Protocol} (hw : WellFormed p) {m : Struct}
    (hm : m ∈ p.messages) {n : Nat} {e : LoadErr} :
    checkForCycles p n m ≠ some (.error e) := by
  intro h
  obtain ⟨_, h2⟩ := cycleLoop_error hw.structsDistinct fromRoot_initial h
  have hmem : m.name ∈ messageNames p := List.mem_map_of_mem hm
  rcases h2 with ⟨v, hv, h3, h4⟩ | ⟨t, ⟨_, _⟩, st, hst, w, hw', h5⟩
  · exact hw.structMessage _ h4 hmem
  · have := (hw.bodies st (by simp [(struct?_some hst).1])).noMessage w hw'
    rw [h5] at this
    exact this hmem

/-- Nesting depth when one struct is not entered. -/
def fitsAvoid (p : Protocol) (start : String) : Nat → String → Prop
  | 0, t => t = start
  | n + 1, t => t = start ∨ ∀ s, p.struct? t = some s → ∀ v ∈ s.members,
      p.isStruct v.vartype → fitsAvoid p start n v.vartype

theorem fitsAvoid_succ {p : Protocol} {start : String} {n : Nat} {t : String}
    (h : fitsAvoid p start n t) : fitsAvoid p start (n + 1) t := by
  induction n generalizing t with
  | zero => exact .inl h
  | succ n ih =>
    rcases h with h | h
    · exact .inl h
    · exact .inr (fun s hs v hv hi => ih (h s hs v hv hi))

theorem fitsAvoid_of_fits {p : Protocol} {start : String} {n : Nat} {t : String}
    (h : fits p n t) : fitsAvoid p start (n + 1) t := by
  induction n generalizing t with
  | zero => exact .inr (fun s hs => by rw [show p.struct? t = none from h] at hs; cases hs)
  | succ n ih => exact .inr (fun s hs v hv _ => ih (h s hs v hv))

theorem cycleLoop_terminates {p : Protocol} {start : String} (n : Nat) :
    ∀ (t : String) (fr : List String), fitsAvoid p start n t →
      (∃ k r, cycleLoop p start k fr = some r) → ∃ k r, cycleLoop p start k (t :: fr) = some r := by
  induction n with
  | zero =>
    intro t fr ht _
    exact ⟨1, _, by unfold cycleLoop; rw [if_pos (by simp [show t = start from ht])]⟩
  | succ n ih =>
    intro t fr ht hfr
    rcases ht with ht | ht
    · exact ⟨1, _, by unfold cycleLoop; rw [if_pos (by simp [ht])]⟩
    · by_cases h1 : t == start
      · exact ⟨1, _, by unfold cycleLoop; rw [if_pos h1]⟩
      · cases hst : p.struct? t with
        | none => exact ⟨1, _, by unfold cycleLoop; rw [if_neg h1, hst]⟩
        | some st =>
          cases hscan : scanMembers p start st.members fr with
          | error e => exact ⟨1, _, by unfold cycleLoop; rw [if_neg h1, hst]; simp [hscan]; rfl⟩
          | ok fr' =>
            obtain ⟨_, h2⟩ := scanMembers_ok.1 hscan
            have hall : ∀ x ∈ ((st.members.map (·.vartype)).filter p.isStruct).reverse,
                fitsAvoid p start n x := by
              intro x hx
              simp only [List.mem_reverse, List.mem_filter, List.mem_map] at hx
              obtain ⟨⟨v, hv, rfl⟩, hx⟩ := hx
              exact ht st hst v hv hx
            have : ∃ k r, cycleLoop p start k fr' = some r := by
              rw [h2]
              generalize ((st.members.map (·.vartype)).filter p.isStruct).reverse = l at hall
              clear h2 hscan
              induction l with
              | nil => exact hfr
              | cons x l ihl =>
                exact ih x _ (hall x (by simp)) (ihl (fun y hy => hall y (by simp [hy])))
            obtain ⟨k, r, hk⟩ := this
            exact ⟨k + 1, r, by
              rw [cycleLoop, if_neg h1, hst]; simp only [hscan]; exact hk⟩

theorem check_terminates {p : Protocol} {s : Struct} (n : Nat)
    (h : ∀ t ∈ initialFrontier p s, fitsAvoid p s.name n t) :
    ∃ k r, checkForCycles p k s = some r := by
  unfold checkForCycles
  generalize initialFrontier p s = fr at h
  induction fr with
  | nil => exact ⟨1, _, rfl⟩
  | cons t fr ih =>
    exact cycleLoop_terminates n t fr (h t (by simp)) (ih (fun x hx => h x (by simp [hx])))

theorem checkAll_terminates {p : Protocol} {l : List Struct}
    (h : ∀ s ∈ l, ∃ k r, checkForCycles p k s = some r) : ∃ k r, checkAll p k l = some r := by
  induction l with
  | nil => exact ⟨0, _, rfl⟩
  | cons s l ih =>
    obtain ⟨k1, r1, h1⟩ := h s (by simp)
    obtain ⟨k2, r2, h2⟩ := ih (fun x hx => h x (by simp [hx]))
    refine ⟨max k1 k2, ?_⟩
    have a : checkForCycles p (max k1 k2) s = some r1 := cycleLoop_mono h1 (by omega)
    have b := checkAll_mono h2 (Nat.le_max_right k1 k2)
    cases r1 with
    | error e => exact ⟨_, by rw [checkAll, a]⟩
    | ok u => cases u; exact ⟨_, by rw [checkAll, a]; exact b⟩

theorem checkAll_error {p : Protocol} {k : Nat} {l : List Struct} {e : LoadErr}
    (h : checkAll p k l = some (.error e)) :
    ∃ s ∈ l, checkForCycles p k s = some (.error e) := by
  induction l with
  | nil => simp [checkAll] at h
  | cons s l ih =>
    unfold checkAll at h
    split at h
    · cases h
    · rename_i e' he
      simp only [Option.some.injEq, Except.error.injEq] at h
      subst h
      exact ⟨s, by simp, he⟩
    · obtain ⟨x, hx, hx'⟩ := ih h
      exact ⟨x, by simp [hx], hx'⟩

/-- On an acyclic validated protocol the cycle check returns normally. -/
theorem checkAll_of_acyclic {p : Protocol} (hw : WellFormed p) (ha : Acyclic p) :
    ∃ fuel, checkAll p fuel (p.structs ++ p.messages) = some (.ok ()) := by
  obtain ⟨k, r, hk⟩ : ∃ k r, checkAll p k (p.structs ++ p.messages) = some r := by
    apply checkAll_terminates
    intro s _
    apply check_terminates (p.structs.length + 1)
    intro t _
    exact fitsAvoid_of_fits (fits_of_acyclic hw.structsDistinct ha t)
  refine ⟨k, ?_⟩
  cases r with
  | ok u => exact hk
  | error e =>
    obtain ⟨s, hs, he⟩ := checkAll_error hk
    rcases List.mem_append.1 hs with hs | hs
    · exact absurd (check_error_struct hw.structsDistinct hs he).2 (ha _)
    · exact absurd he (check_error_message hw hs)

theorem acc_not_cycle {p : Protocol} {t : String}
    (h : Acc (fun b a => Contains p a b) t) : ¬ ContainsPlus p t t := by
  induction h with
  | intro t _ ih =>
    intro hc
    cases hc with
    | one hc => exact ih t hc (.one hc)
    | more hc hc' => exact ih _ hc (hc'.trans (.one hc))

theorem acc_reach {p : Protocol} {t u : String} (h : Acc (fun b a => Contains p a b) t)
    (hc : ContainsPlus p t u) : Acc (fun b a => Contains p a b) u := by
  induction hc with
  | one hc => exact h.inv hc
  | more hc _ ih => exact ih (h.inv hc)

/-- A struct that is on no cycle itself but reaches one makes the check run forever. -/
theorem check_diverges {p : Protocol} (hn : (structNames p).Nodup) {s : Struct}
    (hs : s ∈ p.structs) (hself : ¬ ContainsPlus p s.name s.name) {c : String}
    (hreach : ContainsPlus p s.name c) (hc : ContainsPlus p c c) :
    ∀ n, checkForCycles p n s = none := by
  intro n
  cases h : checkForCycles p n s with
  | none => rfl
  | some r =>
    cases r with
    | error e => exact absurd (check_error_struct hn hs h).2 hself
    | ok u =>
      exfalso
      have hok := cycleLoop_ok hn h
      have hfr : ∀ b, Contains p s.name b → b ∈ initialFrontier p s := by
        intro b hb
        obtain ⟨s', hs', hbs, hv⟩ := (contains_iff hn).1 hb
        rw [struct?_of_mem hn hs] at hs'; cases hs'
        exact mem_initialFrontier.2 ⟨hbs, hv⟩
      cases hreach with
      | one h => exact acc_not_cycle (hok _ (hfr _ h)).2.2 hc
      | more h h' => exact acc_not_cycle (acc_reach (hok _ (hfr _ h)).2.2 h') hc

end Beschi
