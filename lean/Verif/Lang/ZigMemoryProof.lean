import Verif.Spec.Tidy
import Verif.Lang.ZigMemory
import Verif.Lang.ZigProof
/-
Helper lemmas about messages in memory (Zig).
-/
namespace Beschi.Lang.Zig
open Spec

/-! ### What a value in memory owns -/

mutual
/-- The object represents the value of the given type; the blocks listed are those it owns. -/
inductive Own (p : Protocol) (h : Heap) : String → Obj → Val → List Nat → Prop
  | plain {t v} : KnownType p t → ¬ Varying p t → Own p h t (.plain v) v []
  | empty {id} : Own p h "string" (.slice 0 id) (.str []) []
  | text {id bs} : bs ≠ [] → h.blocks id = some (.chars bs) →
      Own p h "string" (.slice bs.length (some id)) (.str bs) [id]
  | struct {s : Struct} {fs vs ids} : s ∈ p.structs → OwnFields p h s.members fs vs ids →
      Own p h s.name (.record fs) (.record vs) ids
/-- The same for the elements of a list. -/
inductive OwnAll (p : Protocol) (h : Heap) : String → List Obj → List Val → List Nat → Prop
  | nil {t} : OwnAll p h t [] [] []
  | cons {t o os v vs a b} : Own p h t o v a → OwnAll p h t os vs b →
      OwnAll p h t (o :: os) (v :: vs) (a ++ b)
/-- The same for a list. -/
inductive OwnSlice (p : Protocol) (h : Heap) : String → Obj → List Val → List Nat → Prop
  | empty {t id} : OwnSlice p h t (.slice 0 id) [] []
  | full {t os vs a id} : os ≠ [] → h.blocks id = some (.objs os) → OwnAll p h t os vs a →
      OwnSlice p h t (.slice os.length (some id)) vs (id :: a)
/-- The same for the members of a struct. -/
inductive OwnFields (p : Protocol) (h : Heap) :
    List Variable → List (String × Obj) → List (String × Val) → List Nat → Prop
  | nil : OwnFields p h [] [] [] []
  | one {m : Variable} {ms o fs v vs a b} : m.isList = false → Own p h m.vartype o v a →
      OwnFields p h ms fs vs b → OwnFields p h (m :: ms) ((m.name, o) :: fs) ((m.name, v) :: vs) (a ++ b)
  | list {m : Variable} {ms o fs ws vs a b} : m.isList = true → OwnSlice p h m.vartype o ws a →
      OwnFields p h ms fs vs b →
      OwnFields p h (m :: ms) ((m.name, o) :: fs) ((m.name, .list ws) :: vs) (a ++ b)
end

mutual
theorem Own.mono {p : Protocol} {h h' : Heap} : ∀ {t o v ids}, Own p h t o v ids →
    (∀ id ∈ ids, h'.blocks id = h.blocks id) → Own p h' t o v ids
  | _, _, _, _, .plain hk hv, _ => .plain hk hv
  | _, _, _, _, .empty, _ => .empty
  | _, _, _, _, .text hn hb, hs => .text hn ((hs _ (by simp)).trans hb)
  | _, _, _, _, .struct hm hf, hs => .struct hm (OwnFields.mono hf hs)
theorem OwnAll.mono {p : Protocol} {h h' : Heap} : ∀ {t os vs ids}, OwnAll p h t os vs ids →
    (∀ id ∈ ids, h'.blocks id = h.blocks id) → OwnAll p h' t os vs ids
  | _, _, _, _, .nil, _ => .nil
  | _, _, _, _, .cons ho hr, hs => .cons (Own.mono ho fun id hi => hs id (by simp [hi]))
      (OwnAll.mono hr fun id hi => hs id (by simp [hi]))
theorem OwnSlice.mono {p : Protocol} {h h' : Heap} : ∀ {t o vs ids}, OwnSlice p h t o vs ids →
    (∀ id ∈ ids, h'.blocks id = h.blocks id) → OwnSlice p h' t o vs ids
  | _, _, _, _, .empty, _ => .empty
  | _, _, _, _, .full hn hb ho, hs => .full hn ((hs _ (by simp)).trans hb)
      (OwnAll.mono ho fun id hi => hs id (by simp [hi]))
theorem OwnFields.mono {p : Protocol} {h h' : Heap} : ∀ {ms fs vs ids}, OwnFields p h ms fs vs ids →
    (∀ id ∈ ids, h'.blocks id = h.blocks id) → OwnFields p h' ms fs vs ids
  | _, _, _, _, .nil, _ => .nil
  | _, _, _, _, .one hl ho hr, hs => .one hl (Own.mono ho fun id hi => hs id (by simp [hi]))
      (OwnFields.mono hr fun id hi => hs id (by simp [hi]))
  | _, _, _, _, .list hl ho hr, hs => .list hl (OwnSlice.mono ho fun id hi => hs id (by simp [hi]))
      (OwnFields.mono hr fun id hi => hs id (by simp [hi]))
end

theorem OwnAll.length {p : Protocol} {h : Heap} : ∀ {t os vs ids}, OwnAll p h t os vs ids →
    os.length = vs.length
  | _, _, _, _, .nil => rfl
  | _, _, _, _, .cons _ hr => by simp [OwnAll.length hr]

theorem OwnFields.names {p : Protocol} {h : Heap} : ∀ {ms fs vs ids}, OwnFields p h ms fs vs ids →
    fs.map (·.1) = ms.map (·.name)
  | _, _, _, _, .nil => rfl
  | _, _, _, _, .one _ _ hr => by simp [OwnFields.names hr]
  | _, _, _, _, .list _ _ hr => by simp [OwnFields.names hr]

variable {p : Protocol}

mutual
theorem Own.fixed (h : Usable p) {hp : Heap} : ∀ {t o v ids}, Own p hp t o v ids → ¬ Varying p t →
    ids = []
  | _, _, _, _, .plain _ _, _ => rfl
  | _, _, _, _, .empty, _ => rfl
  | _, _, _, _, .text _ _, hv => absurd .text hv
  | _, _, _, _, .struct hm hf, hv => OwnFields.fixed h hf fun hb => hv ((varying_struct h hm).2 hb)
theorem OwnAll.fixed (h : Usable p) {hp : Heap} : ∀ {t os vs ids}, OwnAll p hp t os vs ids →
    ¬ Varying p t → ids = []
  | _, _, _, _, .nil, _ => rfl
  | _, _, _, _, .cons ho hr, hv => by rw [Own.fixed h ho hv, OwnAll.fixed h hr hv]; rfl
theorem OwnFields.fixed (h : Usable p) {hp : Heap} : ∀ {ms fs vs ids}, OwnFields p hp ms fs vs ids →
    ¬ VaryingBody p ms → ids = []
  | _, _, _, _, .nil, _ => rfl
  | _, _, _, _, .one (m := m) hl ho hr, hv => by
    rw [Own.fixed h ho fun hx => hv ⟨m, by simp, .inr hx⟩,
      OwnFields.fixed h hr fun ⟨m', hm', hx⟩ => hv ⟨m', by simp [hm'], hx⟩]
    rfl
  | _, _, _, _, .list (m := m) hl _ _, hv => absurd ⟨m, by simp, .inl hl⟩ hv
end

/-! ### Heaps -/

/-- The second heap is the first one with the blocks listed added. -/
structure Grown (h h' : Heap) (ids : List Nat) : Prop where
  next : h.next ≤ h'.next
  range : ∀ id ∈ ids, h.next ≤ id ∧ id < h'.next
  nodup : ids.Nodup
  same : ∀ id, id ∉ ids → h'.blocks id = h.blocks id

theorem Grown.refl (h : Heap) : Grown h h [] := ⟨Nat.le_refl _, by simp, by simp, fun _ _ => rfl⟩

theorem Grown.trans {h h1 h2 : Heap} {a b : List Nat} (x : Grown h h1 a) (y : Grown h1 h2 b) :
    Grown h h2 (a ++ b) where
  next := Nat.le_trans x.next y.next
  range id hi := by
    rcases List.mem_append.1 hi with hi | hi
    · have := x.range id hi; have := y.next; omega
    · have := y.range id hi; have := x.next; omega
  nodup := List.nodup_append.2 ⟨x.nodup, y.nodup, fun i hi j hj e => by
    have := x.range i hi; have := y.range j hj; omega⟩
  same id hi := by
    simp only [List.mem_append, not_or] at hi
    rw [y.same id hi.2, x.same id hi.1]

theorem Grown.old {h h' : Heap} {ids : List Nat} (x : Grown h h' ids) {id : Nat} (hi : id < h.next) :
    h'.blocks id = h.blocks id :=
  x.same id fun hm => by have := x.range id hm; omega

theorem Grown.set {h h' : Heap} {ids : List Nat} (x : Grown h h' ids) {id : Nat} (hi : id ∈ ids)
    (b : Option Block) : Grown h (h'.set id b) ids where
  next := x.next
  range := x.range
  nodup := x.nodup
  same i hn := by
    have : i ≠ id := fun e => hn (e ▸ hi)
    simp only [Heap.set, if_neg this]
    exact x.same i hn

theorem Grown.perm {h h' : Heap} {a b : List Nat} (x : Grown h h' a) (hp : a.Perm b) : Grown h h' b where
  next := x.next
  range id hi := x.range id (hp.mem_iff.2 hi)
  nodup := hp.nodup_iff.1 x.nodup
  same id hi := x.same id fun h => hi (hp.mem_iff.1 h)

theorem Grown.fresh {h h' : Heap} {ids : List Nat} (x : Grown h h' ids) (hf : h.Fresh) : h'.Fresh :=
  fun id hi => by
    rw [x.same id fun hm => by have := x.range id hm; omega]
    exact hf id (by have := x.next; omega)

theorem set_self (h : Heap) (id : Nat) (b : Option Block) : (h.set id b).blocks id = b := by
  simp [Heap.set]

theorem set_other {h : Heap} {id i : Nat} (b : Option Block) (hi : i ≠ id) :
    (h.set id b).blocks i = h.blocks i := by simp [Heap.set, hi]

/-- The heap without the blocks listed. -/
def Heap.without (h : Heap) (ids : List Nat) : Heap :=
  { h with blocks := fun i => if i ∈ ids then none else h.blocks i }

theorem without_nil (h : Heap) : h.without [] = h := by simp [Heap.without]

theorem without_without (h : Heap) (a b : List Nat) : (h.without a).without b = h.without (a ++ b) := by
  simp only [Heap.without, Heap.mk.injEq, true_and]
  funext i
  by_cases ha : i ∈ a <;> by_cases hb : i ∈ b <;> simp [ha, hb]

theorem without_congr (h : Heap) {a b : List Nat} (he : ∀ i, i ∈ a ↔ i ∈ b) :
    h.without a = h.without b := by
  simp only [Heap.without, he]

theorem without_other {h : Heap} {ids : List Nat} {i : Nat} (hi : i ∉ ids) :
    (h.without ids).blocks i = h.blocks i := by simp [Heap.without, hi]

theorem Grown.drop {h h' : Heap} {a b : List Nat} (x : Grown h h' (a ++ b)) (hf : h.Fresh) :
    Grown h (h'.without a) b where
  next := x.next
  range id hi := x.range id (by simp [hi])
  nodup := (List.nodup_append.1 x.nodup).2.1
  same id hi := by
    by_cases ha : id ∈ a
    · simp only [Heap.without, if_pos ha]
      exact (hf id (x.range id (by simp [ha])).1).symm
    · rw [without_other ha, x.same id (by simp [ha, hi])]

theorem Grown.restored {h h' : Heap} {a : List Nat} (x : Grown h h' a) (hf : h.Fresh) :
    (h'.without a).blocks = h.blocks := by
  have x' : Grown h h' (a ++ []) := by rwa [List.append_nil]
  funext i
  exact (x'.drop hf).same i (by simp)

theorem free_block {h : Heap} {n : Nat} (hn : n ≠ 0) {id : Nat} {b : Block}
    (hb : h.blocks id = some b) : h.free n (some id) = .ok (h.without [id]) := by
  simp only [Heap.free, if_neg hn, hb, Heap.set, Heap.without, List.mem_singleton]

theorem free_empty {h : Heap} {id : Option Nat} : h.free 0 id = .ok h := by simp [Heap.free]

theorem Grown.alloc {h h' : Heap} {A : Allocator} {n : Nat} {b : Block} {id : Option Nat} (hn : n ≠ 0)
    (ha : h.alloc A n b = some (id, h')) :
    id = some h.next ∧ Grown h h' [h.next] ∧ h'.blocks h.next = some b ∧ h'.next = h.next + 1 := by
  unfold Heap.alloc at ha
  rw [if_neg hn] at ha
  split at ha
  · cases ha
    refine ⟨rfl, ⟨Nat.le_succ _, ?_, List.nodup_singleton _, ?_⟩, by simp, rfl⟩
    · intro id hi
      simp only [List.mem_singleton] at hi
      subst hi
      exact ⟨Nat.le_refl _, Nat.lt_succ_self _⟩
    · intro id hi
      simp only [List.mem_singleton] at hi
      simp [hi]
  · cases ha

theorem alloc_none {h : Heap} {A : Allocator} {n : Nat} {b : Block} (ha : h.alloc A n b = none) :
    n ≠ 0 ∧ A.grants h.next n = false := by
  unfold Heap.alloc at ha
  split at ha
  · cases ha
  · split at ha
    · cases ha
    · simp_all

theorem alloc_zero {h h' : Heap} {A : Allocator} {b : Block} {id : Option Nat}
    (ha : h.alloc A 0 b = some (id, h')) : id = none ∧ h' = h := by
  simp only [Heap.alloc, if_true, Option.some.injEq, Prod.mk.injEq] at ha
  exact ⟨ha.1.symm, ha.2.symm⟩

/-! ### Releasing -/

theorem releaseEach_own {one : Obj → Heap → Except Fail Heap} {t : String}
    (hone : ∀ {h o v ids}, Own p h t o v ids → ids.Nodup → one o h = .ok (h.without ids)) :
    ∀ {os vs ids}, ∀ (h : Heap), OwnAll p h t os vs ids → ids.Nodup →
      releaseEach one os h = .ok (h.without ids)
  | [], _, _, h, .nil, _ => by rw [without_nil]; rfl
  | o :: os, _, _, h, .cons (a := a) (b := b) ho hr, hn => by
    obtain ⟨hna, hnb, hab⟩ := List.nodup_append.1 hn
    have hnb' : ∀ i ∈ b, i ∉ a := fun i hi hi' => hab i hi' i hi rfl
    simp only [releaseEach]
    rw [hone ho hna]
    simp only
    rw [releaseEach_own hone (h.without a) (hr.mono fun i hi => without_other (hnb' i hi)) hnb,
      without_without]

theorem lookup_of_nodup {β : Type} : ∀ {l : List (String × β)} {x : String × β},
    (l.map (·.1)).Nodup → x ∈ l → l.lookup x.1 = some x.2
  | (a, b) :: l, x, hn, hx => by
    simp only [List.map_cons, List.nodup_cons] at hn
    rcases List.mem_cons.1 hx with rfl | hx'
    · simp
    · have : (x.1 == a) = false := by
        rw [beq_eq_false_iff_ne]
        rintro rfl
        exact hn.1 (List.mem_map_of_mem hx')
      rw [List.lookup_cons, this]
      exact lookup_of_nodup hn.2 hx'

theorem simple_type (h : Usable p) {t : String} (hk : KnownType p t) :
    (p.simpleVar { name := "", vartype := t, isList := false } false = true) ↔ ¬ Varying p t :=
  (simpleVar_spec h (v := { name := "", vartype := t, isList := false }) (.inl rfl) hk).2

theorem releaseVar_one (h : Usable p) {one : String → Obj → Heap → Except Fail Heap} {m : Variable}
    (hl : m.isList = false) (hk : KnownType p m.vartype)
    (hone : ∀ {h o v ids}, Own p h m.vartype o v ids → ids.Nodup → one m.vartype o h = .ok (h.without ids))
    {hp : Heap} {o : Obj} {v : Val} {ids : List Nat} (ho : Own p hp m.vartype o v ids) (hn : ids.Nodup) :
    releaseVar p one m o hp = .ok (hp.without ids) := by
  unfold releaseVar
  by_cases hv : Varying p m.vartype
  · rw [if_neg (by rw [(simpleVar_spec h (.inl hl) hk).2]; exact not_not.2 hv), if_neg (by simp [hl])]
    exact hone ho hn
  · rw [if_pos ((simpleVar_spec h (.inl hl) hk).2.2 hv), ho.fixed h hv, without_nil]

theorem releaseVar_list (h : Usable p) {one : String → Obj → Heap → Except Fail Heap} {m : Variable}
    (hl : m.isList = true) (hk : KnownType p m.vartype)
    (hone : ∀ {h o v ids}, Own p h m.vartype o v ids → ids.Nodup → one m.vartype o h = .ok (h.without ids))
    {hp : Heap} {o : Obj} {vs : List Val} {ids : List Nat} (ho : OwnSlice p hp m.vartype o vs ids)
    (hn : ids.Nodup) : releaseVar p one m o hp = .ok (hp.without ids) := by
  unfold releaseVar
  rw [if_neg (by rw [(simpleVar_list hl).2]; simp), if_pos hl]
  cases ho with
  | empty =>
    rw [without_nil]
    split
    · exact free_empty
    · simp [Heap.elements, releaseEach, freeSlice, free_empty]
  | @full _ os _ a id hne hb ho =>
    have hlen : os.length ≠ 0 := by simpa using hne
    rw [List.nodup_cons] at hn
    by_cases hv : Varying p m.vartype
    · rw [if_neg (by rw [(simpleVar_spec h (.inr rfl) hk).2]; exact not_not.2 hv)]
      have : hp.elements (.slice os.length (some id)) = .ok os := by
        simp [Heap.elements, hb, hne]
      simp only [this]
      rw [releaseEach_own hone hp ho hn.2]
      simp only [freeSlice]
      rw [free_block hlen ((without_other hn.1).trans hb), without_without,
        without_congr hp (b := id :: a) (by simp [or_comm])]
    · rw [if_pos ((simpleVar_spec h (.inr rfl) hk).2.2 hv), ho.fixed h hv]
      exact free_block hlen hb

theorem releaseMembers_own (h : Usable p) {one : String → Obj → Heap → Except Fail Heap} {d : Nat}
    (hone : ∀ {t}, fits p d t → KnownType p t → ∀ {h o v ids}, Own p h t o v ids → ids.Nodup →
      one t o h = .ok (h.without ids)) {all : List (String × Obj)} :
    ∀ {ms fs vs ids}, ∀ (hp : Heap), OwnFields p hp ms fs vs ids → ids.Nodup →
      (∀ m ∈ ms, fits p d m.vartype) → (∀ m ∈ ms, KnownType p m.vartype) →
      (∀ x ∈ fs, all.lookup x.1 = some x.2) →
      releaseMembers p one all ms hp = .ok (hp.without ids)
  | _, _, _, _, hp, .nil, _, _, _, _ => by rw [without_nil]; rfl
  | _, _, _, _, hp, .one (m := m) (o := o) (a := a) (b := b) hl ho hr, hn, hf, hk, hall => by
    obtain ⟨hna, hnb, hab⟩ := List.nodup_append.1 hn
    have hnb' : ∀ i ∈ b, i ∉ a := fun i hi hi' => hab i hi' i hi rfl
    have h1 := releaseVar_one h hl (hk m (by simp)) (hone (hf m (by simp)) (hk m (by simp))) ho hna
    simp only [releaseMembers, hall _ (List.mem_cons_self ..), h1]
    rw [releaseMembers_own h hone _ (hr.mono fun i hi => without_other (hnb' i hi)) hnb
      (fun m hm => hf m (by simp [hm])) (fun m hm => hk m (by simp [hm]))
      (fun x hx => hall x (by simp [hx])), without_without]
  | _, _, _, _, hp, .list (m := m) (o := o) (a := a) (b := b) hl ho hr, hn, hf, hk, hall => by
    obtain ⟨hna, hnb, hab⟩ := List.nodup_append.1 hn
    have hnb' : ∀ i ∈ b, i ∉ a := fun i hi hi' => hab i hi' i hi rfl
    have h1 := releaseVar_list h hl (hk m (by simp)) (hone (hf m (by simp)) (hk m (by simp))) ho hna
    simp only [releaseMembers, hall _ (List.mem_cons_self ..), h1]
    rw [releaseMembers_own h hone _ (hr.mono fun i hi => without_other (hnb' i hi)) hnb
      (fun m hm => hf m (by simp [hm])) (fun m hm => hk m (by simp [hm]))
      (fun x hx => hall x (by simp [hx])), without_without]

theorem freeSlice_text (h : Usable p) {hp : Heap} {o : Obj} {v : Val} {ids : List Nat}
    (ho : Own p hp "string" o v ids) : freeSlice o hp = .ok (hp.without ids) := by
  generalize ht : "string" = t at ho
  cases ho with
  | plain _ hv => exact absurd (ht ▸ .text) hv
  | empty => rw [without_nil]; exact free_empty
  | text hne hb => exact free_block (by simpa using hne) hb
  | struct hs => exact absurd ht (text_ne_struct h hs)

theorem Own.struct_fields (h : Usable p) {hp : Heap} {s : Struct} (hm : s ∈ p.structs) {o : Obj} {v : Val}
    {ids : List Nat} (ho : Own p hp s.name o v ids) (hv : Varying p s.name) :
    ∃ fs vs, o = .record fs ∧ v = .record vs ∧ OwnFields p hp s.members fs vs ids := by
  generalize ht : s.name = t at ho hv
  cases ho with
  | plain _ hn => exact absurd hv hn
  | empty => exact absurd ht.symm (text_ne_struct h hm)
  | text => exact absurd ht.symm (text_ne_struct h hm)
  | struct hs hf => cases mem_structs_unique h hm hs ht; exact ⟨_, _, rfl, rfl, hf⟩

theorem releaseOne_own (h : Usable p) (hs : Supported p) : ∀ d fuel, d < fuel → ∀ {t}, fits p d t →
    KnownType p t → ∀ {hp o v ids}, Own p hp t o v ids → ids.Nodup →
    releaseOne p fuel t o hp = .ok (hp.without ids)
  | d, fuel + 1, hd, t, hf, hk, hp, o, v, ids, ho, hn => by
    unfold releaseOne
    by_cases hv : Varying p t
    · rw [if_neg (by rw [simple_type h hk]; exact not_not.2 hv)]
      cases h.kind hk with
      | num n e => exact absurd (e ▸ hv) (varying_num h n)
      | enum e mem name => exact absurd (name ▸ hv) (varying_enum h mem)
      | text e => subst e; rw [if_pos rfl]; exact freeSlice_text h ho
      | struct s mem name ne num enum struct =>
        subst name
        obtain ⟨fs, vs, rfl, rfl, hof⟩ := ho.struct_fields h mem hv
        rw [if_neg ne, struct]
        simp only
        match d, fuel, hd, hf with
        | 0, _, _, hf =>
          have hf : p.struct? s.name = none := hf
          rw [struct] at hf
          cases hf
        | d + 1, fuel + 1, hd, hf =>
          exact releaseMembers_own h (fun hf' hk' => releaseOne_own h hs d (fuel + 1) (by omega) hf' hk') hp
            hof hn (hf _ struct) (fun m hm' => h.known_of_struct mem hm')
            (fun x hx => lookup_of_nodup (by
              rw [hof.names]; exact hs.names _ (mem_bodies_struct mem)) hx)
    · rw [if_pos ((simple_type h hk).2 hv), ho.fixed h hv, without_nil]

theorem deinit_own (h : Usable p) (hs : Supported p) {s : Struct} (hm : s ∈ p.messages)
    (hv : VaryingBody p s.members) {hp : Heap}
    {fs : List (String × Obj)} {vs : List (String × Val)} {ids : List Nat}
    (ho : OwnFields p hp s.members fs vs ids) (hn : ids.Nodup) :
    deinit p s.name (.record fs) hp = .ok (hp.without ids) := by
  simp only [deinit, message?_of_mem h.messagesDistinct hm]
  rw [if_neg (by rw [simple_iff h (mem_bodies_message hm)]; exact not_not.2 hv)]
  exact releaseMembers_own h (fun hf' hk' => releaseOne_own h hs p.structs.length (depth p)
    (by simp [depth]) hf' hk') hp ho hn (fun m _ => h.fits _)
    (fun m hm' => h.known (mem_bodies_message hm) hm')
    (fun x hx => lookup_of_nodup (by rw [ho.names]; exact hs.names _ (mem_bodies_message hm)) hx)

theorem undo_own (h : Usable p) (hs : Supported p) {d fuel : Nat} (hd : d ≤ fuel) {t : String}
    (hf : fits p d t) (hk : KnownType p t) {hp : Heap} {o : Obj} {v : Val} {ids : List Nat}
    (ho : Own p hp t o v ids) (hn : ids.Nodup) : undo p fuel t o hp = .ok (hp.without ids) := by
  unfold undo
  cases h.kind hk with
  | num n e ne num => rw [if_pos (by simp [num]), ho.fixed h (e ▸ varying_num h n), without_nil]
  | enum e mem name ne num enum =>
    rw [if_pos (by simp [enum]), ho.fixed h (name ▸ varying_enum h mem), without_nil]
  | text e num enum =>
    rw [if_neg (by simp [num, enum]), if_pos e]
    subst e
    exact freeSlice_text h ho
  | struct s mem name ne num enum struct =>
    rw [if_neg (by simp [num, enum]), if_neg ne, struct]
    simp only
    subst name
    by_cases hv : VaryingBody p s.members
    · rw [if_neg (by rw [simple_iff h (mem_bodies_struct mem)]; exact not_not.2 hv)]
      obtain ⟨fs, vs, rfl, rfl, hof⟩ := ho.struct_fields h mem ((varying_struct h mem).2 hv)
      simp only
      match d, hd, hf with
      | 0, _, hf =>
        have hf : p.struct? s.name = none := hf
        rw [struct] at hf
        cases hf
      | d + 1, hd, hf =>
        exact releaseMembers_own h (fun hf' hk' => releaseOne_own h hs d fuel (by omega) hf' hk') hp
          hof hn (hf _ struct) (fun m hm' => h.known_of_struct mem hm')
          (fun x hx => lookup_of_nodup (by
            rw [hof.names]; exact hs.names _ (mem_bodies_struct mem)) hx)
    · rw [if_pos ((simple_iff h (mem_bodies_struct mem)).2 hv),
        ho.fixed h (fun hx => hv ((varying_struct h mem).1 hx)), without_nil]

/-! ### Reading -/

/-- What is known after a failure: it is that of reading, or the allocator has refused a request; memory
still allocated is accounted for. -/
structure Fails {β : Type} (clean small : Prop) (A : Allocator) (N : Nat) (h h' : Heap) (e : MemFail)
    (r : Except Fail β) : Prop where
  same : ∀ f, e = .fail f → r = .error f
  memory : e = .outOfMemory → ∃ i n, A.grants i n = false ∧ (small → n ≤ N)
  kept : ∃ ids, Grown h h' ids ∧ (clean → e.stops = false → ids = [])

/-- Reading into memory has the same outcome as reading, unless memory runs out, and what is in memory is
described by `Q`. -/
def Agrees {α β : Type} (clean small : Prop) (A : Allocator) (N : Nat)
    (Q : Heap → α → β → List Nat → Prop) (h : Heap) (x : Got α) (r : Except Fail (β × Nat)) : Prop :=
  match x.2 with
  | .ok (o, pos) => ∃ v ids, r = .ok (v, pos) ∧ Q x.1 o v ids ∧ Grown h x.1 ids
  | .error e => Fails clean small A N h x.1 e r

theorem Fails.after {β γ : Type} {c c' s s' : Prop} {A : Allocator} {N : Nat} {h h1 h2 : Heap} {e : MemFail}
    {r : Except Fail β} {r' : Except Fail γ} {a : List Nat} (hg : Grown h h1 a)
    (hf : Fails c s A N h1 h2 e r) (hc : c' → c ∧ a = []) (hs : s' → s)
    (hr : ∀ f, r = .error f → r' = .error f) : Fails c' s' A N h h2 e r' where
  same f hx := hr f (hf.same f hx)
  memory hx := by
    obtain ⟨i, n, h1, h2⟩ := hf.memory hx
    exact ⟨i, n, h1, fun hx => h2 (hs hx)⟩
  kept := by
    obtain ⟨ids, h1, h2⟩ := hf.kept
    refine ⟨a ++ ids, hg.trans h1, fun hx hy => ?_⟩
    rw [(hc hx).2, h2 (hc hx).1 hy]
    rfl

theorem Fails.here {β : Type} {c s : Prop} {A : Allocator} {N : Nat} {h : Heap} {f : Fail}
    {r : Except Fail β} (hr : r = .error f) : Fails c s A N h h (.fail f) r :=
  ⟨fun _ hx => (by cases hx; exact hr), fun hx => (by cases hx), [], .refl h, fun _ _ => rfl⟩

theorem Fails.refused {β : Type} {c s : Prop} {A : Allocator} {N : Nat} {h : Heap} {r : Except Fail β}
    {i n : Nat} (hg : A.grants i n = false) (hn : s → n ≤ N) : Fails c s A N h h .outOfMemory r :=
  ⟨fun _ hx => (by cases hx), fun _ => ⟨i, n, hg, hn⟩, [], .refl h, fun _ _ => rfl⟩

theorem memPlain_agrees {clean small : Prop} {A : Allocator} {N : Nat} {t : String} (hk : KnownType p t)
    (hv : ¬ Varying p t) (r : Except Fail (Val × Nat)) (h : Heap) :
    Agrees clean small A N (fun h o v ids => Own p h t o v ids) h (memPlain r h) r := by
  unfold Agrees memPlain
  cases r with
  | error e => exact .here rfl
  | ok x => exact ⟨_, _, rfl, .plain hk hv, .refl h⟩

theorem memString_agrees (clean small : Prop) (A : Allocator) (b : Buf) (pos : Nat) (h : Heap) :
    Agrees clean small A b.length (fun h o v ids => Own p h "string" o v ids) h (memString p A b pos h)
      (readString p b pos) := by
  unfold Agrees memString readString
  cases hn : readNum (native p.stringSize) b pos with
  | error e => exact .here rfl
  | ok r =>
    obtain ⟨v, q⟩ := r
    cases v with
    | int i =>
      simp only
      by_cases h1 : i < 0
      · rw [if_pos h1, if_pos h1]; exact .here rfl
      rw [if_neg h1, if_neg h1]
      by_cases h2 : 2 ^ 64 ≤ (q : Int) + i
      · rw [if_pos h2, if_pos h2]; exact .here rfl
      rw [if_neg h2, if_neg h2]
      cases ht : takeN .eof i.toNat b q with
      | error e => exact .here rfl
      | ok r =>
        obtain ⟨bs, q'⟩ := r
        have hlen := (takeN_ok ht).2.1
        have hle : bs.length ≤ b.length := by
          unfold takeN at ht
          split at ht
          · omega
          · cases ht
        simp only
        cases ha : h.alloc A bs.length (.chars bs) with
        | none => exact .refused (alloc_none ha).2 fun _ => hle
        | some x =>
          obtain ⟨id, h'⟩ := x
          simp only
          have hfin : ∃ ids, Own p h' "string" (.slice bs.length id) (.str bs) ids ∧ Grown h h' ids := by
            by_cases hb : bs = []
            · subst hb
              obtain ⟨rfl, rfl⟩ := alloc_zero ha
              exact ⟨_, .empty, .refl _⟩
            · obtain ⟨rfl, h3, h4, _⟩ := Grown.alloc (by simpa using hb) ha
              exact ⟨_, .text hb h4, h3⟩
          obtain ⟨ids, h3, h4⟩ := hfin
          by_cases hr : inRange p.stringSize (p.stringSize.size + i) = true
          · rw [if_pos hr, if_pos hr]
            exact ⟨_, _, rfl, h3, h4⟩
          · rw [if_neg hr, if_neg hr]
            exact ⟨fun f hx => by cases hx; rfl, (fun hx => by cases hx), _, h4, fun _ hx => by cases hx⟩
    | _ => exact .here rfl

/-- What is known of the loop over the elements of a list. -/
def AgreesItems (clean small : Prop) (A : Allocator) (N k : Nat) (p : Protocol) (t : String)
    (h : Heap) (x : List Obj × Heap × Except MemFail Nat) (r : Except Fail (List Val × Nat)) : Prop :=
  match x.2.2 with
  | .ok pos => ∃ vs ids, r = .ok (vs, pos) ∧ OwnAll p x.2.1 t x.1 vs ids ∧ Grown h x.2.1 ids ∧
      x.1.length = k
  | .error e => (∀ f, e = .fail f → r = .error f) ∧
      (e = .outOfMemory → ∃ i n, A.grants i n = false ∧ (small → n ≤ N)) ∧
      ∃ vs ids kept, OwnAll p x.2.1 t x.1 vs ids ∧ Grown h x.2.1 (ids ++ kept) ∧
        (clean → e.stops = false → kept = [])

theorem memItems_agrees {clean small : Prop} {A : Allocator} {N : Nat} {t : String}
    {rd : Nat → Heap → Got Obj} {rd' : Nat → Except Fail (Val × Nat)}
    (hrd : ∀ pos h, h.Fresh → Agrees clean small A N (fun h o v ids => Own p h t o v ids) h (rd pos h)
      (rd' pos)) :
    ∀ k pos h, h.Fresh → AgreesItems clean small A N k p t h (memItems rd k pos h) (readItems rd' k pos)
  | 0, pos, h, _ => ⟨[], [], rfl, .nil, .refl h, rfl⟩
  | k + 1, pos, h, hfr => by
    have h1 := hrd pos h hfr
    unfold Agrees at h1
    unfold AgreesItems
    simp only [memItems, readItems, bind, Except.bind]
    generalize hx : rd pos h = x at h1
    obtain ⟨ha, r⟩ := x
    cases r with
    | error e =>
      obtain ⟨h2, h3, ids, h4, h5⟩ := h1
      refine ⟨fun f hf => by rw [h2 f hf], h3, [], [], ids, .nil, h4, h5⟩
    | ok y =>
      obtain ⟨o, pos1⟩ := y
      obtain ⟨v, ids, h1, h2, h3⟩ := h1
      rw [h1]
      have h4 := memItems_agrees hrd k pos1 ha (h3.fresh hfr)
      unfold AgreesItems at h4
      simp only
      simp only at h2 h3
      generalize hy : memItems rd k pos1 ha = y at h4
      obtain ⟨os, hb, r⟩ := y
      cases r with
      | error e =>
        simp only at h4 ⊢
        obtain ⟨h5, h6, vs, a, kept, h7, h8, h9⟩ := h4
        refine ⟨fun f hf => by rw [h5 f hf], h6, v :: vs, ids ++ a, kept,
          .cons (h2.mono fun id hi => h8.old (h3.range id hi).2) h7, ?_, h9⟩
        rw [List.append_assoc]
        exact h3.trans h8
      | ok pos2 =>
        simp only at h4 ⊢
        obtain ⟨vs, ids', h4, h5, h7, h6⟩ := h4
        rw [h4]
        exact ⟨_, _, rfl, .cons (h2.mono fun id hi => h7.old (h3.range id hi).2) h5,
          h3.trans h7, by simp [h6]⟩

/-- Reading the elements of a list, with the value as a list. -/
def readList (rd : Nat → Except Fail (Val × Nat)) (k pos : Nat) : Except Fail (Val × Nat) :=
  match readItems rd k pos with
  | .error e => .error e
  | .ok (vs, pos) => .ok (.list vs, pos)

theorem memList_agrees {clean small : Prop} (hsm : ¬ small) {A : Allocator} {N : Nat} {t : String}
    {rd : Nat → Heap → Got Obj} {rd' : Nat → Except Fail (Val × Nat)} {sm : Prop}
    (hrd : ∀ pos h, h.Fresh → Agrees clean sm A N (fun h o v ids => Own p h t o v ids) h (rd pos h)
      (rd' pos)) {un : Obj → Heap → Except Fail Heap}
    (hun : ∀ {h o v ids}, Own p h t o v ids → ids.Nodup → un o h = .ok (h.without ids))
    (k pos : Nat) (h : Heap) (hfr : h.Fresh) :
    Agrees clean small A N (fun h o v ids => ∃ ws, v = .list ws ∧ OwnSlice p h t o ws ids) h
      (memList A rd un k pos h) (readList rd' k pos) := by
  unfold Agrees memList readList
  cases ha : h.alloc A k (.objs []) with
  | none => exact .refused (alloc_none ha).2 fun hx => absurd hx hsm
  | some x =>
    obtain ⟨id, h1⟩ := x
    simp only
    by_cases hk : k = 0
    · subst hk
      obtain ⟨rfl, rfl⟩ := alloc_zero ha
      exact ⟨_, _, rfl, ⟨[], rfl, .empty⟩, .refl _⟩
    obtain ⟨rfl, hg1, hb1, hnx⟩ := Grown.alloc hk ha
    have h2 := memItems_agrees hrd k pos h1 (hg1.fresh hfr)
    unfold AgreesItems at h2
    generalize hx : memItems rd k pos h1 = x at h2
    obtain ⟨os, h2', r⟩ := x
    cases r with
    | ok pos1 =>
      simp only at h2 ⊢
      obtain ⟨vs, ids, h3, h4, h5, h6⟩ := h2
      rw [h3]
      have hne : ∀ id ∈ ids, id ≠ h.next := fun id hi => by have := (h5.range id hi).1; omega
      refine ⟨_, h.next :: ids, rfl, ⟨vs, rfl, ?_⟩, (hg1.trans h5).set (by simp) _⟩
      rw [← h6]
      refine .full (fun hx => hk (by rw [← h6, hx]; rfl)) (set_self _ _ _)
        (h4.mono fun id hi => set_other _ (hne id hi))
    | error e =>
      simp only at h2 ⊢
      obtain ⟨h3, h4, vs, ids, kept, h5, h6, h7⟩ := h2
      have hg2 := hg1.trans h6
      have hni : h.next ∉ ids := fun hi => by have := (h6.range _ (List.mem_append_left _ hi)).1; omega
      cases hst : e.stops with
      | true =>
        exact ⟨fun f hf => by rw [h3 f hf], (fun hx => by subst hx; cases hst), _, hg2,
          fun _ hx => by simp only [hst] at hx; cases hx⟩
      | false =>
        have hu : undoList un os k (some h.next) h2' = .ok (h2'.without (ids ++ [h.next])) := by
          unfold undoList
          rw [releaseEach_own hun h2' h5 (List.nodup_append.1 h6.nodup).1]
          simp only
          have hbx : h2'.blocks h.next = some (.objs []) := (h6.old (by omega)).trans hb1
          rw [free_block hk ((without_other hni).trans hbx), without_without]
        simp only [Bool.false_eq_true, if_false, hu]
        refine ⟨fun f hf => by rw [h3 f hf], fun hx => ?_, kept, ?_, fun hc _ => h7 hc hst⟩
        · obtain ⟨i, n, h8, _⟩ := h4 hx
          exact ⟨i, n, h8, fun hx => absurd hx hsm⟩
        · refine Grown.drop ?_ hfr
          refine hg2.perm ?_
          rw [← List.append_assoc]
          exact List.Perm.append_right _ List.perm_append_comm

/-- Reading one member. -/
def readMember (S : ReadSem) (rd : RAtom → Nat → Except Fail (Val × Nat)) (b : Buf) (pos : Nat) :
    RStmt → Except Fail (Val × Nat)
  | .one _ a => rd a pos
  | .list _ _ prim a => match S.num prim b pos with
    | .error e => .error e
    | .ok (n, pos) => match asInt n with
      | .error e => .error e
      | .ok i => match S.count i with
        | .error e => .error e
        | .ok k => readList (rd a) k pos

theorem readMembers_cons {S : ReadSem} {rd : RAtom → Nat → Except Fail (Val × Nat)} {b : Buf} {pos : Nat}
    {st : RStmt} {sts : List RStmt} : readMembers S rd b pos (st :: sts) =
      match readMember S rd b pos st with
      | .error e => .error e
      | .ok (v, pos) => match readMembers S rd b pos sts with
        | .error e => .error e
        | .ok (vs, pos) => .ok (v :: vs, pos) := by
  cases st with
  | one dst a =>
    simp only [readMembers, readMember, bind, Except.bind]
    cases rd a pos with
    | error e => rfl
    | ok r =>
      simp only
      cases readMembers S rd b r.2 sts <;> rfl
  | list dst len prim a =>
    simp only [readMembers, readMember, bind, Except.bind, readList]
    cases S.num prim b pos with
    | error e => rfl
    | ok r =>
      simp only
      cases asInt r.1 with
      | error e => rfl
      | ok i =>
        simp only
        cases S.count i with
        | error e => rfl
        | ok k =>
          simp only
          cases readItems (rd a) k r.2 with
          | error e => rfl
          | ok x =>
            simp only
            cases readMembers S rd b x.2 sts <;> rfl

/-- The object and value of one member. -/
def OwnMember (p : Protocol) (m : Variable) (h : Heap) (o : Obj) (v : Val) (ids : List Nat) : Prop :=
  if m.isList then ∃ ws, v = .list ws ∧ OwnSlice p h m.vartype o ws ids else Own p h m.vartype o v ids

theorem OwnMember.mono {m : Variable} {h h' : Heap} {o : Obj} {v : Val} {ids : List Nat}
    (ho : OwnMember p m h o v ids) (hs : ∀ id ∈ ids, h'.blocks id = h.blocks id) :
    OwnMember p m h' o v ids := by
  unfold OwnMember at ho ⊢
  split
  · rename_i hl
    rw [if_pos hl] at ho
    obtain ⟨ws, rfl, ho⟩ := ho
    exact ⟨ws, rfl, ho.mono hs⟩
  · rename_i hl
    rw [if_neg hl] at ho
    exact ho.mono hs

theorem OwnMember.cons {m : Variable} {ms : List Variable} {h : Heap} {o : Obj} {v : Val} {a b : List Nat}
    {fs : List (String × Obj)} {vs : List (String × Val)} (ho : OwnMember p m h o v a)
    (hr : OwnFields p h ms fs vs b) :
    OwnFields p h (m :: ms) ((m.name, o) :: fs) ((m.name, v) :: vs) (a ++ b) := by
  unfold OwnMember at ho
  split at ho
  · rename_i hl
    obtain ⟨ws, rfl, ho⟩ := ho
    exact .list hl ho hr
  · rename_i hl
    exact .one (by simpa using hl) ho hr

theorem memMember_agrees {A : Allocator} {b : Buf} {rd : String → Nat → Heap → Got Obj}
    {un : String → Obj → Heap → Except Fail Heap} {rd' : RAtom → Nat → Except Fail (Val × Nat)}
    {st : Struct} {m : Variable}
    (hrd : ∀ pos h, h.Fresh → Agrees (Tidy p m.vartype) (¬ HasList p m.vartype) A b.length
      (fun h o v ids => Own p h m.vartype o v ids) h (rd m.vartype pos h) (rd' (atom p m.vartype) pos))
    (hun : ∀ {h o v ids}, Own p h m.vartype o v ids → ids.Nodup → un m.vartype o h = .ok (h.without ids))
    (pos : Nat) (h : Heap) (hfr : h.Fresh) :
    Agrees (Tidy p m.vartype) (m.isList = false ∧ ¬ HasList p m.vartype) A b.length (OwnMember p m) h
      (memMember p A rd un b m pos h) (readMember (readSem p) rd' b pos (deserializer p st m)) := by
  unfold memMember deserializer
  cases hl : m.isList with
  | false =>
    simp only [Bool.false_eq_true, if_false, readMember]
    have h1 := hrd pos h hfr
    unfold Agrees at h1 ⊢
    generalize hx : rd m.vartype pos h = x at h1
    obtain ⟨h', r⟩ := x
    cases r with
    | error e => exact Fails.after (.refl h) h1 (fun hx => ⟨hx, rfl⟩) (fun hx => hx.2) (fun _ hx => hx)
    | ok r => simpa [OwnMember, hl] using h1
  | true =>
    simp only [if_true, readMember]
    rw [show (readSem p).num (native p.listSize) b pos = readNum (native p.listSize) b pos from rfl]
    cases hn : readNum (native p.listSize) b pos with
    | error e => exact .here rfl
    | ok r =>
      obtain ⟨n, pos1⟩ := r
      simp only
      cases hi : asInt n with
      | error e => exact .here rfl
      | ok i =>
        simp only
        cases hc : (readSem p).count i with
        | error e => exact .here rfl
        | ok k =>
          simp only
          have := memList_agrees (p := p) (small := true = false ∧ ¬ HasList p m.vartype) (by simp) hrd hun k pos1
            h hfr
          unfold Agrees at this ⊢
          generalize hx : memList A (rd m.vartype) (un m.vartype) k pos1 h = x at this
          obtain ⟨h', r⟩ := x
          cases r with
          | error e => exact this
          | ok r => simpa [OwnMember, hl] using this

theorem memMembers_agrees (h : Usable p) {A : Allocator} {b : Buf} {rd : String → Nat → Heap → Got Obj}
    {un : String → Obj → Heap → Except Fail Heap} {rd' : RAtom → Nat → Except Fail (Val × Nat)}
    {st : Struct} : ∀ {ms : List Variable},
    (∀ m ∈ ms, ∀ pos h, h.Fresh → Agrees (Tidy p m.vartype) (¬ HasList p m.vartype) A b.length
      (fun h o v ids => Own p h m.vartype o v ids) h (rd m.vartype pos h) (rd' (atom p m.vartype) pos)) →
    (∀ m ∈ ms, ∀ {h o v ids}, Own p h m.vartype o v ids → ids.Nodup →
      un m.vartype o h = .ok (h.without ids)) →
    ∀ (pos : Nat) (hp : Heap), hp.Fresh →
    Agrees (TidyBody p ms) (¬ HasListBody p ms) A b.length
      (fun h os vs ids => OwnFields p h ms ((ms.map (·.name)).zip os) (zipNames ms vs) ids) hp
      (memMembers p A rd un b ms pos hp)
      (readMembers (readSem p) rd' b pos (ms.map (deserializer p st)))
  | [], _, _, pos, hp, _ => ⟨[], [], rfl, .nil, .refl hp⟩
  | m :: ms, hrd, hun, pos, hp, hfr => by
    have h1 := memMember_agrees (st := st) (hrd m (by simp)) (hun m (by simp)) pos hp hfr
    unfold Agrees at h1 ⊢
    rw [List.map_cons, readMembers_cons]
    simp only [memMembers]
    generalize hx : memMember p A rd un b m pos hp = x at h1
    obtain ⟨h1', r⟩ := x
    cases r with
    | error e =>
      simp only at h1 ⊢
      refine Fails.after (.refl hp) h1 (fun hx => ⟨?_, rfl⟩) (fun hx => ?_) (fun f hf => by rw [hf])
      · cases hx with
        | last h => exact h
        | skip _ hv _ => exact .fixed hv
      · constructor
        · cases hl : m.isList with
          | false => rfl
          | true => exact absurd ⟨m, by simp, .inl hl⟩ hx
        · exact fun hy => hx ⟨m, by simp, .inr hy⟩
    | ok r =>
      obtain ⟨o, pos1⟩ := r
      simp only at h1 ⊢
      obtain ⟨v, ids, h2, h3, h4⟩ := h1
      rw [h2]
      simp only
      have h5 := memMembers_agrees h (st := st) (ms := ms) (fun m hm => hrd m (by simp [hm]))
        (fun m hm => hun m (by simp [hm])) pos1 h1' (h4.fresh hfr)
      unfold Agrees at h5
      generalize hy : memMembers p A rd un b ms pos1 h1' = y at h5
      obtain ⟨h2', r⟩ := y
      cases r with
      | error e =>
        simp only at h5 ⊢
        by_cases hms : ms = []
        · subst hms; cases hy
        refine Fails.after h4 h5 (fun hx => ?_) (fun hx => ?_) (fun f hf => by rw [hf])
        · cases hx with
          | last h => exact absurd rfl hms
          | skip hl hv ht =>
            refine ⟨ht, ?_⟩
            simp only [OwnMember, hl, Bool.false_eq_true, if_false] at h3
            exact h3.fixed h hv
        · exact fun ⟨m', hm', hy⟩ => hx ⟨m', by simp [hm'], hy⟩
      | ok r =>
        obtain ⟨os, pos2⟩ := r
        simp only at h5 ⊢
        obtain ⟨vs, ids', h6, h7, h8⟩ := h5
        rw [h6]
        exact ⟨_, _, rfl, (h3.mono fun id hi => h8.old (h4.range id hi).2).cons h7, h4.trans h8⟩

theorem memBody_agrees (h : Usable p) (hs : Supported p) {A : Allocator} {b : Buf}
    {rd : String → Nat → Heap → Got Obj}
    {un : String → Obj → Heap → Except Fail Heap} {rd' : RAtom → Nat → Except Fail (Val × Nat)}
    {s : Struct} (hb : s ∈ bodies p)
    (hrd : ∀ m ∈ s.members, ∀ pos h, h.Fresh → Agrees (Tidy p m.vartype) (¬ HasList p m.vartype) A b.length
      (fun h o v ids => Own p h m.vartype o v ids) h (rd m.vartype pos h) (rd' (atom p m.vartype) pos))
    (hun : ∀ m ∈ s.members, ∀ {h o v ids}, Own p h m.vartype o v ids → ids.Nodup →
      un m.vartype o h = .ok (h.without ids))
    (pos : Nat) (hp : Heap) (hfr : hp.Fresh) :
    Agrees (TidyBody p s.members) (¬ HasListBody p s.members) A b.length
      (fun h o v ids => ∃ fs vs, o = .record fs ∧ v = .record vs ∧ OwnFields p h s.members fs vs ids) hp
      (memBody p A rd un b s pos hp) (runFun (readSem p) rd' b pos (fromBytes p s)) := by
  rw [runFun_eq (funFor h hs hb)]
  have h1 := memMembers_agrees h (st := s) hrd hun pos hp hfr
  unfold Agrees at h1 ⊢
  unfold memBody
  rw [show (fromBytes p s).body = s.members.map (deserializer p s) from rfl]
  generalize hx : memMembers p A rd un b s.members pos hp = x at h1
  obtain ⟨h1', r⟩ := x
  cases r with
  | error e => exact Fails.after (.refl hp) h1 (fun hx => ⟨hx, rfl⟩) (fun hx => hx) (fun f hf => by rw [hf])
  | ok r =>
    obtain ⟨os, pos1⟩ := r
    simp only at h1 ⊢
    obtain ⟨vs, ids, h2, h3, h4⟩ := h1
    rw [h2]
    exact ⟨_, _, rfl, ⟨_, _, rfl, rfl, h3⟩, h4⟩

/-- The reading functions by struct name. -/
def fns (p : Protocol) (s : String) : Option RFun := (p.struct? s).map (fromBytes p)

theorem tidy_body (h : Usable p) {s : Struct} (hm : s ∈ p.structs) (hv : Varying p s.name)
    (ht : Tidy p s.name) : TidyBody p s.members := by
  generalize e : s.name = t at ht hv
  cases ht with
  | fixed hn => exact absurd hv hn
  | text => exact absurd e.symm (text_ne_struct h hm)
  | struct hs hb => cases mem_structs_unique h hm hs e; exact hb

theorem memValue_agrees (h : Usable p) (hs : Supported p) (A : Allocator) (b : Buf) :
    ∀ d fuel, d < fuel → ∀ {t}, fits p d t → KnownType p t → ∀ pos hp, hp.Fresh →
    Agrees (Tidy p t) (¬ HasList p t) A b.length (fun h o v ids => Own p h t o v ids) hp
      (memValue p A b fuel t pos hp) (readAtom (readSem p) (fns p) b fuel (atom p t) pos)
  | d, fuel + 1, hd, t, hf, hk, pos, hp, hfr => by
    unfold memValue atom
    cases h.kind hk with
    | num n e ne num =>
      rw [num]
      exact memPlain_agrees hk (e ▸ varying_num h n) _ hp
    | text e num =>
      rw [num]
      simp only
      rw [if_pos e, if_pos e]
      subst e
      exact memString_agrees _ _ A b pos hp
    | enum e mem name ne num enum =>
      rw [num]
      simp only
      rw [if_neg ne, if_neg ne, enum]
      exact memPlain_agrees hk (name ▸ varying_enum h mem) _ hp
    | struct s mem name ne num enum struct =>
      rw [num]
      simp only
      rw [if_neg ne, if_neg ne, enum, struct]
      simp only
      subst name
      by_cases hv : VaryingBody p s.members
      · rw [if_neg (by rw [simple_iff h (mem_bodies_struct mem)]; exact not_not.2 hv),
          if_neg (by rw [simple_iff h (mem_bodies_struct mem)]; exact not_not.2 hv)]
        match d, hd, hf with
        | 0, _, hf =>
          have hf : p.struct? s.name = none := hf
          rw [struct] at hf
          cases hf
        | d + 1, hd, hf =>
          have h1 := memBody_agrees h hs (b := b) (A := A) (mem_bodies_struct mem)
            (rd := memValue p A b fuel) (un := undo p fuel) (rd' := readAtom (readSem p) (fns p) b fuel)
            (fun m hm => memValue_agrees h hs A b d fuel (by omega) (hf _ struct m hm)
              (h.known_of_struct mem hm))
            (fun m hm => undo_own h hs (d := d) (by omega) (hf _ struct m hm) (h.known_of_struct mem hm))
            pos hp hfr
          simp only [readAtom]
          rw [show fns p s.name = some (fromBytes p s) by simp [fns, struct]]
          simp only
          unfold Agrees at h1 ⊢
          generalize hx : memBody p A (memValue p A b fuel) (undo p fuel) b s pos hp = x at h1
          obtain ⟨h1', r⟩ := x
          cases r with
          | error e =>
            refine Fails.after (.refl hp) h1
              (fun hx => ⟨tidy_body h mem ((varying_struct h mem).2 hv) hx, rfl⟩) (fun hx => ?_) (fun f hf => hf)
            rintro ⟨m, hm, hy | hy⟩
            · exact hx (.list mem hm hy)
            · exact hx (.inside mem hm hy)
          | ok r =>
            obtain ⟨o, pos1⟩ := r
            obtain ⟨v, ids, h2, ⟨fs, vs, h5, h6, h3⟩, h4⟩ := h1
            subst h5 h6
            exact ⟨_, _, h2, .struct mem h3, h4⟩
      · rw [if_pos ((simple_iff h (mem_bodies_struct mem)).2 hv),
          if_pos ((simple_iff h (mem_bodies_struct mem)).2 hv)]
        simp only [readAtom]
        rw [show (readSem p).whole s.name b pos = readFixed p s b pos by simp [readSem, struct]]
        exact memPlain_agrees hk (fun hx => hv ((varying_struct h mem).1 hx)) _ hp

/-- What a message in memory owns. -/
def OwnMsg (p : Protocol) (s : Struct) (h : Heap) (o : Obj) (v : Val) (ids : List Nat) : Prop :=
  if p.simpleStruct s then o = .plain v ∧ ids = []
  else ∃ fs vs, o = .record fs ∧ v = .record vs ∧ OwnFields p h s.members fs vs ids

theorem memRead_agrees (h : Usable p) (hs : Supported p) {s : Struct} (hm : s ∈ p.messages)
    (A : Allocator) (b : Buf) (pos : Nat) (hp : Heap) (hfr : hp.Fresh) :
    Agrees (TidyBody p s.members) (¬ HasListBody p s.members) A b.length (OwnMsg p s) hp
      (memRead p A s.name b pos hp) (read p s.name b pos) := by
  rw [read_eq h hs hm, memRead, message?_of_mem h.messagesDistinct hm]
  simp only [readOk_message h hs hm, Bool.not_true, Bool.false_eq_true, if_false]
  by_cases hv : p.simpleStruct s = true
  · rw [if_pos hv, if_pos hv]
    unfold Agrees memPlain
    cases readFixed p s b pos with
    | error e => exact .here rfl
    | ok x => exact ⟨_, _, rfl, by simp [OwnMsg, hv], .refl hp⟩
  · rw [if_neg hv, if_neg hv]
    have h1 := memBody_agrees h hs (b := b) (A := A) (mem_bodies_message hm)
      (rd := memValue p A b (depth p)) (un := undo p (depth p))
      (rd' := readAtom (readSem p) (fns p) b (depth p))
      (fun m hm' => memValue_agrees h hs A b p.structs.length (depth p) (by simp [depth]) (h.fits _)
        (h.known (mem_bodies_message hm) hm'))
      (fun m hm' => undo_own h hs (d := p.structs.length) (by simp [depth]) (h.fits _)
        (h.known (mem_bodies_message hm) hm'))
      pos hp hfr
    rw [readMessage, message?_of_mem h.messagesDistinct hm]
    have e : OwnMsg p s = fun h o v ids => ∃ fs vs, o = .record fs ∧ v = .record vs ∧
        OwnFields p h s.members fs vs ids := by
      funext h o v ids
      simp only [OwnMsg, if_neg hv]
    rw [e]
    exact h1

end Beschi.Lang.Zig
