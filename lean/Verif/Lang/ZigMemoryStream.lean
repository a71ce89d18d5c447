import Verif.Lang.ZigMemoryProof
/-
Helper lemmas about messages in memory (Zig): what memory holds, default messages, lists of messages.
-/
namespace Beschi.Lang.Zig
open Spec

variable {p : Protocol}

/-! ### What memory holds -/

mutual
theorem Own.holds {h : Heap} : ∀ {t o v ids}, Own p h t o v ids → Holds h o v
  | _, _, _, _, .plain _ _ => .plain
  | _, _, _, _, .empty => .text (bs := []) (fun hx => absurd rfl hx)
  | _, _, _, _, .text _ hb => .text fun _ => ⟨_, rfl, hb⟩
  | _, _, _, _, .struct _ hf => .record (OwnFields.holds hf)
theorem OwnAll.holds {h : Heap} : ∀ {t os vs ids}, OwnAll p h t os vs ids → HoldsAll h os vs
  | _, _, _, _, .nil => .nil
  | _, _, _, _, .cons ho hr => .cons (Own.holds ho) (OwnAll.holds hr)
theorem OwnSlice.holds {h : Heap} : ∀ {t o vs ids}, OwnSlice p h t o vs ids → Holds h o (.list vs)
  | _, _, _, _, .empty => .list (os := []) (fun hx => absurd rfl hx) .nil
  | _, _, _, _, .full _ hb ho => .list (fun _ => ⟨_, rfl, hb⟩) (OwnAll.holds ho)
theorem OwnFields.holds {h : Heap} : ∀ {ms fs vs ids}, OwnFields p h ms fs vs ids → HoldsFields h fs vs
  | _, _, _, _, .nil => .nil
  | _, _, _, _, .one _ ho hr => .cons (Own.holds ho) (OwnFields.holds hr)
  | _, _, _, _, .list _ ho hr => .cons (OwnSlice.holds ho) (OwnFields.holds hr)
end

theorem OwnMsg.holds {s : Struct} {h : Heap} {o : Obj} {v : Val} {ids : List Nat}
    (ho : OwnMsg p s h o v ids) : Holds h o v := by
  unfold OwnMsg at ho
  split at ho
  · rw [ho.1]; exact .plain
  · obtain ⟨fs, vs, rfl, rfl, hf⟩ := ho
    exact .record hf.holds

theorem OwnMsg.mono {s : Struct} {h h' : Heap} {o : Obj} {v : Val} {ids : List Nat}
    (ho : OwnMsg p s h o v ids) (hs : ∀ id ∈ ids, h'.blocks id = h.blocks id) : OwnMsg p s h' o v ids := by
  unfold OwnMsg at ho ⊢
  split
  · rename_i hv; rwa [if_pos hv] at ho
  · rename_i hv
    rw [if_neg hv] at ho
    obtain ⟨fs, vs, rfl, rfl, hf⟩ := ho
    exact ⟨_, _, rfl, rfl, hf.mono hs⟩

/-! ### Default messages -/

mutual
theorem default_own (h : Usable p) : ∀ {t v}, IsDefault p t v → ∀ {d fuel : Nat} {m : Variable},
    m.vartype = t → m.isList = false → fits p d t → d ≤ fuel →
    ∃ o, memDefault p (fuel + 1) m = .ok o ∧ ∀ hp, Own p hp t o v []
  | _, _, .num (n := n), _, _, m, ht, hl, _, _ => by
    refine ⟨.plain (zeroOf n), ?_, fun hp => .plain (.inl (name_builtin n)) (varying_num h n)⟩
    simp only [memDefault, hl, Bool.false_eq_true, if_false, ht, ofName?_name]
  | _, _, .text, _, _, m, ht, hl, _, _ => by
    refine ⟨.slice 0 none, ?_, fun hp => .empty⟩
    simp only [memDefault, hl, Bool.false_eq_true, if_false, ht]
    rfl
  | _, _, .enum (e := e) (x := x) (i := i) he hx, _, _, m, ht, hl, _, _ => by
    have hk : KnownType p e.name := .inr (.inr (.inr (List.mem_map_of_mem he)))
    refine ⟨.plain (.int i), ?_, fun hp => .plain hk (varying_enum h he)⟩
    cases h.kind hk with
    | num n e' => exact absurd e'.symm (num_ne_enum h he)
    | text e' => exact absurd e'.symm (text_ne_enum h he)
    | enum e' mem name ne num enum =>
      cases mem_enums_unique h he mem name.symm
      simp only [memDefault, hl, Bool.false_eq_true, if_false, ht, num, ne, enum, hx]
    | struct s mem name => exact absurd name.symm (enum_ne_struct h he mem)
  | _, _, .struct (s := s) hs hf, 0, _, m, ht, hl, hfit, _ => by
    have := struct?_of_mem h.structsDistinct hs
    rw [show p.struct? s.name = none from hfit] at this
    cases this
  | _, _, .struct (s := s) hs hf, d + 1, 0, m, ht, hl, hfit, hle => by omega
  | _, _, .struct (s := s) hs hf, d + 1, fuel + 1, m, ht, hl, hfit, hle => by
    have hst := struct?_of_mem h.structsDistinct hs
    obtain ⟨os, h1, h2⟩ := defaults_own h hf (fun m hm => hfit s hst m hm) (by omega : d ≤ fuel)
    refine ⟨_, ?_, fun hp => .struct hs (h2 hp)⟩
    cases h.kind (.inr (.inr (.inl (List.mem_map_of_mem hs))) : KnownType p s.name) with
    | num n e' => exact absurd e'.symm (num_ne_struct h hs)
    | text e' => exact absurd e'.symm (text_ne_struct h hs)
    | enum e' mem name => exact absurd name (enum_ne_struct h mem hs)
    | struct s' mem name ne num enum struct =>
      rw [memDefault]
      simp only [hl, Bool.false_eq_true, if_false, ht, num, ne, enum, hst, h1]
theorem defaults_own (h : Usable p) : ∀ {ms fs}, IsDefaultFields p ms fs → ∀ {d fuel : Nat},
    (∀ m ∈ ms, fits p d m.vartype) → d ≤ fuel →
    ∃ os, ms.mapM (fun m => memDefault p (fuel + 1) m) = .ok os ∧
      ∀ hp, OwnFields p hp ms ((ms.map (·.name)).zip os) fs []
  | _, _, .nil, _, _, _, _ => ⟨[], rfl, fun _ => .nil⟩
  | _, _, .one (m := m) hl hv hr, d, fuel, hf, hle => by
    obtain ⟨o, h1, h2⟩ := default_own h hv rfl hl (hf m (by simp)) hle
    obtain ⟨os, h3, h4⟩ := defaults_own h hr (fun m hm => hf m (by simp [hm])) hle
    refine ⟨o :: os, ?_, fun hp => .one hl (h2 hp) (h4 hp)⟩
    simp only [List.mapM_cons, h1, bind, Except.bind, h3, pure, Except.pure]
  | _, _, .list (m := m) hl hr, d, fuel, hf, hle => by
    obtain ⟨os, h3, h4⟩ := defaults_own h hr (fun m hm => hf m (by simp [hm])) hle
    refine ⟨.slice 0 none :: os, ?_, fun hp => .list hl .empty (h4 hp)⟩
    have h1 : memDefault p (fuel + 1) m = .ok (.slice 0 none) := by simp [memDefault, hl]
    simp only [List.mapM_cons, h1, bind, Except.bind, h3, pure, Except.pure]
end

theorem memCreate_own (h : Usable p) {s : Struct} (hm : s ∈ p.messages) {vs : List (String × Val)}
    (hv : IsDefaultFields p s.members vs) :
    ∃ fs, memCreate p s.name = .ok (.record fs) ∧ ∀ hp, OwnFields p hp s.members fs vs [] := by
  obtain ⟨os, h1, h2⟩ := defaults_own h hv (d := p.structs.length) (fuel := p.structs.length + 1)
    (fun m _ => h.fits _) (by omega)
  refine ⟨_, ?_, h2⟩
  have h1 : s.members.mapM (fun m => memDefault p (depth p) m) = .ok os := h1
  rw [memCreate, message?_of_mem h.messagesDistinct hm]
  simp only
  rw [h1]

/-! ### Lists of messages -/

/-- What messages in memory own. -/
inductive OwnMsgs (p : Protocol) (h : Heap) : List (String × Obj) → List (String × Val) → List Nat → Prop
  | nil : OwnMsgs p h [] [] []
  | cons {s : Struct} {o v a is ms b} : s ∈ p.messages → OwnMsg p s h o v a → OwnMsgs p h is ms b →
      OwnMsgs p h ((s.name, o) :: is) ((s.name, v) :: ms) (a ++ b)

theorem OwnMsgs.mono {h h' : Heap} : ∀ {is ms ids}, OwnMsgs p h is ms ids →
    (∀ id ∈ ids, h'.blocks id = h.blocks id) → OwnMsgs p h' is ms ids
  | _, _, _, .nil, _ => .nil
  | _, _, _, .cons hm ho hr, hs => .cons hm (ho.mono fun id hi => hs id (by simp [hi]))
      (hr.mono fun id hi => hs id (by simp [hi]))

theorem OwnMsgs.append {h : Heap} : ∀ {is ms ids is' ms' ids'}, OwnMsgs p h is ms ids →
    OwnMsgs p h is' ms' ids' → OwnMsgs p h (is ++ is') (ms ++ ms') (ids ++ ids')
  | _, _, _, _, _, _, .nil, hr => hr
  | _, _, _, _, _, _, .cons hm ho hr, hr' => by
    have := OwnMsgs.cons hm ho (hr.append hr')
    simpa using this

theorem OwnMsgs.length {h : Heap} : ∀ {is ms ids}, OwnMsgs p h is ms ids → is.length = ms.length
  | _, _, _, .nil => rfl
  | _, _, _, .cons _ _ hr => by simp [hr.length]

theorem OwnMsgs.holds {h : Heap} : ∀ {is ms ids}, OwnMsgs p h is ms ids → HoldsMessages h is ms
  | _, _, _, .nil => .nil
  | _, _, _, .cons _ ho hr => .cons ho.holds hr.holds

theorem OwnMsgs.fixed (h : Usable p) (hall : ∀ s ∈ p.messages, ¬ VaryingBody p s.members) {hp : Heap} :
    ∀ {is ms ids}, OwnMsgs p hp is ms ids → ids = []
  | _, _, _, .nil => rfl
  | _, _, _, .cons hm ho hr => by
    rw [OwnMsg, if_pos ((simple_iff h (mem_bodies_message hm)).2 (hall _ hm))] at ho
    rw [ho.2, hr.fixed h hall]
    rfl

theorem releaseContents_own (h : Usable p) (hs : Supported p) : ∀ {is ms ids}, ∀ (hp : Heap),
    OwnMsgs p hp is ms ids → ids.Nodup → releaseContents p is hp = .ok (hp.without ids)
  | _, _, _, hp, .nil, _ => by rw [without_nil]; rfl
  | _, _, _, hp, .cons (s := s) (a := a) (b := b) hm ho hr, hn => by
    obtain ⟨hna, hnb, hab⟩ := List.nodup_append.1 hn
    have hnb' : ∀ i ∈ b, i ∉ a := fun i hi hi' => hab i hi' i hi rfl
    simp only [releaseContents, message?_of_mem h.messagesDistinct hm]
    unfold OwnMsg at ho
    by_cases hv : p.simpleStruct s = true
    · rw [if_pos hv] at ho
      rw [if_pos hv, ho.2]
      exact releaseContents_own h hs hp hr hnb
    · rw [if_neg hv] at ho
      rw [if_neg hv]
      obtain ⟨fs, vs, rfl, rfl, hf⟩ := ho
      have hvb : VaryingBody p s.members := by
        rw [simple_iff h (mem_bodies_message hm)] at hv
        exact not_not.1 hv
      rw [deinit_own h hs hm hvb hf hna]
      simp only
      rw [releaseContents_own h hs _ (hr.mono fun i hi => without_other (hnb' i hi)) hnb, without_without]

/-- What a slice of messages owns. -/
inductive OwnList (p : Protocol) (h : Heap) : Obj → List (String × Val) → List Nat → Prop
  | empty : OwnList p h (.slice 0 none) [] []
  | full {is ms a id} : is ≠ [] → h.blocks id = some (.messages is) → OwnMsgs p h is ms a →
      OwnList p h (.slice is.length (some id)) ms (id :: a)

theorem releaseMessages_own (h : Usable p) (hs : Supported p) {hp : Heap} {o : Obj}
    {ms : List (String × Val)} {ids : List Nat} (ho : OwnList p hp o ms ids) (hn : ids.Nodup) :
    releaseMessages p o hp = .ok (hp.without ids) := by
  cases ho with
  | empty => simp [releaseMessages, Heap.messages, releaseContents, freeSlice, free_empty, without_nil]
  | @full is _ a id hne hb ho =>
    rw [List.nodup_cons] at hn
    have : hp.messages (.slice is.length (some id)) = .ok is := by simp [Heap.messages, hb, hne]
    rw [releaseMessages, this]
    simp only
    rw [releaseContents_own h hs hp ho hn.2]
    simp only [freeSlice]
    rw [free_block (by simpa using hne) ((without_other hn.1).trans hb), without_without,
      without_congr hp (b := id :: a) (by simp [or_comm])]

theorem OwnList.messages {h : Heap} {o : Obj} {ms : List (String × Val)} {ids : List Nat}
    (ho : OwnList p h o ms ids) : ∃ is, h.messages o = .ok is ∧ HoldsMessages h is ms := by
  cases ho with
  | empty => exact ⟨[], by simp [Heap.messages], .nil⟩
  | full hne hb ho => exact ⟨_, by simp [Heap.messages, hb, hne], ho.holds⟩

theorem OwnList.length {h : Heap} {o : Obj} {ms : List (String × Val)} {ids : List Nat}
    (ho : OwnList p h o ms ids) : ∃ id, o = .slice ms.length id := by
  cases ho with
  | empty => exact ⟨_, rfl⟩
  | full hne hb ho => exact ⟨_, by rw [ho.length]⟩

/-- The block of a list, if it has one. -/
def MsgList.cell (l : MsgList) : List Nat := if l.room = 0 then [] else l.id.toList

/-- The state of the loop: the list has a block of its own, other blocks have been allocated since the
beginning. -/
structure Held (h0 h : Heap) (l : MsgList) (ids : List Nat) : Prop where
  grown : Grown h0 h (l.cell ++ ids)
  block : l.room ≠ 0 → ∃ id b, l.id = some id ∧ h.blocks id = some b

theorem Held.free {h0 h : Heap} (hf : h0.Fresh) {l : MsgList} {ids : List Nat} (hh : Held h0 h l ids) :
    h.free l.room l.id = .ok (h.without l.cell) ∧ Grown h0 (h.without l.cell) ids := by
  refine ⟨?_, hh.grown.drop hf⟩
  by_cases hr : l.room = 0
  · simp only [MsgList.cell, hr, if_true, without_nil, free_empty]
  · obtain ⟨id, b, h1, h2⟩ := hh.block hr
    rw [MsgList.cell, if_neg hr, h1]
    exact free_block hr h2

theorem Held.resized {h0 h : Heap} (hf : h0.Fresh) {l : MsgList} {ids : List Nat} (hh : Held h0 h l ids)
    (A : Allocator) {n : Nat} (hn : n ≠ 0) (is : List (String × Obj)) :
    match resized A l n is h with
    | .error e => e = .outOfMemory ∧ ∃ i k, A.grants i k = false
    | .ok (id, h') => ∃ i, id = some i ∧ Grown h0 h' (i :: ids) ∧ h'.blocks i = some (.messages is) ∧
        ∀ j ∈ ids, h'.blocks j = h.blocks j := by
  unfold Zig.resized
  by_cases hc : l.room ≠ 0 ∧ A.resizes h.next = true
  · rw [if_pos hc]
    obtain ⟨id, b, h1, h2⟩ := hh.block hc.1
    have hg := hh.grown
    rw [MsgList.cell, if_neg hc.1, h1] at hg
    have hnd := hg.nodup
    simp only [Option.toList_some, List.singleton_append, List.nodup_cons] at hnd
    refine ⟨id, h1, ?_, ?_, ?_⟩
    · rw [h1]
      exact hg.set (by simp) _
    · rw [h1]; exact set_self _ _ _
    · intro j hj
      rw [h1]
      exact set_other _ fun e => hnd.1 (e ▸ hj)
  · rw [if_neg hc]
    cases ha : h.alloc A n (.messages is) with
    | none => exact ⟨rfl, _, _, (alloc_none ha).2⟩
    | some x =>
      obtain ⟨id, h1⟩ := x
      obtain ⟨rfl, hg1, hb1, hnx⟩ := Grown.alloc hn ha
      simp only
      have hnext : ∀ j ∈ l.cell ++ ids, j < h.next := fun j hj => (hh.grown.range j hj).2
      have hold : ∀ j ∈ l.cell ++ ids, h1.blocks j = h.blocks j := fun j hj => hg1.old (hnext j hj)
      have hfree : h1.free l.room l.id = .ok (h1.without l.cell) := by
        by_cases hr : l.room = 0
        · simp only [MsgList.cell, hr, if_true, without_nil, free_empty]
        · obtain ⟨id, b, h3, h4⟩ := hh.block hr
          have := hold id (by simp [MsgList.cell, hr, h3])
          rw [MsgList.cell, if_neg hr, h3]
          exact free_block hr (this.trans h4)
      rw [hfree]
      have hg2 := hh.grown.trans hg1
      have hni : h.next ∉ l.cell := fun hx => absurd (hnext _ (by simp [hx])) (lt_irrefl _)
      refine ⟨h.next, rfl, ?_, (without_other hni).trans hb1, fun j hj => ?_⟩
      · refine Grown.drop (hg2.perm ?_) hf
        rw [List.append_assoc]
        exact List.Perm.append_left _ List.perm_append_comm
      · have hj' : j ∉ l.cell := fun hx => by
          have := (List.nodup_append.1 hh.grown.nodup).2.2 j hx j hj
          exact this rfl
        rw [without_other hj', hold j (by simp [hj])]

theorem Held.abandon {β : Type} {clean small : Prop} {A : Allocator} {N : Nat} {h0 h : Heap} (hf : h0.Fresh)
    {l : MsgList} {ids : List Nat} (hh : Held h0 h l ids) {e : MemFail} {r : Except Fail β}
    (h1 : ∀ f, e = .fail f → r = .error f)
    (h2 : e = .outOfMemory → ∃ i n, A.grants i n = false ∧ (small → n ≤ N))
    (h3 : clean → e.stops = false → ids = []) {x : Got Obj} (hx : x = abandon l e h) :
    ∃ h', x = (h', .error e) ∧ Fails clean small A N h0 h' e r := by
  unfold Zig.abandon at hx
  cases hst : e.stops with
  | true =>
    rw [hst, if_pos rfl] at hx
    exact ⟨h, hx, h1, h2, _, hh.grown, fun _ hx => by rw [hst] at hx; cases hx⟩
  | false =>
    rw [hst, if_neg (by simp), (hh.free hf).1] at hx
    exact ⟨_, hx, h1, h2, _, (hh.free hf).2, fun hc _ => h3 hc hst⟩

/-- The state of the loop: the messages in the list are those read so far. -/
structure Listed (p : Protocol) (h0 h : Heap) (l : MsgList) (ms : List (String × Val)) (ids : List Nat) :
    Prop where
  held : Held h0 h l ids
  items : l.room ≠ 0 → ∃ id, l.id = some id ∧ h.blocks id = some (.messages l.items)
  msgs : OwnMsgs p h l.items ms ids
  fits : l.items.length ≤ l.room

theorem tidy_fixed : ∀ {ms : List Variable}, ¬ VaryingBody p ms → TidyBody p ms
  | [], _ => .nil
  | m :: ms, hv => by
    have h1 : ¬ (m.isList = true ∨ Varying p m.vartype) := fun hx => hv ⟨m, by simp, hx⟩
    rw [not_or, Bool.not_eq_true] at h1
    exact .skip h1.1 h1.2 (tidy_fixed fun ⟨m', hm, hx⟩ => hv ⟨m', by simp [hm], hx⟩)

/-- All messages are of fixed size. -/
def AllFixed (p : Protocol) : Prop := ∀ s ∈ p.messages, ¬ VaryingBody p s.members

theorem finish_agrees (h : Usable p) {A : Allocator} {N : Nat} {h0 hp : Heap} (hf : h0.Fresh) {l : MsgList}
    {ms : List (String × Val)} {ids : List Nat} (hl : Listed p h0 hp l ms ids) (pos : Nat) :
    Agrees (AllFixed p) False A N (OwnList p) h0 (finish A l pos hp) (.ok (ms, pos)) := by
  have hlen := hl.msgs.length
  unfold finish toOwnedSlice
  by_cases hi : l.items.length = 0
  · rw [if_pos hi, (hl.held.free hf).1]
    have hi' : l.items = [] := by simpa using hi
    have hm := hl.msgs
    rw [hi'] at hm
    generalize hc : ([] : List (String × Obj)) = is at hm
    cases hm with
    | nil => exact ⟨_, _, rfl, .empty, (hl.held.free hf).2⟩
    | cons => cases hc
  · rw [if_neg hi]
    have h1 := hl.held.resized hf A hi l.items
    cases hr : resized A l l.items.length l.items hp with
    | error e =>
      rw [hr] at h1
      simp only at h1 ⊢
      obtain ⟨rfl, i, k, hg⟩ := h1
      obtain ⟨h', hx, h2⟩ := hl.held.abandon (clean := AllFixed p) (small := False) (N := N)
        (r := (.ok (ms, pos) : Except Fail _)) hf
        (e := .outOfMemory) (fun f hx => by cases hx) (fun _ => ⟨i, k, hg, False.elim⟩)
        (fun hc _ => hl.msgs.fixed h hc) rfl
      rw [hx]
      exact h2
    | ok x =>
      obtain ⟨id, h'⟩ := x
      rw [hr] at h1
      simp only at h1 ⊢
      obtain ⟨i, rfl, h2, h3, h4⟩ := h1
      exact ⟨_, _, rfl, .full (by simpa using hi) h3 (hl.msgs.mono h4), h2⟩

theorem Listed.later {h0 hp hp' : Heap} {l : MsgList} {acc : List (String × Val)} {ids ids' : List Nat}
    (hl : Listed p h0 hp l acc ids) (hg : Grown hp hp' ids') : Held h0 hp' l (ids ++ ids') := by
  refine ⟨by rw [← List.append_assoc]; exact hl.held.grown.trans hg, fun hr => ?_⟩
  obtain ⟨id, b', h5, h6⟩ := hl.held.block hr
  refine ⟨id, b', h5, (hg.old ?_).trans h6⟩
  exact (hl.held.grown.range id (by simp [MsgList.cell, hr, h5])).2

theorem append_listed (A : Allocator) {h0 : Heap} (hf : h0.Fresh) {hp hp' : Heap} {l : MsgList}
    {acc : List (String × Val)} {ids ids' : List Nat} (hl : Listed p h0 hp l acc ids) {s : Struct}
    (hsm : s ∈ p.messages) {o : Obj} {v : Val} (ho : OwnMsg p s hp' o v ids') (hg : Grown hp hp' ids') :
    match append A l (s.name, o) hp' with
    | .error e => e = .outOfMemory ∧ (∃ i k, A.grants i k = false) ∧ Held h0 hp' l (ids ++ ids') ∧
        OwnMsgs p hp' (l.items ++ [(s.name, o)]) (acc ++ [(s.name, v)]) (ids ++ ids')
    | .ok (l', h') => Listed p h0 h' l' (acc ++ [(s.name, v)]) (ids ++ ids') ∧
        ∀ j ∈ ids ++ ids', h'.blocks j = hp'.blocks j := by
  have hold : ∀ j ∈ l.cell ++ ids, hp'.blocks j = hp.blocks j := fun j hj =>
    hg.old (hl.held.grown.range j hj).2
  have hown : OwnMsgs p hp' (l.items ++ [(s.name, o)]) (acc ++ [(s.name, v)]) (ids ++ ids') := by
    have := OwnMsgs.append (hl.msgs.mono fun j hj => hold j (by simp [hj])) (.cons hsm ho .nil)
    simpa using this
  have hh := hl.later hg
  unfold append
  by_cases hroom : l.items.length < l.room
  · rw [if_pos hroom]
    simp only
    have hr : l.room ≠ 0 := by omega
    obtain ⟨id, h5, h6⟩ := hl.items hr
    rw [h5]
    have hnd := hh.grown.nodup
    rw [MsgList.cell, if_neg hr, h5] at hnd
    simp only [Option.toList_some, List.singleton_append, List.nodup_cons] at hnd
    have hset : ∀ j ∈ ids ++ ids', (hp'.set id (some (.messages (l.items ++ [(s.name, o)])))).blocks j =
        hp'.blocks j := fun j hj => set_other _ fun e => hnd.1 (e ▸ hj)
    refine ⟨⟨⟨?_, fun _ => ⟨id, _, rfl, set_self _ _ _⟩⟩, fun _ => ⟨id, rfl, set_self _ _ _⟩, ?_, ?_⟩, hset⟩
    · have := hh.grown
      rw [MsgList.cell, if_neg hr, h5] at this
      rw [MsgList.cell, if_neg hr]
      exact this.set (by simp) _
    · exact hown.mono hset
    · simp; omega
  · rw [if_neg hroom]
    have h5 := hh.resized hf A (n := moreRoom l.room) (by simp [moreRoom]) (l.items ++ [(s.name, o)])
    cases hrz : resized A l (moreRoom l.room) (l.items ++ [(s.name, o)]) hp' with
    | error e =>
      rw [hrz] at h5
      exact ⟨h5.1, h5.2, hh, hown⟩
    | ok x =>
      obtain ⟨id, h'⟩ := x
      rw [hrz] at h5
      simp only at h5 ⊢
      obtain ⟨i, rfl, h6, h7, h8⟩ := h5
      refine ⟨⟨⟨?_, fun _ => ⟨i, _, rfl, h7⟩⟩, fun _ => ⟨i, rfl, h7⟩, hown.mono h8, ?_⟩, h8⟩
      · simpa [MsgList.cell, moreRoom] using h6
      · have := hl.fits
        simp [moreRoom]
        omega

theorem memLoop_agrees (h : Usable p) (hs : Supported p) (A : Allocator) (N : Nat) (b : Buf) (max : Int)
    {h0 : Heap} (hf : h0.Fresh) : ∀ fuel {l ms ids} pos hp, Listed p h0 hp l ms ids →
    Agrees (AllFixed p) False A N (OwnList p) h0 (memLoop p A b max fuel l pos hp)
      (processLoop (fun pos => decide (b.length ≤ pos))
        (taggedStep (takeTag .eof b) (dispatch p) (fun m pos => read p m b pos) .invalid) max fuel ms pos)
  | 0, l, ms, ids, pos, hp, hl => by
    obtain ⟨h', hx, h2⟩ := hl.held.abandon (clean := AllFixed p) (small := False) (N := N) (A := A)
      (r := (.error .fuel : Except Fail (List (String × Val) × Nat))) hf (e := .fail .fuel)
      (fun f hx => by cases hx; rfl) (fun hx => by cases hx) (fun hc _ => hl.msgs.fixed h hc) rfl
    rw [memLoop, hx]
    exact h2
  | fuel + 1, l, ms, ids, pos, hp, hl => by
    have hlen := hl.msgs.length
    unfold memLoop processLoop
    by_cases hc : pos < b.length ∧ (max < 0 ∨ (l.items.length : Int) < max)
    · rw [if_pos hc, if_pos (by
        rw [← hlen]
        simp only [Bool.and_eq_true, Bool.not_eq_true', decide_eq_false_iff_not, not_le, Bool.or_eq_true,
          decide_eq_true_eq]
        exact hc)]
      unfold taggedStep
      have hab : ∀ {e : Fail} {r : Except Fail (List (String × Val) × Nat)}, r = .error e →
          Agrees (AllFixed p) False A N (OwnList p) h0 (abandon l (.fail e) hp) r := fun {e r} hr => by
        obtain ⟨h', hx, h2⟩ := hl.held.abandon (clean := AllFixed p) (small := False) (N := N) (A := A)
          (r := r) hf (e := .fail e) (fun f hx => by cases hx; exact hr) (fun hx => by cases hx)
          (fun hc _ => hl.msgs.fixed h hc) rfl
        rw [hx]
        exact h2
      cases ht : takeTag .eof b pos with
      | error e => exact hab rfl
      | ok r =>
        obtain ⟨t, pos1⟩ := r
        simp only
        by_cases h0t : t = 0
        · simp only [if_pos h0t]
          exact finish_agrees h hf hl pos1
        · simp only [if_neg h0t]
          cases hd : dispatch p t with
          | none => exact hab rfl
          | some m =>
            simp only
            obtain ⟨s, hsm, rfl⟩ : ∃ s ∈ p.messages, s.name = m := by
              have := dispatch_known hd
              simpa [messageNames] using this
            have ha := memRead_agrees h hs hsm A b pos1 hp (hl.held.grown.fresh hf)
            unfold Agrees at ha
            generalize hx : memRead p A s.name b pos1 hp = x at ha
            obtain ⟨hp', r⟩ := x
            cases r with
            | error e =>
              simp only at ha ⊢
              obtain ⟨h1, h2, kept, h3, h4⟩ := ha
              have hh := hl.later h3
              obtain ⟨h', hx, h5⟩ := hh.abandon (clean := AllFixed p) (small := False) (N := N) (A := A)
                (r := processLoop (fun pos => decide (b.length ≤ pos))
                  (taggedStep (takeTag .eof b) (dispatch p) (fun m pos => read p m b pos) .invalid) max
                    (fuel + 1) ms pos) hf (e := e)
                (fun f hx => by
                  rw [processLoop, if_pos (by
                    rw [← hlen]
                    simp only [Bool.and_eq_true, Bool.not_eq_true', decide_eq_false_iff_not, not_le,
                      Bool.or_eq_true, decide_eq_true_eq]
                    exact hc)]
                  simp only [taggedStep, ht, if_neg h0t, hd, h1 f hx])
                (fun hx => by
                  obtain ⟨i, n, h5, _⟩ := h2 hx
                  exact ⟨i, n, h5, False.elim⟩)
                (fun hc hst => by
                  rw [hl.msgs.fixed h hc, h4 ?_ hst]
                  · rfl
                  · exact tidy_fixed (hc s hsm)) rfl
              rw [hx]
              refine Fails.after (.refl h0) h5 (fun hx => ⟨hx, rfl⟩) (fun hx => hx) (fun f hf => ?_)
              rw [processLoop, if_pos (by
                    rw [← hlen]
                    simp only [Bool.and_eq_true, Bool.not_eq_true', decide_eq_false_iff_not, not_le,
                      Bool.or_eq_true, decide_eq_true_eq]
                    exact hc)] at hf
              simp only [taggedStep, ht, if_neg h0t, hd] at hf
              exact hf
            | ok r =>
              obtain ⟨o, pos2⟩ := r
              simp only at ha ⊢
              obtain ⟨v, ids', h1, h2, h3⟩ := ha
              rw [h1]
              simp only
              have ha := append_listed A hf hl hsm h2 h3
              cases happ : append A l (s.name, o) hp' with
              | error e =>
                rw [happ] at ha
                simp only at ha ⊢
                obtain ⟨rfl, ⟨i, k, hgr⟩, hh, hown⟩ := ha
                obtain ⟨h', hx, h6⟩ := hh.abandon (clean := AllFixed p) (small := False) (N := N)
                  (r := processLoop (fun pos => decide (b.length ≤ pos))
                    (taggedStep (takeTag .eof b) (dispatch p) (fun m pos => read p m b pos) .invalid) max
                      fuel (ms ++ [(s.name, v)]) pos2) hf
                  (e := .outOfMemory) (fun f hx => by cases hx) (fun _ => ⟨i, k, hgr, False.elim⟩)
                  (fun hc _ => hown.fixed h hc) rfl
                rw [hx]
                exact h6
              | ok x =>
                obtain ⟨l', h'⟩ := x
                rw [happ] at ha
                simp only at ha ⊢
                exact memLoop_agrees h hs A N b max hf fuel pos2 _ ha.1
    · rw [if_neg hc, if_neg (by
        rw [← hlen]
        simp only [Bool.and_eq_true, Bool.not_eq_true', decide_eq_false_iff_not, not_le, Bool.or_eq_true,
          decide_eq_true_eq]
        exact hc)]
      exact finish_agrees h hf hl pos

theorem memProcess_agrees (h : Usable p) (hs : Supported p) (A : Allocator) (b : Buf) (max : Int)
    {hp : Heap} (hf : hp.Fresh) :
    Agrees (AllFixed p) False A b.length (OwnList p) hp (memProcess p A b max hp) (process p b 0 max) := by
  have hl : Listed p hp hp {} [] [] :=
    ⟨⟨.refl hp, fun hx => absurd rfl hx⟩, fun hx => absurd rfl hx, .nil, Nat.le_refl _⟩
  have hall : (p.messages.all fun st => readOk p (depth p) st.members (p.simpleStruct st)) = true := by
    rw [List.all_eq_true]
    exact fun s hm => readOk_message h hs hm
  have hpr : process p b 0 max = processData p b 0 max := by
    rw [process, rebased, List.drop_zero]
    cases processData p b 0 max with
    | error e => rfl
    | ok r => simp
  rw [hpr, processData_eq h hs, memProcess, if_pos hall, processBytes]
  by_cases hm : max = 0
  · rw [if_pos hm, if_pos hm]
    exact finish_agrees h hf hl 0
  · rw [if_neg hm, if_neg hm]
    exact memLoop_agrees h hs A b.length b max hf _ 0 hp hl

/-- `unpackMessages` has the same outcome as the function without memory, unless memory runs out. -/
theorem memUnpack_agrees (h : Usable p) (hs : Supported p) (A : Allocator) (b : Buf) {hp : Heap}
    (hf : hp.Fresh) : match memUnpack p A b hp with
    | (h', .ok o) => ∃ ms ids, (core p).unpack b 0 = .ok ms ∧ OwnList p h' o ms ids ∧ Grown hp h' ids
    | (h', .error e) => Fails (AllFixed p) False A b.length hp h' e ((core p).unpack b 0) := by
  simp only [core]
  unfold memUnpack unpackWith
  cases takeN .crash 4 b 0 with
  | error e => exact .here rfl
  | ok r =>
    obtain ⟨w, pos⟩ := r
    simp only
    by_cases hw : w = bsci
    · simp only [ne_eq, hw, not_true_eq_false, if_false]
      cases takeNum .eof .uint32 b pos with
      | error e => exact .here rfl
      | ok r =>
        obtain ⟨v, pos⟩ := r
        cases v with
        | int n =>
          simp only
          by_cases hn : n = 0
          · simp only [if_pos hn]
            exact ⟨_, _, rfl, .empty, .refl hp⟩
          · simp only [if_neg hn]
            cases limit n with
            | error e => exact .here rfl
            | ok k =>
              simp only [counted]
              have hre : process p b pos k = match process p (b.drop pos) 0 k with
                  | .ok (v, q) => .ok (v, pos + q)
                  | .error e => .error e := by
                simp only [process, rebased, List.drop_zero]
                cases processData p (b.drop pos) 0 k with
                | error e => rfl
                | ok r => simp
              rw [hre]
              have ha := memProcess_agrees h hs A (b.drop pos) k hf
              unfold Agrees at ha
              generalize memProcess p A (b.drop pos) k hp = x at ha ⊢
              obtain ⟨hp', r⟩ := x
              cases r with
              | error e =>
                simp only at ha ⊢
                exact .after (.refl hp) ⟨ha.same, fun hx => by
                    obtain ⟨i, n, h1, _⟩ := ha.memory hx
                    exact ⟨i, n, h1, False.elim⟩, ha.kept⟩ (fun hx => ⟨hx, rfl⟩) id
                  (fun f hx => by rw [hx])
              | ok r =>
                obtain ⟨o, q⟩ := r
                simp only at ha ⊢
                obtain ⟨ms, ids, h1, h2, h3⟩ := ha
                rw [h1]
                simp only
                obtain ⟨id, rfl⟩ := h2.length
                simp only [checkCount]
                by_cases hc : ms.length = 0 ∨ (ms.length : Int) ≠ n
                · rw [if_pos hc]
                  have hres : (if ms.length = 0 then (.error .invalid : Except Fail (List (String × Val)))
                      else if (ms.length : Int) ≠ n then .error .invalid else .ok ms) = .error .invalid := by
                    by_cases h0 : ms.length = 0
                    · rw [if_pos h0]
                    · rw [if_neg h0, if_pos (hc.resolve_left h0)]
                  rw [hres]
                  generalize ho : Obj.slice ms.length id = o at h2
                  cases h2 with
                  | empty =>
                    cases ho
                    rw [List.length_nil, free_empty]
                    exact ⟨fun f hx => (by cases hx; rfl), fun hx => (by cases hx), _, h3, fun _ _ => rfl⟩
                  | @full is _ a id' hne hb ho' =>
                    have hl := ho'.length
                    injection ho with _ hid
                    subst hid
                    rw [free_block (by rw [← hl]; simpa using hne) hb]
                    refine ⟨fun f hx => (by cases hx; rfl), fun hx => (by cases hx), a,
                      Grown.drop (a := [id']) h3 hf, fun hx _ => ho'.fixed h hx⟩
                · rw [if_neg hc]
                  rw [not_or, not_not] at hc
                  rw [if_neg hc.1, if_neg (not_not.2 hc.2)]
                  exact ⟨ms, ids, rfl, h2, h3⟩
        | bool _ => exact .here rfl
        | bits _ => exact .here rfl
        | str _ => exact .here rfl
        | list _ => exact .here rfl
        | record _ => exact .here rfl
    · simp only [ne_eq, hw, not_false_eq_true, if_true]
      exact .here rfl

end Beschi.Lang.Zig
