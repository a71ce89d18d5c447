import Verif.Lang.ZigMemoryStream
/-
Helper lemmas about memory that is lost (Zig): what has been read stays where it is when the rest cannot be
read.
-/
namespace Beschi.Lang.Zig
open Spec

variable {p : Protocol}

/-- The atoms that are read in Zig. -/
abbrev short (p : Protocol) : Atoms := written.restrict (Short p)

/-- A block that was not there before. -/
def New (h h' : Heap) : Prop := ∃ id, h.next ≤ id ∧ id < h'.next ∧ h'.blocks id ≠ none

theorem New.later {h h1 h2 : Heap} {ids : List Nat} (hn : New h h1) (hg : Grown h1 h2 ids) : New h h2 := by
  obtain ⟨id, h1, h2, h3⟩ := hn
  exact ⟨id, h1, Nat.lt_of_lt_of_le h2 hg.next, by rw [hg.old h2]; exact h3⟩

theorem New.before {h h1 h2 : Heap} {ids : List Nat} (hg : Grown h h1 ids) (hn : New h1 h2) : New h h2 := by
  obtain ⟨id, h1, h2, h3⟩ := hn
  exact ⟨id, Nat.le_trans hg.next h1, h2, h3⟩

/-! ### What takes memory -/

theorem encNum_light {n : NumTy} {v : Val} {bs : List UInt8} (he : EncNum n v bs) : ¬ Heavy v := by
  cases he <;> (intro hx; cases hx)

mutual
theorem layout_light (h : Usable p) : ∀ {t v bs}, Layout (short p) p t v bs → ¬ Varying p t → ¬ Heavy v
  | _, _, _, .num he, _ => encNum_light he
  | _, _, _, .text _ _, hv => absurd .text hv
  | _, _, _, .enum _ _ _, _ => fun hx => by cases hx
  | _, _, _, .struct hm hl, hv => fun hx => by
    cases hx with
    | record hi hx => exact layout_lights h hl (fun hy => hv ((varying_struct h hm).2 hy)) hi hx
theorem layout_lights (h : Usable p) : ∀ {ms fs bs}, LayoutFields (short p) p ms fs bs →
    ¬ VaryingBody p ms → ∀ {n v}, (n, v) ∈ fs → ¬ Heavy v
  | _, _, _, .nil, _, _, _, hi => by cases hi
  | _, _, _, .one (m := m) hl h1 h2, hv, _, _, hi => by
    rcases List.mem_cons.1 hi with e | hi
    · cases e
      exact layout_light h h1 fun hx => hv ⟨m, by simp, .inr hx⟩
    · exact layout_lights h h2 (fun ⟨m', hm, hx⟩ => hv ⟨m', by simp [hm], hx⟩) hi
  | _, _, _, .list (m := m) hl _ _ _, hv, _, _, _ => absurd ⟨m, by simp, .inl hl⟩ hv
end

mutual
theorem own_heavy (h : Usable p) {hp : Heap} : ∀ {t o v ids}, Own p hp t o v ids → ∀ {bs},
    Layout (short p) p t v bs → Heavy v → ∃ id ∈ ids, hp.blocks id ≠ none
  | _, _, _, _, .plain _ hv, _, hl, hh => absurd hh (layout_light h hl hv)
  | _, _, _, _, .empty, _, _, hh => by cases hh; contradiction
  | _, _, _, _, .text (id := id) _ hb, _, _, _ => ⟨id, by simp, by rw [hb]; simp⟩
  | _, _, _, _, .struct hm hf, _, hl, hh => by
    obtain ⟨fs, e, hl⟩ := layout_struct h hm hl
    cases e
    cases hh with
    | record hi hh => exact owns_heavy h hf hl hi hh
theorem owns_heavy (h : Usable p) {hp : Heap} : ∀ {ms fs vs ids}, OwnFields p hp ms fs vs ids → ∀ {bs},
    LayoutFields (short p) p ms vs bs → ∀ {n v}, (n, v) ∈ vs → Heavy v → ∃ id ∈ ids, hp.blocks id ≠ none
  | _, _, _, _, .nil, _, _, _, _, hi, _ => by cases hi
  | _, _, _, _, .one _ ho hr, _, .one _ h1 h2, _, _, hi, hh => by
    rcases List.mem_cons.1 hi with e | hi
    · cases e
      obtain ⟨id, hm, hx⟩ := own_heavy h ho h1 hh
      exact ⟨id, by simp [hm], hx⟩
    · obtain ⟨id, hm, hx⟩ := owns_heavy h hr h2 hi hh
      exact ⟨id, by simp [hm], hx⟩
  | _, _, _, _, .one hl _ _, _, .list hl' _ _ _, _, _, _, _ => by rw [hl] at hl'; cases hl'
  | _, _, _, _, .list hl _ _, _, .one hl' _ _, _, _, _, _ => by rw [hl] at hl'; cases hl'
  | _, _, _, _, .list _ ho hr, _, .list _ _ _ h2, _, _, hi, hh => by
    rcases List.mem_cons.1 hi with e | hi
    · cases e
      cases ho with
      | empty => cases hh; contradiction
      | @full _ os _ a id hne hb ho => exact ⟨id, by simp, by rw [hb]; simp⟩
    · obtain ⟨id, hm, hx⟩ := owns_heavy h hr h2 hi hh
      exact ⟨id, by simp [hm], hx⟩
end

/-! ### Reading what has been written -/

/-- All requests are granted. -/
def Allocator.Generous (A : Allocator) : Prop := ∀ i n, A.grants i n = true

theorem Agrees.ok {α β : Type} {c s : Prop} {A : Allocator} {N : Nat} {Q : Heap → α → β → List Nat → Prop}
    {h : Heap} {x : Got α} {r : Except Fail (β × Nat)} (ha : Agrees c s A N Q h x r) (hA : A.Generous)
    {v : β} {pos : Nat} (hr : r = .ok (v, pos)) :
    ∃ h' o ids, x = (h', .ok (o, pos)) ∧ Q h' o v ids ∧ Grown h h' ids := by
  unfold Agrees at ha
  obtain ⟨h', y⟩ := x
  cases y with
  | error e =>
    cases e with
    | fail f => have := ha.same f rfl; rw [hr] at this; cases this
    | outOfMemory =>
      obtain ⟨i, n, h1, _⟩ := ha.memory rfl
      rw [hA] at h1
      cases h1
  | ok y =>
    obtain ⟨o, pos'⟩ := y
    obtain ⟨v', ids, h1, h2, h3⟩ := ha
    rw [hr] at h1
    cases h1
    exact ⟨_, _, _, rfl, h2, h3⟩

theorem Agrees.error {α β : Type} {c s : Prop} {A : Allocator} {N : Nat} {Q : Heap → α → β → List Nat → Prop}
    {h : Heap} {x : Got α} {r : Except Fail (β × Nat)} (ha : Agrees c s A N Q h x r) (hA : A.Generous)
    {f : Fail} (hr : r = .error f) : ∃ h' ids, x = (h', .error (.fail f)) ∧ Grown h h' ids := by
  unfold Agrees at ha
  obtain ⟨h', y⟩ := x
  cases y with
  | ok y =>
    obtain ⟨o, pos'⟩ := y
    obtain ⟨v', ids, h1, h2, h3⟩ := ha
    rw [hr] at h1
    cases h1
  | error e =>
    obtain ⟨ids, hg, _⟩ := ha.kept
    cases e with
    | fail f' =>
      have := ha.same f' rfl
      rw [hr] at this
      cases this
      exact ⟨_, _, rfl, hg⟩
    | outOfMemory =>
      obtain ⟨i, n, h1, _⟩ := ha.memory rfl
      rw [hA] at h1
      cases h1

/-- How values of a type are read: as `memValue` does. -/
structure Reads (p : Protocol) (A : Allocator) (b : Buf) (d fuel : Nat) (ms : List Variable) : Prop where
  depth : d < fuel
  fits : ∀ m ∈ ms, fits p d m.vartype
  known : ∀ m ∈ ms, KnownType p m.vartype

theorem Reads.sub {A : Allocator} {b : Buf} {d fuel : Nat} {ms ms' : List Variable}
    (hr : Reads p A b d fuel ms) (hs : ∀ m ∈ ms', m ∈ ms) : Reads p A b d fuel ms' :=
  ⟨hr.depth, fun m hm => hr.fits m (hs m hm), fun m hm => hr.known m (hs m hm)⟩

theorem bodyFor_pre (h : Usable p) (hs : Supported p) {s : Struct} (hb : s ∈ bodies p) {pre post : List Variable}
    (e : s.members = pre ++ post) : BodyFor (readSem p) .eof p [] pre (pre.map (deserializer p s))
      (pre.map fun m => (m.name, .var (s.name ++ "_" ++ m.name))) := by
  refine bodyFor_map (fun m hm => stmtFor h (h.known hb (by rw [e]; simp [hm]))) ?_ (by simp)
  have := hs.names s hb
  rw [List.nodup_iff_pairwise_ne, List.pairwise_map, e, List.pairwise_append] at this
  refine this.1.imp ?_
  intro a b hne hm
  have : (.var (s.name ++ "_" ++ a.name) : Loc) = .var (s.name ++ "_" ++ b.name) := by
    unfold deserializer at hm
    cases hl : b.isList <;> rw [hl] at hm <;> simpa [RStmt.locs] using hm
  simp only [Loc.var.injEq] at this
  exact hne ((String.append_right_inj _).1 this)

theorem prefix_ok (h : Usable p) (hs : Supported p) {A : Allocator} (hA : A.Generous) {b : Buf}
    (hlen : b.length < 2 ^ 63) {d fuel : Nat} {s : Struct} (hb : s ∈ bodies p) {pre post : List Variable}
    (e : s.members = pre ++ post) (hr : Reads p A b d fuel s.members) {fs : List (String × Val)}
    {a : List UInt8} (hl : LayoutFields (short p) p pre fs a) {pos : Nat} (hat : At b pos a) {hp : Heap}
    (hfr : hp.Fresh) : ∃ h' os ids, memMembers p A (memValue p A b fuel) (undo p fuel) b pre pos hp =
      (h', .ok (os, pos + a.length)) ∧ OwnFields p h' pre ((pre.map (·.name)).zip os) fs ids ∧
      Grown hp h' ids := by
  have hin : ∀ m ∈ pre, m ∈ s.members := fun m hm => by rw [e]; simp [hm]
  have h1 := memMembers_agrees h (st := s) (ms := pre) (A := A) (b := b) (rd := memValue p A b fuel)
    (un := undo p fuel) (rd' := readAtom (readSem p) (fns p) b fuel)
    (fun m hm => memValue_agrees h hs A b d fuel hr.depth (hr.fits m (hin m hm)) (hr.known m (hin m hm)))
    (fun m hm => undo_own h hs (d := d) (Nat.le_of_lt hr.depth) (hr.fits m (hin m hm)) (hr.known m (hin m hm)))
    pos hp hfr
  have h2 := LayoutFields.read h (completeness h hs hlen)
    (fn := fns p) (e := .eof)
    (fun s hm => ⟨_, by simp [fns, struct?_of_mem h.structsDistinct hm], funFor h hs (mem_bodies_struct hm)⟩)
    hl (fun m hm => hr.fits m (hin m hm)) hr.depth (bodyFor_pre h hs hb e) hat
  obtain ⟨h', os, ids, h3, h4, h5⟩ := h1.ok hA h2
  refine ⟨h', os, ids, h3, ?_, h5⟩
  rwa [zipNames_fields hl] at h4

theorem memMembers_append {A : Allocator} {rd : String → Nat → Heap → Got Obj}
    {un : String → Obj → Heap → Except Fail Heap} {b : Buf} : ∀ {pre post : List Variable} {pos q : Nat}
    {h h1 : Heap} {os : List Obj}, memMembers p A rd un b pre pos h = (h1, .ok (os, q)) →
    memMembers p A rd un b (pre ++ post) pos h = match memMembers p A rd un b post q h1 with
      | (h2, .error e) => (h2, .error e)
      | (h2, .ok (os', r)) => (h2, .ok (os ++ os', r))
  | [], post, pos, q, h, h1, os, hx => by
    simp only [memMembers, Prod.mk.injEq, Except.ok.injEq] at hx
    obtain ⟨rfl, rfl, rfl⟩ := hx
    simp only [List.nil_append]
    generalize memMembers p A rd un b post pos h = y
    obtain ⟨h2, r⟩ := y
    cases r <;> rfl
  | m :: pre, post, pos, q, h, h1, os, hx => by
    simp only [memMembers, List.cons_append] at hx ⊢
    generalize memMember p A rd un b m pos h = y at hx
    obtain ⟨h2, r⟩ := y
    cases r with
    | error e => simp at hx
    | ok r =>
      obtain ⟨o, pos1⟩ := r
      simp only at hx ⊢
      generalize hz : memMembers p A rd un b pre pos1 h2 = z at hx
      obtain ⟨h3, r⟩ := z
      cases r with
      | error e => simp at hx
      | ok r =>
        obtain ⟨os1, pos2⟩ := r
        simp only [Prod.mk.injEq, Except.ok.injEq] at hx
        obtain ⟨rfl, rfl, rfl⟩ := hx
        rw [memMembers_append hz]
        generalize memMembers p A rd un b post pos2 h3 = w
        obtain ⟨h4, r⟩ := w
        cases r <;> rfl

/-- What has been made stays when the rest cannot be read. -/
theorem memBody_lost (h : Usable p) (hs : Supported p) {A : Allocator} (hA : A.Generous) {b : Buf}
    (hlen : b.length < 2 ^ 63) {d fuel : Nat} {s : Struct} (hb : s ∈ bodies p) {pre post : List Variable}
    (e : s.members = pre ++ post) (hr : Reads p A b d fuel s.members) {fs : List (String × Val)}
    {a : List UInt8} (hl : LayoutFields (short p) p pre fs a) {n : String} {v : Val} (hi : (n, v) ∈ fs)
    (hh : Heavy v) {pos : Nat} (hat : At b pos a) {hp : Heap} (hfr : hp.Fresh) {h' : Heap} {x : MemFail}
    (hx : memBody p A (memValue p A b fuel) (undo p fuel) b s pos hp = (h', .error x)) : New hp h' := by
  obtain ⟨h1, os, ids, h2, h3, h4⟩ := prefix_ok h hs hA hlen hb e hr hl hat hfr
  obtain ⟨id, h5, h6⟩ := owns_heavy h h3 hl hi hh
  have hnew : New hp h1 := ⟨id, (h4.range id h5).1, (h4.range id h5).2, h6⟩
  have hin : ∀ m ∈ post, m ∈ s.members := fun m hm => by rw [e]; simp [hm]
  have h7 := memMembers_agrees h (st := s) (ms := post) (A := A) (b := b) (rd := memValue p A b fuel)
    (un := undo p fuel) (rd' := readAtom (readSem p) (fns p) b fuel)
    (fun m hm => memValue_agrees h hs A b d fuel hr.depth (hr.fits m (hin m hm)) (hr.known m (hin m hm)))
    (fun m hm => undo_own h hs (d := d) (Nat.le_of_lt hr.depth) (hr.fits m (hin m hm)) (hr.known m (hin m hm)))
    (pos + a.length) h1 (h4.fresh hfr)
  unfold memBody at hx
  rw [e, memMembers_append h2] at hx
  unfold Agrees at h7
  generalize memMembers p A (memValue p A b fuel) (undo p fuel) b post (pos + a.length) h1 = y at hx h7
  obtain ⟨h8, r⟩ := y
  cases r with
  | ok r => cases hx
  | error z =>
    cases hx
    obtain ⟨ids', hg, _⟩ := h7.kept
    exact hnew.later hg

/-! ### The end of the data -/

theorem takeNum_end {n : NumTy} {b : Buf} {pos : Nat} (hp : b.length ≤ pos) :
    takeNum .eof n b pos = .error .eof := by
  have : 0 < n.size := by cases n <;> decide
  rw [takeNum, takeN, if_neg (by omega)]

theorem memValue_end (h : Usable p) (hs : Supported p) (A : Allocator) {b : Buf} :
    ∀ d fuel, d < fuel → ∀ {t}, fits p d t → KnownType p t → ∀ {pos}, b.length ≤ pos → ∀ hp,
      memValue p A b fuel t pos hp = (hp, .error (.fail .eof))
  | d, fuel + 1, hd, t, hf, hk, pos, hle, hp => by
    unfold memValue
    cases h.kind hk with
    | num n e ne num =>
      simp only [num, readNum_native, takeNum_end hle, memPlain]
    | text e num =>
      simp only [num, if_pos e, memString, readNum_native, takeNum_end hle]
    | enum e mem name ne num enum =>
      simp only [num, if_neg ne, enum, readAtom]
      rw [show (readSem p).num = readNum from rfl, readNum_native, takeNum_end hle]
      rfl
    | struct s mem name ne num enum struct =>
      simp only [num, if_neg ne, enum, struct]
      by_cases hv : VaryingBody p s.members
      · rw [if_neg (by rw [simple_iff h (mem_bodies_struct mem)]; exact not_not.2 hv)]
        match d, hd, hf with
        | 0, _, hf =>
          have hf : p.struct? t = none := hf
          rw [struct] at hf
          cases hf
        | d + 1, hd, hf =>
          obtain ⟨m, hm, _⟩ := hv
          obtain ⟨m', ms, e⟩ := List.exists_cons_of_ne_nil (List.ne_nil_of_mem hm)
          have hm' : m' ∈ s.members := by rw [e]; simp
          rw [memBody, e]
          simp only [memMembers, memMember]
          cases m'.isList with
          | true => simp only [if_true, readNum_native, takeNum_end hle]
          | false =>
            simp only [Bool.false_eq_true, if_false,
              memValue_end h hs A d fuel (by omega) (hf _ struct m' hm') (h.known_of_struct mem hm') hle]
      · rw [if_pos ((simple_iff h (mem_bodies_struct mem)).2 hv)]
        obtain ⟨hne, hall⟩ := hs.numbers s mem hv
        obtain ⟨m', ms, e⟩ := List.exists_cons_of_ne_nil hne
        obtain ⟨n, hn⟩ := hall m' (by rw [e]; simp)
        rw [readFixed, e]
        simp only [readFixedMembers, readFixedMember, hn, ofName?_name, readNum_native]
        rw [takeNum_end (by omega)]
        rfl

theorem memMember_end (h : Usable p) (hs : Supported p) (A : Allocator) {b : Buf} {d fuel : Nat} (hd : d < fuel)
    {m : Variable} (hf : fits p d m.vartype) (hk : KnownType p m.vartype) {pos : Nat} (hle : b.length ≤ pos)
    {un : String → Obj → Heap → Except Fail Heap} (hp : Heap) :
    memMember p A (memValue p A b fuel) un b m pos hp = (hp, .error (.fail .eof)) := by
  unfold memMember
  cases m.isList with
  | true => simp only [if_true, readNum_native, takeNum_end hle]
  | false =>
    simp only [Bool.false_eq_true, if_false]
    exact memValue_end h hs A d fuel hd hf hk hle hp

/-! ### Data that is cut off -/

theorem memItems_then {rd : Nat → Heap → Got Obj} {j : Nat} {e : MemFail} {h2 : Heap} :
    ∀ {n pos q : Nat} {h h1 : Heap} {os : List Obj}, memItems rd n pos h = (os, h1, .ok q) →
    rd q h1 = (h2, .error e) → memItems rd (n + (j + 1)) pos h = (os, h2, .error e)
  | 0, pos, q, h, h1, os, hx, hy => by
    simp only [memItems, Prod.mk.injEq, Except.ok.injEq] at hx
    obtain ⟨rfl, rfl, rfl⟩ := hx
    rw [Nat.zero_add, memItems]
    simp only [hy]
  | n + 1, pos, q, h, h1, os, hx, hy => by
    rw [Nat.add_right_comm]
    rw [memItems] at hx ⊢
    generalize rd pos h = y at hx
    obtain ⟨h3, r⟩ := y
    cases r with
    | error e => simp at hx
    | ok r =>
      obtain ⟨o, pos1⟩ := r
      simp only at hx ⊢
      generalize hz : memItems rd n pos1 h3 = z at hx
      obtain ⟨os1, h4, r⟩ := z
      simp only [Prod.mk.injEq] at hx
      obtain ⟨rfl, rfl, rfl⟩ := hx
      rw [memItems_then hz hy]

mutual
theorem cut_varying (h : Usable p) : ∀ {t bs}, Cut (short p) p t bs → Varying p t
  | _, _, .struct mem hc => (varying_struct h mem).2 (cutBody_varying h hc)
theorem cutBody_varying (h : Usable p) : ∀ {ms bs}, CutBody (short p) p ms bs → VaryingBody p ms
  | _, _, .here hl hi hh => by
    by_contra hv
    exact layout_lights h hl (fun ⟨m, hm, hx⟩ => hv ⟨m, by simp [hm], hx⟩) hi hh
  | _, _, .inside (m := m) _ _ hc => ⟨m, by simp, .inr (cut_varying h hc)⟩
  | _, _, .item (m := m) _ hl _ _ _ _ => ⟨m, by simp, .inl hl⟩
end

/-- The outcome of reading what is cut off. -/
def Lost {α : Type} (h : Heap) (x : Got α) : Prop := ∃ h', x = (h', .error (.fail .eof)) ∧ New h h'

mutual
theorem cut_lost (h : Usable p) (hs : Supported p) {A : Allocator} (hA : A.Generous) {b : Buf}
    (hlen : b.length < 2 ^ 63) : ∀ {t bs}, Cut (short p) p t bs → ∀ {d fuel}, d < fuel → fits p d t →
    ∀ {pos}, At b pos bs → pos + bs.length = b.length → ∀ {hp : Heap}, hp.Fresh →
    Lost hp (memValue p A b fuel t pos hp)
  | _, _, .struct (s := s) mem hc, d, 0, hd, _, _, _, _, _, _ => by omega
  | _, _, .struct (s := s) mem hc, 0, fuel + 1, hd, hf, _, _, _, _, _ => by
    have hf : p.struct? s.name = none := hf
    rw [struct?_of_mem h.structsDistinct mem] at hf
    cases hf
  | _, _, .struct (s := s) mem hc, d + 1, fuel + 1, hd, hf, pos, hat, hend, hp, hfr => by
    have hv := cutBody_varying h hc
    unfold memValue
    cases h.kind (.inr (.inr (.inl (List.mem_map_of_mem mem))) : KnownType p s.name) with
    | num n e' => exact absurd e'.symm (num_ne_struct h mem)
    | text e' => exact absurd e'.symm (text_ne_struct h mem)
    | enum e' mem' name => exact absurd name (enum_ne_struct h mem' mem)
    | struct s' mem' name ne num enum struct =>
      have hst := struct?_of_mem h.structsDistinct mem
      simp only [num, if_neg ne, enum, hst]
      rw [if_neg (by rw [simple_iff h (mem_bodies_struct mem)]; exact not_not.2 hv)]
      exact cutBody_lost h hs hA hlen hc (mem_bodies_struct mem) rfl
        ⟨by omega, fun m hm => hf s hst m hm, fun m hm => h.known_of_struct mem hm⟩ hat hend hfr
theorem cutBody_lost (h : Usable p) (hs : Supported p) {A : Allocator} (hA : A.Generous) {b : Buf}
    (hlen : b.length < 2 ^ 63) : ∀ {ms bs}, CutBody (short p) p ms bs → ∀ {s : Struct}, s ∈ bodies p →
    s.members = ms → ∀ {d fuel}, Reads p A b d fuel s.members →
    ∀ {pos}, At b pos bs → pos + bs.length = b.length → ∀ {hp : Heap}, hp.Fresh →
    Lost hp (memBody p A (memValue p A b fuel) (undo p fuel) b s pos hp)
  | _, _, .here (m := m) hl hi hh, s, hb, e, d, fuel, hr, pos, hat, hend, hp, hfr => by
    obtain ⟨h1, os, ids, h2, h3, h4⟩ := prefix_ok h hs hA hlen hb e hr hl hat hfr
    have hm : m ∈ s.members := by rw [e]; simp
    have h5 : memBody p A (memValue p A b fuel) (undo p fuel) b s pos hp = (h1, .error (.fail .eof)) := by
      rw [memBody, e, memMembers_append h2]
      simp only [memMembers]
      rw [memMember_end h hs A hr.depth (hr.fits m hm) (hr.known m hm) (Nat.le_of_eq hend.symm)]
    exact ⟨_, h5, memBody_lost h hs hA hlen hb e hr hl hi hh hat hfr h5⟩
  | _, _, .inside (m := m) hl hnl hc, s, hb, e, d, fuel, hr, pos, hat, hend, hp, hfr => by
    obtain ⟨h1, os, ids, h2, h3, h4⟩ := prefix_ok h hs hA hlen hb e hr hl hat.left hfr
    have hm : m ∈ s.members := by rw [e]; simp
    obtain ⟨h5, h6, h7⟩ := cut_lost h hs hA hlen hc hr.depth (hr.fits m hm) hat.right
      (by simp only [List.length_append] at hend; omega) (h4.fresh hfr)
    refine ⟨h5, ?_, h7.before h4⟩
    rw [memBody, e, memMembers_append h2]
    simp only [memMembers, memMember, hnl, Bool.false_eq_true, if_false, h6]
  | _, _, .item (m := m) (vs := vs) (a := a) (len := len) (c := c) (n := n) hl hli hn hitems hlt hc,
      s, hb, e, d, fuel, hr, pos, hat, hend, hp, hfr => by
    obtain ⟨h1, os, ids, h2, h3, h4⟩ := prefix_ok h hs hA hlen hb e hr hl hat.left hfr
    have hm : m ∈ s.members := by rw [e]; simp
    have hkey : Lost h1 (memMember p A (memValue p A b fuel) (undo p fuel) b m (pos + a.length) h1) := by
      unfold memMember
      rw [if_pos hli, readNum_native, takeNum_at hat.right.left (.written hn)]
      simp only [asInt]
      rw [show (readSem p).count n = .ok n by simp [readSem]]
      simp only
      unfold memList
      have hn0 : n ≠ 0 := by omega
      cases ha : h1.alloc A n (.objs []) with
      | none => have := (alloc_none ha).2; rw [hA] at this; cases this
      | some x =>
        obtain ⟨id, h5⟩ := x
        obtain ⟨rfl, hg5, hb5, hnx⟩ := Grown.alloc hn0 ha
        simp only
        have hat2 := hat.right.right
        have h6 := memItems_agrees (p := p) (A := A) (N := b.length) (t := m.vartype)
          (memValue_agrees h hs A b d fuel hr.depth (hr.fits m hm) (hr.known m hm)) vs.length
          (pos + a.length + len.length) h5 (hg5.fresh (h4.fresh hfr))
        have h7 := LayoutItems.read h (completeness h hs hlen) (fn := fns p) (e := .eof)
          (fun s hm => ⟨_, by simp [fns, struct?_of_mem h.structsDistinct hm],
            funFor h hs (mem_bodies_struct hm)⟩) hitems (hr.fits m hm) hr.depth
          (atomFor h (hr.known m hm)) hat2.left
        unfold AgreesItems at h6
        generalize hx : memItems (memValue p A b fuel m.vartype) vs.length (pos + a.length + len.length) h5 = x
          at h6
        obtain ⟨os, h8, r⟩ := x
        cases r with
        | error x =>
          simp only at h6
          obtain ⟨h9, h10, _⟩ := h6
          cases x with
          | fail f => rw [h9 f rfl] at h7; cases h7
          | outOfMemory =>
            obtain ⟨i, k, h11, _⟩ := h10 rfl
            rw [hA] at h11
            cases h11
        | ok q =>
          simp only at h6
          obtain ⟨ws, ids', h9, h10, h11, h12⟩ := h6
          rw [h7] at h9
          cases h9
          have hg := hg5.trans h11
          obtain ⟨h13, h14, id, h15, h16, h17⟩ := cut_lost h hs hA hlen hc hr.depth (hr.fits m hm)
            hat2.right (by simp only [List.length_append] at hend; omega) (hg.fresh (h4.fresh hfr))
          obtain ⟨j, rfl⟩ : ∃ j, n = vs.length + (j + 1) := ⟨n - vs.length - 1, by omega⟩
          rw [memItems_then hx h14]
          have h18 := memValue_agrees h hs A b d fuel hr.depth (hr.fits m hm) (hr.known m hm)
            (pos + a.length + len.length + c.length) h8 (hg.fresh (h4.fresh hfr))
          rw [h14] at h18
          obtain ⟨kept, h19, _⟩ := h18.kept
          have hni : h1.next ∉ ids' := fun hi => by have := (h11.range _ hi).1; omega
          have hu : undoList (undo p fuel m.vartype) os (vs.length + (j + 1)) (some h1.next) h13 =
              .ok (h13.without (ids' ++ [h1.next])) := by
            unfold undoList
            rw [releaseEach_own (undo_own h hs (d := d) (Nat.le_of_lt hr.depth) (hr.fits m hm) (hr.known m hm))
              h13 (h10.mono fun i hi => h19.old (h11.range i hi).2) h11.nodup]
            simp only
            have hbx : h13.blocks h1.next = some (.objs []) :=
              (h19.old (by have := h11.next; omega)).trans ((h11.old (by omega)).trans hb5)
            rw [free_block hn0 ((without_other hni).trans hbx), without_without]
          simp only [MemFail.stops, Bool.false_eq_true, if_false, hu]
          refine ⟨_, rfl, id, by have := hg.next; omega, h16, ?_⟩
          rw [without_other]
          · exact h17
          · intro hx
            rcases List.mem_append.1 hx with hx | hx
            · have := (h11.range id hx).2; omega
            · have := List.mem_singleton.1 hx; have := h11.next; omega
    obtain ⟨h5, h6, h7⟩ := hkey
    refine ⟨h5, ?_, h7.before h4⟩
    rw [memBody, e, memMembers_append h2]
    simp only [memMembers, h6]
end

theorem memRead_varying (h : Usable p) (hs : Supported p) {s : Struct} (hm : s ∈ p.messages)
    (hv : VaryingBody p s.members) (A : Allocator) (b : Buf) (pos : Nat) (hp : Heap) :
    memRead p A s.name b pos hp = memBody p A (memValue p A b (depth p)) (undo p (depth p)) b s pos hp := by
  rw [memRead, message?_of_mem h.messagesDistinct hm]
  simp only [readOk_message h hs hm, Bool.not_true, Bool.false_eq_true, if_false]
  rw [if_neg (by rw [simple_iff h (mem_bodies_message hm)]; exact not_not.2 hv)]

theorem reads_message (h : Usable p) {s : Struct} (hm : s ∈ p.messages) (A : Allocator) (b : Buf) :
    Reads p A b p.structs.length (depth p) s.members :=
  ⟨by simp [depth], fun m _ => h.fits _, fun m hm' => h.known (mem_bodies_message hm) hm'⟩

theorem memRead_cut (h : Usable p) (hs : Supported p) {s : Struct} (hm : s ∈ p.messages) {A : Allocator}
    (hA : A.Generous) {bs : List UInt8} (hc : CutBody (short p) p s.members bs) {b : Buf}
    (hlen : b.length < 2 ^ 63) {pos : Nat} (hat : At b pos bs) (hend : pos + bs.length = b.length) {hp : Heap}
    (hfr : hp.Fresh) : Lost hp (memRead p A s.name b pos hp) := by
  rw [memRead_varying h hs hm (cutBody_varying h hc)]
  exact cutBody_lost h hs hA hlen hc (mem_bodies_message hm) rfl (reads_message h hm A b) hat hend hfr

theorem memRead_lost (h : Usable p) (hs : Supported p) {s : Struct} (hm : s ∈ p.messages) {A : Allocator}
    (hA : A.Generous) {pre post : List Variable} (e : s.members = pre ++ post) {fs : List (String × Val)}
    {bs : List UInt8} (hl : LayoutFields (short p) p pre fs bs) {n : String} {v : Val} (hi : (n, v) ∈ fs)
    (hh : Heavy v) {b : Buf} (hlen : b.length < 2 ^ 63) {pos : Nat} (hat : At b pos bs) {hp : Heap}
    (hfr : hp.Fresh) {h' : Heap} {x : MemFail} (hx : memRead p A s.name b pos hp = (h', .error x)) :
    New hp h' := by
  have hv : VaryingBody p s.members := by
    by_contra hv
    exact layout_lights h hl (fun ⟨m, hm, hx⟩ => hv ⟨m, by rw [e]; simp [hm], hx⟩) hi hh
  rw [memRead_varying h hs hm hv] at hx
  exact memBody_lost h hs hA hlen (mem_bodies_message hm) e (reads_message h hm A b) hl hi hh hat hfr hx

/-! ### There is such data -/

theorem short_nil (hs : Supported p) : Short p [] := by
  have := hs.unsigned
  unfold Short
  revert this
  cases p.stringSize <;> simp [Unsigned, IntRange, NumTy.size]

mutual
theorem default_short {T : List UInt8 → Prop} (hT : T []) : ∀ {t v}, IsDefault p t v → Texts T v
  | _, _, .num (n := n) => by cases n <;> trivial
  | _, _, .text => hT
  | _, _, .enum _ _ => trivial
  | _, _, .struct _ hf => defaults_short hT hf
theorem defaults_short {T : List UInt8 → Prop} (hT : T []) : ∀ {ms fs}, IsDefaultFields p ms fs →
    TextsFields T fs
  | _, _, .nil => trivial
  | _, _, .one _ h1 h2 => ⟨default_short hT h1, defaults_short hT h2⟩
  | _, _, .list _ h2 => ⟨trivial, defaults_short hT h2⟩
end

theorem default_layout (h : Usable p) (hs : Supported p) {t : String} (hk : KnownType p t) :
    ∃ v bs, Layout (short p) p t v bs := by
  obtain ⟨v, hv⟩ := default_exists h hk
  obtain ⟨bs, hb⟩ := IsDefault.enc h hv
  exact ⟨v, bs, Layout.restrict hb (default_short (short_nil hs) hv)⟩

theorem one_encNum {n : NumTy} (hu : Unsigned n) : ∃ bs, EncNum n (.int 1) bs := by
  cases n <;> first | exact False.elim hu | exact ⟨_, .int (by simp [IntRange])⟩

theorem zero_encNum {n : NumTy} (hu : Unsigned n) : ∃ bs, EncNum n (.int 0) bs := by
  cases n <;> first | exact False.elim hu | exact ⟨_, .int (by simp [IntRange])⟩

theorem heavy_fields (h : Usable p) (hs : Supported p) {m : Variable}
    (hh : m.isList = false → ∃ v bs, Layout (short p) p m.vartype v bs ∧ Heavy v) :
    ∀ {ms : List Variable}, (∀ m ∈ ms, KnownType p m.vartype) → m ∈ ms →
      ∃ fs bs n v, LayoutFields (short p) p ms fs bs ∧ (n, v) ∈ fs ∧ Heavy v
  | m' :: ms, hk, hm => by
    have hlu : Unsigned p.listSize := hs.sizes ▸ hs.unsigned
    by_cases e : m = m'
    · subst e
      have hrest : ∃ fs bs, LayoutFields (short p) p ms fs bs := by
        obtain ⟨fs, hd⟩ := default_fields (ms := ms) fun m hm => default_exists h (hk m (by simp [hm]))
        obtain ⟨bs, hb⟩ := IsDefaultFields.enc h hd
        exact ⟨fs, bs, LayoutFields.restrict hb (defaults_short (short_nil hs) hd)⟩
      obtain ⟨fs, bs, hr⟩ := hrest
      cases hl : m.isList with
      | false =>
        obtain ⟨v, a, h1, h2⟩ := hh hl
        exact ⟨_, _, m.name, v, .one hl h1 hr, by simp, h2⟩
      | true =>
        obtain ⟨v, a, h1⟩ := default_layout h hs (hk m (by simp))
        obtain ⟨len, h2⟩ := one_encNum hlu
        exact ⟨_, _, m.name, .list [v], .list hl (vs := [v]) h2 (.cons h1 .nil) hr, by simp, .list (by simp)⟩
    · have hm : m ∈ ms := (List.mem_cons.1 hm).resolve_left e
      obtain ⟨fs, bs, n, v, h1, h2, h3⟩ := heavy_fields h hs hh (fun m hm => hk m (by simp [hm])) hm
      cases hl : m'.isList with
      | false =>
        obtain ⟨w, a, h4⟩ := default_layout h hs (hk m' (by simp))
        exact ⟨_, _, n, v, .one hl h4 h1, by simp [h2], h3⟩
      | true =>
        obtain ⟨len, h4⟩ := zero_encNum hlu
        exact ⟨_, _, n, v, .list hl (vs := []) h4 .nil h1, by simp [h2], h3⟩

theorem heavy_exists (h : Usable p) (hs : Supported p) {t : String} (hv : Varying p t) :
    ∃ v bs, Layout (short p) p t v bs ∧ Heavy v := by
  induction hv with
  | text =>
    obtain ⟨len, h1⟩ := one_encNum hs.unsigned
    refine ⟨.str [97], len ++ [97], .text h1 ⟨⟨rfl, ['a'], rfl⟩, ?_⟩, .text (by simp)⟩
    have := hs.unsigned
    unfold Short
    revert this
    cases p.stringSize <;> simp [Unsigned, IntRange, NumTy.size]
  | @list s m mem hm hl =>
    obtain ⟨fs, bs, n, v, h1, h2, h3⟩ := heavy_fields h hs (m := m) (fun hx => by rw [hl] at hx; cases hx)
      (fun m hm => h.known_of_struct mem hm) hm
    exact ⟨_, _, .struct mem h1, .record h2 h3⟩
  | @inside s m mem hm _ ih =>
    obtain ⟨fs, bs, n, v, h1, h2, h3⟩ := heavy_fields h hs (m := m) (fun _ => ih)
      (fun m hm => h.known_of_struct mem hm) hm
    exact ⟨_, _, .struct mem h1, .record h2 h3⟩

theorem cut_cons {A : Atoms} {m : Variable} {ms : List Variable} {v : Val} {a bs : List UInt8}
    (hl : m.isList = false) (hv : Layout A p m.vartype v a) (hc : CutBody A p ms bs) :
    CutBody A p (m :: ms) (a ++ bs) := by
  cases hc with
  | here h1 h2 h3 => exact .here (pre := m :: _) (.one hl hv h1) (List.mem_cons_of_mem _ h2) h3
  | inside h1 h2 h3 =>
    rw [← List.append_assoc]
    exact .inside (pre := m :: _) (.one hl hv h1) h2 h3
  | item h1 h2 h3 h4 h5 h6 =>
    rw [← List.append_assoc]
    exact .item (pre := m :: _) (.one hl hv h1) h2 h3 h4 h5 h6

theorem untidy_fields (h : Usable p) (hs : Supported p)
    {ms : List Variable} (hk : ∀ m ∈ ms, KnownType p m.vartype)
    (ih : ∀ m ∈ ms, ¬ Tidy p m.vartype → ∃ bs, Cut (short p) p m.vartype bs)
    (hn : ¬ TidyBody p ms) : ∃ bs, CutBody (short p) p ms bs := by
  induction ms with
  | nil => exact absurd .nil hn
  | cons m ms ihms =>
    by_cases hf : m.isList = false ∧ ¬ Varying p m.vartype
    · obtain ⟨bs, hc⟩ := ihms (fun m hm => hk m (by simp [hm])) (fun m hm => ih m (by simp [hm]))
        (fun hx => hn (.skip hf.1 hf.2 hx))
      obtain ⟨v, a, h1⟩ := default_layout h hs (hk m (by simp))
      exact ⟨_, cut_cons hf.1 h1 hc⟩
    · have hv : m.isList = true ∨ Varying p m.vartype := by
        rw [not_and_or, not_not, Bool.not_eq_false] at hf
        exact hf
      cases ms with
      | nil =>
        have ht : ¬ Tidy p m.vartype := fun hx => hn (.last hx)
        obtain ⟨bs, hc⟩ := ih m (by simp) ht
        cases hl : m.isList with
        | false => exact ⟨_, .inside (pre := []) .nil hl hc⟩
        | true =>
          obtain ⟨len, h1⟩ := one_encNum (hs.sizes ▸ hs.unsigned)
          exact ⟨_, .item (pre := []) (n := 1) .nil hl h1 .nil (by simp) hc⟩
      | cons m' ms =>
        obtain ⟨fs, bs, n, v, h1, h2, h3⟩ := heavy_fields h hs (m := m) (ms := [m])
          (fun hl => heavy_exists h hs (hv.resolve_left (by simp [hl]))) (by simpa using hk m (by simp)) (by simp)
        exact ⟨_, .here (pre := [m]) h1 h2 h3⟩

theorem untidy_type (h : Usable p) (hs : Supported p) : ∀ d {t}, fits p d t → KnownType p t → ¬ Tidy p t →
    ∃ bs, Cut (short p) p t bs
  | d, t, hf, hk, hn => by
    cases h.kind hk with
    | num n e => subst e; exact absurd (.fixed (varying_num h n)) hn
    | text e => subst e; exact absurd .text hn
    | enum e mem name => subst name; exact absurd (.fixed (varying_enum h mem)) hn
    | struct s mem name ne num enum struct =>
      subst name
      match d, hf with
      | 0, hf =>
        have hf : p.struct? s.name = none := hf
        rw [struct] at hf
        cases hf
      | d + 1, hf =>
        obtain ⟨bs, hc⟩ := untidy_fields h hs (fun m hm => h.known_of_struct mem hm)
          (fun m hm => untidy_type h hs d (hf _ struct m hm) (h.known_of_struct mem hm))
          (fun hx => hn (.struct mem hx))
        exact ⟨bs, .struct mem hc⟩

theorem untidy_message (h : Usable p) (hs : Supported p) {s : Struct} (hm : s ∈ p.messages)
    (hn : ¬ TidyBody p s.members) : ∃ bs, CutBody (short p) p s.members bs :=
  untidy_fields h hs (fun _ hm' => h.known (mem_bodies_message hm) hm')
    (fun _ hm' => untidy_type h hs _ (h.fits _) (h.known (mem_bodies_message hm) hm')) hn

/-! ### Streams -/

theorem abandon_keeps {h0 h h' : Heap} (hf : h0.Fresh) {l : MsgList} {ids : List Nat} (hh : Held h0 h l ids)
    {e : MemFail} {x : Except MemFail (Obj × Nat)} (hx : abandon l e h = (h', x)) :
    h.next ≤ h'.next ∧ ∀ j ∈ ids, h'.blocks j = h.blocks j := by
  unfold abandon at hx
  split at hx
  · cases hx; exact ⟨Nat.le_refl _, fun _ _ => rfl⟩
  · rw [(hh.free hf).1] at hx
    cases hx
    refine ⟨Nat.le_refl _, fun j hj => without_other fun hc => ?_⟩
    exact (List.nodup_append.1 hh.grown.nodup).2.2 j hc j hj rfl

theorem alloc_next {A : Allocator} {h h' : Heap} {n : Nat} {b : Block} {id : Option Nat}
    (hx : h.alloc A n b = some (id, h')) : h.next ≤ h'.next := by
  unfold Heap.alloc at hx
  split at hx
  · cases hx; exact Nat.le_refl _
  · split at hx
    · cases hx; exact Nat.le_succ _
    · cases hx

theorem free_next {h h' : Heap} {n : Nat} {id : Option Nat} (hx : h.free n id = .ok h') : h'.next = h.next := by
  unfold Heap.free at hx
  split at hx
  · cases hx; rfl
  · cases id with
    | none => cases hx
    | some i =>
      simp only at hx
      split at hx
      · cases hx; rfl
      · cases hx

theorem append_next {A : Allocator} {h h' : Heap} {l l' : MsgList} {m : String × Obj}
    (hx : append A l m h = .ok (l', h')) : h.next ≤ h'.next := by
  unfold append at hx
  split at hx
  · cases hx
    unfold Heap.fill
    split <;> exact Nat.le_refl _
  · split at hx
    · cases hx
    · rename_i hr
      cases hx
      unfold resized at hr
      split at hr
      · cases hr
        unfold Heap.fill
        split <;> exact Nat.le_refl _
      · split at hr
        · cases hr
        · rename_i ha
          split at hr
          · cases hr
          · rename_i hfr
            cases hr
            rw [free_next hfr]
            exact alloc_next ha

theorem resized_next {A : Allocator} {h h' : Heap} {l : MsgList} {n : Nat} {is : List (String × Obj)}
    {id : Option Nat} (hr : resized A l n is h = .ok (id, h')) : h.next ≤ h'.next := by
  unfold resized at hr
  split at hr
  · cases hr
    unfold Heap.fill
    split <;> exact Nat.le_refl _
  · split at hr
    · cases hr
    · rename_i ha
      split at hr
      · cases hr
      · rename_i hfr
        cases hr
        rw [free_next hfr]
        exact alloc_next ha

/-- The messages read so far stay where they are, whatever happens; the block of the list is another one. -/
structure Keeps (h : Heap) (ids : List Nat) (x : Got Obj) : Prop where
  next : h.next ≤ x.1.next
  same : ∀ j ∈ ids, x.1.blocks j = h.blocks j
  other : ∀ n i q, x.2 = .ok (.slice n (some i), q) → i ∉ ids

theorem Keeps.abandon {h0 h : Heap} (hf : h0.Fresh) {l : MsgList} {ids : List Nat} (hh : Held h0 h l ids)
    (e : MemFail) : Keeps h ids (abandon l e h) := by
  unfold Zig.abandon
  split
  · exact ⟨Nat.le_refl _, fun _ _ => rfl, fun _ _ _ hx => by cases hx⟩
  · rw [(hh.free hf).1]
    refine ⟨Nat.le_refl _, fun j hj => without_other fun hc => ?_, fun _ _ _ hx => by cases hx⟩
    exact (List.nodup_append.1 hh.grown.nodup).2.2 j hc j hj rfl

theorem Keeps.finish (A : Allocator) {h0 h : Heap} (hf : h0.Fresh) {l : MsgList} {ids : List Nat}
    (hh : Held h0 h l ids) (pos : Nat) : Keeps h ids (finish A l pos h) := by
  unfold Zig.finish toOwnedSlice
  by_cases hi : l.items.length = 0
  · rw [if_pos hi, (hh.free hf).1]
    refine ⟨Nat.le_refl _, fun j hj => without_other fun hc => ?_, fun _ _ _ hx => by cases hx⟩
    exact (List.nodup_append.1 hh.grown.nodup).2.2 j hc j hj rfl
  · rw [if_neg hi]
    have h1 := hh.resized hf A hi l.items
    cases hr : resized A l l.items.length l.items h with
    | error e => exact Keeps.abandon hf hh e
    | ok x =>
      obtain ⟨id, h'⟩ := x
      rw [hr] at h1
      obtain ⟨i, rfl, h2, h3, h4⟩ := h1
      refine ⟨resized_next hr, h4, fun n i q hx => ?_⟩
      cases hx
      exact (List.nodup_cons.1 h2.nodup).1

theorem Keeps.before {h h' : Heap} {ids ids' : List Nat} {x : Got Obj} (hk : Keeps h' ids' x)
    (hn : h.next ≤ h'.next) (hs : ∀ j ∈ ids, j ∈ ids' ∧ h'.blocks j = h.blocks j) : Keeps h ids x :=
  ⟨Nat.le_trans hn hk.next, fun j hj => (hk.same j (hs j hj).1).trans (hs j hj).2,
    fun n i q hx hi => hk.other n i q hx (hs i hi).1⟩

theorem Keeps.new {h0 h : Heap} {ids : List Nat} {x : Got Obj} (hk : Keeps h ids x) {j : Nat} (hj : j ∈ ids)
    (h1 : h0.next ≤ j) (h2 : j < h.next) (h3 : h.blocks j ≠ none) : New h0 x.1 :=
  ⟨j, h1, Nat.lt_of_lt_of_le h2 hk.next, by rw [hk.same j hj]; exact h3⟩

theorem memLoop_keeps (h : Usable p) (hs : Supported p) (A : Allocator) (b : Buf) (max : Int)
    {h0 : Heap} (hf : h0.Fresh) : ∀ fuel {l ms ids} pos hp, Listed p h0 hp l ms ids →
    Keeps hp ids (memLoop p A b max fuel l pos hp)
  | 0, l, ms, ids, pos, hp, hl => Keeps.abandon hf hl.held _
  | fuel + 1, l, ms, ids, pos, hp, hl => by
    unfold memLoop
    split
    · split
      · exact Keeps.abandon hf hl.held _
      · rename_i t pos1 ht
        split
        · exact Keeps.finish A hf hl.held _
        · cases hd : dispatch p t with
          | none => exact Keeps.abandon hf hl.held _
          | some m =>
            simp only
            obtain ⟨s, hsm, rfl⟩ : ∃ s ∈ p.messages, s.name = m := by
              have := dispatch_known hd
              simpa [messageNames] using this
            have ha := memRead_agrees h hs hsm A b pos1 hp (hl.held.grown.fresh hf)
            unfold Agrees at ha
            generalize memRead p A s.name b pos1 hp = x at ha
            obtain ⟨hp', r⟩ := x
            have hin : ∀ {ids'}, Grown hp hp' ids' → ∀ j ∈ ids, j ∈ ids ++ ids' ∧ hp'.blocks j = hp.blocks j :=
              fun hg j hj => ⟨by simp [hj], hg.old (hl.held.grown.range j (by simp [hj])).2⟩
            cases r with
            | error e' =>
              obtain ⟨_, _, kept, h3, _⟩ := ha
              exact (Keeps.abandon hf (hl.later h3) e').before h3.next (hin h3)
            | ok r =>
              obtain ⟨o, pos2⟩ := r
              obtain ⟨v, ids', _, h2, h3⟩ := ha
              have ha := append_listed A hf hl hsm h2 h3
              simp only
              cases happ : append A l (s.name, o) hp' with
              | error e' => exact (Keeps.abandon hf (hl.later h3) e').before h3.next (hin h3)
              | ok x =>
                obtain ⟨l', h1⟩ := x
                rw [happ] at ha
                simp only at ha ⊢
                refine (memLoop_keeps h hs A b max hf fuel pos2 h1 ha.1).before
                  (Nat.le_trans h3.next (append_next happ)) fun j hj => ⟨by simp [hj], ?_⟩
                rw [ha.2 j (by simp [hj]), (hin h3 j hj).2]
    · exact Keeps.finish A hf hl.held _

theorem OwnMsg.heavy (h : Usable p) {s : Struct} (hm : s ∈ p.messages) {hp : Heap} {o : Obj}
    {vs : List (String × Val)} {ids : List Nat} (ho : OwnMsg p s hp o (.record vs) ids) {bs : List UInt8}
    (hl : LayoutFields (short p) p s.members vs bs) (hh : Heavy (.record vs)) :
    ∃ id ∈ ids, hp.blocks id ≠ none := by
  cases hh with
  | record hi hh =>
    unfold OwnMsg at ho
    split at ho
    · rename_i hv
      exact absurd hh (layout_lights h hl ((simple_iff h (mem_bodies_message hm)).1 hv) hi)
    · obtain ⟨fs, vs', rfl, e, hf⟩ := ho
      cases e
      exact owns_heavy h hf hl hi hh

theorem memLoop_stream (h : Usable p) (hs : Supported p) {A : Allocator} (hA : A.Generous) {b : Buf}
    (hlen : b.length < 2 ^ 63) {max : Int} {h0 : Heap} (hf : h0.Fresh) {ms : List (String × Val)}
    {bs : List UInt8} (hst : Stream p ms bs) (ht : ∀ x ∈ ms, Texts (Short p) x.2) :
    ∀ (fuel : Nat) {l acc ids} pos hp, Listed p h0 hp l acc ids → At b pos bs →
      (max < 0 ∨ ((acc.length + ms.length : Nat) : Int) ≤ max) →
      ∃ l' hp' ids', memLoop p A b max (fuel + ms.length) l pos hp =
        memLoop p A b max fuel l' (pos + bs.length) hp' ∧ Listed p h0 hp' l' (acc ++ ms) ids' ∧
        (∀ j ∈ ids, j ∈ ids' ∧ hp'.blocks j = hp.blocks j) ∧
        ((∃ x ∈ ms, Heavy x.2) → ∃ j ∈ ids', hp'.blocks j ≠ none) := by
  induction hst with
  | nil =>
    intro fuel l acc ids pos hp hl _ _
    exact ⟨l, hp, ids, rfl, by simpa using hl, fun j hj => ⟨hj, rfl⟩, fun ⟨x, hx, _⟩ => by cases hx⟩
  | @cons pre post d v a ms rest e he _ ih =>
    intro fuel l acc ids pos hp hl hat hmax
    have hdm : d ∈ p.messages := by rw [e]; simp
    have hle := hat.le
    have hat1 : At b pos ([UInt8.ofNat (pre.length + 1)] ++ (a ++ rest)) := by simpa using hat
    have hat2 := hat1.right
    simp only [List.length_append, List.length_cons] at hle
    obtain ⟨d', vs, hd', hname, rfl, hlay⟩ := id he
    have htx : Texts (Short p) (.record vs) := ht (d.name, .record vs) (by simp)
    have hdd : d' = d := mem_messages_unique h hd' hdm hname
    subst hdd
    have ha := memRead_agrees h hs hdm A b (pos + 1) hp (hl.held.grown.fresh hf)
    obtain ⟨hp', o, ids', h1, h2, h3⟩ := ha.ok hA (read_encoded h hs he htx hlen hat2.left)
    have happ := append_listed A hf hl hdm h2 h3
    have hold : ∀ j ∈ ids, hp'.blocks j = hp.blocks j :=
      fun j hj => h3.old (hl.held.grown.range j (by simp [hj])).2
    cases happ' : append A l (d'.name, o) hp' with
    | error x =>
      rw [happ'] at happ
      obtain ⟨_, ⟨i, k, hg⟩, _⟩ := happ
      rw [hA] at hg
      cases hg
    | ok x =>
      obtain ⟨l', h4⟩ := x
      rw [happ'] at happ
      simp only at happ
      obtain ⟨l2, hp2, ids2, h5, h6, h7, h8⟩ := ih (fun x hx => ht x (by simp [hx])) fuel
        (pos + 1 + a.length) h4 happ.1 hat2.right (by
          simp only [List.length_append, List.length_cons, List.length_nil] at hmax ⊢
          rcases hmax with hm | hm
          · exact .inl hm
          · exact .inr (by omega))
      refine ⟨l2, hp2, ids2, ?_, by simpa using h6, fun j hj => ⟨(h7 j (by simp [hj])).1, ?_⟩, ?_⟩
      · rw [List.length_cons, ← Nat.add_assoc, memLoop, if_pos, takeTag_at hat, tag_toNat h e]
        · simp only [Nat.add_eq_zero_iff, one_ne_zero, and_false, if_false,
            show dispatch p (pre.length + 1) = some d'.name from messageArms_of_split e, h1, happ', h5]
          congr 1
          simp only [List.length_append, List.length_cons]
          omega
        · refine ⟨by omega, ?_⟩
          have := hl.msgs.length
          simp only [List.length_cons] at hmax
          rcases hmax with hm | hm
          · exact .inl hm
          · exact .inr (by omega)
      · rw [(h7 j (by simp [hj])).2, happ.2 j (by simp [hj]), hold j hj]
      · rintro ⟨x, hx, hh⟩
        rcases List.mem_cons.1 hx with rfl | hx
        · obtain ⟨j, hj, hb⟩ := h2.heavy h hdm (LayoutFields.restrict hlay htx) hh
          refine ⟨j, (h7 j (by simp [hj])).1, ?_⟩
          rw [(h7 j (by simp [hj])).2, happ.2 j (by simp [hj])]
          exact hb
        · exact h8 ⟨x, hx, hh⟩

/-- Messages that have been read stay when a stream cannot be read to its end; the block of the list that is
returned is another one. -/
theorem memProcess_keeps (h : Usable p) (hs : Supported p) {A : Allocator} (hA : A.Generous) {b : Buf}
    (hlen : b.length < 2 ^ 63) {max : Int} {hp : Heap} (hf : hp.Fresh) {ms : List (String × Val)}
    {bs : List UInt8} (hst : Stream p ms bs) (ht : ∀ x ∈ ms, Texts (Short p) x.2) (hh : ∃ x ∈ ms, Heavy x.2)
    (hat : At b 0 bs) (hmax : max < 0 ∨ (ms.length : Int) ≤ max) :
    ∃ j, hp.next ≤ j ∧ j < (memProcess p A b max hp).1.next ∧ (memProcess p A b max hp).1.blocks j ≠ none ∧
      ∀ n i q, (memProcess p A b max hp).2 = .ok (.slice n (some i), q) → i ≠ j := by
  have hl : Listed p hp hp {} [] [] :=
    ⟨⟨.refl hp, fun hx => absurd rfl hx⟩, fun hx => absurd rfl hx, .nil, Nat.le_refl _⟩
  have hall : (p.messages.all fun st => readOk p (depth p) st.members (p.simpleStruct st)) = true := by
    rw [List.all_eq_true]
    exact fun s hm => readOk_message h hs hm
  have h0 : max ≠ 0 := by
    obtain ⟨x, hx, _⟩ := hh
    have := List.length_pos_of_mem hx
    omega
  have hle := hat.le
  have hms := Stream.length_le hst
  rw [memProcess, if_pos hall, if_neg h0]
  obtain ⟨l', hp', ids, h1, h2, _, h4⟩ := memLoop_stream h hs hA hlen (max := max) hf hst ht
    (b.length + 2 - ms.length) 0 hp hl hat (by simpa using hmax)
  rw [show b.length + 2 - ms.length + ms.length = b.length + 2 by omega] at h1
  rw [h1]
  obtain ⟨j, hj, hb⟩ := h4 hh
  have hk := memLoop_keeps h hs A b max hf (b.length + 2 - ms.length) (0 + bs.length) hp' h2
  have hr := h2.held.grown.range j (by simp [hj])
  exact ⟨j, hr.1, Nat.lt_of_lt_of_le hr.2 hk.next, by rw [hk.same j hj]; exact hb,
    fun n i q hx e => hk.other n i q hx (e ▸ hj)⟩

theorem counted_lost {hp : Heap} {n : Int} {x : Got Obj} (hk : ∃ j, hp.next ≤ j ∧ j < x.1.next ∧
    x.1.blocks j ≠ none ∧ ∀ m i q, x.2 = .ok (.slice m (some i), q) → i ≠ j) {h' : Heap} {e : MemFail}
    (hx : counted n x = (h', .error e)) : New hp h' := by
  obtain ⟨j, h1, h2, h3, h4⟩ := hk
  obtain ⟨h5, r⟩ := x
  unfold counted at hx
  cases r with
  | error e' => cases hx; exact ⟨j, h1, h2, h3⟩
  | ok r =>
    obtain ⟨o, q⟩ := r
    cases o with
    | plain v => cases hx; exact ⟨j, h1, h2, h3⟩
    | record fs => cases hx; exact ⟨j, h1, h2, h3⟩
    | slice len id =>
      simp only at hx h2 h3 h4
      split at hx
      · by_cases hl0 : len = 0
        · rw [hl0, free_empty] at hx
          cases hx
          exact ⟨j, h1, h2, h3⟩
        · cases id with
          | none =>
            rw [Heap.free, if_neg hl0] at hx
            cases hx
            exact ⟨j, h1, h2, h3⟩
          | some i =>
            cases hb : h5.blocks i with
            | none =>
              rw [Heap.free, if_neg hl0] at hx
              simp only [hb] at hx
              cases hx
              exact ⟨j, h1, h2, h3⟩
            | some blk =>
              rw [free_block hl0 hb] at hx
              cases hx
              refine ⟨j, h1, h2, ?_⟩
              rw [without_other (by simpa using Ne.symm (h4 len i q rfl))]
              exact h3
      · cases hx

theorem limit_small {n : Nat} (hn : n < 2 ^ 31) : limit n = .ok (n : Int) := by
  unfold limit
  exact if_pos (by omega)

theorem memUnpack_lost (h : Usable p) (hs : Supported p) {A : Allocator} (hA : A.Generous) {b : Buf}
    (hlen : b.length < 2 ^ 63) {hp : Heap} (hf : hp.Fresh) {ms : List (String × Val)}
    {bs cnt : List UInt8} {n : Nat} (hn : EncNum .uint32 (.int n) cnt) (hst : Stream p ms bs)
    (ht : ∀ x ∈ ms, Texts (Short p) x.2) (hh : ∃ x ∈ ms, Heavy x.2) (hat : At b 0 (bsci ++ (cnt ++ bs)))
    (hle : ms.length ≤ n) (hlim : n < 2 ^ 31) {h' : Heap} {e : MemFail}
    (hx : memUnpack p A b hp = (h', .error e)) : New hp h' := by
  have hn0 : (n : Int) ≠ 0 := by
    obtain ⟨x, hx, _⟩ := hh
    have := List.length_pos_of_mem hx
    omega
  have hl := hat.le
  have hk := memProcess_keeps h hs hA (b := b.drop (0 + bsci.length + cnt.length)) (max := n)
    (Nat.lt_of_le_of_lt (by simp) hlen) hf hst ht hh hat.right.right.drop (.inr (by omega))
  unfold memUnpack at hx
  have hw := takeN_at (e := .crash) hat.left
  rw [show bsci.length = 4 from rfl] at hw hk
  have hc := takeNum_at (e := .eof) hat.right.left (.written hn)
  rw [show bsci.length = 4 from rfl] at hc
  rw [hw] at hx
  simp only [ne_eq, not_true_eq_false, if_false, hc, hn0] at hx
  rw [limit_small hlim] at hx
  simp only at hx
  exact counted_lost hk hx

end Beschi.Lang.Zig
