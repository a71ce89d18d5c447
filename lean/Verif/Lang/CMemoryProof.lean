import Verif.Lang.CMemory
import Verif.Lang.CProof
/-
Helper lemmas about messages in memory (C).
-/
namespace Beschi.Lang.C
open Spec

/-! ### What a value in memory owns -/

mutual
/-- The object represents the value of the given type; the blocks listed are those it owns. -/
inductive Own (p : Protocol) (h : Heap) : String → Obj → Val → List Nat → Prop
  | num {n : NumTy} {v} : (∃ bs, DecNum n v bs) → Own p h n.name (.num v) v []
  | enum {e : Enum} {i} : e ∈ p.enums → Own p h e.name (.num (.int i)) (.int i) []
  | text {id bs} : h.blocks id = some (.chars bs) →
      Own p h "string" (.text (some bs.length) (.block id)) (.str bs) [id]
  | struct {s : Struct} {fs vs ids} : s ∈ p.structs → OwnFields p h s.members fs vs ids →
      Own p h s.name (.record fs) (.record vs) ids
/-- The same for the elements of a list. -/
inductive OwnAll (p : Protocol) (h : Heap) : String → List Obj → List Val → List Nat → Prop
  | nil {t} : OwnAll p h t [] [] []
  | cons {t o os v vs a b} : Own p h t o v a → OwnAll p h t os vs b →
      OwnAll p h t (o :: os) (v :: vs) (a ++ b)
/-- The same for the members of a struct. -/
inductive OwnFields (p : Protocol) (h : Heap) :
    List Variable → List (String × Obj) → List (String × Val) → List Nat → Prop
  | nil : OwnFields p h [] [] [] []
  | one {m : Variable} {ms o fs v vs a b} : m.isList = false → Own p h m.vartype o v a →
      OwnFields p h ms fs vs b → OwnFields p h (m :: ms) ((m.name, o) :: fs) ((m.name, v) :: vs) (a ++ b)
  | list {m : Variable} {ms os fs ws vs a b id l} : m.isList = true → m.vartype ≠ "string" →
      h.blocks id = some (.objs os) → OwnAll p h m.vartype os ws a → OwnFields p h ms fs vs b →
      OwnFields p h (m :: ms) ((m.name, .list (some ws.length) (.block id) l) :: fs)
        ((m.name, .list ws) :: vs) (id :: a ++ b)
  | texts {m : Variable} {ms os fs ws vs a b id id'} : m.isList = true → m.vartype = "string" →
      h.blocks id = some (.objs (os.map elsPart)) → h.blocks id' = some (.lens (os.map lensPart)) →
      OwnAll p h "string" os ws a → OwnFields p h ms fs vs b →
      OwnFields p h (m :: ms) ((m.name, .list (some ws.length) (.block id) (.block id')) :: fs)
        ((m.name, .list ws) :: vs) (id :: id' :: a ++ b)
end

mutual
theorem Own.mono {p : Protocol} {h h' : Heap} : ∀ {t o v ids}, Own p h t o v ids →
    (∀ id ∈ ids, h'.blocks id = h.blocks id) → Own p h' t o v ids
  | _, _, _, _, .num hn, _ => .num hn
  | _, _, _, _, .enum he, _ => .enum he
  | _, _, _, _, .text hb, hs => .text ((hs _ (by simp)).trans hb)
  | _, _, _, _, .struct hm hf, hs => .struct hm (OwnFields.mono hf hs)
theorem OwnAll.mono {p : Protocol} {h h' : Heap} : ∀ {t os vs ids}, OwnAll p h t os vs ids →
    (∀ id ∈ ids, h'.blocks id = h.blocks id) → OwnAll p h' t os vs ids
  | _, _, _, _, .nil, _ => .nil
  | _, _, _, _, .cons ho hr, hs => .cons (Own.mono ho fun id hi => hs id (by simp [hi]))
      (OwnAll.mono hr fun id hi => hs id (by simp [hi]))
theorem OwnFields.mono {p : Protocol} {h h' : Heap} : ∀ {ms fs vs ids}, OwnFields p h ms fs vs ids →
    (∀ id ∈ ids, h'.blocks id = h.blocks id) → OwnFields p h' ms fs vs ids
  | _, _, _, _, .nil, _ => .nil
  | _, _, _, _, .one hl ho hr, hs => .one hl (Own.mono ho fun id hi => hs id (by simp [hi]))
      (OwnFields.mono hr fun id hi => hs id (by simp [hi]))
  | _, _, _, _, .list hl ht hb ho hr, hs => .list hl ht ((hs _ (by simp)).trans hb)
      (OwnAll.mono ho fun id hi => hs id (by simp [hi]))
      (OwnFields.mono hr fun id hi => hs id (by simp [hi]))
  | _, _, _, _, .texts hl ht hb hb' ho hr, hs => .texts hl ht ((hs _ (by simp)).trans hb)
      ((hs _ (by simp)).trans hb') (OwnAll.mono ho fun id hi => hs id (by simp [hi]))
      (OwnFields.mono hr fun id hi => hs id (by simp [hi]))
end

theorem OwnAll.length {p : Protocol} {h : Heap} : ∀ {t os vs ids}, OwnAll p h t os vs ids →
    os.length = vs.length
  | _, _, _, _, .nil => rfl
  | _, _, _, _, .cons _ hr => by simp [OwnAll.length hr]

/-! ### Reading -/

/-- The second heap is the first one with the blocks listed added. -/
structure Grown (h h' : Heap) (ids : List Nat) : Prop where
  next : h.next ≤ h'.next
  range : ∀ id ∈ ids, h.next ≤ id ∧ id < h'.next
  nodup : ids.Nodup
  same : ∀ id, id ∉ ids → h'.blocks id = h.blocks id

theorem Grown.refl (h : Heap) : Grown h h [] := ⟨Nat.le_refl _, by simp, by simp, fun _ _ => rfl⟩

theorem Grown.trans {h h1 h2 : Heap} {a b : List Nat} (x : Grown h h1 a) (y : Grown h1 h2 b) :
    Grown h h2 (a ++ b) where
  next := Nat.le_trans x.next y.next
  range id hi := by
    rcases List.mem_append.1 hi with hi | hi
    · have := x.range id hi; have := y.next; omega
    · have := y.range id hi; have := x.next; omega
  nodup := List.nodup_append.2 ⟨x.nodup, y.nodup, fun i hi j hj e => by
    have := x.range i hi; have := y.range j hj; omega⟩
  same id hi := by
    simp only [List.mem_append, not_or] at hi
    rw [y.same id hi.2, x.same id hi.1]

theorem Grown.old {h h' : Heap} {ids : List Nat} (x : Grown h h' ids) {id : Nat} (hi : id < h.next) :
    h'.blocks id = h.blocks id :=
  x.same id fun hm => by have := x.range id hm; omega

theorem Grown.alloc (h : Heap) (b : Block) : Grown h (h.alloc b) [h.next] where
  next := Nat.le_succ _
  range id hi := by simp only [List.mem_singleton] at hi; subst hi; exact ⟨Nat.le_refl _, Nat.lt_succ_self _⟩
  nodup := List.nodup_singleton _
  same id hi := by simp only [List.mem_singleton] at hi; simp [Heap.alloc, hi]

theorem Grown.set {h h' : Heap} {ids : List Nat} (x : Grown h h' ids) {id : Nat} (hi : id ∈ ids)
    (b : Option Block) : Grown h (h'.set id b) ids where
  next := x.next
  range := x.range
  nodup := x.nodup
  same i hn := by
    have : i ≠ id := fun e => hn (e ▸ hi)
    simp only [Heap.set, if_neg this]
    exact x.same i hn

theorem set_self (h : Heap) (id : Nat) (b : Option Block) : (h.set id b).blocks id = b := by
  simp [Heap.set]

theorem set_other {h : Heap} {id i : Nat} (b : Option Block) (hi : i ≠ id) :
    (h.set id b).blocks i = h.blocks i := by simp [Heap.set, hi]

/-- Reading into memory has the same outcome as reading, and what is in memory is described by `Q`. -/
def Agrees {α β : Type} (Q : Heap → α → β → List Nat → Prop) (h : Heap) (x : Filled α)
    (r : Except Fail (β × Nat)) : Prop :=
  match x.2.2 with
  | .error e => r = .error e
  | .ok pos => ∃ v ids, r = .ok (v, pos) ∧ Q x.2.1 x.1 v ids ∧ Grown h x.2.1 ids

variable {p : Protocol}

theorem readNum_typed {prim : String} {n : NumTy} (hp : PrimFor (readSem p) .eof prim n) {b : Buf}
    {pos pos' : Nat} {v : Val} (hr : readNum prim b pos = .ok (v, pos')) : ∃ bs, DecNum n v bs := by
  have := hp b pos
  simp only [readSem] at this
  rw [this] at hr
  obtain ⟨bs, _, hd, _⟩ := takeNum_ok hr
  exact ⟨bs, hd⟩

theorem checkDeclared_int {e : String} {i : Int} {v : Val} (h : checkDeclared p e i = .ok v) :
    ∃ j, v = .int j := by
  unfold checkDeclared at h
  split at h
  · cases h
  · split at h
    · cases h; exact ⟨_, rfl⟩
    · cases h

theorem slice_length {i : Int} {b : Buf} {pos pos' : Nat} {bs : List UInt8}
    (h : slice p i b pos = .ok (bs, pos')) : i = bs.length := by
  unfold slice at h
  split at h
  · cases h
  · split at h
    · cases h
    · split at h
      · cases h
      · split at h
        · cases h
        · have := (takeN_ok h).2.1
          omega

theorem memString_agrees (b : Buf) (pos : Nat) (h : Heap) :
    Agrees (fun h o v ids => Own p h "string" o v ids) h (memString p b pos h)
      (readString p b pos) := by
  unfold Agrees memString readString
  cases hn : readNum (readPrim p.stringSize) b pos with
  | error e => rfl
  | ok r =>
    obtain ⟨v, pos1⟩ := r
    cases v with
    | int i =>
      simp only
      cases hs : slice p i b pos1 with
      | error e => rfl
      | ok q =>
        obtain ⟨bs, pos2⟩ := q
        cases slice_length hs
        exact ⟨_, _, rfl, .text (by simp [Heap.alloc]), .alloc h _⟩
    | _ => rfl

theorem memItems_agrees {t : String} {rd : Nat → Heap → Filled Obj}
    {rd' : Nat → Except Fail (Val × Nat)}
    (hrd : ∀ pos h, Agrees (fun h o v ids => Own p h t o v ids) h (rd pos h) (rd' pos)) :
    ∀ k pos h, Agrees (fun h os vs ids => OwnAll p h t os vs ids ∧ vs.length = k) h
      (memItems rd k pos h) (readItems rd' k pos)
  | 0, pos, h => ⟨[], [], rfl, ⟨.nil, rfl⟩, .refl h⟩
  | k + 1, pos, h => by
    have h1 := hrd pos h
    unfold Agrees at h1 ⊢
    simp only [memItems, readItems, bind, Except.bind]
    generalize hx : rd pos h = x at h1
    obtain ⟨o, ha, r⟩ := x
    cases r with
    | error e => simp only at h1 ⊢; rw [h1]
    | ok pos1 =>
      simp only at h1 ⊢
      obtain ⟨v, ids, h1, h2, h3⟩ := h1
      rw [h1]
      have h4 := memItems_agrees hrd k pos1 ha
      unfold Agrees at h4
      generalize hy : memItems rd k pos1 ha = y at h4
      obtain ⟨os, hb, r⟩ := y
      cases r with
      | error e => simp only at h4 ⊢; rw [h4]
      | ok pos2 =>
        simp only at h4 ⊢
        obtain ⟨vs, ids', h4, ⟨h5, h6⟩, h7⟩ := h4
        rw [h4]
        exact ⟨_, _, rfl, ⟨.cons (h2.mono fun id hi => h7.old (h3.range id hi).2) h5, by simp [h6]⟩,
          h3.trans h7⟩

/-- Reading the elements of a list, with the value as a list. -/
def readList (rd : Nat → Except Fail (Val × Nat)) (k pos : Nat) : Except Fail (Val × Nat) :=
  match readItems rd k pos with
  | .error e => .error e
  | .ok (vs, pos) => .ok (.list vs, pos)

theorem memList_agrees {m : Variable} (hl : m.isList = true) {rd : Nat → Heap → Filled Obj}
    {rd' : Nat → Except Fail (Val × Nat)}
    (hrd : ∀ pos h, Agrees (fun h o v ids => Own p h m.vartype o v ids) h (rd pos h) (rd' pos))
    {texts : Bool} (ht : texts = decide (m.vartype = "string")) (k pos : Nat) (h : Heap) :
    Agrees (fun h o v ids => ∃ ws, v = .list ws ∧ ∀ {ms fs vs b}, OwnFields p h ms fs vs b →
      OwnFields p h (m :: ms) ((m.name, o) :: fs) ((m.name, .list ws) :: vs) (ids ++ b)) h
      (memList rd texts k k pos h) (readList rd' k pos) := by
  unfold Agrees memList readList
  by_cases hs : m.vartype = "string"
  · rw [ht, decide_eq_true hs, if_pos rfl]
    have h1 := memItems_agrees hrd k pos ((h.alloc (.objs [])).alloc (.lens []))
    unfold Agrees at h1
    generalize hx : memItems rd k pos _ = x at h1
    obtain ⟨os, h', r⟩ := x
    cases r with
    | error e => simp only at h1 ⊢; rw [h1]
    | ok pos1 =>
      simp only at h1 ⊢
      obtain ⟨vs, ids, h1, ⟨h2, h3⟩, h4⟩ := h1
      rw [h1]
      have hg : Grown h h' ([h.next] ++ ([h.next + 1] ++ ids)) :=
        (Grown.alloc h _).trans ((Grown.alloc (h.alloc (.objs [])) _).trans h4)
      have hne : ∀ id ∈ ids, id ≠ h.next ∧ id ≠ h.next + 1 := fun id hi => by
        have := (h4.range id hi).1; simp only [Heap.alloc] at this; omega
      refine ⟨_, _, rfl, ⟨vs, rfl, fun hr => ?_⟩, (hg.set (by simp) _).set (by simp) _⟩
      rw [← h3]
      refine .texts hl hs (set_other _ (by omega) |>.trans (set_self _ _ _)) (set_self _ _ _) ?_ hr
      rw [hs] at h2
      exact h2.mono fun id hi => (set_other _ (hne id hi).2).trans (set_other _ (hne id hi).1)
  · rw [ht, decide_eq_false hs, if_neg (by simp)]
    have h1 := memItems_agrees hrd k pos (h.alloc (.objs []))
    unfold Agrees at h1
    generalize hx : memItems rd k pos _ = x at h1
    obtain ⟨os, h', r⟩ := x
    cases r with
    | error e => simp only at h1 ⊢; rw [h1]
    | ok pos1 =>
      simp only at h1 ⊢
      obtain ⟨vs, ids, h1, ⟨h2, h3⟩, h4⟩ := h1
      rw [h1]
      have hg : Grown h h' ([h.next] ++ ids) := (Grown.alloc h _).trans h4
      have hne : ∀ id ∈ ids, id ≠ h.next := fun id hi => by
        have := (h4.range id hi).1; simp only [Heap.alloc] at this; omega
      refine ⟨_, _, rfl, ⟨vs, rfl, fun hr => ?_⟩, hg.set (by simp) _⟩
      rw [← h3]
      exact .list hl hs (set_self _ _ _) (h2.mono fun id hi => set_other _ (hne id hi)) hr

theorem atomFor_isText {h : Usable p} {t : String} {a : RAtom} (ha : AtomFor (readSem p) .eof p t a) :
    (a == .text) = decide (t = "string") := by
  cases ha with
  | num => rename_i n prim hp; simp [name_ne_string n]
  | text => simp
  | enum he _ => simp [(text_ne_enum h he).symm]
  | struct hs => simp [(text_ne_struct h hs).symm]
  | whole hs => simp [(text_ne_struct h hs).symm]

theorem memMembers_agrees (h : Usable p) {b : Buf} {rd : RAtom → Nat → Heap → Filled Obj}
    {rd' : RAtom → Nat → Except Fail (Val × Nat)}
    (hrd : ∀ {t a}, AtomFor (readSem p) .eof p t a → ∀ pos h,
      Agrees (fun h o v ids => Own p h t o v ids) h (rd a pos h) (rd' a pos))
    {params : List Loc} {ms : List Variable} {sts : List RStmt} {rs : List (String × Loc)}
    (hb : BodyFor (readSem p) .eof p params ms sts rs) :
    ∀ pos h, Agrees (fun h os vs ids =>
        OwnFields p h ms ((rs.map (·.1)).zip os) (zipNames ms vs) ids) h
      (memMembers p rd b pos h sts) (readMembers (readSem p) rd' b pos sts) := by
  induction hb with
  | nil => intro pos hp; exact ⟨[], [], rfl, .nil, .refl hp⟩
  | @cons m ms st sts dst rs hst hd1 hd2 hb ih =>
    intro pos hp
    cases hst with
    | @one a _ hl ha =>
      have h1 := hrd ha pos hp
      unfold Agrees at h1 ⊢
      simp only [memMembers, memStmt, readMembers, bind, Except.bind]
      generalize hx : rd a pos hp = x at h1
      obtain ⟨o, h1', r⟩ := x
      cases r with
      | error e => simp only at h1 ⊢; rw [h1]
      | ok pos1 =>
        simp only at h1 ⊢
        obtain ⟨v, ids, h1, h2, h3⟩ := h1
        rw [h1]
        have h4 := ih pos1 h1'
        unfold Agrees at h4
        generalize hy : memMembers p rd b pos1 h1' sts = y at h4
        obtain ⟨os, h2', r⟩ := y
        cases r with
        | error e => simp only at h4 ⊢; rw [h4]
        | ok pos2 =>
          simp only at h4 ⊢
          obtain ⟨vs, ids', h4, h5, h6⟩ := h4
          rw [h4]
          exact ⟨_, _, rfl, .one hl (h2.mono fun id hi => h6.old (h3.range id hi).2) h5, h3.trans h6⟩
    | @list a _ len prim hl hpr ha =>
      have hpr' : ∀ pos, readNum prim b pos = takeNum .eof p.listSize b pos := fun pos => hpr b pos
      unfold Agrees
      simp only [memMembers, memStmt, readMembers, bind, Except.bind]
      have e : (readSem p).num prim b pos = readNum prim b pos := rfl
      rw [e]
      cases hn : readNum prim b pos with
      | error x => rfl
      | ok r =>
        obtain ⟨n, pos1⟩ := r
        simp only
        cases hi : asInt n with
        | error x => rfl
        | ok i =>
          simp only
          cases hc : (readSem p).count i with
          | error x => rfl
          | ok k =>
            have hik : i = k := by
              simp only [readSem] at hc
              split at hc
              · cases hc
              · split at hc
                · cases hc
                · cases hc; omega
            subst hik
            simp only
            have h1 := memList_agrees hl (hrd ha) (atomFor_isText (h := h) ha) k pos1 hp
            unfold Agrees readList at h1
            generalize hx : memList (rd a) (a == .text) k k pos1 hp = x at h1
            obtain ⟨o, h1', r⟩ := x
            cases r with
            | error e =>
              simp only at h1 ⊢
              cases hq : readItems (rd' a) k pos1 with
              | error y => rw [hq] at h1; simpa using h1
              | ok y => rw [hq] at h1; simp at h1
            | ok pos2 =>
              simp only at h1 ⊢
              obtain ⟨v, ids, h1, ⟨ws, rfl, h2⟩, h3⟩ := h1
              cases hq : readItems (rd' a) k pos1 with
              | error y => rw [hq] at h1; simp at h1
              | ok y =>
                obtain ⟨ws', posw⟩ := y
                rw [hq] at h1
                simp only [Except.ok.injEq, Prod.mk.injEq, Val.list.injEq] at h1
                obtain ⟨rfl, rfl⟩ := h1
                simp only
                have h4 := ih posw h1'
                unfold Agrees at h4
                generalize hy : memMembers p rd b posw h1' sts = y at h4
                obtain ⟨os, h2', r⟩ := y
                cases r with
                | error e => simp only at h4 ⊢; rw [h4]
                | ok pos2 =>
                  simp only at h4 ⊢
                  obtain ⟨vs, ids', h4, h5, h6⟩ := h4
                  rw [h4]
                  have h2 := h2 (.nil : OwnFields p h1' [] [] [] [])
                  rw [List.append_nil] at h2
                  refine ⟨_, _, rfl, ?_, h3.trans h6⟩
                  have h7 := h2.mono (h' := h2') fun id hi => h6.old (h3.range id hi).2
                  cases h7 with
                  | one hl' _ _ => rw [hl] at hl'; cases hl'
                  | list hl ht hb' ho hr =>
                    cases hr
                    have := fun l => OwnFields.list (p := p) (ms := ms) (l := l) hl ht hb' ho h5
                    simpa [zipNames] using this _
                  | texts hl ht hb' hb'' ho hr =>
                    cases hr
                    have := OwnFields.texts (p := p) (ms := ms) hl ht hb' hb'' ho h5
                    simpa [zipNames] using this

/-- The reading functions by struct name. -/
def fns (p : Protocol) (s : String) : Option RFun := (p.struct? s).map (fromBytes p)

theorem memFun_agrees (h : Usable p) (hs : Supported p) {b : Buf}
    {rd : RAtom → Nat → Heap → Filled Obj} {rd' : RAtom → Nat → Except Fail (Val × Nat)}
    (hrd : ∀ {t a}, AtomFor (readSem p) .eof p t a → ∀ pos h,
      Agrees (fun h o v ids => Own p h t o v ids) h (rd a pos h) (rd' a pos))
    {s : Struct} (hb : s ∈ bodies p) (pos : Nat) (hp : Heap) :
    Agrees (fun h o v ids => ∃ fs vs, o = .record fs ∧ v = .record vs ∧
        OwnFields p h s.members fs vs ids) hp
      (memFun p rd b pos hp (fromBytes p s)) (runFun (readSem p) rd' b pos (fromBytes p s)) := by
  have hf := funFor h hs hb
  rw [runFun_eq hf]
  have h1 := memMembers_agrees h hrd hf.body (b := b) pos hp
  unfold Agrees at h1 ⊢
  unfold memFun
  generalize hx : memMembers p rd b pos hp (fromBytes p s).body = x at h1
  obtain ⟨os, h1', r⟩ := x
  cases r with
  | error e => simp only at h1 ⊢; rw [h1]
  | ok pos1 =>
    simp only at h1 ⊢
    obtain ⟨vs, ids, h1, h2, h3⟩ := h1
    rw [h1]
    exact ⟨_, _, rfl, ⟨_, _, rfl, rfl, h2⟩, h3⟩

theorem memAtom_agrees (h : Usable p) (hs : Supported p) (b : Buf) : ∀ fuel {t a},
    AtomFor (readSem p) .eof p t a → ∀ pos hp,
    Agrees (fun h o v ids => Own p h t o v ids) hp (memAtom p b fuel a pos hp)
      (readAtom (readSem p) (fns p) b fuel a pos)
  | 0, _, _, _, _, _ => rfl
  | fuel + 1, t, a, ha, pos, hp => by
    cases ha with
    | num hpr =>
      rename_i n prim
      unfold Agrees
      simp only [memAtom, readAtom]
      rw [show (readSem p).num prim b pos = readNum prim b pos from rfl]
      cases hn : readNum prim b pos with
      | error e => rfl
      | ok r => exact ⟨_, _, rfl, .num (readNum_typed hpr hn), .refl hp⟩
    | text => exact memString_agrees b pos hp
    | enum he hpr =>
      rename_i en prim
      unfold Agrees
      simp only [memAtom, readAtom, bind, Except.bind]
      rw [show (readSem p).num prim b pos = readNum prim b pos from rfl]
      cases hn : readNum prim b pos with
      | error e => rfl
      | ok r =>
        simp only
        cases hi : asInt r.1 with
        | error e => rfl
        | ok i =>
          simp only
          rw [show (readSem p).enum en.name i = checkDeclared p en.name i from rfl]
          cases hc : checkDeclared p en.name i with
          | error e => rfl
          | ok v =>
            obtain ⟨j, rfl⟩ := checkDeclared_int hc
            exact ⟨_, _, rfl, .enum he, .refl hp⟩
    | struct hm =>
      rename_i s
      have hst := struct?_of_mem h.structsDistinct hm
      have h1 := memFun_agrees h hs (b := b) (fun {t a} => memAtom_agrees h hs b fuel (t := t) (a := a))
        (s := s) (by simp [bodies, hm]) pos hp
      unfold Agrees at h1 ⊢
      simp only [memAtom, readAtom, fns, hst, Option.map_some]
      generalize hx : memFun p (memAtom p b fuel) b pos hp (fromBytes p s) = x at h1
      obtain ⟨o, h1', r⟩ := x
      cases r with
      | error e => exact h1
      | ok pos1 =>
        obtain ⟨v, ids, h1, ⟨fs, vs, rfl, rfl, h2⟩, h3⟩ := h1
        exact ⟨_, _, h1, .struct hm h2, h3⟩
    | whole hm hw => exact absurd (show false = true from hw) (by decide)

theorem memRead_agrees (h : Usable p) (hs : Supported p) {s : Struct} (hm : s ∈ p.messages)
    (b : Buf) (pos : Nat) (hp : Heap) :
    Agrees (fun h o v ids => ∃ fs vs, o = .record fs ∧ v = .record vs ∧
        OwnFields p h s.members fs vs ids) hp
      (memRead p s.name b pos hp) (read p s.name b pos) := by
  have := memFun_agrees h hs (b := b)
    (fun {t a} => memAtom_agrees h hs b (depth p) (t := t) (a := a)) (s := s)
    (by simp [bodies, hm]) pos hp
  rw [memRead, read, readMessage, message?_of_mem h.messagesDistinct hm]
  exact this

/-! ### Releasing -/

/-- The heap without the blocks listed. -/
def Heap.without (h : Heap) (ids : List Nat) : Heap :=
  { h with blocks := fun i => if i ∈ ids then none else h.blocks i }

theorem without_nil (h : Heap) : h.without [] = h := by simp [Heap.without]

theorem without_without (h : Heap) (a b : List Nat) : (h.without a).without b = h.without (a ++ b) := by
  simp only [Heap.without, Heap.mk.injEq, true_and]
  funext i
  by_cases ha : i ∈ a <;> by_cases hb : i ∈ b <;> simp [ha, hb]

theorem without_congr (h : Heap) {a b : List Nat} (he : ∀ i, i ∈ a ↔ i ∈ b) :
    h.without a = h.without b := by
  simp only [Heap.without, he]

theorem without_other {h : Heap} {ids : List Nat} {i : Nat} (hi : i ∉ ids) :
    (h.without ids).blocks i = h.blocks i := by simp [Heap.without, hi]

theorem free_block {h : Heap} {id : Nat} {b : Block} (hb : h.blocks id = some b) :
    h.free (.block id) = .ok (h.without [id]) := by
  simp only [Heap.free, hb, Heap.set, Heap.without, List.mem_singleton]

theorem Own.notChars {h : Heap} {t : String} {v : Val} {ids : List Nat} {s : Ptr} :
    ¬ Own p h t (.chars s) v ids := by
  intro ho; cases ho

mutual
theorem Own.fixed (h : Usable p) {hp : Heap} : ∀ {t o v ids}, Own p hp t o v ids → ¬ Varying p t →
    ids = []
  | _, _, _, _, .num _, _ => rfl
  | _, _, _, _, .enum _, _ => rfl
  | _, _, _, _, .text _, hv => absurd .text hv
  | _, _, _, _, .struct hm hf, hv => OwnFields.fixed h hf fun hb => hv ((varying_struct h hm).2 hb)
theorem OwnAll.fixed (h : Usable p) {hp : Heap} : ∀ {t os vs ids}, OwnAll p hp t os vs ids →
    ¬ Varying p t → ids = []
  | _, _, _, _, .nil, _ => rfl
  | _, _, _, _, .cons ho hr, hv => by rw [Own.fixed h ho hv, OwnAll.fixed h hr hv]; rfl
theorem OwnFields.fixed (h : Usable p) {hp : Heap} : ∀ {ms fs vs ids}, OwnFields p hp ms fs vs ids →
    ¬ VaryingBody p ms → ids = []
  | _, _, _, _, .nil, _ => rfl
  | _, _, _, _, .one (m := m) hl ho hr, hv => by
    rw [Own.fixed h ho fun hx => hv ⟨m, by simp, .inr hx⟩,
      OwnFields.fixed h hr fun ⟨m', hm', hx⟩ => hv ⟨m', by simp [hm'], hx⟩]
    rfl
  | _, _, _, _, .list (m := m) hl _ _ _ _, hv => absurd ⟨m, by simp, .inl hl⟩ hv
  | _, _, _, _, .texts (m := m) hl _ _ _ _ _, hv => absurd ⟨m, by simp, .inl hl⟩ hv
end

theorem text_varying : Varying p "string" := .text

/-- Elements of a list are found as long as its blocks are there. -/
theorem element_list {h : Heap} {id : Nat} {l : Ptr} {os : List Obj} {t : String} {vs : List Val}
    {ids : List Nat} {h' : Heap} (hb : h.blocks id = some (.objs os))
    (ho : OwnAll p h' t os vs ids) {i : Nat} {o : Obj} (hi : os[i]? = some o) :
    element h (.block id) l i = .ok o := by
  have hn : ∀ s, o ≠ .chars s := by
    rintro s rfl
    clear hb
    induction os generalizing vs ids i with
    | nil => simp at hi
    | cons o os ih =>
      cases ho with
      | cons h1 h2 =>
        cases i with
        | zero => simp only [List.getElem?_cons_zero, Option.some.injEq] at hi; subst hi; exact h1.notChars
        | succ i => exact ih h2 (by simpa using hi)
  simp only [element, Heap.at, hb, hi]

theorem own_text {h : Heap} (hu : Usable p) {o : Obj} {v : Val} {ids : List Nat}
    (ho : Own p h "string" o v ids) : ∃ id bs, o = .text (some (bs.length : Int)) (.block id) ∧
      v = .str bs ∧ ids = [id] ∧ h.blocks id = some (.chars bs) := by
  generalize ht : "string" = t at ho
  cases ho with
  | num => exact absurd ht.symm (name_ne_string _)
  | enum he => exact absurd ht (text_ne_enum hu he)
  | text hb => exact ⟨_, _, rfl, rfl, rfl, hb⟩
  | struct hs => exact absurd ht (text_ne_struct hu hs)

theorem element_texts (hu : Usable p) {h : Heap} {id id' : Nat} {os : List Obj} {vs : List Val}
    {ids : List Nat} {h' : Heap} (hb : h.blocks id = some (.objs (os.map elsPart)))
    (hb' : h.blocks id' = some (.lens (os.map lensPart)))
    (ho : OwnAll p h' "string" os vs ids) {i : Nat} {o : Obj} (hi : os[i]? = some o) :
    element h (.block id) (.block id') i = .ok o := by
  have hn : ∃ n s, o = .text n s := by
    clear hb hb'
    induction os generalizing vs ids i with
    | nil => simp at hi
    | cons o os ih =>
      cases ho with
      | cons h1 h2 =>
        cases i with
        | zero =>
          simp only [List.getElem?_cons_zero, Option.some.injEq] at hi
          subst hi
          obtain ⟨id, bs, h3, _⟩ := own_text hu h1
          exact ⟨_, _, h3⟩
        | succ i => exact ih h2 (by simpa using hi)
  obtain ⟨n, s, rfl⟩ := hn
  simp [element, Heap.at, hb, hb', hi, elsPart, lensPart]

theorem cleanEach_own {one : Obj → Heap → Except Fail Heap} {t : String}
    (hone : ∀ {h o v ids}, Own p h t o v ids → ids.Nodup → one o h = .ok (h.without ids))
    {els lens : Ptr} {keep : List Nat} {h0 : Heap} {all : List Obj}
    (hel : ∀ h : Heap, (∀ i ∈ keep, h.blocks i = h0.blocks i) → ∀ i o, all[i]? = some o →
      element h els lens i = .ok o) :
    ∀ {os vs ids}, ∀ (pre : List Obj) (h : Heap), all = pre ++ os → OwnAll p h t os vs ids → ids.Nodup →
      (∀ i ∈ keep, i ∉ ids ∧ h.blocks i = h0.blocks i) →
      cleanEach one els lens os.length pre.length h = .ok (h.without ids)
  | [], _, _, pre, h, _, .nil, _, _ => by rw [without_nil]; rfl
  | o :: os, _, _, pre, h, he, .cons (a := a) (b := b) ho hr, hn, hk => by
    obtain ⟨hna, hnb, hab⟩ := List.nodup_append.1 hn
    have hnb' : ∀ i ∈ b, i ∉ a := fun i hi hi' => hab i hi' i hi rfl
    simp only [List.length_cons, cleanEach]
    rw [hel h (fun i hi => (hk i hi).2) pre.length o (by simp [he])]
    simp only
    rw [hone ho hna]
    simp only
    have := cleanEach_own hone hel (os := os) (pre ++ [o]) (h.without a) (by simp [he])
      (hr.mono fun i hi => without_other (hnb' i hi)) hnb (fun i hi => by
        have := hk i hi
        simp only [List.mem_append, not_or] at this
        exact ⟨this.1.2, (without_other this.1.1).trans this.2⟩)
    rw [List.length_append] at this
    simp only [List.length_cons, List.length_nil, Nat.zero_add] at this
    rw [this, without_without]

theorem lookup_of_nodup {β : Type} : ∀ {l : List (String × β)} {x : String × β},
    (l.map (·.1)).Nodup → x ∈ l → l.lookup x.1 = some x.2
  | (a, b) :: l, x, hn, hx => by
    simp only [List.map_cons, List.nodup_cons] at hn
    rcases List.mem_cons.1 hx with rfl | hx'
    · simp
    · have : (x.1 == a) = false := by
        rw [beq_eq_false_iff_ne]
        rintro rfl
        exact hn.1 (List.mem_map_of_mem hx')
      rw [List.lookup_cons, this]
      exact lookup_of_nodup hn.2 hx'

theorem OwnFields.names {h : Heap} : ∀ {ms fs vs ids}, OwnFields p h ms fs vs ids →
    fs.map (·.1) = ms.map (·.name)
  | _, _, _, _, .nil => rfl
  | _, _, _, _, .one _ _ hr => by simp [OwnFields.names hr]
  | _, _, _, _, .list _ _ _ _ hr => by simp [OwnFields.names hr]
  | _, _, _, _, .texts _ _ _ _ _ hr => by simp [OwnFields.names hr]

theorem simple_type (h : Usable p) {t : String} (hk : KnownType p t) :
    (p.simpleVar { name := "", vartype := t, isList := false } false = true) ↔ ¬ Varying p t :=
  (simpleVar_spec h (v := { name := "", vartype := t, isList := false }) (.inl rfl) hk).2

theorem cleanMembers_own (h : Usable p) {one : String → Obj → Heap → Except Fail Heap} {d : Nat}
    (hone : ∀ {t}, fits p d t → KnownType p t → ∀ {h o v ids}, Own p h t o v ids → ids.Nodup →
      one t o h = .ok (h.without ids)) {all : List (String × Obj)} :
    ∀ {ms fs vs ids}, ∀ (hp : Heap), OwnFields p hp ms fs vs ids → ids.Nodup →
      (∀ m ∈ ms, fits p d m.vartype) → (∀ m ∈ ms, KnownType p m.vartype) →
      (∀ x ∈ fs, all.lookup x.1 = some x.2) →
      cleanMembers p one all ms hp = .ok (hp.without ids)
  | _, _, _, _, hp, .nil, _, _, _, _ => by rw [without_nil]; rfl
  | _, _, _, _, hp, .one (m := m) (o := o) (a := a) (b := b) hl ho hr, hn, hf, hk, hall => by
    obtain ⟨hna, hnb, hab⟩ := List.nodup_append.1 hn
    have hnb' : ∀ i ∈ b, i ∉ a := fun i hi hi' => hab i hi' i hi rfl
    have h1 : cleanVar p one m o hp = .ok (hp.without a) := by
      unfold cleanVar
      by_cases hv : Varying p m.vartype
      · rw [if_neg (by rw [(simpleVar_spec h (.inl hl) (hk m (by simp))).2]; exact not_not.2 hv),
          if_neg (by simp [hl])]
        exact hone (hf m (by simp)) (hk m (by simp)) ho hna
      · rw [if_pos ((simpleVar_spec h (.inl hl) (hk m (by simp))).2.2 hv), ho.fixed h hv, without_nil]
    simp only [cleanMembers, hall _ (List.mem_cons_self ..), h1]
    rw [cleanMembers_own h hone _ (hr.mono fun i hi => without_other (hnb' i hi)) hnb
      (fun m hm => hf m (by simp [hm])) (fun m hm => hk m (by simp [hm]))
      (fun x hx => hall x (by simp [hx])), without_without]
  | _, _, _, _, hp, .list (m := m) (os := os) (a := a) (b := b) (id := id) (l := l) hl ht hb ho hr, hn, hf, hk,
      hall => by
    rw [List.cons_append, List.nodup_cons] at hn
    obtain ⟨hni, hn⟩ := hn
    simp only [List.mem_append, not_or] at hni
    obtain ⟨hna, hnb, hab⟩ := List.nodup_append.1 hn
    have hnb' : ∀ i ∈ b, i ∉ id :: a := fun i hi hi' => by
      rcases List.mem_cons.1 hi' with rfl | hi'
      · exact hni.2 hi
      · exact hab i hi' i hi rfl
    have h1 : cleanVar p one m (.list (some os.length) (.block id) l) hp =
        .ok (hp.without (id :: a)) := by
      unfold cleanVar
      rw [if_neg (by rw [(simpleVar_list hl).2]; simp), if_pos hl]
      simp only
      by_cases hv : Varying p m.vartype
      · rw [if_neg (by rw [(simpleVar_spec h (.inr rfl) (hk m (by simp))).2]; exact not_not.2 hv)]
        have := cleanEach_own (p := p) (t := m.vartype) (one := one m.vartype)
          (hone (hf m (by simp)) (hk m (by simp))) (els := .block id) (lens := l) (keep := [id])
          (h0 := hp) (all := os) (fun h' hk' i o hi => element_list
            ((hk' id (by simp)).trans hb) ho hi) [] hp rfl ho hna (fun i hi => by
              simp only [List.mem_singleton] at hi; subst hi; exact ⟨hni.1, rfl⟩)
        simp only [Int.toNat_natCast]
        simp only [List.length_nil] at this
        rw [this]
        simp only
        rw [if_neg ht, free_block ((without_other hni.1).trans hb), without_without]
        rw [without_congr hp (b := id :: a) (by simp [or_comm])]
      · rw [if_pos ((simpleVar_spec h (.inr rfl) (hk m (by simp))).2.2 hv), free_block hb, ho.fixed h hv]
    rw [← ho.length] at hall
    simp only [cleanMembers, hall _ (List.mem_cons_self ..), h1]
    rw [cleanMembers_own h hone _ (hr.mono fun i hi => without_other (hnb' i hi)) hnb
      (fun m hm => hf m (by simp [hm])) (fun m hm => hk m (by simp [hm]))
      (fun x hx => hall x (by simp [hx])), without_without]
  | _, _, _, _, hp, .texts (m := m) (os := os) (a := a) (b := b) (id := id) (id' := id') hl ht hb hb' ho hr, hn,
      hf, hk, hall => by
    rw [List.cons_append, List.cons_append, List.nodup_cons, List.nodup_cons] at hn
    obtain ⟨hni, hni', hn⟩ := hn
    simp only [List.mem_cons, List.mem_append, not_or] at hni hni'
    obtain ⟨hna, hnb, hab⟩ := List.nodup_append.1 hn
    have hnb' : ∀ i ∈ b, i ∉ id :: id' :: a := fun i hi hi' => by
      rcases List.mem_cons.1 hi' with rfl | hi'
      · exact hni.2.2 hi
      · rcases List.mem_cons.1 hi' with rfl | hi'
        · exact hni'.2 hi
        · exact hab i hi' i hi rfl
    have h1 : cleanVar p one m (.list (some os.length) (.block id) (.block id')) hp =
        .ok (hp.without (id :: id' :: a)) := by
      unfold cleanVar
      have hv : Varying p m.vartype := by rw [ht]; exact text_varying
      rw [if_neg (by rw [(simpleVar_list hl).2]; simp), if_pos hl]
      simp only
      rw [if_neg (by rw [(simpleVar_spec h (.inr rfl) (hk m (by simp))).2]; exact not_not.2 hv)]
      have := cleanEach_own (p := p) (t := m.vartype) (one := one m.vartype)
        (hone (hf m (by simp)) (hk m (by simp))) (els := .block id) (lens := .block id')
        (keep := [id, id'])
        (h0 := hp) (all := os) (fun h' hk' i o hi => element_texts h
          ((hk' id (by simp)).trans hb) ((hk' id' (by simp)).trans hb') ho hi) [] hp rfl
          (by rw [ht]; exact ho) hna (fun i hi => by
            simp only [List.mem_cons, List.not_mem_nil, or_false] at hi
            rcases hi with rfl | rfl
            · exact ⟨hni.2.1, rfl⟩
            · exact ⟨hni'.1, rfl⟩)
      simp only [Int.toNat_natCast]
      simp only [List.length_nil] at this
      rw [this]
      simp only
      rw [if_pos ht, free_block ((without_other hni'.1).trans hb')]
      simp only
      rw [without_without, free_block ((without_other (by simp [hni.1, hni.2.1])).trans hb), without_without]
      rw [without_congr hp (b := id :: id' :: a) (by simp; tauto)]
    rw [← ho.length] at hall
    simp only [cleanMembers, hall _ (List.mem_cons_self ..), h1]
    rw [cleanMembers_own h hone _ (hr.mono fun i hi => without_other (hnb' i hi)) hnb
      (fun m hm => hf m (by simp [hm])) (fun m hm => hk m (by simp [hm]))
      (fun x hx => hall x (by simp [hx])), without_without]

theorem cleanOne_own (h : Usable p) (hs : Supported p) : ∀ d fuel, d < fuel → ∀ {t}, fits p d t →
    KnownType p t → ∀ {hp o v ids}, Own p hp t o v ids → ids.Nodup →
    cleanOne p fuel t o hp = .ok (hp.without ids)
  | d, fuel + 1, hd, t, hf, hk, hp, o, v, ids, ho, hn => by
    unfold cleanOne
    by_cases hv : Varying p t
    · rw [if_neg (by rw [simple_type h hk]; exact not_not.2 hv)]
      cases ho with
      | num => exact absurd hv (varying_num h _)
      | enum he => exact absurd hv (varying_enum h he)
      | text hb => rw [if_pos rfl]; simp only; exact free_block hb
      | @struct s fs vs _ hm hof =>
        rw [if_neg (text_ne_struct h hm).symm, struct?_of_mem h.structsDistinct hm]
        simp only
        match d, fuel, hd, hf with
        | 0, _, _, hf =>
          have hf : p.struct? s.name = none := hf
          rw [struct?_of_mem h.structsDistinct hm] at hf
          cases hf
        | d + 1, fuel + 1, hd, hf =>
          exact cleanMembers_own h (fun hf' hk' => cleanOne_own h hs d (fuel + 1) (by omega) hf' hk') hp hof hn
            (hf _ (struct?_of_mem h.structsDistinct hm)) (fun m hm' => h.known_of_struct hm hm')
            (fun x hx => lookup_of_nodup (by
              rw [hof.names]; exact hs.names _ (by simp [bodies, hm])) hx)
    · rw [if_pos ((simple_type h hk).2 hv), ho.fixed h hv, without_nil]

theorem cleanup_own (h : Usable p) (hs : Supported p) {s : Struct} (hm : s ∈ p.messages) {hp : Heap}
    {fs : List (String × Obj)} {vs : List (String × Val)} {ids : List Nat}
    (ho : OwnFields p hp s.members fs vs ids) (hn : ids.Nodup) :
    cleanup p s.name (.record fs) hp = .ok (hp.without ids) := by
  simp only [cleanup, message?_of_mem h.messagesDistinct hm]
  exact cleanMembers_own h (fun hf' hk' => cleanOne_own h hs p.structs.length (depth p)
    (by simp [depth]) hf' hk') hp ho hn (fun m _ => h.fits _)
    (fun m hm' => h.types s (by simp [hm]) m hm')
    (fun x hx => lookup_of_nodup (by rw [ho.names]; exact hs.names _ (by simp [bodies, hm])) hx)

/-! ### Streams -/

theorem Grown.fresh {h h' : Heap} {ids : List Nat} (hf : h.Fresh) (x : Grown h h' ids) : h'.Fresh := by
  intro id hi
  rw [x.same id fun hm => by have := x.range id hm; omega]
  exact hf id (Nat.le_trans x.next hi)

theorem Grown.without {h h' : Heap} {ids : List Nat} (hf : h.Fresh) (x : Grown h h' ids) :
    (h'.without ids).blocks = h.blocks := by
  funext i
  by_cases hi : i ∈ ids
  · simp only [Heap.without, if_pos hi]
    exact (hf i (x.range i hi).1).symm
  · rw [without_other hi, x.same i hi]

/-- The pointers point to the messages; the blocks listed are those that belong to them. -/
inductive OwnMsgs (p : Protocol) (h : Heap) : List Ptr → List (String × Val) → List Nat → Prop
  | nil : OwnMsgs p h [] [] []
  | cons {s : Struct} {id fs vs a qs ms b} : s ∈ p.messages →
      h.blocks id = some (.message s.name (.record fs)) → OwnFields p h s.members fs vs a →
      OwnMsgs p h qs ms b →
      OwnMsgs p h (.block id :: qs) ((s.name, .record vs) :: ms) (id :: a ++ b)

theorem OwnMsgs.mono {h h' : Heap} : ∀ {qs ms ids}, OwnMsgs p h qs ms ids →
    (∀ id ∈ ids, h'.blocks id = h.blocks id) → OwnMsgs p h' qs ms ids
  | _, _, _, .nil, _ => .nil
  | _, _, _, .cons hm hb ho hr, hs => .cons hm ((hs _ (by simp)).trans hb)
      (ho.mono fun id hi => hs id (by simp [hi])) (hr.mono fun id hi => hs id (by simp [hi]))

theorem OwnMsgs.append {h : Heap} : ∀ {qs ms ids qs' ms' ids'}, OwnMsgs p h qs ms ids →
    OwnMsgs p h qs' ms' ids' → OwnMsgs p h (qs ++ qs') (ms ++ ms') (ids ++ ids')
  | _, _, _, _, _, _, .nil, hr => hr
  | _, _, _, _, _, _, .cons hm hb ho hr, hr' => by
    have := OwnMsgs.cons hm hb ho (hr.append hr')
    simpa using this

theorem OwnMsgs.length {h : Heap} : ∀ {qs ms ids}, OwnMsgs p h qs ms ids → qs.length = ms.length
  | _, _, _, .nil => rfl
  | _, _, _, .cons _ _ _ hr => by simp [hr.length]

theorem destroy_own (h : Usable p) (hs : Supported p) {s : Struct} (hm : s ∈ p.messages) {hp : Heap}
    {id : Nat} {fs : List (String × Obj)} {vs : List (String × Val)} {a : List Nat}
    (hb : hp.blocks id = some (.message s.name (.record fs)))
    (ho : OwnFields p hp s.members fs vs a) (hn : (id :: a).Nodup) :
    destroy p s.name (.block id) hp = .ok (hp.without (id :: a)) := by
  obtain ⟨hi, hn⟩ := List.nodup_cons.1 hn
  simp only [destroy, Heap.at, hb, cleanup_own h hs hm ho hn]
  rw [free_block ((without_other hi).trans hb), without_without,
    without_congr hp (b := id :: a) (by simp [or_comm])]

theorem destroyEach_own (h : Usable p) (hs : Supported p) : ∀ {qs ms ids}, ∀ (hp : Heap),
    OwnMsgs p hp qs ms ids → ids.Nodup → destroyEach p qs hp = .ok (hp.without ids)
  | _, _, _, hp, .nil, _ => by rw [without_nil]; rfl
  | _, _, _, hp, .cons (id := id) (a := a) (b := b) hm hb ho hr, hn => by
    obtain ⟨hna, hnb, hab⟩ := List.nodup_append.1 hn
    simp only [destroyEach, Heap.at, hb, message?_of_mem h.messagesDistinct hm,
      destroy_own h hs hm hb ho hna]
    rw [destroyEach_own h hs _ (hr.mono fun i hi => without_other fun hi' => hab i hi' i hi rfl) hnb,
      without_without]

theorem destroyList_own (h : Usable p) (hs : Supported p) {hp : Heap} {id room : Nat} {qs : List Ptr}
    {ms : List (String × Val)} {ids : List Nat} (hb : hp.blocks id = some (.array room qs))
    (ho : OwnMsgs p hp qs ms ids) (hn : (id :: ids).Nodup) :
    destroyList p (.block id) qs.length hp = .ok (hp.without (id :: ids)) := by
  obtain ⟨hi, hn⟩ := List.nodup_cons.1 hn
  simp only [destroyList, Heap.at, hb, lt_irrefl, ↓reduceIte, List.take_length,
    destroyEach_own h hs hp ho hn]
  rw [free_block ((without_other hi).trans hb), without_without,
    without_congr hp (b := id :: ids) (by simp [or_comm])]

/-- The state of the loop: block `id` is the list, with the messages read so far. -/
structure Listed (p : Protocol) (h0 h : Heap) (room id : Nat) (qs : List Ptr)
    (ms : List (String × Val)) (ids : List Nat) : Prop where
  grown : Grown h0 h (id :: ids)
  array : h.blocks id = some (.array room qs)
  msgs : OwnMsgs p h qs ms ids
  fits : qs.length ≤ room
  some : 0 < room

theorem grow_room {room : Nat} {qs : List Ptr} (hs : 0 < room) (hr : qs.length ≤ room) (id : Nat) (h : Heap) :
    qs.length < (grow room qs id h).1 := by
  unfold C.grow
  split
  · assumption
  · show qs.length < 2 * room
    omega

theorem Listed.grow {h0 h : Heap} (hf : h0.Fresh) {room id : Nat} {qs : List Ptr}
    {ms : List (String × Val)} {ids : List Nat} (hl : Listed p h0 h room id qs ms ids) :
    Listed p h0 (grow room qs id h).2.2 (grow room qs id h).1 (grow room qs id h).2.1 qs ms ids := by
  unfold C.grow
  split
  · exact hl
  · have hid := hl.grown.range id (by simp)
    have hn := List.nodup_cons.1 hl.grown.nodup
    have hnew : ∀ i ∈ ids, i ≠ h.next ∧ i ≠ id := fun i hi => by
      have := hl.grown.range i (by simp [hi])
      exact ⟨by omega, fun e => hn.1 (e ▸ hi)⟩
    refine ⟨⟨?_, ?_, ?_, ?_⟩, ?_, ?_, show qs.length ≤ 2 * room by have := hl.fits; omega,
      show 0 < 2 * room by have := hl.some; omega⟩
    · exact Nat.le_trans hl.grown.next (Nat.le_succ _)
    · intro i hi
      rcases List.mem_cons.1 hi with rfl | hi
      · exact ⟨hl.grown.next, Nat.lt_succ_self _⟩
      · have := hl.grown.range i (by simp [hi])
        exact ⟨this.1, Nat.lt_succ_of_lt this.2⟩
    · exact List.nodup_cons.2 ⟨fun hi => (hnew _ hi).1 rfl, hn.2⟩
    · intro i hi
      simp only [List.mem_cons, not_or] at hi
      by_cases he : i = id
      · subst he
        simp only [Heap.set, ↓reduceIte]
        exact (hf i hid.1).symm
      · rw [set_other _ he]
        simp only [Heap.alloc, if_neg hi.1]
        exact hl.grown.same i (by simp [he, hi.2])
    · rw [set_other _ (show h.next ≠ id by omega)]
      simp [Heap.alloc]
    · refine hl.msgs.mono fun i hi => ?_
      rw [set_other _ (hnew i hi).2]
      simp [Heap.alloc, (hnew i hi).1]

theorem memLoop_agrees (h : Usable p) (hs : Supported p) (b : Buf) (max : Int) {h0 : Heap}
    (hf : h0.Fresh) : ∀ fuel {room id qs ms ids} pos hp, Listed p h0 hp room id qs ms ids →
    match memLoop p b max fuel room id qs pos hp with
    | (_, _, .error e) => processLoop (fun pos => decide (b.length ≤ pos))
        (taggedStep (takeTag .eof b) (dispatch p) (fun m pos => read p m b pos) .invalid) max fuel ms pos =
          .error e
    | ((id', qs'), hp', .ok pos') => ∃ ms' room' ids',
        processLoop (fun pos => decide (b.length ≤ pos))
          (taggedStep (takeTag .eof b) (dispatch p) (fun m pos => read p m b pos) .invalid) max fuel ms pos =
          .ok (ms', pos') ∧ Listed p h0 hp' room' id' qs' ms' ids'
  | 0, _, _, _, _, _, _, _, _ => rfl
  | fuel + 1, room, id, qs, ms, ids, pos, hp, hl => by
    have hlen := hl.msgs.length
    unfold memLoop processLoop
    by_cases hc : pos < b.length ∧ (max < 0 ∨ (qs.length : Int) < max)
    · rw [if_pos hc, if_pos (by
        rw [← hlen]
        simp only [Bool.and_eq_true, Bool.not_eq_true', decide_eq_false_iff_not, not_le, Bool.or_eq_true,
          decide_eq_true_eq]
        exact hc)]
      have hr := grow_room hl.some hl.fits id hp
      have hl := hl.grow hf
      generalize grow room qs id hp = g at hl hr
      obtain ⟨room, id, hp⟩ := g
      simp only at hl hr ⊢
      have hr' : ¬ room ≤ qs.length := by omega
      unfold taggedStep
      cases ht : takeTag .eof b pos with
      | error e => rfl
      | ok r =>
        obtain ⟨t, pos1⟩ := r
        simp only
        by_cases h0t : t = 0
        · simp only [if_pos h0t]
          exact ⟨_, _, _, rfl, hl⟩
        · simp only [if_neg h0t]
          cases hd : dispatch p t with
          | none => rfl
          | some m =>
            simp only
            obtain ⟨s, hsm, rfl⟩ : ∃ s ∈ p.messages, s.name = m := by
              have := dispatch_known hd
              simpa [messageNames] using this
            have ha := memRead_agrees h hs hsm b pos1 (hp.alloc (.message s.name .wild))
            unfold Agrees at ha
            generalize hx : memRead p s.name b pos1 (hp.alloc (.message s.name .wild)) = x at ha
            obtain ⟨o, hp', r⟩ := x
            cases r with
            | error e => simp only [hr', if_false] at ha ⊢; rw [ha]
            | ok pos2 =>
              simp only [hr', if_false] at ha ⊢
              obtain ⟨v, ids', ha, ⟨fs, vs, rfl, rfl, ho⟩, hg⟩ := ha
              rw [ha]
              simp only
              have hg' : Grown h0 hp' ((id :: ids) ++ ([hp.next] ++ ids')) :=
                hl.grown.trans ((Grown.alloc hp _).trans hg)
              have hid := hl.grown.range id (by simp)
              have hn := List.nodup_cons.1 hl.grown.nodup
              have hids' : ∀ i ∈ ids', i ≠ hp.next ∧ i ≠ id := fun i hi => by
                have := hg.range i hi; simp only [Heap.alloc] at this; omega
              have hids : ∀ i ∈ ids, i ≠ hp.next ∧ i ≠ id := fun i hi => by
                have := hl.grown.range i (by simp [hi])
                exact ⟨by omega, fun e => hn.1 (e ▸ hi)⟩
              refine memLoop_agrees h hs b max hf fuel pos2 _ (ids := ids ++ (hp.next :: ids' ++ []))
                ⟨?_, ?_, ?_, by simp; omega, hl.some⟩
              · have := (hg'.set (id := hp.next) (by simp) (some (.message s.name (.record fs)))).set
                  (id := id) (by simp) (some (.array room (qs ++ [.block hp.next])))
                simpa using this
              · exact set_self _ _ _
              · refine OwnMsgs.append (hl.msgs.mono fun i hi => ?_) (.cons hsm ?_ (ho.mono fun i hi => ?_) .nil)
                · rw [set_other _ (hids i hi).2, set_other _ (hids i hi).1,
                    hg.old (by have := hl.grown.range i (by simp [hi]); simp only [Heap.alloc]; omega)]
                  simp [Heap.alloc, (hids i hi).1]
                · rw [set_other _ (by omega), set_self]
                · rw [set_other _ (hids' i hi).2, set_other _ (hids' i hi).1]
    · rw [if_neg hc, if_neg (by
        rw [← hlen]
        simp only [Bool.and_eq_true, Bool.not_eq_true', decide_eq_false_iff_not, not_le, Bool.or_eq_true,
          decide_eq_true_eq]
        exact hc)]
      exact ⟨_, _, _, rfl, hl⟩

theorem memProcess_agrees (h : Usable p) (hs : Supported p) (b : Buf) (pos : Nat) (max : Int) {h0 : Heap}
    (hf : h0.Fresh) :
    match memProcess p b pos max h0 with
    | (_, _, .error e) => process p b pos max = .error e
    | ((id, qs), hp, .ok pos') => ∃ ms room ids, process p b pos max = .ok (ms, pos') ∧
        Listed p h0 hp room id qs ms ids := by
  have hl : Listed p h0 (h0.alloc (.array 8 [])) 8 h0.next [] [] [] :=
    ⟨Grown.alloc h0 _, by simp [Heap.alloc], .nil, by simp, by simp⟩
  unfold memProcess process processBytes
  by_cases h0' : max = 0
  · rw [if_pos h0', if_pos h0']
    exact ⟨_, _, _, rfl, hl⟩
  · rw [if_neg h0', if_neg h0']
    exact memLoop_agrees h hs b max hf _ pos _ hl

end Beschi.Lang.C
