import Verif.Lang.CMemoryProof
/-
Helper lemmas about writing, measuring and creating messages in memory (C).
-/
namespace Beschi.Lang.C
open Spec

/-! ### What a value in memory stands for -/

/-- A number, `bool` or enum. -/
def Scalar : Val → Prop
  | .int _ | .bool _ | .bits _ => True
  | _ => False

mutual
/-- The object represents the value, and everything that belongs to it can be looked at. -/
inductive Rep (h : Heap) : Obj → Val → Prop
  | num {v} : Scalar v → Rep h (.num v) v
  | text {id bs} : h.blocks id = some (.chars bs) →
      Rep h (.text (some bs.length) (.block id)) (.str bs)
  | empty : Rep h (.text (some 0) .literal) (.str [])
  | list {els lens os vs} : (∀ i o, os[i]? = some o → element h els lens i = .ok o) →
      RepAll h os vs → Rep h (.list (some vs.length) els lens) (.list vs)
  | record {fs vs} : RepFields h fs vs → Rep h (.record fs) (.record vs)
/-- The same for the elements of a list. -/
inductive RepAll (h : Heap) : List Obj → List Val → Prop
  | nil : RepAll h [] []
  | cons {o os v vs} : Rep h o v → RepAll h os vs → RepAll h (o :: os) (v :: vs)
/-- The same for the members of a struct. -/
inductive RepFields (h : Heap) : List (String × Obj) → List (String × Val) → Prop
  | nil : RepFields h [] []
  | cons {n o fs v vs} : Rep h o v → RepFields h fs vs → RepFields h ((n, o) :: fs) ((n, v) :: vs)
end

variable {p : Protocol} {h : Heap}

theorem scalar_of_dec {n : NumTy} {v : Val} {bs : List UInt8} (hd : DecNum n v bs) : Scalar v := by
  rw [← fromLE_of_dec hd]
  cases n <;> exact trivial

mutual
theorem Own.rep (hu : Usable p) : ∀ {t o v ids}, Own p h t o v ids → Rep h o v
  | _, _, _, _, .num ⟨_, hd⟩ => .num (scalar_of_dec hd)
  | _, _, _, _, .enum _ => .num trivial
  | _, _, _, _, .text hb => .text hb
  | _, _, _, _, .struct _ hf => .record (OwnFields.rep hu hf)
theorem OwnAll.rep (hu : Usable p) : ∀ {t os vs ids}, OwnAll p h t os vs ids → RepAll h os vs
  | _, _, _, _, .nil => .nil
  | _, _, _, _, .cons ho hr => .cons (Own.rep hu ho) (OwnAll.rep hu hr)
theorem OwnFields.rep (hu : Usable p) : ∀ {ms fs vs ids}, OwnFields p h ms fs vs ids → RepFields h fs vs
  | _, _, _, _, .nil => .nil
  | _, _, _, _, .one _ ho hr => .cons (Own.rep hu ho) (OwnFields.rep hu hr)
  | _, _, _, _, .list _ _ hb ho hr =>
    .cons (.list (fun _ _ hi => element_list hb ho hi) (OwnAll.rep hu ho)) (OwnFields.rep hu hr)
  | _, _, _, _, .texts _ _ hb hb' ho hr =>
    .cons (.list (fun _ _ hi => element_texts hu hb hb' ho hi) (OwnAll.rep hu ho)) (OwnFields.rep hu hr)
end

theorem RepFields.lookup : ∀ {fs : List (String × Obj)} {vs : List (String × Val)}, RepFields h fs vs →
    ∀ {n v}, vs.lookup n = some v → ∃ o, fs.lookup n = some o ∧ Rep h o v
  | _, _, .nil, _, _, hl => by simp at hl
  | _, _, .cons (n := m) ho hr, n, v, hl => by
    rw [List.lookup_cons] at hl
    simp only [List.lookup_cons]
    by_cases he : (n == m) = true
    · rw [he] at hl ⊢
      cases hl
      exact ⟨_, rfl, ho⟩
    · rw [Bool.not_eq_true] at he
      rw [he] at hl ⊢
      exact hr.lookup hl

theorem RepAll.get : ∀ {os : List Obj} {vs : List Val}, RepAll h os vs → ∀ {i : Nat} {v : Val}, vs[i]? = some v →
    ∃ o, os[i]? = some o ∧ Rep h o v
  | _, _, .nil, _, _, hi => by simp at hi
  | _, _, .cons ho hr, 0, _, hi => by
    simp only [List.getElem?_cons_zero, Option.some.injEq] at hi ⊢
    subst hi
    exact ⟨_, rfl, ho⟩
  | _, _, .cons ho hr, i + 1, _, hi => by
    simp only [List.getElem?_cons_succ] at hi ⊢
    exact hr.get hi

theorem Rep.elements {o : Obj} {vs : List Val} (hr : Rep h o (.list vs)) :
    ∃ els lens, o = .list (some vs.length) els lens ∧
      ∀ i v, vs[i]? = some v → ∃ o, element h els lens i = .ok o ∧ Rep h o v := by
  generalize hv : Val.list vs = w at hr
  cases hr with
  | num hs => subst hv; exact absurd hs (by simp [Scalar])
  | text => cases hv
  | empty => cases hv
  | record => cases hv
  | list hel ha =>
    cases hv
    refine ⟨_, _, rfl, fun i v hi => ?_⟩
    obtain ⟨o, h1, h2⟩ := ha.get hi
    exact ⟨o, hel i o h1, h2⟩

theorem Rep.fields {o : Obj} {vs : List (String × Val)} (hr : Rep h o (.record vs)) :
    ∃ fs, o = .record fs ∧ RepFields h fs vs := by
  generalize hv : Val.record vs = w at hr
  cases hr with
  | num hs => subst hv; exact absurd hs (by simp [Scalar])
  | text => cases hv
  | empty => cases hv
  | list => cases hv
  | record hf => cases hv; exact ⟨_, rfl, hf⟩

theorem Rep.chars {o : Obj} {bs : List UInt8} (hr : Rep h o (.str bs)) :
    (∃ id, o = .text (some (bs.length : Int)) (.block id) ∧ h.blocks id = some (.chars bs)) ∨
      o = .text (some 0) .literal ∧ bs = [] := by
  generalize hv : Val.str bs = w at hr
  cases hr with
  | num hs => subst hv; exact absurd hs (by simp [Scalar])
  | text hb => cases hv; exact .inl ⟨_, rfl, hb⟩
  | empty => cases hv; exact .inr ⟨rfl, rfl⟩
  | list => cases hv
  | record => cases hv

theorem Rep.scalar {o : Obj} {v : Val} (hs : Scalar v) (hr : Rep h o v) : o = .num v := by
  cases hr with
  | num => rfl
  | _ => exact absurd hs (by simp [Scalar])

/-! ### Writing -/

/-- The member a statement writes. -/
def _root_.Beschi.Lang.WStmt.source : WStmt → String
  | .one src _ => src
  | .list src _ _ => src

theorem writeNum_scalar {prim : String} {v : Val} {bs : List UInt8} (hw : writeNum prim v = .ok bs) :
    Scalar v := by
  unfold writeNum at hw
  split at hw
  · cases hw
  · split at hw
    · rename_i n hn _ bs' ht
      clear hn
      revert ht
      cases v <;> cases n <;> simp [toLE, Scalar]
    · cases hw

theorem memText_rep {o : Obj} {bs : List UInt8} {cs : List (List UInt8)} (hr : Rep h o (.str bs))
    (hw : (writeSem p).text bs = .ok cs) :
    ∃ len s, o = .text len s ∧ memText p h len s = .ok cs := by
  simp only [writeSem, bind, Except.bind] at hw
  split at hw
  · cases hw
  · rename_i k hk
    split at hw
    · cases hw
    · rename_i n hn
      cases hw
      have hk' : k = bs.length := by
        unfold lengthField at hk
        split at hk
        · cases hk; rfl
        · cases hk
      subst hk'
      rcases hr.chars with ⟨id, rfl, hb⟩ | ⟨rfl, rfl⟩
      · refine ⟨_, _, rfl, ?_⟩
        simp only [memText, hn, Heap.at, hb]
        rw [if_neg (by omega)]
        simp
      · refine ⟨_, _, rfl, ?_⟩
        simp only [memText]
        rw [show ((0 : Int)) = ((([] : List UInt8).length : Nat) : Int) from rfl, hn]
        simp

theorem memWriteEach_rep {wr : Obj → Except Fail (List (List UInt8))}
    {wr' : Val → Except Fail (List (List UInt8))}
    (hwr : ∀ o v cs, Rep h o v → wr' v = .ok cs → wr o = .ok cs) {els lens : Ptr} {all : List Val}
    (hel : ∀ i v, all[i]? = some v → ∃ o, element h els lens i = .ok o ∧ Rep h o v) :
    ∀ (vs pre : List Val) {cs}, all = pre ++ vs → writeItems wr' vs = .ok cs →
      memWriteEach wr h els lens vs.length pre.length = .ok cs
  | [], _, _, _, hw => by cases hw; rfl
  | v :: vs, pre, cs, he, hw => by
    simp only [writeItems, bind, Except.bind] at hw
    split at hw
    · cases hw
    · rename_i a ha
      split at hw
      · cases hw
      · rename_i b hb
        cases hw
        obtain ⟨o, h1, h2⟩ := hel pre.length v (by simp [he])
        have := memWriteEach_rep hwr hel vs (pre ++ [v]) (by simp [he]) hb
        simp only [List.length_append, List.length_cons, List.length_nil, Nat.zero_add] at this
        simp only [List.length_cons, memWriteEach, h1, hwr _ _ _ h2 ha, this]

theorem memWriteStmt_rep {wr : WAtom → Obj → Except Fail (List (List UInt8))}
    {wr' : WAtom → Val → Except Fail (List (List UInt8))}
    (hwr : ∀ a o v cs, Rep h o v → wr' a v = .ok cs → wr a o = .ok cs) {fs : List (String × Obj)}
    {vs : List (String × Val)} {st : WStmt}
    (hr : ∀ v, vs.lookup st.source = some v → ∃ o, fs.lookup st.source = some o ∧ Rep h o v) {a}
    (ha : writeStmt (writeSem p) wr' vs st = .ok a) : memWriteStmt wr h fs st = .ok a := by
  cases st with
  | one src at' =>
    simp only [writeStmt, bind, Except.bind, getField] at ha
    split at ha
    · cases ha
    · rename_i v hv
      split at hv
      · rename_i w hw
        cases hv
        obtain ⟨o, h2, h3⟩ := hr _ hw
        simp only [WStmt.source] at h2
        simp only [memWriteStmt, h2]
        exact hwr _ _ _ _ h3 ha
      · cases hv
  | list src prim at' =>
    simp only [writeStmt, bind, Except.bind, getField] at ha
    split at ha
    · cases ha
    · rename_i v hv
      split at hv
      · rename_i w hw
        cases hv
        cases v with
        | list ws =>
          simp only [asList] at ha
          split at ha
          · cases ha
          · rename_i i hi
            split at ha
            · cases ha
            · rename_i n hn
              split at ha
              · cases ha
              · rename_i items hit
                cases ha
                obtain ⟨o, h2, h3⟩ := hr _ hw
                simp only [WStmt.source] at h2
                obtain ⟨els, lens, rfl, hel⟩ := h3.elements
                have hi' : i = ws.length := by
                  simp only [writeSem, lengthField] at hi
                  split at hi
                  · cases hi; rfl
                  · cases hi
                subst hi'
                simp only [writeSem, List.take_length] at hn hit
                have := memWriteEach_rep (wr := wr at') (hwr at') hel ws [] rfl hit
                simp only [List.length_nil] at this
                simp only [memWriteStmt, h2, hn, Int.toNat_natCast, this]
        | _ => simp [asList] at ha
      · cases hv

theorem memWriteBody_rep {wr : WAtom → Obj → Except Fail (List (List UInt8))}
    {wr' : WAtom → Val → Except Fail (List (List UInt8))}
    (hwr : ∀ a o v cs, Rep h o v → wr' a v = .ok cs → wr a o = .ok cs) {fs : List (String × Obj)}
    {vs : List (String × Val)} (hr : RepFields h fs vs) : ∀ {sts cs},
    writeBody (writeSem p) wr' vs sts = .ok cs → memWriteBody wr h fs sts = .ok cs
  | [], _, hw => by cases hw; rfl
  | st :: sts, cs, hw => by
    simp only [writeBody, bind, Except.bind] at hw
    split at hw
    · cases hw
    · rename_i a ha
      split at hw
      · cases hw
      · rename_i b hb
        cases hw
        simp only [memWriteBody, memWriteStmt_rep hwr (fun v hv => hr.lookup hv) ha,
          memWriteBody_rep hwr hr hb]

/-- If one statement crashes and the others write what they should, the function crashes. -/
theorem memWriteBody_crash {wr : WAtom → Obj → Except Fail (List (List UInt8))}
    {wr' : WAtom → Val → Except Fail (List (List UInt8))} {fs : List (String × Obj)}
    {vs : List (String × Val)} : ∀ {sts cs},
    (∀ st ∈ sts, memWriteStmt wr h fs st = .error .crash ∨
      ∀ a, writeStmt (writeSem p) wr' vs st = .ok a → memWriteStmt wr h fs st = .ok a) →
    writeBody (writeSem p) wr' vs sts = .ok cs → (∃ st ∈ sts, memWriteStmt wr h fs st = .error .crash) →
    memWriteBody wr h fs sts = .error .crash
  | [], _, _, _, hx => by simp at hx
  | st :: sts, cs, hm, hw, hx => by
    simp only [writeBody, bind, Except.bind] at hw
    split at hw
    · cases hw
    · rename_i a ha
      split at hw
      · cases hw
      · rename_i b hb
        rcases hm st (by simp) with hc | hc
        · simp only [memWriteBody, hc]
        · have hc := hc a ha
          obtain ⟨st', hst', hx⟩ := hx
          rcases List.mem_cons.1 hst' with rfl | hst'
          · rw [hc] at hx; cases hx
          · simp only [memWriteBody, hc, memWriteBody_crash (fun st hst => hm st (by simp [hst])) hb
              ⟨st', hst', hx⟩]

theorem memWriteAtom_rep : ∀ {fuel a o v cs}, Rep h o v →
    writeAtom (writeSem p) (fun s => (p.struct? s).map (writeBytes p)) fuel a v = .ok cs →
    memWriteAtom p h fuel a o = .ok cs
  | 0, _, _, _, _, _, hw => by cases hw
  | fuel + 1, .num prim, o, v, cs, hr, hw => by
    simp only [writeAtom, bind, Except.bind] at hw
    split at hw
    · cases hw
    · rename_i bs hb
      cases hw
      cases hr.scalar (writeNum_scalar hb)
      have hb : writeNum prim v = .ok bs := hb
      simp only [memWriteAtom, hb]
  | fuel + 1, .text, o, v, cs, hr, hw => by
    simp only [writeAtom, bind, Except.bind] at hw
    cases v with
    | str bs =>
      simp only [asText] at hw
      obtain ⟨len, s, rfl, ht⟩ := memText_rep hr hw
      simp only [memWriteAtom]
      exact ht
    | _ => simp [asText] at hw
  | fuel + 1, .call s, o, v, cs, hr, hw => by
    simp only [writeAtom] at hw
    cases hst : p.struct? s with
    | none => rw [hst] at hw; cases hw
    | some st =>
      rw [hst] at hw
      simp only [Option.map_some, runWrite] at hw
      rw [if_neg (by simp [writeBytes])] at hw
      cases v with
      | record vs =>
        simp only [bind, Except.bind, asRecord] at hw
        obtain ⟨fs, rfl, hf⟩ := hr.fields
        simp only [memWriteAtom, hst]
        exact memWriteBody_rep (wr := memWriteAtom p h fuel) (fun _ _ _ _ hr' hw' => memWriteAtom_rep hr' hw') hf hw
      | _ => simp [asRecord, bind, Except.bind] at hw

/-- What is in memory is written like the value it stands for. -/
theorem memWrite_rep {m : String} {tag : Bool} {o : Obj} {v : Val} {cs : List (List UInt8)}
    (hr : Rep h o v) (hw : write p m tag v = .ok cs) : memWrite p m tag h o = .ok cs := by
  unfold write writeMessage at hw
  unfold memWrite
  cases hm : p.message? m with
  | none => rw [hm] at hw; cases hw
  | some st =>
    cases hi : messageIndex p m with
    | none => rw [hm, hi] at hw; cases hw
    | some i =>
      rw [hm, hi] at hw
      simp only [bind, Except.bind, runWrite] at hw
      rw [if_neg (by simp [writeBytes])] at hw
      cases v with
      | record vs =>
        simp only [asRecord] at hw
        obtain ⟨fs, rfl, hf⟩ := hr.fields
        simp only
        split at hw
        · cases hw
        · rename_i cs' hc
          rw [memWriteBody_rep (wr := memWriteAtom p h (depth p))
            (fun _ _ _ _ hr' hw' => memWriteAtom_rep hr' hw') hf hc]
          exact hw
      | _ => simp [asRecord] at hw

/-! ### Measuring -/

mutual
/-- Only what the C generator writes: texts are measured in bytes, loops run over indices. -/
def plain : MLine → Bool
  | .addText _ how => how == .bytes
  | .addTextPlus _ _ how => how == .bytes
  | .each _ _ _ _ => false
  | .index _ _ _ body => plainAll body
  | _ => true
/-- The same for all lines. -/
def plainAll : List MLine → Bool
  | [] => true
  | l :: ls => plain l && plainAll ls
end

theorem plainAll_append : ∀ {a b : List MLine}, plainAll (a ++ b) = (plainAll a && plainAll b)
  | [], _ => by simp [plainAll]
  | l :: a, b => by simp [plainAll, plainAll_append, Bool.and_assoc]

theorem plainAll_dropInit {ls : List MLine} (hp : plainAll ls = true) : plainAll (dropInit ls) = true := by
  cases ls with
  | nil => rfl
  | cons l ls =>
    simp only [dropInit]
    split
    · simp only [plainAll, Bool.and_eq_true] at hp; exact hp.2
    · exact hp

theorem plain_members {rec : Struct → MPath → Nat → Option (List MLine × Nat)}
    (hrec : ∀ s acc lvl ls n, rec s acc lvl = some (ls, n) → plainAll ls = true) {acc : MPath} {lvl : Nat} :
    ∀ {ms ls n}, measureMembers style p rec acc lvl ms = some (ls, n) → plainAll ls = true
  | [], _, _, hm => by cases hm; rfl
  | m :: ms, ls, n, hm => by
    simp only [measureMembers] at hm
    split at hm
    · rename_i l1 a1 l2 a2 h1 h2
      cases hm
      rw [plainAll_append, plain_members hrec h2, Bool.and_true]
      unfold measureMember at h1
      split at h1
      · split at h1
        · cases h1; rfl
        · split at h1
          · cases h1; rfl
          · simp only at h1
            split at h1
            · cases h1
            · split at h1
              · cases h1
              · rename_i cl ca hc
                cases h1
                simp only [MStyle.loop, style, ↓reduceIte, plainAll, plain, Bool.and_true]
                rw [plainAll_append, plainAll_dropInit (hrec _ _ _ _ _ hc)]
                rfl
      · split at h1
        · cases h1; rfl
        · split at h1
          · cases h1; rfl
          · split at h1
            · cases h1
            · split at h1
              · cases h1
              · rename_i cl ca hc
                cases h1
                exact plainAll_dropInit (hrec _ _ _ _ _ hc)
    · cases hm

theorem plain_struct : ∀ fuel {s acc lvl ls n}, measureStruct style p fuel s acc lvl = some (ls, n) →
    plainAll ls = true
  | 0, _, _, _, _, _, hm => by cases hm
  | fuel + 1, s, acc, lvl, ls, n, hm => by
    simp only [measureStruct] at hm
    split at hm
    · cases hm; rfl
    · split at hm
      · cases hm
      · rename_i l a hl
        cases hm
        simp only [plainAll, plain, Bool.true_and]
        exact plain_members (fun s acc lvl ls n h => plain_struct fuel h) hl

/-- A member whose length has not been assigned. -/
inductive Unset : Obj → Val → Prop
  | text {s} : Unset (.text none s) (.str [])
  | list {els lens} : Unset (.list none els lens) (.list [])

/-- The members represent the values, except for some without a length if `bad` holds. -/
def Mixed (bad : Prop) (h : Heap) (fs : List (String × Obj)) (vs : List (String × Val)) : Prop :=
  ∀ n v, vs.lookup n = some v → ∃ o, fs.lookup n = some o ∧ (Rep h o v ∨ bad ∧ Unset o v)

/-- The same result, or a crash if `bad` holds. -/
def Out {α : Type} (bad : Prop) (x : Except Fail α) (r : α) : Prop :=
  x = .ok r ∨ bad ∧ x = .error .crash

/-- The variables of the two kinds of evaluation correspond. -/
structure EnvRep (bad : Prop) (h : Heap) (root : String) (vs : List (String × Val)) (env : MEnv)
    (e : MemEnv) : Prop where
  env : env = e.idx.map (fun x => (x.1, Val.int x.2)) ++ [(root, .record vs)]
  root : ∃ fs, e.root = .record fs ∧ Mixed bad h fs vs

variable {bad : Prop}

theorem EnvRep.push {root : String} {vs : List (String × Val)} {env : MEnv} {e : MemEnv}
    (hr : EnvRep bad h root vs env e) (x : String) (i : Nat) :
    EnvRep bad h root vs ((x, .int i) :: env) { e with idx := (x, i) :: e.idx } :=
  ⟨by simp [hr.env], hr.root⟩

theorem lookup_vars {root : String} {w : Val} {x : String} {v : Val} : ∀ {idx : List (String × Nat)},
    (idx.map (fun x => (x.1, Val.int x.2)) ++ [(root, w)]).lookup x = some v →
    (∃ i, idx.lookup x = some i ∧ v = .int i) ∨ v = w
  | [], hl => by
    simp only [List.map_nil, List.nil_append, List.lookup_cons, List.lookup_nil] at hl
    split at hl
    · cases hl; exact .inr rfl
    · cases hl
  | (y, j) :: idx, hl => by
    simp only [List.map_cons, List.cons_append, List.lookup_cons] at hl ⊢
    by_cases he : (x == y) = true
    · rw [he] at hl ⊢
      cases hl
      exact .inl ⟨j, rfl, rfl⟩
    · rw [Bool.not_eq_true] at he
      rw [he] at hl ⊢
      exact lookup_vars hl

theorem memSteps_rep {root : String} {vs : List (String × Val)} {env : MEnv} {e : MemEnv}
    (he : EnvRep bad h root vs env e) : ∀ {steps o v w}, Rep h o v → evalSteps env v steps = some w →
    ∃ o', memSteps h e.idx o steps = .ok o' ∧ Rep h o' w
  | [], o, v, w, hr, hs => by
    have : v = w := by cases v <;> simpa [evalSteps] using hs
    subst this
    exact ⟨o, by cases o <;> rfl, hr⟩
  | .fld n :: rest, o, v, w, hr, hs => by
    cases v with
    | record fs' =>
      simp only [evalSteps] at hs
      split at hs
      · rename_i u hu
        obtain ⟨fs, rfl, hf⟩ := hr.fields
        obtain ⟨o', h1, h2⟩ := hf.lookup hu
        obtain ⟨o'', h3, h4⟩ := memSteps_rep he h2 hs
        exact ⟨o'', by simp only [memSteps, h1]; exact h3, h4⟩
      · cases hs
    | _ => simp [evalSteps] at hs
  | .idx x :: rest, o, v, w, hr, hs => by
    cases v with
    | list ws =>
      simp only [evalSteps] at hs
      split at hs
      · rename_i i hi
        split at hs
        · cases hs
        · split at hs
          · rename_i u hu
            rw [he.env] at hi
            rcases lookup_vars hi with ⟨j, hj, hji⟩ | hx
            · cases hji
              obtain ⟨els, lens, rfl, hel⟩ := hr.elements
              obtain ⟨o', h1, h2⟩ := hel _ _ hu
              simp only [Int.toNat_natCast] at h1
              obtain ⟨o'', h3, h4⟩ := memSteps_rep he h2 hs
              exact ⟨o'', by simp only [memSteps, hj, h1]; exact h3, h4⟩
            · cases hx
          · cases hs
      · cases hs
    | _ => simp [evalSteps] at hs

theorem evalPath_root {root : String} {vs : List (String × Val)} {env : MEnv} {e : MemEnv}
    (he : EnvRep bad h root vs env e) {a : MPath} {w : Val} (hs : evalPath env a = some w)
    (hw : (∃ us, w = .list us) ∨ ∃ s, w = .str s) :
    ∃ o, memSteps h e.idx e.root a.steps = .ok o ∧ (Rep h o w ∨ bad ∧ Unset o w) := by
  unfold evalPath at hs
  split at hs
  · rename_i v hv
    rw [he.env] at hv
    rcases lookup_vars hv with ⟨i, _, rfl⟩ | rfl
    · cases hst : a.steps with
      | nil =>
        rw [hst] at hs
        simp only [evalSteps, Option.some.injEq] at hs
        subst hs
        rcases hw with ⟨_, hw⟩ | ⟨_, hw⟩ <;> cases hw
      | cons s ss => rw [hst] at hs; simp [evalSteps] at hs
    · obtain ⟨fs, hfs, hm⟩ := he.root
      rw [hfs]
      cases hst : a.steps with
      | nil =>
        rw [hst] at hs
        simp only [evalSteps, Option.some.injEq] at hs
        subst hs
        rcases hw with ⟨_, hw⟩ | ⟨_, hw⟩ <;> cases hw
      | cons s ss =>
        rw [hst] at hs
        cases s with
        | idx x => simp [evalSteps] at hs
        | fld n =>
          simp only [evalSteps] at hs
          split at hs
          · rename_i u hu
            obtain ⟨o, h1, h2⟩ := hm n u hu
            simp only [memSteps, h1]
            rcases h2 with h2 | ⟨hb, h2⟩
            · obtain ⟨o', h3, h4⟩ := memSteps_rep he h2 hs
              exact ⟨o', h3, .inl h4⟩
            · cases ss with
              | nil =>
                have : u = w := by cases u <;> simpa [evalSteps] using hs
                subst this
                exact ⟨o, by cases o <;> rfl, .inr ⟨hb, h2⟩⟩
              | cons s' ss' =>
                cases h2 with
                | text => simp [evalSteps] at hs
                | list =>
                  cases s' with
                  | fld => simp [evalSteps] at hs
                  | idx x =>
                    simp only [evalSteps] at hs
                    split at hs
                    · split at hs
                      · cases hs
                      · simp at hs
                    · cases hs
          · cases hs
  · cases hs

theorem memLen_list {root : String} {vs : List (String × Val)} {env : MEnv} {e : MemEnv}
    (he : EnvRep bad h root vs env e) {a : MPath} {ws : List Val} (hs : evalList env a = .ok ws) :
    Out bad (memLen h e a) ws.length := by
  unfold evalList at hs
  split at hs
  · rename_i us hu
    cases hs
    obtain ⟨o, h1, h2 | ⟨hb, h2⟩⟩ := evalPath_root he hu (.inl ⟨_, rfl⟩)
    · obtain ⟨els, lens, rfl, _⟩ := h2.elements
      exact .inl (by simp [memLen, h1])
    · cases h2
      exact .inr ⟨hb, by simp [memLen, h1]⟩
  · cases hs

theorem memLen_text {root : String} {vs : List (String × Val)} {env : MEnv} {e : MemEnv}
    (he : EnvRep bad h root vs env e) {a : MPath} {s : List UInt8} (hs : evalText env a = .ok s) :
    Out bad (memLen h e a) s.length := by
  unfold evalText at hs
  split at hs
  · rename_i us hu
    cases hs
    obtain ⟨o, h1, h2 | ⟨hb, h2⟩⟩ := evalPath_root he hu (.inr ⟨_, rfl⟩)
    · rcases h2.chars with ⟨id, rfl, _⟩ | ⟨rfl, rfl⟩
      · exact .inl (by simp [memLen, h1])
      · exact .inl (by simp [memLen, h1])
    · cases h2
      exact .inr ⟨hb, by simp [memLen, h1]⟩
  · cases hs

theorem evalIndex_sim {len len' : Nat → Except Fail Nat} {f f' : Nat → Nat → Except Fail Flow}
    (hlen : ∀ i n, len i = .ok n → Out bad (len' i) n)
    (hf : ∀ i s r, f i s = .ok r → Out bad (f' i s) r) :
    ∀ fuel i size r, evalIndex len f fuel i size = .ok r → Out bad (evalIndex len' f' fuel i size) r
  | 0, _, _, _, hr => by cases hr
  | fuel + 1, i, size, r, hr => by
    unfold evalIndex at hr ⊢
    split at hr
    · cases hr
    · rename_i n hn
      rcases hlen i n hn with hl | ⟨hb, hl⟩
      · rw [hl]
        simp only
        split at hr
        · rename_i hi
          rw [if_pos hi]
          cases hx : f i size with
          | error e => rw [hx] at hr; cases hr
          | ok q =>
            rw [hx] at hr
            rcases hf _ _ _ hx with hf' | ⟨hb, hf'⟩
            · rw [hf']
              cases q with
              | go s => exact evalIndex_sim hlen hf fuel _ _ _ hr
              | done s => exact .inl hr
            · rw [hf']
              exact .inr ⟨hb, rfl⟩
        · rename_i hi
          rw [if_neg hi]
          exact .inl hr
      · rw [hl]
        exact .inr ⟨hb, rfl⟩

mutual
theorem memLine_rep {root : String} {vs : List (String × Val)} {bound : Nat} : ∀ {l : MLine} {env : MEnv}
    {e : MemEnv} {size : Nat} {r : Flow}, plain l = true → EnvRep bad h root vs env e →
    evalLine bound l env size = .ok r → Out bad (memLine h bound l e size) r
  | .init, _, _, _, _, _, _, hr => .inl (by simpa [evalLine, memLine] using hr)
  | .ret n, _, _, _, _, _, _, hr => .inl (by simpa [evalLine, memLine] using hr)
  | .add n, _, _, _, _, _, _, hr => .inl (by simpa [evalLine, memLine] using hr)
  | .addCount a n, _, _, _, _, _, he, hr => by
    simp only [evalLine] at hr
    split at hr
    · rename_i ws hw
      rcases memLen_list he hw with hl | ⟨hb, hl⟩
      · simp only [memLine, hl]
        exact .inl hr
      · simp only [memLine, hl]
        exact .inr ⟨hb, rfl⟩
    · cases hr
  | .addText a how, _, _, _, _, hp, he, hr => by
    simp only [plain, beq_iff_eq] at hp
    subst hp
    simp only [evalLine] at hr
    split at hr
    · rename_i ws hw
      rcases memLen_text he hw with hl | ⟨hb, hl⟩
      · simp only [memLine, hl]
        exact .inl hr
      · simp only [memLine, hl]
        exact .inr ⟨hb, rfl⟩
    · cases hr
  | .addTextPlus k a how, _, _, _, _, hp, he, hr => by
    simp only [plain, beq_iff_eq] at hp
    subst hp
    simp only [evalLine] at hr
    split at hr
    · rename_i ws hw
      rcases memLen_text he hw with hl | ⟨hb, hl⟩
      · simp only [memLine, hl]
        exact .inl hr
      · simp only [memLine, hl]
        exact .inr ⟨hb, rfl⟩
    · cases hr
  | .each _ _ _ _, _, _, _, _, hp, _, _ => by simp [plain] at hp
  | .index x _ a body, env, e, size, r, hp, he, hr => by
    simp only [evalLine] at hr
    simp only [memLine]
    refine evalIndex_sim (fun i n hn => ?_) (fun i s q hq => ?_) _ _ _ _ hr
    · cases hl : evalList ((x, .int i) :: env) a with
      | error y => rw [hl] at hn; cases hn
      | ok ws =>
        rw [hl] at hn
        cases hn
        exact memLen_list (he.push x i) hl
    · exact memLines_rep (by simpa [plain] using hp) (he.push x i) hq
theorem memLines_rep {root : String} {vs : List (String × Val)} {bound : Nat} : ∀ {ls : List MLine}
    {env : MEnv} {e : MemEnv} {size : Nat} {r : Flow}, plainAll ls = true → EnvRep bad h root vs env e →
    evalLines bound ls env size = .ok r → Out bad (memLines h bound ls e size) r
  | [], _, _, _, _, _, _, hr => .inl (by simpa [evalLines, memLines] using hr)
  | l :: ls, env, e, size, r, hp, he, hr => by
    simp only [plainAll, Bool.and_eq_true] at hp
    simp only [evalLines] at hr
    simp only [memLines]
    cases hx : evalLine bound l env size with
    | error y => rw [hx] at hr; cases hr
    | ok q =>
      rw [hx] at hr
      rcases memLine_rep hp.1 he hx with hl | ⟨hb, hl⟩
      · rw [hl]
        cases q with
        | go s => exact memLines_rep hp.2 he hr
        | done s => exact .inl hr
      · rw [hl]
        exact .inr ⟨hb, rfl⟩
end

/-- If one of the lines crashes and the function would otherwise get to it, the function crashes. -/
theorem memLines_crash {root : String} {vs : List (String × Val)} {bound : Nat} : ∀ {ls : List MLine}
    {env : MEnv} {e : MemEnv} {size n : Nat}, plainAll ls = true → EnvRep bad h root vs env e →
    evalLines bound ls env size = .ok (.go n) → (∃ l ∈ ls, ∀ size, memLine h bound l e size = .error .crash) →
    memLines h bound ls e size = .error .crash
  | [], _, _, _, _, _, _, _, hx => by simp at hx
  | l :: ls, env, e, size, n, hp, he, hr, hx => by
    simp only [plainAll, Bool.and_eq_true] at hp
    simp only [evalLines] at hr
    simp only [memLines]
    cases hq : evalLine bound l env size with
    | error y => rw [hq] at hr; cases hr
    | ok q =>
      rw [hq] at hr
      rcases memLine_rep hp.1 he hq with hl | ⟨hb, hl⟩
      · rw [hl]
        cases q with
        | go s =>
          obtain ⟨l', hl', hx⟩ := hx
          rcases List.mem_cons.1 hl' with rfl | hl'
          · rw [hx] at hl; cases hl
          · exact memLines_crash hp.2 he hr ⟨l', hl', hx⟩
        | done s => cases hr
      · rw [hl]

/-- What is in memory is measured like the value it stands for. -/
theorem memSize_rep {m : String} {o : Obj} {vs : List (String × Val)} {n : Nat}
    (hr : Rep h o (.record vs)) (hs : size p m (.record vs) = .ok n) :
    memSize p m (weight (.record vs)) h o = .ok n := by
  unfold size sizeMessage at hs
  unfold memSize
  cases hm : p.message? m with
  | none => rw [hm] at hs; cases hs
  | some st =>
    rw [hm] at hs
    simp only at hs ⊢
    cases hf : measureFun style p st "m" 1 with
    | none => rw [hf] at hs; cases hs
    | some f =>
      rw [hf] at hs
      simp only at hs ⊢
      have hpl : plainAll f.lines = true := by
        unfold measureFun at hf
        split at hf
        · cases hf
        · rename_i ls a hl
          cases hf
          have := plain_struct _ hl
          simp only
          split
          · rw [plainAll_append, this]; rfl
          · exact this
      unfold runMeasure at hs
      obtain ⟨fs, rfl, hfs⟩ := hr.fields
      have he : EnvRep False h "m" vs [("m", .record vs)] { root := .record fs } :=
        ⟨rfl, fs, rfl, fun n v hv => by
          obtain ⟨o, h1, h2⟩ := hfs.lookup hv
          exact ⟨o, h1, .inl h2⟩⟩
      cases hx : evalLines (weight (.record vs)) f.lines [("m", .record vs)] 0 with
      | error y => rw [hx] at hs; cases hs
      | ok q =>
        rw [hx] at hs
        rcases memLines_rep hpl he hx with hl | ⟨hb, _⟩
        · rw [hl]
          cases q with
          | go k =>
            simp only at hs ⊢
            split at hs
            · exact hs
            · cases hs
          | done k => exact hs
        · exact hb.elim

/-! ### Created messages -/

/-- The members of a created message that are assigned without their length: lists and texts. -/
def Loose (m : Variable) : Prop := m.isList = true ∨ m.vartype = "string"

theorem measure_mem {rec : Struct → MPath → Nat → Option (List MLine × Nat)} {acc : MPath} {lvl : Nat}
    {m : Variable} : ∀ {ms ls n}, m ∈ ms → measureMembers style p rec acc lvl ms = some (ls, n) →
    ∃ l1 a1, measureMember style p rec acc lvl m = some (l1, a1) ∧ ∀ l ∈ l1, l ∈ ls
  | m' :: ms, ls, n, hm, he => by
    simp only [measureMembers] at he
    split at he
    · rename_i l1 a1 l2 a2 h1 h2
      cases he
      rcases List.mem_cons.1 hm with rfl | hm
      · exact ⟨l1, a1, h1, fun l hl => by simp [hl]⟩
      · obtain ⟨l, a, h3, h4⟩ := measure_mem hm h2
        exact ⟨l, a, h3, fun x hx => by simp [h4 x hx]⟩
    · cases he

/-- The line that measures a list or text without a length crashes. -/
theorem loose_line (hu : Usable p) {rec : Struct → MPath → Nat → Option (List MLine × Nat)} {lvl : Nat}
    {m : Variable} (hk : KnownType p m.vartype) (hl : Loose m) {l1 a1}
    (he : measureMember style p rec { root := "m" } lvl m = some (l1, a1)) {fs : List (String × Obj)}
    {o : Obj} {v : Val} (ho : fs.lookup m.name = some o) (hx : Unset o v) (bound : Nat) :
    ∃ l ∈ l1, ∀ size, memLine h bound l { root := .record fs } size = .error .crash := by
  have hlen : ∀ idx, memLen h { root := .record fs, idx := idx } (MPath.dot { root := "m" } m.name) =
      .error .crash := by
    intro idx
    cases hx <;> simp [memLen, MPath.dot, memSteps, ho]
  unfold measureMember at he
  split at he
  · split at he
    · cases he
      exact ⟨_, List.mem_singleton_self _, fun size => by simp only [memLine, hlen]⟩
    · split at he
      · cases he
        exact ⟨_, List.mem_singleton_self _, fun size => by
          simp [memLine, style, MStyle.loop, evalIndex, hlen]⟩
      · split at he
        · cases he
        · simp only at he
          split at he
          · cases he
          · cases he
            exact ⟨_, List.mem_singleton_self _, fun size => by
              simp [memLine, style, MStyle.loop, evalIndex, hlen]⟩
  · rename_i hnl
    have ht : m.vartype = "string" := by
      rcases hl with hl | hl
      · exact absurd hl (by simpa using hnl)
      · exact hl
    rw [if_neg (by
      rw [(simpleVar_spec hu (.inl (by simpa using hnl)) hk).2, ht]; exact not_not.2 .text), if_pos ht] at he
    cases he
    exact ⟨_, List.mem_singleton_self _, fun size => by simp only [memLine, hlen]⟩

mutual
theorem weight_default : ∀ {t v}, IsDefault p t v → weight v = 0
  | _, _, .num (n := n) => by cases n <;> rfl
  | _, _, .text => rfl
  | _, _, .enum _ _ => rfl
  | _, _, .struct _ hf => by simpa [weight] using weight_defaults hf
theorem weight_defaults : ∀ {ms fs}, IsDefaultFields p ms fs → weightFields fs = 0
  | _, _, .nil => rfl
  | _, _, .one _ hv hf => by simp [weightFields, weight_default hv, weight_defaults hf]
  | _, _, .list _ hf => by simp [weightFields, weight, weightList, weight_defaults hf]
end

/-- Measuring a message with a list or text that has no length crashes. -/
theorem memSize_crash (hu : Usable p) (hs : Supported p) {s : Struct} (hm : s ∈ p.messages)
    {fs : List (String × Obj)} {vs : List (String × Val)} (hv : IsDefaultFields p s.members vs)
    (hx : Mixed bad h fs vs) {m : Variable} (hmm : m ∈ s.members) (hl : Loose m) {o : Obj} {v : Val}
    (ho : fs.lookup m.name = some o) (hun : Unset o v) (bound : Nat) :
    memSize p s.name bound h (.record fs) = .error .crash := by
  have hvb : VaryingBody p s.members := ⟨m, hmm, by
    rcases hl with hl | hl
    · exact .inl hl
    · exact .inr (by rw [hl]; exact .text)⟩
  obtain ⟨bs, hb⟩ := IsDefaultFields.enc hu hv
  obtain ⟨lines, accum, e, hne, hadds⟩ := measureStruct_spec (M := style)
    (A := written.restrict fun _ => True) (bound := bound) hu hs.names.members
    (measuresText_bytes rfl rfl)
    p.structs.length (depth p) s (by simp [hm]) (fun m _ => hu.fits m.vartype) (by simp [depth]) hvb
    { root := "m" } 1 (fun _ => mfresh _ _ _ _ (by simp [MPath.vars]))
  obtain ⟨k, h1, h2⟩ := hadds [("m", .record vs)] [] vs bs (by simp [evalPath, evalSteps])
    (by simpa using layoutFields_names hb) (by simp [weight_defaults hv])
    (LayoutFields.restrict hb (texts_all (.record vs)))
  have hls : ∃ l ∈ lines, ∀ size, memLine h bound l { root := .record fs } size = .error .crash := by
    have e' := e
    simp only [depth, measureStruct] at e'
    split at e'
    · cases e'
    · split at e'
      · cases e'
      · rename_i lines' accum' hms
        cases e'
        obtain ⟨l1, a1, h3, h4⟩ := measure_mem hmm hms
        obtain ⟨l, h5, h6⟩ := loose_line (h := h) hu (hu.types s (by simp [hm]) m hmm) hl h3 ho hun bound
        exact ⟨l, h4 l h5, h6⟩
  have hpl := plain_struct _ e
  have he : EnvRep bad h "m" vs [("m", .record vs)] { root := .record fs } := ⟨rfl, fs, rfl, hx⟩
  have hc : ∀ ls, plainAll ls = true → (∃ n, evalLines bound ls [("m", .record vs)] 0 = .ok (.go n)) →
      (∀ l ∈ lines, l ∈ ls) → memLines h bound ls { root := .record fs } 0 = .error .crash := by
    rintro ls hp ⟨n, hn⟩ hsub
    obtain ⟨l, h3, h4⟩ := hls
    exact memLines_crash hp he hn ⟨l, hsub l h3, h4⟩
  simp only [memSize, message?_of_mem hu.messagesDistinct hm, measureFun, e]
  rw [hc]
  · split
    · rw [plainAll_append, hpl]; rfl
    · exact hpl
  · split
    · refine ⟨k + accum, ?_⟩
      simp only [List.cons_append, evalLines, evalLine]
      rw [evalLines_append _ _ _ _ _ (h1 0)]
      simp [evalLines, evalLine]
    · refine ⟨k, ?_⟩
      simp only [evalLines, evalLine, h1 0]
      simp
  · intro l hl
    split <;> simp [hl]

/-! #### Defaults in memory -/

mutual
/-- The object is what `{name}_default` holds for the type, and stands for the value. -/
inductive Blank (p : Protocol) : String → Obj → Val → Prop
  | num {n : NumTy} : Blank p n.name (.num (zeroOf n)) (zeroOf n)
  | text : Blank p "string" (.text (some 0) .literal) (.str [])
  | enum {e : Enum} {i} : e ∈ p.enums → Blank p e.name (.num (.int i)) (.int i)
  | struct {s : Struct} {fs vs} : s ∈ p.structs → BlankFields p s.members fs vs →
      Blank p s.name (.record fs) (.record vs)
/-- The same for the members of a struct. -/
inductive BlankFields (p : Protocol) : List Variable → List (String × Obj) → List (String × Val) → Prop
  | nil : BlankFields p [] [] []
  | one {m : Variable} {ms o fs v vs} : m.isList = false → Blank p m.vartype o v →
      BlankFields p ms fs vs → BlankFields p (m :: ms) ((m.name, o) :: fs) ((m.name, v) :: vs)
  | list {m : Variable} {ms fs vs lens} : m.isList = true → (m.vartype = "string" → lens = .null) →
      BlankFields p ms fs vs → BlankFields p (m :: ms) ((m.name, .list (some 0) .null lens) :: fs)
        ((m.name, .list []) :: vs)
end

theorem scalar_zero (n : NumTy) : Scalar (zeroOf n) := by cases n <;> trivial

mutual
theorem Blank.rep : ∀ {t o v}, Blank p t o v → Rep h o v
  | _, _, _, .num => .num (scalar_zero _)
  | _, _, _, .text => .empty
  | _, _, _, .enum _ => .num trivial
  | _, _, _, .struct _ hf => .record (BlankFields.rep hf)
theorem BlankFields.rep : ∀ {ms fs vs}, BlankFields p ms fs vs → RepFields h fs vs
  | _, _, _, .nil => .nil
  | _, _, _, .one _ ho hr => .cons (Blank.rep ho) (BlankFields.rep hr)
  | _, _, _, .list _ _ hr => .cons (.list (os := []) (vs := []) (by simp) .nil) (BlankFields.rep hr)
end

theorem BlankFields.names : ∀ {ms fs vs}, BlankFields p ms fs vs → fs.map (·.1) = ms.map (·.name)
  | _, _, _, .nil => rfl
  | _, _, _, .one _ _ hr => by simp [BlankFields.names hr]
  | _, _, _, .list _ _ hr => by simp [BlankFields.names hr]

mutual
theorem IsDefault.blank (hu : Usable p) : ∀ {t v}, IsDefault p t v → ∀ {d fuel : Nat} {m : Variable},
    m.vartype = t → m.isList = false → fits p d t → d < fuel →
    ∃ o, memDefault p fuel m = .ok o ∧ Blank p t o v
  | _, _, _, _, 0, _, _, _, _, hd => by omega
  | _, _, .num (n := n), d, fuel + 1, m, hm, hl, hf, hd => by
    refine ⟨.num (zeroOf n), ?_, .num⟩
    simp only [memDefault, hl, Bool.false_eq_true, if_false]
    cases hu.kind (t := m.vartype) (.inl (by rw [hm, ← ofName?_isSome_iff]; cases n <;> rfl)) with
    | num n' e ne num enum struct => rw [num, name_inj (hm.symm.trans e)]
    | text e num => exact absurd (hm.symm.trans e) (name_ne_string n)
    | enum e mem name ne num enum => exact absurd (hm.symm.trans name.symm) (num_ne_enum hu mem)
    | struct s mem name ne num enum struct => exact absurd (hm.symm.trans name.symm) (num_ne_struct hu mem)
  | _, _, .text, d, fuel + 1, m, hm, hl, hf, hd => by
    refine ⟨.text (some 0) .literal, ?_, .text⟩
    simp only [memDefault, hl, Bool.false_eq_true, if_false, hm]
    rfl
  | _, _, .enum (e := e) (x := x) (i := i) he hx, d, fuel + 1, m, hm, hl, hf, hd => by
    refine ⟨.num (.int i), ?_, .enum he⟩
    simp only [memDefault, hl, Bool.false_eq_true, if_false]
    cases hu.kind_enum he with
    | num n' e ne num enum struct => exact absurd e.symm (num_ne_enum hu he)
    | text e num => exact absurd e.symm (text_ne_enum hu he)
    | enum e' mem name ne num enum =>
      cases mem_enums_unique hu he mem name.symm
      rw [hm, num]
      simp only
      rw [if_neg ne, enum]
      simp only [hx]
    | struct s mem name ne num enum struct => exact absurd name.symm (enum_ne_struct hu he mem)
  | _, _, .struct (s := s) hs hf, d, fuel + 1, m, hm, hl, hfit, hd => by
    cases hu.kind_struct hs with
    | num n' e ne num enum struct => exact absurd e.symm (num_ne_struct hu hs)
    | text e num => exact absurd e.symm (text_ne_struct hu hs)
    | enum e' mem name ne num enum => exact absurd name (enum_ne_struct hu mem hs)
    | struct s' mem name ne num enum struct =>
      cases mem_structs_unique hu hs mem name.symm
      match d, hfit with
      | 0, hfit =>
        have hfit : p.struct? s.name = none := hfit
        rw [struct] at hfit
        cases hfit
      | d + 1, hfit =>
        obtain ⟨os, h1, h2⟩ := IsDefaultFields.blank hu hf (d := d) (fuel := fuel)
          (fun m hm => hfit s struct m hm) (by omega)
        refine ⟨_, ?_, .struct hs h2⟩
        simp only [memDefault, hl, Bool.false_eq_true, if_false]
        rw [hm, num]
        simp only
        rw [if_neg ne, enum, struct]
        simp only [h1]
theorem IsDefaultFields.blank (hu : Usable p) : ∀ {ms vs}, IsDefaultFields p ms vs → ∀ {d fuel : Nat},
    (∀ m ∈ ms, fits p d m.vartype) → d < fuel →
    ∃ os, ms.mapM (fun m => memDefault p fuel m) = .ok os ∧
      BlankFields p ms ((ms.map (·.name)).zip os) vs
  | _, _, .nil, _, _, _, _ => ⟨[], rfl, .nil⟩
  | _, _, .one (m := m) hl hv hr, d, fuel, hf, hd => by
    obtain ⟨o, h1, h2⟩ := IsDefault.blank hu hv rfl hl (hf m (by simp)) hd
    obtain ⟨os, h3, h4⟩ := IsDefaultFields.blank hu hr (fun m hm => hf m (by simp [hm])) hd
    exact ⟨o :: os, by simp [List.mapM_cons, h1, h3, bind, Except.bind, pure, Except.pure], .one hl h2 h4⟩
  | _, _, .list (m := m) hl hr, d, fuel, hf, hd => by
    obtain ⟨os, h3, h4⟩ := IsDefaultFields.blank hu hr (fun m hm => hf m (by simp [hm])) hd
    obtain ⟨fuel, rfl⟩ : ∃ k, fuel = k + 1 := ⟨fuel - 1, by omega⟩
    have h1 : memDefault p (fuel + 1) m =
        .ok (.list (some 0) .null (if m.vartype = "string" then .null else .wild)) := by
      simp [memDefault, hl]
    exact ⟨.list (some 0) .null (if m.vartype = "string" then .null else .wild) :: os,
      by simp [List.mapM_cons, h1, h3, bind, Except.bind, pure, Except.pure],
      .list hl (fun ht => if_pos ht) h4⟩
end

/-- What is copied of the members (`memCreate`). -/
def copiedFields (fs : List (String × Obj)) : List (String × Obj) := fs.map fun x => (x.1, copied x.2)

theorem zip_copied : ∀ (ns : List String) (os : List Obj),
    ns.zip (os.map copied) = copiedFields (ns.zip os)
  | [], _ => rfl
  | _ :: _, [] => rfl
  | _ :: ns, _ :: os => by simp [copiedFields, zip_copied ns os, List.zip_cons_cons]

theorem Blank.copied (hu : Usable p) {t : String} {o : Obj} {v : Val} (hb : Blank p t o v) :
    t ≠ "string" ∧ C.copied o = o ∨
      t = "string" ∧ C.copied o = .text none .literal ∧ v = .str [] := by
  cases hb with
  | num => exact .inl ⟨fun e => name_ne_string _ e, rfl⟩
  | text => exact .inr ⟨rfl, rfl, rfl⟩
  | enum he => exact .inl ⟨(text_ne_enum hu he).symm, rfl⟩
  | struct hs => exact .inl ⟨(text_ne_struct hu hs).symm, rfl⟩

theorem BlankFields.mixed (hu : Usable p) : ∀ {ms fs vs}, BlankFields p ms fs vs →
    Mixed (∃ m ∈ ms, Loose m) h (copiedFields fs) vs
  | _, _, _, .nil, _, _, hl => by simp at hl
  | _, _, _, .one (m := m) (o := o) (fs := fs) hm ho hr, n, v, hl => by
    simp only [copiedFields, List.map_cons, List.lookup_cons] at hl ⊢
    by_cases he : (n == m.name) = true
    · rw [he] at hl ⊢
      cases hl
      refine ⟨_, rfl, ?_⟩
      rcases ho.copied hu with ⟨_, h1⟩ | ⟨h1, h2, rfl⟩
      · rw [h1]; exact .inl ho.rep
      · rw [h2]; exact .inr ⟨⟨m, by simp, .inr h1⟩, .text⟩
    · rw [Bool.not_eq_true] at he
      rw [he] at hl ⊢
      obtain ⟨o', h1, h2⟩ := BlankFields.mixed hu hr n v hl
      refine ⟨o', h1, h2.imp_right fun ⟨⟨m', h3, h4⟩, h5⟩ => ⟨⟨m', by simp [h3], h4⟩, h5⟩⟩
  | _, _, _, .list (m := m) hm _ hr, n, v, hl => by
    simp only [copiedFields, List.map_cons, List.lookup_cons] at hl ⊢
    by_cases he : (n == m.name) = true
    · rw [he] at hl ⊢
      cases hl
      exact ⟨_, rfl, .inr ⟨⟨m, by simp, .inl hm⟩, .list⟩⟩
    · rw [Bool.not_eq_true] at he
      rw [he] at hl ⊢
      obtain ⟨o', h1, h2⟩ := BlankFields.mixed hu hr n v hl
      refine ⟨o', h1, h2.imp_right fun ⟨⟨m', h3, h4⟩, h5⟩ => ⟨⟨m', by simp [h3], h4⟩, h5⟩⟩

theorem BlankFields.loose (hu : Usable p) : ∀ {ms fs vs}, BlankFields p ms fs vs →
    (ms.map (·.name)).Nodup → ∀ m ∈ ms, Loose m →
    m.isList = true ∧ (copiedFields fs).lookup m.name = some (.list none .null .wild) ∨
    m.isList = false ∧ m.vartype = "string" ∧
      (copiedFields fs).lookup m.name = some (.text none .literal)
  | _, _, _, .nil, _, m, hm, _ => by simp at hm
  | _, _, _, .one (m := m') (o := o) (fs := fs) hm' ho hr, hn, m, hm, hl => by
    simp only [List.map_cons, List.nodup_cons] at hn
    simp only [copiedFields, List.map_cons, List.lookup_cons]
    rcases List.mem_cons.1 hm with rfl | hm
    · rw [beq_self_eq_true]
      rcases hl with hl | hl
      · rw [hl] at hm'; cases hm'
      · rcases ho.copied hu with ⟨h1, _⟩ | ⟨_, h2, _⟩
        · exact absurd hl h1
        · exact .inr ⟨hm', hl, by simp [h2]⟩
    · have : (m.name == m'.name) = false := by
        rw [beq_eq_false_iff_ne]
        intro e
        exact hn.1 (e ▸ List.mem_map_of_mem hm)
      rw [this]
      exact BlankFields.loose hu hr hn.2 m hm hl
  | _, _, _, .list (m := m') hm' _ hr, hn, m, hm, hl => by
    simp only [List.map_cons, List.nodup_cons] at hn
    simp only [copiedFields, List.map_cons, List.lookup_cons]
    rcases List.mem_cons.1 hm with rfl | hm
    · rw [beq_self_eq_true]
      exact .inl ⟨hm', rfl⟩
    · have : (m.name == m'.name) = false := by
        rw [beq_eq_false_iff_ne]
        intro e
        exact hn.1 (e ▸ List.mem_map_of_mem hm)
      rw [this]
      exact BlankFields.loose hu hr hn.2 m hm hl

/-- What `{name}_Create` gives. -/
theorem memCreate_blank (hu : Usable p) {s : Struct} (hm : s ∈ p.messages) {vs : List (String × Val)}
    (hv : IsDefaultFields p s.members vs) (h : Heap) :
    ∃ fs, BlankFields p s.members fs vs ∧ memCreate p s.name h =
      .ok (.block h.next, h.alloc (.message s.name (.record (copiedFields fs)))) := by
  obtain ⟨os, h1, h2⟩ := IsDefaultFields.blank hu hv (d := p.structs.length) (fuel := depth p)
    (fun m _ => hu.fits _) (by simp [depth])
  exact ⟨_, h2, by simp only [memCreate, message?_of_mem hu.messagesDistinct hm, h1, zip_copied]⟩

theorem serializer_source (m : Variable) : (serializer p m).source = m.name := by
  unfold serializer
  split <;> rfl

theorem BlankFields.rest (hu : Usable p) : ∀ {ms fs vs}, BlankFields p ms fs vs →
    (ms.map (·.name)).Nodup → ∀ m ∈ ms, ¬ Loose m → ∀ v, vs.lookup m.name = some v →
    ∃ o, (copiedFields fs).lookup m.name = some o ∧ Rep h o v
  | _, _, _, .nil, _, m, hm, _, _, _ => by simp at hm
  | _, _, _, .one (m := m') (o := o) (fs := fs) hm' ho hr, hn, m, hm, hl, v, hv => by
    simp only [List.map_cons, List.nodup_cons] at hn
    simp only [copiedFields, List.map_cons, List.lookup_cons] at hv ⊢
    rcases List.mem_cons.1 hm with rfl | hm
    · rw [beq_self_eq_true] at hv ⊢
      cases hv
      rcases ho.copied hu with ⟨_, h1⟩ | ⟨h1, _⟩
      · exact ⟨_, rfl, by rw [h1]; exact ho.rep⟩
      · exact absurd (.inr h1) hl
    · have : (m.name == m'.name) = false := by
        rw [beq_eq_false_iff_ne]
        intro e
        exact hn.1 (e ▸ List.mem_map_of_mem hm)
      rw [this] at hv ⊢
      exact BlankFields.rest hu hr hn.2 m hm hl v hv
  | _, _, _, .list (m := m') hm' _ hr, hn, m, hm, hl, v, hv => by
    simp only [List.map_cons, List.nodup_cons] at hn
    simp only [copiedFields, List.map_cons, List.lookup_cons] at hv ⊢
    rcases List.mem_cons.1 hm with rfl | hm
    · exact absurd (.inl hm') hl
    · have : (m.name == m'.name) = false := by
        rw [beq_eq_false_iff_ne]
        intro e
        exact hn.1 (e ▸ List.mem_map_of_mem hm)
      rw [this] at hv ⊢
      exact BlankFields.rest hu hr hn.2 m hm hl v hv

theorem BlankFields.tight (hu : Usable p) : ∀ {ms fs vs}, BlankFields p ms fs vs → (∀ m ∈ ms, ¬ Loose m) →
    copiedFields fs = fs
  | _, _, _, .nil, _ => rfl
  | _, _, _, .one (m := m) hm ho hr, hl => by
    rcases ho.copied hu with ⟨_, h1⟩ | ⟨h1, _⟩
    · have := BlankFields.tight hu hr (fun m hm => hl m (by simp [hm]))
      simp only [copiedFields] at this
      simp [copiedFields, h1, this]
    · exact absurd (.inr h1) (hl m (by simp))
  | _, _, _, .list (m := m) hm _ hr, hl => absurd (.inl hm) (hl m (by simp))

/-- A created message without lists and texts among its members stands for the default value. -/
theorem created_rep (hu : Usable p) {ms : List Variable} {fs : List (String × Obj)}
    {vs : List (String × Val)} (hb : BlankFields p ms fs vs) (hl : ∀ m ∈ ms, ¬ Loose m) :
    Rep h (.record (copiedFields fs)) (.record vs) := by
  rw [hb.tight hu hl]
  exact .record hb.rep

/-- Writing a created message with a list or text among its members crashes. -/
theorem created_write_crash (hu : Usable p) (hs : Supported p) {s : Struct} (hm : s ∈ p.messages)
    {fs : List (String × Obj)} {vs : List (String × Val)}
    (hb : BlankFields p s.members fs vs) {m : Variable} (hmm : m ∈ s.members) (hl : Loose m) {tag : Bool}
    {cs : List (List UInt8)} (hw : write p s.name tag (.record vs) = .ok cs) :
    memWrite p s.name tag h (.record (copiedFields fs)) = .error .crash := by
  have hx := hb.mixed (h := h) hu
  have hcr : ∀ m ∈ s.members, Loose m →
      memWriteStmt (memWriteAtom p h (depth p)) h (copiedFields fs) (serializer p m) = .error .crash := by
    intro m hmm hl
    rcases hb.loose hu (hs.names _ (by simp [bodies, hm])) m hmm hl with ⟨h1, h2⟩ | ⟨h1, h2, h3⟩
    · simp only [serializer, h1, if_true, memWriteStmt, h2]
    · simp [serializer, h1, memWriteStmt, h3, watom, h2, memWriteAtom, depth, memText]
  unfold write writeMessage at hw
  unfold memWrite
  rw [message?_of_mem hu.messagesDistinct hm] at hw ⊢
  cases hi : messageIndex p s.name with
  | none => rw [hi] at hw; cases hw
  | some i =>
    rw [hi] at hw
    simp only [bind, Except.bind, runWrite] at hw
    rw [if_neg (by simp [writeBytes])] at hw
    simp only [asRecord] at hw ⊢
    split at hw
    · cases hw
    · rename_i cs' hc
      rw [memWriteBody_crash (wr := memWriteAtom p h (depth p)) ?_ hc
        ⟨serializer p m, by simp only [writeBytes, List.mem_map]; exact ⟨m, hmm, rfl⟩, hcr m hmm hl⟩]
      intro st hst
      simp only [writeBytes, List.mem_map] at hst
      obtain ⟨m', hm', rfl⟩ := hst
      by_cases hl' : Loose m'
      · exact .inl (hcr m' hm' hl')
      · refine .inr fun a ha => memWriteStmt_rep (wr := memWriteAtom p h (depth p)) (fun _ _ _ _ hr' hw' => memWriteAtom_rep hr' hw')
          (fun v hv => ?_) ha
        rw [serializer_source] at hv ⊢
        exact hb.rest hu (hs.names _ (by simp [bodies, hm])) m' hm' hl' v hv

/-! #### Destroying created messages -/

theorem _root_.Beschi.Spec.TextInside.varying {t : String} (ht : TextInside p t) : Varying p t := by
  induction ht with
  | text => exact .text
  | struct hs hm _ _ ih => exact .inside hs hm ih

theorem textInside_struct (hu : Usable p) {s : Struct} (hs : s ∈ p.structs) :
    TextInside p s.name ↔ ∃ m ∈ s.members, m.isList = false ∧ TextInside p m.vartype := by
  constructor
  · intro ht
    generalize hn : s.name = n at ht
    cases ht with
    | text => exact absurd hn.symm (text_ne_struct hu hs)
    | struct hs' hm hl ht => cases mem_structs_unique hu hs hs' hn; exact ⟨_, hm, hl, ht⟩
  · rintro ⟨m, hm, hl, ht⟩
    exact .struct hs hm hl ht

theorem cleanVar_empty {one : String → Obj → Heap → Except Fail Heap} {m : Variable} (hl : m.isList = true)
    {lens : Ptr} (hlens : m.vartype = "string" → lens = .null) :
    cleanVar p one m (.list (some 0) .null lens) h = .ok h := by
  unfold cleanVar
  rw [if_neg (by rw [(simpleVar_list hl).2]; simp), if_pos hl]
  simp only [Heap.free, Int.toNat_zero, cleanEach]
  split
  · rfl
  · split
    · rename_i ht; rw [hlens ht]
    · rfl

theorem cleanMembers_blank (hu : Usable p) {one : String → Obj → Heap → Except Fail Heap} {d : Nat}
    (hone : ∀ {t}, fits p d t → KnownType p t → ∀ {o v}, Blank p t o v →
      (TextInside p t → one t o h = .error .crash) ∧ (¬ TextInside p t → one t o h = .ok h))
    {all : List (String × Obj)} : ∀ {ms fs vs}, BlankFields p ms fs vs →
      (∀ m ∈ ms, fits p d m.vartype) → (∀ m ∈ ms, KnownType p m.vartype) →
      (∀ x ∈ fs, all.lookup x.1 = some x.2) →
      ((∃ m ∈ ms, m.isList = false ∧ TextInside p m.vartype) →
        cleanMembers p one all ms h = .error .crash) ∧
      ((¬ ∃ m ∈ ms, m.isList = false ∧ TextInside p m.vartype) → cleanMembers p one all ms h = .ok h)
  | _, _, _, .nil, _, _, _ => ⟨by simp, fun _ => rfl⟩
  | _, _, _, .one (m := m) (o := o) hl ho hr, hf, hk, hall => by
    obtain ⟨ih1, ih2⟩ := cleanMembers_blank hu hone hr (fun m hm => hf m (by simp [hm]))
      (fun m hm => hk m (by simp [hm])) (fun x hx => hall x (by simp [hx]))
    have h1 : (TextInside p m.vartype → cleanVar p one m o h = .error .crash) ∧
        (¬ TextInside p m.vartype → cleanVar p one m o h = .ok h) := by
      unfold cleanVar
      by_cases hv : Varying p m.vartype
      · rw [if_neg (by rw [(simpleVar_spec hu (.inl hl) (hk m (by simp))).2]; exact not_not.2 hv),
          if_neg (by simp [hl])]
        exact hone (hf m (by simp)) (hk m (by simp)) ho
      · rw [if_pos ((simpleVar_spec hu (.inl hl) (hk m (by simp))).2.2 hv)]
        exact ⟨fun ht => absurd ht.varying hv, fun _ => rfl⟩
    simp only [cleanMembers, hall _ (List.mem_cons_self ..)]
    by_cases ht : TextInside p m.vartype
    · rw [h1.1 ht]
      exact ⟨fun _ => rfl, fun hn => absurd ⟨m, by simp, hl, ht⟩ hn⟩
    · rw [h1.2 ht]
      refine ⟨fun ⟨m', hm', hl', ht'⟩ => ih1 ?_, fun hn => ih2 fun ⟨m', hm', hx⟩ => hn ⟨m', by simp [hm'], hx⟩⟩
      rcases List.mem_cons.1 hm' with rfl | hm'
      · exact absurd ht' ht
      · exact ⟨m', hm', hl', ht'⟩
  | _, _, _, .list (m := m) hl hlens hr, hf, hk, hall => by
    obtain ⟨ih1, ih2⟩ := cleanMembers_blank hu hone hr (fun m hm => hf m (by simp [hm]))
      (fun m hm => hk m (by simp [hm])) (fun x hx => hall x (by simp [hx]))
    simp only [cleanMembers, hall _ (List.mem_cons_self ..), cleanVar_empty hl hlens]
    refine ⟨fun ⟨m', hm', hl', ht'⟩ => ih1 ?_, fun hn => ih2 fun ⟨m', hm', hx⟩ => hn ⟨m', by simp [hm'], hx⟩⟩
    rcases List.mem_cons.1 hm' with rfl | hm'
    · rw [hl] at hl'; cases hl'
    · exact ⟨m', hm', hl', ht'⟩

theorem cleanOne_blank (hu : Usable p) (hs : Supported p) : ∀ d fuel, d < fuel → ∀ {t}, fits p d t →
    KnownType p t → ∀ {o v}, Blank p t o v →
    (TextInside p t → cleanOne p fuel t o h = .error .crash) ∧
      (¬ TextInside p t → cleanOne p fuel t o h = .ok h)
  | d, fuel + 1, hd, t, hf, hk, o, v, hb => by
    unfold cleanOne
    by_cases hv : Varying p t
    · rw [if_neg (by rw [simple_type hu hk]; exact not_not.2 hv)]
      cases hb with
      | num => exact absurd hv (varying_num hu _)
      | enum he => exact absurd hv (varying_enum hu he)
      | text => exact ⟨fun _ => rfl, fun hn => absurd .text hn⟩
      | @struct s fs vs hm hbf =>
        rw [if_neg (text_ne_struct hu hm).symm, struct?_of_mem hu.structsDistinct hm]
        simp only
        match d, fuel, hd, hf with
        | 0, _, _, hf =>
          have hf : p.struct? s.name = none := hf
          rw [struct?_of_mem hu.structsDistinct hm] at hf
          cases hf
        | d + 1, fuel + 1, hd, hf =>
          rw [textInside_struct hu hm]
          exact cleanMembers_blank hu
            (fun hf' hk' => cleanOne_blank hu hs d (fuel + 1) (by omega) hf' hk') hbf
            (hf _ (struct?_of_mem hu.structsDistinct hm)) (fun m hm' => hu.known_of_struct hm hm')
            (fun x hx => lookup_of_nodup (by
              rw [hbf.names]; exact hs.names _ (by simp [bodies, hm])) hx)
    · rw [if_pos ((simple_type hu hk).2 hv)]
      exact ⟨fun ht => absurd ht.varying hv, fun _ => rfl⟩

/-- A member of a message that `{name}_Destroy` releases wrongly after `{name}_Create`: a text outside of
lists, or a list of elements that have something to release themselves. -/
def Undestroyable (p : Protocol) (m : Variable) : Prop :=
  m.isList = true ∧ Varying p m.vartype ∨ m.isList = false ∧ TextInside p m.vartype

theorem cleanMembers_created (hu : Usable p) (hs : Supported p) {all : List (String × Obj)} :
    ∀ {ms fs vs}, BlankFields p ms fs vs → (∀ m ∈ ms, KnownType p m.vartype) →
      (∀ x ∈ copiedFields fs, all.lookup x.1 = some x.2) →
      ((∃ m ∈ ms, Undestroyable p m) →
        cleanMembers p (cleanOne p (depth p)) all ms h = .error .crash) ∧
      ((¬ ∃ m ∈ ms, Undestroyable p m) → cleanMembers p (cleanOne p (depth p)) all ms h = .ok h)
  | _, _, _, .nil, _, _ => ⟨by simp, fun _ => rfl⟩
  | _, _, _, .one (m := m) (o := o) hl ho hr, hk, hall => by
    obtain ⟨ih1, ih2⟩ := cleanMembers_created hu hs hr
      (fun m hm => hk m (by simp [hm])) (fun x hx => hall x (by
        simp only [copiedFields, List.map_cons, List.mem_cons]; exact .inr hx))
    have h1 : (TextInside p m.vartype → cleanVar p (cleanOne p (depth p)) m (C.copied o) h = .error .crash) ∧
        (¬ TextInside p m.vartype → cleanVar p (cleanOne p (depth p)) m (C.copied o) h = .ok h) := by
      unfold cleanVar
      by_cases hv : Varying p m.vartype
      · rw [if_neg (by rw [(simpleVar_spec hu (.inl hl) (hk m (by simp))).2]; exact not_not.2 hv),
          if_neg (by simp [hl])]
        rcases ho.copied hu with ⟨_, h1⟩ | ⟨h1, h2, _⟩
        · rw [h1]
          exact cleanOne_blank hu hs p.structs.length (depth p) (by simp [depth]) (hu.fits _)
            (hk m (by simp)) ho
        · rw [h1, h2]
          refine ⟨fun _ => ?_, fun hn => absurd .text hn⟩
          simp only [depth, cleanOne]
          rw [if_neg (by rw [simple_type hu (h1 ▸ hk m (by simp))]; exact not_not.2 .text), if_pos trivial]
          rfl
      · rw [if_pos ((simpleVar_spec hu (.inl hl) (hk m (by simp))).2.2 hv)]
        exact ⟨fun ht => absurd ht.varying hv, fun _ => rfl⟩
    have hlk := hall (m.name, C.copied o) (by simp [copiedFields])
    simp only at hlk
    simp only [cleanMembers, hlk]
    by_cases ht : TextInside p m.vartype
    · rw [h1.1 ht]
      exact ⟨fun _ => rfl, fun hn => absurd ⟨m, by simp, .inr ⟨hl, ht⟩⟩ hn⟩
    · rw [h1.2 ht]
      refine ⟨fun ⟨m', hm', hx⟩ => ih1 ?_, fun hn => ih2 fun ⟨m', hm', hx⟩ => hn ⟨m', by simp [hm'], hx⟩⟩
      rcases List.mem_cons.1 hm' with rfl | hm'
      · rcases hx with ⟨hl', _⟩ | ⟨_, ht'⟩
        · rw [hl] at hl'; cases hl'
        · exact absurd ht' ht
      · exact ⟨m', hm', hx⟩
  | _, _, _, .list (m := m) (lens := lens) hl _ hr, hk, hall => by
    obtain ⟨ih1, ih2⟩ := cleanMembers_created hu hs hr
      (fun m hm => hk m (by simp [hm])) (fun x hx => hall x (by
        simp only [copiedFields, List.map_cons, List.mem_cons]; exact .inr hx))
    have h1 : (Varying p m.vartype → cleanVar p (cleanOne p (depth p)) m (.list none .null .wild) h =
          .error .crash) ∧
        (¬ Varying p m.vartype → cleanVar p (cleanOne p (depth p)) m (.list none .null .wild) h = .ok h) := by
      unfold cleanVar
      rw [if_neg (by rw [(simpleVar_list hl).2]; simp), if_pos hl]
      simp only
      by_cases hv : Varying p m.vartype
      · rw [if_neg (by rw [(simpleVar_spec hu (.inr rfl) (hk m (by simp))).2]; exact not_not.2 hv)]
        exact ⟨fun _ => rfl, fun hn => absurd hv hn⟩
      · rw [if_pos ((simpleVar_spec hu (.inr rfl) (hk m (by simp))).2.2 hv)]
        exact ⟨fun hv' => absurd hv' hv, fun _ => rfl⟩
    have hlk := hall (m.name, .list none .null .wild) (by simp [copiedFields, C.copied])
    simp only at hlk
    simp only [cleanMembers, hlk]
    by_cases hv : Varying p m.vartype
    · rw [h1.1 hv]
      exact ⟨fun _ => rfl, fun hn => absurd ⟨m, by simp, .inl ⟨hl, hv⟩⟩ hn⟩
    · rw [h1.2 hv]
      refine ⟨fun ⟨m', hm', hx⟩ => ih1 ?_, fun hn => ih2 fun ⟨m', hm', hx⟩ => hn ⟨m', by simp [hm'], hx⟩⟩
      rcases List.mem_cons.1 hm' with rfl | hm'
      · rcases hx with ⟨_, hv'⟩ | ⟨hl', _⟩
        · exact absurd hv' hv
        · rw [hl] at hl'; cases hl'
      · exact ⟨m', hm', hx⟩

theorem copiedFields_names (fs : List (String × Obj)) : (copiedFields fs).map (·.1) = fs.map (·.1) := by
  simp [copiedFields]

theorem cleanup_created (hu : Usable p) (hs : Supported p) {s : Struct} (hm : s ∈ p.messages)
    {fs : List (String × Obj)} {vs : List (String × Val)} (hb : BlankFields p s.members fs vs) (h : Heap) :
    ((∃ m ∈ s.members, Undestroyable p m) →
      cleanup p s.name (.record (copiedFields fs)) h = .error .crash) ∧
    ((¬ ∃ m ∈ s.members, Undestroyable p m) →
      cleanup p s.name (.record (copiedFields fs)) h = .ok h) := by
  simp only [cleanup, message?_of_mem hu.messagesDistinct hm]
  exact cleanMembers_created hu hs hb (fun m hm' => hu.types s (by simp [hm]) m hm')
    (fun x hx => lookup_of_nodup (by
      rw [copiedFields_names, hb.names]; exact hs.names _ (by simp [bodies, hm])) hx)

/-! ### Unpacking -/

/-- Unpacking into memory has the same outcome as unpacking. -/
theorem memUnpack_agrees (hu : Usable p) (hs : Supported p) (b : Buf) (pos : Nat) {h0 : Heap}
    (hf : h0.Fresh) :
    match memUnpack p b pos h0 with
    | ((q, _), hp, .error e) => unpackFrom p b pos = .error e ∧ (q = .null → hp.blocks = h0.blocks)
    | ((q, qs), hp, .ok _) => ∃ id ms room ids, q = .block id ∧ unpackFrom p b pos = .ok ms ∧
        Listed p h0 hp room id qs ms ids := by
  unfold memUnpack unpackFrom
  cases takeN .crash 4 b 0 with
  | error e => simp
  | ok r =>
    simp only
    by_cases hb : r.1 = bsci
    · simp only [hb, ne_eq, not_true_eq_false, if_false]
      cases takeNum .eof .uint32 b (pos + 4) with
      | error e => simp
      | ok r =>
        obtain ⟨v, pos1⟩ := r
        cases v with
        | int n =>
          simp only
          cases limit n with
          | error e => simp
          | ok k =>
            simp only
            have ha := memProcess_agrees hu hs b pos1 k hf
            generalize memProcess p b pos1 k h0 = x at ha
            obtain ⟨⟨id, qs⟩, hp, r⟩ := x
            cases r with
            | error e => simp only at ha ⊢; rw [ha]; simp
            | ok pos2 =>
              simp only at ha ⊢
              obtain ⟨ms, room, ids, ha, hl⟩ := ha
              rw [ha]
              simp only
              rw [hl.msgs.length]
              by_cases hn : (ms.length : Int) = n
              · simp only [hn, not_true_eq_false, if_false]
                exact ⟨_, _, _, _, rfl, rfl, hl⟩
              · simp only [hn, not_false_eq_true, if_true]
                have hd := destroyList_own hu hs hl.array hl.msgs hl.grown.nodup
                rw [hl.msgs.length] at hd
                rw [hd]
                simp only
                exact ⟨trivial, fun _ => hl.grown.without hf⟩
        | _ => simp
    · simp [hb]

end Beschi.Lang.C
