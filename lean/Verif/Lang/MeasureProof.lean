import Verif.Lang.Measure
import Verif.Lang.WriterProof
/-
Generic lemmas about size computations: they give the length of the specified bytes.
-/
namespace Beschi.Lang
open Spec

/-- No index variable is reused inside a loop that still needs it. -/
def MFresh (M : MStyle) (p : Protocol) : Nat → List Variable → List String → Nat → Prop
  | 0, _, _, _ => True
  | fuel + 1, ms, used, lvl => ∀ m ∈ ms,
    (m.isList = true → m.vartype = "string" → M.textVar m.name lvl ∉ used) ∧
    ∀ s, p.struct? m.vartype = some s →
      if m.isList = true then M.loopVar m.name lvl ∉ used ∧
        MFresh M p fuel s.members (M.loopVar m.name lvl :: used) (lvl + 1)
      else MFresh M p fuel s.members used (if M.inlineDeeper then lvl + 1 else lvl)

/-- The variables a path depends on. -/
def MPath.vars (a : MPath) : List String :=
  a.root :: a.steps.filterMap fun | .idx v => some v | .fld _ => none

theorem mfresh_mono {M : MStyle} {p : Protocol} : ∀ {fuel : Nat} {ms : List Variable}
    {used used' : List String} {lvl : Nat}, (∀ x ∈ used, x ∈ used') →
    MFresh M p fuel ms used' lvl → MFresh M p fuel ms used lvl
  | 0, _, _, _, _, _, _ => trivial
  | fuel + 1, ms, used, used', lvl, hs, h => by
    intro m hm
    obtain ⟨h1, h2⟩ := h m hm
    refine ⟨fun a b c => h1 a b (hs _ c), fun s hst => ?_⟩
    have := h2 s hst
    by_cases hl : m.isList = true
    · rw [if_pos hl] at this ⊢
      refine ⟨fun c => this.1 (hs _ c), mfresh_mono ?_ this.2⟩
      intro x hx
      rcases List.mem_cons.1 hx with rfl | hx
      · simp
      · exact List.mem_cons_of_mem _ (hs _ hx)
    · rw [if_neg hl] at this ⊢
      exact mfresh_mono hs this

theorem forall₂_getElem {α β : Type} {R : α → β → Prop} {l1 : List α} {l2 : List β}
    (h : List.Forall₂ R l1 l2) {i : Nat} (h1 : i < l1.length) (h2 : i < l2.length) :
    R l1[i] l2[i] := (List.forall₂_iff_get.1 h).2 i h1 h2

theorem evalSteps_cons {env : MEnv} {x : String} {w : Val} : ∀ (steps : List MStep) (v : Val),
    x ∉ (steps.filterMap fun | .idx v => some v | .fld _ => none) →
    evalSteps ((x, w) :: env) v steps = evalSteps env v steps
  | [], v, _ => by cases v <;> rfl
  | .fld n :: rest, v, h => by
    cases v with
    | record fs =>
      simp only [evalSteps]
      cases fs.lookup n with
      | none => rfl
      | some v => exact evalSteps_cons rest v (by simpa using h)
    | _ => rfl
  | .idx y :: rest, v, h => by
    simp only [List.filterMap_cons, List.mem_cons, not_or] at h
    cases v with
    | list vs =>
      simp only [evalSteps, List.lookup_cons]
      rw [show (y == x) = false from by simpa using Ne.symm h.1]
      simp only
      cases env.lookup y with
      | none => rfl
      | some u =>
        cases u with
        | int i =>
          simp only
          split
          · rfl
          · cases vs[i.toNat]? with
            | none => rfl
            | some v => exact evalSteps_cons rest v h.2
        | _ => rfl
    | _ => rfl

theorem evalPath_cons {env : MEnv} {x : String} {w : Val} {a : MPath} (h : x ∉ a.vars) :
    evalPath ((x, w) :: env) a = evalPath env a := by
  simp only [MPath.vars, List.mem_cons, not_or] at h
  simp only [evalPath, List.lookup_cons]
  rw [show (a.root == x) = false from by simpa using Ne.symm h.1]
  simp only
  cases env.lookup a.root with
  | none => rfl
  | some v => exact evalSteps_cons _ _ h.2

theorem evalSteps_append {env : MEnv} : ∀ (s1 s2 : List MStep) (v : Val),
    evalSteps env v (s1 ++ s2) = (evalSteps env v s1).bind fun w => evalSteps env w s2
  | [], s2, v => by cases v <;> rfl
  | .fld n :: rest, s2, v => by
    cases v with
    | record fs =>
      simp only [List.cons_append, evalSteps]
      cases fs.lookup n with
      | none => rfl
      | some v => exact evalSteps_append rest s2 v
    | _ => rfl
  | .idx y :: rest, s2, v => by
    cases v with
    | list vs =>
      simp only [List.cons_append, evalSteps]
      cases env.lookup y with
      | none => rfl
      | some u =>
        cases u with
        | int i =>
          simp only
          split
          · rfl
          · cases vs[i.toNat]? with
            | none => rfl
            | some v => exact evalSteps_append rest s2 v
        | _ => rfl
    | _ => rfl

theorem evalPath_dot {env : MEnv} {a : MPath} {fs : List (String × Val)} {n : String} {v : Val}
    (h : evalPath env a = some (.record fs)) (hv : fs.lookup n = some v) :
    evalPath env (a.dot n) = some v := by
  simp only [evalPath, MPath.dot] at h ⊢
  cases hl : env.lookup a.root with
  | none => rw [hl] at h; cases h
  | some w =>
    rw [hl] at h
    simp only at h ⊢
    rw [evalSteps_append, h]
    simp [evalSteps, hv]

theorem evalPath_at {env : MEnv} {a : MPath} {vs : List Val} {x : String} {i : Nat} {v : Val}
    (h : evalPath env a = some (.list vs)) (hx : x ∉ a.vars) (hv : vs[i]? = some v) :
    evalPath ((x, .int i) :: env) (a.at x) = some v := by
  have h' := evalPath_cons (env := env) (w := .int i) hx
  rw [h] at h'
  simp only [evalPath, MPath.at] at h' ⊢
  cases hl : List.lookup a.root ((x, Val.int i) :: env) with
  | none => rw [hl] at h'; cases h'
  | some w =>
    rw [hl] at h'
    simp only at h' ⊢
    rw [evalSteps_append, h']
    simp [evalSteps, hv]

theorem evalLines_append {bound : Nat} : ∀ (l1 l2 : List MLine) (env : MEnv) (size size' : Nat),
    evalLines bound l1 env size = .ok (.go size') →
    evalLines bound (l1 ++ l2) env size = evalLines bound l2 env size'
  | [], l2, env, size, size', h => by
    simp only [evalLines] at h
    cases h; rfl
  | l :: l1, l2, env, size, size', h => by
    simp only [evalLines, List.cons_append] at h ⊢
    cases hl : evalLine bound l env size with
    | error e => rw [hl] at h; cases h
    | ok f =>
      rw [hl] at h
      cases f with
      | go s => exact evalLines_append l1 l2 env s size' h
      | done n => cases h

theorem weight_lookup {n : String} {v : Val} : ∀ {fs : List (String × Val)}, fs.lookup n = some v →
    weight v ≤ weightFields fs
  | [], h => by cases h
  | (k, w) :: fs, h => by
    simp only [List.lookup_cons] at h
    simp only [weightFields]
    split at h
    · cases h; omega
    · have := weight_lookup h; omega

theorem weight_mem {v : Val} : ∀ {vs : List Val}, v ∈ vs → weight v ≤ weightList vs
  | [], h => by cases h
  | w :: vs, h => by
    simp only [weightList]
    rcases List.mem_cons.1 h with rfl | h
    · omega
    · have := weight_mem h; omega

/-- Loops over elements. -/
theorem evalEach_spec {f : Val → Nat → Except Fail Flow} : ∀ (vs : List Val) (ks : List Nat)
    (size : Nat), List.Forall₂ (fun v k => ∀ size, f v size = .ok (.go (size + k))) vs ks →
    evalEach f vs size = .ok (.go (size + ks.sum))
  | _, _, size, .nil => by simp [evalEach]
  | _, _, size, .cons h hs => by
    simp only [evalEach, h]
    rw [evalEach_spec _ _ _ hs]
    simp [Nat.add_assoc]

/-- Loops over indices. -/
theorem evalIndex_spec {len : Nat → Except Fail Nat} {f : Nat → Nat → Except Fail Flow} {n : Nat}
    (hlen : ∀ i, len i = .ok n) : ∀ (ks : List Nat) (fuel i size : Nat), i + ks.length = n →
    ks.length < fuel → (∀ j, (hj : j < ks.length) → ∀ size, f (i + j) size = .ok (.go (size + ks[j]))) →
    evalIndex len f fuel i size = .ok (.go (size + ks.sum))
  | [], fuel + 1, i, size, hi, hf, h => by
    simp only [List.length_nil, Nat.add_zero] at hi
    simp [evalIndex, hlen, hi]
  | k :: ks, fuel + 1, i, size, hi, hf, h => by
    simp only [List.length_cons] at hi hf
    simp only [evalIndex, hlen]
    rw [if_pos (by omega)]
    have h0 := h 0 (by simp) size
    simp only [Nat.add_zero, List.getElem_cons_zero] at h0
    simp only [h0]
    rw [evalIndex_spec hlen ks fuel (i + 1) (size + k) (by omega) (by omega)]
    · simp [Nat.add_assoc]
    · intro j hj size
      have := h (j + 1) (by simp; omega) size
      simpa [Nat.add_assoc, Nat.add_comm 1] using this

/-- A loop in either style adds up what its body adds for each element. -/
theorem loop_spec {M : MStyle} {x t : String} {a : MPath} {body : List MLine} {env : MEnv} {bound : Nat}
    {vs : List Val} {ks : List Nat} (ha : evalPath env a = some (.list vs))
    (hx : M.indexed = true → x ∉ a.vars) (hb : vs.length ≤ bound) (hl : vs.length = ks.length)
    (h : ∀ i (hi : i < vs.length) env', evalPath env' (M.element x a) = some vs[i] →
      ∀ size, evalLines bound body env' size = .ok (.go (size + ks[i]))) (size : Nat) :
    evalLine bound (M.loop x t a body) env size = .ok (.go (size + ks.sum)) := by
  unfold MStyle.loop
  unfold MStyle.element at h
  split
  · rename_i hM
    simp only [hM, ↓reduceIte] at h
    simp only [evalLine]
    refine evalIndex_spec (n := vs.length) (fun i => ?_) ks _ 0 size (by omega) (by omega) ?_
    · simp [evalList, evalPath_cons (hx hM), ha, Except.map]
    · intro j hj size
      simp only [Nat.zero_add]
      exact h j (by omega) _ (evalPath_at ha (hx hM) (by rw [List.getElem?_eq_getElem (by omega)])) size
  · rename_i hM
    simp only [hM] at h
    simp only [evalLine, evalList, ha]
    refine evalEach_spec vs ks size ?_
    rw [List.forall₂_iff_get]
    refine ⟨hl, fun i h1 h2 size => ?_⟩
    exact h i h1 _ (by simp [evalPath, evalSteps]) size

/-- How the style takes the length of texts the atoms describe. -/
structure MeasuresText (M : MStyle) (A : Atoms) : Prop where
  sized : ∀ n v bs, A.num n v bs → bs.length = n.size
  text : ∀ bs s, A.text bs s → M.text.measure s = bs.length
  texts : ∀ bs s, A.text bs s → M.texts.measure s = bs.length

section
variable {M : MStyle} {A : Atoms} {p : Protocol} {bound : Nat}

/-- What the lines for some members do: they add what the accumulated constant lacks. -/
def Adds (A : Atoms) (p : Protocol) (bound : Nat) (acc : MPath) (ms : List Variable)
    (all : List Variable) (lines : List MLine) (accum : Nat) : Prop :=
  ∀ env pre fs bs, evalPath env acc = some (.record (pre ++ fs)) →
    (pre ++ fs).map (·.1) = all.map (·.name) → weightFields (pre ++ fs) ≤ bound →
    LayoutFields A p ms fs bs →
    ∃ k, (∀ size, evalLines bound lines env size = .ok (.go (size + k))) ∧ k + accum = bs.length

theorem items_lengths {t : String} : ∀ {vs : List Val} {bs : List UInt8},
    LayoutItems A p t vs bs → ∃ pieces : List (List UInt8), List.Forall₂ (Layout A p t) vs pieces ∧
      bs = pieces.flatten
  | [], _, .nil => ⟨[], .nil, rfl⟩
  | v :: vs, _, .cons h1 h2 => by
    obtain ⟨ps, h3, rfl⟩ := items_lengths h2
    exact ⟨_ :: ps, .cons h1 h3, rfl⟩

theorem sum_const {n : Nat} : ∀ {ks : List (List UInt8)}, (∀ k ∈ ks, k.length = n) →
    ks.flatten.length = ks.length * n
  | [], _ => by simp
  | k :: ks, h => by
    have ih := sum_const (ks := ks) (fun k hk => h k (by simp [hk]))
    simp only [List.flatten_cons, List.length_append, List.length_cons, ih, h k (by simp)]
    ring

theorem measureMember_spec (h : Usable p) (hT : MeasuresText M A)
    {rec : Struct → MPath → Nat → Option (List MLine × Nat)} {fuel : Nat} {acc : MPath} {lvl : Nat}
    {m : Variable} {ms all : List Variable} (hk : KnownType p m.vartype)
    (hall : (all.map (·.name)).Nodup)
    (hrec : ∀ s, p.struct? m.vartype = some s → VaryingBody p s.members → ∀ acc lvl,
      (M.indexed = true → MFresh M p fuel s.members acc.vars lvl) →
      ∃ lines accum, rec s acc lvl = some (.init :: lines, accum) ∧ lines ≠ [] ∧
        Adds A p bound acc s.members s.members lines accum)
    (hfresh : M.indexed = true → MFresh M p (fuel + 1) (m :: ms) acc.vars lvl) :
    ∃ lines accum, measureMember M p rec acc lvl m = some (lines, accum) ∧
      ((m.isList = true ∨ Varying p m.vartype) → lines ≠ []) ∧
      ∀ env pre v fs bs, evalPath env acc = some (.record (pre ++ (m.name, v) :: fs)) →
        (pre ++ (m.name, v) :: fs).map (·.1) = all.map (·.name) →
        weightFields (pre ++ (m.name, v) :: fs) ≤ bound →
        LayoutFields A p [m] [(m.name, v)] bs →
        ∃ k, (∀ size, evalLines bound lines env size = .ok (.go (size + k))) ∧ k + accum = bs.length := by
  have hlook : ∀ {pre fs : List (String × Val)} {v : Val},
      (pre ++ (m.name, v) :: fs).map (·.1) = all.map (·.name) →
      (pre ++ (m.name, v) :: fs).lookup m.name = some v := by
    intro pre fs v he
    rw [lookup_append_notMem]
    · simp
    · intro hm
      rw [← he, List.map_append, List.nodup_append] at hall
      exact hall.2.2 _ hm _ (by simp) rfl
  have hstr : ∀ s, p.struct? m.vartype = some s → s ∈ p.structs ∧ s.name = m.vartype := by
    intro s hs
    have h1 := List.mem_of_find?_eq_some hs
    have h2 := List.find?_some hs
    exact ⟨h1, by simpa using h2⟩
  have hvars : ∀ n x, x ∉ acc.vars → x ∉ (acc.dot n).vars := by
    intro n x hx
    simpa [MPath.vars, MPath.dot] using hx
  have hvars2 : ∀ n, (acc.dot n).vars = acc.vars := by
    intro n; simp [MPath.vars, MPath.dot]
  unfold measureMember
  by_cases hl : m.isList = true
  · rw [if_pos hl]
    have hsimple := simpleVar_spec h (v := m) (listed := true) (.inr rfl) hk
    by_cases hsv : p.simpleVar m true = true
    · rw [if_pos hsv]
      refine ⟨_, _, rfl, by simp, ?_⟩
      intro env pre v fs bs he hn hw hf
      cases hf with
      | one hl' => rw [hl] at hl'; cases hl'
      | @list _ _ vs _ len a b _ hlen hits hrest =>
        cases hrest
        have hfix := (sizeOf_fixed h hk (hsimple.2.1 hsv)).2 A hT.sized
        obtain ⟨ps, hps, rfl⟩ := items_lengths hits
        have hp : ∀ x ∈ ps, x.length = p.sizeOf m.vartype := by
          intro x hx
          obtain ⟨i, hi, rfl⟩ := List.mem_iff_getElem.1 hx
          exact hfix _ _ (forall₂_getElem hps (by rw [hps.length_eq]; exact hi) hi)
        refine ⟨vs.length * p.sizeOf m.vartype, fun size => ?_, ?_⟩
        · simp [evalLines, evalLine, evalList, evalPath_dot he (hlook hn)]
        · simp only [List.length_append, sum_const hp, hps.length_eq, hT.sized _ _ _ hlen]
          simp; omega
    · rw [if_neg hsv]
      by_cases ht : m.vartype = "string"
      · rw [if_pos ht]
        refine ⟨_, _, rfl, by simp, ?_⟩
        intro env pre v fs bs he hn hw hf
        cases hf with
        | one hl' => rw [hl] at hl'; cases hl'
        | @list _ _ vs _ len a b _ hlen hits hrest =>
          cases hrest
          obtain ⟨ps, hps, rfl⟩ := items_lengths hits
          have hpath := evalPath_dot he (hlook hn)
          have hbnd : vs.length ≤ bound := by
            have := weight_lookup (hlook hn)
            simp only [weight] at this; omega
          have hx : M.indexed = true → M.textVar m.name lvl ∉ (acc.dot m.name).vars := fun hi =>
            hvars _ _ (((hfresh hi) m (by simp)).1 hl ht)
          have hloop := loop_spec (M := M) (t := m.vartype) (body := [.addTextPlus p.stringSize.size
              (M.element (M.textVar m.name lvl) (acc.dot m.name)) M.texts]) (bound := bound)
            (ks := ps.map List.length) hpath hx hbnd (by simp [hps.length_eq]) (by
              intro i hi env' he' size
              have hi2 : i < ps.length := by rw [← hps.length_eq]; exact hi
              have hlay := forall₂_getElem hps hi hi2
              rw [ht] at hlay
              obtain ⟨s, len, cs, hv', hb', h1, h2⟩ := layout_text h hlay
              rw [hv'] at he'
              simp [evalLines, evalLine, evalText, he', hb', hT.texts _ _ h2, hT.sized _ _ _ h1])
          refine ⟨(ps.map List.length).sum, fun size => ?_, ?_⟩
          · simp only [evalLines, hloop]
          · simp only [List.length_append, List.length_flatten, hT.sized _ _ _ hlen]
            simp; omega
      · rw [if_neg ht]
        have hvary : Varying p m.vartype := by
          by_contra hc
          exact hsv (hsimple.2.2 hc)
        cases h.kind hk with
        | num n e => exact absurd (e ▸ hvary) (varying_num h n)
        | text e => exact absurd e ht
        | enum e hmem hname => exact absurd (hname ▸ hvary) (varying_enum h hmem)
        | struct s hmem hname _ _ _ hst _ =>
          have hvb := (varying_struct h hmem).1 (hname ▸ hvary)
          simp only [hst]
          have hfr : M.indexed = true → MFresh M p fuel s.members
              (M.element (M.loopVar m.name lvl) (acc.dot m.name)).vars (lvl + 1) := by
            intro hi
            have := ((hfresh hi) m (by simp)).2 s hst
            rw [if_pos hl] at this
            have h2 := this.2
            rw [← hvars2 m.name] at h2
            simp only [MStyle.element, hi, ↓reduceIte]
            refine mfresh_mono ?_ h2
            intro x hx
            simp only [MPath.vars, MPath.at, List.filterMap_append, List.mem_cons, List.mem_append] at hx ⊢
            rcases hx with hx | hx | hx
            · exact .inr (.inl hx)
            · exact .inr (.inr hx)
            · simp at hx; exact .inl hx
          obtain ⟨lines, accum, hr, hne, hadds⟩ := hrec s hst hvb _ _ hfr
          simp only [hr]
          refine ⟨_, _, rfl, by simp, ?_⟩
          intro env pre v fs bs he hn hw hf
          cases hf with
          | one hl' => rw [hl] at hl'; cases hl'
          | @list _ _ vs _ len a b _ hlen hits hrest =>
            cases hrest
            obtain ⟨ps, hps, rfl⟩ := items_lengths hits
            have hpath := evalPath_dot he (hlook hn)
            have hwl : vs.length + weightList vs ≤ bound := by
              have := weight_lookup (hlook hn)
              simp only [weight] at this; omega
            have hx : M.indexed = true → M.loopVar m.name lvl ∉ (acc.dot m.name).vars := fun hi => by
              have := ((hfresh hi) m (by simp)).2 s hst
              rw [if_pos hl] at this
              exact hvars _ _ this.1
            have hloop := loop_spec (M := M) (t := m.vartype) (body := lines ++ [.add accum]) (bound := bound)
              (ks := ps.map List.length) hpath hx (by omega) (by simp [hps.length_eq]) (by
                intro i hi env' he' size
                have hi2 : i < ps.length := by rw [← hps.length_eq]; exact hi
                have hlay := forall₂_getElem hps hi hi2
                rw [← hname] at hlay
                obtain ⟨fs', hv', hlf⟩ := layout_struct h hmem hlay
                rw [hv'] at he'
                obtain ⟨k, hk1, hk2⟩ := hadds env' [] fs' _ he' (by
                    simpa using layoutFields_names hlf) (by
                  have := weight_mem (v := vs[i]) (vs := vs) (List.getElem_mem _)
                  rw [hv'] at this
                  simp only [weight] at this
                  simp only [List.nil_append]
                  omega) hlf
                rw [evalLines_append _ _ _ _ _ (hk1 size)]
                simp only [evalLines, evalLine, List.getElem_map]
                rw [← hk2, Nat.add_assoc])
            refine ⟨(ps.map List.length).sum, fun size => ?_, ?_⟩
            · simp only [dropInit, MLine.isInit, ↓reduceIte, evalLines, hloop]
            · simp only [List.length_append, List.length_flatten, hT.sized _ _ _ hlen]
              simp; omega
  · have hl0 : m.isList = false := by simpa using hl
    rw [if_neg hl]
    have hsimple := simpleVar_spec h (v := m) (listed := false) (.inl hl0) hk
    by_cases hsv : p.simpleVar m false = true
    · rw [if_pos hsv]
      refine ⟨_, _, rfl, ?_, ?_⟩
      · rintro (hc | hc)
        · exact absurd hc hl
        · exact absurd hc (hsimple.2.1 hsv)
      intro env pre v fs bs he hn hw hf
      cases hf with
      | list hl' => exact absurd hl' hl
      | one _ hlay hrest =>
        cases hrest
        have hfix := (sizeOf_fixed h hk (hsimple.2.1 hsv)).2 A hT.sized _ _ hlay
        exact ⟨0, fun size => by simp [evalLines], by simp [hfix]⟩
    · rw [if_neg hsv]
      by_cases ht : m.vartype = "string"
      · rw [if_pos ht]
        refine ⟨_, _, rfl, by simp, ?_⟩
        intro env pre v fs bs he hn hw hf
        cases hf with
        | list hl' => exact absurd hl' hl
        | one _ hlay hrest =>
          cases hrest
          rw [ht] at hlay
          obtain ⟨s, len, cs, rfl, rfl, h1, h2⟩ := layout_text h hlay
          refine ⟨cs.length, fun size => ?_, ?_⟩
          · simp [evalLines, evalLine, evalText, evalPath_dot he (hlook hn), hT.text _ _ h2]
          · simp [hT.sized _ _ _ h1]; omega
      · rw [if_neg ht]
        have hvary : Varying p m.vartype := by
          by_contra hc
          exact hsv (hsimple.2.2 hc)
        cases h.kind hk with
        | num n e => exact absurd (e ▸ hvary) (varying_num h n)
        | text e => exact absurd e ht
        | enum e hmem hname => exact absurd (hname ▸ hvary) (varying_enum h hmem)
        | struct s hmem hname _ _ _ hst _ =>
          have hvb := (varying_struct h hmem).1 (hname ▸ hvary)
          simp only [hst]
          obtain ⟨lines, accum, hr, hne, hadds⟩ := hrec s hst hvb (acc.dot m.name)
            (if M.inlineDeeper then lvl + 1 else lvl) (by
              intro hi
              have := ((hfresh hi) m (by simp)).2 s hst
              rw [if_neg hl] at this
              rw [hvars2]
              exact this)
          simp only [hr]
          refine ⟨_, _, rfl, fun _ => by simpa [dropInit, MLine.isInit] using hne, ?_⟩
          intro env pre v fs bs he hn hw hf
          cases hf with
          | list hl' => exact absurd hl' hl
          | one _ hlay hrest =>
            cases hrest
            rw [← hname] at hlay
            obtain ⟨fs', rfl, hlf⟩ := layout_struct h hmem hlay
            have hpath := evalPath_dot he (hlook hn)
            obtain ⟨k, hk1, hk2⟩ := hadds env [] fs' _ hpath (by
                simpa using layoutFields_names hlf) (by
              have := weight_lookup (hlook hn)
              simp only [weight] at this
              simp only [List.nil_append]
              omega) hlf
            exact ⟨k, by simpa [dropInit, MLine.isInit] using hk1, by simpa using hk2⟩

theorem measureMembers_spec (h : Usable p) (hT : MeasuresText M A)
    {rec : Struct → MPath → Nat → Option (List MLine × Nat)} {fuel : Nat} {acc : MPath} {lvl : Nat}
    {all : List Variable} (hall : (all.map (·.name)).Nodup) : ∀ {ms : List Variable},
    (∀ m ∈ ms, KnownType p m.vartype) →
    (∀ m ∈ ms, ∀ s, p.struct? m.vartype = some s → VaryingBody p s.members → ∀ acc lvl,
      (M.indexed = true → MFresh M p fuel s.members acc.vars lvl) →
      ∃ lines accum, rec s acc lvl = some (.init :: lines, accum) ∧ lines ≠ [] ∧
        Adds A p bound acc s.members s.members lines accum) →
    (M.indexed = true → MFresh M p (fuel + 1) ms acc.vars lvl) →
    ∃ lines accum, measureMembers M p rec acc lvl ms = some (lines, accum) ∧
      (VaryingBody p ms → lines ≠ []) ∧ Adds A p bound acc ms all lines accum
  | [], _, _, _ => by
    refine ⟨[], 0, rfl, ?_, ?_⟩
    · rintro ⟨m, hm, _⟩; cases hm
    · intro env pre fs bs _ _ _ hf
      cases hf
      exact ⟨0, fun size => by simp [evalLines], rfl⟩
  | m :: ms, hk, hrec, hfresh => by
    obtain ⟨l1, a1, e1, n1, s1⟩ := measureMember_spec h hT (m := m) (ms := ms) (acc := acc)
      (lvl := lvl) (rec := rec) (fuel := fuel) (bound := bound) (hk m (by simp)) hall
      (hrec m (by simp)) hfresh
    obtain ⟨l2, a2, e2, n2, s2⟩ := measureMembers_spec h hT hall (ms := ms) (rec := rec) (acc := acc)
      (lvl := lvl) (fun m hm => hk m (by simp [hm])) (fun m hm => hrec m (by simp [hm]))
      (fun hi m hm => hfresh hi m (by simp [hm]))
    refine ⟨l1 ++ l2, a1 + a2, by simp [measureMembers, e1, e2], ?_, ?_⟩
    · rintro ⟨x, hx, hv⟩ hc
      have hc := List.append_eq_nil_iff.1 hc
      rcases List.mem_cons.1 hx with rfl | hx
      · exact n1 hv hc.1
      · exact n2 ⟨x, hx, hv⟩ hc.2
    · intro env pre fs bs he hn hw hf
      have go : ∀ v fs' x y, fs = (m.name, v) :: fs' → bs = x ++ y →
          LayoutFields A p [m] [(m.name, v)] x → LayoutFields A p ms fs' y →
          ∃ k, (∀ size, evalLines bound (l1 ++ l2) env size = .ok (.go (size + k))) ∧
            k + (a1 + a2) = bs.length := by
        rintro v fs' x y rfl rfl hx hy
        obtain ⟨k1, r1, q1⟩ := s1 env pre v fs' x he hn hw hx
        obtain ⟨k2, r2, q2⟩ := s2 env (pre ++ [(m.name, v)]) fs' y (by simpa using he)
          (by simpa using hn) (by simpa using hw) hy
        refine ⟨k1 + k2, fun size => ?_, by simp; omega⟩
        rw [evalLines_append _ _ _ _ _ (r1 size), r2, Nat.add_assoc]
      cases hf with
      | @one _ _ v fs' a b hl h1 h2 =>
        exact go v fs' a b rfl rfl (by simpa using LayoutFields.one hl h1 .nil) h2
      | @list _ _ vs fs' len a b hl h0 h1 h2 =>
        exact go (.list vs) fs' (len ++ a) b rfl rfl (by simpa using LayoutFields.list hl h0 h1 .nil) h2

theorem measureStruct_spec (h : Usable p) (hd : MembersDistinct p) (hT : MeasuresText M A) :
    ∀ (d fuel : Nat) (st : Struct), st ∈ p.structs ++ p.messages →
      (∀ m ∈ st.members, fits p d m.vartype) → d < fuel → VaryingBody p st.members →
      ∀ acc lvl, (M.indexed = true → MFresh M p fuel st.members acc.vars lvl) →
      ∃ lines accum, measureStruct M p fuel st acc lvl = some (.init :: lines, accum) ∧ lines ≠ [] ∧
        Adds A p bound acc st.members st.members lines accum := by
  intro d fuel
  induction fuel generalizing d with
  | zero => intro st _ _ hd; omega
  | succ fuel ih =>
    intro st hst hfit hdf hv acc lvl hfresh
    have hk : ∀ m ∈ st.members, KnownType p m.vartype := fun m hm => h.types st hst m hm
    have hns : p.simpleStruct st = false := by
      have := (simpleStruct_spec h hk).2
      by_contra hc
      exact (this.1 (by simpa using hc)) hv
    obtain ⟨lines, accum, e, hne, hadds⟩ := measureMembers_spec (bound := bound) h hT
      (rec := measureStruct M p fuel) (fuel := fuel) (acc := acc) (lvl := lvl) (hd st hst) hk
      (by
        intro m hm s hs hvb acc lvl hfr
        have hmem : s ∈ p.structs := List.mem_of_find?_eq_some hs
        match d, hfit m hm with
        | 0, hf => rw [show p.struct? m.vartype = none from hf] at hs; cases hs
        | d + 1, hf =>
          exact ih d s (by simp [hmem]) (hf s hs) (by omega) hvb acc lvl hfr)
      hfresh
    exact ⟨lines, accum, by simp [measureStruct, hns, e], hne hv, hadds⟩

/-- The size computation of a message (or struct) gives the length of its bytes. -/
theorem measureFun_spec (h : Usable p) (hd : MembersDistinct p) (hT : MeasuresText M A)
    {st : Struct} (hst : st ∈ p.structs ++ p.messages) {root : String} {lvl : Nat}
    (hfresh : M.indexed = true → MFresh M p (depth p) st.members [root] lvl)
    {fs : List (String × Val)} {bs : List UInt8} (hf : LayoutFields A p st.members fs bs) :
    ∃ f, measureFun M p st root lvl = some f ∧ runMeasure f root (.record fs) = .ok bs.length := by
  have hk : ∀ m ∈ st.members, KnownType p m.vartype := fun m hm => h.types st hst m hm
  have hss := (simpleStruct_spec h hk).2
  by_cases hv : VaryingBody p st.members
  · obtain ⟨lines, accum, e, hne, hadds⟩ := measureStruct_spec (bound := weight (.record fs)) h hd hT
      p.structs.length (depth p) st hst (fun m _ => h.fits m.vartype) (by simp [depth]) hv
      { root := root } lvl (by simpa [MPath.vars] using hfresh)
    have hpath : evalPath [(root, Val.record fs)] { root := root } = some (.record fs) := by
      simp [evalPath, evalSteps]
    obtain ⟨k, h1, h2⟩ := hadds [(root, .record fs)] [] fs bs hpath
      (by simpa using layoutFields_names hf) (by simp [weight]) hf
    refine ⟨_, by simp only [measureFun, e]; rfl, ?_⟩
    have hret : (M.alwaysReturn || decide ((MLine.init :: lines).length > 1)) = true := by
      have : 0 < lines.length := List.length_pos_of_ne_nil hne
      simp [this]
    simp only [runMeasure, hret]
    by_cases ha : accum > 0
    · rw [if_pos ha]
      simp only [List.cons_append, evalLines, evalLine]
      rw [evalLines_append _ _ _ _ _ (h1 0)]
      simp [evalLines, evalLine, h2]
    · rw [if_neg ha]
      simp only [evalLines, evalLine, h1 0]
      simp; omega
  · have hs := hss.2 hv
    have hsz := (sizeOf_body h hst hv).2 A hT.sized fs bs hf
    refine ⟨_, by simp only [measureFun, depth, measureStruct, hs, ↓reduceIte]; rfl, ?_⟩
    simp [runMeasure, evalLines, evalLine, hsz]

end

end Beschi.Lang
