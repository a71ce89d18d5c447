import Verif.Protocol.Accept
import Verif.Spec.Described
import Mathlib.Data.List.Induction
/-
What the loader accepts is what the description says, and the other way round.
-/
namespace Beschi
open Spec

/-! ### Members, structs and messages -/

theorem isBracketed_iff (s : String) : isBracketed s = true ↔ Bracketed s := by
  simp [isBracketed, Bracketed]

theorem bracketed_eq {s : String} (h : Bracketed s) : s = "[" ++ stripBrackets s ++ "]" := by
  obtain ⟨h1, h2⟩ := h
  apply String.toList_inj.1
  simp only [String.toList_append, stripBrackets, String.toList_ofList]
  cases hl : s.toList with
  | nil => rw [hl] at h1; cases h1
  | cons c cs =>
    rw [hl] at h1 h2
    simp only [List.head?_cons, Option.some.injEq] at h1
    subst h1
    have hne : cs ≠ [] := by
      rintro rfl
      simp at h2
    rw [List.getLast?_cons_of_ne_nil hne] at h2
    simp only [List.drop_succ_cons, List.drop_zero]
    have := List.dropLast_append_getLast? ']' h2
    show '[' :: cs = ('[' :: cs.dropLast) ++ [']']
    rw [List.cons_append, this]

theorem buildMember_describes {n : String} {t : Toml} {v : Variable}
    (h : buildMember n t = .ok (some v)) :
    (n, t) = memberToml v ∧ n.toList.head? ≠ some '_' ∧ ¬ Bracketed v.vartype := by
  unfold buildMember at h
  split at h
  · cases h
  · rename_i hn
    have hn' : n.toList.head? ≠ some '_' := by simpa using hn
    split at h
    · rename_i s
      split at h
      · cases h
      · split at h
        · rename_i hb
          simp only at h
          split at h
          · cases h
          · split at h
            · cases h
            · rename_i hb'
              cases h
              refine ⟨?_, hn', fun hc => hb' ((isBracketed_iff _).2 hc)⟩
              simp only [memberToml, if_true]
              rw [← bracketed_eq ((isBracketed_iff _).1 hb)]
        · rename_i hb
          cases h
          exact ⟨by simp [memberToml], hn', fun hc => hb ((isBracketed_iff _).2 hc)⟩
    · cases h

theorem buildMember_hidden {n : String} {t : Toml} :
    buildMember n t = .ok none ↔ n.toList.head? = some '_' := by
  unfold buildMember
  constructor
  · intro h
    split at h
    · rename_i hn; simpa using hn
    · split at h
      · split at h
        · cases h
        · split at h
          · simp only at h
            split at h
            · cases h
            · split at h <;> cases h
          · cases h
      · cases h
  · intro h
    rw [if_pos (by simpa using h)]

theorem buildMember_of_describes {v : Variable} (hn : v.name.toList.head? ≠ some '_')
    (ht : v.vartype ≠ "") (hb : ¬ Bracketed v.vartype) :
    buildMember (memberToml v).1 (memberToml v).2 = .ok (some v) := by
  obtain ⟨name, t, isL⟩ := v
  have hte : ¬ t.toList.isEmpty = true := by rw [toList_isEmpty]; exact ht
  have hbr : ¬ isBracketed t = true := fun h => hb ((isBracketed_iff _).1 h)
  unfold buildMember memberToml
  simp only
  rw [if_neg (by simpa using hn)]
  cases isL with
  | false => simp only [Bool.false_eq_true, if_false]; rw [if_neg hte, if_neg hbr]
  | true =>
    simp only [if_true]
    rw [if_neg (by rw [toList_isEmpty]; intro h; have := congrArg String.toList h; simp at this),
      if_pos (bracketed_wrap t), strip_wrap, if_neg hte, if_neg hbr]

/-- Is the key one of a member? -/
def visible (e : String × Toml) : Bool := e.1.toList.head? != some '_'

theorem buildMembers_describes {kvs : List (String × Toml)} {ms : List Variable}
    (h : buildMembers kvs = .ok ms) :
    kvs.filter visible = ms.map memberToml ∧ ∀ v ∈ ms, ¬ Bracketed v.vartype := by
  induction kvs generalizing ms with
  | nil => simp only [buildMembers] at h; cases h; simp
  | cons e rest ih =>
    obtain ⟨n, t⟩ := e
    simp only [buildMembers, bind_ok] at h
    obtain ⟨v?, hv, vs, hvs, h⟩ := h
    obtain ⟨i1, i2⟩ := ih hvs
    cases v? with
    | none =>
      cases h
      have := buildMember_hidden.1 hv
      rw [List.filter_cons_of_neg (by simp [visible, this])]
      exact ⟨i1, i2⟩
    | some v =>
      cases h
      obtain ⟨b1, b2, b3⟩ := buildMember_describes hv
      rw [List.filter_cons_of_pos (by simpa [visible] using b2), i1, b1]
      refine ⟨rfl, fun x hx => ?_⟩
      rcases List.mem_cons.1 hx with rfl | hx
      · exact b3
      · exact i2 x hx

theorem buildMembers_of_describes {kvs : List (String × Toml)} {ms : List Variable}
    (h : kvs.filter visible = ms.map memberToml)
    (hm : ∀ v ∈ ms, v.vartype ≠ "" ∧ ¬ Bracketed v.vartype) : buildMembers kvs = .ok ms := by
  induction kvs generalizing ms with
  | nil =>
    cases ms with
    | nil => rfl
    | cons v vs => simp at h
  | cons e rest ih =>
    obtain ⟨n, t⟩ := e
    by_cases hv : visible (n, t) = true
    · rw [List.filter_cons_of_pos hv] at h
      cases ms with
      | nil => simp at h
      | cons v vs =>
        simp only [List.map_cons, List.cons.injEq] at h
        have hn : v.name.toList.head? ≠ some '_' := by
          rw [h.1] at hv
          simpa [visible, memberToml] using hv
        have := buildMember_of_describes hn (hm v (by simp)).1 (hm v (by simp)).2
        rw [← h.1] at this
        simp only at this
        simp only [buildMembers, this, ih h.2 (fun x hx => hm x (by simp [hx])), bind, Except.bind]
    · rw [List.filter_cons_of_neg hv] at h
      have : buildMember n t = .ok none := by
        rw [buildMember_hidden]
        simpa [visible] using hv
      simp only [buildMembers, this, ih h hm, bind, Except.bind]

theorem buildStruct_describes {t : Toml} {b : Bool} {s : Struct} (h : buildStruct t b = .ok s) :
    DescribesStruct t s := by
  unfold buildStruct at h
  split at h
  · rename_i kvs
    rw [get?_eq_lookup] at h
    split at h
    · cases h
    · rename_i n hn
      simp only [bind_ok] at h
      obtain ⟨ms, hms, h⟩ := h
      cases h
      obtain ⟨h1, h2⟩ := buildMembers_describes hms
      exact ⟨kvs, rfl, hn, h1, h2⟩
    · cases h
  · cases h

theorem buildStruct_of_describes {t : Toml} {s : Struct} (h : DescribesStruct t s)
    (hm : ∀ v ∈ s.members, v.vartype ≠ "") : buildStruct t s.isMessage = .ok s := by
  obtain ⟨kvs, rfl, h1, h2, h3⟩ := h
  unfold buildStruct
  simp only [get?_eq_lookup, h1]
  have := buildMembers_of_describes (ms := s.members) h2 (fun v hv => ⟨hm v hv, h3 v hv⟩)
  simp only [this, bind, Except.bind]

theorem loadStructs_built {l : List Toml} {p q : Protocol} (h : loadStructs l p = .ok q) :
    ∃ new, q = { p with structs := p.structs ++ new } ∧
      List.Forall₂ (fun t s => buildStruct t false = .ok s) l new := by
  induction l generalizing p with
  | nil => simp only [loadStructs] at h; cases h; exact ⟨[], by simp, .nil⟩
  | cons d rest ih =>
    simp only [loadStructs, bind_ok] at h
    obtain ⟨s, hs, h⟩ := h
    split at h
    · cases h
    · obtain ⟨new, rfl, hn⟩ := ih h
      exact ⟨s :: new, by simp, .cons hs hn⟩

theorem loadMessages_built {l : List Toml} {p q : Protocol} (h : loadMessages l p = .ok q) :
    ∃ new, q = { p with messages := p.messages ++ new } ∧
      List.Forall₂ (fun t s => buildStruct t true = .ok s) l new := by
  induction l generalizing p with
  | nil => simp only [loadMessages] at h; cases h; exact ⟨[], by simp, .nil⟩
  | cons d rest ih =>
    simp only [loadMessages, bind_ok] at h
    obtain ⟨s, hs, h⟩ := h
    split at h
    · cases h
    · obtain ⟨new, rfl, hn⟩ := ih h
      exact ⟨s :: new, by simp, .cons hs hn⟩

theorem loadStructs_of_built {l : List Toml} {new : List Struct} {p : Protocol}
    (h : List.Forall₂ (fun t s => buildStruct t false = .ok s) l new)
    (hn : ((p.structs ++ new).map (·.name)).Nodup) :
    loadStructs l p = .ok { p with structs := p.structs ++ new } := by
  induction h generalizing p with
  | nil => simp [loadStructs]
  | @cons t s l new h1 h2 ih =>
    simp only [loadStructs, h1, bind, Except.bind]
    have : ¬ p.isStruct s.name = true := by
      rw [isStruct_iff]
      intro hm
      rw [List.map_append, List.map_cons] at hn
      exact (List.nodup_append.1 hn).2.2 _ hm _ (by simp) rfl
    rw [if_neg this, ih (by simpa using hn)]
    simp

theorem loadMessages_of_built {l : List Toml} {new : List Struct} {p : Protocol}
    (h : List.Forall₂ (fun t s => buildStruct t true = .ok s) l new)
    (hn : ((p.messages ++ new).map (·.name)).Nodup) :
    loadMessages l p = .ok { p with messages := p.messages ++ new } := by
  induction h generalizing p with
  | nil => simp [loadMessages]
  | @cons t s l new h1 h2 ih =>
    simp only [loadMessages, h1, bind, Except.bind]
    have : ¬ p.isMessageName s.name = true := by
      rw [isMessageName_iff]
      intro hm
      rw [List.map_append, List.map_cons] at hn
      exact (List.nodup_append.1 hn).2.2 _ hm _ (by simp) rfl
    rw [if_neg this, ih (by simpa using hn)]
    simp

/-! ### Sections -/

/-- A section is its entries, or consists of strings only. -/
theorem sectionItems_entries {kvs : List (String × Toml)} {key : String} {l : List Toml}
    (h : sectionItems kvs key = .ok l) :
    l = entries kvs key ∨ entries kvs key = [] ∧ ∀ t ∈ l, ∃ s, t = .str s := by
  unfold sectionItems at h
  rw [get?_eq_lookup] at h
  unfold entries
  split at h
  · rename_i hg; cases h; simp [hg]
  · rename_i l hg; cases h; simp [hg]
  · rename_i kvs' hg; cases h; right; simp [hg]; rintro t a b - rfl; exact ⟨a, rfl⟩
  · rename_i s hg; cases h; right; simp [hg]
  · cases h

theorem sectionItems_related {α : Type} {R : Toml → α → Prop} {kvs : List (String × Toml)}
    {key : String} {l : List Toml} {as : List α} (h : sectionItems kvs key = .ok l)
    (hr : List.Forall₂ R l as) (hs : ∀ s a, ¬ R (.str s) a) : List.Forall₂ R (entries kvs key) as := by
  rcases sectionItems_entries h with rfl | ⟨h1, h2⟩
  · exact hr
  · cases hr with
    | nil => rw [h1]; exact .nil
    | cons hc _ =>
      obtain ⟨s, rfl⟩ := h2 _ (List.mem_cons_self ..)
      exact absurd hc (hs s _)

theorem sectionItems_of_shaped {kvs : List (String × Toml)} {key : String}
    (h : kvs.lookup key = none ∨ ∃ l, kvs.lookup key = some (.arr l)) :
    sectionItems kvs key = .ok (entries kvs key) := by
  unfold sectionItems entries
  rw [get?_eq_lookup]
  rcases h with h | ⟨l, h⟩ <;> rw [h]

/-! ### Meta -/

theorem metaGet_entry {kvs : List (String × Toml)} {m : Toml} {key : String} {t : Option Toml}
    (hm : kvs.lookup "meta" = some m) (h : metaGet m key = .ok t) : t = metaEntry kvs key := by
  unfold metaGet at h
  unfold metaEntry
  rw [hm]
  split at h
  · cases h; rw [get?_eq_lookup]
  · split at h <;> cases h; rfl
  · split at h <;> cases h; rfl
  · cases h

theorem parseSize_describes {t : Toml} {n : NumTy} (h : parseSize t = some n) : t = .str n.name := by
  unfold parseSize at h
  split at h
  · split at h
    · rename_i n' hn
      split at h
      · cases h; rw [ofName?_some hn]
      · cases h
    · cases h
  · cases h

theorem metaSize_describes {kvs : List (String × Toml)} {m : Toml} {key : String} {err : LoadErr}
    {n : NumTy} (hm : kvs.lookup "meta" = some m) (h : metaSize m key err = .ok n) :
    DescribesSize (metaEntry kvs key) n := by
  unfold metaSize at h
  split at h
  · cases h
  · rename_i hg
    cases h
    exact .inr ⟨(metaGet_entry hm hg).symm, rfl⟩
  · rename_i t hg
    split at h
    · rename_i n' hp
      cases h
      left
      rw [← metaGet_entry hm hg, parseSize_describes hp]
    · cases h

theorem metaNamespace_describes {kvs : List (String × Toml)} {m : Toml} {ns : Option Toml}
    (hm : kvs.lookup "meta" = some m) (h : metaNamespace m = .ok ns) :
    ns = metaEntry kvs "namespace" ∧ ∀ s, ns = some (.str s) → NoSpace s := by
  unfold metaNamespace at h
  split at h
  · cases h
  · rename_i hg
    cases h
    exact ⟨metaGet_entry hm hg, fun s hs => by cases hs⟩
  · rename_i t hg
    rw [map_ok] at h
    obtain ⟨t', h1, rfl⟩ := h
    have key : t' = t ∧ ∀ s, t' = .str s → NoSpace s := by
      unfold checkNamespace at h1
      split at h1
      · split at h1
        · cases h1
        · rename_i hw
          cases h1
          exact ⟨rfl, fun s hs => by cases hs; exact containsWhitespace_false hw⟩
      · split at h1 <;> cases h1
        exact ⟨rfl, fun s hs => by cases hs⟩
      · split at h1 <;> cases h1
        exact ⟨rfl, fun s hs => by cases hs⟩
      · cases h1
    obtain ⟨rfl, h2⟩ := key
    exact ⟨metaGet_entry hm hg, fun s hs => h2 s (by cases hs; rfl)⟩

theorem loadMeta_describes {kvs : List (String × Toml)} {p : Protocol} (h : loadMeta kvs = .ok p) :
    p.ns = metaEntry kvs "namespace" ∧ DescribesSize (metaEntry kvs "list_size_type") p.listSize ∧
    DescribesSize (metaEntry kvs "string_size_type") p.stringSize ∧ GoodNamespace p ∧
    p.structs = [] ∧ p.messages = [] ∧ p.enums = [] := by
  unfold loadMeta at h
  rw [get?_eq_lookup] at h
  split at h
  · rename_i hg
    cases h
    have : ∀ key, metaEntry kvs key = none := fun key => by unfold metaEntry; rw [hg]
    simp [this, DescribesSize, GoodNamespace]
  · rename_i m hg
    simp only [bind_ok] at h
    obtain ⟨ns, h1, ls, h2, ss, h3, h⟩ := h
    cases h
    obtain ⟨n1, n2⟩ := metaNamespace_describes hg h1
    exact ⟨n1, metaSize_describes hg h2, metaSize_describes hg h3, n2, rfl, rfl, rfl⟩

theorem metaSize_of_describes {kvs m : List (String × Toml)} {key : String} {err : LoadErr} {n : NumTy}
    (hm : kvs.lookup "meta" = some (.table m)) (hi : IntegerType n)
    (h : DescribesSize (metaEntry kvs key) n) : metaSize (.table m) key err = .ok n := by
  have : metaGet (.table m) key = .ok (metaEntry kvs key) := by
    simp only [metaGet, metaEntry, hm, get?_eq_lookup]
  unfold metaSize
  rw [this]
  rcases h with h | ⟨h, rfl⟩
  · rw [h]; simp only [parseSize_name hi]
  · rw [h]

theorem loadMeta_of_describes {kvs : List (String × Toml)} {p : Protocol}
    (hm : kvs.lookup "meta" = none ∨ ∃ m, kvs.lookup "meta" = some (.table m))
    (hs : metaEntry kvs "namespace" = none ∨ ∃ s, metaEntry kvs "namespace" = some (.str s))
    (h1 : p.ns = metaEntry kvs "namespace")
    (h2 : DescribesSize (metaEntry kvs "list_size_type") p.listSize)
    (h3 : DescribesSize (metaEntry kvs "string_size_type") p.stringSize) (hn : GoodNamespace p)
    (i2 : IntegerType p.listSize) (i3 : IntegerType p.stringSize) :
    loadMeta kvs = .ok { ns := p.ns, listSize := p.listSize, stringSize := p.stringSize } := by
  unfold loadMeta
  rw [get?_eq_lookup]
  rcases hm with hm | ⟨m, hm⟩
  · rw [hm]
    have he : ∀ key, metaEntry kvs key = none := fun key => by unfold metaEntry; rw [hm]
    rw [he] at h1 h2 h3
    simp only [DescribesSize, reduceCtorEq, true_and, false_or] at h2 h3
    rw [h1, h2, h3]
  · rw [hm]
    simp only [metaSize_of_describes hm i2 h2, metaSize_of_describes hm i3 h3]
    have : metaGet (.table m) "namespace" = .ok (metaEntry kvs "namespace") := by
      simp only [metaGet, metaEntry, hm, get?_eq_lookup]
    have : metaNamespace (.table m) = .ok p.ns := by
      unfold metaNamespace
      rw [this]
      rcases hs with hs | ⟨s, hs⟩
      · rw [hs] at h1 ⊢; rw [h1]
      · rw [hs] at h1 ⊢
        simp only [checkNamespace, containsWhitespace_of_noSpace (hn s h1)]
        rw [h1]; rfl
    rw [this]
    rfl

/-! ### Dictionaries -/

theorem lookup_mem {α : Type} {l : List (String × α)} (hn : (l.map (·.1)).Nodup) {x : String × α}
    (hx : x ∈ l) : l.lookup x.1 = some x.2 := by
  induction l with
  | nil => cases hx
  | cons y ys ih =>
    simp only [List.map_cons, List.nodup_cons] at hn
    rcases List.mem_cons.1 hx with rfl | hx'
    · obtain ⟨a, b⟩ := x; simp [List.lookup]
    · obtain ⟨a, b⟩ := y
      have hne : x.1 ≠ a := by
        rintro rfl
        exact hn.1 (List.mem_map.2 ⟨x, hx', rfl⟩)
      rw [List.lookup, show (x.1 == a) = false from by simpa using hne]
      exact ih hn.2 hx'

theorem dictSet_keys {α : Type} (k : String) (v : α) (d : List (String × α)) :
    (dictSet k v d).map (·.1) = if k ∈ d.map (·.1) then d.map (·.1) else d.map (·.1) ++ [k] := by
  induction d with
  | nil => simp [dictSet]
  | cons x xs ih =>
    obtain ⟨a, b⟩ := x
    unfold dictSet
    by_cases h : a = k
    · subst h; simp
    · rw [if_neg (by simpa using h)]
      simp only [List.map_cons, ih, List.mem_cons, Ne.symm h, false_or]
      split <;> simp

theorem mem_dictSet {α : Type} {k : String} {v : α} {d : List (String × α)}
    (hn : (d.map (·.1)).Nodup) {x : String × α} (hx : x ∈ dictSet k v d) :
    x = (k, v) ∨ x ∈ d ∧ x.1 ≠ k := by
  induction d with
  | nil => simp only [dictSet, List.mem_singleton] at hx; exact .inl hx
  | cons y ys ih =>
    obtain ⟨a, b⟩ := y
    simp only [List.map_cons, List.nodup_cons] at hn
    unfold dictSet at hx
    by_cases h : a = k
    · subst h
      rw [if_pos (by simp)] at hx
      rcases List.mem_cons.1 hx with rfl | hx
      · exact .inl rfl
      · exact .inr ⟨by simp [hx], fun e => hn.1 (e ▸ List.mem_map_of_mem (f := Prod.fst) hx)⟩
    · rw [if_neg (by simpa using h)] at hx
      rcases List.mem_cons.1 hx with rfl | hx
      · exact .inr ⟨by simp, h⟩
      · rcases ih hn.2 hx with rfl | ⟨h1, h2⟩
        · exact .inl rfl
        · exact .inr ⟨by simp [h1], h2⟩

/-- The dictionary made by assigning pairs one after the other. -/
def dictOf {α : Type} (pairs : List (String × α)) : List (String × α) :=
  pairs.foldl (fun d x => dictSet x.1 x.2 d) []

theorem dictOf_append {α : Type} (pairs : List (String × α)) (x : String × α) :
    dictOf (pairs ++ [x]) = dictSet x.1 x.2 (dictOf pairs) := by
  simp [dictOf, List.foldl_append]

theorem dictOf_nodup {α : Type} (pairs : List (String × α)) : ((dictOf pairs).map (·.1)).Nodup := by
  induction pairs using List.reverseRecOn with
  | nil => simp [dictOf]
  | append_singleton l x ih => rw [dictOf_append]; exact dictSet_nodup _ _ _ ih

theorem dictOf_keys {α : Type} (pairs : List (String × α)) :
    (dictOf pairs).map (·.1) = (pairs.map (·.1)).eraseDups := by
  induction pairs using List.reverseRecOn with
  | nil => simp [dictOf]
  | append_singleton l x ih =>
    rw [dictOf_append, dictSet_keys, ih, List.map_append, List.eraseDups_append]
    simp only [List.mem_eraseDups, List.map_cons, List.map_nil]
    by_cases h : x.1 ∈ l.map (·.1)
    · rw [if_pos h]
      simp [List.removeAll, h]
    · rw [if_neg h]
      simp [List.removeAll, h, List.eraseDups_cons]

theorem dictOf_assigned {α : Type} (pairs : List (String × α)) : Assigned pairs (dictOf pairs) := by
  refine ⟨dictOf_keys pairs, ?_⟩
  induction pairs using List.reverseRecOn with
  | nil => simp [dictOf]
  | append_singleton l x ih =>
    intro y hy
    rw [dictOf_append] at hy
    obtain ⟨a, b⟩ := x
    rw [List.reverse_append]
    simp only [List.reverse_cons, List.reverse_nil, List.nil_append, List.cons_append]
    rcases mem_dictSet (dictOf_nodup l) hy with rfl | ⟨h1, h2⟩
    · simp [List.lookup]
    · rw [List.lookup, show (y.1 == a) = false from by simpa using h2]
      exact ih y h1

theorem assigned_unique {α : Type} {pairs d d' : List (String × α)} (h : Assigned pairs d)
    (h' : Assigned pairs d') : d = d' := by
  obtain ⟨h1, h2⟩ := h
  obtain ⟨h1', h2'⟩ := h'
  rw [← h1'] at h1
  clear h1'
  induction d generalizing d' with
  | nil => cases d' with
    | nil => rfl
    | cons => simp at h1
  | cons x xs ih => cases d' with
    | nil => simp at h1
    | cons y ys =>
      simp only [List.map_cons, List.cons.injEq] at h1
      have a := h2 x (by simp)
      have b := h2' y (by simp)
      rw [← h1.1, a] at b
      rw [ih h1.2 (fun x hx => h2 x (by simp [hx])) (fun x hx => h2' x (by simp [hx]))]
      congr 1
      exact Prod.ext h1.1 (Option.some.inj b)

theorem assigned_iff {α : Type} {pairs d : List (String × α)} : Assigned pairs d ↔ d = dictOf pairs :=
  ⟨fun h => assigned_unique h (dictOf_assigned _), fun h => h ▸ dictOf_assigned _⟩

theorem dictOf_of_nodup {α : Type} {pairs : List (String × α)} (h : (pairs.map (·.1)).Nodup) :
    dictOf pairs = pairs := by
  induction pairs using List.reverseRecOn with
  | nil => rfl
  | append_singleton l x ih =>
    rw [List.map_append, List.nodup_append] at h
    rw [dictOf_append, ih h.1]
    exact dictSet_append _ _ _ (fun hm => h.2.2 _ hm _ (by simp) rfl)

/-! ### Enums -/

theorem enumEntry_iff {kvs : List (String × Toml)} {x : String × Int} :
    enumEntry kvs = .ok x ↔ DescribesEntry (.table kvs) x := by
  unfold enumEntry DescribesEntry
  rw [get?_eq_lookup, get?_eq_lookup]
  constructor
  · intro h
    split at h
    · cases h
    · rename_i n hn
      split at h
      · cases h
      · rename_i i hi
        cases h
        exact ⟨kvs, rfl, hn, hi⟩
      · cases h
    · cases h
  · rintro ⟨kvs', h, h1, h2⟩
    cases h
    rw [h1, h2]

theorem enumEntries_iff {ts : List (List (String × Toml))} {od vs : List (String × Int)} :
    enumEntries ts od = .ok vs ↔ ∃ es, List.Forall₂ DescribesEntry (ts.map .table) es ∧
      vs = es.foldl (fun d x => dictSet x.1 x.2 d) od := by
  induction ts generalizing od with
  | nil =>
    simp only [enumEntries, List.map_nil, List.forall₂_nil_left_iff, exists_eq_left, List.foldl_nil,
      Except.ok.injEq]
    exact eq_comm
  | cons t ts ih =>
    simp only [enumEntries, bind_ok, List.map_cons]
    constructor
    · rintro ⟨⟨n, i⟩, h1, h2⟩
      obtain ⟨es, h3, rfl⟩ := ih.1 h2
      exact ⟨(n, i) :: es, .cons (enumEntry_iff.1 h1) h3, rfl⟩
    · rintro ⟨es, h1, rfl⟩
      cases h1 with
      | cons h1 h2 => exact ⟨_, enumEntry_iff.2 h1, ih.2 ⟨_, h2, rfl⟩⟩

theorem allStrings_eq {l : List Toml} {names : List String} (h : allStrings l = some names) :
    l = names.map .str := by
  induction l generalizing names with
  | nil => simp only [allStrings] at h; cases h; rfl
  | cons t l ih =>
    cases t with
    | str s =>
      simp only [allStrings, Option.map_eq_some_iff] at h
      obtain ⟨r, hr, rfl⟩ := h
      rw [ih hr]; rfl
    | _ => simp [allStrings] at h

theorem allTables_eq {l : List Toml} {ts : List (List (String × Toml))} (h : allTables l = some ts) :
    l = ts.map .table := by
  induction l generalizing ts with
  | nil => simp only [allTables] at h; cases h; rfl
  | cons t l ih =>
    cases t with
    | table kvs =>
      simp only [allTables, Option.map_eq_some_iff] at h
      obtain ⟨r, hr, rfl⟩ := h
      rw [ih hr]; rfl
    | _ => simp [allTables] at h

theorem allTables_map (ts : List (List (String × Toml))) : allTables (ts.map .table) = some ts := by
  induction ts with
  | nil => rfl
  | cons s l ih => simp [allTables, ih]

/-- The values taken from a list are those it describes. -/
theorem enumValues_iff {n : String} {spec : List Toml} {vs : List (String × Int)} :
    enumValues n spec = .ok vs ↔ DescribesValues spec vs := by
  unfold enumValues
  constructor
  · intro h
    split at h
    · rename_i names hn
      split at h
      · rename_i hd
        cases h
        exact .inl ⟨names, allStrings_eq hn, hd, enumerateFrom_eq 0 names⟩
      · cases h
    · rename_i hs
      split at h
      · rename_i ts ht
        obtain ⟨es, h1, h2⟩ := enumEntries_iff.1 h
        have hspec := allTables_eq ht
        refine .inr ⟨es, ?_, hspec ▸ h1, assigned_iff.2 h2⟩
        rintro rfl
        rw [List.forall₂_nil_right_iff, ← hspec] at h1
        rw [h1] at hs
        simp [allStrings] at hs
      · cases h
  · rintro (⟨names, rfl, hd, rfl⟩ | ⟨es, hne, h1, h2⟩)
    · rw [allStrings_map]
      simp only [if_pos hd, enumerateFrom_eq]
    · cases h1 with
      | nil => exact absurd rfl hne
      | @cons t x l es ht hr =>
        obtain ⟨kvs, rfl, ha⟩ := ht
        have : ∃ ts : List (List (String × Toml)), l = ts.map .table := by
          clear h2 ha hne
          induction hr with
          | nil => exact ⟨[], rfl⟩
          | cons h _ ih =>
            obtain ⟨ts, rfl⟩ := ih
            obtain ⟨k, rfl, _⟩ := h
            exact ⟨k :: ts, rfl⟩
        obtain ⟨ts, rfl⟩ := this
        rw [show (Toml.table kvs :: ts.map Toml.table) = (kvs :: ts).map Toml.table from rfl,
          allTables_map]
        simp only [List.map_cons, allStrings]
        exact enumEntries_iff.2 ⟨x :: es, .cons ⟨kvs, rfl, ha⟩ hr, assigned_iff.1 h2⟩

theorem loadEnumEntry_iff {t : Toml} {e : Enum} :
    loadEnumEntry t = .ok e ↔ ∃ d, DeclaresEnum t d ∧ buildEnum d.1 d.2 = .ok e := by
  unfold loadEnumEntry DeclaresEnum
  constructor
  · intro h
    split at h
    · rename_i kvs
      rw [get?_eq_lookup, get?_eq_lookup] at h
      split at h
      · cases h
      · rename_i nt hn
        split at h
        · cases h
        · rename_i l hl
          split at h
          · rename_i n
            exact ⟨(n, l), ⟨kvs, rfl, hn, hl⟩, h⟩
          · cases h
        · cases h
    · cases h
  · rintro ⟨d, ⟨kvs, rfl, h1, h2⟩, h⟩
    simp only [get?_eq_lookup, h1, h2, h]

/-- The enum built from a declaration. -/
def Built (d : String × List Toml) (e : Enum) : Prop := buildEnum d.1 d.2 = .ok e

theorem built_name {d : String × List Toml} {e : Enum} (h : Built d e) : e.name = d.1 :=
  (buildEnum_ok h).1

theorem built_set {d : String × List Toml} {e : Enum} (h : Built d e)
    {ds : List (String × List Toml)} {es : List Enum} (hs : List.Forall₂ Built ds es) :
    List.Forall₂ Built (dictSet d.1 d.2 ds) (setEnum e es) := by
  induction hs with
  | nil => exact .cons h .nil
  | @cons x y ds es h1 h2 ih =>
    unfold dictSet setEnum
    rw [built_name h1, built_name h]
    by_cases hx : x.1 = d.1
    · obtain ⟨a, b⟩ := x
      simp only at hx
      subst hx
      rw [if_pos (by simp), if_pos (by simp)]
      exact .cons h h2
    · obtain ⟨a, b⟩ := x
      rw [if_neg (by simpa using hx), if_neg (by simpa using hx)]
      exact .cons h1 ih

theorem loadEnums_built {l : List Toml} {p q : Protocol} (h : loadEnums l p = .ok q)
    {ds : List (String × List Toml)} (hp : List.Forall₂ Built ds p.enums) :
    ∃ decls, List.Forall₂ DeclaresEnum l decls ∧
      List.Forall₂ Built (decls.foldl (fun d x => dictSet x.1 x.2 d) ds) q.enums ∧
      q = { p with enums := q.enums } := by
  induction l generalizing p ds with
  | nil => simp only [loadEnums] at h; cases h; exact ⟨[], .nil, hp, rfl⟩
  | cons t rest ih =>
    simp only [loadEnums, bind_ok] at h
    obtain ⟨e, he, h⟩ := h
    obtain ⟨d, h1, h2⟩ := loadEnumEntry_iff.1 he
    obtain ⟨decls, i1, i2, i3⟩ := ih h (ds := dictSet d.1 d.2 ds) (built_set h2 hp)
    exact ⟨d :: decls, .cons h1 i1, i2, i3⟩

theorem loadEnums_of_built {l : List Toml} {decls : List (String × List Toml)} {es : List Enum}
    {p : Protocol} (h : List.Forall₂ DeclaresEnum l decls) (hb : List.Forall₂ Built decls es)
    (hn : ((p.enums ++ es).map (·.name)).Nodup) :
    loadEnums l p = .ok { p with enums := p.enums ++ es } := by
  induction h generalizing p es with
  | nil => cases hb; simp [loadEnums]
  | @cons t d l decls h1 h2 ih =>
    cases hb with
    | @cons _ e _ es hb1 hb2 =>
      have he : loadEnumEntry t = .ok e := loadEnumEntry_iff.2 ⟨d, h1, hb1⟩
      have hnm : e.name ∉ p.enums.map (·.name) := by
        intro hm
        rw [List.map_append, List.map_cons] at hn
        exact (List.nodup_append.1 hn).2.2 _ hm _ (by simp) rfl
      simp only [loadEnums, he, bind, Except.bind]
      rw [setEnum_append _ _ hnm, ih hb2 (by simpa using hn)]
      simp

/-! ### The whole description -/

theorem loadPhase1_describes {data : Toml} {p : Protocol} (h : loadPhase1 data = .ok p) :
    ∃ kvs, data = .table kvs ∧ Described kvs p ∧ GoodNamespace p := by
  unfold loadPhase1 at h
  split at h
  · rename_i kvs
    simp only [bind_ok] at h
    obtain ⟨p0, h0, ls, hls, p1, h1, lm, hlm, p2, h2, le, hle, p3, h3, _, hv1, _, hv2, _, hv3, h⟩ := h
    split at h
    · cases h
    · cases h
      obtain ⟨m1, m2, m3, m4, m5, m6, m7⟩ := loadMeta_describes h0
      obtain ⟨newS, rfl, a⟩ := loadStructs_built h1
      obtain ⟨newM, rfl, b⟩ := loadMessages_built h2
      obtain ⟨decls, c1, c2, c3⟩ := loadEnums_built (ds := []) h3 (by simp only [m7]; exact .nil)
      refine ⟨kvs, rfl, ?_, by rw [c3]; exact m4⟩
      have c2' := c2
      rw [c3] at c2' ⊢
      refine ⟨m1, m2, m3, ?_, ?_, ?_⟩
      · simp only [m5, List.nil_append]
        exact (sectionItems_related hls a (by intro s x hx; cases hx)).imp
          fun _ _ h => buildStruct_describes h
      · simp only [m6, List.nil_append]
        exact (sectionItems_related hlm b (by intro s x hx; cases hx)).imp
          fun _ _ h => buildStruct_describes h
      · refine ⟨decls, dictOf decls, sectionItems_related hle c1 ?_, dictOf_assigned _, ?_⟩
        · rintro s x ⟨kvs, h, _⟩
          cases h
        · exact c2'.imp fun d e h => ⟨built_name h, enumValues_iff.1 (buildEnum_ok h).2.1⟩
  · cases h

theorem forall₂_mem {α β : Type} {R : α → β → Prop} {as : List α} {bs : List β}
    (h : List.Forall₂ R as bs) {P : β → Prop} (hp : ∀ b ∈ bs, P b) :
    List.Forall₂ (fun a b => R a b ∧ P b) as bs := by
  induction h with
  | nil => exact .nil
  | cons h1 h2 ih => exact .cons ⟨h1, hp _ (by simp)⟩ (ih fun b hb => hp b (by simp [hb]))

theorem loadPhase1_of_describes {kvs : List (String × Toml)} {p : Protocol} (hs : Shaped kvs)
    (hd : Described kvs p) (hw : WellFormed p) (hg : GoodNamespace p)
    (he : ∀ e ∈ p.enums, Narrowest e) : loadPhase1 (.table kvs) = .ok p := by
  have hmem : ∀ s ∈ p.structs ++ p.messages, ∀ v ∈ s.members, v.vartype ≠ "" := fun s h v hv =>
    not_known_empty hw ((hw.bodies s h).memberType v hv)
  have hS := loadStructs_of_built
    (p := { ns := p.ns, listSize := p.listSize, stringSize := p.stringSize })
    ((forall₂_mem hd.structs (P := fun s => s ∈ p.structs) fun _ h => h).imp fun t s h => by
      have := buildStruct_of_describes h.1 (hmem s (by simp [h.2]))
      rwa [hw.structFlag s h.2] at this)
    (by rw [List.nil_append]; exact hw.structsDistinct)
  have hM := loadMessages_of_built
    (p := { ns := p.ns, listSize := p.listSize, stringSize := p.stringSize, structs := p.structs })
    ((forall₂_mem hd.messages (P := fun s => s ∈ p.messages) fun _ h => h).imp fun t s h => by
      have := buildStruct_of_describes h.1 (hmem s (by simp [h.2]))
      rwa [hw.messageFlag s h.2] at this)
    (by rw [List.nil_append]; exact hw.messagesDistinct)
  obtain ⟨decls, dict, e1, e2, e3⟩ := hd.enums
  have hdecls : (entries kvs "enums").filterMap enumDecl = decls := by
    clear e2 e3
    generalize entries kvs "enums" = l at e1
    induction e1 with
    | nil => rfl
    | cons h _ ih =>
      obtain ⟨k, rfl, h1, h2⟩ := h
      rw [List.filterMap_cons]
      simp only [enumDecl, h1, h2, ih]
  have hdict : dict = decls := by
    rw [assigned_iff.1 e2, dictOf_of_nodup (by have := hs.once; rwa [hdecls] at this)]
  subst hdict
  have hE := loadEnums_of_built
    (p := { ns := p.ns, listSize := p.listSize, stringSize := p.stringSize, structs := p.structs,
            messages := p.messages }) e1
    ((forall₂_mem e3 (P := fun e => e ∈ p.enums) fun _ h => h).imp fun d e h =>
      buildEnum_of_values h.1.1 (enumValues_iff.2 h.1.2) (hw.enums e h.2).nonempty (he e h.2))
    (by rw [List.nil_append]; exact hw.enumsDistinct)
  simp only [List.nil_append] at hS hM hE
  unfold loadPhase1
  simp only []
  rw [loadMeta_of_describes hs.info hs.ns hd.ns hd.listSize hd.stringSize hg hw.listSize hw.stringSize,
    sectionItems_of_shaped (hs.sections "structs" (by simp)),
    sectionItems_of_shaped (hs.sections "messages" (by simp)),
    sectionItems_of_shaped (hs.sections "enums" (by simp))]
  simp only [bind, Except.bind]
  rw [hS]; simp only
  rw [hM]; simp only
  rw [hE]; simp only
  have v1 : forEach (validateStruct p) p.structs = .ok () :=
    forEach_ok.2 (fun s hs => validateStruct_of_good hw (by simp [hs]))
  have v2 : forEach (validateStruct p) p.messages = .ok () :=
    forEach_ok.2 (fun s hs => validateStruct_of_good hw (by simp [hs]))
  have v3 : forEach (validateEnum p) p.enums = .ok () :=
    forEach_ok.2 (fun e he => validateEnum_of_good hw he)
  rw [v1]; simp only
  rw [v2]; simp only
  rw [v3]; simp only
  rw [if_neg (by have := hw.messageCount; omega)]

end Beschi
