import Verif.Protocol.Cycles
/-
Helper lemmas for the forward direction of the loader (C02) and for enum declarations (C05, C06).
-/
namespace Beschi
open Spec

theorem get?_eq_lookup (kvs : List (String × Toml)) (k : String) :
    Toml.get? kvs k = kvs.lookup k := by
  induction kvs with
  | nil => rfl
  | cons e kvs ih =>
    obtain ⟨k', v⟩ := e
    simp only [Toml.get?, List.find?_cons, List.lookup_cons] at ih ⊢
    by_cases h : k' = k
    · subst h; simp
    · have h1 : (k' == k) = false := by simp [h]
      have h2 : (k == k') = false := by simp [Ne.symm h]
      simp only [h1, h2]; exact ih

theorem pickEncoding_narrowest {vs : List Int} {lo hi : Int} {enc : NumTy}
    (h1 : minValue vs = some lo) (h2 : maxValue vs = some hi) (h3 : pickEncoding lo hi = some enc) :
    enc ∈ [NumTy.byte, .int16, .int32] ∧ (∀ i ∈ vs, EnumRange enc i) ∧
    ∀ e ∈ [NumTy.byte, .int16, .int32], (∀ i ∈ vs, EnumRange e i) → width enc ≤ width e := by
  obtain ⟨a1, a2⟩ := minValue_spec h1
  obtain ⟨b1, b2⟩ := maxValue_spec h2
  refine ⟨?_, ?_, ?_⟩
  · rcases pickEncoding_some h3 with ⟨e, _⟩ | ⟨e, _⟩ | ⟨e, _⟩ <;> simp [e]
  · intro i hi'
    have a := a2 i hi'
    have b := b2 i hi'
    rcases pickEncoding_some h3 with ⟨e, _⟩ | ⟨e, _⟩ | ⟨e, _⟩ <;> rw [e] <;>
      simp only [EnumRange] <;> omega
  · intro e he hall
    have c1 := hall lo a1
    have c2 := hall hi b1
    simp only [List.mem_cons, List.not_mem_nil, or_false] at he
    rcases pickEncoding_some h3 with ⟨e', _⟩ | ⟨e', _⟩ | ⟨e', _⟩ <;> rw [e'] <;>
      rcases he with rfl | rfl | rfl <;> simp only [EnumRange, width] at * <;> omega

theorem size_inj_enum {a b : NumTy} (ha : a ∈ [NumTy.byte, .int16, .int32])
    (hb : b ∈ [NumTy.byte, .int16, .int32]) (h : width a = width b) : a = b := by
  simp only [List.mem_cons, List.not_mem_nil, or_false] at ha hb
  rcases ha with rfl | rfl | rfl <;> rcases hb with rfl | rfl | rfl <;> simp_all [width]

theorem pickEncoding_of_fits {lo hi : Int} {enc : NumTy} (h : enc ∈ [NumTy.byte, .int16, .int32])
    (hl : EnumRange enc lo) (hh : EnumRange enc hi) : ∃ e, pickEncoding lo hi = some e := by
  cases hp : pickEncoding lo hi with
  | some e => exact ⟨e, rfl⟩
  | none =>
    have := pickEncoding_none hp
    simp only [List.mem_cons, List.not_mem_nil, or_false] at h
    rcases h with rfl | rfl | rfl <;> simp only [EnumRange] at hl hh <;> omega

theorem minValue_ne_nil {vs : List Int} (h : vs ≠ []) : ∃ lo, minValue vs = some lo := by
  cases vs with
  | nil => exact absurd rfl h
  | cons a l => exact ⟨_, rfl⟩

theorem maxValue_ne_nil {vs : List Int} (h : vs ≠ []) : ∃ lo, maxValue vs = some lo := by
  cases vs with
  | nil => exact absurd rfl h
  | cons a l => exact ⟨_, rfl⟩

/-- `buildEnum` on values that are already determined. -/
theorem buildEnum_of_values {n : String} {spec : List Toml} {e : Enum} (hn : e.name = n)
    (hv : enumValues n spec = .ok e.values) (hne : e.values ≠ []) (hnar : Narrowest e) :
    buildEnum n spec = .ok e := by
  obtain ⟨h1, h2, h3⟩ := hnar
  obtain ⟨lo, hlo⟩ := minValue_ne_nil (vs := e.values.map (·.2)) (by simpa using hne)
  obtain ⟨hi, hhi⟩ := maxValue_ne_nil (vs := e.values.map (·.2)) (by simpa using hne)
  obtain ⟨enc, henc⟩ := pickEncoding_of_fits h1 (h2 lo (minValue_spec hlo).1)
    (h2 hi (maxValue_spec hhi).1)
  obtain ⟨g1, g2, g3⟩ := pickEncoding_narrowest hlo hhi henc
  have : enc = e.encoding := size_inj_enum g1 h1 (Nat.le_antisymm (g3 _ h1 h2) (h3 _ g1 g2))
  subst this
  unfold buildEnum
  rw [hv]
  simp only [bind, Except.bind, hlo, hhi, henc]
  rw [← hn]

theorem dictSet_append {β : Type} (k : String) (v : β) (l : List (String × β))
    (h : k ∉ l.map (·.1)) : dictSet k v l = l ++ [(k, v)] := by
  induction l with
  | nil => rfl
  | cons x xs ih =>
    obtain ⟨k', v'⟩ := x
    simp only [List.map_cons, List.mem_cons, not_or] at h
    unfold dictSet
    rw [if_neg (by simpa using Ne.symm h.1), ih h.2]; rfl

theorem enumEntries_of_tables (es : List (String × Int)) (od : List (String × Int))
    (h : ((od ++ es).map (·.1)).Nodup) :
    enumEntries (es.map fun e => [("_name", Toml.str e.1), ("_value", Toml.int e.2)]) od
      = .ok (od ++ es) := by
  induction es generalizing od with
  | nil => simp [enumEntries]
  | cons e es ih =>
    obtain ⟨n, i⟩ := e
    simp only [List.map_cons, enumEntries]
    have : enumEntry [("_name", Toml.str n), ("_value", Toml.int i)] = .ok (n, i) := by
      simp [enumEntry, Toml.get?]
    rw [this]
    simp only [bind, Except.bind]
    have hn : n ∉ od.map (·.1) := by
      intro hm
      simp only [List.map_append, List.map_cons] at h
      have := (List.nodup_append.1 h).2.2 n hm n (by simp)
      exact this rfl
    rw [dictSet_append _ _ _ hn, ih _ (by simpa using h)]
    simp

theorem allTables_entries (es : List (String × Int)) :
    allTables (es.map entryToml) =
      some (es.map fun e => [("_name", Toml.str e.1), ("_value", Toml.int e.2)]) := by
  induction es with
  | nil => rfl
  | cons e es ih => simp [allTables, entryToml, ih]

theorem allStrings_entries {es : List (String × Int)} (h : es ≠ []) :
    allStrings (es.map entryToml) = none := by
  cases es with
  | nil => exact absurd rfl h
  | cons e es => simp [allStrings, entryToml]

theorem enumValues_tables {n : String} {es : List (String × Int)} (h : es ≠ [])
    (hn : (es.map (·.1)).Nodup) : enumValues n (es.map entryToml) = .ok es := by
  unfold enumValues
  rw [allStrings_entries h, allTables_entries]
  simpa using enumEntries_of_tables es [] (by simpa using hn)

theorem allStrings_map (l : List String) : allStrings (l.map .str) = some l := by
  induction l with
  | nil => rfl
  | cons s l ih => simp [allStrings, ih]

theorem enumerateFrom_eq (i : Nat) (l : List String) :
    enumerateFrom i l = (l.zipIdx i).map (fun e => (e.1, (e.2 : Int))) := by
  induction l generalizing i with
  | nil => rfl
  | cons s l ih => simp [enumerateFrom, ih]

theorem enumValues_strings {n : String} {l : List String} {vs : List (String × Int)}
    (h : enumValues n (l.map .str) = .ok vs) :
    l.Nodup ∧ vs = l.zipIdx.map (fun e => (e.1, (e.2 : Int))) := by
  unfold enumValues at h
  rw [allStrings_map] at h
  simp only at h
  split at h
  · rename_i hn; cases h; exact ⟨hn, enumerateFrom_eq 0 l⟩
  · cases h

theorem loadEnumEntry_decl {d : Toml} {e : Enum} (h : loadEnumEntry d = .ok e) :
    ∃ spec, enumDecl d = some (e.name, spec) ∧ buildEnum e.name spec = .ok e := by
  unfold loadEnumEntry at h
  split at h
  · rename_i kvs
    rw [get?_eq_lookup, get?_eq_lookup] at h
    split at h
    · cases h
    · rename_i nameT hn
      split at h
      · cases h
      · rename_i l hv
        split at h
        · rename_i n
          have := (buildEnum_ok h).1
          subst this
          exact ⟨l, by simp [enumDecl, hn, hv], h⟩
        · cases h
      · cases h
  · cases h

theorem mem_setEnum_self (e : Enum) (l : List Enum) : e ∈ setEnum e l := by
  induction l with
  | nil => simp [setEnum]
  | cons x xs ih => unfold setEnum; split <;> simp [ih]

theorem mem_setEnum_other {e x : Enum} {l : List Enum} (hx : x ∈ l) (hn : x.name ≠ e.name) :
    x ∈ setEnum e l := by
  induction l with
  | nil => cases hx
  | cons y ys ih =>
    unfold setEnum
    rcases List.mem_cons.1 hx with rfl | hx
    · rw [if_neg (by simpa using hn)]; simp
    · split
      · simp [hx]
      · simp [ih hx]

theorem loadEnums_keeps {l : List Toml} {p q : Protocol} (h : loadEnums l p = .ok q) {e : Enum}
    (he : e ∈ p.enums) (hl : e.name ∉ (l.filterMap enumDecl).map (·.1)) : e ∈ q.enums := by
  induction l generalizing p with
  | nil => simp only [loadEnums] at h; cases h; exact he
  | cons d rest ih =>
    simp only [loadEnums, bind_ok] at h
    obtain ⟨e', he', h⟩ := h
    obtain ⟨spec, hd, _⟩ := loadEnumEntry_decl he'
    simp only [List.filterMap_cons, hd, List.map_cons, List.mem_cons, not_or] at hl
    exact ih h (mem_setEnum_other he hl.1) hl.2

theorem loadEnums_decl {l : List Toml} {p q : Protocol} (h : loadEnums l p = .ok q)
    {l1 l2 : List (String × List Toml)} {n : String} {spec : List Toml}
    (hl : l.filterMap enumDecl = l1 ++ (n, spec) :: l2) (hn : n ∉ l2.map (·.1)) :
    ∃ e ∈ q.enums, e.name = n ∧ buildEnum n spec = .ok e := by
  induction l generalizing p l1 with
  | nil => simp at hl
  | cons d rest ih =>
    simp only [loadEnums, bind_ok] at h
    obtain ⟨e', he', h⟩ := h
    obtain ⟨spec', hd, hb⟩ := loadEnumEntry_decl he'
    simp only [List.filterMap_cons, hd] at hl
    cases l1 with
    | nil =>
      simp only [List.nil_append, List.cons.injEq, Prod.mk.injEq] at hl
      obtain ⟨⟨rfl, rfl⟩, hl⟩ := hl
      exact ⟨e', loadEnums_keeps h (mem_setEnum_self _ _) (by rw [hl]; exact hn), rfl, hb⟩
    | cons x l1 =>
      simp only [List.cons_append, List.cons.injEq] at hl
      exact ih h hl.2

theorem loadEnums_all {l : List Toml} {p q : Protocol} (h : loadEnums l p = .ok q)
    {d : String × List Toml} (hd : d ∈ l.filterMap enumDecl) : ∃ e, buildEnum d.1 d.2 = .ok e := by
  induction l generalizing p with
  | nil => simp at hd
  | cons t rest ih =>
    simp only [loadEnums, bind_ok] at h
    obtain ⟨e', he', h⟩ := h
    obtain ⟨spec', hd', hb⟩ := loadEnumEntry_decl he'
    simp only [List.filterMap_cons, hd', List.mem_cons] at hd
    rcases hd with rfl | hd
    · exact ⟨_, hb⟩
    · exact ih h hd

/-- Enum declarations of an accepted description reach the enum loop unchanged. -/
theorem phase1_enums {data : Toml} {p : Protocol} (h : loadPhase1 data = .ok p) :
    (∃ l p2, loadEnums l p2 = .ok p ∧ l.filterMap enumDecl = enumDecls data ∧ p2.enums = []) := by
  unfold loadPhase1 at h
  split at h
  · rename_i kvs
    simp only [bind_ok] at h
    obtain ⟨p0, h0, ls, hls, p1, h1, lm, hlm, p2, h2, le, hle, p3, h3, _, hv1, _, hv2, _, hv3, h⟩ := h
    split at h
    · cases h
    · cases h
      refine ⟨le, p2, h3, ?_, ?_⟩
      rotate_left
      · obtain ⟨m1, m2, m3, _⟩ := loadMeta_ok h0
        obtain ⟨_, _, newS, a3, _⟩ := loadStructs_ok h1 (by simp [structNames, m1]) (by simp [m1])
        subst a3
        obtain ⟨_, _, newM, b3, _⟩ := loadMessages_ok h2 (by simp [messageNames, m2]) (by simp [m2])
        subst b3
        exact m3
      unfold sectionItems at hle
      rw [get?_eq_lookup] at hle
      unfold enumDecls
      split at hle
      · rename_i hg; cases hle; simp [hg]
      · rename_i l hg; cases hle; simp [hg]
      · rename_i kvs' hg; cases hle; simp only [hg, List.filterMap_map]
        rw [List.filterMap_eq_nil_iff]; intro a _; rfl
      · rename_i s hg; cases hle; simp only [hg, List.filterMap_map]
        rw [List.filterMap_eq_nil_iff]; intro a _; rfl
      · cases hle
  · cases h

theorem loadEnums_from {l : List Toml} {p q : Protocol} (h : loadEnums l p = .ok q) :
    ∀ e ∈ q.enums, e ∈ p.enums ∨
      ∃ spec, (e.name, spec) ∈ l.filterMap enumDecl ∧ buildEnum e.name spec = .ok e := by
  induction l generalizing p with
  | nil => simp only [loadEnums] at h; cases h; exact fun e he => .inl he
  | cons d rest ih =>
    simp only [loadEnums, bind_ok] at h
    obtain ⟨e', he', h⟩ := h
    obtain ⟨spec, hd, hb⟩ := loadEnumEntry_decl he'
    intro e he
    simp only [List.filterMap_cons, hd]
    rcases ih h e he with he | ⟨spec', h1, h2⟩
    · rcases mem_setEnum he with rfl | he
      · exact .inr ⟨spec, by simp, hb⟩
      · exact .inl he
    · exact .inr ⟨spec', by simp [h1], h2⟩

/-- Every enum of an accepted description was built from one of its declarations. -/
theorem phase1_enum_from {data : Toml} {p : Protocol} (h : loadPhase1 data = .ok p) {e : Enum}
    (he : e ∈ p.enums) : ∃ spec, (e.name, spec) ∈ enumDecls data ∧ buildEnum e.name spec = .ok e := by
  obtain ⟨l, p2, h1, h2, h3⟩ := phase1_enums h
  rcases loadEnums_from h1 e he with h | h
  · rw [h3] at h; cases h
  · rwa [h2] at h

theorem buildEnum_narrowest {n : String} {spec : List Toml} {e : Enum}
    (h : buildEnum n spec = .ok e) : Narrowest e := by
  unfold buildEnum at h
  simp only [bind_ok] at h
  obtain ⟨vs, hv, h⟩ := h
  split at h
  · rename_i lo hi hlo hhi
    split at h
    · rename_i enc henc
      cases h
      exact pickEncoding_narrowest hlo hhi henc
    · cases h
  · cases h

theorem fitsAvoid_of_emptied {p : Protocol} {start : String} {q : Protocol}
    (hq : ∀ t, t ≠ start → q.struct? t = p.struct? t) {n : Nat} {t : String} (h : fits q n t) :
    fitsAvoid p start (n + 1) t := by
  induction n generalizing t with
  | zero =>
    by_cases ht : t = start
    · exact .inl ht
    · exact .inr (fun s hs => by rw [← hq t ht, show q.struct? t = none from h] at hs; cases hs)
  | succ n ih =>
    by_cases ht : t = start
    · exact .inl ht
    · exact .inr (fun s hs v hv _ => ih (h s (by rw [hq t ht]; exact hs) v hv))

/-! ### Forward direction -/

theorem bracketed_wrap (t : String) : isBracketed ("[" ++ t ++ "]") = true := by
  have : ("[" ++ t ++ "]").toList = ('[' :: t.toList) ++ [']'] := by simp [String.toList_append]
  simp only [isBracketed, this, List.getLast?_append]
  simp

theorem strip_wrap (t : String) : stripBrackets ("[" ++ t ++ "]") = t := by
  apply String.toList_inj.1
  simp [stripBrackets, String.toList_append]

theorem buildMember_toToml {v : Variable} (hn : v.name.toList.head? ≠ some '_')
    (ht : v.vartype ≠ "") (hb : v.vartype.toList.head? ≠ some '[') :
    buildMember (memberToml v).1 (memberToml v).2 = .ok (some v) := by
  obtain ⟨name, t, isL⟩ := v
  have hte : ¬ t.toList.isEmpty = true := by rw [toList_isEmpty]; exact ht
  have hbr : ¬ isBracketed t = true := by
    unfold isBracketed; simp only [Bool.and_eq_true, beq_iff_eq, not_and]; intro h; exact absurd h hb
  unfold buildMember memberToml
  simp only
  rw [if_neg (by simpa using hn)]
  cases isL with
  | false => simp only [Bool.false_eq_true, if_false]; rw [if_neg hte, if_neg hbr]
  | true =>
    simp only [if_true]
    rw [if_neg (by rw [toList_isEmpty]; intro h; have := congrArg String.toList h; simp at this),
      if_pos (bracketed_wrap t), strip_wrap, if_neg hte, if_neg hbr]

theorem buildMembers_toToml {vs : List Variable} (h : ∀ v ∈ vs, v.name.toList.head? ≠ some '_' ∧
    v.vartype ≠ "" ∧ v.vartype.toList.head? ≠ some '[') :
    buildMembers (vs.map memberToml) = .ok vs := by
  induction vs with
  | nil => rfl
  | cons v vs ih =>
    obtain ⟨h1, h2, h3⟩ := h v (by simp)
    have := buildMember_toToml h1 h2 h3
    simp only [List.map_cons]
    rw [show memberToml v = ((memberToml v).1, (memberToml v).2) from rfl]
    simp only [buildMembers, this, ih (fun x hx => h x (by simp [hx])), bind, Except.bind]

theorem buildStruct_toToml {s : Struct} (h : ∀ v ∈ s.members, v.name.toList.head? ≠ some '_' ∧
    v.vartype ≠ "" ∧ v.vartype.toList.head? ≠ some '[') :
    buildStruct (structToml s) s.isMessage = .ok s := by
  unfold buildStruct structToml
  simp only [Toml.get?, List.find?_cons, beq_self_eq_true, Option.map_some]
  have : buildMembers (("_name", Toml.str s.name) :: s.members.map memberToml) = .ok s.members := by
    simp only [buildMembers, buildMembers_toToml h]
    simp [buildMember, bind, Except.bind]
  simp only [this, bind, Except.bind]

theorem loadStructs_toToml (ss : List Struct) (p : Protocol)
    (h : ∀ s ∈ ss, s.isMessage = false ∧ buildStruct (structToml s) s.isMessage = .ok s)
    (hn : ((p.structs ++ ss).map (·.name)).Nodup) :
    loadStructs (ss.map structToml) p = .ok { p with structs := p.structs ++ ss } := by
  induction ss generalizing p with
  | nil => simp [loadStructs]
  | cons s ss ih =>
    obtain ⟨h1, h2⟩ := h s (by simp)
    rw [h1] at h2
    simp only [List.map_cons, loadStructs, h2, bind, Except.bind]
    have : ¬ p.isStruct s.name = true := by
      rw [isStruct_iff]
      intro hm
      rw [List.map_append, List.map_cons] at hn
      exact (List.nodup_append.1 hn).2.2 _ hm _ (by simp) rfl
    rw [if_neg this, ih _ (fun x hx => h x (by simp [hx])) (by simpa using hn)]
    simp

theorem loadMessages_toToml (ss : List Struct) (p : Protocol)
    (h : ∀ s ∈ ss, s.isMessage = true ∧ buildStruct (structToml s) s.isMessage = .ok s)
    (hn : ((p.messages ++ ss).map (·.name)).Nodup) :
    loadMessages (ss.map structToml) p = .ok { p with messages := p.messages ++ ss } := by
  induction ss generalizing p with
  | nil => simp [loadMessages]
  | cons s ss ih =>
    obtain ⟨h1, h2⟩ := h s (by simp)
    rw [h1] at h2
    simp only [List.map_cons, loadMessages, h2, bind, Except.bind]
    have : ¬ p.isMessageName s.name = true := by
      rw [isMessageName_iff]
      intro hm
      rw [List.map_append, List.map_cons] at hn
      exact (List.nodup_append.1 hn).2.2 _ hm _ (by simp) rfl
    rw [if_neg this, ih _ (fun x hx => h x (by simp [hx])) (by simpa using hn)]
    simp

theorem setEnum_append (e : Enum) (l : List Enum) (h : e.name ∉ l.map (·.name)) :
    setEnum e l = l ++ [e] := by
  induction l with
  | nil => rfl
  | cons x xs ih =>
    simp only [List.map_cons, List.mem_cons, not_or] at h
    unfold setEnum
    rw [if_neg (by simpa using Ne.symm h.1), ih h.2]; rfl

theorem loadEnums_toToml (es : List Enum) (p : Protocol)
    (h : ∀ e ∈ es, Narrowest e ∧ GoodEnum e)
    (hn : ((p.enums ++ es).map (·.name)).Nodup) :
    loadEnums (es.map enumToml) p = .ok { p with enums := p.enums ++ es } := by
  induction es generalizing p with
  | nil => simp [loadEnums]
  | cons e es ih =>
    obtain ⟨h1, h2⟩ := h e (by simp)
    have hb : loadEnumEntry (enumToml e) = .ok e := by
      have := buildEnum_of_values rfl (enumValues_tables (n := e.name) h2.nonempty h2.namesDistinct)
        h2.nonempty h1
      simpa [loadEnumEntry, enumToml, Toml.get?] using this
    have hnm : e.name ∉ p.enums.map (·.name) := by
      intro hm
      rw [List.map_append, List.map_cons] at hn
      exact (List.nodup_append.1 hn).2.2 _ hm _ (by simp) rfl
    simp only [List.map_cons, loadEnums, hb, bind, Except.bind]
    rw [setEnum_append _ _ hnm, ih _ (fun x hx => h x (by simp [hx])) (by simpa using hn)]
    simp

theorem parseSize_name {n : NumTy} (h : IntegerType n) : parseSize (.str n.name) = some n := by
  obtain ⟨h1, h2, h3⟩ := h
  cases n <;> first | rfl | exact absurd rfl h1 | exact absurd rfl h2 | exact absurd rfl h3

theorem loadMeta_toToml {p : Protocol} (h : p.ns = none ∨ ∃ s, p.ns = some (.str s) ∧ NoSpace s)
    (hl : IntegerType p.listSize) (hs : IntegerType p.stringSize) (rest : List (String × Toml)) :
    loadMeta (("meta", .table (nsToml p.ns ++
      [("list_size_type", .str p.listSize.name), ("string_size_type", .str p.stringSize.name)]))
      :: rest) = .ok { ns := p.ns, listSize := p.listSize, stringSize := p.stringSize } := by
  rcases h with h | ⟨s, h, hns⟩
  · simp [loadMeta, Toml.get?, h, nsToml, metaNamespace, metaSize, metaGet, parseSize_name hl,
      parseSize_name hs, bind, Except.bind]
  · simp [loadMeta, Toml.get?, h, nsToml, metaNamespace, metaSize, metaGet, parseSize_name hl,
      parseSize_name hs, bind, Except.bind, checkNamespace, containsWhitespace_of_noSpace hns,
      Functor.map, Except.map]

theorem not_known_empty {p : Protocol} (hw : WellFormed p) {t : String} (h : KnownType p t) :
    t ≠ "" := by
  rintro rfl
  rcases h with h | h | h | h
  · revert h; decide
  · revert h; decide
  · exact (hw.goodNames _ (by simp [h])).nonempty rfl
  · exact (hw.goodNames _ (by simp [h])).nonempty rfl

theorem known_plain {p : Protocol} (hw : Writable p) {t : String} (h : KnownType p t) :
    t.toList.head? ≠ some '[' := by
  rcases h with h | h | h | h
  · revert t; decide
  · subst h; decide
  · exact hw.plain _ (by simp [h])
  · exact hw.plain _ (by simp [h])

theorem false_of_iff {b : Bool} {P : Prop} (h : b = true ↔ P) (hp : ¬ P) : b = false := by
  cases b with
  | false => rfl
  | true => exact absurd (h.1 rfl) hp

theorem validateStruct_of_good {p : Protocol} (hw : WellFormed p) {s : Struct}
    (hs : s ∈ p.structs ++ p.messages) : validateStruct p s = .ok () := by
  rw [validateStruct_ok]
  have hname : s.name ∈ structNames p ++ messageNames p ++ enumNames p := by
    simp only [List.mem_append, structNames, messageNames, List.mem_map] at hs ⊢
    rcases hs with h | h
    · exact .inl (.inl ⟨s, h, rfl⟩)
    · exact .inl (.inr ⟨s, h, rfl⟩)
  obtain ⟨g1, g2, g3⟩ := goodName_checks (hw.goodNames _ hname)
  refine ⟨g1, g2, g3, ?_, ?_⟩
  · rintro ⟨hm, hst⟩
    rw [isStruct_iff] at hst
    rcases List.mem_append.1 hs with h | h
    · rw [hw.structFlag s h] at hm; cases hm
    · exact hw.structMessage _ hst (List.mem_map_of_mem h)
  · rw [validateMembers_ok]
    intro v hv
    have hb := hw.bodies s hs
    exact ⟨containsWhitespace_of_noSpace (hb.memberSpace v hv),
      (validType_iff p _).2 (hb.memberType v hv)⟩

theorem validateEnum_of_good {p : Protocol} (hw : WellFormed p) {e : Enum} (he : e ∈ p.enums) :
    validateEnum p e = .ok () := by
  rw [validateEnum_ok]
  have hname : e.name ∈ enumNames p := List.mem_map_of_mem he
  obtain ⟨g1, g2, g3⟩ := goodName_checks (hw.goodNames e.name (by simp [hname]))
  have hg := hw.enums e he
  refine ⟨g1, g2, g3, hg.nonempty, hg.numbersDistinct, ?_, ?_, ?_⟩
  · exact false_of_iff (isStruct_iff p _) (fun h => hw.structEnum _ h hname)
  · exact false_of_iff (isMessageName_iff p _) (fun h => hw.messageEnum _ h hname)
  · rw [validateEnumNames_ok]
    intro v hv
    obtain ⟨a, b, c⟩ := hw.enumValueNames e he v hv
    exact ⟨false_of_iff (isStruct_iff p _) a, false_of_iff (isMessageName_iff p _) b,
      containsWhitespace_of_noSpace c⟩

theorem loadPhase1_toToml {p : Protocol} (hw : WellFormed p) (hwr : Writable p) :
    loadPhase1 (toToml p) = .ok p := by
  have hmem : ∀ s ∈ p.structs ++ p.messages, ∀ v ∈ s.members, v.name.toList.head? ≠ some '_' ∧
      v.vartype ≠ "" ∧ v.vartype.toList.head? ≠ some '[' := by
    intro s hs v hv
    have hb := hw.bodies s hs
    exact ⟨hb.memberHidden v hv, not_known_empty hw (hb.memberType v hv),
      known_plain hwr (hb.memberType v hv)⟩
  have hS := loadStructs_toToml p.structs
    { ns := p.ns, listSize := p.listSize, stringSize := p.stringSize }
    (fun s hs => ⟨hw.structFlag s hs, buildStruct_toToml (hmem s (by simp [hs]))⟩)
    (by rw [List.nil_append]; exact hw.structsDistinct)
  have hM := loadMessages_toToml p.messages
    { ns := p.ns, listSize := p.listSize, stringSize := p.stringSize, structs := p.structs }
    (fun s hs => ⟨hw.messageFlag s hs, buildStruct_toToml (hmem s (by simp [hs]))⟩)
    (by rw [List.nil_append]; exact hw.messagesDistinct)
  have hE := loadEnums_toToml p.enums
    { ns := p.ns, listSize := p.listSize, stringSize := p.stringSize, structs := p.structs,
      messages := p.messages }
    (fun e he => ⟨hwr.encodings e he, hw.enums e he⟩) (by rw [List.nil_append]; exact hw.enumsDistinct)
  simp only [List.nil_append] at hS hM hE
  unfold loadPhase1 toToml
  simp only []
  rw [loadMeta_toToml hwr.ns hw.listSize hw.stringSize]
  simp only [bind, Except.bind]
  simp only [sectionItems, Toml.get?, List.find?_cons, Option.map_some,
    show ("meta" == "structs") = false from by decide, beq_self_eq_true,
    show ("meta" == "messages") = false from by decide,
    show ("structs" == "messages") = false from by decide,
    show ("meta" == "enums") = false from by decide,
    show ("structs" == "enums") = false from by decide,
    show ("messages" == "enums") = false from by decide]
  rw [hS]; simp only
  rw [hM]; simp only
  rw [hE]; simp only
  have v1 : forEach (validateStruct p) p.structs = .ok () :=
    forEach_ok.2 (fun s hs => validateStruct_of_good hw (by simp [hs]))
  have v2 : forEach (validateStruct p) p.messages = .ok () :=
    forEach_ok.2 (fun s hs => validateStruct_of_good hw (by simp [hs]))
  have v3 : forEach (validateEnum p) p.enums = .ok () :=
    forEach_ok.2 (fun e he => validateEnum_of_good hw he)
  rw [v1]; simp only
  rw [v2]; simp only
  rw [v3]; simp only
  rw [if_neg (by have := hw.messageCount; omega)]

end Beschi
