import Verif.Protocol.Load
import Verif.Spec.WellFormed
/-
Helper lemmas about the loader.
-/
namespace Beschi
open Spec

theorem bind_ok {ε α β : Type} {x : Except ε α} {f : α → Except ε β} {b : β} :
    (x >>= f) = .ok b ↔ ∃ a, x = .ok a ∧ f a = .ok b := by
  cases x with
  | error e => simp [bind, Except.bind]
  | ok a => simp [bind, Except.bind]

theorem map_ok {ε α β : Type} {x : Except ε α} {f : α → β} {b : β} :
    (f <$> x) = .ok b ↔ ∃ a, x = .ok a ∧ f a = b := by
  cases x with
  | error e => simp [Functor.map, Except.map]
  | ok a => simp [Functor.map, Except.map]

theorem isStruct_iff (p : Protocol) (t : String) : p.isStruct t = true ↔ t ∈ structNames p := by
  simp [Protocol.isStruct, Protocol.struct?, structNames]

theorem isMessageName_iff (p : Protocol) (t : String) :
    p.isMessageName t = true ↔ t ∈ messageNames p := by
  simp [Protocol.isMessageName, Protocol.message?, messageNames]

theorem isEnum_iff (p : Protocol) (t : String) : p.isEnum t = true ↔ t ∈ enumNames p := by
  simp [Protocol.isEnum, Protocol.enum?, enumNames]

theorem struct?_some {p : Protocol} {t : String} {s : Struct} (h : p.struct? t = some s) :
    s ∈ p.structs ∧ s.name = t := by
  unfold Protocol.struct? at h
  exact ⟨List.mem_of_find?_eq_some h, by simpa using List.find?_some h⟩

theorem enum?_some {p : Protocol} {t : String} {s : Enum} (h : p.enum? t = some s) :
    s ∈ p.enums ∧ s.name = t := by
  unfold Protocol.enum? at h
  exact ⟨List.mem_of_find?_eq_some h, by simpa using List.find?_some h⟩

theorem message?_some {p : Protocol} {t : String} {s : Struct} (h : p.message? t = some s) :
    s ∈ p.messages ∧ s.name = t := by
  unfold Protocol.message? at h
  exact ⟨List.mem_of_find?_eq_some h, by simpa using List.find?_some h⟩

theorem find?_of_mem_nodup {α : Type} (f : α → String) (l : List α) (h : (l.map f).Nodup)
    {a : α} (ha : a ∈ l) : l.find? (f · == f a) = some a := by
  induction l with
  | nil => cases ha
  | cons x xs ih =>
    simp only [List.map_cons, List.nodup_cons] at h
    rcases List.mem_cons.1 ha with rfl | hx
    · simp
    · have : f x ≠ f a := fun e => h.1 (e ▸ List.mem_map_of_mem hx)
      simp [this, ih h.2 hx]

theorem ofName?_isSome_iff (t : String) : (NumTy.ofName? t).isSome = true ↔ t ∈ builtinTypes := by
  unfold NumTy.ofName? builtinTypes
  split <;> simp_all

theorem ofName?_name (n : NumTy) : NumTy.ofName? n.name = some n := by cases n <;> rfl

theorem ofName?_some {t : String} {n : NumTy} (h : NumTy.ofName? t = some n) : t = n.name := by
  unfold NumTy.ofName? at h
  split at h <;> simp_all [NumTy.name] <;> subst h <;> rfl

theorem validType_iff (p : Protocol) (t : String) : validType p t = true ↔ KnownType p t := by
  simp only [validType, KnownType, Bool.or_eq_true, isStruct_iff, isEnum_iff, ofName?_isSome_iff,
    beq_iff_eq]
  constructor
  · rintro (((h | h) | h) | h)
    · exact .inr (.inr (.inl h))
    · exact .inr (.inr (.inr h))
    · exact .inl h
    · exact .inr (.inl h)
  · rintro (h | h | h | h)
    · exact .inl (.inr h)
    · exact .inr h
    · exact .inl (.inl (.inl h))
    · exact .inl (.inl (.inr h))

theorem containsWhitespace_false {s : String} (h : ¬ containsWhitespace s = true) : NoSpace s := by
  intro c hc hs
  apply h
  simp only [containsWhitespace, List.any_eq_true]
  exact ⟨c, hc, by simpa [whitespaceChars, spaces] using hs⟩

theorem containsWhitespace_of_noSpace {s : String} (h : NoSpace s) :
    containsWhitespace s = false := by
  simp only [containsWhitespace, List.any_eq_false]
  intro c hc hs
  exact h c hc (by simpa [whitespaceChars, spaces] using hs)

theorem reservedWords_eq : reservedWords = reserved := by decide

theorem isReserved_iff (s : String) : isReserved s = true ↔ lower s ∈ reserved := by
  simp only [isReserved, reservedWords_eq, List.contains_iff_mem, asciiLower, lower]

theorem toList_isEmpty (s : String) : s.toList.isEmpty = true ↔ s = "" := by
  rw [List.isEmpty_iff]
  constructor
  · intro h; exact String.toList_inj.1 (by simpa using h)
  · rintro rfl; rfl

theorem parseSize_integer {t : Toml} {n : NumTy} (h : parseSize t = some n) : IntegerType n := by
  unfold parseSize at h
  split at h
  · split at h
    · split at h
      · rename_i hv
        cases h
        revert hv
        cases n <;> simp [validSizes, IntegerType]
      · cases h
    · cases h
  · cases h

theorem metaSize_ok {m : Toml} {k : String} {err : LoadErr} {n : NumTy}
    (h : metaSize m k err = .ok n) : IntegerType n := by
  unfold metaSize at h
  split at h
  · cases h
  · cases h; simp [IntegerType]
  · split at h
    · cases h; rename_i hp; exact parseSize_integer hp
    · cases h

theorem loadMeta_ok {data : List (String × Toml)} {p : Protocol} (h : loadMeta data = .ok p) :
    p.structs = [] ∧ p.messages = [] ∧ p.enums = [] ∧ IntegerType p.listSize ∧
      IntegerType p.stringSize := by
  unfold loadMeta at h
  split at h
  · cases h; simp [IntegerType]
  · rename_i m hm
    simp only [bind_ok] at h
    obtain ⟨ns, _, ls, hls, ss, hss, h⟩ := h
    cases h
    exact ⟨rfl, rfl, rfl, metaSize_ok hls, metaSize_ok hss⟩

theorem buildMember_ok {n : String} {t : Toml} {v : Variable}
    (h : buildMember n t = .ok (some v)) : v.name = n ∧ n.toList.head? ≠ some '_' := by
  unfold buildMember at h
  split at h
  · cases h
  · rename_i hn
    refine ⟨?_, by simpa using hn⟩
    split at h
    · split at h
      · cases h
      · split at h
        · simp only at h
          split at h
          · cases h
          · split at h
            · cases h
            · cases h; rfl
        · cases h; rfl
    · cases h

theorem buildMembers_ok {kvs : List (String × Toml)} {ms : List Variable}
    (h : buildMembers kvs = .ok ms) :
    (ms.map (·.name)).Sublist (kvs.map (·.1)) ∧ ∀ v ∈ ms, v.name.toList.head? ≠ some '_' := by
  induction kvs generalizing ms with
  | nil => simp only [buildMembers] at h; cases h; simp
  | cons kv rest ih =>
    obtain ⟨n, t⟩ := kv
    simp only [buildMembers, bind_ok] at h
    obtain ⟨v?, hv, vs, hvs, h⟩ := h
    have := ih hvs
    cases v? with
    | none =>
      simp only at h; cases h
      exact ⟨this.1.trans (List.sublist_cons_self _ _), this.2⟩
    | some v =>
      simp only at h; cases h
      obtain ⟨h1, h2⟩ := buildMember_ok hv
      refine ⟨?_, ?_⟩
      · simp only [List.map_cons, h1]; exact this.1.cons_cons _
      · intro w hw
        rcases List.mem_cons.1 hw with rfl | hw
        · rw [h1]; exact h2
        · exact this.2 w hw

theorem buildStruct_ok {d : Toml} {b : Bool} {s : Struct} (h : buildStruct d b = .ok s) :
    s.isMessage = b ∧ (∀ v ∈ s.members, v.name.toList.head? ≠ some '_') ∧
      (d.KeysDistinct → (s.members.map (·.name)).Nodup) := by
  unfold buildStruct at h
  split at h
  · split at h
    · cases h
    · simp only [bind_ok] at h
      obtain ⟨ms, hms, h⟩ := h
      cases h
      have := buildMembers_ok hms
      refine ⟨rfl, this.2, ?_⟩
      intro hd
      cases hd with
      | table _ hn _ => exact this.1.nodup hn
    · cases h
  · cases h

theorem forEach_ok {α ε : Type} {f : α → Except ε Unit} {l : List α} {u : Unit} :
    forEach f l = .ok u ↔ ∀ x ∈ l, f x = .ok () := by
  induction l with
  | nil => simp [forEach]
  | cons x xs ih =>
    simp only [forEach, bind_ok, ih, List.forall_mem_cons]
    constructor
    · rintro ⟨_, h1, h2⟩; exact ⟨h1, h2⟩
    · rintro ⟨h1, h2⟩; exact ⟨(), h1, h2⟩

/-- What the struct and message loops establish about the bodies they append. -/
def BodyOk (b : Bool) (s : Struct) : Prop :=
  s.isMessage = b ∧ ∀ v ∈ s.members, v.name.toList.head? ≠ some '_'

theorem loadStructs_ok {l : List Toml} {p q : Protocol} (h : loadStructs l p = .ok q)
    (hn : (structNames p).Nodup) (hb : ∀ s ∈ p.structs, BodyOk false s) :
    (structNames q).Nodup ∧ (∀ s ∈ q.structs, BodyOk false s) ∧
    (∃ new, q = { p with structs := p.structs ++ new } ∧
      ((∀ t ∈ l, t.KeysDistinct) → ∀ s ∈ new, (s.members.map (·.name)).Nodup)) := by
  induction l generalizing p with
  | nil => simp only [loadStructs] at h; cases h; exact ⟨hn, hb, [], by simp, by simp⟩
  | cons d rest ih =>
    simp only [loadStructs, bind_ok] at h
    obtain ⟨s, hs, h⟩ := h
    split at h
    · cases h
    · rename_i hdup
      obtain ⟨h1, h2, h3⟩ := buildStruct_ok hs
      rw [isStruct_iff] at hdup
      have := ih h (by
        simp only [structNames, List.map_append, List.map_cons, List.map_nil]
        rw [List.nodup_append]
        refine ⟨hn, by simp, ?_⟩
        intro a ha b hb'
        simp only [List.mem_singleton] at hb'
        subst hb'
        intro e; subst e; exact hdup ha) (by
        intro s' hs'
        simp only [List.mem_append, List.mem_singleton] at hs'
        rcases hs' with hs' | rfl
        · exact hb _ hs'
        · exact ⟨h1, h2⟩)
      obtain ⟨k1, k2, new, k3, k4⟩ := this
      refine ⟨k1, k2, s :: new, by simpa using k3, ?_⟩
      intro hk s' hs'
      rcases List.mem_cons.1 hs' with rfl | hs'
      · exact h3 (hk d (by simp))
      · exact k4 (fun t ht => hk t (by simp [ht])) s' hs'

theorem loadMessages_ok {l : List Toml} {p q : Protocol} (h : loadMessages l p = .ok q)
    (hn : (messageNames p).Nodup) (hb : ∀ s ∈ p.messages, BodyOk true s) :
    (messageNames q).Nodup ∧ (∀ s ∈ q.messages, BodyOk true s) ∧
    (∃ new, q = { p with messages := p.messages ++ new } ∧
      ((∀ t ∈ l, t.KeysDistinct) → ∀ s ∈ new, (s.members.map (·.name)).Nodup)) := by
  induction l generalizing p with
  | nil => simp only [loadMessages] at h; cases h; exact ⟨hn, hb, [], by simp, by simp⟩
  | cons d rest ih =>
    simp only [loadMessages, bind_ok] at h
    obtain ⟨s, hs, h⟩ := h
    split at h
    · cases h
    · rename_i hdup
      obtain ⟨h1, h2, h3⟩ := buildStruct_ok hs
      rw [isMessageName_iff] at hdup
      have := ih h (by
        simp only [messageNames, List.map_append, List.map_cons, List.map_nil]
        rw [List.nodup_append]
        refine ⟨hn, by simp, ?_⟩
        intro a ha b hb'
        simp only [List.mem_singleton] at hb'
        subst hb'
        intro e; subst e; exact hdup ha) (by
        intro s' hs'
        simp only [List.mem_append, List.mem_singleton] at hs'
        rcases hs' with hs' | rfl
        · exact hb _ hs'
        · exact ⟨h1, h2⟩)
      obtain ⟨k1, k2, new, k3, k4⟩ := this
      refine ⟨k1, k2, s :: new, by simpa using k3, ?_⟩
      intro hk s' hs'
      rcases List.mem_cons.1 hs' with rfl | hs'
      · exact h3 (hk d (by simp))
      · exact k4 (fun t ht => hk t (by simp [ht])) s' hs'

/-! ### Enums -/

theorem mem_dictSet_keys {β : Type} (k : String) (v : β) (l : List (String × β)) (a : String) :
    a ∈ (dictSet k v l).map (·.1) ↔ a = k ∨ a ∈ l.map (·.1) := by
  induction l with
  | nil => simp [dictSet]
  | cons x xs ih =>
    obtain ⟨k', v'⟩ := x
    unfold dictSet
    split
    · rename_i h
      simp only [beq_iff_eq] at h
      subst h
      simp
    · simp only [List.map_cons, List.mem_cons, ih]
      constructor
      · rintro (h | h | h) <;> simp [h]
      · rintro (h | h | h) <;> simp [h]

theorem dictSet_nodup {β : Type} (k : String) (v : β) (l : List (String × β))
    (h : (l.map (·.1)).Nodup) : ((dictSet k v l).map (·.1)).Nodup := by
  induction l with
  | nil => simp [dictSet]
  | cons x xs ih =>
    obtain ⟨k', v'⟩ := x
    simp only [List.map_cons, List.nodup_cons] at h
    unfold dictSet
    split
    · simpa using h
    · rename_i hk
      simp only [List.map_cons, List.nodup_cons, mem_dictSet_keys]
      refine ⟨?_, ih h.2⟩
      rintro (e | e)
      · exact hk (by simp [e])
      · exact h.1 e

theorem enumEntries_nodup {l : List (List (String × Toml))} {od vs : List (String × Int)}
    (h : enumEntries l od = .ok vs) (hn : (od.map (·.1)).Nodup) : (vs.map (·.1)).Nodup := by
  induction l generalizing od with
  | nil => simp only [enumEntries] at h; cases h; exact hn
  | cons x xs ih =>
    simp only [enumEntries, bind_ok] at h
    obtain ⟨⟨n, i⟩, _, h⟩ := h
    exact ih h (dictSet_nodup _ _ _ hn)

theorem enumerateFrom_fst (i : Nat) (l : List String) : (enumerateFrom i l).map (·.1) = l := by
  induction l generalizing i with
  | nil => rfl
  | cons x xs ih => simp [enumerateFrom, ih]

theorem enumValues_nodup {n : String} {spec : List Toml} {vs : List (String × Int)}
    (h : enumValues n spec = .ok vs) : (vs.map (·.1)).Nodup := by
  unfold enumValues at h
  split at h
  · split at h
    · cases h; rw [enumerateFrom_fst]; assumption
    · cases h
  · split at h
    · exact enumEntries_nodup h (by simp)
    · cases h

theorem foldl_min_le (l : List Int) (x : Int) : l.foldl min x ≤ x ∧ ∀ y ∈ l, l.foldl min x ≤ y := by
  induction l generalizing x with
  | nil => simp
  | cons a l ih =>
    simp only [List.foldl_cons]
    have := ih (min x a)
    refine ⟨by omega, ?_⟩
    intro y hy
    rcases List.mem_cons.1 hy with rfl | hy
    · omega
    · exact this.2 y hy

theorem le_foldl_max (l : List Int) (x : Int) : x ≤ l.foldl max x ∧ ∀ y ∈ l, y ≤ l.foldl max x := by
  induction l generalizing x with
  | nil => simp
  | cons a l ih =>
    simp only [List.foldl_cons]
    have := ih (max x a)
    refine ⟨by omega, ?_⟩
    intro y hy
    rcases List.mem_cons.1 hy with rfl | hy
    · omega
    · exact this.2 y hy

theorem foldl_min_mem (l : List Int) (x : Int) : l.foldl min x = x ∨ l.foldl min x ∈ l := by
  induction l generalizing x with
  | nil => simp
  | cons a l ih =>
    simp only [List.foldl_cons]
    rcases ih (min x a) with h | h
    · rw [h]
      rcases Int.le_total x a with h' | h'
      · left; omega
      · right; simp only [List.mem_cons]; left; omega
    · right; simp [h]

theorem foldl_max_mem (l : List Int) (x : Int) : l.foldl max x = x ∨ l.foldl max x ∈ l := by
  induction l generalizing x with
  | nil => simp
  | cons a l ih =>
    simp only [List.foldl_cons]
    rcases ih (max x a) with h | h
    · rw [h]
      rcases Int.le_total x a with h' | h'
      · right; simp only [List.mem_cons]; left; omega
      · left; omega
    · right; simp [h]

theorem minValue_spec {l : List Int} {m : Int} (h : minValue l = some m) :
    m ∈ l ∧ ∀ y ∈ l, m ≤ y := by
  cases l with
  | nil => simp [minValue] at h
  | cons x xs =>
    simp only [minValue, Option.some.injEq] at h
    subst h
    refine ⟨?_, ?_⟩
    · rcases foldl_min_mem xs x with h | h
      · rw [h]; simp
      · simp [h]
    · intro y hy
      rcases List.mem_cons.1 hy with rfl | hy
      · exact (foldl_min_le xs y).1
      · exact (foldl_min_le xs x).2 y hy

theorem maxValue_spec {l : List Int} {m : Int} (h : maxValue l = some m) :
    m ∈ l ∧ ∀ y ∈ l, y ≤ m := by
  cases l with
  | nil => simp [maxValue] at h
  | cons x xs =>
    simp only [maxValue, Option.some.injEq] at h
    subst h
    refine ⟨?_, ?_⟩
    · rcases foldl_max_mem xs x with h | h
      · rw [h]; simp
      · simp [h]
    · intro y hy
      rcases List.mem_cons.1 hy with rfl | hy
      · exact (le_foldl_max xs y).1
      · exact (le_foldl_max xs x).2 y hy

theorem pickEncoding_some {lo hi : Int} {n : NumTy} (h : pickEncoding lo hi = some n) :
    (n = .byte ∧ 0 ≤ lo ∧ hi ≤ 255) ∨
    (n = .int16 ∧ ¬ (0 ≤ lo ∧ hi ≤ 255) ∧ -32768 ≤ lo ∧ hi ≤ 32767) ∨
    (n = .int32 ∧ ¬ (-32768 ≤ lo ∧ hi ≤ 32767) ∧ ¬ (0 ≤ lo ∧ hi ≤ 255) ∧
      -2147483648 ≤ lo ∧ hi ≤ 2147483647) := by
  simp only [pickEncoding, List.find?_cons, fitsRange, NumTy.range?] at h
  split at h
  · cases h; left; simp_all
  · split at h
    · cases h; right; left; simp_all
    · split at h
      · cases h; right; right; simp_all
      · simp at h

theorem pickEncoding_none {lo hi : Int} (h : pickEncoding lo hi = none) :
    lo < -2147483648 ∨ 2147483647 < hi := by
  simp only [pickEncoding, List.find?_cons, fitsRange, NumTy.range?] at h
  split at h
  · cases h
  · split at h
    · cases h
    · split at h
      · cases h
      · rename_i h3
        simp only [Bool.and_eq_false_iff, decide_eq_false_iff_not] at h3
        omega

theorem buildEnum_ok {n : String} {spec : List Toml} {e : Enum} (h : buildEnum n spec = .ok e) :
    e.name = n ∧ enumValues n spec = .ok e.values ∧ (e.values.map (·.1)).Nodup ∧
    e.values ≠ [] ∧ ∃ lo hi, minValue (e.values.map (·.2)) = some lo ∧
      maxValue (e.values.map (·.2)) = some hi ∧ pickEncoding lo hi = some e.encoding := by
  unfold buildEnum at h
  simp only [bind_ok] at h
  obtain ⟨vs, hvs, h⟩ := h
  split at h
  · rename_i lo hi h1 h2
    split at h
    · rename_i enc h3
      cases h
      refine ⟨rfl, hvs, enumValues_nodup hvs, ?_, lo, hi, h1, h2, h3⟩
      rintro hnil
      simp only at hnil
      subst hnil
      simp [minValue] at h1
    · cases h
  · cases h

theorem buildEnum_range {n : String} {spec : List Toml} {e : Enum} (h : buildEnum n spec = .ok e) :
    ∀ i ∈ e.values.map (·.2), EnumRange e.encoding i := by
  obtain ⟨_, _, _, _, lo, hi, h1, h2, h3⟩ := buildEnum_ok h
  intro i hi'
  have a := (minValue_spec h1).2 i hi'
  have b := (maxValue_spec h2).2 i hi'
  rcases pickEncoding_some h3 with ⟨e, _⟩ | ⟨e, _⟩ | ⟨e, _⟩ <;> rw [e] <;>
    simp only [EnumRange] <;> omega

theorem loadEnumEntry_ok {d : Toml} {e : Enum} (h : loadEnumEntry d = .ok e) :
    ∃ spec, buildEnum e.name spec = .ok e := by
  unfold loadEnumEntry at h
  split at h
  · split at h
    · cases h
    · split at h
      · cases h
      · split at h
        · have := (buildEnum_ok h).1
          rw [this]
          exact ⟨_, h⟩
        · cases h
      · cases h
  · cases h

theorem mem_setEnum_names (e : Enum) (l : List Enum) (a : String) :
    a ∈ (setEnum e l).map (·.name) ↔ a = e.name ∨ a ∈ l.map (·.name) := by
  induction l with
  | nil => simp [setEnum]
  | cons x xs ih =>
    unfold setEnum
    split
    · rename_i h
      simp only [beq_iff_eq] at h
      simp [h]
    · simp only [List.map_cons, List.mem_cons, ih]
      constructor
      · rintro (h | h | h) <;> simp [h]
      · rintro (h | h | h) <;> simp [h]

theorem setEnum_nodup (e : Enum) (l : List Enum) (h : (l.map (·.name)).Nodup) :
    ((setEnum e l).map (·.name)).Nodup := by
  induction l with
  | nil => simp [setEnum]
  | cons x xs ih =>
    simp only [List.map_cons, List.nodup_cons] at h
    unfold setEnum
    split
    · rename_i hk
      simp only [beq_iff_eq] at hk
      simpa [← hk] using h
    · rename_i hk
      simp only [List.map_cons, List.nodup_cons, mem_setEnum_names]
      refine ⟨?_, ih h.2⟩
      rintro (e' | e')
      · exact hk (by simp [e'])
      · exact h.1 e'

theorem mem_setEnum {e x : Enum} {l : List Enum} (h : x ∈ setEnum e l) : x = e ∨ x ∈ l := by
  induction l with
  | nil => simpa [setEnum] using h
  | cons y ys ih =>
    unfold setEnum at h
    split at h
    · rcases List.mem_cons.1 h with h | h
      · exact .inl h
      · exact .inr (by simp [h])
    · rcases List.mem_cons.1 h with h | h
      · exact .inr (by simp [h])
      · rcases ih h with h | h
        · exact .inl h
        · exact .inr (by simp [h])

theorem loadEnums_ok {l : List Toml} {p q : Protocol} (h : loadEnums l p = .ok q)
    (hn : (enumNames p).Nodup) (hb : ∀ e ∈ p.enums, ∃ spec, buildEnum e.name spec = .ok e) :
    (enumNames q).Nodup ∧ (∀ e ∈ q.enums, ∃ spec, buildEnum e.name spec = .ok e) ∧
    (∃ es, q = { p with enums := es }) := by
  induction l generalizing p with
  | nil => simp only [loadEnums] at h; cases h; exact ⟨hn, hb, _, rfl⟩
  | cons d rest ih =>
    simp only [loadEnums, bind_ok] at h
    obtain ⟨e, he, h⟩ := h
    have := ih h (setEnum_nodup _ _ hn) (by
      intro x hx
      rcases mem_setEnum hx with rfl | hx
      · exact loadEnumEntry_ok he
      · exact hb x hx)
    obtain ⟨k1, k2, es, k3⟩ := this
    exact ⟨k1, k2, es, k3⟩

/-! ### Validation -/

theorem validateMembers_ok {p : Protocol} {s : Struct} {vs : List Variable} :
    validateMembers p s vs = .ok () ↔
      ∀ v ∈ vs, containsWhitespace v.name = false ∧ validType p v.vartype = true := by
  induction vs with
  | nil => simp [validateMembers]
  | cons v vs ih =>
    simp only [validateMembers]
    split
    · simp_all
    · split
      · split <;> simp_all
      · simp_all

theorem validateStruct_ok {p : Protocol} {s : Struct} :
    validateStruct p s = .ok () ↔
      s.name ≠ "" ∧ containsWhitespace s.name = false ∧ isReserved s.name = false ∧
      ¬ (s.isMessage = true ∧ p.isStruct s.name = true) ∧
      validateMembers p s s.members = .ok () := by
  unfold validateStruct
  split
  · rename_i h; rw [toList_isEmpty] at h; simp [h]
  · rename_i h0; rw [toList_isEmpty] at h0
    split
    · simp_all
    · split
      · simp_all
      · split
        · simp_all
        · simp_all

theorem validateEnumNames_ok {p : Protocol} {e : Enum} {l : List (String × Int)} :
    validateEnumNames p e l = .ok () ↔
      ∀ v ∈ l.map (·.1), p.isStruct v = false ∧ p.isMessageName v = false ∧
        containsWhitespace v = false := by
  induction l with
  | nil => simp [validateEnumNames]
  | cons x xs ih =>
    obtain ⟨v, i⟩ := x
    simp only [validateEnumNames]
    split
    · simp_all
    · split
      · simp_all
      · split
        · simp_all
        · simp only [ih]; simp_all

theorem validateEnum_ok {p : Protocol} {e : Enum} :
    validateEnum p e = .ok () ↔
      e.name ≠ "" ∧ containsWhitespace e.name = false ∧ isReserved e.name = false ∧
      e.values ≠ [] ∧ (e.values.map (·.2)).Nodup ∧ p.isStruct e.name = false ∧
      p.isMessageName e.name = false ∧ validateEnumNames p e e.values = .ok () := by
  unfold validateEnum
  split
  · rename_i h; rw [toList_isEmpty] at h; simp [h]
  · rename_i h0; rw [toList_isEmpty] at h0
    split
    · simp_all
    · split
      · simp_all
      · split
        · simp_all
        · split
          · simp_all
          · split
            · simp_all
            · split
              · simp_all
              · simp_all

theorem bool_false {b : Bool} {P : Prop} (h : b = true ↔ P) (hb : b = false) : ¬ P := by
  intro hp; rw [h.2 hp] at hb; cases hb

theorem KeysDistinct.get {kvs : List (String × Toml)} {k : String} {t : Toml}
    (h : (Toml.table kvs).KeysDistinct) (hg : Toml.get? kvs k = some t) : t.KeysDistinct := by
  cases h with
  | table _ _ h =>
    simp only [Toml.get?, Option.map_eq_some_iff] at hg
    obtain ⟨e, he, rfl⟩ := hg
    exact h e (List.mem_of_find?_eq_some he)

theorem sectionItems_keys {kvs : List (String × Toml)} {k : String} {l : List Toml}
    (h : (Toml.table kvs).KeysDistinct) (hs : sectionItems kvs k = .ok l) :
    ∀ t ∈ l, t.KeysDistinct := by
  unfold sectionItems at hs
  split at hs
  · cases hs; simp
  · rename_i l' hg
    cases hs
    have := KeysDistinct.get h hg
    cases this with
    | arr _ h => exact h
  · cases hs; intro t ht; simp only [List.mem_map] at ht; obtain ⟨_, _, rfl⟩ := ht; exact .str _
  · cases hs; intro t ht; simp only [List.mem_map] at ht; obtain ⟨_, _, rfl⟩ := ht; exact .str _
  · cases hs

/-- Names used by the loader's checks are good names. -/
theorem goodName_of {n : String} (h1 : n ≠ "") (h2 : containsWhitespace n = false)
    (h3 : isReserved n = false) : GoodName n :=
  ⟨h1, containsWhitespace_false (by simp [h2]), bool_false (isReserved_iff n) h3⟩

theorem goodName_checks {n : String} (h : GoodName n) :
    n ≠ "" ∧ containsWhitespace n = false ∧ isReserved n = false := by
  refine ⟨h.nonempty, containsWhitespace_of_noSpace h.noSpace, ?_⟩
  cases hr : isReserved n with
  | false => rfl
  | true => exact absurd ((isReserved_iff n).1 hr) h.notReserved

theorem char_toLower_of_ascii_lower : ∀ s ∈ builtinTypes ++ ["string"], lower s = s := by decide

/-- The first phase establishes everything except acyclicity. -/
theorem loadPhase1_sound {data : Toml} {p : Protocol} (h : loadPhase1 data = .ok p) :
    WellFormed p ∧ (data.KeysDistinct → MembersDistinct p) := by
  unfold loadPhase1 at h
  split at h
  · rename_i kvs
    simp only [bind_ok] at h
    obtain ⟨p0, h0, ls, hls, p1, h1, lm, hlm, p2, h2, le, hle, p3, h3, _, hv1, _, hv2, _, hv3, h⟩ := h
    split at h
    · cases h
    · rename_i hcount
      cases h
      obtain ⟨m1, m2, m3, m4, m5⟩ := loadMeta_ok h0
      clear h0
      obtain ⟨ns0, ls0, ss0, st0, me0, en0⟩ := p0
      simp only at m1 m2 m3
      subst m1 m2 m3
      obtain ⟨a1, a2, newS, a3, a4⟩ := loadStructs_ok h1 (by simp [structNames]) (by simp)
      subst a3
      obtain ⟨b1, b2, newM, b3, b4⟩ := loadMessages_ok h2 (by simp [messageNames]) (by simp)
      subst b3
      obtain ⟨c1, c2, es, c3⟩ := loadEnums_ok h3 (by simp [enumNames]) (by simp)
      subst c3
      simp only [List.nil_append] at a1 a2 b1 b2 c1 c2 hv1 hv2 hv3 hcount ⊢
      simp only [forEach_ok, validateStruct_ok, validateMembers_ok, validateEnum_ok,
        validateEnumNames_ok] at hv1 hv2 hv3
      have hmsg : ∀ n ∈ messageNames ⟨ns0, ls0, ss0, newS, newM, es⟩,
          n ∉ structNames ⟨ns0, ls0, ss0, newS, newM, es⟩ := by
        intro n hn hs
        simp only [messageNames, List.mem_map] at hn
        obtain ⟨m, hm, rfl⟩ := hn
        exact (hv2 m hm).2.2.2.1 ⟨(b2 m hm).1, (isStruct_iff _ _).2 hs⟩
      have hes : ∀ n ∈ enumNames ⟨ns0, ls0, ss0, newS, newM, es⟩,
          n ∉ structNames ⟨ns0, ls0, ss0, newS, newM, es⟩ ∧
          n ∉ messageNames ⟨ns0, ls0, ss0, newS, newM, es⟩ := by
        intro n hn
        simp only [enumNames, List.mem_map] at hn
        obtain ⟨e, he, rfl⟩ := hn
        have := hv3 e he
        exact ⟨bool_false (isStruct_iff _ _) this.2.2.2.2.2.1,
          bool_false (isMessageName_iff _ _) this.2.2.2.2.2.2.1⟩
      have hgoodM : ∀ m ∈ newM, GoodName m.name := fun m hm =>
        goodName_of (hv2 m hm).1 (hv2 m hm).2.1 (hv2 m hm).2.2.1
      have hbody : ∀ s, ((∀ v ∈ s.members, containsWhitespace v.name = false ∧ validType
            ⟨ns0, ls0, ss0, newS, newM, es⟩ v.vartype = true)) →
          (∀ v ∈ s.members, v.name.toList.head? ≠ some '_') →
          GoodBody ⟨ns0, ls0, ss0, newS, newM, es⟩ s := by
        intro s hs hh
        refine ⟨?_, ?_, ?_, hh⟩
        · intro v hv; exact containsWhitespace_false (by simp [(hs v hv).1])
        · intro v hv; exact (validType_iff _ _).1 (hs v hv).2
        · intro v hv hm
          have ht := (validType_iff _ _).1 (hs v hv).2
          rcases ht with ht | ht | ht | ht
          · have : GoodName v.vartype := by
              simp only [messageNames, List.mem_map] at hm
              obtain ⟨m, hm, e⟩ := hm
              rw [← e]; exact hgoodM m hm
            have hl := char_toLower_of_ascii_lower v.vartype (by simp [ht])
            apply this.notReserved
            rw [hl]
            revert ht
            simp only [builtinTypes, reserved, List.mem_cons]
            rintro (h | h | h | h | h | h | h | h | h | h | h) <;> simp [h]
          · have : GoodName v.vartype := by
              simp only [messageNames, List.mem_map] at hm
              obtain ⟨m, hm, e⟩ := hm
              rw [← e]; exact hgoodM m hm
            apply this.notReserved
            rw [ht]; decide
          · exact hmsg _ hm ht
          · exact (hes _ ht).2 hm
      refine ⟨?_, ?_⟩
      · constructor
        · exact a1
        · exact b1
        · exact c1
        · intro n hn hm; exact hmsg n hm hn
        · intro n hn he; exact (hes n he).1 hn
        · intro n hn he; exact (hes n he).2 hn
        · intro n hn
          simp only [List.mem_append] at hn
          rcases hn with (hn | hn) | hn
          · simp only [structNames, List.mem_map] at hn
            obtain ⟨s, hs, rfl⟩ := hn
            exact goodName_of (hv1 s hs).1 (hv1 s hs).2.1 (hv1 s hs).2.2.1
          · simp only [messageNames, List.mem_map] at hn
            obtain ⟨s, hs, rfl⟩ := hn
            exact hgoodM s hs
          · simp only [enumNames, List.mem_map] at hn
            obtain ⟨s, hs, rfl⟩ := hn
            exact goodName_of (hv3 s hs).1 (hv3 s hs).2.1 (hv3 s hs).2.2.1
        · intro s hs
          simp only [List.mem_append] at hs
          rcases hs with hs | hs
          · exact hbody s (hv1 s hs).2.2.2.2 (a2 s hs).2
          · exact hbody s (hv2 s hs).2.2.2.2 (b2 s hs).2
        · intro e he
          obtain ⟨spec, hspec⟩ := c2 e he
          have hb := buildEnum_ok hspec
          exact ⟨hb.2.2.2.1, hb.2.2.1, (hv3 e he).2.2.2.2.1, buildEnum_range hspec⟩
        · intro e he v hv
          have := (hv3 e he).2.2.2.2.2.2.2 v hv
          exact ⟨bool_false (isStruct_iff _ _) this.1, bool_false (isMessageName_iff _ _) this.2.1,
            containsWhitespace_false (by simp [this.2.2])⟩
        · exact Nat.not_lt.1 hcount
        · exact m4
        · exact m5
        · intro s hs; exact (a2 s hs).1
        · intro s hs; exact (b2 s hs).1
      · intro hk s hs
        simp only [List.mem_append] at hs
        rcases hs with hs | hs
        · exact a4 (sectionItems_keys hk hls) s hs
        · exact b4 (sectionItems_keys hk hlm) s hs
  · cases h

end Beschi
