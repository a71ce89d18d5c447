import Verif.Protocol.Accept
/-
Property theorems about loading a protocol description: C01-C07.
-/
namespace Beschi.Props
open Beschi Beschi.Spec

/-! ### Sample descriptions used in the non-vacuity examples -/

/-- A description with two structs, a list member, an enum and two messages. -/
def sampleDoc : Toml := .table [
  ("meta", .table [("namespace", .str "App"), ("list_size_type", .str "uint16")]),
  ("structs", .arr [
    .table [("_name", .str "Vec"), ("x", .str "float"), ("y", .str "float")],
    .table [("_name", .str "Path"), ("points", .str "[Vec]"), ("label", .str "string")]]),
  ("messages", .arr [
    .table [("_name", .str "Move"), ("path", .str "Path"), ("color", .str "Color")],
    .table [("_name", .str "Stop")]]),
  ("enums", .arr [
    .table [("_name", .str "Color"), ("_values", .arr [.str "Red", .str "Green"])]])]

/-- What `sampleDoc` loads to. -/
def sampleProtocol : Protocol where
  ns := some (.str "App")
  listSize := .uint16
  structs := [
    ⟨"Vec", [⟨"x", "float", false⟩, ⟨"y", "float", false⟩], false⟩,
    ⟨"Path", [⟨"points", "Vec", true⟩, ⟨"label", "string", false⟩], false⟩]
  messages := [⟨"Move", [⟨"path", "Path", false⟩, ⟨"color", "Color", false⟩], true⟩,
    ⟨"Stop", [], true⟩]
  enums := [⟨"Color", [("Red", 0), ("Green", 1)], .byte⟩]

theorem sample_loads : Loads sampleDoc (.ok sampleProtocol) := ⟨10, rfl⟩

theorem sample_keys : sampleDoc.KeysDistinct := by
  have hs : ∀ s, (Toml.str s).KeysDistinct := .str
  unfold sampleDoc
  repeat' first
    | exact hs _
    | apply Toml.KeysDistinct.table
    | apply Toml.KeysDistinct.arr
    | decide
    | (intro t ht; simp only [List.mem_cons, List.not_mem_nil, or_false] at ht)
    | (rcases ht with rfl | ht)

/-! ### C01 -/

/-- C01: whatever document is loaded, an accepted protocol obeys every documented rule. -/
theorem C01_accepted_wellFormed {data : Toml} {p : Protocol} (h : Loads data (.ok p)) :
    WellFormed p := (loadPhase1_sound (loads_ok_iff.1 h).1).1

/-- C01, member names: since a TOML table cannot repeat a key, the members of a struct or message
have distinct names. -/
theorem C01_members_distinct {data : Toml} {p : Protocol} (hk : data.KeysDistinct)
    (h : Loads data (.ok p)) : MembersDistinct p :=
  (loadPhase1_sound (loads_ok_iff.1 h).1).2 hk

example : WellFormed sampleProtocol := C01_accepted_wellFormed sample_loads
example : MembersDistinct sampleProtocol := C01_members_distinct sample_keys sample_loads

/-! ### C02 -/

/-- C02: every well-formed acyclic protocol is accepted when written down, and comes back exactly
as written.  (`Writable`: the namespace is text without whitespace, no type name starts with `[`,
enum encodings are the narrowest possible - these are not part of the description itself.) -/
theorem C02_wellFormed_accepted {p : Protocol} (hw : WellFormed p) (ha : Acyclic p)
    (hwr : Writable p) : Loads (toToml p) (.ok p) :=
  loads_ok_iff.2 ⟨loadPhase1_toToml hw hwr, checkAll_of_acyclic hw ha⟩

/-! ### C03 -/

/-- C03: an accepted protocol has no struct that contains itself, however indirectly. -/
theorem C03_accepted_acyclic {data : Toml} {p : Protocol} (h : Loads data (.ok p)) : Acyclic p := by
  obtain ⟨h1, fuel, h2⟩ := loads_ok_iff.1 h
  exact acyclic_of_checkAll (loadPhase1_sound h1).1.structsDistinct
    (fun s hs => List.mem_append_left _ hs) h2

example : Acyclic sampleProtocol := C03_accepted_acyclic sample_loads

theorem sample_writable : Writable sampleProtocol where
  ns := .inr ⟨"App", rfl, by unfold NoSpace; decide⟩
  plain := by decide
  encodings := by
    intro e he
    simp only [sampleProtocol, List.mem_singleton] at he
    subst he
    refine ⟨by decide, by simp [EnumRange], ?_⟩
    intro enc henc _
    simp only [List.mem_cons, List.not_mem_nil, or_false] at henc
    rcases henc with rfl | rfl | rfl <;> decide

example : Loads (toToml sampleProtocol) (.ok sampleProtocol) :=
  C02_wellFormed_accepted (C01_accepted_wellFormed sample_loads) (C03_accepted_acyclic sample_loads)
    sample_writable

/-- C01-C03 together: apart from what a description cannot express, the accepted protocols are
exactly the well-formed acyclic ones. -/
theorem C02_accepted_iff {p : Protocol} (hwr : Writable p) :
    (∃ data, Loads data (.ok p)) ↔ WellFormed p ∧ Acyclic p :=
  ⟨fun ⟨_, h⟩ => ⟨C01_accepted_wellFormed h, C03_accepted_acyclic h⟩,
   fun ⟨h1, h2⟩ => ⟨_, C02_wellFormed_accepted h1 h2 hwr⟩⟩

/-! ### C04 -/

/-- C04 is false: a struct that is on no cycle but leads to one makes the cycle check run for ever. -/
def hangingDoc : Toml := .table [
  ("structs", .arr [
    .table [("_name", .str "A"), ("b", .str "B")],
    .table [("_name", .str "B"), ("c", .str "C")],
    .table [("_name", .str "C"), ("b", .str "B")]])]

/-- The protocol of `hangingDoc` before the cycle check. -/
def hangingProtocol : Protocol where
  structs := [⟨"A", [⟨"b", "B", false⟩], false⟩, ⟨"B", [⟨"c", "C", false⟩], false⟩,
    ⟨"C", [⟨"b", "B", false⟩], false⟩]

/-- General reason for C04 failing: if some struct not on a cycle reaches a cycle, and it is
declared before every struct that is on a cycle, loading never ends. -/
theorem C04_diverges_of_lead_in {p : Protocol} (hw : WellFormed p) (hwr : Writable p)
    {s : Struct} {pre post : List Struct} (hs : p.structs = pre ++ s :: post)
    (hpre : ∀ t ∈ pre, ¬ ContainsPlus p t.name t.name)
    (hself : ¬ ContainsPlus p s.name s.name) {c : String} (hreach : ContainsPlus p s.name c)
    (hc : ContainsPlus p c c) : Diverges (toToml p) := by
  have h := loadPhase1_toToml hw hwr
  have hn := hw.structsDistinct
  intro fuel
  have hsm : checkForCycles p fuel s = none :=
    check_diverges hn (by rw [hs]; simp) hself hreach hc fuel
  have hpre' : ∀ t ∈ pre, t ∈ p.structs := fun t ht => by rw [hs]; simp [ht]
  have aux : ∀ (l rest : List Struct), (∀ t ∈ l, t ∈ p.structs ∧ ¬ ContainsPlus p t.name t.name) →
      checkAll p fuel (l ++ s :: rest) = none := by
    intro l rest hl
    induction l with
    | nil => simp [checkAll, hsm]
    | cons t l ih =>
      simp only [List.cons_append, checkAll]
      have ih := ih (fun x hx => hl x (by simp [hx]))
      cases ht : checkForCycles p fuel t with
      | none => rfl
      | some r =>
        cases r with
        | error e =>
          exact absurd (check_error_struct hn (hl t (by simp)).1 ht).2 (hl t (by simp)).2
        | ok u => exact ih
  unfold load
  rw [h]
  simp only
  rw [hs, List.append_assoc, List.cons_append, aux _ _ (fun t ht => ⟨hpre' t ht, hpre t ht⟩)]

theorem hanging_contains_iff {a b : String} : Contains hangingProtocol a b ↔
    (a = "A" ∧ b = "B") ∨ (a = "B" ∧ b = "C") ∨ (a = "C" ∧ b = "B") := by
  constructor
  · rintro ⟨s, hs, rfl, _, v, hv, rfl⟩
    simp only [hangingProtocol, List.mem_cons, List.not_mem_nil, or_false] at hs
    rcases hs with rfl | rfl | rfl <;> simp only [List.mem_singleton] at hv <;> subst hv <;> simp
  · rintro (⟨rfl, rfl⟩ | ⟨rfl, rfl⟩ | ⟨rfl, rfl⟩)
    · exact ⟨_, List.mem_cons_self, rfl, by decide, _, List.mem_singleton.2 rfl, rfl⟩
    · exact ⟨_, List.mem_cons_of_mem _ List.mem_cons_self, rfl, by decide, _,
        List.mem_singleton.2 rfl, rfl⟩
    · exact ⟨_, List.mem_cons_of_mem _ (List.mem_cons_of_mem _ List.mem_cons_self), rfl, by decide,
        _, List.mem_singleton.2 rfl, rfl⟩

theorem hanging_contained (x y : String) (h : ContainsPlus hangingProtocol x y) : y ≠ "A" := by
  induction h with
  | one h => rcases hanging_contains_iff.1 h with ⟨_, rfl⟩ | ⟨_, rfl⟩ | ⟨_, rfl⟩ <;> decide
  | more _ _ ih => exact ih

theorem hanging_wellFormed : WellFormed hangingProtocol :=
  (loadPhase1_sound (data := hangingDoc) rfl).1

theorem hanging_writable : Writable hangingProtocol where
  ns := .inl rfl
  plain := by decide
  encodings := by intro e he; cases he

theorem hanging_B : ContainsPlus hangingProtocol "B" "B" :=
  .more (hanging_contains_iff.2 (.inr (.inl ⟨rfl, rfl⟩)))
    (.one (hanging_contains_iff.2 (.inr (.inr ⟨rfl, rfl⟩))))

/-- C04 fails: loading this three-struct description never returns. -/
theorem C04_not_always_terminating : ∃ data, Diverges data :=
  ⟨toToml hangingProtocol, C04_diverges_of_lead_in hanging_wellFormed hanging_writable
    (pre := []) rfl (by simp) (fun h => hanging_contained _ _ h rfl)
    (.one (hanging_contains_iff.2 (.inl ⟨rfl, rfl⟩))) hanging_B⟩

/-- C04 (partial): only a description of a circular protocol can make loading run for ever: every
diverging description describes a protocol that obeys all other rules and has a struct containing
itself.  Missing from the full claim: circular descriptions (see above and below). -/
theorem C04_terminates_partial {data : Toml} (h : ¬ ∃ r, Loads data r) :
    ∃ p a, WellFormed p ∧ loadPhase1 data = .ok p ∧ ContainsPlus p a a := by
  cases hp : loadPhase1 data with
  | error e => exact absurd ⟨.error e, 0, by simp [load, hp]⟩ h
  | ok p =>
    by_contra hno
    refine h ⟨.ok p, loads_ok_iff.2 ⟨hp, checkAll_of_acyclic (loadPhase1_sound hp).1 ?_⟩⟩
    intro a ha
    exact hno ⟨p, a, (loadPhase1_sound hp).1, rfl, ha⟩

example : ¬ ∃ r, Loads (toToml hangingProtocol) r :=
  diverges_iff.1 (C04_diverges_of_lead_in hanging_wellFormed hanging_writable
    (pre := []) rfl (by simp) (fun h => hanging_contained _ _ h rfl)
    (.one (hanging_contains_iff.2 (.inl ⟨rfl, rfl⟩))) hanging_B)

/-- C04: whenever a well-formed description is answered with an error, the error names the cycle,
and there is one. -/
theorem C04_error_is_cycle {p : Protocol} (hw : WellFormed p) (hwr : Writable p) {e : LoadErr}
    (h : Loads (toToml p) (.error e)) : ∃ a, e = .cycle a a ∧ ContainsPlus p a a := by
  obtain ⟨k, hk⟩ := h
  unfold load at hk
  rw [loadPhase1_toToml hw hwr] at hk
  simp only at hk
  split at hk
  · cases hk
  · rename_i e' he
    cases hk
    obtain ⟨s, hs, hse⟩ := checkAll_error he
    rcases List.mem_append.1 hs with hs | hs
    · obtain ⟨h1, h2⟩ := check_error_struct hw.structsDistinct hs hse
      exact ⟨s.name, h1, h2⟩
    · exact absurd hse (check_error_message hw hs)
  · cases hk

/-- The protocol with the members of one struct removed. -/
def emptied (p : Protocol) (n : String) : Protocol :=
  { p with structs := p.structs.map fun t => if t.name = n then { t with members := [] } else t }

theorem emptied_struct? (p : Protocol) (n t : String) (h : t ≠ n) :
    (emptied p n).struct? t = p.struct? t := by
  unfold emptied Protocol.struct?
  simp only
  induction p.structs with
  | nil => rfl
  | cons a l ih =>
    simp only [List.map_cons, List.find?_cons]
    by_cases ha : a.name = n
    · have : (a.name == t) = false := by simp [ha, Ne.symm h]
      rw [if_pos ha]
      simp only [this]
      exact ih
    · rw [if_neg ha]
      split
      · rfl
      · exact ih

theorem emptied_names (p : Protocol) (n : String) : structNames (emptied p n) = structNames p := by
  unfold emptied structNames
  simp only [List.map_map]
  apply List.map_congr_left
  intro a _
  simp only [Function.comp]
  split <;> rfl

/-- C04, circular case: if the first declared struct contains itself, and removing its members
would break every cycle, the description is rejected with a cycle error. -/
theorem C04_first_struct_cycle_partial {p : Protocol} (hw : WellFormed p) (hwr : Writable p)
    {s : Struct} {post : List Struct} (hs : p.structs = s :: post)
    (hself : ContainsPlus p s.name s.name) (hbreak : Acyclic (emptied p s.name)) :
    Loads (toToml p) (.error (.cycle s.name s.name)) := by
  have h := loadPhase1_toToml hw hwr
  have hn := hw.structsDistinct
  have hmem : s ∈ p.structs := by rw [hs]; simp
  have hn' : ∀ t ∈ initialFrontier p s, fitsAvoid p s.name _ t := fun t _ =>
    fitsAvoid_of_emptied (emptied_struct? p s.name)
      (fits_of_acyclic (by rw [emptied_names]; exact hn) hbreak t)
  obtain ⟨k, r, hk⟩ := check_terminates _ hn'
  refine ⟨k, ?_⟩
  unfold load
  rw [h]
  simp only
  rw [hs, List.cons_append, checkAll, hk]
  cases r with
  | error e => rw [(check_error_struct hn hmem hk).1]
  | ok u =>
    exfalso
    have hok := cycleLoop_ok hn hk
    cases hself with
    | one hc =>
      obtain ⟨st, hst, h1, v, hv, h2⟩ := (contains_iff hn).1 hc
      rw [struct?_of_mem hn hmem] at hst
      cases hst
      exact (hok s.name (mem_initialFrontier.2 ⟨h1, v, hv, h2⟩)).1 rfl
    | more hc hc' =>
      obtain ⟨st, hst, h1, v, hv, h2⟩ := (contains_iff hn).1 hc
      rw [struct?_of_mem hn hmem] at hst
      cases hst
      exact (hok _ (mem_initialFrontier.2 ⟨h1, v, hv, h2⟩)).2.1 hc'

/-- Two structs containing each other. -/
def mutualProtocol : Protocol where
  structs := [⟨"A", [⟨"b", "B", true⟩], false⟩, ⟨"B", [⟨"a", "A", false⟩], false⟩]

theorem mutual_contains_iff {a b : String} : Contains mutualProtocol a b ↔
    (a = "A" ∧ b = "B") ∨ (a = "B" ∧ b = "A") := by
  constructor
  · rintro ⟨s, hs, rfl, _, v, hv, rfl⟩
    simp only [mutualProtocol, List.mem_cons, List.not_mem_nil, or_false] at hs
    rcases hs with rfl | rfl <;> simp only [List.mem_singleton] at hv <;> subst hv <;> simp
  · rintro (⟨rfl, rfl⟩ | ⟨rfl, rfl⟩)
    · exact ⟨_, List.mem_cons_self, rfl, by decide, _, List.mem_singleton.2 rfl, rfl⟩
    · exact ⟨_, List.mem_cons_of_mem _ List.mem_cons_self, rfl, by decide, _,
        List.mem_singleton.2 rfl, rfl⟩

example : Loads (toToml mutualProtocol) (.error (.cycle "A" "A")) := by
  refine C04_first_struct_cycle_partial (loadPhase1_sound (data := toToml mutualProtocol) rfl).1
    ⟨.inl rfl, by decide, by intro e he; cases he⟩ rfl
    (.more (mutual_contains_iff.2 (.inl ⟨rfl, rfl⟩))
      (.one (mutual_contains_iff.2 (.inr ⟨rfl, rfl⟩)))) ?_
  have hc : ∀ a b, Contains (emptied mutualProtocol "A") a b → a = "B" ∧ b = "A" := by
    rintro a b ⟨s, hs, rfl, _, v, hv, rfl⟩
    simp only [emptied, mutualProtocol, List.map_cons, List.map_nil, List.mem_cons,
      List.not_mem_nil, or_false] at hs
    rcases hs with rfl | rfl
    · simp at hv
    · simp at hv; subst hv; exact ⟨rfl, rfl⟩
  have hp : ∀ a b, ContainsPlus (emptied mutualProtocol "A") a b → a = "B" ∧ b = "A" := by
    intro a b h
    induction h with
    | one h => exact hc _ _ h
    | more h _ ih => exact ⟨(hc _ _ h).1, ih.2⟩
  intro a ha
  obtain ⟨rfl, h2⟩ := hp _ _ ha
  exact absurd h2 (by decide)

/-! ### C05 -/

/-- C05: every enum of an accepted protocol has the narrowest encoding holding its numbers. -/
theorem C05_narrowest {data : Toml} {p : Protocol} (h : Loads data (.ok p)) {e : Enum}
    (he : e ∈ p.enums) : Narrowest e := by
  obtain ⟨spec, _, hb⟩ := phase1_enum_from (loads_ok_iff.1 h).1 he
  exact buildEnum_narrowest hb

example : Narrowest ⟨"Color", [("Red", 0), ("Green", 1)], .byte⟩ :=
  C05_narrowest sample_loads (by simp [sampleProtocol])

/-- C05, in numbers: which of the three encodings an accepted enum has. -/
theorem C05_encoding_cases {data : Toml} {p : Protocol} (h : Loads data (.ok p)) {e : Enum}
    (he : e ∈ p.enums) :
    (e.encoding = .byte ↔ ∀ x ∈ e.values, 0 ≤ x.2 ∧ x.2 ≤ 255) ∧
    (e.encoding = .int16 ↔ (¬ ∀ x ∈ e.values, 0 ≤ x.2 ∧ x.2 ≤ 255) ∧
      ∀ x ∈ e.values, -32768 ≤ x.2 ∧ x.2 ≤ 32767) ∧
    (e.encoding = .int32 ↔ (¬ ∀ x ∈ e.values, 0 ≤ x.2 ∧ x.2 ≤ 255) ∧
      ¬ ∀ x ∈ e.values, -32768 ≤ x.2 ∧ x.2 ≤ 32767) := by
  obtain ⟨h1, h2, h3⟩ := C05_narrowest h he
  simp only [List.forall_mem_map] at h2 h3
  have b := h3 .byte (by simp)
  have i := h3 .int16 (by simp)
  simp only [EnumRange] at b i
  simp only [List.mem_cons, List.not_mem_nil, or_false] at h1
  rcases h1 with h1 | h1 | h1 <;> rw [h1] at h2 b i ⊢ <;> simp only [EnumRange, width] at h2 b i
  · refine ⟨by simpa using h2, ?_, ?_⟩
    · simp only [reduceCtorEq, false_iff, not_and]; intro hx; exact absurd h2 hx
    · simp only [reduceCtorEq, false_iff, not_and]; intro hx; exact absurd h2 hx
  · have hb : ¬ ∀ x ∈ e.values, 0 ≤ x.2 ∧ x.2 ≤ 255 := fun hx => by have := b hx; omega
    refine ⟨by simpa using hb, by simpa using ⟨by simpa using hb, by simpa using h2⟩, ?_⟩
    simp only [reduceCtorEq, false_iff, not_and, not_not]; intro _; exact h2
  · have hb : ¬ ∀ x ∈ e.values, 0 ≤ x.2 ∧ x.2 ≤ 255 := fun hx => by have := b hx; omega
    have hi : ¬ ∀ x ∈ e.values, -32768 ≤ x.2 ∧ x.2 ≤ 32767 := fun hx => by have := i hx; omega
    refine ⟨by simpa using hb, ?_, ?_⟩
    · simp only [reduceCtorEq, false_iff, not_and]; intro _; exact hi
    · simp only [true_iff]; exact ⟨hb, hi⟩

/-- C05: a description with an enum entry numbered outside the int32 range is never accepted
(entry names distinct; a repeated name replaces the earlier entry, see `C06_names_dropped`). -/
theorem C05_out_of_range_rejected {data : Toml} {p : Protocol} {n : String}
    {es : List (String × Int)} (hd : (n, es.map entryToml) ∈ enumDecls data)
    (hn : (es.map (·.1)).Nodup) {x : String × Int} (hx : x ∈ es)
    (hr : x.2 < -2147483648 ∨ 2147483647 < x.2) : ¬ Loads data (.ok p) := by
  intro h
  obtain ⟨l, p2, h1, h2, _⟩ := phase1_enums (loads_ok_iff.1 h).1
  obtain ⟨e, he⟩ := loadEnums_all h1 (h2 ▸ hd)
  have hv := (buildEnum_ok he).2.1
  rw [enumValues_tables (List.ne_nil_of_mem hx) hn] at hv
  cases hv
  obtain ⟨g1, g2, _⟩ := buildEnum_narrowest he
  have := g2 x.2 (List.mem_map_of_mem hx)
  simp only [List.mem_cons, List.not_mem_nil, or_false] at g1
  rcases g1 with g | g | g <;> rw [g] at this <;> simp only [EnumRange] at this <;> omega

example : ¬ Loads (.table [("enums", .arr [.table [("_name", .str "E"), ("_values", .arr
    [.table [("_name", .str "Big"), ("_value", .int 2147483648)]])]])]) (.ok p) :=
  C05_out_of_range_rejected (n := "E") (es := [("Big", 2147483648)])
    (List.mem_singleton.2 rfl) (by simp) (x := ("Big", 2147483648)) (by simp) (by simp)

/-! ### C06 -/

/-- C06: the numbers of an accepted enum are pairwise distinct, and so are its entry names. -/
theorem C06_distinct {data : Toml} {p : Protocol} (h : Loads data (.ok p)) {e : Enum}
    (he : e ∈ p.enums) : (e.values.map (·.2)).Nodup ∧ (e.values.map (·.1)).Nodup :=
  ⟨((C01_accepted_wellFormed h).enums e he).numbersDistinct,
   ((C01_accepted_wellFormed h).enums e he).namesDistinct⟩

example : ([0, 1] : List Int).Nodup ∧ ["Red", "Green"].Nodup :=
  C06_distinct sample_loads (e := ⟨"Color", [("Red", 0), ("Green", 1)], .byte⟩)
    (by simp [sampleProtocol])

/-- C06: an enum declared as a list of names (and not declared again later) repeats no name and
has exactly these names, numbered 0, 1, 2, ... in order. -/
theorem C06_names_numbered {data : Toml} {p : Protocol} (h : Loads data (.ok p)) {n : String}
    {names : List String} {before after : List (String × List Toml)}
    (hd : enumDecls data = before ++ (n, names.map .str) :: after) (hl : n ∉ after.map (·.1)) :
    names.Nodup ∧ ∃ e ∈ p.enums, e.name = n ∧
      e.values = names.zipIdx.map (fun x => (x.1, (x.2 : Int))) := by
  obtain ⟨l, p2, h1, h2, _⟩ := phase1_enums (loads_ok_iff.1 h).1
  obtain ⟨e, he, hen, hb⟩ := loadEnums_decl h1 (h2.trans hd) hl
  obtain ⟨g1, g2⟩ := enumValues_strings (buildEnum_ok hb).2.1
  exact ⟨g1, e, he, hen, g2⟩

example : ∃ e ∈ sampleProtocol.enums, e.name = "Color" ∧ e.values = [("Red", 0), ("Green", 1)] :=
  (C06_names_numbered sample_loads (n := "Color") (names := ["Red", "Green"]) (before := [])
    (after := []) rfl (by simp)).2

/-- C06: an enum declared with explicit numbers and distinct names (and not declared again later)
has exactly these entries, in this order; in particular its default, the first entry, is the first
one listed and no name is dropped. -/
theorem C06_entries_kept_partial {data : Toml} {p : Protocol} (h : Loads data (.ok p)) {n : String}
    {es : List (String × Int)} {before after : List (String × List Toml)}
    (hd : enumDecls data = before ++ (n, es.map entryToml) :: after) (hl : n ∉ after.map (·.1))
    (hn : (es.map (·.1)).Nodup) : ∃ e ∈ p.enums, e.name = n ∧ e.values = es := by
  obtain ⟨l, p2, h1, h2, _⟩ := phase1_enums (loads_ok_iff.1 h).1
  obtain ⟨e, he, hen, hb⟩ := loadEnums_decl h1 (h2.trans hd) hl
  have hv := (buildEnum_ok hb).2.1
  have hne : es ≠ [] := by
    rintro rfl
    have := buildEnum_ok hb
    simp only [List.map_nil] at this
    obtain ⟨_, h3, _, h4, _⟩ := this
    simp [enumValues, allStrings, enumerateFrom] at h3
    exact h4 h3
  rw [enumValues_tables hne hn] at hv
  cases hv
  exact ⟨e, he, hen, rfl⟩

/-- An enum with explicit numbers out of order. -/
def numberedDoc : Toml := .table [("enums", .arr [.table [("_name", .str "E"), ("_values", .arr
  [.table [("_name", .str "Big"), ("_value", .int 300)],
   .table [("_name", .str "Neg"), ("_value", .int (-1))]])]])]

example : ∃ p, Loads numberedDoc (.ok p) ∧ ∃ e ∈ p.enums, e.name = "E" ∧
    e.values = [("Big", 300), ("Neg", -1)] :=
  have h : Loads numberedDoc (.ok { enums := [⟨"E", [("Big", 300), ("Neg", -1)], .int16⟩] }) :=
    ⟨1, rfl⟩
  ⟨_, h, C06_entries_kept_partial h (before := []) (after := []) rfl (by simp) (by decide)⟩

/-- C06 fails for repeated names in the numbered form: the first number given for `A` is silently
dropped. -/
theorem C06_names_dropped : ∃ (data : Toml) (p : Protocol) (n : String) (es : List (String × Int)),
    enumDecls data = [(n, es.map entryToml)] ∧ Loads data (.ok p) ∧
    ∃ e ∈ p.enums, e.name = n ∧ ∃ x ∈ es, x ∉ e.values :=
  ⟨.table [("enums", .arr [.table [("_name", .str "E"), ("_values", .arr
      [.table [("_name", .str "A"), ("_value", .int 1)],
       .table [("_name", .str "A"), ("_value", .int 2)]])]])],
    { enums := [⟨"E", [("A", 2)], .byte⟩] }, "E", [("A", 1), ("A", 2)], rfl, ⟨1, rfl⟩,
    _, List.mem_singleton.2 rfl, rfl, ("A", 1), by simp, by simp⟩

/-! ### C07 -/

/-- C07 fails: a description with two different enums of the same name is accepted, and the first
one is gone. -/
theorem C07_duplicate_enum_accepted : ∃ (data : Toml) (p : Protocol) (n : String)
    (a b : List Toml), enumDecls data = [(n, a), (n, b)] ∧ Loads data (.ok p) ∧
    a ≠ b ∧ p.enums.length = 1 := by
  refine ⟨.table [("enums", .arr [.table [("_name", .str "E"), ("_values", .arr [.str "A"])],
      .table [("_name", .str "E"), ("_values", .arr [.str "B", .str "C"])]])],
    { enums := [⟨"E", [("B", 0), ("C", 1)], .byte⟩] }, "E", [.str "A"], [.str "B", .str "C"],
    rfl, ⟨1, rfl⟩, by simp, rfl⟩

/-- C07 (partial): the enums of an accepted protocol still have distinct names, and each comes
from a declaration of that name.  Missing: rejection of repeated declarations. -/
theorem C07_enum_names_partial {data : Toml} {p : Protocol} (h : Loads data (.ok p)) :
    (p.enums.map (·.name)).Nodup ∧ ∀ e ∈ p.enums, e.name ∈ (enumDecls data).map (·.1) := by
  refine ⟨(C01_accepted_wellFormed h).enumsDistinct, fun e he => ?_⟩
  obtain ⟨spec, h1, _⟩ := phase1_enum_from (loads_ok_iff.1 h).1 he
  exact List.mem_map_of_mem (f := Prod.fst) h1

example : (sampleProtocol.enums.map (·.name)).Nodup := (C07_enum_names_partial sample_loads).1

end Beschi.Props
