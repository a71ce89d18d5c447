import Verif.Lang.NamesProof
import Verif.Props.Limits
/-
Property theorems about the names of members: C29 (renaming) and C30 (readers in Rust).
-/
namespace Beschi.Props
open Beschi Beschi.Spec Beschi.Lang

/-! ### C29 -/

/-- C29: in Go members begin with a capital letter and are otherwise unchanged; they are unchanged if
no renaming is asked for. -/
theorem C29_go_names (n : String) :
    ((Language.go false).rename n).toList = capitalCase n.toList ∧ (Language.go true).rename n = n :=
  ⟨capitalize_eq n, rfl⟩

/-- C29: in Rust members are in snake case; they are unchanged if no renaming is asked for. -/
theorem C29_rust_names (n : String) :
    ((∀ c ∈ n.toList, c ≠ '\n') → ((Language.rust false).rename n).toList = snakeCase none n.toList) ∧
    (Language.rust true).rename n = n :=
  ⟨fun h => snake_eq n h, rfl⟩

/-- C29: in the other languages members are not renamed. -/
theorem C29_other_names (l : Language) (n : String) (hg : ∀ b, l ≠ .go b) (hr : ∀ b, l ≠ .rust b) :
    l.rename n = n := by
  cases l with
  | go b => exact absurd rfl (hg b)
  | rust b => exact absurd rfl (hr b)
  | _ => rfl

/-- C29, as far as it holds in Go: names that differ keep doing so, unless one begins with a small
letter and the other does not. -/
theorem C29_go_distinct_partial {a b : String} (hne : a ≠ b)
    (h : ∀ c ∈ a.toList.head?, ∀ d ∈ b.toList.head?, (Small c ↔ Small d)) :
    (Language.go false).rename a ≠ (Language.go false).rename b := by
  intro e
  have := congrArg String.toList e
  rw [(C29_go_names a).1, (C29_go_names b).1] at this
  exact hne (String.toList_inj.1 (capitalCase_inj h this))

/-- C29, as far as it holds in Rust: names that differ in more than case and underscores keep doing
so. -/
theorem C29_rust_distinct_partial {a b : String} (ha : ∀ c ∈ a.toList, c ≠ '\n')
    (hb : ∀ c ∈ b.toList, c ≠ '\n') (h : folded a ≠ folded b) :
    (Language.rust false).rename a ≠ (Language.rust false).rename b := by
  intro e
  have := congrArg String.toList e
  rw [(C29_rust_names a).1 ha, (C29_rust_names b).1 hb] at this
  apply h
  rw [folded, folded, ← snakeCase_folded none a.toList, ← snakeCase_folded none b.toList, this]

/-- C29: names without capital letters are unchanged in Rust, and so stay distinct. -/
theorem C29_rust_small_partial {a : String} (ha : ∀ c ∈ a.toList, c ≠ '\n' ∧ ¬ Capital c) :
    (Language.rust false).rename a = a := by
  apply String.toList_inj.1
  rw [(C29_rust_names a).1 fun c hc => (ha c hc).1, snakeCase_small none _ fun c hc => (ha c hc).2]

/-- C29: what is renamed has no capital letters, so renaming again changes nothing. -/
theorem C29_rust_no_capitals (a : String) (ha : ∀ c ∈ a.toList, c ≠ '\n') :
    ∀ c ∈ ((Language.rust false).rename a).toList, ¬ Capital c := by
  rw [(C29_rust_names a).1 ha]
  exact snakeCase_no_capital _ _

/-- C29: the bytes written do not depend on the renaming. -/
theorem C29_wire_partial {data : Toml} {p : Protocol} (h : Loads data (.ok p)) {m : String} {v : Val}
    (hm : IsMessage p m v) :
    ((Language.go true).Supported p → (Language.go false).Supported p →
      bytes (((Language.go true).library p).write m false (seen (.go true) v)) =
        bytes (((Language.go false).library p).write m false (seen (.go false) v))) ∧
    ((Language.rust true).Supported p → (Language.rust false).Supported p →
      bytes (((Language.rust true).library p).write m false (seen (.rust true) v)) =
        bytes (((Language.rust false).library p).write m false (seen (.rust false) v))) := by
  obtain ⟨bs, -, hw⟩ := C10_one_wire_format_partial h hm
  exact ⟨fun h1 h2 => (hw _ h1).trans (hw _ h2).symm, fun h1 h2 => (hw _ h1).trans (hw _ h2).symm⟩

example : (Language.go false).rename "theValue" ≠ (Language.go false).rename "thevalue" :=
  C29_go_distinct_partial (by decide) (by
    intro c hc d hd
    have h1 : c = 't' := by simpa using hc.symm
    have h2 : d = 't' := by simpa using hd.symm
    rw [h1, h2])
example : (Language.rust false).rename "theValue" = "the_value" := by decide
example : (Language.rust false).rename "theValue" ≠ (Language.rust false).rename "value" :=
  C29_rust_distinct_partial (by decide) (by decide) (by decide)
example : (Language.rust false).rename "the_value" = "the_value" := C29_rust_small_partial (by decide)
example : (Language.rust true).Supported demoProtocol ∧ (Language.rust false).Supported demoProtocol :=
  ⟨demo_rust true, demo_rust false⟩
example (noRename : Bool) : (Language.go noRename).Supported wByte := by
  cases noRename <;> exact ⟨by decide, by decide, by decide, nofun, nofun⟩

/-! ### C30 -/

/-- C30, as far as it holds: if the members of every struct and message, as they are called in Rust,
are distinct, none is called `reader` or `_el`, and none before a list `x` is called `x_len`, then each
member is read as it was written.  (Lists of bytes and of booleans are excluded because code that uses
them does not compile.) -/
theorem C30_members_partial {data : Toml} {p : Protocol} (h : Loads data (.ok p)) (noRename : Bool)
    (hd : ∀ s ∈ p.structs ++ p.messages,
      (s.members.map fun m => (Language.rust noRename).rename m.name).Nodup)
    (hn : ∀ s ∈ p.structs ++ p.messages, ∀ m ∈ s.members,
      (Language.rust noRename).rename m.name ≠ "reader" ∧ (Language.rust noRename).rename m.name ≠ "_el")
    (ha : ∀ s ∈ p.structs ++ p.messages, s.members.Pairwise fun a b => b.isList = true →
      (Language.rust noRename).rename b.name ++ "_len" ≠ (Language.rust noRename).rename a.name)
    (hl : ∀ s ∈ p.structs ++ p.messages, ∀ m ∈ s.members, m.isList = true →
      m.vartype ≠ "byte" ∧ m.vartype ≠ "bool")
    {m : String} {fs : List (String × Val)} (hm : IsMessage p m (.record fs)) :
    ∃ bs gs, bytes (((Language.rust noRename).library p).write m false (seen (.rust noRename) (.record fs))) =
        .ok bs ∧
      (bs.length < 2 ^ 63 → ((Language.rust noRename).library p).read m bs 0 = .ok (.record gs, bs.length)) ∧
      List.Forall₂ (fun f g => g.1 = (Language.rust noRename).rename f.1 ∧ g.2 = seen (.rust noRename) f.2)
        fs gs := by
  have hb : bodies (p.rename (Rust.namer noRename)) = (bodies p).map (Struct.rename (Rust.namer noRename)) := by
    simp [bodies, Protocol.rename]
  have hs : (Language.rust noRename).Supported p := by
    refine ⟨?_, ?_, ?_, ?_⟩
    · intro s hs
      rw [hb] at hs
      obtain ⟨t, ht, rfl⟩ := List.mem_map.1 hs
      have := hd t ht
      rw [show (t.rename (Rust.namer noRename)).members.map (·.name) =
        t.members.map fun m => (Language.rust noRename).rename m.name from List.map_map]
      exact this
    · intro s hs m hm
      rw [hb] at hs
      obtain ⟨t, ht, rfl⟩ := List.mem_map.1 hs
      obtain ⟨v, hv, rfl⟩ := List.mem_map.1 hm
      exact hn t ht v hv
    · intro s hs
      rw [hb] at hs
      obtain ⟨t, ht, rfl⟩ := List.mem_map.1 hs
      have := ha t ht
      simp only [Struct.rename, List.pairwise_map, Variable.rename]
      exact this
    · intro s hs m hm
      rw [hb] at hs
      obtain ⟨t, ht, rfl⟩ := List.mem_map.1 hs
      obtain ⟨v, hv, rfl⟩ := List.mem_map.1 hm
      exact hl t ht v hv
  obtain ⟨bs, h1, h2⟩ := C11_round_trip_partial h _ hs hm (texts_true (fun _ => trivial) _)
  refine ⟨bs, mapNamesFields (Language.rust noRename).rename fs, h1, fun hlt => ?_, ?_⟩
  · have := h2 [] [] (by simpa [Language.limit] using hlt)
    simp only [List.nil_append, List.append_nil, List.length_nil, Nat.zero_add] at this
    exact this
  · clear h1 h2 hm
    induction fs with
    | nil => exact .nil
    | cons f fs ih => exact .cons ⟨rfl, rfl⟩ ih

example : ∃ bs gs, bytes (((Language.rust false).library wByte).write "M" false
    (seen (.rust false) (.record [("x", .int 7)]))) = .ok bs ∧
    (bs.length < 2 ^ 63 → ((Language.rust false).library wByte).read "M" bs 0 = .ok (.record gs, bs.length)) ∧
    List.Forall₂ (fun f g => g.1 = (Language.rust false).rename f.1 ∧ g.2 = seen (.rust false) f.2)
      [("x", .int 7)] gs :=
  C30_members_partial (data := description wByte) ⟨10, rfl⟩ false (by decide) (by decide)
    (by simp) (by decide)
    ((isMessage_iff (usable_of_loads (data := description wByte) ⟨10, rfl⟩)).2
      ⟨[7], encMsg_of_encode (by decide)⟩)

end Beschi.Props
