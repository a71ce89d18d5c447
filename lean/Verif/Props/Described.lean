import Verif.Protocol.Describe
import Verif.Props.Loader
/-
Property theorems about what is loaded from a description: C39, and C01 for namespaces.
-/
namespace Beschi.Props
open Beschi Beschi.Spec

/-! ### C01, namespaces -/

/-- C01: the namespace of an accepted protocol, if it is text, has no whitespace. -/
theorem C01_namespace {data : Toml} {p : Protocol} (h : Loads data (.ok p)) : GoodNamespace p := by
  obtain ⟨_, _, _, h⟩ := loadPhase1_describes (loads_ok_iff.1 h).1
  exact h

example : GoodNamespace sampleProtocol := C01_namespace sample_loads

/-! ### C39 -/

/-- C39: what is loaded is what the description says: its namespace, its size types or `uint32`, its
structs and messages with all their members in order, its enums with their names and numbers. -/
theorem C39_described {data : Toml} {p : Protocol} (h : Loads data (.ok p)) :
    ∃ kvs, data = .table kvs ∧ Described kvs p := by
  obtain ⟨kvs, rfl, hd, _⟩ := loadPhase1_describes (loads_ok_iff.1 h).1
  exact ⟨kvs, rfl, hd⟩

example : ∃ kvs, sampleDoc = .table kvs ∧ Described kvs sampleProtocol := C39_described sample_loads

/-- C39: for descriptions of the documented shape, a protocol is loaded exactly if the description
describes it, it is well formed and acyclic, its namespace has no whitespace and its enums have the
narrowest encodings. -/
theorem C39_accepted_iff {kvs : List (String × Toml)} {p : Protocol} (hs : Shaped kvs) :
    Loads (.table kvs) (.ok p) ↔
      Described kvs p ∧ WellFormed p ∧ Acyclic p ∧ GoodNamespace p ∧ ∀ e ∈ p.enums, Narrowest e := by
  constructor
  · intro h
    obtain ⟨_, e, hd⟩ := C39_described h
    cases e
    exact ⟨hd, C01_accepted_wellFormed h, C03_accepted_acyclic h, C01_namespace h,
      fun e he => C05_narrowest h he⟩
  · rintro ⟨hd, hw, ha, hg, he⟩
    exact loads_ok_iff.2 ⟨loadPhase1_of_describes hs hd hw hg he, checkAll_of_acyclic hw ha⟩

/-- A description with everything left out that can be, and one member hidden by its underscore. -/
def bareDoc : List (String × Toml) :=
  [("messages", .arr [.table [("_name", .str "Ping"), ("_note", .int 3), ("at", .str "[double]")]])]

example : Shaped bareDoc where
  sections := by
    intro key hk
    simp only [List.mem_cons, List.not_mem_nil, or_false] at hk
    rcases hk with rfl | rfl | rfl
    · exact .inl rfl
    · exact .inr ⟨_, rfl⟩
    · exact .inl rfl
  info := .inl rfl
  ns := .inl rfl
  once := by decide

example : Loads (.table bareDoc) (.ok
    { messages := [⟨"Ping", [⟨"at", "double", true⟩], true⟩] }) := ⟨3, rfl⟩

end Beschi.Props
