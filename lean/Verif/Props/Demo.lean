import Verif.Lang.Languages
import Verif.Wire.Typed
import Verif.Wire.Check
import Verif.Props.Format
/-
A protocol with all kinds of members that is supported in all languages, for the examples beside the
property theorems.
-/
namespace Beschi.Props
open Beschi Beschi.Spec Beschi.Lang

/-- A description. -/
def demoDoc : Toml := .table [
  ("meta", .table [("namespace", .str "Demo"), ("list_size_type", .str "uint16"),
    ("string_size_type", .str "uint16")]),
  ("structs", .arr [
    .table [("_name", .str "Point"), ("x", .str "float"), ("y", .str "float")],
    .table [("_name", .str "Shape"), ("points", .str "[Point]"), ("title", .str "string"),
      ("kind", .str "Kind"), ("tags", .str "[string]"), ("visible", .str "bool")]]),
  ("messages", .arr [
    .table [("_name", .str "Draw"), ("shape", .str "Shape"), ("layers", .str "[Shape]"),
      ("serial", .str "uint64"), ("kinds", .str "[Kind]"), ("scale", .str "double")],
    .table [("_name", .str "Clear")],
    .table [("_name", .str "Ping"), ("stamp", .str "int64"), ("how", .str "Kind")]]),
  ("enums", .arr [
    .table [("_name", .str "Kind"), ("_values", .arr [
      .table [("_name", .str "Line"), ("_value", .int (-1))],
      .table [("_name", .str "Circle"), ("_value", .int 2)],
      .table [("_name", .str "Text"), ("_value", .int 300)]])]])]

/-- What it loads to. -/
def demoProtocol : Protocol where
  ns := some (.str "Demo")
  listSize := .uint16
  stringSize := .uint16
  structs := [
    ⟨"Point", [⟨"x", "float", false⟩, ⟨"y", "float", false⟩], false⟩,
    ⟨"Shape", [⟨"points", "Point", true⟩, ⟨"title", "string", false⟩, ⟨"kind", "Kind", false⟩,
      ⟨"tags", "string", true⟩, ⟨"visible", "bool", false⟩], false⟩]
  messages := [
    ⟨"Draw", [⟨"shape", "Shape", false⟩, ⟨"layers", "Shape", true⟩, ⟨"serial", "uint64", false⟩,
      ⟨"kinds", "Kind", true⟩, ⟨"scale", "double", false⟩], true⟩,
    ⟨"Clear", [], true⟩,
    ⟨"Ping", [⟨"stamp", "int64", false⟩, ⟨"how", "Kind", false⟩], true⟩]
  enums := [⟨"Kind", [("Line", -1), ("Circle", 2), ("Text", 300)], .int16⟩]

theorem demo_loads : Loads demoDoc (.ok demoProtocol) := ⟨10, rfl⟩

theorem demo_usable : Usable demoProtocol := usable_of_loads demo_loads

/-! ### It is supported -/

theorem demo_shape_varies : Varying demoProtocol "Shape" :=
  .list (s := demoProtocol.structs[1]) (m := ⟨"points", "Point", true⟩) (by simp [demoProtocol])
    (by simp [demoProtocol]) rfl

theorem demo_c : C.Supported demoProtocol where
  file := by decide
  fields := by decide
  order := by
    intro pre s post e m hm
    rcases pre with _ | ⟨a, _ | ⟨b, pre⟩⟩
    · simp only [demoProtocol, List.nil_append, List.cons.injEq] at e
      obtain ⟨rfl, _⟩ := e
      revert m
      decide
    · simp only [demoProtocol, List.cons_append, List.nil_append, List.cons.injEq] at e
      obtain ⟨rfl, rfl, _⟩ := e
      revert m
      decide
    · simp [demoProtocol] at e
  texts := by decide
  elements := by simp [demoProtocol]

theorem demo_csharp : CSharp.Supported demoProtocol where
  distinct := by decide
  outer := by decide
  inner := by decide
  texts := by decide
  listSize := by decide

theorem demo_swift : Swift.Supported demoProtocol where
  distinct := by decide
  locals := by decide

theorem demo_shape_loops {ns : List String} (h : Loops demoProtocol demoProtocol.structs[1].members ns) :
    ns = ["points"] ∨ ns = ["tags"] := by
  have hp : ∀ {ns}, ¬ Loops demoProtocol demoProtocol.structs[0].members ns := by
    intro ns h
    cases h with
    | text hm hl ht => simp [demoProtocol] at hm; rcases hm with rfl | rfl <;> simp at hl
    | last hm hl hs ht => simp [demoProtocol] at hm; rcases hm with rfl | rfl <;> simp at hl
    | list hm hl hs ht hr => simp [demoProtocol] at hm; rcases hm with rfl | rfl <;> simp at hl
    | member hm hl hs ht hr =>
      simp only [demoProtocol, List.mem_cons, List.not_mem_nil, or_false] at hs
      simp [demoProtocol] at hm
      rcases hm with rfl | rfl <;> rcases hs with rfl | rfl <;> simp at ht
  cases h with
  | text hm hl ht => simp [demoProtocol] at hm; rcases hm with rfl | rfl | rfl | rfl | rfl <;> simp_all
  | last hm hl hs ht => simp [demoProtocol] at hm; rcases hm with rfl | rfl | rfl | rfl | rfl <;> simp_all
  | list hm hl hs ht hr =>
    simp [demoProtocol] at hm hs
    rcases hs with rfl | rfl
    · exact absurd hr hp
    · rcases hm with rfl | rfl | rfl | rfl | rfl <;> simp_all
  | member hm hl hs ht hr =>
    simp [demoProtocol] at hm hs
    rcases hs with rfl | rfl
    · exact absurd hr hp
    · rcases hm with rfl | rfl | rfl | rfl | rfl <;> simp_all

theorem demo_loops : ∀ s ∈ demoProtocol.messages, ∀ ns, Loops demoProtocol s.members ns → ns.Nodup := by
  intro s hs ns h
  simp only [demoProtocol, List.mem_cons, List.not_mem_nil, or_false] at hs
  rcases hs with rfl | rfl | rfl
  · cases h with
    | text hm hl ht => simp
    | last hm hl hs ht => simp
    | list hm hl hs ht hr =>
      simp only [demoProtocol, List.mem_cons, List.not_mem_nil, or_false] at hm hs
      rcases hm with rfl | rfl | rfl | rfl | rfl <;> rcases hs with rfl | rfl <;> simp at ht hl
      rcases demo_shape_loops hr with rfl | rfl <;> decide
    | member hm hl hs ht hr =>
      simp only [demoProtocol, List.mem_cons, List.not_mem_nil, or_false] at hm hs
      rcases hm with rfl | rfl | rfl | rfl | rfl <;> rcases hs with rfl | rfl <;> simp at ht hl
      rcases demo_shape_loops hr with rfl | rfl <;> decide
  · cases h with
    | text hm hl ht => simp
    | last hm hl hs ht => simp
    | list hm hl hs ht hr => simp at hm
    | member hm hl hs ht hr => simp at hm
  · cases h with
    | text hm hl ht => simp
    | last hm hl hs ht => simp
    | list hm hl hs ht hr => simp at hm; rcases hm with rfl | rfl <;> simp at hl
    | member hm hl hs ht hr =>
      simp only [demoProtocol, List.mem_cons, List.not_mem_nil, or_false] at hm hs
      rcases hm with rfl | rfl <;> rcases hs with rfl | rfl <;> simp at ht

theorem demo_typescript : TypeScript.Supported demoProtocol where
  distinct := by decide
  locals := by decide
  loops := demo_loops
  listSize := by decide
  stringSize := by decide
  builtin := by decide

theorem demo_assemblyscript : AssemblyScript.Supported demoProtocol where
  distinct := by decide
  locals := by decide
  loops := demo_loops
  listSize := by decide
  stringSize := by decide
  builtin := by decide
  enums := by
    intro e he
    simp only [demoProtocol, List.mem_singleton] at he
    subst he
    exact ⟨by decide, [("Line", -1), ("Circle", 2)], "Text", 300, rfl, by decide, by simp [EnumRange]⟩

theorem demo_zig : Zig.Supported demoProtocol where
  messages := by decide
  file := by decide
  union := by decide
  types := by decide
  locals := by decide
  flat := by
    intro s hs
    simp only [demoProtocol, List.mem_cons, List.not_mem_nil, or_false] at hs
    rcases hs with rfl | rfl | rfl
    · exact fun hv => absurd ⟨_, List.mem_cons_self, .inr demo_shape_varies⟩ hv
    · intro hv; simp
    · intro hv; decide
  numbers := by
    intro s hs
    simp only [demoProtocol, List.mem_cons, List.not_mem_nil, or_false] at hs
    rcases hs with rfl | rfl
    · intro _
      refine ⟨by simp, ?_⟩
      intro m hm
      simp only [List.mem_cons, List.not_mem_nil, or_false] at hm
      rcases hm with rfl | rfl <;> exact ⟨.float, rfl⟩
    · exact fun hv => absurd ⟨_, List.mem_cons_self, .inl rfl⟩ hv
  sizes := by decide
  unsigned := by decide

theorem demo_rust (noRename : Bool) : Rust.Supported (demoProtocol.rename (Rust.namer noRename)) := by
  cases noRename <;> exact ⟨by unfold NamesDistinct; decide, by decide, by decide, by decide⟩

theorem demo_go : Go.Supported (demoProtocol.rename (Go.namer false)) where
  package := by decide
  distinct := by decide
  locals := by decide
  exported := by
    intro s hs _ m hm
    have : ∀ s ∈ (demoProtocol.rename (Go.namer false)).structs, ∀ m ∈ s.members,
        (m.name.toList.head?.any fun c => 'A' ≤ c && c ≤ 'Z') = true := by decide
    have := this s hs m hm
    cases hl : m.name.toList with
    | nil => simp [hl] at this
    | cons c rest => exact ⟨c, rest, rfl, by simpa [hl] using this⟩
  elements := fun h => by cases h

/-- The demonstration protocol is supported in all languages (in Go, with members renamed). -/
theorem demo_supported {l : Language} (hl : l ≠ .go true) : l.Supported demoProtocol := by
  cases l with
  | c => exact demo_c
  | csharp _ => exact demo_csharp
  | go noRename =>
    cases noRename with
    | false => exact demo_go
    | true => exact absurd rfl hl
  | rust noRename => exact demo_rust noRename
  | swift _ => exact demo_swift
  | typescript _ => exact demo_typescript
  | assemblyscript _ => exact demo_assemblyscript
  | zig => exact demo_zig

/-! ### Messages -/

/-- A value of a struct. -/
def demoShape : Val := .record [
  ("points", .list [.record [("x", .bits 0), ("y", .bits 1065353216)],
    .record [("x", .bits 3212836864), ("y", .bits 1)]]),
  ("title", .str [72, 105]), ("kind", .int 300), ("tags", .list [.str [], .str [97]]),
  ("visible", .bool true)]

/-- A message. -/
def demoDraw : Val := .record [
  ("shape", demoShape), ("layers", .list [demoShape, demoShape]),
  ("serial", .int 18446744073709551615), ("kinds", .list [.int (-1), .int 2]),
  ("scale", .bits 4607182418800017408)]

def demoShapeBytes : List UInt8 :=
  [2, 0, 0, 0, 0, 0, 0, 0, 128, 63, 0, 0, 128, 191, 1, 0, 0, 0, 2, 0, 72, 105, 44, 1,
    2, 0, 0, 0, 1, 0, 97, 1]

/-- Its bytes. -/
def demoDrawBytes : List UInt8 :=
  demoShapeBytes ++ [2, 0] ++ demoShapeBytes ++ demoShapeBytes ++
    [255, 255, 255, 255, 255, 255, 255, 255, 2, 0, 255, 255, 2, 0, 0, 0, 0, 0, 0, 0, 240, 63]

theorem demoDraw_enc : EncMsg demoProtocol "Draw" demoDraw demoDrawBytes :=
  encMsg_of_encode (by decide)

theorem demoDraw_message : IsMessage demoProtocol "Draw" demoDraw :=
  (isMessage_iff demo_usable).2 ⟨_, demoDraw_enc⟩

/-- A message of fixed size. -/
def demoPing : Val := .record [("stamp", .int (-2)), ("how", .int 2)]

theorem demoPing_enc : EncMsg demoProtocol "Ping" demoPing
    [254, 255, 255, 255, 255, 255, 255, 255, 2, 0] :=
  encMsg_of_encode (by decide)

theorem demoPing_message : IsMessage demoProtocol "Ping" demoPing :=
  (isMessage_iff demo_usable).2 ⟨_, demoPing_enc⟩

/-- Some messages. -/
def demoMessages : List (String × Val) := [("Draw", demoDraw), ("Clear", .record []), ("Ping", demoPing)]

theorem demoMessages_messages : ∀ x ∈ demoMessages, IsMessage demoProtocol x.1 x.2 := by
  intro x hx
  simp only [demoMessages, List.mem_cons, List.not_mem_nil, or_false] at hx
  rcases hx with rfl | rfl | rfl
  · exact demoDraw_message
  · exact ⟨⟨"Clear", [], true⟩, [], by simp [demoProtocol], rfl, rfl, .nil⟩
  · exact demoPing_message

theorem demo_stream : ∃ bs, Stream demoProtocol demoMessages bs :=
  stream_exists demo_usable demoMessages_messages

theorem demo_faithful (l : Language) : ∀ x ∈ demoMessages, Texts (l.Faithful demoProtocol) x.2 := by
  have hok : ∀ s : List UInt8, s.length ≤ 2 → s.head? ≠ some 0xEF → l.Faithful demoProtocol s := by
    intro s h1 h2
    cases l <;> try trivial
    · rintro rest rfl; simp at h2
    · rintro rest rfl; simp at h2
    · simp only [Language.Faithful, Zig.Short, demoProtocol, IntRange, NumTy.size]; omega
  intro x hx
  simp only [demoMessages, List.mem_cons, List.not_mem_nil, or_false] at hx
  rcases hx with rfl | rfl | rfl
  · simp only [demoDraw, demoShape, Texts, TextsList, TextsFields, and_true, true_and]
    refine ⟨⟨?_, ?_, ?_⟩, ⟨?_, ?_, ?_⟩, ?_, ?_, ?_⟩ <;> exact hok _ (by decide) (by decide)
  · trivial
  · simp [demoPing, Texts, TextsFields]

theorem demo_measured (l : Language) : ∀ x ∈ demoMessages, Texts l.Measured x.2 := by
  have hok : ∀ s : List UInt8, (s.all (· < 0x80)) = true → l.Measured s := by
    intro s h1
    cases l <;> try trivial
    simpa [Language.Measured, Ascii] using h1
  intro x hx
  simp only [demoMessages, List.mem_cons, List.not_mem_nil, or_false] at hx
  rcases hx with rfl | rfl | rfl
  · simp only [demoDraw, demoShape, Texts, TextsList, TextsFields, and_true, true_and]
    refine ⟨⟨?_, ?_, ?_⟩, ⟨?_, ?_, ?_⟩, ?_, ?_, ?_⟩ <;> exact hok _ (by decide)
  · trivial
  · simp [demoPing, Texts, TextsFields]

end Beschi.Props
