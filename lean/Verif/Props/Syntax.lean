import Verif.Text.RustLink
import Verif.Text.SwiftLink
import Verif.Text.GoLink
import Verif.Text.TypeScriptLink
import Verif.Text.CSharpLink
import Verif.Text.CLink
import Verif.Text.ZigLink
import Verif.Props.Generated
/-
The generated text is the concrete syntax of the functions whose meaning the other properties are about
(C40).
-/
namespace Beschi.Props
open Beschi Beschi.Spec Beschi.Text Beschi.Lang

/-! ### C40: the text says what the model of each language says

The full statement: for every accepted protocol, every language and all options, the generated text
contains, for each enum, struct and message, the text of the modelled reading, writing and size functions
(Verif/Syntax), the text of the modelled choice of a message by its number, and the text of the library
functions these rely on (Verif/Syntax/*Library).

Missing in the theorems: protocols whose namespace is an array or a table, see C38; in TypeScript,
AssemblyScript, C# and C, member names with square brackets; in the library of C, namespaces that are not
names or have `BESCHI` in them.  Not part of the statement: that
a compiler gives this text the meaning that the model gives to the functions. -/

/-- What has been put is in the text. -/
theorem shows_of_puts {t : Target} {o : Options} {p : Protocol} {w : Writer} {rs : List Row} {out : Out} {k : Nat}
    (hw : t.writer o p = .ok w) (h : t.outcome o p = .ok out) (hp : Puts w.tab (t.emit w) 0 (inside k rs)) :
    Shows w.tab out.lines k rs := by
  unfold Target.outcome at h
  rw [hw] at h
  cases he : t.emit w ⟨0, []⟩ with
  | error e => simp [he] at h
  | ok r =>
    obtain ⟨v, out'⟩ := r
    simp only [he] at h
    cases h
    exact hp _ _ _ rfl he

/-- The protocol as it is after renaming, for Rust. -/
abbrev rustNames (o : Options) (p : Protocol) : Protocol := p.rename (Rust.namer o.rustNoRename)

theorem rust_table {p : Protocol} (hu : Usable p) (i e b) : Table (Rust.writer p i e b) Lang.Rust.native "String" where
  usable := hu
  num n := by cases n <;> rfl
  str := by show List.lookup "string" (Text.Rust.mapping ++ _ ++ _ ++ _) = _; rfl
  own t h1 h2 := own_of (d := Text.Rust.mapping) (by decide) h1 h2

/-- Rust: the functions of each struct and message. -/
theorem C40_rust_partial {data : Toml} {p : Protocol} (h : Loads data (.ok p)) (hns : TextualNamespace p) (o : Options) :
    ∃ out, Target.rust.outcome o p = .ok out ∧
      ∀ s ∈ (rustNames o p).structs ++ (rustNames o p).messages,
        ∃ sz, measureFun Rust.style (rustNames o p) s "self" 0 = some sz ∧
          Shows (o.indent.getD "    ") out.lines 0 (Syntax.Rust.declaration (rustNames o p) s ++ flush [""] ++
            Syntax.Rust.functions (rustNames o p) (Syntax.Rust.errorName p)
              (if s.isMessage then (Rust.core (rustNames o p)).ident s.name else none) s sz) := by
  obtain ⟨out, ho, _⟩ := C38_level_partial h hns .rust o
  have hu := usable_of_loads h
  refine ⟨out, ho, fun s hs => ?_⟩
  obtain ⟨sz, hz, _⟩ := Text.Rust.Link.genStruct_emits (rust_table (hu.rename _) o.indent o.embed (Target.boilerplate .rust)) hs 0
  exact ⟨sz, hz, shows_of_puts rfl ho (Text.Rust.Link.generate_puts (rust_table (hu.rename _) _ _ _)
    (.inr (.inl ⟨s, hs, sz, hz, rfl⟩)))⟩

example : ∃ out, Target.rust.outcome { indent := some "\t" } demoProtocol = .ok out ∧
    ∀ s ∈ (rustNames {} demoProtocol).structs ++ (rustNames {} demoProtocol).messages,
      ∃ sz, measureFun Rust.style (rustNames {} demoProtocol) s "self" 0 = some sz ∧
        Shows "\t" out.lines 0 (Syntax.Rust.declaration (rustNames {} demoProtocol) s ++ flush [""] ++
          Syntax.Rust.functions (rustNames {} demoProtocol) "DemoError"
            (if s.isMessage then (Rust.core (rustNames {} demoProtocol)).ident s.name else none) s sz) :=
  C40_rust_partial demo_loads (.inr ⟨"Demo", rfl⟩) { indent := some "\t" }

/-- For example, the text of the function that reads a `Ping`. -/
example : (Syntax.Rust.reader "DemoError" "Ping" (Rust.fromBytes demoProtocol demoProtocol.messages[2])).map (Row.shown "  ") = [
    "fn from_bytes(reader: &mut BufferReader) -> Result<Ping, DemoError> {",
    "  let stamp = reader.read_i64()?;",
    "  let how = reader.read_i16()?;",
    "  let how = Kind::try_from(how)?;",
    "  Ok(Ping {stamp, how})",
    "}"] := by with_unfolding_all rfl

/-- Rust: the enums, and the choice of a message by its number. -/
theorem C40_rust_choice_partial {data : Toml} {p : Protocol} (h : Loads data (.ok p)) (hns : TextualNamespace p)
    (o : Options) : ∃ out, Target.rust.outcome o p = .ok out ∧
      (∀ e ∈ p.enums, Shows (o.indent.getD "    ") out.lines 0 (Syntax.Rust.enum (Syntax.Rust.errorName p) e)) ∧
      Shows (o.indent.getD "    ") out.lines 1 (Syntax.Rust.dispatch (Syntax.Rust.errorName p) (messageArms p 1)) := by
  obtain ⟨out, ho, _⟩ := C38_level_partial h hns .rust o
  have hu := usable_of_loads h
  have hm : messageArms (rustNames o p) 1 = messageArms p 1 := by
    simp [messageArms, Protocol.rename, List.zipIdx_map, Struct.rename]
  have T := rust_table (hu.rename (Rust.namer o.rustNoRename)) o.indent o.embed (Target.boilerplate .rust)
  refine ⟨out, ho, fun e he => shows_of_puts rfl ho (Text.Rust.Link.generate_puts T (.inl ⟨e, he, rfl⟩)), ?_⟩
  have : Shows (o.indent.getD "    ") out.lines 0
      (inside 1 (Syntax.Rust.dispatch (Syntax.Rust.errorName p) (messageArms (rustNames o p) 1))) :=
    shows_of_puts rfl ho (Text.Rust.Link.generate_puts T (.inr (.inr rfl)))
  rw [hm] at this
  unfold Shows at this ⊢
  rw [inside_inside] at this
  exact this

example : ∃ out, Target.rust.outcome {} demoProtocol = .ok out ∧
    (∀ e ∈ demoProtocol.enums, Shows "    " out.lines 0 (Syntax.Rust.enum "DemoError" e)) ∧
    Shows "    " out.lines 1 (Syntax.Rust.dispatch "DemoError" [(1, "Draw"), (2, "Clear"), (3, "Ping")]) :=
  C40_rust_choice_partial demo_loads (.inr ⟨"Demo", rfl⟩) {}

/-- Rust: the functions of the library.  Each number is made from as many bytes as its type has, and lengths of
strings have the type the protocol says. -/
theorem C40_rust_library_partial {data : Toml} {p : Protocol} (h : Loads data (.ok p)) (hns : TextualNamespace p)
    (o : Options) : ∃ out, Target.rust.outcome o p = .ok out ∧
      Shows (o.indent.getD "    ") out.lines 0 (Syntax.Rust.errors (Syntax.Rust.errorName p)) ∧
      Shows (o.indent.getD "    ") out.lines 1 Syntax.Rust.isFinished ∧
      Shows (o.indent.getD "    ") out.lines 1 Syntax.Rust.hasRemaining ∧
      Shows (o.indent.getD "    ") out.lines 1 (Syntax.Rust.takeByte (Syntax.Rust.errorName p)) ∧
      Shows (o.indent.getD "    ") out.lines 1 (Syntax.Rust.take (Syntax.Rust.errorName p)) ∧
      Shows (o.indent.getD "    ") out.lines 1 (Syntax.Rust.readByte (Syntax.Rust.errorName p)) ∧
      (∀ n : NumTy, n ≠ .byte → n ≠ .bool →
        Shows (o.indent.getD "    ") out.lines 1 (Syntax.Rust.readNumber (Syntax.Rust.errorName p) n)) ∧
      Shows (o.indent.getD "    ") out.lines 1
        (Syntax.Rust.readString (Syntax.Rust.errorName p) (Lang.Rust.native p.stringSize)) ∧
      Shows (o.indent.getD "    ") out.lines 0 Syntax.Rust.packedSize ∧
      Shows (o.indent.getD "    ") out.lines 0 Syntax.Rust.pack ∧
      Shows (o.indent.getD "    ") out.lines 0 (Syntax.Rust.unpack (Syntax.Rust.errorName p)) := by
  obtain ⟨out, ho, _⟩ := C38_level_partial h hns .rust o
  have T := rust_table ((usable_of_loads h).rename (Rust.namer o.rustNoRename)) o.indent o.embed (Target.boilerplate .rust)
  have k : ∀ rs, Text.Rust.Link.Library (rustNames o p) (Syntax.Rust.errorName p) rs →
      Shows (o.indent.getD "    ") out.lines 0 rs := fun rs h =>
    shows_of_puts (t := .rust) (w := Text.Rust.writer (rustNames o p) o.indent o.embed (Target.boilerplate .rust)) (k := 0)
      rfl ho ((Text.inside_zero rs).symm ▸ Text.Rust.Link.generate_library T rfl rfl h)
  have k1 : ∀ rs, Text.Rust.Link.Library (rustNames o p) (Syntax.Rust.errorName p) (inside 1 rs) →
      Shows (o.indent.getD "    ") out.lines 1 rs := fun rs h => by
    have := k _ h
    unfold Shows at this ⊢
    rwa [inside_inside] at this
  exact ⟨out, ho, k _ .errors, k1 _ .isFinished, k1 _ .hasRemaining, k1 _ .takeByte, k1 _ .take, k1 _ .readByte,
    fun n h1 h2 => k1 _ (.readNumber h1 h2), k1 _ .readString, k _ .packedSize, k _ .pack, k _ .unpack⟩

example : ∃ out, Target.rust.outcome {} demoProtocol = .ok out ∧
    Shows "    " out.lines 1 (Syntax.Rust.readNumber "DemoError" .int32) ∧
    Shows "    " out.lines 1 (Syntax.Rust.readString "DemoError" "u16") := by
  obtain ⟨out, ho, _, _, _, _, _, _, hn, hs, _⟩ := C40_rust_library_partial demo_loads (.inr ⟨"Demo", rfl⟩) {}
  exact ⟨out, ho, hn .int32 (by decide) (by decide), hs⟩

/-- For example, the text of the function that reads 32 bits. -/
example : (Syntax.Rust.readNumber "DemoError" .int32).map (Row.shown "  ") = [
    "pub fn read_i32(&mut self) -> Result<i32, DemoError> {",
    "  let bytes = self.take(4)?;",
    "  Ok(i32::from_le_bytes(bytes.try_into().unwrap()))",
    "}"] := by decide +kernel

/-- How deep in the text the types are: in Swift the namespace is written as an enclosing type. -/
def swiftDepth (p : Protocol) : Nat := if p.ns.isSome then 1 else 0

theorem swift_table {p : Protocol} (hu : Usable p) (i e b) : Table (Text.Swift.writer p i e b) Lang.Swift.native "String" where
  usable := hu
  num n := by cases n <;> rfl
  str := by show List.lookup "string" (Text.Swift.mapping ++ _ ++ _ ++ _) = _; rfl
  own t h1 h2 := own_of (d := Text.Swift.mapping) (by decide) h1 h2

theorem swift_shows {p : Protocol} (hu : Usable p) (hns : TextualNamespace p) {o : Options} {out : Out} {rs : List Row}
    (ho : Target.swift.outcome o p = .ok out) (h : Text.Swift.Link.Contained p rs) :
    Shows (o.indent.getD "    ") out.lines (swiftDepth p) rs := by
  have T := swift_table hu o.indent o.embed (Target.boilerplate .swift)
  rcases hns with hn | ⟨n, hn⟩
  · have := Text.Swift.Link.generate_puts_none T rfl hn h
    simp only [swiftDepth, hn, Option.isSome_none, Bool.false_eq_true, if_false]
    exact shows_of_puts (t := .swift) (w := Text.Swift.writer p o.indent o.embed (Target.boilerplate .swift)) (k := 0) rfl ho this
  · have := Text.Swift.Link.generate_puts_some T rfl hn h
    simp only [swiftDepth, hn, Option.isSome_some, if_true]
    exact shows_of_puts (t := .swift) (w := Text.Swift.writer p o.indent o.embed (Target.boilerplate .swift)) (k := 1) rfl ho this

/-- Swift: each struct and message. -/
theorem C40_swift_partial {data : Toml} {p : Protocol} (h : Loads data (.ok p)) (hns : TextualNamespace p) (o : Options) :
    ∃ out, Target.swift.outcome o p = .ok out ∧
      ∀ s ∈ p.structs ++ p.messages, ∃ sz, measureFun Lang.Swift.style p s "self" 0 = some sz ∧
        Shows (o.indent.getD "    ") out.lines (swiftDepth p) (Syntax.Swift.type p s sz) := by
  obtain ⟨out, ho, _⟩ := C38_level_partial h hns .swift o
  have hu := usable_of_loads h
  refine ⟨out, ho, fun s hs => ?_⟩
  obtain ⟨sz, hz, _⟩ := Text.Swift.Link.genStruct_emits (swift_table hu o.indent o.embed (Target.boilerplate .swift)) rfl hs 0
  exact ⟨sz, hz, swift_shows hu hns ho (.inr (.inl ⟨s, hs, sz, hz, rfl⟩))⟩

example : ∃ out, Target.swift.outcome {} demoProtocol = .ok out ∧
    ∀ s ∈ demoProtocol.structs ++ demoProtocol.messages,
      ∃ sz, measureFun Lang.Swift.style demoProtocol s "self" 0 = some sz ∧
        Shows "    " out.lines 1 (Syntax.Swift.type demoProtocol s sz) :=
  C40_swift_partial demo_loads (.inr ⟨"Demo", rfl⟩) {}

/-- For example, the text of the function that reads a `Ping`. -/
example : (Syntax.Swift.reader true "Ping" (Lang.Swift.fromBytes demoProtocol demoProtocol.messages[2])).map (Row.shown "  ") = [
    "override class func FromBytes(dataReader: DataReader) throws -> Self {",
    "  let nPing = Self.init()",
    "  nPing.stamp = try dataReader.GetInt64()",
    "  let _howRead = try dataReader.GetInt16()",
    "  guard let _how = Kind(rawValue: _howRead) else {",
    "    throw DataReaderError.InvalidData",
    "  }",
    "  nPing.how = _how",
    "  return nPing",
    "}"] := by with_unfolding_all rfl

/-- Swift: the enums, the numbers of the messages, and the reading of tagged messages. -/
theorem C40_swift_choice_partial {data : Toml} {p : Protocol} (h : Loads data (.ok p)) (hns : TextualNamespace p)
    (o : Options) : ∃ out, Target.swift.outcome o p = .ok out ∧
      (∀ e ∈ p.enums, Shows (o.indent.getD "    ") out.lines (swiftDepth p) (Syntax.Swift.enum e)) ∧
      Shows (o.indent.getD "    ") out.lines (swiftDepth p) (Syntax.Swift.messageTypes (messageArms p 1)) ∧
      Shows (o.indent.getD "    ") out.lines (swiftDepth p)
        (Syntax.Swift.process (Syntax.namespaceOf p) (messageArms p 1)) := by
  obtain ⟨out, ho, _⟩ := C38_level_partial h hns .swift o
  have hu := usable_of_loads h
  exact ⟨out, ho, fun e he => swift_shows hu hns ho (.inl ⟨e, he, rfl⟩),
    swift_shows hu hns ho (.inr (.inr (.inl rfl))), swift_shows hu hns ho (.inr (.inr (.inr rfl)))⟩

example : ∃ out, Target.swift.outcome {} demoProtocol = .ok out ∧
    (∀ e ∈ demoProtocol.enums, Shows "    " out.lines 1 (Syntax.Swift.enum e)) ∧
    Shows "    " out.lines 1 (Syntax.Swift.messageTypes [(1, "Draw"), (2, "Clear"), (3, "Ping")]) ∧
    Shows "    " out.lines 1 (Syntax.Swift.process (some "Demo") [(1, "Draw"), (2, "Clear"), (3, "Ping")]) :=
  C40_swift_choice_partial demo_loads (.inr ⟨"Demo", rfl⟩) {}

/-- The type of the bits of a floating-point number. -/
def bitsOf : NumTy → NumTy
  | .float => .uint32
  | _ => .uint64

/-- Swift: the functions of the library.  Each number is made from as many bytes as its type has, and lengths of
strings have the type the protocol says. -/
theorem C40_swift_library_partial {data : Toml} {p : Protocol} (h : Loads data (.ok p)) (hns : TextualNamespace p)
    (o : Options) : ∃ out, Target.swift.outcome o p = .ok out ∧
      Shows (o.indent.getD "    ") out.lines (swiftDepth p) Syntax.Swift.errors ∧
      Shows (o.indent.getD "    ") out.lines (swiftDepth p + 1) Syntax.Swift.isFinished ∧
      Shows (o.indent.getD "    ") out.lines (swiftDepth p + 1) Syntax.Swift.readBool ∧
      Shows (o.indent.getD "    ") out.lines (swiftDepth p + 1) Syntax.Swift.writeBool ∧
      (∀ n : NumTy, n ≠ .bool → n ≠ .float → n ≠ .double →
        Shows (o.indent.getD "    ") out.lines (swiftDepth p + 1) (Syntax.Swift.readNumber n) ∧
        Shows (o.indent.getD "    ") out.lines (swiftDepth p + 1) (Syntax.Swift.writeNumber n)) ∧
      (∀ n : NumTy, n = .float ∨ n = .double →
        Shows (o.indent.getD "    ") out.lines (swiftDepth p + 1) (Syntax.Swift.readFloat n (bitsOf n)) ∧
        Shows (o.indent.getD "    ") out.lines (swiftDepth p + 1) (Syntax.Swift.writeFloat n (bitsOf n))) ∧
      Shows (o.indent.getD "    ") out.lines (swiftDepth p + 1) (Syntax.Swift.readString (Lang.Swift.native p.stringSize)) ∧
      Shows (o.indent.getD "    ") out.lines (swiftDepth p + 1)
        (Syntax.Swift.writeString (Lang.Swift.label p.stringSize) (Lang.Swift.native p.stringSize)) ∧
      Shows (o.indent.getD "    ") out.lines (swiftDepth p + 1) Syntax.Swift.unpack ∧
      Shows (o.indent.getD "    ") out.lines 1 Syntax.Swift.packedSize ∧
      Shows (o.indent.getD "    ") out.lines 1 (Syntax.Swift.pack (match Syntax.namespaceOf p with
        | none => ""
        | some n => n ++ ".")) := by
  obtain ⟨out, ho, _⟩ := C38_level_partial h hns .swift o
  have T := swift_table (usable_of_loads h) o.indent o.embed (Target.boilerplate .swift)
  have k : ∀ rs, Text.Swift.Link.Library p rs → Shows (o.indent.getD "    ") out.lines (swiftDepth p) rs := fun rs h => by
    rcases hns with hn | ⟨n, hn⟩
    · simp only [swiftDepth, hn, Option.isSome_none, Bool.false_eq_true, if_false]
      exact shows_of_puts (t := .swift) (w := Text.Swift.writer p o.indent o.embed (Target.boilerplate .swift)) (k := 0) rfl ho
        (Text.Swift.Link.generate_library_none T rfl rfl rfl hn h)
    · simp only [swiftDepth, hn, Option.isSome_some, if_true]
      exact shows_of_puts (t := .swift) (w := Text.Swift.writer p o.indent o.embed (Target.boilerplate .swift)) (k := 1) rfl ho
        (Text.Swift.Link.generate_library_some T rfl rfl rfl hn h)
  have k1 : ∀ rs, Text.Swift.Link.Library p (inside 1 rs) →
      Shows (o.indent.getD "    ") out.lines (swiftDepth p + 1) rs := fun rs h => by
    have := k _ h
    unfold Shows at this ⊢
    rwa [inside_inside, Nat.add_comm] at this
  have k2 : ∀ rs, Text.Swift.Link.Packing (match Syntax.namespaceOf p with
        | none => ""
        | some n => n ++ ".") (inside 1 rs) → Shows (o.indent.getD "    ") out.lines 1 rs := fun rs h => by
    have : Puts (o.indent.getD "    ") (Text.Swift.generate (Text.Swift.writer p o.indent o.embed (Target.boilerplate .swift)))
        0 (inside 1 rs) := by
      rcases hns with hn | ⟨n, hn⟩
      · rw [show Syntax.namespaceOf p = none from by simp [Syntax.namespaceOf, hn]] at h
        exact Text.Swift.Link.generate_packing_none T rfl rfl rfl hn h
      · rw [show Syntax.namespaceOf p = some n from by simp [Syntax.namespaceOf, hn]] at h
        exact Text.Swift.Link.generate_packing_some T rfl rfl rfl hn h
    exact shows_of_puts (t := .swift) (w := Text.Swift.writer p o.indent o.embed (Target.boilerplate .swift)) (k := 1) rfl ho this
  refine ⟨out, ho, k _ .errors, k1 _ .isFinished, k1 _ .readBool, k1 _ .writeBool, fun n h1 h2 h3 => ?_, fun n h => ?_, k1 _ .readString,
    k1 _ .writeString, k1 _ .unpack, k2 _ .packedSize, k2 _ .pack⟩
  · cases n
    case bool => exact absurd rfl h1
    case float => exact absurd rfl h2
    case double => exact absurd rfl h3
    case byte => exact ⟨k1 _ .readNumber_byte, k1 _ .writeNumber_byte⟩
    case int16 => exact ⟨k1 _ .readNumber_int16, k1 _ .writeNumber_int16⟩
    case uint16 => exact ⟨k1 _ .readNumber_uint16, k1 _ .writeNumber_uint16⟩
    case int32 => exact ⟨k1 _ .readNumber_int32, k1 _ .writeNumber_int32⟩
    case uint32 => exact ⟨k1 _ .readNumber_uint32, k1 _ .writeNumber_uint32⟩
    case int64 => exact ⟨k1 _ .readNumber_int64, k1 _ .writeNumber_int64⟩
    case uint64 => exact ⟨k1 _ .readNumber_uint64, k1 _ .writeNumber_uint64⟩
  · rcases h with rfl | rfl
    · exact ⟨k1 _ .readFloat_float, k1 _ .writeFloat_float⟩
    · exact ⟨k1 _ .readFloat_double, k1 _ .writeFloat_double⟩

example : ∃ out, Target.swift.outcome {} demoProtocol = .ok out ∧
    Shows "    " out.lines 2 (Syntax.Swift.readNumber .int32) ∧
    Shows "    " out.lines 2 (Syntax.Swift.readString "UInt16") ∧
    Shows "    " out.lines 1 (Syntax.Swift.pack "Demo.") := by
  obtain ⟨out, ho, _, _, _, _, hn, _, hs, _, _, _, hp⟩ := C40_swift_library_partial demo_loads (.inr ⟨"Demo", rfl⟩) {}
  exact ⟨out, ho, (hn .int32 (by decide) (by decide) (by decide)).1, hs, hp⟩

/-- The protocol as it is after renaming, for Go. -/
abbrev goNames (o : Options) (p : Protocol) : Protocol := p.rename (Go.namer o.goNoRename)

theorem go_table {p : Protocol} (hu : Usable p) (r i e b) : Table (Text.Go.writer p r i e b) Lang.Go.native "string" where
  usable := hu
  num n := by cases n <;> rfl
  str := lookup_string rfl
  own t h1 h2 := own_of (d := Text.Go.mapping) (by decide) h1 h2

theorem go_shows {p : Protocol} {o : Options} {out : Out} {rs : List Row} (ho : Target.go.outcome o p = .ok out)
    (h : Puts (o.indent.getD "\t") (Text.Go.generate (Text.Go.writer (goNames o p) (!o.goNoRename) o.indent o.embed
      (Target.boilerplate .go))) 0 rs) : Shows (o.indent.getD "\t") out.lines 0 rs :=
  shows_of_puts (t := .go) (w := Text.Go.writer (goNames o p) (!o.goNoRename) o.indent o.embed (Target.boilerplate .go))
    (k := 0) rfl ho ((Text.inside_zero rs).symm ▸ h)

/-- Go: each struct and message. -/
theorem C40_go_partial {data : Toml} {p : Protocol} (h : Loads data (.ok p)) (hns : TextualNamespace p) (o : Options) :
    ∃ out, Target.go.outcome o p = .ok out ∧
      ∀ s ∈ (goNames o p).structs ++ (goNames o p).messages,
        ∃ sz, measureFun Lang.Go.style (goNames o p) s "output" 0 = some sz ∧
          Shows (o.indent.getD "\t") out.lines 0 (Syntax.Go.type (goNames o p) s sz) := by
  obtain ⟨out, ho, _⟩ := C38_level_partial h hns .go o
  have T := go_table ((usable_of_loads h).rename (Go.namer o.goNoRename)) (!o.goNoRename) o.indent o.embed (Target.boilerplate .go)
  refine ⟨out, ho, fun s hs => ?_⟩
  obtain ⟨sz, hz, _⟩ := Text.Go.Link.genStruct_emits T hs
  exact ⟨sz, hz, go_shows ho (Text.Go.Link.generate_puts T (.inr (.inl ⟨s, hs, sz, hz, rfl⟩)))⟩

example : ∃ out, Target.go.outcome { goNoRename := true } demoProtocol = .ok out ∧
    ∀ s ∈ (goNames { goNoRename := true } demoProtocol).structs ++ (goNames { goNoRename := true } demoProtocol).messages,
      ∃ sz, measureFun Lang.Go.style (goNames { goNoRename := true } demoProtocol) s "output" 0 = some sz ∧
        Shows "\t" out.lines 0 (Syntax.Go.type (goNames { goNoRename := true } demoProtocol) s sz) :=
  C40_go_partial demo_loads (.inr ⟨"Demo", rfl⟩) { goNoRename := true }

/-- For example, the text of the function that reads a `Ping`. -/
example : (Syntax.Go.reader (goNames {} demoProtocol) (goNames {} demoProtocol).messages[2]).map (Row.shown "  ") = [
    "func PingFromBytes(data io.Reader) (*Ping, error) {",
    "  msg := &Ping{}",
    "",
    "  if err := binary.Read(data, binary.LittleEndian, &msg.Stamp); err != nil {",
    "    return nil, fmt.Errorf(\"could not read msg.Stamp at offset %d (%w)\", getDataOffset(data), err)",
    "  }",
    "  var _How Kind",
    "  if err := binary.Read(data, binary.LittleEndian, &_How); err != nil {",
    "    return nil, fmt.Errorf(\"could not read msg.How at offset %d (%w)\", getDataOffset(data), err)",
    "  }",
    "  if !isValidKind(_How) {",
    "    return nil, fmt.Errorf(\"enum %d out of range for Kind\", _How)",
    "  }",
    "  msg.How = _How",
    "",
    "  return msg, nil",
    "}"] := by with_unfolding_all rfl

/-- Go: the enums, the numbers of the messages, and the reading of tagged messages. -/
theorem C40_go_choice_partial {data : Toml} {p : Protocol} (h : Loads data (.ok p)) (hns : TextualNamespace p)
    (o : Options) : ∃ out, Target.go.outcome o p = .ok out ∧
      (∀ e ∈ p.enums, Shows (o.indent.getD "\t") out.lines 0 (Syntax.Go.enum e)) ∧
      Shows (o.indent.getD "\t") out.lines 0 (Syntax.Go.messageTypes (messageArms p 1)) ∧
      Shows (o.indent.getD "\t") out.lines 0 (Syntax.Go.process (messageArms p 1)) := by
  obtain ⟨out, ho, _⟩ := C38_level_partial h hns .go o
  have T := go_table ((usable_of_loads h).rename (Go.namer o.goNoRename)) (!o.goNoRename) o.indent o.embed (Target.boilerplate .go)
  have hm : messageArms (goNames o p) 1 = messageArms p 1 := by
    simp [messageArms, Protocol.rename, List.zipIdx_map, Struct.rename]
  rw [← hm]
  exact ⟨out, ho, fun e he => go_shows ho (Text.Go.Link.generate_puts T (.inl ⟨e, he, rfl⟩)),
    go_shows ho (Text.Go.Link.generate_puts T (.inr (.inr (.inl rfl)))),
    go_shows ho (Text.Go.Link.generate_puts T (.inr (.inr (.inr rfl))))⟩

example : ∃ out, Target.go.outcome {} demoProtocol = .ok out ∧
    (∀ e ∈ demoProtocol.enums, Shows "\t" out.lines 0 (Syntax.Go.enum e)) ∧
    Shows "\t" out.lines 0 (Syntax.Go.messageTypes [(1, "Draw"), (2, "Clear"), (3, "Ping")]) ∧
    Shows "\t" out.lines 0 (Syntax.Go.process [(1, "Draw"), (2, "Clear"), (3, "Ping")]) :=
  C40_go_choice_partial demo_loads (.inr ⟨"Demo", rfl⟩) {}

/-- Go: the functions of the library.  Lengths of strings have the type the protocol says. -/
theorem C40_go_library_partial {data : Toml} {p : Protocol} (h : Loads data (.ok p)) (hns : TextualNamespace p)
    (o : Options) : ∃ out, Target.go.outcome o p = .ok out ∧
      Shows (o.indent.getD "\t") out.lines 0 (Syntax.Go.readString (Lang.Go.native p.stringSize)) ∧
      Shows (o.indent.getD "\t") out.lines 0 (Syntax.Go.writeString (Lang.Go.native p.stringSize)) ∧
      Shows (o.indent.getD "\t") out.lines 0 Syntax.Go.packedSize ∧
      Shows (o.indent.getD "\t") out.lines 0 Syntax.Go.pack ∧
      Shows (o.indent.getD "\t") out.lines 0 Syntax.Go.unpack := by
  obtain ⟨out, ho, _⟩ := C38_level_partial h hns .go o
  have T := go_table ((usable_of_loads h).rename (Go.namer o.goNoRename)) (!o.goNoRename) o.indent o.embed (Target.boilerplate .go)
  have k : ∀ rs, Text.Go.Link.Library (goNames o p) rs → Shows (o.indent.getD "\t") out.lines 0 rs :=
    fun rs h => go_shows ho (Text.Go.Link.generate_library T rfl rfl h)
  exact ⟨out, ho, k _ (.inl rfl), k _ (.inr (.inl rfl)), k _ (.inr (.inr (.inl rfl))), k _ (.inr (.inr (.inr (.inl rfl)))),
    k _ (.inr (.inr (.inr (.inr rfl))))⟩

example : ∃ out, Target.go.outcome {} demoProtocol = .ok out ∧
    Shows "\t" out.lines 0 (Syntax.Go.readString "uint16") ∧ Shows "\t" out.lines 0 (Syntax.Go.writeString "uint16") ∧
    Shows "\t" out.lines 0 Syntax.Go.packedSize ∧ Shows "\t" out.lines 0 Syntax.Go.pack ∧
    Shows "\t" out.lines 0 Syntax.Go.unpack :=
  C40_go_library_partial demo_loads (.inr ⟨"Demo", rfl⟩) {}

/-- No member has a square bracket in its name; such a name is none in any of the languages. -/
def NoSquares (p : Protocol) : Prop :=
  ∀ s ∈ p.structs ++ p.messages, ∀ m ∈ s.members, ∀ c ∈ m.name.toList, c ≠ '[' ∧ c ≠ ']'

theorem typescript_table {p : Protocol} (hu : Usable p) (n i e b) :
    Table (Text.TypeScript.writer p n i e b) (fun n => Syntax.TypeScript.typeOf false n.name) "string" where
  usable := hu
  num n := by cases n <;> rfl
  str := lookup_string rfl
  own t h1 h2 := own_of (d := Text.TypeScript.mapping) (by decide) h1 h2

theorem assemblyscript_table {p : Protocol} (hu : Usable p) (i e b) :
    Table (Text.AssemblyScript.writer p i e b) (fun n => Syntax.TypeScript.typeOf true n.name) "string" where
  usable := hu
  num n := by cases n <;> rfl
  str := rfl
  own t h1 h2 := own_of (d := Text.AssemblyScript.mapping) (by decide) h1 h2

theorem nsText_of_textual {w : Writer} (h : TextualNamespace w.p) : ∃ n, w.nsText = .ok n := by
  rcases h with h | ⟨n, h⟩
  · exact ⟨"None", by simp [Writer.nsText, h]⟩
  · exact ⟨n, by simp [Writer.nsText, h]⟩

/-- How far inside everything is in TypeScript. -/
abbrev typescriptDepth (o : Options) : Nat := if o.typescriptUseNamespace then 1 else 0

theorem typescript_shows {data : Toml} {p : Protocol} (h : Loads data (.ok p)) (hns : TextualNamespace p) (hq : NoSquares p)
    {o : Options} {out : Out} (ho : Target.typescript.outcome o p = .ok out) {rs : List Row}
    (hr : Text.TypeScript.Link.Contained false p (typescriptDepth o) rs) :
    Shows (o.indent.getD "  ") out.lines (typescriptDepth o) rs := by
  have T := typescript_table (usable_of_loads h) o.typescriptUseNamespace o.indent o.embed (Target.boilerplate .typescript)
  refine shows_of_puts (t := .typescript)
    (w := Text.TypeScript.writer p o.typescriptUseNamespace o.indent o.embed (Target.boilerplate .typescript)) rfl ho ?_
  have hc : ∀ n : NumTy, (Text.TypeScript.writer p o.typescriptUseNamespace o.indent o.embed
      (Target.boilerplate .typescript)).codec n.name = .ok (Lang.TypeScript.base n) := by intro n; cases n <;> rfl
  have hb : ∀ s ∈ p.structs ++ p.messages, ∀ m ∈ s.members, Text.TypeScript.Link.clean m.name = m.name :=
    fun s hs m hm => Text.TypeScript.Link.clean_id (hq s hs m hm)
  obtain ⟨n, hn⟩ := nsText_of_textual (w := Text.TypeScript.writer p o.typescriptUseNamespace o.indent o.embed
    (Target.boilerplate .typescript)) hns
  cases hu : o.typescriptUseNamespace with
  | false =>
    simp only [typescriptDepth, hu] at hr T hc ⊢
    exact Text.TypeScript.Link.generate_puts_none rfl T hc hb rfl hr
  | true =>
    simp only [typescriptDepth, hu] at hr T hc hn ⊢
    exact Text.TypeScript.Link.generate_puts_some rfl T hc hb rfl hn hr

/-- TypeScript: each struct and message. -/
theorem C40_typescript_partial {data : Toml} {p : Protocol} (h : Loads data (.ok p)) (hns : TextualNamespace p)
    (hq : NoSquares p) (o : Options) :
    ∃ out, Target.typescript.outcome o p = .ok out ∧
      ∀ s ∈ p.structs ++ p.messages,
        ∃ sz, measureFun Lang.TypeScript.style p s "this" 0 = some sz ∧
          Shows (o.indent.getD "  ") out.lines (typescriptDepth o)
            (Syntax.TypeScript.type false p (typescriptDepth o) s sz) := by
  obtain ⟨out, ho, _⟩ := C38_level_partial h hns .typescript o
  refine ⟨out, ho, fun s hs => ?_⟩
  have T := typescript_table (usable_of_loads h) o.typescriptUseNamespace o.indent o.embed (Target.boilerplate .typescript)
  obtain ⟨ls, n, _, hz⟩ := Text.TypeScript.Link.measureFun_eq rfl T (by intro n; cases n <;> rfl)
    (fun s hs m hm => Text.TypeScript.Link.clean_id (hq s hs m hm)) hs
  exact ⟨_, hz, typescript_shows h hns hq ho (.inr (.inl ⟨s, hs, _, hz, rfl⟩))⟩

/-- TypeScript: the enums, the numbers of the messages, and the reading of tagged messages. -/
theorem C40_typescript_choice_partial {data : Toml} {p : Protocol} (h : Loads data (.ok p)) (hns : TextualNamespace p)
    (hq : NoSquares p) (o : Options) : ∃ out, Target.typescript.outcome o p = .ok out ∧
      (∀ e ∈ p.enums, Shows (o.indent.getD "  ") out.lines (typescriptDepth o) (Syntax.TypeScript.enum false e)) ∧
      Shows (o.indent.getD "  ") out.lines (typescriptDepth o) (Syntax.TypeScript.messageTypes false (messageArms p 1)) ∧
      Shows (o.indent.getD "  ") out.lines (typescriptDepth o) (Syntax.TypeScript.process false (messageArms p 1)) := by
  obtain ⟨out, ho, _⟩ := C38_level_partial h hns .typescript o
  exact ⟨out, ho, fun e he => typescript_shows h hns hq ho (.inl ⟨e, he, rfl⟩),
    typescript_shows h hns hq ho (.inr (.inr (.inl rfl))), typescript_shows h hns hq ho (.inr (.inr (.inr rfl)))⟩

theorem demo_squares : NoSquares demoProtocol := by
  unfold NoSquares
  decide

example : ∃ out, Target.typescript.outcome { typescriptUseNamespace := true } demoProtocol = .ok out ∧
    ∀ s ∈ demoProtocol.structs ++ demoProtocol.messages,
      ∃ sz, measureFun Lang.TypeScript.style demoProtocol s "this" 0 = some sz ∧
        Shows "  " out.lines 1 (Syntax.TypeScript.type false demoProtocol 1 s sz) :=
  C40_typescript_partial demo_loads (.inr ⟨"Demo", rfl⟩) demo_squares { typescriptUseNamespace := true }

example : ∃ out, Target.typescript.outcome {} demoProtocol = .ok out ∧
    (∀ e ∈ demoProtocol.enums, Shows "  " out.lines 0 (Syntax.TypeScript.enum false e)) ∧
    Shows "  " out.lines 0 (Syntax.TypeScript.messageTypes false [(1, "Draw"), (2, "Clear"), (3, "Ping")]) ∧
    Shows "  " out.lines 0 (Syntax.TypeScript.process false [(1, "Draw"), (2, "Clear"), (3, "Ping")]) :=
  C40_typescript_choice_partial demo_loads (.inr ⟨"Demo", rfl⟩) demo_squares {}

/-- For example, the text of the function that writes a `Ping`. -/
example : (Syntax.TypeScript.writer false demoProtocol demoProtocol.messages[2]
    (Lang.TypeScript.writeBytes demoProtocol demoProtocol.messages[2])).map (Row.shown "  ") = [
    "writeBytes(data: DataView|DataAccess, tag: boolean): void {",
    "  let da: DataAccess;",
    "  if (data instanceof DataView) {",
    "    da = new DataAccess(data);",
    "  }",
    "  else {",
    "    da = data;",
    "  }",
    "  if (tag) {",
    "    da.setByte(MessageType.PingType);",
    "  }",
    "  da.setInt64(this.stamp);",
    "  da.setInt16(this.how);",
    "}"] := by with_unfolding_all rfl

theorem typescript_library_shows {data : Toml} {p : Protocol} (h : Loads data (.ok p)) (hns : TextualNamespace p)
    (hq : NoSquares p) {o : Options} {out : Out} (ho : Target.typescript.outcome o p = .ok out) {rs : List Row}
    (hr : Text.TypeScript.Link.Library p rs) : Shows (o.indent.getD "  ") out.lines (typescriptDepth o) rs := by
  have T := typescript_table (usable_of_loads h) o.typescriptUseNamespace o.indent o.embed (Target.boilerplate .typescript)
  refine shows_of_puts (t := .typescript)
    (w := Text.TypeScript.writer p o.typescriptUseNamespace o.indent o.embed (Target.boilerplate .typescript)) rfl ho ?_
  have hc : ∀ n : NumTy, (Text.TypeScript.writer p o.typescriptUseNamespace o.indent o.embed
      (Target.boilerplate .typescript)).codec n.name = .ok (Lang.TypeScript.base n) := by intro n; cases n <;> rfl
  have hb : ∀ s ∈ p.structs ++ p.messages, ∀ m ∈ s.members, Text.TypeScript.Link.clean m.name = m.name :=
    fun s hs m hm => Text.TypeScript.Link.clean_id (hq s hs m hm)
  obtain ⟨n, hn⟩ := nsText_of_textual (w := Text.TypeScript.writer p o.typescriptUseNamespace o.indent o.embed
    (Target.boilerplate .typescript)) hns
  cases hu : o.typescriptUseNamespace with
  | false =>
    simp only [typescriptDepth, hu] at T hc ⊢
    exact Text.TypeScript.Link.generate_library_none rfl T hc hb rfl rfl rfl hr
  | true =>
    simp only [typescriptDepth, hu] at T hc hn ⊢
    exact Text.TypeScript.Link.generate_library_some rfl T hc hb rfl rfl rfl hn hr

/-- TypeScript: the functions of the library.  Each number is read and written by the accessor of its own type and moves the
offset by as many bytes as its type has, and lengths of strings have the type the protocol says. -/
theorem C40_typescript_library_partial {data : Toml} {p : Protocol} (h : Loads data (.ok p)) (hns : TextualNamespace p)
    (hq : NoSquares p) (o : Options) : ∃ out, Target.typescript.outcome o p = .ok out ∧
      Shows (o.indent.getD "  ") out.lines (typescriptDepth o + 1) Syntax.TypeScript.isFinished ∧
      Shows (o.indent.getD "  ") out.lines (typescriptDepth o + 1) Syntax.TypeScript.readByte ∧
      Shows (o.indent.getD "  ") out.lines (typescriptDepth o + 1) Syntax.TypeScript.readBool ∧
      Shows (o.indent.getD "  ") out.lines (typescriptDepth o + 1) Syntax.TypeScript.writeByte ∧
      Shows (o.indent.getD "  ") out.lines (typescriptDepth o + 1) Syntax.TypeScript.writeBool ∧
      Shows (o.indent.getD "  ") out.lines (typescriptDepth o + 1) Syntax.TypeScript.readFloat32 ∧
      (∀ n : NumTy, n ≠ .byte → n ≠ .bool → n ≠ .float →
        Shows (o.indent.getD "  ") out.lines (typescriptDepth o + 1) (Syntax.TypeScript.readNumber n)) ∧
      (∀ n : NumTy, n ≠ .byte → n ≠ .bool →
        Shows (o.indent.getD "  ") out.lines (typescriptDepth o + 1) (Syntax.TypeScript.writeNumber n)) ∧
      Shows (o.indent.getD "  ") out.lines (typescriptDepth o + 1) (Syntax.TypeScript.readString (Lang.TypeScript.base p.stringSize)) ∧
      Shows (o.indent.getD "  ") out.lines (typescriptDepth o + 1) (Syntax.TypeScript.writeString (Lang.TypeScript.base p.stringSize)) ∧
      Shows (o.indent.getD "  ") out.lines (typescriptDepth o) Syntax.TypeScript.packedSize ∧
      Shows (o.indent.getD "  ") out.lines (typescriptDepth o) Syntax.TypeScript.pack ∧
      Shows (o.indent.getD "  ") out.lines (typescriptDepth o) Syntax.TypeScript.unpack := by
  obtain ⟨out, ho, _⟩ := C38_level_partial h hns .typescript o
  have k : ∀ rs, Text.TypeScript.Link.Library p rs → Shows (o.indent.getD "  ") out.lines (typescriptDepth o) rs := fun rs hr =>
    typescript_library_shows h hns hq ho hr
  have k1 : ∀ rs, Text.TypeScript.Link.Library p (inside 1 rs) → Shows (o.indent.getD "  ") out.lines (typescriptDepth o + 1) rs := fun rs hr => by
    have := k _ hr
    unfold Shows at this ⊢
    rwa [inside_inside, Nat.add_comm] at this
  refine ⟨out, ho, k1 _ .isFinished, k1 _ .readByte, k1 _ .readBool, k1 _ .writeByte, k1 _ .writeBool, k1 _ .readFloat32, fun n h1 h2 h3 => ?_, fun n h1 h2 => ?_,
    k1 _ .readString, k1 _ .writeString, k _ .packedSize, k _ .pack, k _ .unpack⟩
  · cases n
    case byte => exact absurd rfl h1
    case bool => exact absurd rfl h2
    case float => exact absurd rfl h3
    case int16 => exact k1 _ .readNumber_int16
    case uint16 => exact k1 _ .readNumber_uint16
    case int32 => exact k1 _ .readNumber_int32
    case uint32 => exact k1 _ .readNumber_uint32
    case int64 => exact k1 _ .readNumber_int64
    case uint64 => exact k1 _ .readNumber_uint64
    case double => exact k1 _ .readNumber_double
  · cases n
    case byte => exact absurd rfl h1
    case bool => exact absurd rfl h2
    case int16 => exact k1 _ .writeNumber_int16
    case uint16 => exact k1 _ .writeNumber_uint16
    case int32 => exact k1 _ .writeNumber_int32
    case uint32 => exact k1 _ .writeNumber_uint32
    case int64 => exact k1 _ .writeNumber_int64
    case uint64 => exact k1 _ .writeNumber_uint64
    case float => exact k1 _ .writeNumber_float
    case double => exact k1 _ .writeNumber_double

example : ∃ out, Target.typescript.outcome { typescriptUseNamespace := true } demoProtocol = .ok out ∧
    Shows "  " out.lines 2 (Syntax.TypeScript.readNumber .int64) ∧
    Shows "  " out.lines 2 (Syntax.TypeScript.readString "Uint16") ∧
    Shows "  " out.lines 1 Syntax.TypeScript.unpack := by
  obtain ⟨out, ho, _, _, _, _, _, _, hn, _, hs, _, _, _, hp⟩ :=
    C40_typescript_library_partial demo_loads (.inr ⟨"Demo", rfl⟩) demo_squares { typescriptUseNamespace := true }
  exact ⟨out, ho, hn .int64 (by decide) (by decide) (by decide), hs, hp⟩

/-- For example, the text of the function that reads an `int64`. -/
example : (Syntax.TypeScript.readNumber .int64).map (Row.shown "  ") = [
    "getInt64(): bigint {",
    "  const ret = this.data.getBigInt64(this.currentOffset, true);",
    "  this.currentOffset += 8;",
    "  return ret;",
    "}"] := by with_unfolding_all rfl

theorem assemblyscript_shows {data : Toml} {p : Protocol} (h : Loads data (.ok p)) (hq : NoSquares p)
    {o : Options} {out : Out} (ho : Target.assemblyscript.outcome o p = .ok out) {rs : List Row}
    (hr : Text.TypeScript.Link.Contained true p 0 rs) : Shows (o.indent.getD "  ") out.lines 0 rs := by
  have T := assemblyscript_table (usable_of_loads h) o.indent o.embed (Target.boilerplate .assemblyscript)
  refine shows_of_puts (t := .assemblyscript)
    (w := Text.AssemblyScript.writer p o.indent o.embed (Target.boilerplate .assemblyscript)) rfl ho ?_
  have hc : ∀ n : NumTy, (Text.AssemblyScript.writer p o.indent o.embed
      (Target.boilerplate .assemblyscript)).codec n.name = .ok (Lang.TypeScript.base n) := by intro n; cases n <;> rfl
  have hb : ∀ s ∈ p.structs ++ p.messages, ∀ m ∈ s.members, Text.TypeScript.Link.clean m.name = m.name :=
    fun s hs m hm => Text.TypeScript.Link.clean_id (hq s hs m hm)
  exact Text.TypeScript.Link.generate_puts_none rfl T hc hb rfl hr

/-- AssemblyScript: each struct and message. -/
theorem C40_assemblyscript_partial {data : Toml} {p : Protocol} (h : Loads data (.ok p)) (hns : TextualNamespace p)
    (hq : NoSquares p) (o : Options) :
    ∃ out, Target.assemblyscript.outcome o p = .ok out ∧
      ∀ s ∈ p.structs ++ p.messages,
        ∃ sz, measureFun Lang.TypeScript.style p s "this" 0 = some sz ∧
          Shows (o.indent.getD "  ") out.lines 0 (Syntax.TypeScript.type true p 0 s sz) := by
  obtain ⟨out, ho, _⟩ := C38_level_partial h hns .assemblyscript o
  refine ⟨out, ho, fun s hs => ?_⟩
  have T := assemblyscript_table (usable_of_loads h) o.indent o.embed (Target.boilerplate .assemblyscript)
  obtain ⟨ls, n, _, hz⟩ := Text.TypeScript.Link.measureFun_eq rfl T (by intro n; cases n <;> rfl)
    (fun s hs m hm => Text.TypeScript.Link.clean_id (hq s hs m hm)) hs
  exact ⟨_, hz, assemblyscript_shows h hq ho (.inr (.inl ⟨s, hs, _, hz, rfl⟩))⟩

/-- AssemblyScript: the enums, the numbers of the messages, and the reading of tagged messages. -/
theorem C40_assemblyscript_choice_partial {data : Toml} {p : Protocol} (h : Loads data (.ok p)) (hns : TextualNamespace p)
    (hq : NoSquares p) (o : Options) : ∃ out, Target.assemblyscript.outcome o p = .ok out ∧
      (∀ e ∈ p.enums, Shows (o.indent.getD "  ") out.lines 0 (Syntax.TypeScript.enum true e)) ∧
      Shows (o.indent.getD "  ") out.lines 0 (Syntax.TypeScript.messageTypes true (messageArms p 1)) ∧
      Shows (o.indent.getD "  ") out.lines 0 (Syntax.TypeScript.process true (messageArms p 1)) := by
  obtain ⟨out, ho, _⟩ := C38_level_partial h hns .assemblyscript o
  exact ⟨out, ho, fun e he => assemblyscript_shows h hq ho (.inl ⟨e, he, rfl⟩),
    assemblyscript_shows h hq ho (.inr (.inr (.inl rfl))), assemblyscript_shows h hq ho (.inr (.inr (.inr rfl)))⟩

example : ∃ out, Target.assemblyscript.outcome {} demoProtocol = .ok out ∧
    ∀ s ∈ demoProtocol.structs ++ demoProtocol.messages,
      ∃ sz, measureFun Lang.TypeScript.style demoProtocol s "this" 0 = some sz ∧
        Shows "  " out.lines 0 (Syntax.TypeScript.type true demoProtocol 0 s sz) :=
  C40_assemblyscript_partial demo_loads (.inr ⟨"Demo", rfl⟩) demo_squares {}

example : ∃ out, Target.assemblyscript.outcome {} demoProtocol = .ok out ∧
    (∀ e ∈ demoProtocol.enums, Shows "  " out.lines 0 (Syntax.TypeScript.enum true e)) ∧
    Shows "  " out.lines 0 (Syntax.TypeScript.messageTypes true [(1, "Draw"), (2, "Clear"), (3, "Ping")]) ∧
    Shows "  " out.lines 0 (Syntax.TypeScript.process true [(1, "Draw"), (2, "Clear"), (3, "Ping")]) :=
  C40_assemblyscript_choice_partial demo_loads (.inr ⟨"Demo", rfl⟩) demo_squares {}

theorem assemblyscript_library_shows {data : Toml} {p : Protocol} (h : Loads data (.ok p)) (_ : TextualNamespace p)
    (hq : NoSquares p) {o : Options} {out : Out} (ho : Target.assemblyscript.outcome o p = .ok out) {rs : List Row}
    (hr : Text.AssemblyScript.Link.Library p rs) : Shows (o.indent.getD "  ") out.lines 0 rs := by
  have T := assemblyscript_table (usable_of_loads h) o.indent o.embed (Target.boilerplate .assemblyscript)
  refine shows_of_puts (t := .assemblyscript)
    (w := Text.AssemblyScript.writer p o.indent o.embed (Target.boilerplate .assemblyscript)) rfl ho ?_
  have hc : ∀ n : NumTy, (Text.AssemblyScript.writer p o.indent o.embed
      (Target.boilerplate .assemblyscript)).codec n.name = .ok (Lang.TypeScript.base n) := by intro n; cases n <;> rfl
  have hb : ∀ s ∈ p.structs ++ p.messages, ∀ m ∈ s.members, Text.TypeScript.Link.clean m.name = m.name :=
    fun s hs m hm => Text.TypeScript.Link.clean_id (hq s hs m hm)
  exact Text.TypeScript.Link.generate_library_none rfl T hc hb rfl rfl rfl hr

/-- AssemblyScript: the functions of the library.  Each number is read and written by the accessor of its own type and moves the
offset by as many bytes as its type has, and lengths of strings have the type the protocol says. -/
theorem C40_assemblyscript_library_partial {data : Toml} {p : Protocol} (h : Loads data (.ok p)) (hns : TextualNamespace p)
    (hq : NoSquares p) (o : Options) : ∃ out, Target.assemblyscript.outcome o p = .ok out ∧
      Shows (o.indent.getD "  ") out.lines 1 Syntax.AssemblyScript.isFinished ∧
      Shows (o.indent.getD "  ") out.lines 1 Syntax.AssemblyScript.readByte ∧
      Shows (o.indent.getD "  ") out.lines 1 Syntax.AssemblyScript.readBool ∧
      Shows (o.indent.getD "  ") out.lines 1 Syntax.AssemblyScript.writeByte ∧
      Shows (o.indent.getD "  ") out.lines 1 Syntax.AssemblyScript.writeBool ∧
      (∀ n : NumTy, n ≠ .byte → n ≠ .bool →
        Shows (o.indent.getD "  ") out.lines 1 (Syntax.AssemblyScript.readNumber n)) ∧
      (∀ n : NumTy, n ≠ .byte → n ≠ .bool →
        Shows (o.indent.getD "  ") out.lines 1 (Syntax.AssemblyScript.writeNumber n)) ∧
      Shows (o.indent.getD "  ") out.lines 1 (Syntax.AssemblyScript.readString (Lang.TypeScript.base p.stringSize)) ∧
      Shows (o.indent.getD "  ") out.lines 1
        (Syntax.AssemblyScript.writeString (Lang.TypeScript.base p.stringSize) (Lang.AssemblyScript.native p.stringSize.name)) ∧
      Shows (o.indent.getD "  ") out.lines 0 Syntax.AssemblyScript.packedSize ∧
      Shows (o.indent.getD "  ") out.lines 0 Syntax.AssemblyScript.pack ∧
      Shows (o.indent.getD "  ") out.lines 0 Syntax.AssemblyScript.unpack := by
  obtain ⟨out, ho, _⟩ := C38_level_partial h hns .assemblyscript o
  have k : ∀ rs, Text.AssemblyScript.Link.Library p rs → Shows (o.indent.getD "  ") out.lines 0 rs := fun rs hr =>
    assemblyscript_library_shows h hns hq ho hr
  have k1 : ∀ rs, Text.AssemblyScript.Link.Library p (inside 1 rs) → Shows (o.indent.getD "  ") out.lines 1 rs := fun rs hr => by
    have := k _ hr
    unfold Shows at this ⊢
    rwa [inside_inside] at this
  refine ⟨out, ho, k1 _ .isFinished, k1 _ .readByte, k1 _ .readBool, k1 _ .writeByte, k1 _ .writeBool, fun n h1 h2 => ?_, fun n h1 h2 => ?_,
    k1 _ .readString, k1 _ .writeString, k _ .packedSize, k _ .pack, k _ .unpack⟩
  · cases n
    case byte => exact absurd rfl h1
    case bool => exact absurd rfl h2
    case int16 => exact k1 _ .readNumber_int16
    case uint16 => exact k1 _ .readNumber_uint16
    case int32 => exact k1 _ .readNumber_int32
    case uint32 => exact k1 _ .readNumber_uint32
    case int64 => exact k1 _ .readNumber_int64
    case uint64 => exact k1 _ .readNumber_uint64
    case float => exact k1 _ .readNumber_float
    case double => exact k1 _ .readNumber_double
  · cases n
    case byte => exact absurd rfl h1
    case bool => exact absurd rfl h2
    case int16 => exact k1 _ .writeNumber_int16
    case uint16 => exact k1 _ .writeNumber_uint16
    case int32 => exact k1 _ .writeNumber_int32
    case uint32 => exact k1 _ .writeNumber_uint32
    case int64 => exact k1 _ .writeNumber_int64
    case uint64 => exact k1 _ .writeNumber_uint64
    case float => exact k1 _ .writeNumber_float
    case double => exact k1 _ .writeNumber_double

example : ∃ out, Target.assemblyscript.outcome {} demoProtocol = .ok out ∧
    Shows "  " out.lines 1 (Syntax.AssemblyScript.writeNumber .float) ∧
    Shows "  " out.lines 1 (Syntax.AssemblyScript.writeString "Uint16" "u16") ∧
    Shows "  " out.lines 0 Syntax.AssemblyScript.pack := by
  obtain ⟨out, ho, _, _, _, _, _, _, hn, _, hs, _, hp, _⟩ :=
    C40_assemblyscript_library_partial demo_loads (.inr ⟨"Demo", rfl⟩) demo_squares {}
  exact ⟨out, ho, hn .float (by decide) (by decide), hs, hp⟩

/-- For example, the text of the function that reads a `Ping`. -/
example : (Syntax.TypeScript.reader true demoProtocol true "Ping" 1
    (Lang.AssemblyScript.fromBytes demoProtocol demoProtocol.messages[2])).map (Row.shown "  ") = [
    "static override fromBytes(data: DataView): Ping | null {",
    "  const da = new DataAccess(data);",
    "  return Ping.fromBytesDA(da);",
    "}",
    "",
    "static override fromBytesDA(da: DataAccess): Ping | null {",
    "  const nPing = new Ping();",
    "  nPing.stamp = da.getInt64();",
    "  if (da.hasError) { return null; }",
    "  let _how = da.getInt16();",
    "  if (da.hasError) { return null; }",
    "  if (_how < -1 || _how >= (Kind._Unknown as i16)) {",
    "    _how = Kind._Unknown as i16;",
    "  }",
    "  nPing.how = _how;",
    "  return nPing;",
    "}"] := by with_unfolding_all rfl

theorem csharp_table {p : Protocol} (hu : Usable p) (i e b) :
    Table (Text.CSharp.writer p i e b) Lang.CSharp.native "string" where
  usable := hu
  num n := by cases n <;> rfl
  str := lookup_string rfl
  own t h1 h2 := own_of (d := Text.CSharp.mapping) (by decide) h1 h2

theorem csharp_codecs {t : String} (h : NumTy.ofName? t = none) : Text.CSharp.codecs.lookup t = none := by
  cases hl : Text.CSharp.codecs.lookup t with
  | none => rfl
  | some v =>
    have k := (by decide : ∀ x ∈ Text.CSharp.codecs, (NumTy.ofName? x.1).isSome = true) _ (mem_of_lookup hl)
    simp only [h] at k; cases k

theorem csharp_depth {p : Protocol} {w : Writer} (hw : w.p = p) :
    Lang.CSharp.depth p = if w.nsTrue then 1 else 0 := by
  subst hw
  unfold Lang.CSharp.depth Writer.nsTrue
  split <;> rename_i h <;> simp [h]

theorem csharp_shows {data : Toml} {p : Protocol} (h : Loads data (.ok p)) (hns : TextualNamespace p) (hq : NoSquares p)
    {o : Options} {out : Out} (ho : Target.csharp.outcome o p = .ok out) {rs : List Row}
    (hr : Text.CSharp.Link.Contained p (Lang.CSharp.depth p) rs) :
    Shows (o.indent.getD "    ") out.lines (Lang.CSharp.depth p) rs := by
  have T := csharp_table (usable_of_loads h) o.indent o.embed (Target.boilerplate .csharp)
  refine shows_of_puts (t := .csharp)
    (w := Text.CSharp.writer p o.indent o.embed (Target.boilerplate .csharp)) rfl ho ?_
  have hc : ∀ n : NumTy, (Text.CSharp.writer p o.indent o.embed
      (Target.boilerplate .csharp)).codecs.lookup n.name = some (Lang.CSharp.readPrim n) := by intro n; cases n <;> rfl
  have hl : ∀ t, NumTy.ofName? t = none → (Text.CSharp.writer p o.indent o.embed
      (Target.boilerplate .csharp)).codecs.lookup t = none := by
    intro t ht
    exact csharp_codecs ht
  have hb : ∀ s ∈ p.structs ++ p.messages, ∀ m ∈ s.members, Text.CSharp.Link.clean m.name = m.name :=
    fun s hs m hm => Text.CSharp.Link.clean_id fun c hc => ⟨(hq s hs m hm c hc).1, (hq s hs m hm c hc).2, fun h' =>
      ((C01_accepted_wellFormed h).bodies s hs).memberSpace m hm c hc (by rw [h']; decide)⟩
  obtain ⟨n, hn⟩ := nsText_of_textual (w := Text.CSharp.writer p o.indent o.embed (Target.boilerplate .csharp)) hns
  have hd := csharp_depth (p := p) (w := Text.CSharp.writer p o.indent o.embed (Target.boilerplate .csharp)) rfl
  rw [hd] at hr ⊢
  cases ht : (Text.CSharp.writer p o.indent o.embed (Target.boilerplate .csharp)).nsTrue with
  | false =>
    simp only [ht, Bool.false_eq_true, if_false] at hr ⊢
    exact Text.CSharp.Link.generate_puts_none T hc hl hb rfl rfl ht hr
  | true =>
    simp only [ht, if_true] at hr ⊢
    exact Text.CSharp.Link.generate_puts_some T hc hl hb rfl rfl ht hn hr

/-- C#: each struct and message. -/
theorem C40_csharp_partial {data : Toml} {p : Protocol} (h : Loads data (.ok p)) (hns : TextualNamespace p)
    (hq : NoSquares p) (o : Options) :
    ∃ out, Target.csharp.outcome o p = .ok out ∧
      ∀ s ∈ p.structs ++ p.messages,
        ∃ sz, measureFun Lang.CSharp.style p s "this" (Lang.CSharp.depth p + 2) = some sz ∧
          Shows (o.indent.getD "    ") out.lines (Lang.CSharp.depth p)
            (Syntax.CSharp.type p (Lang.CSharp.depth p) s sz) := by
  obtain ⟨out, ho, _⟩ := C38_level_partial h hns .csharp o
  refine ⟨out, ho, fun s hs => ?_⟩
  have T := csharp_table (usable_of_loads h) o.indent o.embed (Target.boilerplate .csharp)
  obtain ⟨ls, n, _, hz⟩ := Text.CSharp.Link.measureFun_eq T hs (Lang.CSharp.depth p + 2)
  exact ⟨_, hz, csharp_shows h hns hq ho (.inr (.inl ⟨s, hs, _, hz, rfl⟩))⟩

/-- C#: the enums, the numbers of the messages, and the reading of tagged messages, which is in a class. -/
theorem C40_csharp_choice_partial {data : Toml} {p : Protocol} (h : Loads data (.ok p)) (hns : TextualNamespace p)
    (hq : NoSquares p) (o : Options) : ∃ out, Target.csharp.outcome o p = .ok out ∧
      (∀ e ∈ p.enums, Shows (o.indent.getD "    ") out.lines (Lang.CSharp.depth p) (Syntax.CSharp.enum e)) ∧
      Shows (o.indent.getD "    ") out.lines (Lang.CSharp.depth p) (Syntax.CSharp.messageTypes (messageArms p 1)) ∧
      Shows (o.indent.getD "    ") out.lines (Lang.CSharp.depth p + 1) (Syntax.CSharp.process (messageArms p 1)) := by
  obtain ⟨out, ho, _⟩ := C38_level_partial h hns .csharp o
  refine ⟨out, ho, fun e he => csharp_shows h hns hq ho (.inl ⟨e, he, rfl⟩),
    csharp_shows h hns hq ho (.inr (.inr (.inl rfl))), ?_⟩
  have := csharp_shows h hns hq ho (.inr (.inr (.inr (.inl rfl))))
  unfold Shows at this ⊢
  rwa [inside_inside, Nat.add_comm 1] at this

/-- C#: the library, which is the errors and a class with functions in it. -/
theorem C40_csharp_library_partial {data : Toml} {p : Protocol} (h : Loads data (.ok p)) (hns : TextualNamespace p)
    (hq : NoSquares p) (o : Options) : ∃ out, Target.csharp.outcome o p = .ok out ∧
      Shows (o.indent.getD "    ") out.lines (Lang.CSharp.depth p) Syntax.CSharp.readError ∧
      Shows (o.indent.getD "    ") out.lines (Lang.CSharp.depth p) Syntax.CSharp.unknownError ∧
      Shows (o.indent.getD "    ") out.lines (Lang.CSharp.depth p) Syntax.CSharp.base ∧
      Shows (o.indent.getD "    ") out.lines (Lang.CSharp.depth p + 1) Syntax.CSharp.packedSize ∧
      Shows (o.indent.getD "    ") out.lines (Lang.CSharp.depth p + 1) Syntax.CSharp.pack ∧
      Shows (o.indent.getD "    ") out.lines (Lang.CSharp.depth p + 1) Syntax.CSharp.unpack := by
  obtain ⟨out, ho, _⟩ := C38_level_partial h hns .csharp o
  have k : ∀ {rs}, Text.CSharp.Link.Library rs → Shows (o.indent.getD "    ") out.lines (Lang.CSharp.depth p) rs := fun hl =>
    csharp_shows h hns hq ho (.inr (.inr (.inr (.inr hl))))
  have k1 : ∀ {rs}, Text.CSharp.Link.Library (inside 1 rs) →
      Shows (o.indent.getD "    ") out.lines (Lang.CSharp.depth p + 1) rs := fun hl => by
    have := k hl
    unfold Shows at this ⊢
    rwa [inside_inside, Nat.add_comm 1] at this
  exact ⟨out, ho, k .readError, k .unknownError, k .base, k1 .packedSize, k1 .pack, k1 .unpack⟩

example : ∃ out, Target.csharp.outcome {} demoProtocol = .ok out ∧
    ∀ s ∈ demoProtocol.structs ++ demoProtocol.messages,
      ∃ sz, measureFun Lang.CSharp.style demoProtocol s "this" 3 = some sz ∧
        Shows "    " out.lines 1 (Syntax.CSharp.type demoProtocol 1 s sz) :=
  C40_csharp_partial demo_loads (.inr ⟨"Demo", rfl⟩) demo_squares {}

example : ∃ out, Target.csharp.outcome { indent := some "\t" } demoProtocol = .ok out ∧
    (∀ e ∈ demoProtocol.enums, Shows "\t" out.lines 1 (Syntax.CSharp.enum e)) ∧
    Shows "\t" out.lines 1 (Syntax.CSharp.messageTypes [(1, "Draw"), (2, "Clear"), (3, "Ping")]) ∧
    Shows "\t" out.lines 2 (Syntax.CSharp.process [(1, "Draw"), (2, "Clear"), (3, "Ping")]) :=
  C40_csharp_choice_partial demo_loads (.inr ⟨"Demo", rfl⟩) demo_squares { indent := some "\t" }

example : ∃ out, Target.csharp.outcome {} demoProtocol = .ok out ∧ Shows "    " out.lines 2 Syntax.CSharp.unpack := by
  obtain ⟨out, ho, _, _, _, _, _, hu⟩ := C40_csharp_library_partial demo_loads (.inr ⟨"Demo", rfl⟩) demo_squares {}
  exact ⟨out, ho, hu⟩

set_option maxRecDepth 2000 in
/-- For example, the text of the function that reads a `Ping`. -/
example : (Syntax.CSharp.reader demoProtocol true "Ping" 1
    (Lang.CSharp.fromBytes demoProtocol demoProtocol.messages[2])).map (Row.shown "  ") = [
    "public static Ping FromBytes(BinaryReader br)",
    "{",
    "  try",
    "  {",
    "    Ping _nPing = new Ping();",
    "    _nPing.stamp = br.ReadInt64();",
    "    short _how = br.ReadInt16();",
    "    if (!Enum.IsDefined(typeof(Kind), _how))",
    "    {",
    "      throw new DataReadErrorException(String.Format(\"Enum {0} out of range for Kind\", _how));",
    "    }",
    "    _nPing.how = (Kind)_how;",
    "    return _nPing;",
    "  }",
    "  catch (System.IO.EndOfStreamException)",
    "  {",
    "    throw new DataReadErrorException(String.Format(\"Could not read Ping from offset {0}\", br.BaseStream.Position));",
    "  }",
    "}"] := by
  with_unfolding_all rfl

theorem c_writer {p : Protocol} (hns : TextualNamespace p) (i e b) : ∃ w, Text.C.writer p i e b = .ok w ∧ w.p = p ∧
    w.tab = i.getD "    " ∧ w.mapping = Text.C.mapping ∧ w.codecs = Text.C.codecs ∧ w.defaults = Text.C.defaults ∧
    w.pref = Syntax.C.pre p := by
  rcases hns with h | ⟨ns, h⟩
  · exact ⟨_, by unfold Text.C.writer; rw [h], rfl, rfl, rfl, rfl, rfl, by simp [Syntax.C.pre, Syntax.namespaceOf, h]⟩
  · exact ⟨_, by unfold Text.C.writer; rw [h], rfl, rfl, rfl, rfl, rfl, by simp [Syntax.C.pre, Syntax.namespaceOf, h]⟩

theorem c_table {w : Writer} (hu : Usable w.p) (hm : w.mapping = Text.C.mapping) : Table w Syntax.C.native "char*" where
  usable := hu
  num n := by rw [hm]; cases n <;> rfl
  str := by unfold Writer.types; rw [hm]; rfl
  own t h1 h2 := by rw [hm]; exact own_of (d := Text.C.mapping) (by decide) h1 h2

theorem c_defaults {t : String} (h : NumTy.ofName? t = none) : Text.C.defaults.lookup t = none := by
  cases hl : Text.C.defaults.lookup t with
  | none => rfl
  | some v =>
    have k := (by decide : ∀ x ∈ Text.C.defaults, (NumTy.ofName? x.1).isSome = true) _ (mem_of_lookup hl)
    simp only [h] at k; cases k

theorem c_shows {data : Toml} {p : Protocol} (h : Loads data (.ok p)) (hns : TextualNamespace p) (hq : NoSquares p)
    {o : Options} {out : Out} (ho : Target.c.outcome o p = .ok out) {rs : List Row} (hr : Text.C.Link.Contained p rs) :
    Shows (o.indent.getD "    ") out.lines 0 rs := by
  obtain ⟨w, hw, rfl, ht, hm, hc, hd, hp⟩ := c_writer hns o.indent o.embed (Target.boilerplate .c)
  rw [← ht]
  refine shows_of_puts (t := .c) hw ho (Text.C.Link.generate_puts (c_table (usable_of_loads h) hm) hp (fun n => ?_) (fun n => ?_)
    (fun t ht => ?_) (fun s hs m hm c hc => (hq s hs m hm c hc).2) hr)
  · rw [hc]; cases n <;> rfl
  · rw [hd]; cases n <;> rfl
  · rw [hd]; exact c_defaults ht

/-- C: each struct and message. -/
theorem C40_c_partial {data : Toml} {p : Protocol} (h : Loads data (.ok p)) (hns : TextualNamespace p)
    (hq : NoSquares p) (o : Options) :
    ∃ out, Target.c.outcome o p = .ok out ∧
      ∀ s ∈ p.structs ++ p.messages, Shows (o.indent.getD "    ") out.lines 0 (Syntax.C.type p s) ∧
        ∃ sz, measureFun Lang.C.style p s "m" 1 = some sz ∧
          Shows (o.indent.getD "    ") out.lines 0 (Syntax.C.functions p s sz) := by
  obtain ⟨out, ho, _⟩ := C38_level_partial h hns .c o
  refine ⟨out, ho, fun s hs => ⟨c_shows h hns hq ho (.inr (.inr (.inl ⟨s, hs, rfl⟩))), ?_⟩⟩
  obtain ⟨w, hw, rfl, ht, hm, hc, hd, hp⟩ := c_writer hns o.indent o.embed (Target.boilerplate .c)
  obtain ⟨ls, n, _, hz⟩ := Text.C.Link.measureFun_eq (c_table (usable_of_loads h) hm) hs 1
  exact ⟨_, hz, c_shows h hns hq ho (.inr (.inr (.inr (.inl ⟨s, hs, _, hz, rfl⟩))))⟩

/-- C: the enums, the numbers of the messages, and the functions for any message. -/
theorem C40_c_choice_partial {data : Toml} {p : Protocol} (h : Loads data (.ok p)) (hns : TextualNamespace p)
    (hq : NoSquares p) (o : Options) : ∃ out, Target.c.outcome o p = .ok out ∧
      (∀ e ∈ p.enums, Shows (o.indent.getD "    ") out.lines 0 (Syntax.C.enum p e) ∧
        Shows (o.indent.getD "    ") out.lines 0 (Syntax.C.valid p e)) ∧
      Shows (o.indent.getD "    ") out.lines 0 (Syntax.C.messageTypes p (messageArms p 1)) ∧
      Shows (o.indent.getD "    ") out.lines 0 (Syntax.C.library p (messageArms p 1)) := by
  obtain ⟨out, ho, _⟩ := C38_level_partial h hns .c o
  exact ⟨out, ho, fun e he => ⟨c_shows h hns hq ho (.inl ⟨e, he, rfl⟩), c_shows h hns hq ho (.inr (.inl ⟨e, he, rfl⟩))⟩,
    c_shows h hns hq ho (.inr (.inr (.inr (.inr (.inl rfl))))), c_shows h hns hq ho (.inr (.inr (.inr (.inr (.inr rfl)))))⟩

example : ∃ out, Target.c.outcome {} demoProtocol = .ok out ∧
    ∀ s ∈ demoProtocol.structs ++ demoProtocol.messages, Shows "    " out.lines 0 (Syntax.C.type demoProtocol s) ∧
      ∃ sz, measureFun Lang.C.style demoProtocol s "m" 1 = some sz ∧
        Shows "    " out.lines 0 (Syntax.C.functions demoProtocol s sz) :=
  C40_c_partial demo_loads (.inr ⟨"Demo", rfl⟩) demo_squares {}

example : ∃ out, Target.c.outcome { indent := some "\t" } demoProtocol = .ok out ∧
    (∀ e ∈ demoProtocol.enums, Shows "\t" out.lines 0 (Syntax.C.enum demoProtocol e) ∧
      Shows "\t" out.lines 0 (Syntax.C.valid demoProtocol e)) ∧
    Shows "\t" out.lines 0 (Syntax.C.messageTypes demoProtocol [(1, "Draw"), (2, "Clear"), (3, "Ping")]) ∧
    Shows "\t" out.lines 0 (Syntax.C.library demoProtocol [(1, "Draw"), (2, "Clear"), (3, "Ping")]) :=
  C40_c_choice_partial demo_loads (.inr ⟨"Demo", rfl⟩) demo_squares { indent := some "\t" }

set_option maxRecDepth 2000 in
/-- For example, the text of the function that reads a `Ping`. -/
example : (Syntax.C.reader demoProtocol demoProtocol.messages[2]
    (Lang.C.fromBytes demoProtocol demoProtocol.messages[2])).map (Row.shown "  ") = [
    "Demo_err_t Demo_Ping_FromBytes(Demo_DataAccess* r, Demo_Ping* dst) {",
    "  dst->_mt = Demo_MessageType_Ping;",
    "  Demo_err_t err;",
    "  err = Demo_ReadInt64(r, &(dst->stamp));",
    "  if (err != DEMO_ERR_OK) {",
    "    return err;",
    "  }",
    "  int16_t _how;",
    "  err = Demo_ReadInt16(r, &(_how));",
    "  if (err != DEMO_ERR_OK) {",
    "    return err;",
    "  }",
    "  if (!Demo_IsValidKind(_how)) {",
    "    return DEMO_ERR_INVALID_DATA;",
    "  }",
    "  dst->how = (Demo_Kind)_how;",
    "  return DEMO_ERR_OK;",
    "}"] := by
  with_unfolding_all rfl

/-- The namespace is a name, and has not `BESCHI` in it. -/
def NameNamespace (p : Protocol) : Prop :=
  ∀ ns, p.ns = some (.str ns) → (∀ c ∈ ns.toList, (c.isAlphanum || c == '_') = true) ∧ ¬ "BESCHI".toList <:+: ns.toList

theorem nameLike_upper {c : Char} (h : Text.C.Link.nameLike c = true) : Text.C.Link.nameLike c.toUpper = true := by
  have k : ∀ n : Fin 128, Text.C.Link.nameLike (Char.ofNat n) = true → Text.C.Link.nameLike (Char.ofNat n).toUpper = true := by decide
  have hc : c.toNat < 128 := by
    simp only [Text.C.Link.nameLike, Char.isAlphanum, Char.isAlpha, Char.isUpper, Char.isLower, Char.isDigit, Bool.or_eq_true,
      Bool.and_eq_true, decide_eq_true_eq, beq_iff_eq] at h
    rcases h with ((⟨_, h⟩ | ⟨_, h⟩) | ⟨_, h⟩) | rfl
    · exact Nat.lt_of_le_of_lt (UInt32.le_iff_toNat_le.1 h) (by decide)
    · exact Nat.lt_of_le_of_lt (UInt32.le_iff_toNat_le.1 h) (by decide)
    · exact Nat.lt_of_le_of_lt (UInt32.le_iff_toNat_le.1 h) (by decide)
    · decide
  have := k ⟨c.toNat, hc⟩
  simp only [Char.ofNat_toNat] at this
  exact this h

theorem c_prefixed {p : Protocol} (hns : TextualNamespace p) (hn : NameNamespace p) (i e b) :
    ∃ w x y, Text.C.writer p i e b = .ok w ∧ w.p = p ∧ w.tab = i.getD "    " ∧ w.mapping = Text.C.mapping ∧
      w.codecs = Text.C.codecs ∧ w.defaults = Text.C.defaults ∧ w.pref = Syntax.C.pre p ∧ w.nativeTab = "    " ∧
      w.boilerplate = b ∧ Text.C.Link.Prefixed w x y ∧ Syntax.C.pre p = x ++ "_" ∧ Syntax.C.up p = y ++ "_" ∧
      (∀ c ∈ x.toList, Text.C.Link.nameLike c = true) ∧ (∀ c ∈ y.toList, Text.C.Link.nameLike c = true) ∧
      ¬ ['B', 'E', 'S', 'C', 'H', 'I'] <:+: x.toList := by
  rcases hns with h | ⟨ns, h⟩
  · refine ⟨_, "beschi", "BESCHI", by unfold Text.C.writer; rw [h], rfl, rfl, rfl, rfl, rfl, by simp [Syntax.C.pre, Syntax.namespaceOf, h],
      rfl, rfl, .inr ⟨rfl, rfl, rfl⟩, by simp [Syntax.C.pre, Syntax.namespaceOf, h], ?_, by decide, by decide, by decide⟩
    simp only [Syntax.C.up, Syntax.C.pre, Syntax.namespaceOf, h]
    decide
  · obtain ⟨h1, h2⟩ := hn ns h
    refine ⟨_, ns, Text.upper ns, by unfold Text.C.writer; rw [h], rfl, rfl, rfl, rfl, rfl,
      by simp [Syntax.C.pre, Syntax.namespaceOf, h], rfl, rfl, .inl rfl, by simp [Syntax.C.pre, Syntax.namespaceOf, h], ?_, h1,
      ?_, fun h => h2 (by simpa using h)⟩
    · apply String.toList_injective
      simp [Syntax.C.up, Syntax.C.pre, Syntax.namespaceOf, h, Text.upper]
    · intro c hc
      simp only [Text.upper, String.toList_ofList, List.mem_map] at hc
      obtain ⟨d, hd, rfl⟩ := hc
      exact nameLike_upper (h1 d hd)

theorem c_library_shows {data : Toml} {p : Protocol} (h : Loads data (.ok p)) (hns : TextualNamespace p) (hn : NameNamespace p)
    (hq : NoSquares p) {o : Options} {out : Out} (ho : Target.c.outcome o p = .ok out) {rs : List Row}
    (hr : ∀ x y, Syntax.C.pre p = x ++ "_" → Syntax.C.up p = y ++ "_" →
      Text.C.Link.Library0 x y p.stringSize rs ∨ Text.C.Link.Library1 x y p.stringSize rs) :
    Shows (o.indent.getD "    ") out.lines 0 rs := by
  obtain ⟨w, x, y, hw, rfl, ht, hm, hc, hd, hp, hnt, hb, hpx, h1, h2, hx, hy, hz⟩ :=
    c_prefixed hns hn o.indent o.embed (Target.boilerplate .c)
  rw [← ht]
  have hc' : ∀ n : NumTy, w.codecs.lookup n.name = some (Lang.C.suffix n) := fun n => by rw [hc]; cases n <;> rfl
  have hd' : ∀ n : NumTy, w.defaults.lookup n.name = some (Syntax.C.zero n) := fun n => by rw [hd]; cases n <;> rfl
  have ho' : ∀ t, NumTy.ofName? t = none → w.defaults.lookup t = none := fun t ht => by rw [hd]; exact c_defaults ht
  refine shows_of_puts (t := .c) hw ho ?_
  rcases hr x y h1 h2 with k | k
  · exact Text.C.Link.generate_basics0 (c_table (usable_of_loads h) hm) hp hc' hd' ho'
      (fun s hs m hm c hc => (hq s hs m hm c hc).2) hpx hx hy hz (by rw [hb]; rfl) hnt k
  · exact Text.C.Link.generate_basics1 (c_table (usable_of_loads h) hm) hp hc' hd' ho'
      (fun s hs m hm c hc => (hq s hs m hm c hc).2) hpx hx hy hz (by rw [hb]; rfl) hnt k

theorem c_size {n : NumTy} (h : IntegerType n) : Text.lower (Lang.C.suffix n) ++ "_t" = Syntax.C.native n := by
  cases n <;> first | decide | exact absurd h (by simp [IntegerType])

/-- C: the functions of the library.  Their names, and those of their types and macros, begin as in the functions that
call them; each number is copied to and from as many bytes as its type has, and lengths of strings have the type the
protocol says. -/
theorem C40_c_library_partial {data : Toml} {p : Protocol} (h : Loads data (.ok p)) (hns : TextualNamespace p)
    (hn : NameNamespace p) (hq : NoSquares p) (o : Options) : ∃ out, Target.c.outcome o p = .ok out ∧
      Shows (o.indent.getD "    ") out.lines 0 (Syntax.C.errors (Syntax.C.pre p) (Syntax.C.up p)) ∧
      Shows (o.indent.getD "    ") out.lines 0 (Syntax.C.access (Syntax.C.pre p)) ∧
      Shows (o.indent.getD "    ") out.lines 0 (Syntax.C.declarations (Syntax.C.pre p) (Syntax.C.native p.stringSize)) ∧
      Shows (o.indent.getD "    ") out.lines 0 (Syntax.C.allocation (Syntax.C.up p)) ∧
      Shows (o.indent.getD "    ") out.lines 0 (Syntax.C.isFinished (Syntax.C.pre p)) ∧
      Shows (o.indent.getD "    ") out.lines 0 (Syntax.C.readBool (Syntax.C.pre p) (Syntax.C.up p)) ∧
      Shows (o.indent.getD "    ") out.lines 0 (Syntax.C.writeBool (Syntax.C.pre p) (Syntax.C.up p)) ∧
      Shows (o.indent.getD "    ") out.lines 0 (Syntax.C.writeByte (Syntax.C.pre p) (Syntax.C.up p)) ∧
      (∀ n : NumTy, n ≠ .bool → Shows (o.indent.getD "    ") out.lines 0 (Syntax.C.readNumber (Syntax.C.pre p) (Syntax.C.up p) n)) ∧
      (∀ n : NumTy, n ≠ .byte → n ≠ .bool →
        Shows (o.indent.getD "    ") out.lines 0 (Syntax.C.writeNumber (Syntax.C.pre p) (Syntax.C.up p) n)) ∧
      Shows (o.indent.getD "    ") out.lines 0
        (Syntax.C.readString (Syntax.C.pre p) (Syntax.C.up p) (Lang.C.suffix p.stringSize) (Syntax.C.native p.stringSize)) ∧
      Shows (o.indent.getD "    ") out.lines 0
        (Syntax.C.writeString (Syntax.C.pre p) (Syntax.C.up p) (Lang.C.suffix p.stringSize) (Syntax.C.native p.stringSize)) := by
  obtain ⟨out, ho, _⟩ := C38_level_partial h hns .c o
  have k0 : ∀ rs, (∀ x y, Syntax.C.pre p = x ++ "_" → Syntax.C.up p = y ++ "_" → Text.C.Link.Library0 x y p.stringSize rs) →
      Shows (o.indent.getD "    ") out.lines 0 rs := fun rs hr =>
    c_library_shows h hns hn hq ho fun x y h1 h2 => .inl (hr x y h1 h2)
  have k1 : ∀ rs, (∀ x y, Syntax.C.pre p = x ++ "_" → Syntax.C.up p = y ++ "_" → Text.C.Link.Library1 x y p.stringSize rs) →
      Shows (o.indent.getD "    ") out.lines 0 rs := fun rs hr =>
    c_library_shows h hns hn hq ho fun x y h1 h2 => .inr (hr x y h1 h2)
  have hz := c_size (usable_of_loads h).stringSize
  refine ⟨out, ho, k0 _ fun x y h1 h2 => ?_, k0 _ fun x y h1 h2 => ?_, k0 _ fun x y h1 h2 => ?_, k1 _ fun x y h1 h2 => ?_,
    k1 _ fun x y h1 h2 => ?_, k1 _ fun x y h1 h2 => ?_, k1 _ fun x y h1 h2 => ?_, k1 _ fun x y h1 h2 => ?_,
    fun n hb => k1 _ fun x y h1 h2 => ?_, fun n hb hc => k1 _ fun x y h1 h2 => ?_, k1 _ fun x y h1 h2 => ?_, k1 _ fun x y h1 h2 => ?_⟩
  · rw [h1, h2]; exact .errors
  · rw [h1]; exact .access
  · rw [h1]; exact .declarations
  · rw [h2]; exact .allocation
  · rw [h1]; exact .isFinished
  · rw [h1, h2]; exact .readBool
  · rw [h1, h2]; exact .writeBool
  · rw [h1, h2]; exact .writeByte
  · rw [h1, h2]
    cases n
    case bool => exact absurd rfl hb
    case byte => exact .readNumber_byte
    case int16 => exact .readNumber_int16
    case uint16 => exact .readNumber_uint16
    case int32 => exact .readNumber_int32
    case uint32 => exact .readNumber_uint32
    case int64 => exact .readNumber_int64
    case uint64 => exact .readNumber_uint64
    case float => exact .readNumber_float
    case double => exact .readNumber_double
  · rw [h1, h2]
    cases n
    case byte => exact absurd rfl hb
    case bool => exact absurd rfl hc
    case int16 => exact .writeNumber_int16
    case uint16 => exact .writeNumber_uint16
    case int32 => exact .writeNumber_int32
    case uint32 => exact .writeNumber_uint32
    case int64 => exact .writeNumber_int64
    case uint64 => exact .writeNumber_uint64
    case float => exact .writeNumber_float
    case double => exact .writeNumber_double
  · rw [h1, h2, ← hz]; exact .readString
  · rw [h1, h2, ← hz]; exact .writeString

theorem demo_name : NameNamespace demoProtocol := by
  intro ns h
  cases h
  exact ⟨by decide, by decide⟩

example : ∃ out, Target.c.outcome {} demoProtocol = .ok out ∧
    Shows "    " out.lines 0 (Syntax.C.readNumber "Demo_" "DEMO_" .int32) ∧
    Shows "    " out.lines 0 (Syntax.C.readString "Demo_" "DEMO_" "UInt16" "uint16_t") := by
  obtain ⟨out, ho, _, _, _, _, _, _, _, _, hr, _, hs, _⟩ :=
    C40_c_library_partial demo_loads (.inr ⟨"Demo", rfl⟩) demo_name demo_squares {}
  exact ⟨out, ho, hr .int32 (by decide), hs⟩

theorem zig_table {p : Protocol} (hu : Usable p) (i e b) : Table (Text.Zig.writer p i e b) Lang.Zig.native "[]const u8" where
  usable := hu
  num n := by cases n <;> rfl
  str := by show List.lookup "string" (Text.Zig.mapping ++ _ ++ _ ++ _) = _; rfl
  own t h1 h2 := own_of (d := Text.Zig.mapping) (by decide) h1 h2

theorem zig_shows {p : Protocol} {o : Options} {out : Out} {rs : List Row} (ho : Target.zig.outcome o p = .ok out)
    (h : Puts (o.indent.getD "    ") (Text.Zig.generate (Text.Zig.writer p o.indent o.embed (Target.boilerplate .zig))) 0 rs) :
    Shows (o.indent.getD "    ") out.lines 0 rs :=
  shows_of_puts (t := .zig) (w := Text.Zig.writer p o.indent o.embed (Target.boilerplate .zig))
    (k := 0) rfl ho ((Text.inside_zero rs).symm ▸ h)

/-- Zig: each struct and message. -/
theorem C40_zig_partial {data : Toml} {p : Protocol} (h : Loads data (.ok p)) (hns : TextualNamespace p) (o : Options) :
    ∃ out, Target.zig.outcome o p = .ok out ∧
      ∀ s ∈ p.structs ++ p.messages, ∃ sz, measureFun Lang.Zig.style p s "self" 0 = some sz ∧
        Shows (o.indent.getD "    ") out.lines 0
          (Syntax.Zig.type p (if s.isMessage then (Lang.Zig.core p).ident s.name else none) s sz) := by
  obtain ⟨out, ho, _⟩ := C38_level_partial h hns .zig o
  have T := zig_table (usable_of_loads h) o.indent o.embed (Target.boilerplate .zig)
  refine ⟨out, ho, fun s hs => ?_⟩
  obtain ⟨sz, hz, _⟩ := Text.Zig.Link.genStruct_emits T rfl hs
  exact ⟨sz, hz, zig_shows ho (Text.Zig.Link.generate_puts T rfl rfl rfl (.inr (.inl ⟨s, hs, sz, hz, rfl⟩)))⟩

/-- Zig: the enums, the numbers of the messages, the type of any message, and the reading of tagged messages. -/
theorem C40_zig_choice_partial {data : Toml} {p : Protocol} (h : Loads data (.ok p)) (hns : TextualNamespace p)
    (o : Options) : ∃ out, Target.zig.outcome o p = .ok out ∧
      (∀ e ∈ p.enums, Shows (o.indent.getD "    ") out.lines 0 (Syntax.Zig.enum e)) ∧
      Shows (o.indent.getD "    ") out.lines 0 (Syntax.Zig.messageTypes (messageArms p 1)) ∧
      Shows (o.indent.getD "    ") out.lines 0 (Syntax.Zig.message (messageArms p 1)) ∧
      Shows (o.indent.getD "    ") out.lines 0 (Syntax.Zig.process p (messageArms p 1)) := by
  obtain ⟨out, ho, _⟩ := C38_level_partial h hns .zig o
  have T := zig_table (usable_of_loads h) o.indent o.embed (Target.boilerplate .zig)
  exact ⟨out, ho, fun e he => zig_shows ho (Text.Zig.Link.generate_puts T rfl rfl rfl (.inl ⟨e, he, rfl⟩)),
    zig_shows ho (Text.Zig.Link.generate_puts T rfl rfl rfl (.inr (.inr (.inl rfl)))),
    zig_shows ho (Text.Zig.Link.generate_puts T rfl rfl rfl (.inr (.inr (.inr (.inl rfl))))),
    zig_shows ho (Text.Zig.Link.generate_puts T rfl rfl rfl (.inr (.inr (.inr (.inr (.inl rfl))))))⟩

/-- Zig: the library functions for numbers, texts and lists, with the types of lengths, the tables of types, and packing
and unpacking. -/
theorem C40_zig_library_partial {data : Toml} {p : Protocol} (h : Loads data (.ok p)) (hns : TextualNamespace p)
    (o : Options) : ∃ out, Target.zig.outcome o p = .ok out ∧
      Shows (o.indent.getD "    ") out.lines 0 (Syntax.Zig.readString (Lang.Zig.native p.stringSize)) ∧
      Shows (o.indent.getD "    ") out.lines 0 (Syntax.Zig.readList (Lang.Zig.native p.listSize)) ∧
      Shows (o.indent.getD "    ") out.lines 0 (Syntax.Zig.writeString (Lang.Zig.native p.listSize)) ∧
      Shows (o.indent.getD "    ") out.lines 0 (Syntax.Zig.writeList (Lang.Zig.native p.listSize)) ∧
      (∀ names, names = (p.structs.filter p.simpleStruct).map (·.name) ++ (p.messages.filter p.simpleStruct).map (·.name) →
        names ≠ [] → Shows (o.indent.getD "    ") out.lines 0 (Syntax.Zig.simpleTypes names)) ∧
      (p.enums ≠ [] → Shows (o.indent.getD "    ") out.lines 0 (Syntax.Zig.enumTypes (p.enums.map (·.name)))) ∧
      Shows (o.indent.getD "    ") out.lines 0 Syntax.Zig.errors ∧
      Shows (o.indent.getD "    ") out.lines 0 Syntax.Zig.numberTypeIsValid ∧
      Shows (o.indent.getD "    ") out.lines 0 Syntax.Zig.typeIsSimple ∧
      Shows (o.indent.getD "    ") out.lines 0 Syntax.Zig.typeIsEnum ∧
      Shows (o.indent.getD "    ") out.lines 0 Syntax.Zig.isValidEnum ∧
      Shows (o.indent.getD "    ") out.lines 0 Syntax.Zig.readNumber ∧
      Shows (o.indent.getD "    ") out.lines 0 Syntax.Zig.writeNumber ∧
      Shows (o.indent.getD "    ") out.lines 0 Syntax.Zig.writeBytes ∧
      Shows (o.indent.getD "    ") out.lines 0 Syntax.Zig.packedSize ∧
      Shows (o.indent.getD "    ") out.lines 0 Syntax.Zig.pack ∧
      Shows (o.indent.getD "    ") out.lines 0 Syntax.Zig.unpack := by
  obtain ⟨out, ho, _⟩ := C38_level_partial h hns .zig o
  have T := zig_table (usable_of_loads h) o.indent o.embed (Target.boilerplate .zig)
  have k : ∀ {rs}, Text.Zig.Link.Library p rs → Shows (o.indent.getD "    ") out.lines 0 rs := fun hl =>
    zig_shows ho (Text.Zig.Link.generate_puts T rfl rfl rfl (.inr (.inr (.inr (.inr (.inr hl))))))
  have f : ∀ {rs}, Text.Zig.Link.Fixed rs → Shows (o.indent.getD "    ") out.lines 0 rs := fun hl =>
    k (.inr (.inr (.inr (.inr (.inr (.inr hl))))))
  have hw := (C01_accepted_wellFormed h).goodNames
  refine ⟨out, ho, k (.inl rfl), k (.inr (.inl rfl)), k (.inr (.inr (.inl rfl))), k (.inr (.inr (.inr (.inl rfl)))),
    fun names e hne => k (.inr (.inr (.inr (.inr (.inl ⟨names, e, hne, fun n hn => (hw n ?_).noSpace, rfl⟩))))),
    fun hne => k (.inr (.inr (.inr (.inr (.inr (.inl ⟨_, rfl, by simpa using hne, fun n hn => (hw n ?_).noSpace, rfl⟩)))))),
    f .errors, f .numberTypeIsValid, f .typeIsSimple, f .typeIsEnum, f .isValidEnum, f .readNumber, f .writeNumber, f .writeBytes, f .packedSize, f .pack, f .unpack⟩
  · rw [e] at hn
    rcases List.mem_append.1 hn with hn | hn
    · obtain ⟨s, hs, rfl⟩ := List.mem_map.1 hn
      exact List.mem_append_left _ (List.mem_append_left _ (List.mem_map_of_mem (List.mem_of_mem_filter hs)))
    · obtain ⟨s, hs, rfl⟩ := List.mem_map.1 hn
      exact List.mem_append_left _ (List.mem_append_right _ (List.mem_map_of_mem (List.mem_of_mem_filter hs)))
  · exact List.mem_append_right _ hn

example : ∃ out, Target.zig.outcome {} demoProtocol = .ok out ∧
    ∀ s ∈ demoProtocol.structs ++ demoProtocol.messages,
      ∃ sz, measureFun Lang.Zig.style demoProtocol s "self" 0 = some sz ∧
        Shows "    " out.lines 0 (Syntax.Zig.type demoProtocol
          (if s.isMessage then (Lang.Zig.core demoProtocol).ident s.name else none) s sz) :=
  C40_zig_partial demo_loads (.inr ⟨"Demo", rfl⟩) {}

example : ∃ out, Target.zig.outcome { indent := some "\t" } demoProtocol = .ok out ∧
    (∀ e ∈ demoProtocol.enums, Shows "\t" out.lines 0 (Syntax.Zig.enum e)) ∧
    Shows "\t" out.lines 0 (Syntax.Zig.messageTypes [(1, "Draw"), (2, "Clear"), (3, "Ping")]) ∧
    Shows "\t" out.lines 0 (Syntax.Zig.message [(1, "Draw"), (2, "Clear"), (3, "Ping")]) ∧
    Shows "\t" out.lines 0 (Syntax.Zig.process demoProtocol [(1, "Draw"), (2, "Clear"), (3, "Ping")]) :=
  C40_zig_choice_partial demo_loads (.inr ⟨"Demo", rfl⟩) { indent := some "\t" }

/-- The library of the same protocol: texts and lists have lengths of two bytes. -/
example : ∃ out, Target.zig.outcome {} demoProtocol = .ok out ∧
    Shows "    " out.lines 0 (Syntax.Zig.readString "u16") ∧ Shows "    " out.lines 0 (Syntax.Zig.simpleTypes ["Point", "Clear", "Ping"]) ∧
    Shows "    " out.lines 0 (Syntax.Zig.enumTypes ["Kind"]) ∧ Shows "    " out.lines 0 Syntax.Zig.readNumber := by
  obtain ⟨out, h, h1, _, _, _, h2, h3, _, _, _, _, _, h4, _⟩ := C40_zig_library_partial demo_loads (.inr ⟨"Demo", rfl⟩) {}
  exact ⟨out, h, h1, h2 _ (by decide) (by decide), h3 (by decide), h4⟩

set_option maxRecDepth 2000 in
/-- For example, the text of the function that reads a `Ping`. -/
example : (Syntax.Zig.reader demoProtocol demoProtocol.messages[2]).map (Row.shown "  ") = [
    "pub fn fromBytes(offset: usize, buffer: []const u8) !struct { value: Ping, bytes_read: usize } {",
    "  const Ping_stamp = (try readNumber(i64, offset + 0, buffer)).value;",
    "  const Ping_how = (try readNumber(Kind, offset + 8, buffer)).value;",
    "  return .{ .value = Ping{",
    "    .stamp = Ping_stamp,",
    "    .how = Ping_how,",
    "  }, .bytes_read = 10 };",
    "}"] := by
  with_unfolding_all rfl

end Beschi.Props
