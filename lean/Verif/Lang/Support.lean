import Verif.Protocol.Basic
import Verif.Spec.Wire
import Verif.Spec.WellFormed
import Verif.Spec.Sizes
/-
For which protocols the code generated for a language is claimed to work: conditions on the names of
members (as they appear in the generated code, after renaming), on the size types, and on list
elements.  That the conditions are needed is shown, where it matters, by counterexamples in
Verif/Props.  They never exclude reserved words of the target language or characters it does not
allow in names: such names are outside the model.
-/
namespace Beschi.Lang
open Spec

/-- All structs and messages of a protocol. -/
def bodies (p : Protocol) : List Struct := p.structs ++ p.messages

/-- Member names are distinct within each struct and message. -/
def NamesDistinct (p : Protocol) : Prop := ∀ s ∈ bodies p, (s.members.map (·.name)).Nodup

/-- The unsigned integer types. -/
def Unsigned : NumTy → Prop
  | .byte | .uint16 | .uint32 | .uint64 => True
  | _ => False

instance (n : NumTy) : Decidable (Unsigned n) := by cases n <;> unfold Unsigned <;> infer_instance

/-- Text taken as it is, and only if it is valid. -/
def Checked (bs s : List UInt8) : Prop := bs = s ∧ ValidUtf8 bs

/-- Rust: no list of bytes or booleans; no member called like the reader or the loop variable; no
list whose length variable is called like an earlier member. -/
structure Rust.Supported (p : Protocol) : Prop where
  distinct : NamesDistinct p
  names : ∀ s ∈ bodies p, ∀ m ∈ s.members, m.name ≠ "reader" ∧ m.name ≠ "_el"
  apart : ∀ s ∈ bodies p, s.members.Pairwise fun a b => b.isList = true → b.name ++ "_len" ≠ a.name
  lists : ∀ s ∈ bodies p, ∀ m ∈ s.members, m.isList = true → m.vartype ≠ "byte" ∧ m.vartype ≠ "bool"

/-- Texts of ASCII characters only. -/
def Ascii (s : List UInt8) : Prop := ∀ b ∈ s, b < 0x80

/-- Texts that do not begin with a byte order mark. -/
def NoBom (s : List UInt8) : Prop := ∀ rest, s ≠ 0xEF :: 0xBB :: 0xBF :: rest

/-- C#: local variables of the reader of a struct outside loops. -/
def CSharp.outerNames (p : Protocol) (s : Struct) : List String :=
  "br" :: ("_n" ++ s.name) :: s.members.flatMap fun m =>
    if m.isList then [m.name ++ "_Length"]
    else if m.vartype = "string" then [m.name ++ "_Length", m.name ++ "_Buffer"]
    else if (p.enum? m.vartype).isSome then ["_" ++ m.name]
    else []

/-- C#: local variables of the reader of a struct in the loop for a member. -/
def CSharp.innerNames (p : Protocol) (m : Variable) : List String :=
  if m.isList then
    if (p.enum? m.vartype).isSome then ["_" ++ m.name]
    else if m.vartype = "string" then ["_el", "string__el_Length", "string__el_Buffer"]
    else ["_el"]
  else []

/-- C#: the methods of the class generated for a struct or message. -/
def CSharp.methods (s : Struct) : List String :=
  if s.isMessage then ["FromBytes", "WriteBytes", "GetMessageType", "GetSizeInBytes"]
  else ["FromBytes", "WriteBytes"]

/-- C#: the class, its methods and the members have distinct names; so have the local variables of
the reading function; no text called `el` beside a list of texts; list lengths are not 64-bit
unsigned numbers. -/
structure CSharp.Supported (p : Protocol) : Prop where
  distinct : ∀ s ∈ bodies p, (s.name :: CSharp.methods s ++ s.members.map (·.name)).Nodup
  outer : ∀ s ∈ bodies p, (CSharp.outerNames p s).Nodup
  inner : ∀ s ∈ bodies p, ∀ m ∈ s.members, ∀ x ∈ CSharp.innerNames p m, x ∉ CSharp.outerNames p s
  texts : ∀ s ∈ bodies p, ∀ l ∈ s.members, l.isList = true → l.vartype = "string" →
    ∀ m ∈ s.members, m.isList = false → m.vartype = "string" → m.name ≠ "el"
  listSize : p.listSize ≠ .uint64

/-- Swift: local variables of the reader of a struct outside loops. -/
def Swift.readerNames (p : Protocol) (s : Struct) : List String :=
  ("n" ++ s.name) :: s.members.flatMap fun m =>
    if m.isList then [m.name ++ "_Length"]
    else if (p.enum? m.vartype).isSome then ["_" ++ m.name ++ "Read", "_" ++ m.name]
    else []

/-- Swift: the methods of the type generated for a struct or message. -/
def Swift.methods (s : Struct) : List String :=
  if s.isMessage then ["FromBytes", "WriteBytes", "GetMessageType", "GetSizeInBytes"]
  else ["FromBytes", "WriteBytes"]

/-- Swift: methods and members have distinct names; so have the local variables of the reading
function. -/
structure Swift.Supported (p : Protocol) : Prop where
  distinct : ∀ s ∈ bodies p, (Swift.methods s ++ s.members.map (·.name)).Nodup
  locals : ∀ s ∈ bodies p, (Swift.readerNames p s).Nodup

/-- Texts a decoder accepts that may drop a byte order mark: as they are, unless they begin with
one. -/
def Marked (bs s : List UInt8) : Prop := ValidUtf8 bs ∧ (NoBom bs → bs = s)

/-- The loops that enclose one another when the size of an object is computed: names of list
members, from the outside in. -/
inductive Loops (p : Protocol) : List Variable → List String → Prop
  | text {ms m} : m ∈ ms → m.isList = true → m.vartype = "string" → Loops p ms [m.name]
  | last {ms m s} : m ∈ ms → m.isList = true → s ∈ p.structs → s.name = m.vartype →
      Loops p ms [m.name]
  | list {ms m s ns} : m ∈ ms → m.isList = true → s ∈ p.structs → s.name = m.vartype →
      Loops p s.members ns → Loops p ms (m.name :: ns)
  | member {ms m s ns} : m ∈ ms → m.isList = false → s ∈ p.structs → s.name = m.vartype →
      Loops p s.members ns → Loops p ms ns

/-- TypeScript: local variables of the reader of a struct outside loops. -/
def TypeScript.readerNames (p : Protocol) (s : Struct) : List String :=
  ("n" ++ s.name) :: s.members.flatMap fun m =>
    if m.isList then [m.name ++ "_Length"]
    else if (p.enum? m.vartype).isSome then ["_" ++ m.name]
    else []

/-- TypeScript: the methods of the class generated for a struct or message. -/
def TypeScript.methods (s : Struct) : List String :=
  "constructor" :: "writeBytes" ::
    if s.isMessage then ["getMessageType", "getSizeInBytes"] else []

/-- TypeScript: methods and members have distinct names; so have the local variables of the reading
function; a list never contains, at any depth, a list of the same name; sizes are not 64-bit
numbers; no type is called like one of the types that get a default value of their own. -/
structure TypeScript.Supported (p : Protocol) : Prop where
  distinct : ∀ s ∈ bodies p, (TypeScript.methods s ++ s.members.map (·.name)).Nodup
  locals : ∀ s ∈ bodies p, (TypeScript.readerNames p s).Nodup
  loops : ∀ s ∈ p.messages, ∀ ns, Loops p s.members ns → ns.Nodup
  listSize : p.listSize.size ≠ 8
  stringSize : p.stringSize.size ≠ 8
  builtin : ∀ t ∈ structNames p ++ enumNames p, t ≠ "bigint" ∧ t ≠ "boolean"

/-- Texts a decoder takes that replaces what is not valid and drops a byte order mark: valid text is
taken as it is, unless it begins with one. -/
def Lenient (bs s : List UInt8) : Prop := ValidUtf8 bs → NoBom bs → bs = s

/-- AssemblyScript: local variables of the reader of a struct outside loops. -/
def AssemblyScript.readerNames (p : Protocol) (s : Struct) : List String :=
  ("n" ++ s.name) :: s.members.flatMap fun m =>
    if m.isList then [m.name ++ "_Length"]
    else if (p.enum? m.vartype).isSome ∨ (p.struct? m.vartype).isSome then ["_" ++ m.name]
    else []

/-- AssemblyScript: the methods of the class generated for a struct or message. -/
def AssemblyScript.methods (s : Struct) : List String :=
  "constructor" :: "writeBytes" ::
    if s.isMessage then ["getMessageType", "getSizeInBytes", "writeBytesDA"] else []

/-- AssemblyScript: as for TypeScript; moreover the last listed value of an enum is the largest, the
number after it can be encoded too, and no value is called `_Unknown`. -/
structure AssemblyScript.Supported (p : Protocol) : Prop where
  distinct : ∀ s ∈ bodies p, (AssemblyScript.methods s ++ s.members.map (·.name)).Nodup
  locals : ∀ s ∈ bodies p, (AssemblyScript.readerNames p s).Nodup
  loops : ∀ s ∈ p.messages, ∀ ns, Loops p s.members ns → ns.Nodup
  listSize : p.listSize.size ≠ 8
  stringSize : p.stringSize.size ≠ 8
  builtin : ∀ t ∈ structNames p ++ enumNames p, t ≠ "bigint" ∧ t ≠ "boolean"
  enums : ∀ e ∈ p.enums, (∀ x ∈ e.values, x.1 ≠ "_Unknown") ∧ ∃ pre x i, e.values = pre ++ [(x, i)] ∧
    (∀ y ∈ e.values, y.2 ≤ i) ∧ EnumRange e.encoding (i + 1)

/-- As accepted by a reader that replaces text that is not valid, and enum numbers that are not
declared. -/
def loose : Atoms where
  num := DecNum
  text bs s := ValidUtf8 bs → bs = s
  enum e i j := (∃ x, (x, i) ∈ e.values) → j = i

/-- Every value of the type takes at least one byte. -/
inductive Solid (p : Protocol) : String → Prop
  | num (n : NumTy) : Solid p n.name
  | text : Solid p "string"
  | enum {e} : e ∈ p.enums → Solid p e.name
  | list {s m} : s ∈ p.structs → m ∈ s.members → m.isList = true → Solid p s.name
  | inside {s m} : s ∈ p.structs → m ∈ s.members → Solid p m.vartype → Solid p s.name

/-- Go: the names declared at package level. -/
def Go.packageNames (p : Protocol) : List String :=
  ["binary", "fmt", "io", "readString", "writeString", "getDataOffset", "GetPackedSize",
    "PackMessages", "UnpackMessages", "MessageType", "Message", "ProcessRawBytes"] ++
  p.messages.map (fun m => m.name ++ "Type") ++
  p.enums.flatMap (fun e => [e.name] ++ e.values.map (fun v => e.name ++ v.1) ++ ["isValid" ++ e.name]) ++
  (bodies p).flatMap (fun s => [s.name, "New" ++ s.name ++ "Default", s.name ++ "FromBytes"])

/-- Go: the methods of the type generated for a struct or message. -/
def Go.methods (s : Struct) : List String :=
  if s.isMessage then ["GetMessageType", "GetSizeInBytes", "WriteBytes"] else ["WriteBytes"]

/-- Go: local variables of the reader of a struct outside loops. -/
def Go.readerNames (p : Protocol) (s : Struct) : List String :=
  s.members.flatMap fun m =>
    if m.isList then [m.name ++ "_Len"]
    else if m.vartype ≠ "string" ∧ (p.enum? m.vartype).isSome then ["_" ++ m.name]
    else []

/-- Go: names declared at package level are distinct; so are members and methods, and the local
variables of the reading function; members of structs of fixed size begin with a capital letter; if
list lengths are 64-bit unsigned numbers, no list has elements that take no bytes. -/
structure Go.Supported (p : Protocol) : Prop where
  package : (Go.packageNames p).Nodup
  distinct : ∀ s ∈ bodies p, (s.members.map (·.name) ++ Go.methods s).Nodup
  locals : ∀ s ∈ bodies p, (Go.readerNames p s).Nodup
  exported : ∀ s ∈ p.structs, ¬ Varying p s.name → ∀ m ∈ s.members,
    ∃ c rest, m.name.toList = c :: rest ∧ 'A' ≤ c ∧ c ≤ 'Z'
  elements : p.listSize = .uint64 → ∀ s ∈ bodies p, ∀ m ∈ s.members, m.isList = true →
    Solid p m.vartype

/-- Zig: the names declared at file level. -/
def Zig.fileNames (p : Protocol) : List String :=
  ["std", "DataReaderError", "numberTypeIsValid", "simpleTypes", "enumTypes", "typeIsSimple",
    "typeIsEnum", "isValidEnum", "readNumber", "readString", "readList", "writeNumber",
    "writeString", "writeList", "writeBytes", "getPackedSize", "packMessages", "unpackMessages",
    "MessageType", "Message", "processRawBytes"] ++ enumNames p ++ structNames p ++ messageNames p

/-- Zig: the names of parameters and local variables that do not depend on the protocol, and those
of loop variables. -/
def Zig.localNames (p : Protocol) : List String :=
  ["T", "Te", "Ti", "validNumericTypes", "vt", "value", "f", "offset", "buffer", "actual_type",
    "enum_info", "val", "ei", "raw", "allocator", "len_read", "len", "str", "i", "local_offset",
    "list", "made_count", "list_read", "slice", "item", "m", "tag", "inner", "msg_list", "size",
    "msg", "header_bytes", "b", "msg_count_read", "msg_count", "self", "s", "item2", "max",
    "msg_type_byte", "msg_type", "msg_read"] ++
  (List.range (p.structs.length + 2)).map fun k => "el" ++ toString k

/-- Zig: parameters and local variables of the reader of a struct. -/
def Zig.readerNames (s : Struct) : List String :=
  ["allocator", "offset", "buffer", "local_offset"] ++ s.members.flatMap fun m =>
    [s.name ++ "_" ++ m.name ++ "_read", s.name ++ "_" ++ m.name]

/-- Zig: there is a message; names declared at file level are distinct and no local variable is
called like one; members are not called like functions of their type, nor messages like
`getSizeInBytes`; messages of fixed size contain no structs; structs of fixed size contain numbers
only, at least one; lengths of texts and lists have the same type, an unsigned one. -/
structure Zig.Supported (p : Protocol) : Prop where
  messages : p.messages ≠ []
  file : (Zig.fileNames p ++ Zig.localNames p).Nodup
  union : "getSizeInBytes" ∉ messageNames p
  types : ∀ s ∈ bodies p,
    (s.members.map (·.name) ++ ["getSizeInBytes", "fromBytes", "writeBytes", "deinit"]).Nodup
  locals : ∀ s ∈ bodies p, (Zig.readerNames s ++ Zig.fileNames p).Nodup
  flat : ∀ s ∈ p.messages, ¬ VaryingBody p s.members → ∀ m ∈ s.members, m.vartype ∉ structNames p
  numbers : ∀ s ∈ p.structs, ¬ VaryingBody p s.members →
    s.members ≠ [] ∧ ∀ m ∈ s.members, ∃ n : NumTy, m.vartype = n.name
  sizes : p.stringSize = p.listSize
  unsigned : Unsigned p.stringSize

/-- Zig: texts whose length together with the size of the length is still a length. -/
def Zig.Short (p : Protocol) (s : List UInt8) : Prop :=
  IntRange p.stringSize (p.stringSize.size + s.length)

/-- C: names declared at file level, without their common prefix. -/
def C.fileNames (p : Protocol) : List String :=
  ["err_t", "DataAccess", "IsFinished", "ReadUInt8", "ReadBool", "ReadInt16", "ReadUInt16",
    "ReadInt32", "ReadUInt32", "ReadInt64", "ReadUInt64", "ReadFloat", "ReadDouble", "ReadString",
    "WriteUInt8", "WriteBool", "WriteInt16", "WriteUInt16", "WriteInt32", "WriteUInt32",
    "WriteInt64", "WriteUInt64", "WriteFloat", "WriteDouble", "WriteString",
    "MessageType_BuiltIn_NullMessage", "MessageType", "GetMessageType", "GetSizeInBytes",
    "WriteBytes", "ProcessRawBytes", "Destroy", "DestroyMessageList", "GetPackedSize",
    "PackMessages", "UnpackMessages"] ++
  p.messages.map (fun m => "MessageType_" ++ m.name) ++
  p.enums.flatMap (fun e =>
    [e.name, "IsValid" ++ e.name] ++ e.values.map fun v => e.name ++ "_" ++ v.1) ++
  p.structs.flatMap (fun s => [s.name, s.name ++ "_WriteBytes", s.name ++ "_FromBytes"]) ++
  p.messages.flatMap fun m => [m.name, m.name ++ "_default", m.name ++ "_WriteBytes",
    m.name ++ "_FromBytes", m.name ++ "_GetSizeInBytes", m.name ++ "_Create", m.name ++ "_Cleanup",
    m.name ++ "_Destroy"]

/-- C: the fields of a struct or message: members, and lengths of lists and texts. -/
def C.fieldNames (s : Struct) : List String :=
  (if s.isMessage then ["_mt"] else []) ++ s.members.flatMap fun m =>
    if m.isList then
      (m.name ++ "_len") :: (if m.vartype = "string" then [m.name ++ "_els_len"] else []) ++ [m.name]
    else if m.vartype = "string" then [m.name ++ "_len", m.name]
    else [m.name]

/-- C: names at file level are distinct; the fields of each struct and message are distinct; structs
are declared before they are used; if there are lists of texts, lengths of texts and lists have the
same type; if lengths of lists have 64 bits, no struct is without content. -/
structure C.Supported (p : Protocol) : Prop where
  file : (C.fileNames p).Nodup
  fields : ∀ s ∈ bodies p, (C.fieldNames s).Nodup
  order : ∀ pre s post, p.structs = pre ++ s :: post → ∀ m ∈ s.members,
    m.vartype ∈ structNames p → m.vartype ∈ pre.map (·.name)
  texts : ∀ s ∈ bodies p, ∀ m ∈ s.members, m.isList = true → m.vartype = "string" →
    p.listSize = p.stringSize
  elements : p.listSize = .uint64 ∨ p.listSize = .int64 → ∀ s ∈ p.structs, Solid p s.name

end Beschi.Lang
