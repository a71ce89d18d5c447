import Verif.Protocol.Basic
/-
Specification of well-formed protocols (docs/protocols.md, "Invalid Protocols").
Nothing here mentions the loader's functions.
-/
namespace Beschi.Spec

/-- ASCII whitespace. -/
def spaces : List Char := [' ', '\t', '\n', '\r', '\x0b', '\x0c']

/-- The words that may not be used as names. -/
def reserved : List String :=
  ["byte", "bool", "uint16", "int16", "uint32", "int32", "uint64", "int64", "float", "double",
   "string", "list"]

def lower (s : String) : String := String.ofList (s.toList.map Char.toLower)

def NoSpace (s : String) : Prop := ∀ c ∈ s.toList, c ∉ spaces

/-- A legal name for a struct, message or enum. -/
structure GoodName (s : String) : Prop where
  nonempty : s ≠ ""
  noSpace : NoSpace s
  notReserved : lower s ∉ reserved

def builtinTypes : List String :=
  ["byte", "bool", "uint16", "int16", "uint32", "int32", "uint64", "int64", "float", "double"]

def structNames (p : Protocol) : List String := p.structs.map (·.name)
def messageNames (p : Protocol) : List String := p.messages.map (·.name)
def enumNames (p : Protocol) : List String := p.enums.map (·.name)

/-- A type a member may have. -/
def KnownType (p : Protocol) (t : String) : Prop :=
  t ∈ builtinTypes ∨ t = "string" ∨ t ∈ structNames p ∨ t ∈ enumNames p

/-- An integer type, allowed as a size type. -/
def IntegerType (n : NumTy) : Prop := n ≠ .bool ∧ n ≠ .float ∧ n ≠ .double

/-- The number of bytes of a number (docs/protocols.md, "Types"). -/
def width : NumTy → Nat
  | .byte | .bool => 1
  | .uint16 | .int16 => 2
  | .uint32 | .int32 | .float => 4
  | .uint64 | .int64 | .double => 8

/-- The value range of the three enum encodings. -/
def EnumRange : NumTy → Int → Prop
  | .byte, i => 0 ≤ i ∧ i ≤ 255
  | .int16, i => -32768 ≤ i ∧ i ≤ 32767
  | .int32, i => -2147483648 ≤ i ∧ i ≤ 2147483647
  | _, _ => False

/-- Struct or message body. -/
structure GoodBody (p : Protocol) (s : Struct) : Prop where
  memberSpace : ∀ v ∈ s.members, NoSpace v.name
  memberType : ∀ v ∈ s.members, KnownType p v.vartype
  noMessage : ∀ v ∈ s.members, v.vartype ∉ messageNames p
  memberHidden : ∀ v ∈ s.members, v.name.toList.head? ≠ some '_'

/-- Enum body. -/
structure GoodEnum (e : Enum) : Prop where
  nonempty : e.values ≠ []
  namesDistinct : (e.values.map (·.1)).Nodup
  numbersDistinct : (e.values.map (·.2)).Nodup
  inRange : ∀ i ∈ e.values.map (·.2), EnumRange e.encoding i

/-- The rules a loaded protocol obeys. -/
structure WellFormed (p : Protocol) : Prop where
  structsDistinct : (structNames p).Nodup
  messagesDistinct : (messageNames p).Nodup
  enumsDistinct : (enumNames p).Nodup
  structMessage : ∀ n ∈ structNames p, n ∉ messageNames p
  structEnum : ∀ n ∈ structNames p, n ∉ enumNames p
  messageEnum : ∀ n ∈ messageNames p, n ∉ enumNames p
  goodNames : ∀ n ∈ structNames p ++ messageNames p ++ enumNames p, GoodName n
  bodies : ∀ s ∈ p.structs ++ p.messages, GoodBody p s
  enums : ∀ e ∈ p.enums, GoodEnum e
  enumValueNames : ∀ e ∈ p.enums, ∀ v ∈ e.values.map (·.1),
    v ∉ structNames p ∧ v ∉ messageNames p ∧ NoSpace v
  messageCount : p.messages.length ≤ 255
  listSize : IntegerType p.listSize
  stringSize : IntegerType p.stringSize
  structFlag : ∀ s ∈ p.structs, s.isMessage = false
  messageFlag : ∀ s ∈ p.messages, s.isMessage = true

/-- Member names within one struct or message are distinct. -/
def MembersDistinct (p : Protocol) : Prop :=
  ∀ s ∈ p.structs ++ p.messages, (s.members.map (·.name)).Nodup

/-- Struct `a` has a member, or list member, of struct type `b`. -/
def Contains (p : Protocol) (a b : String) : Prop :=
  ∃ s ∈ p.structs, s.name = a ∧ b ∈ structNames p ∧ ∃ v ∈ s.members, v.vartype = b

/-- `Contains` through one or more steps. -/
inductive ContainsPlus (p : Protocol) : String → String → Prop
  | one {a b} : Contains p a b → ContainsPlus p a b
  | more {a b c} : Contains p a b → ContainsPlus p b c → ContainsPlus p a c

/-- No struct contains itself. -/
def Acyclic (p : Protocol) : Prop := ∀ a, ¬ ContainsPlus p a a

end Beschi.Spec

namespace Beschi

/-- Every table in the document has distinct keys; a TOML parser guarantees this (TOML forbids
defining a key twice). -/
inductive Toml.KeysDistinct : Toml → Prop
  | str (s) : KeysDistinct (.str s)
  | int (i) : KeysDistinct (.int i)
  | bool (b) : KeysDistinct (.bool b)
  | other : KeysDistinct .other
  | arr (l) : (∀ t ∈ l, KeysDistinct t) → KeysDistinct (.arr l)
  | table (kvs) : (kvs.map (·.1)).Nodup → (∀ e ∈ kvs, KeysDistinct e.2) → KeysDistinct (.table kvs)

end Beschi

namespace Beschi.Spec

/-- The encoding is the narrowest of byte, int16, int32 that holds every value of the enum. -/
def Narrowest (e : Enum) : Prop :=
  e.encoding ∈ [NumTy.byte, .int16, .int32] ∧
  (∀ i ∈ e.values.map (·.2), EnumRange e.encoding i) ∧
  ∀ enc ∈ [NumTy.byte, .int16, .int32], (∀ i ∈ e.values.map (·.2), EnumRange enc i) →
    width e.encoding ≤ width enc

/-- One enum declaration of a description: its name and the raw list of values. -/
def enumDecl : Toml → Option (String × List Toml)
  | .table kvs => match kvs.lookup "_name", kvs.lookup "_values" with
    | some (.str n), some (.arr l) => some (n, l)
    | _, _ => none
  | _ => none

/-- The enum declarations of a description, in order. -/
def enumDecls : Toml → List (String × List Toml)
  | .table kvs => match kvs.lookup "enums" with
    | some (.arr l) => l.filterMap enumDecl
    | _ => []
  | _ => []

/-- An enum entry with an explicit number. -/
def entryToml (e : String × Int) : Toml := .table [("_name", .str e.1), ("_value", .int e.2)]

/-- A member declaration. -/
def memberToml (v : Variable) : String × Toml :=
  (v.name, .str (if v.isList then "[" ++ v.vartype ++ "]" else v.vartype))

/-- A struct or message declaration. -/
def structToml (s : Struct) : Toml := .table (("_name", .str s.name) :: s.members.map memberToml)

/-- An enum declaration with explicit numbers. -/
def enumToml (e : Enum) : Toml :=
  .table [("_name", .str e.name), ("_values", .arr (e.values.map entryToml))]

/-- The namespace entry of the `meta` table, if there is one. -/
def nsToml : Option Toml → List (String × Toml)
  | some t => [("namespace", t)]
  | none => []

/-- A protocol written as a description. -/
def toToml (p : Protocol) : Toml :=
  .table [("meta", .table (nsToml p.ns ++
      [("list_size_type", .str p.listSize.name), ("string_size_type", .str p.stringSize.name)])),
    ("structs", .arr (p.structs.map structToml)),
    ("messages", .arr (p.messages.map structToml)),
    ("enums", .arr (p.enums.map enumToml))]

/-- What can be written in a description at all: a textual namespace without whitespace and type
names that do not look like list types. -/
structure Writable (p : Protocol) : Prop where
  ns : p.ns = none ∨ ∃ s, p.ns = some (.str s) ∧ NoSpace s
  plain : ∀ n ∈ structNames p ++ enumNames p, n.toList.head? ≠ some '['
  encodings : ∀ e ∈ p.enums, Narrowest e

end Beschi.Spec
