/-
Data types of the loader (beschi/protocol.py).

Simplifications: Python `dict`s that keep insertion order are association lists;
Python strings are Lean `String`s; Python `int` is `Int`.
-/
namespace Beschi

/-- A value as returned by `tomllib.loads` (protocol.py L130).  The TOML parser itself is not
modelled.  `other` stands for floats, dates and times: everything that is neither a string, an
integer, a boolean, an array nor a table. -/
inductive Toml where
  | str (s : String)
  | int (i : Int)
  | bool (b : Bool)
  | other
  | arr (l : List Toml)
  | table (kvs : List (String × Toml))
  deriving Inhabited

/-- The keys of NUMERIC_TYPE_SIZES (protocol.py L7-18). -/
inductive NumTy where
  | byte | bool | uint16 | int16 | uint32 | int32 | uint64 | int64 | float | double
  deriving DecidableEq, Repr, Inhabited

namespace NumTy

/-- All keys of NUMERIC_TYPE_SIZES in order (protocol.py L7-18). -/
def all : List NumTy := [byte, bool, uint16, int16, uint32, int32, uint64, int64, float, double]

/-- The key as written (protocol.py L7-18). -/
def name : NumTy → String
  | byte => "byte" | bool => "bool" | uint16 => "uint16" | int16 => "int16"
  | uint32 => "uint32" | int32 => "int32" | uint64 => "uint64" | int64 => "int64"
  | float => "float" | double => "double"

/-- Lookup of a type name among the keys of NUMERIC_TYPE_SIZES (protocol.py L7-18; the test
`vartype in NUMERIC_TYPE_SIZES`). -/
def ofName? : String → Option NumTy
  | "byte" => some byte | "bool" => some bool | "uint16" => some uint16 | "int16" => some int16
  | "uint32" => some uint32 | "int32" => some int32 | "uint64" => some uint64
  | "int64" => some int64 | "float" => some float | "double" => some double
  | _ => none

/-- NUMERIC_TYPE_SIZES (protocol.py L7-18). -/
def size : NumTy → Nat
  | byte => 1 | bool => 1 | uint16 => 2 | int16 => 2 | uint32 => 4 | int32 => 4
  | uint64 => 8 | int64 => 8 | float => 4 | double => 8

/-- NUMERIC_TYPE_RANGES (protocol.py L20-28); `none` for the keys that table lacks. -/
def range? : NumTy → Option (Int × Int)
  | byte => some (0, 255)
  | int16 => some (-32768, 32767)
  | uint16 => some (0, 65535)
  | int32 => some (-2147483648, 2147483647)
  | uint32 => some (0, 4294967295)
  | int64 => some (-9223372036854775808, 9223372036854775807)
  | uint64 => some (0, 18446744073709551615)
  | bool => none
  | float => none
  | double => none

end NumTy

/-- `Variable` (protocol.py L36-47), without the back pointer to the protocol. -/
structure Variable where
  name : String
  vartype : String
  isList : Bool
  deriving DecidableEq, Repr, Inhabited

/-- `Enum` (protocol.py L65-98): name, ordered dictionary of values, chosen encoding. -/
structure Enum where
  name : String
  values : List (String × Int)
  encoding : NumTy
  deriving DecidableEq, Repr, Inhabited

/-- `Struct` (protocol.py L109-113). -/
structure Struct where
  name : String
  members : List Variable
  isMessage : Bool
  deriving DecidableEq, Repr, Inhabited

/-- `Protocol` (protocol.py L118-125).  `namespace` is kept as the raw TOML value because the
loader does not check that it is a string. -/
structure Protocol where
  ns : Option Toml := none
  listSize : NumTy := .uint32
  stringSize : NumTy := .uint32
  structs : List Struct := []
  messages : List Struct := []
  enums : List Enum := []
  deriving Inhabited

namespace Protocol

/-- Dictionary lookup `self.structs[t]` (protocol.py L59, L270). -/
def struct? (p : Protocol) (t : String) : Option Struct := p.structs.find? (·.name == t)
/-- Dictionary lookup `self.messages[t]` (protocol.py L61, L272). -/
def message? (p : Protocol) (t : String) : Option Struct := p.messages.find? (·.name == t)
/-- Dictionary lookup `self.enums[t]` (protocol.py L57, L263). -/
def enum? (p : Protocol) (t : String) : Option Enum := p.enums.find? (·.name == t)

/-- `t in self.structs` (protocol.py L245). -/
def isStruct (p : Protocol) (t : String) : Bool := (p.struct? t).isSome
/-- `t in self.messages` (protocol.py L61, L227). -/
def isMessageName (p : Protocol) (t : String) : Bool := (p.message? t).isSome
/-- `t in self.enums` (protocol.py L57). -/
def isEnum (p : Protocol) (t : String) : Bool := (p.enum? t).isSome

end Protocol

/-- Kinds of Python exceptions raised while loading (protocol.py). -/
inductive PyExc where
  | ValueError | TypeError | KeyError | IndexError | NotImplementedError | RecursionError
  deriving DecidableEq, Repr

/-- The reasons for which `Protocol.__init__` raises, with the names that appear in the message. -/
inductive LoadErr where
  | topLevelShape
  | metaShape
  | namespaceWhitespace
  | namespaceShape
  | badListSize
  | badStringSize
  | notIterable (key : String)
  | entryShape
  | missingName
  | nameNotString
  | memberTypeShape (member : String)
  | emptyMemberType (member : String)
  | listOfLists (member : String)
  | duplicateStruct (name : String)
  | duplicateMessage (name : String)
  | missingValues
  | valuesNotList
  | enumDuplicateValueName (name : String)
  | enumMixed (name : String)
  | enumEntryMissingName
  | enumEntryNameNotString
  | enumEntryMissingValue
  | enumEntryValueNotInt
  | enumEmpty (name : String)
  | enumOutOfRange (name : String)
  | emptyName
  | whitespaceName (name : String)
  | reservedName (name : String)
  | messageShadowsStruct (name : String)
  | whitespaceMember (name : String)
  | messageInMessage (outer inner : String)
  | unknownType (owner type : String)
  | enumDuplicateNumbers (name : String)
  | enumShadowsStruct (name : String)
  | enumShadowsMessage (name : String)
  | enumValueShadowsStruct (name value : String)
  | enumValueShadowsMessage (name value : String)
  | enumValueWhitespace (name value : String)
  | tooManyMessages
  | cycle (a b : String)
  deriving DecidableEq, Repr

/-- The Python exception class of each reason.  Where Python raises different classes for the same
malformed shape (a table expected, something else given) one of them is used. -/
def LoadErr.exc : LoadErr → PyExc
  | .topLevelShape | .metaShape | .namespaceShape | .notIterable _ | .entryShape
  | .nameNotString | .memberTypeShape _ => .TypeError
  | .emptyMemberType _ => .IndexError
  | .enumMixed _ | .enumEntryMissingName | .enumEntryNameNotString | .enumEntryMissingValue
  | .enumEntryValueNotInt => .TypeError
  | .unknownType _ _ => .NotImplementedError
  | .cycle _ _ => .RecursionError
  | _ => .ValueError

end Beschi
