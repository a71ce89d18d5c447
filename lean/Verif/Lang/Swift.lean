import Verif.Lang.Create
import Verif.Lang.Text
/-
The Swift backend: beschi/writers/swift.py and beschi/writers/boilerplate/Swift.0.swift,
Swift.1.swift.

Data is a `Data` whose indices start at zero (a slice of another `Data` keeps the other's indices;
that is outside the model).  What `String(data:encoding:)` makes of a valid text that begins with a
byte order mark is the parameter `mark`.  Runtime traps (a range with its ends in the wrong order, an
integer conversion out of range, arithmetic overflow) are `crash`.  Not modelled: the text of the
declarations, `GetSizeInBytes` beyond 2^32.  A property and a method of the same name are taken not
to compile.
-/
namespace Beschi.Lang.Swift
open Spec

/-- `self.type_mapping` for numbers (swift.py L17-26). -/
def native : NumTy → String
  | .byte => "UInt8" | .bool => "Bool" | .uint16 => "UInt16" | .int16 => "Int16"
  | .uint32 => "UInt32" | .int32 => "Int32" | .uint64 => "UInt64" | .int64 => "Int64"
  | .float => "Float32" | .double => "Float64"

/-- The method called to read a number: `Get{..}` (swift.py L45, L51, L64, L67). -/
def readPrim (n : NumTy) : String := "Get" ++ native n

/-- The read of one value, by type (swift.py L63-75 and, in a list, L49-60). -/
def atom (p : Protocol) (t : String) : RAtom :=
  match NumTy.ofName? t with
  | some n => .num (readPrim n)
  | none =>
    if t = "string" then .text
    else match p.enum? t with
      | some e => .enum (readPrim e.encoding) t
      | none => .call t

/-- `deserializer` (swift.py L43-75). -/
def deserializer (p : Protocol) (m : Variable) : RStmt :=
  if m.isList then .list (.mem m.name) (.var (m.name ++ "_Length")) (readPrim p.listSize) (atom p m.vartype)
  else .one (.mem m.name) (atom p m.vartype)

/-- Constants declared for one member outside loops (swift.py L45, L67-68).  Those inside a loop
(L51-52, L58) may hide others. -/
def locals (p : Protocol) (m : Variable) : List String :=
  if m.isList then [m.name ++ "_Length"]
  else if (p.enum? m.vartype).isSome then ["_" ++ m.name ++ "Read", "_" ++ m.name]
  else []

/-- `FromBytes(dataReader:)` (swift.py L198-210). -/
def fromBytes (p : Protocol) (st : Struct) : RFun where
  decls := ("n" ++ st.name) :: st.members.flatMap (locals p)
  body := st.members.map (deserializer p)
  result := st.members.map fun m => (m.name, .mem m.name)

/-- What each method of `DataReader` reads (Swift.0.swift L17-136). -/
def readable : String → Option NumTy
  | "GetUInt8" => some .byte
  | "GetBool" => some .bool
  | "GetInt16" => some .int16
  | "GetUInt16" => some .uint16
  | "GetInt32" => some .int32
  | "GetUInt32" => some .uint32
  | "GetInt64" => some .int64
  | "GetUInt64" => some .uint64
  | "GetFloat32" => some .float
  | "GetFloat64" => some .double
  | _ => none

/-- A number-reading method of `DataReader` (Swift.0.swift L17-136). -/
def readNum (prim : String) (b : Buf) (pos : Nat) : Except Fail (Val × Nat) :=
  match readable prim with
  | some n => takeNum .eof n b pos
  | none => .error .illTyped

/-- `String(data:encoding:)` for UTF-8 (Swift.0.swift L145): fails if the bytes are not valid. -/
def decode (mark : List UInt8 → List UInt8) (bs : List UInt8) : Except Fail (List UInt8) :=
  if isUtf8 bs then .ok (if bom.isPrefixOf bs then mark bs else bs) else .error .invalid

/-- The check and the slice of `GetString` (Swift.0.swift L139-143) for a length that has been read:
`Int(..)` traps beyond 2^63, the sum traps on overflow, a negative length makes a range with its ends
in the wrong order. -/
def slice (i : Int) (b : Buf) (pos : Nat) : Except Fail (List UInt8 × Nat) :=
  if i < 0 ∨ 2 ^ 63 ≤ i ∨ 2 ^ 63 ≤ (pos : Int) + i then .error .crash
  else takeN .eof i.toNat b pos

/-- `GetString` (Swift.0.swift L138-151). -/
def readString (mark : List UInt8 → List UInt8) (p : Protocol) (b : Buf) (pos : Nat) :
    Except Fail (Val × Nat) :=
  match readNum (readPrim p.stringSize) b pos with
  | .error e => .error e
  | .ok (.int i, pos) => match slice i b pos with
    | .error e => .error e
    | .ok (bs, pos) => match decode mark bs with
      | .error e => .error e
      | .ok s => .ok (.str s, pos)
  | .ok _ => .error .illTyped

/-- Reading at run time; `0..<n` traps for a negative `n` (swift.py L47). -/
def readSem (mark : List UInt8 → List UInt8) (p : Protocol) : ReadSem where
  num := readNum
  text := readString mark p
  enum := checkDeclared p
  count i := if i < 0 then .error .crash else .ok i.toNat

/-- The label of the `Write` method for a number: the type in lower case (swift.py L79, L87, L90). -/
def label : NumTy → String
  | .byte => "uint8" | .bool => "bool" | .uint16 => "uint16" | .int16 => "int16"
  | .uint32 => "uint32" | .int32 => "int32" | .uint64 => "uint64" | .int64 => "int64"
  | .float => "float32" | .double => "float64"

/-- The write of one value, by type (swift.py L86-92). -/
def watom (p : Protocol) (t : String) : WAtom :=
  match NumTy.ofName? t with
  | some n => .num (label n)
  | none =>
    if t = "string" then .text
    else match p.enum? t with
      | some e => .num (label e.encoding)
      | none => .call t

/-- `serializer` (swift.py L77-92). -/
def serializer (p : Protocol) (m : Variable) : WStmt :=
  if m.isList then .list m.name (label p.listSize) (watom p m.vartype)
  else .one m.name (watom p m.vartype)

/-- The members of the generated type (swift.py L151-179, L191-201, L214, L223). -/
def typeMembers (st : Struct) : List String :=
  (if st.isMessage then ["GetMessageType", "GetSizeInBytes"] else []) ++
    "FromBytes" :: "WriteBytes" :: st.members.map (·.name)

/-- `WriteBytes` without the tag (swift.py L213-227). -/
def writeBytes (p : Protocol) (st : Struct) : WFun where
  decls := typeMembers st
  body := st.members.map (serializer p)

/-- What each `Write` method of `DataWriter` writes (Swift.0.swift L169-222). -/
def writable : String → Option NumTy
  | "uint8" => some .byte
  | "bool" => some .bool
  | "int16" => some .int16
  | "uint16" => some .uint16
  | "int32" => some .int32
  | "uint32" => some .uint32
  | "int64" => some .int64
  | "uint64" => some .uint64
  | "float32" => some .float
  | "float64" => some .double
  | _ => none

/-- A `Write` method of `DataWriter` (Swift.0.swift L169-222). -/
def writeNum (prim : String) (v : Val) : Except Fail (List UInt8) :=
  match writable prim with
  | none => .error .illTyped
  | some n => match toLE n v with
    | some bs => .ok bs
    | none => .error .illTyped

/-- Conversion to an integer type, `UInt16(n)` and the like: traps when out of range. -/
def convert (n : NumTy) (k : Nat) : Except Fail Int :=
  if inRange n k then .ok k else .error .crash

/-- Writing at run time (swift.py L77-92; `Write(string:)`, Swift.0.swift L224-228). -/
def writeSem (p : Protocol) : WriteSem where
  num := writeNum
  text s := do
    let k ← convert p.stringSize s.length
    let len ← writeNum (label p.stringSize) (.int k)
    return [len, s]
  count := convert p.listSize

/-- `gen_measurement` (swift.py L94-133): loops over elements called `{name}_el`, texts `s`, measured
in bytes. -/
def style : MStyle where
  indexed := false
  loopVar name _ := name ++ "_el"
  textVar _ _ := "s"
  text := .bytes
  texts := .bytes
  inlineDeeper := false
  alwaysReturn := false

/-- Initial values of members (swift.py L29-41, L151-162). -/
def default (p : Protocol) (m : Variable) : Except Fail DExpr :=
  if m.isList then .ok .list
  else match NumTy.ofName? m.vartype with
    | some n => .ok (.num (zeroOf n))
    | none =>
      if m.vartype = "string" then .ok .text
      else match p.enum? m.vartype with
        | some e => match e.values.head? with
          | some x => .ok (.entry x.2)
          | none => .error .illTyped
        | none => .ok (.make m.vartype)

/-- `FromBytes(dataReader:)` of a message (swift.py L198-210); `FromBytes(_:)` calls it at the start
of the data (L191-195). -/
def read (mark : List UInt8 → List UInt8) (p : Protocol) : String → Buf → Nat → Except Fail (Val × Nat) :=
  readMessage (readSem mark p) (fromBytes p) p

/-- `WriteBytes` of a message (swift.py L213-227). -/
def write (p : Protocol) : String → Bool → Val → Except Fail (List (List UInt8)) :=
  writeMessage (writeSem p) (writeBytes p) p

/-- `GetSizeInBytes` (swift.py L179-188). -/
def size (p : Protocol) : String → Val → Except Fail Nat := sizeMessage style "self" 0 p

/-- `MessageType(rawValue:)` and the `switch` of `ProcessRawBytes` (swift.py L263-269, L297-316). -/
def dispatch (p : Protocol) (t : Nat) : Option String := (messageArms p 1).lookup t

/-- The loop of `ProcessRawBytes` (swift.py L280-319) on data from its start. -/
def processData (mark : List UInt8 → List UInt8) (p : Protocol) (b : Buf) (pos : Nat) (max : Int) :
    Except Fail (List (String × Val) × Nat) :=
  processBytes (fun pos => decide (b.length ≤ pos))
    (taggedStep (takeTag .eof b) (dispatch p) (fun m pos => read mark p m b pos) .invalid) b pos max

/-- `ProcessRawBytes` (swift.py L272-321): makes a reader at the start of the data it is given. -/
def process (mark : List UInt8 → List UInt8) (p : Protocol) (b : Buf) (pos : Nat) (max : Int) :
    Except Fail (List (String × Val) × Nat) :=
  rebased (fun b q => processData mark p b q max) b pos

/-- `UInt32(self.count)` (Swift.1.swift L16). -/
def countBytes (n : Nat) : Except Fail (List UInt8) :=
  if n < 2 ^ 32 then .ok (leBytes 4 n) else .error .crash

/-- The generated library (`SwiftWriter`, swift.py). -/
def library (mark : List UInt8 → List UInt8) (p : Protocol) : Library where
  ident m := (messageIndex p m).map (· + 1)
  dispatch := dispatch p
  write := write p
  read := read mark p
  size := size p
  process := process mark p
  packedSize := packedSizeOf (size p)
  pack := packWith [bsci] countBytes (write p)
  unpack b := unpackWith .crash .eof .uint32 (fun n => .ok n) (process mark p b) b
  create := makeMessage p (default p)

end Beschi.Lang.Swift
