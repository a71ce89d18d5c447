import Verif.Lang.Create
import Verif.Lang.Text
/-
The TypeScript backend: beschi/writers/typescript.py and
beschi/writers/boilerplate/TypeScript.ts.

Reading is from a `DataAccess` over a `DataView`.  A `DataView` shows part of an underlying buffer;
texts are read from the underlying buffer (TypeScript.ts L83) and everything else through the view,
so the model carries both.  The library proper is modelled for views of a whole buffer.  What
`TextDecoder` makes of bytes that are not valid UTF-8 is the parameter `lossy`.  Every exception,
the library's own and `RangeError`, is reported to the caller.  Not modelled: the text of the
declarations and of error messages; NaN payloads that an engine may not preserve.
-/
namespace Beschi.Lang.TypeScript
open Spec

/-- `self.base_serializers` (typescript.py L36-47). -/
def base : NumTy → String
  | .byte => "Byte" | .bool => "Bool" | .uint16 => "Uint16" | .int16 => "Int16"
  | .uint32 => "Uint32" | .int32 => "Int32" | .uint64 => "Uint64" | .int64 => "Int64"
  | .float => "Float32" | .double => "Float64"

/-- The method called to read a number: `get{..}` (typescript.py L54, L64, L91, L107). -/
def readPrim (n : NumTy) : String := "get" ++ base n

/-- The read of one value, by type (typescript.py L84-112 and, in a list, L61-81). -/
def atom (p : Protocol) (t : String) : RAtom :=
  if t = "string" then .text
  else match p.enum? t with
    | some e => .enum (readPrim e.encoding) t
    | none => match NumTy.ofName? t with
      | some n => .num (readPrim n)
      | none => .call t

/-- `deserializer` (typescript.py L51-112). -/
def deserializer (p : Protocol) (m : Variable) : RStmt :=
  if m.isList then .list (.mem m.name) (.var (m.name ++ "_Length")) (readPrim p.listSize) (atom p m.vartype)
  else .one (.mem m.name) (atom p m.vartype)

/-- Constants declared for one member outside loops (typescript.py L54, L91).  Those inside a loop
(L64) may hide others. -/
def locals (p : Protocol) (m : Variable) : List String :=
  if m.isList then [m.name ++ "_Length"]
  else if (p.enum? m.vartype).isSome then ["_" ++ m.name]
  else []

/-- `fromBytes` (typescript.py L268-325). -/
def fromBytes (p : Protocol) (st : Struct) : RFun where
  decls := ("n" ++ st.name) :: st.members.flatMap (locals p)
  body := st.members.map (deserializer p)
  result := st.members.map fun m => (m.name, .mem m.name)

/-- What each method of `DataAccess` reads (TypeScript.ts L23-79). -/
def readable : String → Option NumTy
  | "getByte" => some .byte
  | "getBool" => some .bool
  | "getInt16" => some .int16
  | "getUint16" => some .uint16
  | "getInt32" => some .int32
  | "getUint32" => some .uint32
  | "getInt64" => some .int64
  | "getUint64" => some .uint64
  | "getFloat32" => some .float
  | "getFloat64" => some .double
  | _ => none

/-- A number-reading method of `DataAccess` (TypeScript.ts L23-79). -/
def readNum (prim : String) (b : Buf) (pos : Nat) : Except Fail (Val × Nat) :=
  match readable prim with
  | some n => takeNum .eof n b pos
  | none => .error .illTyped

/-- `_textDec.decode` (TypeScript.ts L2, L85): drops a byte order mark, replaces invalid bytes. -/
def decode (lossy : List UInt8 → List UInt8) (bs : List UInt8) : List UInt8 :=
  if isUtf8 bs then (if bom.isPrefixOf bs then bs.drop 3 else bs) else lossy bs

/-- `getString` (TypeScript.ts L81-86): the length is read through the view `b`, the bytes are taken
from the underlying buffer.  A negative length is a `RangeError`; a `bigint` does not type check. -/
def readString (lossy : List UInt8 → List UInt8) (p : Protocol) (buffer b : Buf) (pos : Nat) :
    Except Fail (Val × Nat) :=
  if p.stringSize.size = 8 then .error .illTyped
  else match readNum (readPrim p.stringSize) b pos with
  | .error e => .error e
  | .ok (.int i, pos) =>
    if i < 0 then .error .invalid
    else match takeN .eof i.toNat buffer pos with
      | .error e => .error e
      | .ok (bs, pos) => .ok (.str (decode lossy bs), pos)
  | .ok _ => .error .illTyped

/-- Reading at run time; `new Array(n)` fails for a negative `n` (typescript.py L57); a loop counter
of type `bigint` that starts at `0` does not type check (L59). -/
def readSem (lossy : List UInt8 → List UInt8) (p : Protocol) (buffer : Buf) : ReadSem where
  num := readNum
  text := readString lossy p buffer
  enum := checkDeclared p
  count i := if p.listSize.size = 8 then .error .illTyped
    else if i < 0 then .error .invalid else .ok i.toNat

/-- The method called to write a number: `set{..}` (typescript.py L129, L147, L152). -/
def writePrim (n : NumTy) : String := "set" ++ base n

/-- The write of one value, by type (typescript.py L140-157). -/
def watom (p : Protocol) (t : String) : WAtom :=
  if t = "string" then .text
  else match p.enum? t with
    | some e => .num (writePrim e.encoding)
    | none => match NumTy.ofName? t with
      | some n => .num (writePrim n)
      | none => .call t

/-- `serializer` (typescript.py L126-157). -/
def serializer (p : Protocol) (m : Variable) : WStmt :=
  if m.isList then .list m.name (writePrim p.listSize) (watom p m.vartype)
  else .one m.name (watom p m.vartype)

/-- The members of the generated class (typescript.py L230-254, L330, L366); a static method may be
called like a member, the constructor may not. -/
def classMembers (st : Struct) : List String :=
  "constructor" :: st.members.map (·.name) ++
    (if st.isMessage then ["getMessageType", "getSizeInBytes"] else []) ++ ["writeBytes"]

/-- `writeBytes` without the tag (typescript.py L328-374). -/
def writeBytes (p : Protocol) (st : Struct) : WFun where
  decls := classMembers st
  body := st.members.map (serializer p)

/-- What each method of `DataAccess` writes (TypeScript.ts L89-136). -/
def writable : String → Option NumTy
  | "setByte" => some .byte
  | "setBool" => some .bool
  | "setInt16" => some .int16
  | "setUint16" => some .uint16
  | "setInt32" => some .int32
  | "setUint32" => some .uint32
  | "setInt64" => some .int64
  | "setUint64" => some .uint64
  | "setFloat32" => some .float
  | "setFloat64" => some .double
  | _ => none

/-- A number-writing method of `DataAccess` (TypeScript.ts L89-136); numbers out of range wrap. -/
def writeNum (prim : String) (v : Val) : Except Fail (List UInt8) :=
  match writable prim with
  | none => .error .illTyped
  | some n => match toLE n v with
    | some bs => .ok bs
    | none => .error .illTyped

/-- Writing at run time (typescript.py L126-157; `setString`, TypeScript.ts L138-144). -/
def writeSem (p : Protocol) : WriteSem where
  num := writeNum
  text s := if p.stringSize.size = 8 then .error .illTyped else do
    let len ← writeNum (writePrim p.stringSize) (.int s.length)
    return [len, s]
  count k := if p.listSize.size = 8 then .error .illTyped else .ok k

/-- `gen_measurement` (typescript.py L161-210): loops over indices called `{name}_i`; texts are
measured in bytes. -/
def style : MStyle where
  indexed := true
  loopVar name _ := name ++ "_i"
  textVar name _ := name ++ "_i"
  text := .bytes
  texts := .bytes
  inlineDeeper := false
  alwaysReturn := false

/-- `self.type_mapping` (typescript.py L27-34; writer.py L42-49). -/
def native (t : String) : String :=
  match NumTy.ofName? t with
  | some .bool => "boolean"
  | some .int64 | some .uint64 => "bigint"
  | some _ => "number"
  | none => t

/-- Initial values of members (typescript.py L230-246).  `0` or `0n` or `false` given to a member of
another type does not type check. -/
def default (p : Protocol) (m : Variable) : Except Fail DExpr :=
  if m.isList then .ok .list
  else if native m.vartype = "bigint" then match NumTy.ofName? m.vartype with
    | some n => .ok (.num (zeroOf n))
    | none => .error .illTyped
  else if native m.vartype = "boolean" then match NumTy.ofName? m.vartype with
    | some n => .ok (.num (zeroOf n))
    | none => .error .illTyped
  else if native m.vartype = "string" then .ok .text
  else match p.enum? m.vartype with
    | some e => match e.values.head? with
      | some x => .ok (.entry x.2)
      | none => .error .illTyped
    | none => match p.struct? m.vartype with
      | some _ => .ok (.make m.vartype)
      | none => match NumTy.ofName? m.vartype with
        | some n => .ok (.num (zeroOf n))
        | none => .error .illTyped

/-- `fromBytes` of a message (typescript.py L268-325), given a `DataAccess` whose view shows the
bytes `b` of the underlying buffer. -/
def readIn (lossy : List UInt8 → List UInt8) (p : Protocol) (m : String) (buffer b : Buf) (pos : Nat) :
    Except Fail (Val × Nat) := readMessage (readSem lossy p buffer) (fromBytes p) p m b pos

/-- A `DataView`: the underlying buffer, the offset at which the view starts and its length. -/
structure View where
  buffer : Buf
  offset : Nat
  length : Nat

/-- The bytes a view shows. -/
def View.bytes (w : View) : Buf := (w.buffer.drop w.offset).take w.length

/-- `fromBytes` of a message given a `DataView` (typescript.py L273-276): starts at position 0. -/
def readView (lossy : List UInt8 → List UInt8) (p : Protocol) (m : String) (w : View) :
    Except Fail (Val × Nat) := readIn lossy p m w.buffer w.bytes 0

/-- `fromBytes` of a message given a view of a whole buffer. -/
def read (lossy : List UInt8 → List UInt8) (p : Protocol) (m : String) (b : Buf) (pos : Nat) :
    Except Fail (Val × Nat) := readIn lossy p m b b pos

/-- `writeBytes` of a message (typescript.py L328-374). -/
def write (p : Protocol) : String → Bool → Val → Except Fail (List (List UInt8)) :=
  writeMessage (writeSem p) (writeBytes p) p

/-- `getSizeInBytes` (typescript.py L253-265). -/
def size (p : Protocol) : String → Val → Except Fail Nat := sizeMessage style "this" 0 p

/-- The cases of `ProcessRawBytes` (typescript.py L462-476, with the numbers of L410). -/
def dispatch (p : Protocol) (t : Nat) : Option String := (messageArms p 1).lookup t

/-- `ProcessRawBytes` (typescript.py L417-490). -/
def process (lossy : List UInt8 → List UInt8) (p : Protocol) (b : Buf) (pos : Nat) (max : Int) :
    Except Fail (List (String × Val) × Nat) :=
  processBytes (fun pos => decide (b.length ≤ pos))
    (taggedStep (takeTag .eof b) (dispatch p) (fun m pos => read lossy p m b pos) .invalid) b pos max

/-- The generated library (`TypeScriptWriter`, typescript.py) on views of whole buffers. -/
def library (lossy : List UInt8 → List UInt8) (p : Protocol) : Library where
  ident m := (messageIndex p m).map (· + 1)
  dispatch := dispatch p
  write := write p
  read := read lossy p
  size := size p
  process := process lossy p
  packedSize := packedSizeOf (size p)
  pack := packWith [bsci] (fun n => .ok (leBytes 4 n)) (write p)
  unpack b := unpackWith .eof .eof .uint32 (fun n => .ok n) (process lossy p b) b
  create := makeMessage p (default p)

end Beschi.Lang.TypeScript
