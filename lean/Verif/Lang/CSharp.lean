import Verif.Lang.Create
import Verif.Lang.Text
/-
The C# backend: beschi/writers/csharp.py and beschi/writers/boilerplate/CSharp.0.cs, CSharp.1.cs.

Reading is from a `BinaryReader` over a seekable stream, writing to a `BinaryWriter`.  What
`Encoding.UTF8.GetString` makes of bytes that are not valid UTF-8 is the parameter `lossy`.
`EndOfStreamException` is the failure `eof`; messages turn it into the library's own exception
(csharp.py L205-220).  Other exceptions that are not the library's own are `crash`.  Not modelled:
the text of the declarations and of exception messages; overflow of the loop counter for a list of
more than 2^31 elements of size zero.
-/
namespace Beschi.Lang.CSharp
open Spec

/-- `self.base_deserializers` (csharp.py L28-39). -/
def readPrim : NumTy → String
  | .byte => "ReadByte" | .bool => "ReadBoolean" | .uint16 => "ReadUInt16" | .int16 => "ReadInt16"
  | .uint32 => "ReadUInt32" | .int32 => "ReadInt32" | .uint64 => "ReadUInt64"
  | .int64 => "ReadInt64" | .float => "ReadSingle" | .double => "ReadDouble"

/-- `self.type_mapping` for numbers (csharp.py L17-26). -/
def native : NumTy → String
  | .byte => "byte" | .bool => "bool" | .uint16 => "ushort" | .int16 => "short" | .uint32 => "uint"
  | .int32 => "int" | .uint64 => "ulong" | .int64 => "long" | .float => "float" | .double => "double"

/-- The read of one value, by type (csharp.py L66-83 and, in a list, L50-63). -/
def atom (p : Protocol) (t : String) : RAtom :=
  if t = "string" then .text
  else match p.enum? t with
    | some e => .enum (readPrim e.encoding) t
    | none => match NumTy.ofName? t with
      | some n => .num (readPrim n)
      | none => .call t

/-- `deserializer` (csharp.py L41-83). -/
def deserializer (p : Protocol) (m : Variable) : RStmt :=
  if m.isList then .list (.mem m.name) (.var (m.name ++ "_Length")) (readPrim p.listSize) (atom p m.vartype)
  else .one (.mem m.name) (atom p m.vartype)

/-- Local variables declared for one member outside loops (csharp.py L44, L67-68, L72). -/
def outer (p : Protocol) (m : Variable) : List String :=
  if m.isList then [m.name ++ "_Length"]
  else if m.vartype = "string" then [m.name ++ "_Length", m.name ++ "_Buffer"]
  else if (p.enum? m.vartype).isSome then ["_" ++ m.name]
  else []

/-- Local variables declared for one member inside a loop (csharp.py L52, L61-62; with the inner
variable called `string _el`, L67-68).  The loop counter `i{idx}` is left out; it is like no other. -/
def inner (p : Protocol) (m : Variable) : List String :=
  if m.isList then
    if (p.enum? m.vartype).isSome then ["_" ++ m.name]
    else if m.vartype = "string" then ["_el", "string__el_Length", "string__el_Buffer"]
    else ["_el"]
  else []

/-- `FromBytes` (csharp.py L202-222).  A local variable may not have the name of another one in the
same or an enclosing block; loops are apart from one another. -/
def fromBytes (p : Protocol) (st : Struct) : RFun where
  decls := "br" :: ("_n" ++ st.name) :: (st.members.flatMap (outer p) ++ (st.members.flatMap (inner p)).dedup)
  body := st.members.map (deserializer p)
  result := st.members.map fun m => (m.name, .mem m.name)

/-- What each method of `BinaryReader` reads. -/
def readable : String → Option NumTy
  | "ReadByte" => some .byte
  | "ReadBoolean" => some .bool
  | "ReadInt16" => some .int16
  | "ReadUInt16" => some .uint16
  | "ReadInt32" => some .int32
  | "ReadUInt32" => some .uint32
  | "ReadInt64" => some .int64
  | "ReadUInt64" => some .uint64
  | "ReadSingle" => some .float
  | "ReadDouble" => some .double
  | _ => none

/-- A number-reading method of `BinaryReader`. -/
def readNum (prim : String) (b : Buf) (pos : Nat) : Except Fail (Val × Nat) :=
  match readable prim with
  | some n => takeNum .eof n b pos
  | none => .error .illTyped

/-- `(int)x`, unchecked (csharp.py L68). -/
def castInt (i : Int) : Int := toSigned 4 (i % 2 ^ 32).toNat

/-- `Encoding.UTF8.GetString` (csharp.py L69). -/
def decode (lossy : List UInt8 → List UInt8) (bs : List UInt8) : List UInt8 :=
  if isUtf8 bs then bs else lossy bs

/-- Reading of a text (csharp.py L67-69).  `ReadBytes` returns fewer bytes at the end of the stream
and throws for a negative count. -/
def readString (lossy : List UInt8 → List UInt8) (p : Protocol) (b : Buf) (pos : Nat) :
    Except Fail (Val × Nat) :=
  match readNum (readPrim p.stringSize) b pos with
  | .error e => .error e
  | .ok (.int i, pos) =>
    if castInt i < 0 then .error .crash
    else
      let bs := (b.drop pos).take (castInt i).toNat
      .ok (.str (decode lossy bs), pos + bs.length)
  | .ok _ => .error .illTyped

/-- Reading at run time; `for (int i = 0; i < len; i++)` does nothing for a negative length and does
not compile for an `ulong` (csharp.py L47). -/
def readSem (lossy : List UInt8 → List UInt8) (p : Protocol) : ReadSem where
  num := readNum
  text := readString lossy p
  enum := checkDeclared p
  count i := if p.listSize = .uint64 then .error .illTyped else .ok i.toNat

/-- The write of one value, by type (csharp.py L95-105).  The overload of `Write` is chosen by the
static type, for enums after a cast. -/
def watom (p : Protocol) (t : String) : WAtom :=
  if t = "string" then .text
  else match p.enum? t with
    | some e => .num (native e.encoding)
    | none => match NumTy.ofName? t with
      | some n => .num (native n)
      | none => .call t

/-- `serializer` (csharp.py L85-105). -/
def serializer (p : Protocol) (m : Variable) : WStmt :=
  if m.isList then .list m.name (native p.listSize) (watom p m.vartype)
  else .one m.name (watom p m.vartype)

/-- Local variables of `WriteBytes` (csharp.py L96), those in a loop included; loops are apart from
one another. -/
def writeLocals (ms : List Variable) : List String :=
  (ms.filter fun m => !m.isList && m.vartype == "string").map (·.name ++ "_Buffer") ++
  (if ms.any (fun m => m.isList && m.vartype == "string") then ["el_Buffer"] else [])

/-- The generated class and its members (csharp.py L164-187, L202, L226, L236). -/
def classMembers (st : Struct) : List String :=
  st.name :: "FromBytes" :: "WriteBytes" ::
    ((if st.isMessage then ["GetMessageType", "GetSizeInBytes"] else []) ++ st.members.map (·.name))

/-- `WriteBytes` without the tag (csharp.py L225-241).  The members of a class must have distinct
names, different from that of the class; the local variables must have distinct names as well. -/
def writeBytes (p : Protocol) (st : Struct) : WFun where
  decls := (classMembers st).map ("member " ++ ·) ++ (writeLocals st.members).map ("local " ++ ·)
  body := st.members.map (serializer p)

/-- What `BinaryWriter.Write` writes for each static type (csharp.py L87, L97, L101, L103). -/
def writable : String → Option NumTy
  | "byte" => some .byte
  | "bool" => some .bool
  | "short" => some .int16
  | "ushort" => some .uint16
  | "int" => some .int32
  | "uint" => some .uint32
  | "long" => some .int64
  | "ulong" => some .uint64
  | "float" => some .float
  | "double" => some .double
  | _ => none

/-- `BinaryWriter.Write`, after a cast to the type given. -/
def writeNum (prim : String) (v : Val) : Except Fail (List UInt8) :=
  match writable prim with
  | none => .error .illTyped
  | some n => match toLE n v with
    | some bs => .ok bs
    | none => .error .illTyped

/-- Writing at run time (csharp.py L85-105). -/
def writeSem (p : Protocol) : WriteSem where
  num := writeNum
  text s := do
    let len ← writeNum (native p.stringSize) (.int s.length)
    return [len, s]
  count k := .ok k

/-- `gen_measurement` (csharp.py L107-151): loops over elements called `el` and the indentation
level, texts `s`; a text member is measured in UTF-16 units (L144), a text in a list in bytes
(L125). -/
def style : MStyle where
  indexed := false
  loopVar _ lvl := "el" ++ toString lvl
  textVar _ _ := "s"
  text := .utf16
  texts := .bytes
  inlineDeeper := false
  alwaysReturn := false

/-- Initial values of members (csharp.py L171-183); numbers have none and are zero. -/
def default (p : Protocol) (m : Variable) : Except Fail DExpr :=
  if m.isList then .ok .list
  else if m.vartype = "string" then .ok .text
  else match p.enum? m.vartype with
    | some e => match e.values.head? with
      | some x => .ok (.entry x.2)
      | none => .error .illTyped
    | none => match p.struct? m.vartype with
      | some _ => .ok (.make m.vartype)
      | none => match NumTy.ofName? m.vartype with
        | some n => .ok (.num (zeroOf n))
        | none => .error .illTyped

/-- `FromBytes` of a message (csharp.py L202-222). -/
def read (lossy : List UInt8 → List UInt8) (p : Protocol) : String → Buf → Nat → Except Fail (Val × Nat) :=
  readMessage (readSem lossy p) (fromBytes p) p

/-- `WriteBytes` of a message (csharp.py L225-241). -/
def write (p : Protocol) : String → Bool → Val → Except Fail (List (List UInt8)) :=
  writeMessage (writeSem p) (writeBytes p) p

/-- How far inside the types are: one level in a namespace (csharp.py L271-274). -/
def depth (p : Protocol) : Nat :=
  match p.ns with
  | none => 0
  | some (.str s) => if s = "" then 0 else 1
  | some (.int i) => if i = 0 then 0 else 1
  | some (.bool b) => if b then 1 else 0
  | some .other => 1
  | some (.arr l) => if l.isEmpty then 0 else 1
  | some (.table l) => if l.isEmpty then 0 else 1

/-- `GetSizeInBytes` (csharp.py L189-199); it is two levels inside the type, which the names of its
variables depend on (csharp.py L42). -/
def size (p : Protocol) : String → Val → Except Fail Nat := sizeMessage style "this" (depth p + 2) p

/-- The cases of `ProcessRawBytes` (csharp.py L277-280). -/
def dispatch (p : Protocol) (t : Nat) : Option String := (messageArms p 1).lookup t

/-- `ProcessRawBytes` (CSharp.1.cs L29-49). -/
def process (lossy : List UInt8 → List UInt8) (p : Protocol) (b : Buf) (pos : Nat) (max : Int) :
    Except Fail (List (String × Val) × Nat) :=
  processBytes (fun pos => decide (b.length ≤ pos))
    (taggedStep (takeTag .eof b) (dispatch p) (fun m pos => read lossy p m b pos) .invalid) b pos max

/-- `Convert.ToInt32` of an `uint` (CSharp.1.cs L86). -/
def toInt32 (n : Int) : Except Fail Int := if n < 2 ^ 31 then .ok n else .error .crash

/-- The generated library (`CSharpWriter`, csharp.py). -/
def library (lossy : List UInt8 → List UInt8) (p : Protocol) : Library where
  ident m := (messageIndex p m).map (· + 1)
  dispatch := dispatch p
  write := write p
  read := read lossy p
  size := size p
  process := process lossy p
  packedSize := packedSizeOf (size p)
  pack := packWith [bsci] (fun n => .ok (leBytes 4 n)) (write p)
  unpack b := unpackWith .invalid .crash .uint32 toInt32 (process lossy p b) b
  create := makeMessage p (default p)

end Beschi.Lang.CSharp
