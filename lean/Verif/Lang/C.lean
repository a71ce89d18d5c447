import Verif.Lang.Create
import Verif.Lang.Buffer
/-
The C backend: beschi/writers/c.py and beschi/writers/boilerplate/C.0.h, C.1.h.

The machine is little-endian with 64-bit `size_t` (the readers and writers copy numbers as they are in
memory).  Undefined behaviour is `crash`; code that a C compiler rejects is `illTyped`.  An allocation
so large that it cannot succeed fails, which the library reports; otherwise allocation succeeds, also
for zero bytes.  A list or text of a message is a pointer with a length beside it; the model has the
elements only, so a list or text whose length does not fit the length's type is `illTyped`.  Messages
and lists in memory are modelled in another file.  Not modelled: C keywords, clashes with macros and
with names of the C library, that the header uses `memcpy` and `memcmp` without including
`string.h` (a program has to include it first).
-/
namespace Beschi.Lang.C
open Spec

/-- `self.base_serializers` (c.py L31-42). -/
def suffix : NumTy → String
  | .byte => "UInt8" | .bool => "Bool" | .uint16 => "UInt16" | .int16 => "Int16"
  | .uint32 => "UInt32" | .int32 => "Int32" | .uint64 => "UInt64" | .int64 => "Int64"
  | .float => "Float" | .double => "Double"

/-! ### Does the file compile? -/

/-- Names declared at file level, without the prefix that all of them have (C.0.h L14-60, c.py
L246-253, L280-294, L422-437). -/
def fileDecls (p : Protocol) : List String :=
  ["err_t", "DataAccess", "IsFinished", "ReadUInt8", "ReadBool", "ReadInt16", "ReadUInt16",
    "ReadInt32", "ReadUInt32", "ReadInt64", "ReadUInt64", "ReadFloat", "ReadDouble", "ReadString",
    "WriteUInt8", "WriteBool", "WriteInt16", "WriteUInt16", "WriteInt32", "WriteUInt32",
    "WriteInt64", "WriteUInt64", "WriteFloat", "WriteDouble", "WriteString",
    "MessageType_BuiltIn_NullMessage", "MessageType", "GetMessageType", "GetSizeInBytes",
    "WriteBytes", "ProcessRawBytes", "Destroy", "DestroyMessageList", "GetPackedSize",
    "PackMessages", "UnpackMessages"] ++
  p.messages.map (fun m => "MessageType_" ++ m.name) ++
  p.enums.flatMap (fun e =>
    [e.name, "IsValid" ++ e.name] ++ e.values.map fun v => e.name ++ "_" ++ v.1) ++
  p.structs.flatMap (fun s => [s.name, s.name ++ "_WriteBytes", s.name ++ "_FromBytes"]) ++
  p.messages.flatMap fun m => [m.name, m.name ++ "_default", m.name ++ "_WriteBytes",
    m.name ++ "_FromBytes", m.name ++ "_GetSizeInBytes", m.name ++ "_Create", m.name ++ "_Cleanup",
    m.name ++ "_Destroy"]

/-- The fields of one member (c.py L262-278). -/
def memberFields (m : Variable) : List String :=
  if m.isList then
    (m.name ++ "_len") :: (if m.vartype = "string" then [m.name ++ "_els_len"] else []) ++ [m.name]
  else if m.vartype = "string" then [m.name ++ "_len", m.name]
  else [m.name]

/-- The fields of a struct or message (c.py L259-278). -/
def fields (st : Struct) : List String :=
  (if st.isMessage then ["_mt"] else []) ++ st.members.flatMap memberFields

/-- Structs are declared in the order of the protocol; each may only use those declared before it
(c.py L443-444, L268-278). -/
def ordered (p : Protocol) : List String → List Struct → Bool
  | _, [] => true
  | seen, st :: sts =>
    st.members.all (fun m => (p.struct? m.vartype).isNone || seen.contains m.vartype) &&
      ordered p (seen ++ [st.name]) sts

/-- The lengths of the texts in a list are declared as list sizes (c.py L265) but read and written as
text sizes (L108, C.1.h L126): a pointer of the wrong type, unless these are the same. -/
def lengthsOk (p : Protocol) (m : Variable) : Bool :=
  !m.isList || m.vartype ≠ "string" || p.listSize == p.stringSize

/-- Whether the header compiles. -/
def fileOk (p : Protocol) : Bool :=
  decide (fileDecls p).Nodup && ordered p [] p.structs &&
  (p.structs ++ p.messages).all fun st =>
    decide (fields st).Nodup && st.members.all (lengthsOk p)

/-! ### Reading -/

/-- The function called to read a number: `Read{..}` (c.py L72, L115, L124). -/
def readPrim (n : NumTy) : String := "Read" ++ suffix n

/-- The read of one value, by type (c.py L103-128 and, in a list, L86-99). -/
def atom (p : Protocol) (t : String) : RAtom :=
  if t = "string" then .text
  else match p.enum? t with
    | some e => .enum (readPrim e.encoding) t
    | none => match NumTy.ofName? t with
      | some n => .num (readPrim n)
      | none => .call t

/-- `deserializer` (c.py L70-128). -/
def deserializer (p : Protocol) (m : Variable) : RStmt :=
  if m.isList then .list (.mem m.name) (.mem (m.name ++ "_len")) (readPrim p.listSize) (atom p m.vartype)
  else .one (.mem m.name) (atom p m.vartype)

/-- `{name}_FromBytes` (c.py L365-374).  That the fields are distinct is part of `fileOk`. -/
def fromBytes (p : Protocol) (st : Struct) : RFun where
  body := st.members.map (deserializer p)
  result := st.members.map fun m => (m.name, .mem m.name)

/-- What each function reads (C.1.h L30-122). -/
def readable : String → Option NumTy
  | "ReadUInt8" => some .byte
  | "ReadBool" => some .bool
  | "ReadInt16" => some .int16
  | "ReadUInt16" => some .uint16
  | "ReadInt32" => some .int32
  | "ReadUInt32" => some .uint32
  | "ReadInt64" => some .int64
  | "ReadUInt64" => some .uint64
  | "ReadFloat" => some .float
  | "ReadDouble" => some .double
  | _ => none

/-- A function that reads a number (C.1.h L30-122). -/
def readNum (prim : String) (b : Buf) (pos : Nat) : Except Fail (Val × Nat) :=
  match readable prim with
  | some n => takeNum .eof n b pos
  | none => .error .illTyped

/-- The number of bytes that `ReadString` allocates, `(size_t)(*len + 1)` (C.1.h L135); `none` where
the sum overflows a signed type. -/
def room : NumTy → Int → Option Int
  | .uint32, i => some ((i + 1) % 2 ^ 32)
  | .int32, i => if i + 1 < 2 ^ 31 then some ((i + 1) % 2 ^ 64) else none
  | .int64, i => if i + 1 < 2 ^ 63 then some ((i + 1) % 2 ^ 64) else none
  | _, i => some ((i + 1) % 2 ^ 64)

/-- `ReadString` after the length (C.1.h L132-141): the end of the text is computed as a `size_t`;
allocations of 2^63 bytes or more fail, which is reported; copying beyond what was allocated is
undefined. -/
def slice (p : Protocol) (i : Int) (b : Buf) (pos : Nat) : Except Fail (List UInt8 × Nat) :=
  if (b.length : Int) < (pos + i) % 2 ^ 64 then .error .eof
  else match room p.stringSize i with
    | none => .error .crash
    | some k =>
      if 2 ^ 63 ≤ k then .error .invalid
      else if i < 0 ∨ k < i + 1 then .error .crash
      else takeN .eof i.toNat b pos

/-- `ReadString` (C.1.h L126-141). -/
def readString (p : Protocol) (b : Buf) (pos : Nat) : Except Fail (Val × Nat) :=
  match readNum (readPrim p.stringSize) b pos with
  | .error e => .error e
  | .ok (.int i, pos) => match slice p i b pos with
    | .error e => .error e
    | .ok (bs, pos) => .ok (.str bs, pos)
  | .ok _ => .error .illTyped

/-- Reading at run time.  The space for the elements of a list is `sizeof(..) * length` bytes
(c.py L78): impossible to allocate if the length is negative, and from about 2^48 on the product may
wrap around, so that the elements are stored outside. -/
def readSem (p : Protocol) : ReadSem where
  num := readNum
  text := readString p
  enum := checkDeclared p
  count i := if i < 0 then .error .invalid else if 2 ^ 48 ≤ i then .error .crash else .ok i.toNat

/-- `{name}_FromBytes` of a message (c.py L365-374). -/
def read (p : Protocol) : String → Buf → Nat → Except Fail (Val × Nat) :=
  readMessage (readSem p) (fromBytes p) p

/-! ### Writing -/

/-- The function called to write a number: `Write{..}` (c.py L132, L151, L153). -/
def writePrim (n : NumTy) : String := "Write" ++ suffix n

/-- The write of one value, by type (c.py L141-155). -/
def watom (p : Protocol) (t : String) : WAtom :=
  if t = "string" then .text
  else match p.enum? t with
    | some e => .num (writePrim e.encoding)
    | none => match NumTy.ofName? t with
      | some n => .num (writePrim n)
      | none => .call t

/-- `serializer` (c.py L130-156). -/
def serializer (p : Protocol) (m : Variable) : WStmt :=
  if m.isList then .list m.name (writePrim p.listSize) (watom p m.vartype)
  else .one m.name (watom p m.vartype)

/-- `{name}_WriteBytes` without the tag (c.py L377-394). -/
def writeBytes (p : Protocol) (st : Struct) : WFun where
  body := st.members.map (serializer p)

/-- What each function writes (C.1.h L145-232). -/
def writable : String → Option NumTy
  | "WriteUInt8" => some .byte
  | "WriteBool" => some .bool
  | "WriteInt16" => some .int16
  | "WriteUInt16" => some .uint16
  | "WriteInt32" => some .int32
  | "WriteUInt32" => some .uint32
  | "WriteInt64" => some .int64
  | "WriteUInt64" => some .uint64
  | "WriteFloat" => some .float
  | "WriteDouble" => some .double
  | _ => none

/-- A function that writes a number (C.1.h L145-232). -/
def writeNum (prim : String) (v : Val) : Except Fail (List UInt8) :=
  match writable prim with
  | none => .error .illTyped
  | some n => match toLE n v with
    | some bs => .ok bs
    | none => .error .illTyped

/-- The length field of a list or text. -/
def lengthField (n : NumTy) (k : Nat) : Except Fail Int :=
  if inRange n k then .ok k else .error .illTyped

/-- Writing at run time (c.py L130-156; `WriteString`, C.1.h L234-246). -/
def writeSem (p : Protocol) : WriteSem where
  num := writeNum
  text s := do
    let k ← lengthField p.stringSize s.length
    let len ← writeNum (writePrim p.stringSize) (.int k)
    return [len, s]
  count := lengthField p.listSize

/-- `{name}_WriteBytes` of a message (c.py L377-394): what is written, piece by piece. -/
def write (p : Protocol) : String → Bool → Val → Except Fail (List (List UInt8)) :=
  writeMessage (writeSem p) (writeBytes p) p

/-- `{name}_WriteBytes` into a buffer at a position: the buffer and the position afterwards. -/
def writeInto (p : Protocol) (m : String) (tag : Bool) (v : Val) (buf : Buf) (off : Nat) :
    Except Fail (Buf × Nat) :=
  match write p m tag v with
  | .error e => .error e
  | .ok cs => fill .eof cs buf off

/-! ### Sizes, defaults, streams, packing -/

/-- `gen_measurement` (c.py L158-200): loops over indices called `i{level}`, starting at 1. -/
def style : MStyle where
  indexed := true
  loopVar _ lvl := "i" ++ toString lvl
  textVar _ lvl := "i" ++ toString lvl
  text := .bytes
  texts := .bytes
  inlineDeeper := false
  alwaysReturn := true

/-- `{name}_GetSizeInBytes` (c.py L326-334). -/
def size (p : Protocol) : String → Val → Except Fail Nat := sizeMessage style "m" 1 p

/-- The members of the constant `{name}_default` (c.py L202-222, L319-324). -/
def default (p : Protocol) (m : Variable) : Except Fail DExpr :=
  if m.isList then .ok .list
  else match NumTy.ofName? m.vartype with
    | some n => .ok (.num (zeroOf n))
    | none =>
      if m.vartype = "string" then .ok .text
      else match p.enum? m.vartype with
        | some e => match e.values.head? with
          | some x => .ok (.entry x.2)
          | none => .error .illTyped
        | none => .ok (.make m.vartype)

/-- The `switch` of `ProcessRawBytes` (c.py L561-582). -/
def dispatch (p : Protocol) (t : Nat) : Option String := (messageArms p 1).lookup t

/-- `ProcessRawBytes` (c.py L535-587).  The result of reading the identifier is not looked at, but
there is always a byte. -/
def process (p : Protocol) (b : Buf) (pos : Nat) (max : Int) :
    Except Fail (List (String × Val) × Nat) :=
  processBytes (fun pos => decide (b.length ≤ pos))
    (taggedStep (takeTag .eof b) (dispatch p) (fun m pos => read p m b pos) .invalid) b pos max

/-- `PackMessages` into a buffer (c.py L651-690): the letters go to the start of the buffer, whatever
the position; nothing checks that there is room for them or for the final zero. -/
def packInto (p : Protocol) (ms : List (String × Val)) (buf : Buf) (off : Nat) :
    Except Fail (Buf × Nat) :=
  match store .crash bsci buf 0 with
  | .error e => .error e
  | .ok (buf, _) => match store .eof (leBytes 4 ms.length) buf (off + 4) with
    | .error e => .error e
    | .ok (buf, off) => match writeAll (write p) ms with
      | .error e => .error e
      | .ok cs => match fill .eof cs buf off with
        | .error e => .error e
        | .ok (buf, off) => match store .eof [0] buf off with
          | .error _ => .ok (buf, off)
          | .ok r => .ok r

/-- `PackMessages` into a buffer of `GetPackedSize` bytes, from its start (c.py L618-690). -/
def pack (p : Protocol) (ms : List (String × Val)) : Except Fail (List (List UInt8)) :=
  match packedSizeOf (size p) ms with
  | .error e => .error e
  | .ok n => match packInto p ms (List.replicate n 0) 0 with
    | .error e => .error e
    | .ok (buf, off) => .ok [buf.take off]

/-- `(int32_t)msgCount` (c.py L706). -/
def limit (n : Int) : Except Fail Int := .ok (if n < 2 ^ 31 then n else n - 2 ^ 32)

/-- `UnpackMessages` (c.py L693-726): the letters are looked for at the start of the buffer, whatever
the position; fewer than four bytes there are undefined behaviour. -/
def unpackFrom (p : Protocol) (b : Buf) (pos : Nat) : Except Fail (List (String × Val)) :=
  match takeN .crash 4 b 0 with
  | .error e => .error e
  | .ok (h, _) =>
    if h ≠ bsci then .error .invalid
    else match takeNum .eof .uint32 b (pos + 4) with
      | .ok (.int n, pos) => match limit n with
        | .error e => .error e
        | .ok k => match process p b pos k with
          | .error e => .error e
          | .ok (ms, _) => if (ms.length : Int) ≠ n then .error .invalid else .ok ms
      | .ok _ => .error .illTyped
      | .error e => .error e

/-- The generated library (`CWriter`, c.py), if it compiles.  Packed data is unpacked from the start
of a buffer. -/
def core (p : Protocol) : Library where
  ident m := (messageIndex p m).map (· + 1)
  dispatch := dispatch p
  write := write p
  read := read p
  size := size p
  process := process p
  packedSize := packedSizeOf (size p)
  pack := pack p
  unpack b pos := unpackFrom p (b.drop pos) 0
  create := makeMessage p (default p)

/-- The generated library (`CWriter`, c.py). -/
def library (p : Protocol) : Library := if fileOk p then core p else broken

end Beschi.Lang.C
