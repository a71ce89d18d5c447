import Verif.Lang.Create
/-
The Zig backend: beschi/writers/zig.py and beschi/writers/boilerplate/Zig.zig.

Runtime checks that fail in the safe build modes (slice bounds, `@intCast` out of range, integer
overflow) are `crash`.  Code that does not compile is `illTyped`: rejected by the compiler for the
file as a whole (`fileOk`), or only once it is used, as Zig analyses functions lazily (`readOk`).
Output goes to a buffer that the program provides; the model allocates one of the size the library
asks for.  Allocation and `deinit` are in Verif/Lang/ZigMemory.lean.  Not modelled: Zig keywords
and names of primitive types.
-/
namespace Beschi.Lang.Zig
open Spec

/-- `self.type_mapping` for numbers (zig.py L17-29). -/
def native : NumTy → String
  | .byte => "u8" | .bool => "bool" | .uint16 => "u16" | .int16 => "i16"
  | .uint32 => "u32" | .int32 => "i32" | .uint64 => "u64" | .int64 => "i64"
  | .float => "f32" | .double => "f64"

/-! ### Does the file compile? -/

/-- Declarations at file level: the import, the boilerplate's (Zig.zig), `MessageType`, `Message`,
`processRawBytes` (zig.py L300, L315, L323, L355), enums, structs and messages (L153, L162). -/
def fileDecls (p : Protocol) : List String :=
  ["std", "DataReaderError", "numberTypeIsValid", "simpleTypes", "enumTypes", "typeIsSimple",
    "typeIsEnum", "isValidEnum", "readNumber", "readString", "readList", "writeNumber",
    "writeString", "writeList", "writeBytes", "getPackedSize", "packMessages", "unpackMessages",
    "MessageType", "Message", "processRawBytes"] ++
  p.enums.map (·.name) ++ p.structs.map (·.name) ++ p.messages.map (·.name)

/-- Parameters, constants, variables and captures with fixed names (Zig.zig; zig.py L92-150,
L177-265, L355-394); Zig does not allow them to hide a declaration at file level.  Loop variables
`el0`, `el1`, .. are taken as used up to the greatest possible nesting. -/
def localDecls (p : Protocol) : List String :=
  ["T", "Te", "Ti", "validNumericTypes", "vt", "value", "f", "offset", "buffer", "actual_type",
    "enum_info", "val", "ei", "raw", "allocator", "len_read", "len", "str", "i", "local_offset",
    "list", "made_count", "list_read", "slice", "item", "m", "tag", "inner", "msg_list", "size",
    "msg", "header_bytes", "b", "msg_count_read", "msg_count", "self", "s", "item2", "max",
    "msg_type_byte", "msg_type", "msg_read"] ++
  (List.range (depth p)).map fun k => "el" ++ toString k

/-- Members and functions of the type generated for a struct or message (zig.py L164-177, L196,
L221-226, L268). -/
def typeDecls (p : Protocol) (st : Struct) : List String :=
  st.members.map (·.name) ++ ["getSizeInBytes", "fromBytes", "writeBytes"] ++
    if p.simpleStruct st then [] else ["deinit"]

/-- Parameters and constants of `fromBytes` (zig.py L45-73, L196-205). -/
def readLocals (p : Protocol) (st : Struct) : List String :=
  if p.simpleStruct st then
    ["offset", "buffer"] ++ st.members.map fun m => st.name ++ "_" ++ m.name
  else
    ["allocator", "offset", "buffer", "local_offset"] ++ st.members.flatMap fun m =>
      [st.name ++ "_" ++ m.name ++ "_read", st.name ++ "_" ++ m.name]

/-- Whether the compiler accepts the file before any function is used: no enum without entries
(`MessageType`, zig.py L315-319), no name declared twice or hidden, no parameter unused - the writer
of a struct of fixed size uses its parameters only for members that are numbers (zig.py L77-78,
L228-231). -/
def fileOk (p : Protocol) : Bool :=
  !p.messages.isEmpty &&
  decide (fileDecls p ++ localDecls p).Nodup &&
  decide (p.messages.map (·.name) ++ ["getSizeInBytes", "writeBytes"]).Nodup &&
  (p.structs ++ p.messages).all (fun st =>
    decide (typeDecls p st).Nodup && decide (readLocals p st ++ fileDecls p).Nodup) &&
  p.structs.all fun st =>
    !p.simpleStruct st || st.members.any fun m => (NumTy.ofName? m.vartype).isSome

/-- Whether a length of this type can be passed on as a `usize` (Zig.zig L105-110, L121). -/
def sizeable (n : NumTy) : Bool := integral n && !signed n

/-- Whether `fromBytes` compiles once it is used, by type of value read.  In a struct of fixed size
the read of a nested struct lacks its `try` (zig.py L52-54). -/
def readOk (p : Protocol) : Nat → List Variable → Bool → Bool
  | 0, _, _ => false
  | fuel + 1, ms, fixed => ms.all fun m =>
    (!m.isList || sizeable p.listSize) &&
    (if (NumTy.ofName? m.vartype).isSome then true
    else if m.vartype = "string" then sizeable p.stringSize
    else if (p.enum? m.vartype).isSome then true
    else match p.struct? m.vartype with
      | none => false
      | some st => !fixed && readOk p fuel st.members (p.simpleStruct st))

/-! ### Reading -/

/-- The read of one value, by type (zig.py L56-72 and, in a list, Zig.zig L149-172). -/
def atom (p : Protocol) (t : String) : RAtom :=
  match NumTy.ofName? t with
  | some n => .num (native n)
  | none =>
    if t = "string" then .text
    else match p.enum? t with
      | some e => .enum (native e.encoding) t
      | none => match p.struct? t with
        | some st => if p.simpleStruct st then .whole t else .call t
        | none => .call t

/-- `deserializer` in a struct whose size varies (zig.py L56-72; `readList`, Zig.zig L116-177).  The
length is a constant inside `readList`. -/
def deserializer (p : Protocol) (st : Struct) (m : Variable) : RStmt :=
  if m.isList then
    .list (.var (st.name ++ "_" ++ m.name)) (.mem m.name) (native p.listSize) (atom p m.vartype)
  else .one (.var (st.name ++ "_" ++ m.name)) (atom p m.vartype)

/-- `fromBytes` of a struct whose size varies (zig.py L196-219).  Distinctness of the declared names
is part of `fileOk`. -/
def fromBytes (p : Protocol) (st : Struct) : RFun where
  body := st.members.map (deserializer p st)
  result := st.members.map fun m => (m.name, .var (st.name ++ "_" ++ m.name))

/-- What `readNumber` reads for each Zig type (Zig.zig L64-99). -/
def readable : String → Option NumTy
  | "u8" => some .byte
  | "bool" => some .bool
  | "u16" => some .uint16
  | "i16" => some .int16
  | "u32" => some .uint32
  | "i32" => some .int32
  | "u64" => some .uint64
  | "i64" => some .int64
  | "f32" => some .float
  | "f64" => some .double
  | _ => none

/-- `readNumber` for a number (Zig.zig L64-99). -/
def readNum (prim : String) (b : Buf) (pos : Nat) : Except Fail (Val × Nat) :=
  match readable prim with
  | some n => takeNum .eof n b pos
  | none => .error .illTyped

/-- `readString` (Zig.zig L101-114).  The end of the text is computed as a `usize`, the number of
bytes read in the type of the length; both trap on overflow.  Nothing looks at the text itself. -/
def readString (p : Protocol) (b : Buf) (pos : Nat) : Except Fail (Val × Nat) :=
  match readNum (native p.stringSize) b pos with
  | .error e => .error e
  | .ok (.int i, q) =>
    if i < 0 then .error .illTyped
    else if 2 ^ 64 ≤ (q : Int) + i then .error .crash
    else match takeN .eof i.toNat b q with
      | .error e => .error e
      | .ok (bs, q) =>
        if inRange p.stringSize (p.stringSize.size + i) then .ok (.str bs, q) else .error .crash
  | .ok _ => .error .illTyped

/-- One member of a struct of fixed size, at its offset (zig.py L46-54). -/
def readFixedMember (p : Protocol) (t : String) (b : Buf) (pos : Nat) : Except Fail Val :=
  match NumTy.ofName? t with
  | some n => (readNum (native n) b pos).map (·.1)
  | none => match p.enum? t with
    | some e => match readNum (native e.encoding) b pos with
      | .ok (.int i, _) => checkDeclared p t i
      | .ok _ => .error .illTyped
      | .error e => .error e
    | none => .error .illTyped

/-- The members of a struct of fixed size; `simple` is the offset of the next one (zig.py L204-207). -/
def readFixedMembers (p : Protocol) (b : Buf) (pos : Nat) :
    Nat → List Variable → Except Fail (List (String × Val))
  | _, [] => .ok []
  | simple, m :: ms => do
    let v ← readFixedMember p m.vartype b (pos + simple)
    let fs ← readFixedMembers p b pos (simple + p.sizeOf m.vartype) ms
    return (m.name, v) :: fs

/-- `fromBytes` of a struct or message of fixed size (zig.py L196-219). -/
def readFixed (p : Protocol) (st : Struct) (b : Buf) (pos : Nat) : Except Fail (Val × Nat) := do
  let fs ← readFixedMembers p b pos 0 st.members
  return (.record fs, pos + p.sizeOf st.name)

/-- Reading at run time. -/
def readSem (p : Protocol) : ReadSem where
  num := readNum
  text := readString p
  enum := checkDeclared p
  count i := if i < 0 then .error .illTyped else .ok i.toNat
  isWhole s := match p.struct? s with
    | some st => p.simpleStruct st
    | none => false
  whole s b pos := match p.struct? s with
    | some st => readFixed p st b pos
    | none => .error .illTyped

/-- `fromBytes` of a message (zig.py L196-219). -/
def read (p : Protocol) (m : String) (b : Buf) (pos : Nat) : Except Fail (Val × Nat) :=
  match p.message? m with
  | none => .error .illTyped
  | some st =>
    if !readOk p (depth p) st.members (p.simpleStruct st) then .error .illTyped
    else if p.simpleStruct st then readFixed p st b pos
    else readMessage (readSem p) (fromBytes p) p m b pos

/-! ### Writing -/

/-- Store bytes in a buffer at an offset: `buffer[offset..][0..n]` traps if the buffer is too short
(Zig.zig L191, L206). -/
def put (buf : Buf) (off : Nat) (bs : List UInt8) : Except Fail Buf :=
  if off + bs.length ≤ buf.length then .ok (buf.take off ++ bs ++ buf.drop (off + bs.length))
  else .error .crash

/-- `writeNumber` (Zig.zig L179-202): the buffer afterwards and the number of bytes written. -/
def writeNumber (n : NumTy) (buf : Buf) (off : Nat) (v : Val) : Except Fail (Buf × Nat) :=
  match toLE n v with
  | none => .error .illTyped
  | some bs => match put buf off bs with
    | .error e => .error e
    | .ok buf => .ok (buf, n.size)

/-- `@intCast` of a length (Zig.zig L205, L212, L255). -/
def intCast (n : NumTy) (k : Nat) : Except Fail Int :=
  if inRange n k then .ok k else .error .crash

/-- `writeString` (Zig.zig L204-208); the length is written as a list size. -/
def writeString (p : Protocol) (buf : Buf) (off : Nat) (s : List UInt8) : Except Fail (Buf × Nat) :=
  match intCast p.listSize s.length with
  | .error e => .error e
  | .ok k => match writeNumber p.listSize buf off (.int k) with
    | .error e => .error e
    | .ok (buf, _) => match put buf (off + p.listSize.size) s with
      | .error e => .error e
      | .ok buf => .ok (buf, p.listSize.size + s.length)

/-- A function that writes a value into a buffer at an offset and returns the number of bytes. -/
abbrev Write := Buf → Nat → Val → Except Fail (Buf × Nat)

/-- The loop of `writeList` (Zig.zig L214-228): the buffer and the offset reached. -/
def writeItems (wr : Write) : List Val → Buf → Nat → Except Fail (Buf × Nat)
  | [], buf, off => .ok (buf, off)
  | v :: vs, buf, off => match wr buf off v with
    | .error e => .error e
    | .ok (buf, k) => writeItems wr vs buf (off + k)

/-- `writeList` (Zig.zig L210-230). -/
def writeList (p : Protocol) (wr : Write) : Write
  | buf, off, .list vs => match intCast p.listSize vs.length with
    | .error e => .error e
    | .ok k => match writeNumber p.listSize buf off (.int k) with
      | .error e => .error e
      | .ok (buf, n) => match writeItems wr vs buf (off + n) with
        | .error e => .error e
        | .ok (buf, last) => .ok (buf, last - off)
  | _, _, _ => .error .illTyped

/-- The members of a struct whose size varies, or of a message (zig.py L80-87, L259-265): the buffer
and the offset reached. -/
def writeMembers (p : Protocol) (wr : String → Write) (fs : List (String × Val)) :
    List Variable → Buf → Nat → Except Fail (Buf × Nat)
  | [], buf, off => .ok (buf, off)
  | m :: ms, buf, off => match fs.lookup m.name with
    | none => .error .illTyped
    | some v =>
      match (if m.isList then writeList p (wr m.vartype) buf off v else wr m.vartype buf off v) with
      | .error e => .error e
      | .ok (buf, k) => writeMembers p wr fs ms buf (off + k)

/-- The members of a struct of fixed size (zig.py L76-78, L229, L257-261): numbers are written at
their offset, everything else is left out. -/
def writeFixed (p : Protocol) (fs : List (String × Val)) (off : Nat) :
    Nat → List Variable → Buf → Except Fail (Buf × Nat)
  | simple, [], buf => .ok (buf, simple)
  | simple, m :: ms, buf => match NumTy.ofName? m.vartype with
    | none => writeFixed p fs off (simple + p.sizeOf m.vartype) ms buf
    | some n => match fs.lookup m.name with
      | none => .error .illTyped
      | some v => match writeNumber n buf (off + simple) v with
        | .error e => .error e
        | .ok (buf, _) => writeFixed p fs off (simple + p.sizeOf m.vartype) ms buf

/-- Write one value, by type (zig.py L82-87; in a list Zig.zig L215-226); structs by their
`writeBytes` (zig.py L224-265). -/
def writeValue (p : Protocol) : Nat → String → Write
  | 0, _, _, _, _ => .error .fuel
  | fuel + 1, t, buf, off, v =>
    match NumTy.ofName? t with
    | some n => writeNumber n buf off v
    | none =>
      if t = "string" then match v with
        | .str s => writeString p buf off s
        | _ => .error .illTyped
      else match p.enum? t with
        | some e => writeNumber e.encoding buf off v
        | none => match p.struct? t, v with
          | some st, .record fs =>
            if p.simpleStruct st then writeFixed p fs off 0 st.members buf
            else match writeMembers p (writeValue p fuel) fs st.members buf off with
              | .error e => .error e
              | .ok (buf, last) => .ok (buf, last - off)
          | _, _ => .error .illTyped

/-- The identifier of a message, if asked for (zig.py L236-240, L246-250): the buffer and the offset
after it. -/
def writeTag (i : Nat) (tag : Bool) (buf : Buf) (off : Nat) : Except Fail (Buf × Nat) :=
  if tag then match writeNumber .byte buf off (.int (i + 1)) with
    | .error e => .error e
    | .ok (buf, k) => .ok (buf, off + k)
  else .ok (buf, off)

/-- `writeBytes` of a message (zig.py L221-265): the buffer and the number of bytes written. -/
def writeBytes (p : Protocol) (m : String) (tag : Bool) : Write
  | buf, off, .record fs => match p.message? m, messageIndex p m with
    | some st, some i => match writeTag i tag buf off with
      | .error e => .error e
      | .ok (buf, start) =>
        match writeMembers p (writeValue p (depth p)) fs st.members buf start with
        | .error e => .error e
        | .ok (buf, last) => .ok (buf, last - off)
    | _, _ => .error .illTyped
  | _, _, _ => .error .illTyped

/-! ### Sizes -/

/-- `gen_measurement` (zig.py L92-132): loops over elements called `el{depth}`, texts `s`, measured
in bytes. -/
def style : MStyle where
  indexed := false
  loopVar _ lvl := "el" ++ toString lvl
  textVar _ _ := "s"
  text := .bytes
  texts := .bytes
  inlineDeeper := true
  alwaysReturn := true

/-- `getSizeInBytes` (zig.py L177-189). -/
def size (p : Protocol) : String → Val → Except Fail Nat := sizeMessage style "self" 0 p

/-- The bytes of a message: `writeBytes` into a buffer of `getSizeInBytes` bytes, one more for the
identifier; those it reports as written. -/
def write (p : Protocol) (m : String) (tag : Bool) (v : Val) : Except Fail (List (List UInt8)) :=
  match size p m v with
  | .error e => .error e
  | .ok n => match writeBytes p m tag (List.replicate (n + if tag then 1 else 0) 0) 0 v with
    | .error e => .error e
    | .ok (buf, k) => .ok [buf.take k]

/-! ### Defaults, streams, packing -/

/-- Initial values of members (zig.py L31-43, L164-175). -/
def default (p : Protocol) (m : Variable) : Except Fail DExpr :=
  if m.isList then .ok .list
  else match NumTy.ofName? m.vartype with
    | some n => .ok (.num (zeroOf n))
    | none =>
      if m.vartype = "string" then .ok .text
      else match p.enum? m.vartype with
        | some e => match e.values.head? with
          | some x => .ok (.entry x.2)
          | none => .error .illTyped
        | none => .ok (.make m.vartype)

/-- `MessageType` is numbered from 0; the identifier is one more (zig.py L315-319, L237, L375). -/
def dispatch (p : Protocol) (t : Nat) : Option String := (messageArms p 1).lookup t

/-- The loop of `processRawBytes` (zig.py L362-392); it uses the readers of all messages. -/
def processData (p : Protocol) (b : Buf) (pos : Nat) (max : Int) :
    Except Fail (List (String × Val) × Nat) :=
  if p.messages.all fun st => readOk p (depth p) st.members (p.simpleStruct st) then
    processBytes (fun pos => decide (b.length ≤ pos))
      (taggedStep (takeTag .eof b) (dispatch p) (fun m pos => read p m b pos) .invalid) b pos max
  else .error .illTyped

/-- `processRawBytes` (zig.py L355-394): begins at the start of the slice it is given. -/
def process (p : Protocol) (b : Buf) (pos : Nat) (max : Int) :
    Except Fail (List (String × Val) × Nat) :=
  rebased (fun b q => processData p b q max) b pos

/-- Write messages one after the other, each with its identifier (Zig.zig L257-259). -/
def writeAllInto (p : Protocol) : List (String × Val) → Buf → Nat → Except Fail (Buf × Nat)
  | [], buf, off => .ok (buf, off)
  | (m, v) :: ms, buf, off => match writeBytes p m true buf off v with
    | .error e => .error e
    | .ok (buf, k) => writeAllInto p ms buf (off + k)

/-- Write the letters one by one (Zig.zig L252-254). -/
def writeLetters : List UInt8 → Buf → Nat → Except Fail (Buf × Nat)
  | [], buf, off => .ok (buf, off)
  | x :: xs, buf, off => match writeNumber .byte buf off (.int x.toNat) with
    | .error e => .error e
    | .ok (buf, k) => writeLetters xs buf (off + k)

/-- `packMessages` (Zig.zig L248-262). -/
def packInto (p : Protocol) (ms : List (String × Val)) (buf : Buf) : Except Fail Buf :=
  match writeLetters bsci buf 0 with
  | .error e => .error e
  | .ok (buf, off) => match intCast .uint32 ms.length with
    | .error e => .error e
    | .ok k => match writeNumber .uint32 buf off (.int k) with
      | .error e => .error e
      | .ok (buf, n) => match writeAllInto p ms buf (off + n) with
        | .error e => .error e
        | .ok (buf, off) => (writeNumber .byte buf off (.int 0)).map (·.1)

/-- `packMessages` into a buffer of `getPackedSize` bytes (Zig.zig L238-262). -/
def pack (p : Protocol) (ms : List (String × Val)) : Except Fail (List (List UInt8)) :=
  match packedSizeOf (size p) ms with
  | .error e => .error e
  | .ok n => (packInto p ms (List.replicate n 0)).map ([·])

/-- `@intCast` of the number of messages to `i32` (Zig.zig L276). -/
def limit (n : Int) : Except Fail Int := if n < 2 ^ 31 then .ok n else .error .crash

/-- The generated library (`ZigWriter`, zig.py), if the file compiles. -/
def core (p : Protocol) : Library where
  ident m := (messageIndex p m).map (· + 1)
  dispatch := dispatch p
  write := write p
  read := read p
  size := size p
  process := process p
  packedSize := packedSizeOf (size p)
  pack := pack p
  unpack b := unpackWith .crash .eof .uint32 limit (process p b) b
  create := makeMessage p (default p)

/-- The generated library (`ZigWriter`, zig.py). -/
def library (p : Protocol) : Library := if fileOk p then core p else broken

end Beschi.Lang.Zig
