import Verif.Lang.Create
import Verif.Lang.Names
import Verif.Lang.Text
/-
The Go backend: beschi/writers/go.py and beschi/writers/boilerplate/Go.go.

The functions below take the protocol with the members already renamed (go.py L22-32); `library`
does the renaming.  Go code reports errors by return values next to the (partly filled) results, and
the generated code drops some of them, so that reading has a meaning of its own here (`Outcome`).
`encoding/binary` and `io` are assumed to behave as documented: `binary.Read` into a fixed-size value
first fills a buffer with `io.ReadFull`, which consumes everything when the data is too short, and then
decodes it; setting a struct field whose name is not exported panics.

Not modelled: the text of the declarations, the texts of errors, `getDataOffset` (only used in
them), running out of memory.  "Exported" is modelled for names that start with an ASCII letter.
-/
namespace Beschi.Lang.Go
open Spec

/-- `self.type_mapping` for numbers (go.py L38-47). -/
def native : NumTy → String
  | .byte => "byte" | .bool => "bool" | .uint16 => "uint16" | .int16 => "int16" | .uint32 => "uint32"
  | .int32 => "int32" | .uint64 => "uint64" | .int64 => "int64" | .float => "float32"
  | .double => "float64"

/-- The number type behind a Go type name. -/
def ofNative : String → Option NumTy
  | "byte" => some .byte | "bool" => some .bool | "uint16" => some .uint16 | "int16" => some .int16
  | "uint32" => some .uint32 | "int32" => some .int32 | "uint64" => some .uint64
  | "int64" => some .int64 | "float32" => some .float | "float64" => some .double
  | _ => none

/-! ### Reading -/

/-- The outcome of a reading function: it panics (or was not compiled), or it returns with what it
has stored so far, the position of the reader, and possibly an error. -/
abbrev Outcome (α : Type) := Except Fail (α × Nat × Option Fail)

/-- The zero value of a type (The Go Programming Language Specification, "The zero value"). -/
def zero (p : Protocol) : Nat → String → Val
  | 0, _ => .record []
  | fuel + 1, t => match NumTy.ofName? t with
    | some n => zeroOf n
    | none =>
      if t = "string" then .str []
      else match p.enum? t with
        | some _ => .int 0
        | none => match p.struct? t with
          | some st => .record (st.members.map fun m =>
              (m.name, if m.isList then .list [] else zero p fuel m.vartype))
          | none => .record []

/-- The zero value of a member (go.py L209-213 give its type). -/
def zeroMember (p : Protocol) (m : Variable) : Val :=
  if m.isList then .list [] else zero p (depth p) m.vartype

/-- How a value of the type is decoded by `binary.Read`: numbers, enums as their underlying type
(go.py L181), structs member by member. -/
def nativeAtom (p : Protocol) (t : String) : RAtom :=
  match NumTy.ofName? t with
  | some n => .num (native n)
  | none =>
    if t = "string" then .text
    else match p.enum? t with
      | some e => .enum (native e.encoding) t
      | none => .call t

/-- Decoding of a struct by `binary.Read`: all fields in order (type declaration: go.py L207-215). -/
def nativeFun (p : Protocol) (st : Struct) : RFun where
  body := st.members.map fun m =>
    if m.isList then .list (.mem m.name) (.var "") (native p.listSize) (nativeAtom p m.vartype)
    else .one (.mem m.name) (nativeAtom p m.vartype)
  result := st.members.map fun m => (m.name, .mem m.name)

/-- Decoding by `binary.Read`; any number is a value of an enum's type.  It does not accept strings
and slices, and the generated code does not call it for them (go.py L61, L87, L108), so that what is
said about them here and in `nativeFun` does not matter. -/
def nativeSem : ReadSem where
  num prim b pos := match ofNative prim with
    | some n => takeNum .eof n b pos
    | none => .error .illTyped
  text _ _ := .error .crash
  enum _ i := .ok (.int i)
  count i := if i < 0 then .error .crash else .ok i.toNat

/-- Is the name exported? -/
def exported (s : String) : Bool := s.toList.head?.any isUpperAZ

/-- Can `binary.Read` store into all parts of a value of this type?  `ro` is true inside a field that
is not exported. -/
def settable (p : Protocol) : Nat → Bool → String → Bool
  | 0, _, _ => false
  | fuel + 1, ro, t => match NumTy.ofName? t with
    | some _ => !ro
    | none => match p.enum? t with
      | some _ => !ro
      | none => match p.struct? t with
        | some st => st.members.all fun m => settable p fuel (ro || !exported m.name) m.vartype
        | none => false

/-- `binary.Read(data, binary.LittleEndian, &x)` for `x` of the type (go.py L108-113). -/
def readNative (p : Protocol) (t : String) (b : Buf) (pos : Nat) : Outcome Val :=
  match readAtom nativeSem (fun s => (p.struct? s).map (nativeFun p)) b (depth p) (nativeAtom p t) pos with
  | .ok (v, q) => if settable p (depth p) false t then .ok (v, q, none) else .error .crash
  | .error .eof => .ok (zero p (depth p) t, b.length, some .eof)
  | .error e => .error e

/-- Reading of an enum with the check `isValid` (go.py L74-86, L94-107, L179-204): nothing is stored
if the number is cut off or not declared. -/
def readEnum (p : Protocol) (e : String) (b : Buf) (pos : Nat) : Outcome Val :=
  match p.enum? e with
  | none => .error .illTyped
  | some d => match takeNum .eof d.encoding b pos with
    | .error _ => .ok (.int 0, b.length, some .eof)
    | .ok (.int i, q) => match checkDeclared p e i with
      | .ok v => .ok (v, q, none)
      | .error x => .ok (.int 0, q, some x)
    | .ok _ => .error .illTyped

/-- `make([]T, n)` panics for a length that is negative or does not fit an `int`. -/
def make (i : Int) : Except Fail Nat := if i < 0 ∨ 2 ^ 63 ≤ i then .error .crash else .ok i.toNat

/-- `readString` (Go.go L9-19): a length that is cut off counts as zero, a text that is cut off
panics. -/
def readString (p : Protocol) (b : Buf) (pos : Nat) : Outcome Val :=
  match takeNum .eof p.stringSize b pos with
  | .error _ => .ok (.str [], b.length, none)
  | .ok (.int i, q) => match make i with
    | .error e => .error e
    | .ok k => match takeN .crash k b q with
      | .error e => .error e
      | .ok (bs, q) => .ok (.str bs, q, none)
  | .ok _ => .error .illTyped

/-- One read of a single value (the branches of `deserializer`, go.py L87-115). -/
inductive GAtom where
  | text
  | enum (e : String)
  /-- `binary.Read` of the whole value -/
  | native (t : String)
  /-- `{S}FromBytes(data, &x)`, whose error is not looked at -/
  | call (s : String)
  deriving DecidableEq, Repr

/-- The read of one value, by type, in the order of the tests (go.py L72, L87, L94, L108, L115). -/
def atom (p : Protocol) (t : String) : GAtom :=
  if t = "string" then .text
  else if (p.enum? t).isSome then .enum t
  else if p.simpleVar ⟨"", t, false⟩ false then .native t
  else .call t

/-- The loop over the elements of a list (go.py L70-86): the slice has been made with zeros; an error
leaves the function. -/
def readItems (rd : Nat → Outcome Val) (z : Val) : Nat → Nat → Outcome (List Val)
  | 0, pos => .ok ([], pos, none)
  | k + 1, pos => match rd pos with
    | .error e => .error e
    | .ok (v, q, some e) => .ok (v :: List.replicate k z, q, some e)
    | .ok (v, q, none) => match readItems rd z k q with
      | .error e => .error e
      | .ok (vs, q, x) => .ok (v :: vs, q, x)

/-- The statements for one member (`deserializer`, go.py L59-115). -/
def readMember (p : Protocol) (rd : GAtom → Nat → Outcome Val) (b : Buf) (m : Variable) (pos : Nat) :
    Outcome Val :=
  if m.isList then
    match takeNum .eof p.listSize b pos with
    | .error _ => .ok (.list [], b.length, some .eof)
    | .ok (.int i, q) => match make i with
      | .error e => .error e
      | .ok k => match readItems (rd (atom p m.vartype)) (zero p (depth p) m.vartype) k q with
        | .error e => .error e
        | .ok (vs, q, x) => .ok (.list vs, q, x)
    | .ok _ => .error .illTyped
  else rd (atom p m.vartype) pos

/-- The statements for all members (go.py L263-272, L277): after an error the remaining members keep
their zero values. -/
def readBody (p : Protocol) (rd : GAtom → Nat → Outcome Val) (b : Buf) :
    List Variable → Nat → Outcome (List (String × Val))
  | [], pos => .ok ([], pos, none)
  | m :: ms, pos => match readMember p rd b m pos with
    | .error e => .error e
    | .ok (v, q, some e) => .ok ((m.name, v) :: ms.map (fun m => (m.name, zeroMember p m)), q, some e)
    | .ok (v, q, none) => match readBody p rd b ms q with
      | .error e => .error e
      | .ok (fs, q, x) => .ok ((m.name, v) :: fs, q, x)

/-! ### Names -/

/-- Names declared at package level: imports and boilerplate (Go.go L3-7, L9-54), `MessageType`,
`Message` and `ProcessRawBytes` (go.py L316, L324, L345), the numbers of the messages (go.py L319),
for each struct and message its type, the function that makes a default one, and the one that reads
it (go.py L207, L218, L259, L275), for each enum its type, its values and the check (go.py L181-190).
All files of a package share these names. -/
def packageDecls (p : Protocol) : List String :=
  ["binary", "fmt", "io", "readString", "writeString", "getDataOffset", "GetPackedSize",
    "PackMessages", "UnpackMessages", "MessageType", "Message", "ProcessRawBytes"] ++
  p.messages.map (fun m => m.name ++ "Type") ++
  p.enums.flatMap (fun e => [e.name] ++ e.values.map (fun v => e.name ++ v.1) ++ ["isValid" ++ e.name]) ++
  (p.structs ++ p.messages).flatMap (fun s => [s.name, "New" ++ s.name ++ "Default", s.name ++ "FromBytes"])

/-- Fields and methods of a type (go.py L207-215, L241, L248, L284, L291). -/
def typeDecls (st : Struct) : List String :=
  st.members.map (·.name) ++
    if st.isMessage then ["GetMessageType", "GetSizeInBytes", "WriteBytes"] else ["WriteBytes"]

/-- Variables the statements for a member declare at the level of the function (go.py L62, L95,
L119); those declared in the loop over a list are of an inner block. -/
def localDecls (p : Protocol) (m : Variable) : List String :=
  if m.isList then [m.name ++ "_Len"]
  else if m.vartype ≠ "string" ∧ (p.enum? m.vartype).isSome then ["_" ++ m.name]
  else []

/-- Does the code for the struct compile, as far as names declared twice go? -/
def compiles (p : Protocol) (st : Struct) : Bool :=
  decide (packageDecls p).Nodup && decide (typeDecls st).Nodup &&
    decide (st.members.flatMap (localDecls p)).Nodup

/-- Execute a single read; the recursion is through `{S}FromBytes` (go.py L275-279). -/
def readAtom (p : Protocol) (b : Buf) : Nat → GAtom → Nat → Outcome Val
  | 0, _, _ => .error .fuel
  | fuel + 1, a, pos => match a with
    | .text => readString p b pos
    | .enum e => readEnum p e b pos
    | .native t => readNative p t b pos
    | .call s => match p.struct? s with
      | none => .error .illTyped
      | some st =>
        if compiles p st then
          match readBody p (readAtom p b fuel) b st.members pos with
          | .error e => .error e
          | .ok (fs, q, _) => .ok (.record fs, q, none)
        else .error .illTyped

/-- `{M}FromBytes` of a message (go.py L259-273): with an error no message is returned. -/
def read (p : Protocol) (m : String) (b : Buf) (pos : Nat) : Except Fail (Val × Nat) :=
  match p.message? m with
  | none => .error .illTyped
  | some st =>
    if compiles p st then
      match readBody p (readAtom p b (depth p)) b st.members pos with
      | .error e => .error e
      | .ok (_, _, some e) => .error e
      | .ok (fs, q, none) => .ok (.record fs, q)
    else .error .illTyped

/-! ### Writing -/

/-- The write of one value, by type (go.py L127-136).  A struct is written with `binary.Write` if it
is simple and with its own `WriteBytes` if not; `writeFun` has both. -/
def watom (p : Protocol) (t : String) : WAtom :=
  match NumTy.ofName? t with
  | some n => .num (native n)
  | none =>
    if t = "string" then .text
    else match p.enum? t with
      | some e => .num (native e.encoding)
      | none => .call t

/-- `serializer` (go.py L117-136). -/
def serializer (p : Protocol) (m : Variable) : WStmt :=
  if m.isList then .list m.name (native p.listSize) (watom p m.vartype)
  else .one m.name (watom p m.vartype)

/-- The declared names, as a list that has no duplicates if the code compiles. -/
def decls (p : Protocol) (st : Struct) : List String := if compiles p st then [] else ["", ""]

/-- `WriteBytes` without the tag (go.py L283-294). -/
def writeBytes (p : Protocol) (st : Struct) : WFun where
  decls := decls p st
  body := st.members.map (serializer p)

/-- `binary.Write(data, binary.LittleEndian, &x)` of a struct (go.py L134): its fields in order. -/
def nativeWrite (p : Protocol) (st : Struct) : WFun where
  decls := decls p st
  body := st.members.map fun m => .one m.name (watom p m.vartype)

/-- How an object is written: messages by their own `WriteBytes`, simple structs natively
(go.py L133-136). -/
def writeFun (p : Protocol) (st : Struct) : WFun :=
  if !st.isMessage && p.simpleStruct st then nativeWrite p st else writeBytes p st

/-- `binary.Write` of a number. -/
def writeNum (prim : String) (v : Val) : Except Fail (List UInt8) :=
  match ofNative prim with
  | none => .error .illTyped
  | some n => match toLE n v with
    | some bs => .ok bs
    | none => .error .illTyped

/-- A conversion `(T)(i)` to an integer type. -/
def convert (n : NumTy) (i : Int) : Int :=
  let m := i % 2 ^ (8 * n.size)
  if signed n && decide (2 ^ (8 * n.size - 1) ≤ m) then m - 2 ^ (8 * n.size) else m

/-- Writing at run time; `writeString` (Go.go L21-25) converts the length and writes the whole text, a
list is written only up to its converted length (go.py L119-126). -/
def writeSem (p : Protocol) : WriteSem where
  num := writeNum
  text s := do
    let len ← writeNum (native p.stringSize) (.int (convert p.stringSize s.length))
    return [len, s]
  count k := .ok (convert p.listSize k)
  loops i k := min i.toNat k

/-- `gen_measurement` (go.py L138-177): loops over elements, variables `el` and `s`. -/
def style : MStyle where
  indexed := false
  loopVar _ _ := "el"
  textVar _ _ := "s"
  text := .bytes
  texts := .bytes
  inlineDeeper := false
  alwaysReturn := false

/-! ### Defaults -/

/-- `struct_has_enums` (go.py L49-57). -/
def hasEnums (p : Protocol) : Nat → Struct → Bool
  | 0, _ => false
  | fuel + 1, s => s.members.any fun m =>
    if (p.enum? m.vartype).isSome then true
    else match p.struct? m.vartype with
      | some st => hasEnums p fuel st
      | none => false

/-- The value of a member in `New{S}Default` (go.py L218-238); what is not mentioned in a composite
literal is zero, also in `S{}` (go.py L222), where no member has enums. -/
def default (p : Protocol) (m : Variable) : Except Fail DExpr :=
  if m.isList then .ok .list
  else match p.enum? m.vartype with
    | some e => match e.values.head? with
      | some x => .ok (.entry x.2)
      | none => .error .illTyped
    | none => match p.struct? m.vartype with
      | some st => if hasEnums p (depth p) st then .ok (.make m.vartype) else .ok (.num (zeroMember p m))
      | none => .ok (.num (zeroMember p m))

/-! ### The library -/

/-- `WriteBytes` of a message (go.py L283-294). -/
def write (p : Protocol) : String → Bool → Val → Except Fail (List (List UInt8)) :=
  writeMessage (writeSem p) (writeFun p) p

/-- `GetSizeInBytes` (go.py L248-257). -/
def size (p : Protocol) : String → Val → Except Fail Nat := sizeMessage style "output" 0 p

/-- The cases of `ProcessRawBytes` (go.py L369-378). -/
def dispatch (p : Protocol) (t : Nat) : Option String := (messageArms p 1).lookup t

/-- One round of `ProcessRawBytes` (go.py L356-385): the end of the data where an identifier is
expected ends the stream. -/
def step (p : Protocol) (b : Buf) (pos : Nat) : Except Fail Step :=
  match takeTag .eof b pos with
  | .error _ => .ok (.stop pos)
  | .ok _ => taggedStep (takeTag .eof b) (dispatch p) (fun m pos => read p m b pos) .invalid pos

/-- `ProcessRawBytes` (go.py L345-389). -/
def process (p : Protocol) (b : Buf) (pos : Nat) (max : Int) :
    Except Fail (List (String × Val) × Nat) :=
  processBytes (fun _ => false) (step p b) b pos max

/-- The library for a protocol whose members have been renamed. -/
def core (p : Protocol) : Library where
  ident m := (messageIndex p m).map (· + 1)
  dispatch := dispatch p
  write := write p
  read := read p
  size := size p
  process := process p
  packedSize := packedSizeOf (size p)
  pack := packWith [bsci] (fun n => .ok (leBytes 4 n)) (write p)
  unpack b := unpackWith .crash .eof .int32 .ok (process p b) b
  create := makeMessage p (default p)

/-- The renaming of members, unless `--go-no-rename` is given (go.py L20-32). -/
def namer (noRename : Bool) : String → String := if noRename then id else capitalize

/-- The generated library (`GoWriter`, go.py). -/
def library (noRename : Bool) (p : Protocol) : Library := core (p.rename (namer noRename))

end Beschi.Lang.Go
