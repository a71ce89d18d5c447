import Verif.Lang.Create
import Verif.Lang.Names
import Verif.Lang.Text
/-
The Rust backend: beschi/writers/rust.py and beschi/writers/boilerplate/Rust.rs.

The functions below take the protocol with the members already renamed (rust.py L19-28); `library`
does the renaming.  A read or write that would not compile is given a primitive without meaning
(`illTyped`).  Not modelled: the text of the declarations, visibility, the `Display` of errors,
`BufferReader::from_vec`.
-/
namespace Beschi.Lang.Rust
open Spec

/-- `self.type_mapping` for numbers (rust.py L34-43). -/
def native : NumTy → String
  | .byte => "u8" | .bool => "bool" | .uint16 => "u16" | .int16 => "i16" | .uint32 => "u32"
  | .int32 => "i32" | .uint64 => "u64" | .int64 => "i64" | .float => "f32" | .double => "f64"

/-- The method called on `reader` to read a number type of the given name: `read_{..}`. -/
def readPrim (n : NumTy) : String := "read_" ++ native n

/-- The read of a number member (rust.py L60-66). -/
def numPrim : NumTy → String
  | .byte => "take_byte()?"
  | .bool => "take_byte()? > 0"
  | n => readPrim n

/-- The read of one value, by type (rust.py L60-74). -/
def atom (p : Protocol) (t : String) : RAtom :=
  match NumTy.ofName? t with
  | some n => .num (numPrim n)
  | none =>
    if t = "string" then .text
    else match p.enum? t with
      | some e => .enum (readPrim e.encoding) t
      | none => .call t

/-- `deserializer` (rust.py L46-74); the inner variable of a list is `_el`. -/
def deserializer (p : Protocol) (m : Variable) : RStmt :=
  if m.isList then .list (.var m.name) (.var (m.name ++ "_len")) (readPrim p.listSize) (atom p m.vartype)
  else .one (.var m.name) (atom p m.vartype)

/-- `from_bytes` (rust.py L226-232).  The member names must be distinct (they are fields of one
struct); a list called `_el` or `reader` shadows what its own loop uses. -/
def fromBytes (p : Protocol) (st : Struct) : RFun where
  params := if st.members.isEmpty then [] else [.var "reader"]
  decls := st.members.map (·.name) ++
    (st.members.filter fun m => m.isList && (m.name == "_el" || m.name == "reader")).map (·.name)
  body := st.members.map (deserializer p)
  result := st.members.map fun m => (m.name, .var m.name)

/-- What each number-reading method reads (Rust.rs L51-57, L78-121). -/
def readable : String → Option NumTy
  | "take_byte()?" => some .byte
  | "take_byte()? > 0" => some .bool
  | "read_u8" => some .byte
  | "read_i16" => some .int16
  | "read_u16" => some .uint16
  | "read_i32" => some .int32
  | "read_u32" => some .uint32
  | "read_i64" => some .int64
  | "read_u64" => some .uint64
  | "read_f32" => some .float
  | "read_f64" => some .double
  | _ => none

/-- A number-reading method of `BufferReader` (Rust.rs L51-57, L78-121). -/
def readNum (prim : String) (b : Buf) (pos : Nat) : Except Fail (Val × Nat) :=
  match readable prim with
  | some n => takeNum .eof n b pos
  | none => .error .illTyped

/-- `len as usize` (Rust.rs L71), for a 64-bit target. -/
def asUsize (i : Int) : Nat := (i % 2 ^ 64).toNat

/-- `take(amount)` (Rust.rs L47-67): the sum in `has_remaining` overflows for huge amounts, which
panics there (or in the slice expression when overflow checks are off). -/
def take (amount : Nat) (b : Buf) (pos : Nat) : Except Fail (List UInt8 × Nat) :=
  if 2 ^ 64 ≤ pos + amount then .error .crash else takeN .eof amount b pos

/-- `read_string` (Rust.rs L69-76). -/
def readString (p : Protocol) (b : Buf) (pos : Nat) : Except Fail (Val × Nat) :=
  match readNum (readPrim p.stringSize) b pos with
  | .error e => .error e
  | .ok (.int i, pos) => match take (asUsize i) b pos with
    | .error e => .error e
    | .ok (bs, pos) => if isUtf8 bs then .ok (.str bs, pos) else .error .invalid
  | .ok _ => .error .illTyped

/-- Reading at run time; `for _ in 0..len` does nothing for a negative length (rust.py L53);
`try_from` of an enum has one arm per declared value (rust.py L166-173). -/
def readSem (p : Protocol) : ReadSem where
  num := readNum
  text := readString p
  enum := checkDeclared p
  count i := .ok i.toNat

/-- The write of one value, by type (rust.py L85-102).  Inside a list (`listed`) the loop variable
is a reference, dereferenced only for enums (rust.py L79-81), so that `push` of a byte and `if` on a
boolean do not type check. -/
def watom (p : Protocol) (listed : Bool) (t : String) : WAtom :=
  match NumTy.ofName? t with
  | some .byte => .num (if listed then "push(&u8)" else "push")
  | some .bool => .num (if listed then "push(if &bool)" else "push(if {1_u8} else {0_u8})")
  | some n => .num (native n ++ ".to_le_bytes")
  | none =>
    if t = "string" then .text
    else match p.enum? t with
      | some e => .num (if e.encoding = .byte then "push" else native e.encoding ++ ".to_le_bytes")
      | none => .call t

/-- `serializer` (rust.py L76-102). -/
def serializer (p : Protocol) (m : Variable) : WStmt :=
  if m.isList then .list m.name (native p.listSize ++ ".to_le_bytes") (watom p true m.vartype)
  else .one m.name (watom p false m.vartype)

/-- `write_bytes` without the tag (rust.py L235-249). -/
def writeBytes (p : Protocol) (st : Struct) : WFun where
  decls := st.members.map (·.name)
  body := st.members.map (serializer p)

/-- What each write writes (rust.py L78, L85-100). -/
def writable : String → Option NumTy
  | "push" => some .byte
  | "push(if {1_u8} else {0_u8})" => some .bool
  | "u8.to_le_bytes" => some .byte
  | "i16.to_le_bytes" => some .int16
  | "u16.to_le_bytes" => some .uint16
  | "i32.to_le_bytes" => some .int32
  | "u32.to_le_bytes" => some .uint32
  | "i64.to_le_bytes" => some .int64
  | "u64.to_le_bytes" => some .uint64
  | "f32.to_le_bytes" => some .float
  | "f64.to_le_bytes" => some .double
  | _ => none

/-- A write of a number; `as` conversions wrap (rust.py L78, L85-100). -/
def writeNum (prim : String) (v : Val) : Except Fail (List UInt8) :=
  match writable prim with
  | none => .error .illTyped
  | some n => match toLE n v with
    | some bs => .ok bs
    | none => .error .illTyped

/-- Writing at run time (rust.py L76-102). -/
def writeSem (p : Protocol) : WriteSem where
  num := writeNum
  text s := do
    let len ← writeNum (native p.stringSize ++ ".to_le_bytes") (.int s.length)
    return [len, s]
  count k := .ok k

/-- `gen_measurement` (rust.py L104-144): loops over elements, variables `el` and `s`. -/
def style : MStyle where
  indexed := false
  loopVar _ _ := "el"
  textVar _ _ := "s"
  text := .bytes
  texts := .bytes
  inlineDeeper := false
  alwaysReturn := false

/-- `#[derive(Default)]` (rust.py L181) and `impl Default` of enums (rust.py L156-160). -/
def default (p : Protocol) (m : Variable) : Except Fail DExpr :=
  if m.isList then .ok .list
  else match NumTy.ofName? m.vartype with
    | some n => .ok (.num (zeroOf n))
    | none =>
      if m.vartype = "string" then .ok .text
      else match p.enum? m.vartype with
        | some e => match e.values.head? with
          | some x => .ok (.entry x.2)
          | none => .error .illTyped
        | none => .ok (.make m.vartype)

/-- `from_bytes` of a message (rust.py L226-232). -/
def read (p : Protocol) : String → Buf → Nat → Except Fail (Val × Nat) :=
  readMessage (readSem p) (fromBytes p) p

/-- `write_bytes` of a message (rust.py L235-249). -/
def write (p : Protocol) : String → Bool → Val → Except Fail (List (List UInt8)) :=
  writeMessage (writeSem p) (writeBytes p) p

/-- `get_size_in_bytes` (rust.py L214-223). -/
def size (p : Protocol) : String → Val → Except Fail Nat := sizeMessage style "self" 0 p

/-- The arms of `Message::from_bytes` (rust.py L326-329). -/
def dispatch (p : Protocol) (t : Nat) : Option String := (messageArms p 1).lookup t

/-- `process_raw_bytes` (rust.py L350-376) with `Message::from_bytes` (rust.py L321-334) and
`is_finished` (Rust.rs L43-45). -/
def process (p : Protocol) (b : Buf) (pos : Nat) (max : Int) :
    Except Fail (List (String × Val) × Nat) :=
  processBytes (fun pos => decide (b.length ≤ pos))
    (taggedStep (takeTag .eof b) (dispatch p) (fun m pos => read p m b pos) .invalid) b pos max

/-- `msg_count as i32` (Rust.rs L168). -/
def asI32 (i : Int) : Int := toSigned 4 (i % 2 ^ 32).toNat

/-- The library for a protocol whose members have been renamed. -/
def core (p : Protocol) : Library where
  ident m := (messageIndex p m).map (· + 1)
  dispatch := dispatch p
  write := write p
  read := read p
  size := size p
  process := process p
  packedSize := packedSizeOf (size p)
  pack := packWith [bsci] (fun n => .ok (leBytes 4 n)) (write p)
  unpack b := unpackWith .eof .eof .uint32 (fun n => .ok (asI32 n)) (process p b) b
  create := makeMessage p (default p)

/-- The renaming of members, unless `--rust-no-rename` is given (rust.py L14-28). -/
def namer (noRename : Bool) : String → String := if noRename then id else snake

/-- The generated library (`RustWriter`, rust.py). -/
def library (noRename : Bool) (p : Protocol) : Library := core (p.rename (namer noRename))

end Beschi.Lang.Rust
