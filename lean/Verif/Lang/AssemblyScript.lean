import Verif.Lang.TypeScript
/-
The AssemblyScript backend: beschi/writers/assemblyscript.py, which inherits from
beschi/writers/typescript.py, and beschi/writers/boilerplate/AssemblyScript.ts.

The generated text differs from TypeScript's in the branches on `is_assembly_script`; definitions
not repeated here are those of Verif/Lang/TypeScript.lean.  A read beyond the end of the data sets
`hasError`, and the generated reader then returns null at once, which is the failure `eof`.  A
`throw` stops the program.  What `String.UTF8.decode` makes of bytes that are not valid UTF-8 is the
parameter `lossy`.  Views are taken to show a whole buffer.  Not modelled: memory limits, which also
bound the length of arrays.
-/
namespace Beschi.Lang.AssemblyScript
open Spec

export TypeScript (readPrim writePrim)

/-- Constants and variables declared for one member outside loops (typescript.py L54, L98, L114). -/
def locals (p : Protocol) (m : Variable) : List String :=
  if m.isList then [m.name ++ "_Length"]
  else if m.vartype = "string" then []
  else if (p.enum? m.vartype).isSome then ["_" ++ m.name]
  else if (NumTy.ofName? m.vartype).isSome then []
  else ["_" ++ m.name]

/-- `fromBytes` of a struct, `fromBytesDA` of a message (typescript.py L290-325). -/
def fromBytes (p : Protocol) (st : Struct) : RFun where
  decls := ("n" ++ st.name) :: st.members.flatMap (locals p)
  body := st.members.map (TypeScript.deserializer p)
  result := st.members.map fun m => (m.name, .mem m.name)

/-- A number-reading method of `DataAccess` (AssemblyScript.ts L17-109). -/
def readNum (prim : String) (b : Buf) (pos : Nat) : Except Fail (Val × Nat) :=
  match TypeScript.readable prim with
  | some n => takeNum .eof n b pos
  | none => .error .illTyped

/-- `String.UTF8.decode` (AssemblyScript.ts L124). -/
def decode (lossy : List UInt8 → List UInt8) (bs : List UInt8) : List UInt8 :=
  if isUtf8 bs then bs else lossy bs

/-- `getString` (AssemblyScript.ts L111-125): the end of the text is computed in 32 bits; making an
array of a length that is negative as a 32-bit number stops the program.  A 64-bit length does not
type check (L120). -/
def readString (lossy : List UInt8 → List UInt8) (p : Protocol) (b : Buf) (pos : Nat) :
    Except Fail (Val × Nat) :=
  if p.stringSize.size = 8 then .error .illTyped
  else match readNum (readPrim p.stringSize) b pos with
  | .error e => .error e
  | .ok (.int i, pos) =>
    if (b.length : Int) < (pos + i) % 2 ^ 32 then .error .eof
    else if i < 0 ∨ 2 ^ 31 ≤ i then .error .crash
    else match takeN .eof i.toNat b pos with
      | .error e => .error e
      | .ok (bs, pos) => .ok (.str (decode lossy bs), pos)
  | .ok _ => .error .illTyped

/-- A conversion `as T` to the integer type `n`. -/
def cast (n : NumTy) (i : Int) : Int :=
  let m := i % 2 ^ (8 * n.size)
  if signed n && decide (2 ^ (8 * n.size - 1) ≤ m) then m - 2 ^ (8 * n.size) else m

/-- The check of an enum (typescript.py L71-77, L98-104; `get_minimum_pair`, protocol.py L105-107):
numbers below the least value, or not below `_Unknown`, become `_Unknown`.  `_Unknown` is the entry
after the last one (typescript.py L219). -/
def checkEnum (p : Protocol) (e : String) (i : Int) : Except Fail Val :=
  match p.enum? e with
  | none => .error .illTyped
  | some d =>
    if d.values.any (fun x => x.1 == "_Unknown") then .error .illTyped
    else match (d.values.map (·.2)).min?, d.values.getLast? with
    | some least, some last =>
      let unknown := cast d.encoding (last.2 + 1)
      .ok (.int (if i < least ∨ unknown ≤ i then unknown else i))
    | _, _ => .error .illTyped

/-- Reading at run time; `new Array(n)` stops the program for a negative `n` (typescript.py L57) and
does not type check for a 64-bit `n`. -/
def readSem (lossy : List UInt8 → List UInt8) (p : Protocol) : ReadSem where
  num := readNum
  text := readString lossy p
  enum := checkEnum p
  count i := if p.listSize.size = 8 then .error .illTyped
    else if i < 0 then .error .crash else .ok i.toNat

/-- The members of the generated class (typescript.py L230-254, L347-366). -/
def classMembers (st : Struct) : List String :=
  "constructor" :: st.members.map (·.name) ++
    (if st.isMessage then ["getMessageType", "getSizeInBytes", "writeBytesDA"] else []) ++ ["writeBytes"]

/-- `writeBytes` of a struct, `writeBytesDA` of a message without the tag (typescript.py L346-374). -/
def writeBytes (p : Protocol) (st : Struct) : WFun where
  decls := classMembers st
  body := st.members.map (TypeScript.serializer p)

/-- A number-writing method of `DataAccess` (AssemblyScript.ts L128-211), where there is room. -/
def writeNum (prim : String) (v : Val) : Except Fail (List UInt8) :=
  match TypeScript.writable prim with
  | none => .error .illTyped
  | some n => match toLE n v with
    | some bs => .ok bs
    | none => .error .illTyped

/-- Writing at run time (typescript.py L126-159; `setString`, AssemblyScript.ts L213-227). -/
def writeSem (p : Protocol) : WriteSem where
  num := writeNum
  text s := do
    let len ← writeNum (writePrim p.stringSize) (.int s.length)
    return len :: s.map fun x => [x]
  count k := .ok k

/-- `self.type_mapping` (assemblyscript.py L21-31; writer.py L42-49). -/
def native (t : String) : String :=
  match NumTy.ofName? t with
  | some .byte => "u8"
  | some .bool => "bool"
  | some .uint16 => "u16"
  | some .int16 => "i16"
  | some .uint32 => "u32"
  | some .int32 => "i32"
  | some .uint64 => "u64"
  | some .int64 => "i64"
  | some .float => "f32"
  | some .double => "f64"
  | none => t

/-- Initial values of members (typescript.py L230-246): `0` also for booleans. -/
def default (p : Protocol) (m : Variable) : Except Fail DExpr :=
  if m.isList then .ok .list
  else if native m.vartype = "bigint" then .error .illTyped
  else if native m.vartype = "boolean" then .error .illTyped
  else if native m.vartype = "string" then .ok .text
  else match p.enum? m.vartype with
    | some e => match e.values.head? with
      | some x => .ok (.entry x.2)
      | none => .error .illTyped
    | none => match p.struct? m.vartype with
      | some _ => .ok (.make m.vartype)
      | none => match NumTy.ofName? m.vartype with
        | some n => .ok (.num (zeroOf n))
        | none => .error .illTyped

/-- `fromBytesDA` of a message (typescript.py L290-325). -/
def read (lossy : List UInt8 → List UInt8) (p : Protocol) : String → Buf → Nat → Except Fail (Val × Nat) :=
  readMessage (readSem lossy p) (fromBytes p) p

/-- `writeBytesDA` of a message (typescript.py L346-374). -/
def write (p : Protocol) : String → Bool → Val → Except Fail (List (List UInt8)) :=
  writeMessage (writeSem p) (writeBytes p) p

/-- `getSizeInBytes` (typescript.py L253-265). -/
def size (p : Protocol) : String → Val → Except Fail Nat := sizeMessage TypeScript.style "this" 0 p

/-- The cases of `ProcessRawBytesDA` (typescript.py L462-476, with the numbers of L410). -/
def dispatch (p : Protocol) (t : Nat) : Option String := (messageArms p 1).lookup t

/-- An unknown identifier or a message that cannot be read ends the stream quietly
(typescript.py L467-473, L483); so does the end of the data, where `getByte` gives 0 (L457-460;
AssemblyScript.ts L18-21).  The position at which the stream ended is not modelled in these cases:
it is given as the position of the message. -/
def quiet (step : Nat → Except Fail Step) (pos : Nat) : Except Fail Step :=
  match step pos with
  | .error e => if e.reported then .ok (.stop pos) else .error e
  | .ok r => .ok r

/-- `ProcessRawBytesDA` (typescript.py L446-491; `isFinished`, AssemblyScript.ts L13-15). -/
def process (lossy : List UInt8 → List UInt8) (p : Protocol) (b : Buf) (pos : Nat) (max : Int) :
    Except Fail (List (String × Val) × Nat) :=
  processBytes (fun pos => decide (b.length < pos))
    (quiet (taggedStep (takeTag .eof b) (dispatch p) (fun m pos => read lossy p m b pos) .invalid))
    b pos max

/-- A failure reported by an exception, which stops the program. -/
def thrown {α : Type} : Except Fail α → Except Fail α
  | .error e => .error (if e.reported then .crash else e)
  | .ok r => .ok r

/-- `UnpackMessages` (AssemblyScript.ts L277-303): data of fewer than twelve bytes is refused; the
messages are processed as data of their own (L294-295). -/
def unpack (lossy : List UInt8 → List UInt8) (p : Protocol) (b : Buf) (pos : Nat) :
    Except Fail (List (String × Val)) :=
  if b.length - pos < 12 then .error .crash
  else thrown (unpackWith .invalid .invalid .uint32 (fun n => .ok n)
    (fun q k => rebased (fun b q => process lossy p b q k) b q) b pos)

/-- The generated library (`AssemblyScriptWriter`, assemblyscript.py).  `PackMessages` writes the
letters byte by byte (AssemblyScript.ts L260-275). -/
def library (lossy : List UInt8 → List UInt8) (p : Protocol) : Library where
  ident m := (messageIndex p m).map (· + 1)
  dispatch := dispatch p
  write := write p
  read := read lossy p
  size := size p
  process := process lossy p
  packedSize := packedSizeOf (size p)
  pack := packWith (bsci.map fun x => [x]) (fun n => .ok (leBytes 4 n)) (write p)
  unpack := unpack lossy p
  create := makeMessage p (default p)

end Beschi.Lang.AssemblyScript
