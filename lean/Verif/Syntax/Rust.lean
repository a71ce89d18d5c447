import Verif.Syntax.Size
import Verif.Lang.Rust
/-
How the statements of the generated functions are written in Rust.

These are the lines that the statements in Verif/Lang/Rust.lean stand for.  They are stated apart from the
functions that write the text (Verif/Text/Rust.lean, rust.py L46-253).
-/
namespace Beschi.Syntax.Rust
open Beschi.Spec Beschi.Lang

/-- A variable. -/
def place : Loc → String
  | .var x => x
  | .mem x => s!"self.{x}"

/-- The call of a reading method. -/
def call (prim : String) : String :=
  if prim = "take_byte()?" ∨ prim = "take_byte()? > 0" then s!"reader.{prim}" else s!"reader.{prim}()?"

/-- The lines that read one value into the variable `x`. -/
def readAtom (x : String) : RAtom → List Row
  | .num prim => flush [s!"let {x} = {call prim};"]
  | .text => flush [s!"let {x} = reader.read_string()?;"]
  | .enum prim e => flush [s!"let {x} = {call prim};", s!"let {x} = {e}::try_from({x})?;"]
  | .call s | .whole s => flush [s!"let {x} = {s}::from_bytes(reader)?;"]

/-- The type of the values that are read. -/
def typeOf : RAtom → String
  | .num prim => match Lang.Rust.readable prim with
    | some n => Lang.Rust.native n
    | none => ""
  | .text => "String"
  | .enum _ e => e
  | .call s | .whole s => s

/-- The lines of one statement of a reading function. -/
def readStmt : RStmt → List Row
  | .one x a => readAtom (place x) a
  | .list x len lenPrim a =>
    flush [s!"let {place len} = {call lenPrim};", s!"let mut {place x}: Vec<{typeOf a}> = Vec::new();",
      s!"for _ in 0..{place len} \{"] ++
    inside 1 (readAtom "_el" a ++ flush [s!"{place x}.push(_el);"]) ++
    flush ["}"]

/-- A member of the object that is built: the variable has the same name. -/
def field : String × Loc → String
  | (n, .var x) => if x = n then n else s!"{n}: {x}"
  | (n, .mem x) => s!"{n}: self.{x}"

/-- A reading function of the struct called `name`; `err` is the type of errors. -/
def reader (err name : String) (f : RFun) : List Row :=
  flush [s!"fn from_bytes({if f.params = [] then "_" else ""}reader: &mut BufferReader) -> Result<{name}, {err}> \{"] ++
  inside 1 (f.body.flatMap readStmt ++ flush [s!"Ok({name} \{{", ".intercalate (f.result.map field)}})"]) ++
  flush ["}"]

/-- The number type that is written. -/
def written (prim : String) : String :=
  match Lang.Rust.writable prim with
  | some n => Lang.Rust.native n
  | none => ""

/-- The lines that write the value of the expression `e`; if it is of an enum type, it is converted to the
number type first. -/
def writeAtom (sizes : NumTy) (isEnum : Bool) (e : String) : WAtom → List Row
  | .num prim => flush [
      if prim = "push" then if isEnum then s!"writer.push({e} as u8);" else s!"writer.push({e});"
      else if prim = "push(&u8)" then s!"writer.push({e});"
      else if prim = "push(if {1_u8} else {0_u8})" ∨ prim = "push(if &bool)" then
        s!"writer.push(if {e} \{1_u8} else \{0_u8});"
      else if isEnum then s!"writer.extend(({e} as {written prim}).to_le_bytes());"
      else s!"writer.extend({e}.to_le_bytes());"]
  | .text => flush [s!"writer.extend(({e}.len() as {Lang.Rust.native sizes}).to_le_bytes());",
      s!"writer.extend({e}.as_bytes());"]
  | .call _ => flush [s!"{e}.write_bytes(writer);"]

/-- The lines of one statement of a writing function. -/
def writeStmt (sizes : NumTy) (isEnum : Bool) : WStmt → List Row
  | .one x a => writeAtom sizes isEnum s!"self.{x}" a
  | .list x lenPrim a =>
    flush [s!"writer.extend((self.{x}.len() as {written lenPrim}).to_le_bytes());",
      s!"for _el in &self.{x} \{"] ++
    inside 1 (writeAtom sizes isEnum (if isEnum then "*_el" else "_el") a) ++
    flush ["}"]

/-- A writing function; `tag` is the number of a message.  Which members are of an enum type is in `enums`. -/
def writer (sizes : NumTy) (enums : List Bool) (tag : Option Nat) (f : WFun) : List Row :=
  (match tag with
    | some k =>
      flush ["fn write_bytes(&self, writer: &mut Vec<u8>, tag: bool) {"] ++
      inside 1 (flush ["if tag {"] ++ inside 1 (flush [s!"writer.push({k}_u8);"]) ++ flush ["}"])
    | none => flush ["pub fn write_bytes(&self, writer: &mut Vec<u8>) {"]) ++
  inside 1 ((enums.zip f.body).flatMap fun x => writeStmt sizes x.1 x.2) ++
  flush ["}"]

/-- The steps of a size computation. -/
def sizes : SizeSyntax where
  init := "let mut size: usize = 0;"
  ret n := s!"{n}"
  add n := s!"size += {n};"
  addCount a n := s!"size += {a}.len() * {n};"
  addText a := s!"size += {a}.len();"
  addTextPlus k a := s!"size += {k} + {a}.len();"
  loop v _ a := [s!"for {v} in &{a} \{"]

/-- A size computation. -/
def size (f : MFun) : List Row :=
  flush ["fn get_size_in_bytes(&self) -> usize {"] ++
  inside 1 (sizes.lines f.lines ++ if f.returns then flush ["size"] else []) ++
  flush ["}"]

/-- The type of a member. -/
def memberType (p : Protocol) (m : Variable) : String :=
  let t := typeOf (Lang.Rust.atom p m.vartype)
  if m.isList then s!"Vec<{t}>" else t

/-- The declaration of a struct.  (For a member that is an enum the comma would be missing without the entry
of the enum in the table of types, rust.py L190-194.) -/
def declaration (p : Protocol) (st : Struct) : List Row :=
  flush ["#[derive(Default)]", s!"pub struct {st.name} \{"] ++
  inside 1 (flush (st.members.map fun m => s!"pub {m.name}: {memberType p m},")) ++
  flush ["}"]

/-- The functions of a struct or message. -/
def functions (p : Protocol) (err : String) (tag : Option Nat) (st : Struct) (sz : MFun) : List Row :=
  (match tag with
    | some _ =>
      flush [s!"impl MessageCodec for {st.name} \{"] ++
      inside 1 (flush ["fn get_message_type(&self) -> MessageType {"] ++
        inside 1 (flush [s!"MessageType::{st.name}"]) ++ flush ["}", ""])
    | none => flush [s!"impl {st.name} \{"]) ++
  inside 1 (size sz ++ flush [""] ++
    reader err st.name (Lang.Rust.fromBytes p st) ++ flush [""] ++
    writer p.stringSize (st.members.map fun m => p.isEnum m.vartype) tag (Lang.Rust.writeBytes p st)) ++
  flush ["}"]

/-- An enum with its conversion from numbers. -/
def enum (err : String) (e : Enum) : List Row :=
  flush [s!"#[repr({Lang.Rust.native e.encoding})]", "#[derive(Debug, Copy, Clone, PartialEq, Eq)]",
    s!"pub enum {e.name} \{"] ++
  inside 1 (flush (e.values.map fun x => s!"{x.1} = {x.2},")) ++
  flush ["}", "", s!"impl Default for {e.name} \{"] ++
  inside 1 (flush ((e.values.take 1).map fun x => s!"fn default() -> Self \{ {e.name}::{x.1} }")) ++
  flush ["}", "", s!"impl TryFrom<{Lang.Rust.native e.encoding}> for {e.name} \{"] ++
  inside 1 (
    flush [s!"type Error = {err};", "", s!"fn try_from(value: {Lang.Rust.native e.encoding}) -> Result<Self, {err}> \{"] ++
    inside 1 (flush ["match value {"] ++
      inside 1 (flush (e.values.map fun x => s!"{x.2} => Ok({e.name}::{x.1}),") ++
        flush [s!"_ => Err({err}::InvalidData)"]) ++
      flush ["}"]) ++
    flush ["}"]) ++
  flush ["}"]

/-- The name of the type of errors: from the namespace, if there is one. -/
def errorName (p : Protocol) : String :=
  match p.ns with
  | some (.str n) => n ++ "Error"
  | _ => "BeschiError"

/-- The reading of a tagged message; `arms` are the numbers with the messages they stand for. -/
def dispatch (err : String) (arms : List (Nat × String)) : List Row :=
  flush [s!"fn from_bytes(reader: &mut BufferReader) -> Result<Message, {err}> \{"] ++
  inside 1 (flush ["let tag = reader.take_byte()?;", "let msg = match tag {"] ++
    inside 1 (flush ([s!"0 => return Err({err}::EndOfMessageList),"] ++
      (arms.map fun x => s!"{x.1} => Message::{x.2}({x.2}::from_bytes(reader)?),") ++
      [s!"_ => return Err({err}::InvalidData),"])) ++
    flush ["};", "Ok(msg)"]) ++
  flush ["}"]

end Beschi.Syntax.Rust
