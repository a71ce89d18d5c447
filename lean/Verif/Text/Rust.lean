import Verif.Text.Writer
/-
The text written for Rust (beschi/writers/rust.py), function by function and line by line.
-/
namespace Beschi.Text.Rust

set_option linter.unusedVariables false

/-- What is added to `self.type_mapping` (rust.py L34-44). -/
def mapping : List (String × String) := [
  ("byte", "u8"), ("bool", "bool"), ("uint16", "u16"), ("int16", "i16"), ("uint32", "u32"),
  ("int32", "i32"), ("uint64", "u64"), ("int64", "i64"), ("float", "f32"), ("double", "f64"),
  ("string", "String")]

/-- `RustWriter` after `__init__` (rust.py L19-44); the members have been renamed already, see
Verif/Lang/Rename.lean.  `self.prefix` is set by `generate`. -/
def writer (p : Protocol) (tab : Option String) (embed : Option String) (boilerplate : Nat → List String) : Writer :=
  { p, tab := tab.getD "    ", nativeTab := "    ", mapping, embed, boilerplate }

/-- `deserializer` (rust.py L46-74). -/
def deserializer (w : Writer) : Nat → Variable → String → Emit Unit
  | 0, _, _ => Emit.raise .recursion
  | fuel + 1, var, accessor => do
    if var.isList then
      w.line s!"let {var.name}_len = reader.read_{← w.listSize}()?;"
      (do
        if (w.types.lookup var.vartype).isSome then
          w.line s!"let mut {var.name}: Vec<{← w.type var.vartype}> = Vec::new();"
        else
          w.line s!"let mut {var.name}: Vec<{var.vartype}> = Vec::new();")
      w.line s!"for _ in 0..{var.name}_len \{"
      shift 1
      let inner := (⟨"_el", var.vartype, false⟩ : Variable)
      deserializer w fuel inner ""
      w.line s!"{var.name}.push(_el);"
      shift (-1)
      w.line "}"
    else if Writer.isNum var.vartype then
      if var.vartype == "byte" then
        w.line s!"let {var.name} = reader.take_byte()?;"
      else if var.vartype == "bool" then
        w.line s!"let {var.name} = reader.take_byte()? > 0;"
      else
        w.line s!"let {var.name} = reader.read_{← w.type var.vartype}()?;"
    else if var.vartype == "string" then
      w.line s!"let {var.name} = reader.read_string()?;"
    else if w.p.isEnum var.vartype then
      let e ← w.enum var.vartype
      w.line s!"let {var.name} = reader.read_{← w.type e.encoding.name}()?;"
      w.line s!"let {var.name} = {var.vartype}::try_from({var.name})?;"
    else
      w.line s!"let {var.name} = {var.vartype}::from_bytes(reader)?;"

/-- `serializer` (rust.py L76-102). -/
def serializer (w : Writer) : Nat → Variable → String → Emit Unit
  | 0, _, _ => Emit.raise .recursion
  | fuel + 1, var, accessor => do
    if var.isList then
      w.line s!"writer.extend(({accessor}{var.name}.len() as {← w.listSize}).to_le_bytes());"
      w.line s!"for _el in &{accessor}{var.name} \{"
      shift 1
      let inner := (⟨s!"{(if w.p.isEnum var.vartype then "*" else "")}_el", var.vartype, false⟩ : Variable)
      serializer w fuel inner ""
      shift (-1)
      w.line "}"
    else if Writer.isNum var.vartype then
      if var.vartype == "byte" then
        w.line s!"writer.push({accessor}{var.name});"
      else if var.vartype == "bool" then
        w.line s!"writer.push(if {accessor}{var.name} \{1_u8} else \{0_u8});"
      else
        w.line s!"writer.extend({accessor}{var.name}.to_le_bytes());"
    else if var.vartype == "string" then
      w.line s!"writer.extend(({accessor}{var.name}.len() as {← w.stringSize}).to_le_bytes());"
      w.line s!"writer.extend({accessor}{var.name}.as_bytes());"
    else if w.p.isEnum var.vartype then
      let e ← w.enum var.vartype
      if e.encoding.name == "byte" then
        w.line s!"writer.push({accessor}{var.name} as {← w.type e.encoding.name});"
      else
        w.line s!"writer.extend(({accessor}{var.name} as {← w.type e.encoding.name}).to_le_bytes());"
    else
      w.line s!"{accessor}{var.name}.write_bytes(writer);"

/-- `gen_measurement` (rust.py L104-144). -/
def genMeasurement (w : Writer) : Nat → Struct → String → Emit (List String × Nat)
  | 0, _, _ => Emit.raise .recursion
  | fuel + 1, st, accessor => do
    let lines : List String := []
    let accum := 0
    if (← w.structSimple st) then
      let lines := lines ++ [s!"{← w.sizeOf st.name}"]
      pure (lines, accum)
    else
      let sizeInit := "let mut size: usize = 0;"
      let lines := lines ++ [sizeInit]
      let (accum, lines) ← eachWith st.members (accum, lines) fun (accum, lines) var => do
        let (accum, lines) ← (do
          if var.isList then
            let accum := accum + w.p.listSize.size
            let lines ← (do
              if (← w.simple var true) then
                let lines := lines ++ [s!"size += {accessor}{var.name}.len() * {← w.sizeOf var.vartype};"]
                pure lines
              else if var.vartype == "string" then
                let lines := lines ++ [s!"for s in &{accessor}{var.name} \{"]
                let lines := lines ++ [s!"{w.tab}size += {w.p.stringSize.size} + s.len();"]
                let lines := lines ++ ["}"]
                pure lines
              else
                let lines := lines ++ [s!"for el in &{accessor}{var.name} \{"]
                let (clines, caccum) ← genMeasurement w fuel (← w.struct var.vartype) "el."
                let clines := if (← headLine clines) == sizeInit then clines.tail else clines
                let clines := clines ++ [s!"size += {caccum};"]
                let lines := lines ++ (clines.map fun l => s!"{w.tab}{l}")
                let lines := lines ++ ["}"]
                pure lines)
            pure (accum, lines)
          else if (← w.simple var false) then
            let accum := accum + (← w.sizeOf var.vartype)
            pure (accum, lines)
          else if var.vartype == "string" then
            let accum := accum + w.p.stringSize.size
            let lines := lines ++ [s!"size += {accessor}{var.name}.len();"]
            pure (accum, lines)
          else
            let (clines, caccum) ← genMeasurement w fuel (← w.struct var.vartype) (s!"{accessor}{var.name}.")
            let clines := if (← headLine clines) == sizeInit then clines.tail else clines
            let lines := lines ++ clines
            let accum := accum + caccum
            pure (accum, lines))
        pure (accum, lines)
      pure (lines, accum)

/-- `gen_enum` (rust.py L146-178). -/
def genEnum (w : Writer) (ename : String) (edata : Enum) : Emit Unit := do
  w.line s!"#[repr({← w.type edata.encoding.name})]"
  w.line "#[derive(Debug, Copy, Clone, PartialEq, Eq)]"
  w.line s!"pub enum {ename} \{"
  shift 1
  each edata.values fun x => do
    w.line s!"{x.1} = {x.2},"
  shift (-1)
  w.line "}"
  w.blank
  w.line s!"impl Default for {ename} \{"
  shift 1
  w.line s!"fn default() -> Self \{ {ename}::{(← Writer.defaultPair edata).1} }"
  shift (-1)
  w.line "}"
  w.blank
  w.line s!"impl TryFrom<{← w.type edata.encoding.name}> for {ename} \{"
  shift 1
  w.line s!"type Error = {w.pref}Error;"
  w.blank
  w.line s!"fn try_from(value: {← w.type edata.encoding.name}) -> Result<Self, {w.pref}Error> \{"
  shift 1
  w.line "match value {"
  shift 1
  each edata.values fun x => w.line s!"{x.2} => Ok({ename}::{x.1}),"
  w.line s!"_ => Err({w.pref}Error::InvalidData)"
  shift (-1)
  w.line "}"
  shift (-1)
  w.line "}"
  shift (-1)
  w.line "}"
  w.blank

/-- `gen_struct` (rust.py L180-253). -/
def genStruct (w : Writer) (sname : String) (sdata : Struct) : Emit Unit := do
  w.line "#[derive(Default)]"
  w.line s!"pub struct {sname} \{"
  shift 1
  each sdata.members fun var => do
    if var.isList then
      if (w.types.lookup var.vartype).isSome then
        w.line s!"pub {var.name}: Vec<{← w.type var.vartype}>,"
      else
        w.line s!"pub {var.name}: Vec<{var.vartype}>,"
    else if (w.types.lookup var.vartype).isSome then
      w.line s!"pub {var.name}: {← w.type var.vartype},"
    else if w.p.isEnum var.vartype then
      let e ← w.enum var.vartype
      w.line s!"pub {var.name}: {var.vartype}"
    else
      w.line s!"pub {var.name}: {var.vartype},"
  shift (-1)
  w.line "}"
  w.blank
  (do
    if sdata.isMessage then
      w.line s!"impl MessageCodec for {sname} \{"
      shift 1
      w.line "fn get_message_type(&self) -> MessageType {"
      shift 1
      w.line s!"MessageType::{sname}"
      shift (-1)
      w.line "}"
      w.blank
    else
      w.line s!"impl {sname} \{"
      shift 1)
  w.line "fn get_size_in_bytes(&self) -> usize {"
  shift 1
  let (measureLines, accumulator) ← genMeasurement w w.p.depth sdata "self."
  each measureLines fun s => w.line s
  (do
    if decide (accumulator > 0) then
      w.line s!"size += {accumulator};")
  (do
    if decide (measureLines.length > 1) then
      w.line "size")
  shift (-1)
  w.line "}"
  w.blank
  w.line s!"fn from_bytes({(if sdata.members.length == 0 then "_" else "")}reader: &mut BufferReader) -> Result<{sname}, {w.pref}Error> \{"
  shift 1
  each sdata.members fun mem => deserializer w w.p.depth mem ""
  let varnames := (sdata.members.map (·.name))
  w.line s!"Ok({sname} \{{(", ".intercalate varnames)}})"
  shift (-1)
  w.line "}"
  w.blank
  (do
    if sdata.isMessage then
      w.line "fn write_bytes(&self, writer: &mut Vec<u8>, tag: bool) {"
      shift 1
      w.line "if tag {"
      shift 1
      let msgTypeId := (← w.messageNumber sname) + 1
      w.line s!"writer.push({msgTypeId}_u8);"
      shift (-1)
      w.line "}"
    else
      w.line "pub fn write_bytes(&self, writer: &mut Vec<u8>) {"
      shift 1)
  each sdata.members fun mem => serializer w w.p.depth mem "self."
  shift (-1)
  w.line "}"
  shift (-1)
  w.line "}"
  w.blank

/-- `generate` (rust.py L255-387). -/
def generate (w : Writer) : Emit Unit := do
  w.line s!"// This file was automatically generated by {libName} v{libVersion}"
  w.line "// <https://github.com/sjml/beschi>"
  w.line "// Do not edit directly."
  w.blank
  (do
    if w.embed.isSome then
      w.line "/*"
      w.line "DATA PROTOCOL"
      w.line "-----------------"
      each (splitlines (w.embed.getD "")) fun l => w.line s!"{l}"
      w.line "-----------------"
      w.line "END DATA PROTOCOL"
      w.line "*/"
      w.blank
      w.blank)
  let subs : List (String × Sub) := [("{# STRING_SIZE_TYPE #}", .text (← w.stringSize))]
  let w := { w with pref := "Beschi" }
  let (subs, w) ← (do
    if w.nsGiven then
      let subs := subs ++ [("Beschi", Sub.text (← w.nsText))]
      let w := { w with pref := (← w.nsText) }
      pure (subs, w)
    else
      pure (subs, w))
  w.addBoilerplate subs 0
  w.blank
  w.line "pub enum MessageType {"
  shift 1
  each w.p.messages fun m => do
    w.line s!"{m.name},"
  shift (-1)
  w.line "}"
  w.blank
  w.line "pub enum Message {"
  shift 1
  each w.p.messages fun m => do
    w.line s!"{m.name}({m.name}),"
  shift (-1)
  w.line "}"
  w.blank
  w.line "impl MessageCodec for Message {"
  shift 1
  w.line "fn get_message_type(&self) -> MessageType {"
  shift 1
  w.line "match self {"
  shift 1
  each w.p.messages fun m => do
    w.line s!"Message::{m.name}(_) => MessageType::{m.name},"
  shift (-1)
  w.line "}"
  shift (-1)
  w.line "}"
  w.blank
  w.line "fn get_size_in_bytes(&self) -> usize {"
  shift 1
  w.line "match self {"
  shift 1
  each w.p.messages fun m => do
    w.line s!"Message::{m.name}(msg) => msg.get_size_in_bytes(),"
  shift (-1)
  w.line "}"
  shift (-1)
  w.line "}"
  w.blank
  w.line s!"fn from_bytes(reader: &mut BufferReader) -> Result<Message, {w.pref}Error> \{"
  shift 1
  w.line "let tag = reader.take_byte()?;"
  w.line "let msg = match tag {"
  shift 1
  w.line s!"0 => return Err({w.pref}Error::EndOfMessageList),"
  each w.p.messages.zipIdx fun x => do
    w.line s!"{(x.2 + 1)} => Message::{x.1.name}({x.1.name}::from_bytes(reader)?),"
  w.line s!"_ => return Err({w.pref}Error::InvalidData),"
  shift (-1)
  w.line "};"
  w.line "Ok(msg)"
  shift (-1)
  w.line "}"
  w.blank
  w.line "fn write_bytes(&self, writer: &mut Vec<u8>, tag: bool) {"
  shift 1
  w.line "match self {"
  shift 1
  each w.p.messages fun m => do
    w.line s!"Message::{m.name}(msg) => msg.write_bytes(writer, tag),"
  shift (-1)
  w.line "}"
  shift (-1)
  w.line "}"
  shift (-1)
  w.line "}"
  w.blank
  w.line s!"pub fn process_raw_bytes(reader: &mut BufferReader, max: i32) -> Result<Vec<Message>, {w.pref}Error> \{"
  shift 1
  w.line "let mut msg_list: Vec<Message> = Vec::new();"
  w.line "if max == 0 {"
  shift 1
  w.line "return Ok(msg_list);"
  shift (-1)
  w.line "}"
  w.line "while !reader.is_finished() && (max < 0 || msg_list.len() < max as usize) {"
  shift 1
  w.line "match Message::from_bytes(reader) {"
  shift 1
  w.line "Err(e) => match e {"
  shift 1
  w.line s!"{w.pref}Error::EndOfMessageList => return Ok(msg_list),"
  w.line "_ => return Err(e),"
  shift (-1)
  w.line "}"
  w.line "Ok(msg) => msg_list.push(msg),"
  shift (-1)
  w.line "}"
  shift (-1)
  w.line "}"
  w.line "Ok(msg_list)"
  shift (-1)
  w.line "}"
  w.blank
  each w.p.enums fun edata => do
    genEnum w edata.name edata
  each w.p.structs fun sdata => do
    genStruct w sdata.name sdata
  each w.p.messages fun mdata => do
    genStruct w mdata.name mdata

end Beschi.Text.Rust
