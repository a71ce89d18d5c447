import Verif.Spec.Rows
import Verif.Lang.Rust
/-
How the functions of the library are written in Rust: the ones that Verif/Lang/Rust.lean and
Verif/Lang/Library.lean describe.  `err` is the type of errors, `len` the type of the lengths of strings.
-/
namespace Beschi.Syntax.Rust
open Beschi.Spec

/-- The errors (Rust.rs L6-11). -/
def errors (err : String) : List Row := [
    ⟨0, "#[derive(Debug)]"⟩,
    ⟨0, s!"pub enum {err} \{"⟩,
    ⟨1, "EndOfFile,"⟩,
    ⟨1, "InvalidData,"⟩,
    ⟨1, "EndOfMessageList,"⟩,
    ⟨0, "}"⟩]

/-- Is all of it read? (Rust.rs L43-45). -/
def isFinished : List Row := [
    ⟨0, "pub fn is_finished(&self) -> bool {"⟩,
    ⟨1, "self.current_position >= self.buffer.len()"⟩,
    ⟨0, "}"⟩]

/-- Is there so much left? (Rust.rs L47-49). -/
def hasRemaining : List Row := [
    ⟨0, "pub fn has_remaining(&self, size: usize) -> bool {"⟩,
    ⟨1, "self.current_position + size <= self.buffer.len()"⟩,
    ⟨0, "}"⟩]

/-- Taking a byte (Rust.rs L51-57). -/
def takeByte (err : String) : List Row := [
    ⟨0, s!"pub fn take_byte(&mut self) -> Result<u8, {err}> \{"⟩,
    ⟨1, "if !self.has_remaining(1) {"⟩,
    ⟨2, s!"return Err({err}::EndOfFile);"⟩,
    ⟨1, "}"⟩,
    ⟨1, "self.current_position += 1;"⟩,
    ⟨1, "Ok(self.buffer[self.current_position-1])"⟩,
    ⟨0, "}"⟩]

/-- Taking bytes (Rust.rs L59-67). -/
def take (err : String) : List Row := [
    ⟨0, s!"pub fn take(&mut self, amount: usize) -> Result<&[u8], {err}> \{"⟩,
    ⟨1, "if !self.has_remaining(amount) {"⟩,
    ⟨2, s!"return Err({err}::EndOfFile);"⟩,
    ⟨1, "}"⟩,
    ⟨0, ""⟩,
    ⟨1, "let ret: &[u8] = &self.buffer[self.current_position..self.current_position+amount];"⟩,
    ⟨1, "self.current_position += amount;"⟩,
    ⟨1, "Ok(ret)"⟩,
    ⟨0, "}"⟩]

/-- Reading a string (Rust.rs L69-76). -/
def readString (err len : String) : List Row := [
    ⟨0, s!"pub fn read_string(&mut self) -> Result<String, {err}> \{"⟩,
    ⟨1, s!"let len = self.read_{len}()?;"⟩,
    ⟨1, "let string_bytes = self.take(len as usize)?;"⟩,
    ⟨1, "match String::from_utf8(string_bytes.to_vec()) {"⟩,
    ⟨2, s!"Err(_) => Err({err}::InvalidData),"⟩,
    ⟨2, "Ok(v) => Ok(v)"⟩,
    ⟨1, "}"⟩,
    ⟨0, "}"⟩]

/-- Reading a byte (Rust.rs L78-81). -/
def readByte (err : String) : List Row := [
    ⟨0, s!"pub fn read_u8(&mut self) -> Result<u8, {err}> \{"⟩,
    ⟨1, "let byte = self.take_byte()?;"⟩,
    ⟨1, "Ok(byte)"⟩,
    ⟨0, "}"⟩]

/-- Reading a number of more than one byte (Rust.rs L83-121): it is taken from as many bytes as it has, the
lowest one first. -/
def readNumber (err : String) (n : NumTy) : List Row := [
    ⟨0, s!"pub fn read_{Lang.Rust.native n}(&mut self) -> Result<{Lang.Rust.native n}, {err}> \{"⟩,
    ⟨1, s!"let bytes = self.take({n.size})?;"⟩,
    ⟨1, s!"Ok({Lang.Rust.native n}::from_le_bytes(bytes.try_into().unwrap()))"⟩,
    ⟨0, "}"⟩]

/-- The size of packed messages (Rust.rs L133-143). -/
def packedSize : List Row := [
    ⟨0, "pub fn get_packed_size(msg_list: &[Message]) -> usize {"⟩,
    ⟨1, "let mut size: usize = 0;"⟩,
    ⟨0, ""⟩,
    ⟨1, "for msg in msg_list {"⟩,
    ⟨2, "size += msg.get_size_in_bytes();"⟩,
    ⟨1, "}"⟩,
    ⟨1, "size += msg_list.len();"⟩,
    ⟨1, "size += 9;"⟩,
    ⟨0, ""⟩,
    ⟨1, "size"⟩,
    ⟨0, "}"⟩]

/-- Packing messages (Rust.rs L145-155). -/
def pack : List Row := [
    ⟨0, "pub fn pack_messages(msg_list: &[Message], writer: &mut Vec<u8>) {"⟩,
    ⟨1, "let header_bytes = b\"BSCI\";"⟩,
    ⟨1, "writer.extend_from_slice(header_bytes);"⟩,
    ⟨1, "let msg_count = msg_list.len() as u32;"⟩,
    ⟨1, "writer.extend_from_slice(&msg_count.to_le_bytes());"⟩,
    ⟨0, ""⟩,
    ⟨1, "for msg in msg_list {"⟩,
    ⟨2, "msg.write_bytes(writer, true);"⟩,
    ⟨1, "}"⟩,
    ⟨1, "writer.push(0);"⟩,
    ⟨0, "}"⟩]

/-- Unpacking messages (Rust.rs L157-178). -/
def unpack (err : String) : List Row := [
    ⟨0, s!"pub fn unpack_messages(reader: &mut BufferReader) -> Result<Vec<Message>, {err}> \{"⟩,
    ⟨1, "let header_label = reader.take(4)?;"⟩,
    ⟨1, "if header_label != b\"BSCI\" {"⟩,
    ⟨2, s!"return Err({err}::InvalidData);"⟩,
    ⟨1, "}"⟩,
    ⟨0, ""⟩,
    ⟨1, "let msg_count = reader.read_u32()? as usize;"⟩,
    ⟨1, "if msg_count == 0 {"⟩,
    ⟨2, "return Ok(Vec::new());"⟩,
    ⟨1, "}"⟩,
    ⟨0, ""⟩,
    ⟨1, "let msg_list = process_raw_bytes(reader, msg_count as i32)?;"⟩,
    ⟨1, "let read_count = msg_list.len();"⟩,
    ⟨1, "if read_count == 0 {"⟩,
    ⟨2, s!"return Err({err}::InvalidData);"⟩,
    ⟨1, "}"⟩,
    ⟨1, "if msg_list.len() != msg_count {"⟩,
    ⟨2, s!"return Err({err}::InvalidData);"⟩,
    ⟨1, "}"⟩,
    ⟨0, ""⟩,
    ⟨1, "Ok(msg_list)"⟩,
    ⟨0, "}"⟩]

end Beschi.Syntax.Rust
