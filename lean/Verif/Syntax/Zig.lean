import Verif.Syntax.Size
import Verif.Syntax.Initial
import Verif.Lang.Zig
/-
How the generated functions are written in Zig.

These are the lines that the reads, writes and size computations in Verif/Lang/Zig.lean stand for.  They are
stated apart from the functions that write the text (Verif/Text/Zig.lean, zig.py L45-410).
-/
namespace Beschi.Syntax.Zig
open Beschi.Spec Beschi.Lang

/-- The type of a member. -/
def typeOf (t : String) : String :=
  match NumTy.ofName? t with
  | some n => Lang.Zig.native n
  | none => if t = "string" then "[]const u8" else t

/-- A variable. -/
def place : Loc → String
  | .var x => x
  | .mem x => s!"self.{x}"

/-- The type of the values that are read. -/
def atomType : RAtom → String
  | .num prim => prim
  | .text => "[]const u8"
  | .enum _ e => e
  | .call s | .whole s => s

/-- The call that reads one value where the reader stands. -/
def readCall : RAtom → String
  | .num prim => s!"readNumber({prim}, local_offset, buffer)"
  | .enum _ e => s!"readNumber({e}, local_offset, buffer)"
  | .text => "readString(allocator, local_offset, buffer)"
  | .whole s => s!"{s}.fromBytes(local_offset, buffer)"
  | .call s => s!"{s}.fromBytes(allocator, local_offset, buffer)"

/-- A call whose error leaves the function, its value and the bytes it has read. -/
def take (x call : String) : List Row :=
  flush [s!"const {x}_read = try {call};", s!"const {x} = {x}_read.value;",
    s!"local_offset += {x}_read.bytes_read;", ""]

/-- The lines of one statement of a reading function.  (The length of a list is read by `readList`.) -/
def readStmt : RStmt → List Row
  | .one x a => take (place x) (readCall a)
  | .list x _ _ a => take (place x) s!"readList({atomType a}, allocator, local_offset, buffer)"

/-- The read of a member of a struct of fixed size, at the offset `k`. -/
def readFixedMember (p : Protocol) (s : String) (k : Nat) (m : Variable) : List Row :=
  if (NumTy.ofName? m.vartype).isSome || (p.enum? m.vartype).isSome then
    flush [s!"const {s}_{m.name} = (try readNumber({typeOf m.vartype}, offset + {k}, buffer)).value;"]
  else
    flush [s!"const {s}_{m.name}_read = {m.vartype}.fromBytes(offset + {k}, buffer);",
      s!"const {s}_{m.name} = {s}_{m.name}_read.value;"]

/-- The reads of a struct of fixed size; `k` is the offset of the next member. -/
def readFixed (p : Protocol) (s : String) : Nat → List Variable → List Row
  | _, [] => []
  | k, m :: ms => readFixedMember p s k m ++ readFixed p s (k + p.sizeOf m.vartype) ms

/-- A reading function. -/
def reader (p : Protocol) (st : Struct) : List Row :=
  let f := Lang.Zig.fromBytes p st
  flush [s!"pub fn fromBytes({if p.simpleStruct st then "" else "allocator: std.mem.Allocator, "}offset: usize, buffer: []const u8) !struct \{ value: {st.name}, bytes_read: usize } \{"] ++
  inside 1 (
    (if st.members = [] then flush ["_ = offset;", "_ = buffer;"] else []) ++
    (if p.simpleStruct st then readFixed p st.name 0 st.members
      else flush ["var local_offset = offset;", ""] ++ f.body.flatMap readStmt) ++
    flush [s!"return .\{ .value = {st.name}\{"] ++
    inside 1 (flush (f.result.map fun x => s!".{x.1} = {place x.2},")) ++
    flush [s!"}, .bytes_read = {if p.simpleStruct st then toString (p.sizeOf st.name) else "local_offset - offset"} };"]) ++
  flush ["}"]

/-- The call that writes a member where the writer stands. -/
def writeCall (p : Protocol) (m : Variable) : String :=
  if m.isList then s!"writeList({typeOf m.vartype}, local_offset, buffer, self.{m.name})"
  else if (NumTy.ofName? m.vartype).isSome || (p.enum? m.vartype).isSome then
    s!"writeNumber({typeOf m.vartype}, local_offset, buffer, self.{m.name})"
  else if m.vartype = "string" then s!"writeString(local_offset, buffer, self.{m.name})"
  else s!"self.{m.name}.writeBytes(local_offset, buffer)"

/-- The write of a member of a struct of fixed size, at the offset `k`: nothing if it is not a number. -/
def writeFixedMember (k : Nat) (m : Variable) : List Row :=
  match NumTy.ofName? m.vartype with
  | some n => flush [s!"_ = writeNumber({Lang.Zig.native n}, offset + {k}, buffer, self.{m.name});"]
  | none => []

/-- The writes of a struct of fixed size; `k` is the offset of the next member. -/
def writeFixed (p : Protocol) : Nat → List Variable → List Row
  | k, [] => flush [s!"return {k};"]
  | k, m :: ms => writeFixedMember k m ++ writeFixed p (k + p.sizeOf m.vartype) ms

/-- The identifier of a message. -/
def tag (id : Nat) : List Row :=
  flush ["if (tag) {"] ++ inside 1 (flush [s!"local_offset += writeNumber(u8, local_offset, buffer, {id});"]) ++
  flush ["}"]

/-- A writing function; `id` is the number of a message. -/
def writer (p : Protocol) (id : Option Nat) (st : Struct) : List Row :=
  flush [s!"pub fn writeBytes(self: *const {st.name}, offset: usize, buffer: []u8{if id.isSome then ", tag: bool" else ""}) usize \{"] ++
  inside 1 (
    (if st.members = [] then flush (["_ = self;"] ++ if id.isSome then [] else ["_ = offset;"]) else []) ++
    match id with
    | some id =>
      flush ["var local_offset = offset;"] ++ (if p.simpleStruct st then flush [""] ++ tag id else tag id ++ flush [""]) ++
      flush (st.members.map fun m => s!"local_offset += {writeCall p m};") ++
      flush ["", "return local_offset - offset;"]
    | none =>
      if p.simpleStruct st then writeFixed p 0 st.members
      else flush ["var local_offset = offset;", ""] ++
        flush (st.members.map fun m => s!"local_offset += {writeCall p m};") ++
        flush ["", "return local_offset - offset;"]) ++
  flush ["}"]

/-- The steps of a size computation. -/
def sizes : SizeSyntax where
  init := "var size: usize = 0;"
  ret n := s!"return {n};"
  add n := s!"size += {n};"
  addCount a n := s!"size += {a}.len * {n};"
  addText a := s!"size += {a}.len;"
  addTextPlus k a := s!"size += {k} + {a}.len;"
  loop v _ a := [s!"for ({a}) |{v}| \{"]

/-- A size computation.  If the size is fixed, there is nothing after the first `return`. -/
def size (p : Protocol) (st : Struct) (f : MFun) : List Row :=
  flush [s!"pub fn getSizeInBytes(self: *const {st.name}) usize \{"] ++
  inside 1 (if p.simpleStruct st then flush ["_ = self;"] ++ sizes.lines f.lines
    else sizes.lines f.lines ++ flush ["return size;"]) ++
  flush ["}"]

/-- The release of what a value at `x` owns. -/
def free (p : Protocol) (x t : String) : List Row :=
  if t = "string" then flush [s!"allocator.free({x});"]
  else match p.struct? t with
    | some st => if p.simpleStruct st then [] else flush [s!"{x}.deinit(allocator);"]
    | none => []

/-- The release of a member: elements that own something before the list that holds them. -/
def freeMember (p : Protocol) (m : Variable) : List Row :=
  if m.isList then
    (if free p "item2" m.vartype = [] then []
      else flush [s!"for (self.{m.name}) |{if m.vartype = "string" then "" else "*"}item2| \{"] ++
        inside 1 (free p "item2" m.vartype) ++ flush ["}"]) ++
    flush [s!"allocator.free(self.{m.name});"]
  else free p s!"self.{m.name}" m.vartype

/-- The function that releases what an object owns. -/
def deinit (p : Protocol) (st : Struct) : List Row :=
  flush [s!"pub fn deinit(self: *{st.name}, allocator: std.mem.Allocator) void \{"] ++
  inside 1 (st.members.flatMap (freeMember p)) ++
  flush ["}"]

/-- Default values. -/
def initial : InitialSyntax where
  zero := "0.0"
  list _ := "&.{}"
  entry e x := s!"{e}.{x}"
  make s := s ++ "{}"

/-- The default value of a member. -/
def defaultOf (p : Protocol) (m : Variable) : String :=
  match Lang.Zig.default p m with
  | .ok d => initial.expr p m.vartype (typeOf m.vartype) d
  | .error _ => ""

/-- The declarations of members. -/
def members (p : Protocol) (st : Struct) : List Row :=
  flush (st.members.map fun m => s!"{m.name}: {if m.isList then "[]" else ""}{typeOf m.vartype} = {defaultOf p m},")

/-- A struct or message with its functions. -/
def type (p : Protocol) (id : Option Nat) (st : Struct) (sz : MFun) : List Row :=
  flush [s!"pub const {st.name} = struct \{"] ++
  inside 1 (members p st ++ flush [""] ++ size p st sz ++ flush [""] ++ reader p st ++ flush [""] ++ writer p id st ++
    (if p.simpleStruct st then [] else flush [""] ++ deinit p st)) ++
  flush ["};"]

/-- An enum. -/
def enum (e : Enum) : List Row :=
  flush [s!"pub const {e.name} = enum({Lang.Zig.native e.encoding}) \{"] ++
  inside 1 (flush (e.values.map fun x => s!"{x.1} = {x.2},")) ++
  flush ["};"]

/-- The message types, in order: the first one has the number 0. -/
def messageTypes (arms : List (Nat × String)) : List Row :=
  flush ["pub const MessageType = enum(u8) {"] ++ inside 1 (flush (arms.map fun x => s!"{x.2},")) ++ flush ["};"]

/-- The union of all messages. -/
def message (arms : List (Nat × String)) : List Row :=
  flush ["pub const Message = union(MessageType) {"] ++
  inside 1 (
    flush (arms.map fun x => s!"{x.2}: {x.2},") ++
    flush ["", "pub fn getSizeInBytes(self: @This()) usize {"] ++
    inside 1 (flush ["return switch (self) {"] ++
      inside 1 (flush (arms.map fun x => s!".{x.2} => self.{x.2}.getSizeInBytes(),")) ++ flush ["};"]) ++
    flush ["}", "", "pub fn writeBytes(self: @This(), offset: usize, buffer: []u8, tag: bool) usize {"] ++
    inside 1 (flush ["return switch (self) {"] ++
      inside 1 (flush (arms.map fun x => s!".{x.2} => self.{x.2}.writeBytes(offset, buffer, tag),")) ++ flush ["};"]) ++
    flush ["}"]) ++
  flush ["};"]

/-- The call that reads a message, without its identifier. -/
def readMessage (p : Protocol) (m : String) : String :=
  match p.message? m with
  | some st => s!"{m}.fromBytes({if p.simpleStruct st then "" else "allocator, "}local_offset, buffer)"
  | none => ""

/-- The reading of tagged messages. -/
def process (p : Protocol) (arms : List (Nat × String)) : List Row :=
  flush ["pub fn processRawBytes(allocator: std.mem.Allocator, buffer: []const u8, max: i32) ![]Message {"] ++
  inside 1 (
    flush ["var msg_list = std.ArrayList(Message).init(allocator);", "defer msg_list.deinit();", "if (max == 0) {"] ++
    inside 1 (flush ["return msg_list.toOwnedSlice();"]) ++
    flush ["}", "var local_offset: usize = 0;",
      "while (local_offset < buffer.len and (max < 0 or msg_list.items.len < max)) {"] ++
    inside 1 (
      flush ["const msg_type_byte = (try readNumber(u8, local_offset, buffer)).value;", "local_offset += 1;",
        "if (msg_type_byte == 0) {"] ++
      inside 1 (flush ["return msg_list.toOwnedSlice();"]) ++
      flush ["}",
        "const msg_type: MessageType = std.meta.intToEnum(MessageType, msg_type_byte - 1) catch return DataReaderError.InvalidData;",
        "switch(msg_type) {"] ++
      inside 1 (arms.flatMap fun x => flush [s!".{x.2} => \{"] ++
        inside 1 (flush [s!"const msg_read = try {readMessage p x.2};", "local_offset += msg_read.bytes_read;",
          s!"try msg_list.append(Message\{ .{x.2} = msg_read.value });"]) ++
        flush ["},"]) ++
      flush ["}"]) ++
    flush ["}", "return msg_list.toOwnedSlice();"]) ++
  flush ["}"]

/-- The table of the types of fixed size; it is of this form if there are any. -/
def simpleTypes (names : List String) : List Row :=
  [⟨0, "const simpleTypes = [_]type{"⟩, ⟨1, ", ".intercalate names ++ ","⟩, ⟨0, "};"⟩]

/-- The table of enums; it is of this form if there are any. -/
def enumTypes (names : List String) : List Row :=
  [⟨0, "const enumTypes = [_]type{"⟩, ⟨1, ", ".intercalate names ++ ","⟩, ⟨0, "};"⟩]

/-- `readString`; `len` is the type of lengths of texts. -/
def readString (len : String) : List Row := [
    ⟨0, "pub fn readString(allocator: std.mem.Allocator, offset: usize, buffer: []const u8) !struct { value: []u8, bytes_read: usize } {"⟩,
    ⟨1, s!"const len_read = try readNumber({len}, offset, buffer);"⟩,
    ⟨1, "const len = len_read.value;"⟩,
    ⟨0, ""⟩,
    ⟨1, s!"if (offset + @sizeOf({len}) + len > buffer.len) \{"⟩,
    ⟨2, "return DataReaderError.EOF;"⟩,
    ⟨1, "}"⟩,
    ⟨0, ""⟩,
    ⟨1, "var str = try allocator.alloc(u8, len);"⟩,
    ⟨1, "for (0..len) |i| {"⟩,
    ⟨2, "str[i] = buffer[offset + len_read.bytes_read + i];"⟩,
    ⟨1, "}"⟩,
    ⟨1, s!"return .\{ .value = str, .bytes_read = @sizeOf({len}) + len };"⟩,
    ⟨0, "}"⟩]

/-- `readList`; `len` is the type of lengths of lists. -/
def readList (len : String) : List Row := [
    ⟨0, "pub fn readList(comptime T: type, allocator: std.mem.Allocator, offset: usize, buffer: []const u8) !struct { value: []T, bytes_read: usize } {"⟩,
    ⟨1, "var local_offset = offset;"⟩,
    ⟨1, s!"const len_read = try readNumber({len}, local_offset, buffer);"⟩,
    ⟨1, "const len = len_read.value;"⟩,
    ⟨1, "local_offset += len_read.bytes_read;"⟩,
    ⟨1, "var list = try allocator.alloc(T, len);"⟩,
    ⟨1, s!"var made_count: {len} = 0;"⟩,
    ⟨0, ""⟩,
    ⟨1, "errdefer {"⟩,
    ⟨2, "for (0..made_count) |i| {"⟩,
    ⟨3, "if (comptime (numberTypeIsValid(T) or typeIsEnum(T))) {"⟩,
    ⟨4, "// no-op; just keeping the same structure as below"⟩,
    ⟨3, "}"⟩,
    ⟨3, "else {"⟩,
    ⟨4, "switch (T) {"⟩,
    ⟨5, "[]u8, []const u8 => {"⟩,
    ⟨6, "allocator.free(list[i]);"⟩,
    ⟨5, "},"⟩,
    ⟨5, "else => {"⟩,
    ⟨6, "if (comptime typeIsSimple(T)) {"⟩,
    ⟨7, "// no-op"⟩,
    ⟨6, "}"⟩,
    ⟨6, "else {"⟩,
    ⟨7, "list[i].deinit(allocator);"⟩,
    ⟨6, "}"⟩,
    ⟨5, "}"⟩,
    ⟨4, "}"⟩,
    ⟨3, "}"⟩,
    ⟨2, "}"⟩,
    ⟨2, "allocator.free(list);"⟩,
    ⟨1, "}"⟩,
    ⟨0, ""⟩,
    ⟨1, "for (0..len) |i| {"⟩,
    ⟨2, "if (comptime (numberTypeIsValid(T) or typeIsEnum(T))) {"⟩,
    ⟨3, "const list_read = try readNumber(T, local_offset, buffer);"⟩,
    ⟨3, "list[i] = list_read.value;"⟩,
    ⟨3, "local_offset += list_read.bytes_read;"⟩,
    ⟨2, "} else {"⟩,
    ⟨3, "switch (T) {"⟩,
    ⟨4, "[]u8, []const u8 => {"⟩,
    ⟨5, "const list_read = try readString(allocator, local_offset, buffer);"⟩,
    ⟨5, "list[i] = list_read.value;"⟩,
    ⟨5, "local_offset += list_read.bytes_read;"⟩,
    ⟨4, "},"⟩,
    ⟨4, "else => {"⟩,
    ⟨5, "if (comptime typeIsSimple(T)) {"⟩,
    ⟨6, "const list_read = try T.fromBytes(local_offset, buffer);"⟩,
    ⟨6, "list[i] = list_read.value;"⟩,
    ⟨6, "local_offset += list_read.bytes_read;"⟩,
    ⟨5, "}"⟩,
    ⟨5, "else {"⟩,
    ⟨6, "const list_read = try T.fromBytes(allocator, local_offset, buffer);"⟩,
    ⟨6, "list[i] = list_read.value;"⟩,
    ⟨6, "local_offset += list_read.bytes_read;"⟩,
    ⟨5, "}"⟩,
    ⟨4, "},"⟩,
    ⟨3, "}"⟩,
    ⟨2, "}"⟩,
    ⟨2, "made_count += 1;"⟩,
    ⟨1, "}"⟩,
    ⟨1, "return .{ .value = list, .bytes_read = local_offset - offset };"⟩,
    ⟨0, "}"⟩]

/-- `writeString`; the length of a text is written in the type of lengths of lists. -/
def writeString (len : String) : List Row := [
    ⟨0, "pub fn writeString(offset: usize, buffer: []u8, value: []const u8) usize {"⟩,
    ⟨1, s!"_ = writeNumber({len}, offset, buffer, @intCast(value.len));"⟩,
    ⟨1, s!"std.mem.copyForwards(u8, buffer[offset+@sizeOf({len})..][0..value.len], value);"⟩,
    ⟨1, s!"return @sizeOf({len}) + value.len;"⟩,
    ⟨0, "}"⟩]

/-- `writeList`; `len` is the type of lengths of lists. -/
def writeList (len : String) : List Row := [
    ⟨0, "pub fn writeList(comptime T: type, offset: usize, buffer: []u8, value: []T) usize {"⟩,
    ⟨1, "var local_offset = offset;"⟩,
    ⟨1, s!"local_offset += writeNumber({len}, local_offset, buffer, @intCast(value.len));"⟩,
    ⟨0, ""⟩,
    ⟨1, "for (value) |item| {"⟩,
    ⟨2, "if (comptime (numberTypeIsValid(T) or typeIsEnum(T))) {"⟩,
    ⟨3, "local_offset += writeNumber(T, local_offset, buffer, item);"⟩,
    ⟨2, "}"⟩,
    ⟨2, "else {"⟩,
    ⟨3, "switch(T) {"⟩,
    ⟨4, "[]u8, []const u8 => {"⟩,
    ⟨5, "local_offset += writeString(local_offset, buffer, item);"⟩,
    ⟨4, "},"⟩,
    ⟨4, "else => {"⟩,
    ⟨5, "local_offset += item.writeBytes(local_offset, buffer);"⟩,
    ⟨4, "}"⟩,
    ⟨3, "}"⟩,
    ⟨2, "}"⟩,
    ⟨1, "}"⟩,
    ⟨1, "return local_offset - offset;"⟩,
    ⟨0, "}"⟩]

end Beschi.Syntax.Zig
