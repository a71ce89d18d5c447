import Verif.Text.Writer
/-
The text written for Zig (beschi/writers/zig.py), function by function and line by line.
-/
namespace Beschi.Text.Zig

set_option linter.unusedVariables false

/-- What is added to `self.type_mapping` (zig.py L19-29). -/
def mapping : List (String × String) := [
  ("byte", "u8"), ("bool", "bool"), ("uint16", "u16"), ("int16", "i16"), ("uint32", "u32"),
  ("int32", "i32"), ("uint64", "u64"), ("int64", "i64"), ("float", "f32"), ("double", "f64"),
  ("string", "[]const u8")]

/-- `self.base_defaults` (zig.py L31-43). -/
def defaults : List (String × String) := [
  ("byte", "0"), ("bool", "false"), ("uint16", "0"), ("int16", "0"), ("uint32", "0"),
  ("int32", "0"), ("uint64", "0"), ("int64", "0"), ("float", "0.0"), ("double", "0.0"),
  ("string", "\"\"")]

/-- `ZigWriter` after `__init__` (zig.py L14-43). -/
def writer (p : Protocol) (tab : Option String) (embed : Option String) (boilerplate : Nat → List String) : Writer :=
  { p, tab := tab.getD "    ", nativeTab := "    ", mapping, defaults, embed, boilerplate }

/-- `[sname for sname, sdata in ....items() if sdata.is_simple()]` (zig.py L302-303). -/
def simpleNames (w : Writer) (ss : List Struct) : Emit (List String) :=
  eachWith ss [] fun names sdata => do
    if (← w.structSimple sdata) then pure (names ++ [sdata.name]) else pure names

/-- `deserializer` (zig.py L45-73). -/
def deserializer (w : Writer) : Nat → Variable → String → Bool → Int → Emit Unit
  | 0, _, _, _, _ => Emit.raise .recursion
  | fuel + 1, var, accessor, parentIsSimple, simpleOffset => do
    if parentIsSimple then
      if Writer.isNum var.vartype then
        w.line s!"const {accessor}_{var.name} = (try readNumber({← w.type var.vartype}, offset + {simpleOffset}, buffer)).value;"
      else if w.p.isEnum var.vartype then
        let e ← w.enum var.vartype
        w.line s!"const {accessor}_{var.name} = (try readNumber({var.vartype}, offset + {simpleOffset}, buffer)).value;"
      else
        w.line s!"const {accessor}_{var.name}_read = {var.vartype}.fromBytes(offset + {simpleOffset}, buffer);"
        w.line s!"const {accessor}_{var.name} = {accessor}_{var.name}_read.value;"
    else
      (do
        if var.isList then
          w.line s!"const {accessor}_{var.name}_read = try readList({← w.type var.vartype}, allocator, local_offset, buffer);"
          w.line s!"const {accessor}_{var.name} = {accessor}_{var.name}_read.value;"
          w.line s!"local_offset += {accessor}_{var.name}_read.bytes_read;"
        else if (Writer.isNum var.vartype || w.p.isEnum var.vartype) then
          w.line s!"const {accessor}_{var.name}_read = try readNumber({← w.type var.vartype}, local_offset, buffer);"
          w.line s!"const {accessor}_{var.name} = {accessor}_{var.name}_read.value;"
          w.line s!"local_offset += {accessor}_{var.name}_read.bytes_read;"
        else if var.vartype == "string" then
          w.line s!"const {accessor}_{var.name}_read = try readString(allocator, local_offset, buffer);"
          w.line s!"const {accessor}_{var.name} = {accessor}_{var.name}_read.value;"
          w.line s!"local_offset += {accessor}_{var.name}_read.bytes_read;"
        else
          w.line s!"const {accessor}_{var.name}_read = try {var.vartype}.fromBytes({(if (← w.simple var false) then "" else "allocator, ")}local_offset, buffer);"
          w.line s!"const {accessor}_{var.name} = {accessor}_{var.name}_read.value;"
          w.line s!"local_offset += {accessor}_{var.name}_read.bytes_read;")
      w.blank

/-- `serializer` (zig.py L75-87). -/
def serializer (w : Writer) : Nat → Variable → String → Bool → Int → Emit Unit
  | 0, _, _, _, _ => Emit.raise .recursion
  | fuel + 1, var, accessor, parentIsSimple, simpleOffset => do
    if parentIsSimple then
      if Writer.isNum var.vartype then
        w.line s!"_ = writeNumber({← w.type var.vartype}, offset + {simpleOffset}, buffer, {accessor}{var.name});"
    else if var.isList then
      w.line s!"local_offset += writeList({← w.type var.vartype}, local_offset, buffer, {accessor}{var.name});"
    else if (Writer.isNum var.vartype || w.p.isEnum var.vartype) then
      w.line s!"local_offset += writeNumber({← w.type var.vartype}, local_offset, buffer, {accessor}{var.name});"
    else if var.vartype == "string" then
      w.line s!"local_offset += writeString(local_offset, buffer, {accessor}{var.name});"
    else
      w.line s!"local_offset += {accessor}{var.name}.writeBytes(local_offset, buffer);"

/-- `gen_measurement` (zig.py L92-132). -/
def genMeasurement (w : Writer) : Nat → Struct → String → Nat → Emit (List String × Nat)
  | 0, _, _, _ => Emit.raise .recursion
  | fuel + 1, st, accessor, depth => do
    let lines : List String := []
    let accum := 0
    if (← w.structSimple st) then
      let lines := lines ++ [s!"return {← w.sizeOf st.name};"]
      pure (lines, accum)
    else
      let sizeInit := "var size: usize = 0;"
      let lines := lines ++ [sizeInit]
      let (accum, lines) ← eachWith st.members (accum, lines) fun (accum, lines) var => do
        let (accum, lines) ← (do
          if var.isList then
            let accum := accum + w.p.listSize.size
            let lines ← (do
              if (← w.simple var true) then
                let lines := lines ++ [s!"size += {accessor}{var.name}.len * {← w.sizeOf var.vartype};"]
                pure lines
              else if var.vartype == "string" then
                let lines := lines ++ [s!"for ({accessor}{var.name}) |s| \{"]
                let lines := lines ++ [s!"{w.tab}size += {w.p.stringSize.size} + s.len;"]
                let lines := lines ++ ["}"]
                pure lines
              else
                let lines := lines ++ [s!"for ({accessor}{var.name}) |el{depth}| \{"]
                let (clines, caccum) ← genMeasurement w fuel (← w.struct var.vartype) (s!"el{depth}.") (depth + 1)
                let clines := if (← headLine clines) == sizeInit then clines.tail else clines
                let clines := clines ++ [s!"size += {caccum};"]
                let lines := lines ++ (clines.map fun l => s!"{w.tab}{l}")
                let lines := lines ++ ["}"]
                pure lines)
            pure (accum, lines)
          else if (← w.simple var false) then
            let accum := accum + (← w.sizeOf var.vartype)
            pure (accum, lines)
          else if var.vartype == "string" then
            let accum := accum + w.p.stringSize.size
            let lines := lines ++ [s!"size += {accessor}{var.name}.len;"]
            pure (accum, lines)
          else
            let (clines, caccum) ← genMeasurement w fuel (← w.struct var.vartype) (s!"{accessor}{var.name}.") (depth + 1)
            let clines := if (← headLine clines) == sizeInit then clines.tail else clines
            let lines := lines ++ clines
            let accum := accum + caccum
            pure (accum, lines))
        pure (accum, lines)
      pure (lines, accum)

/-- `destructor` (zig.py L134-150). -/
def destructor (w : Writer) : Nat → Variable → String → Emit Unit
  | 0, _, _ => Emit.raise .recursion
  | fuel + 1, var, accessor => do
    if (← w.simple var false) then
      pure ()
    else
      if var.isList then
        (do
          if !(← w.simple var true) then
            let idx ← level
            w.line s!"for ({accessor}{var.name}) |{(if !var.vartype == "string" then "*" else "")}item{idx}| \{"
            shift 1
            let inner := (⟨s!"item{idx}", var.vartype, false⟩ : Variable)
            destructor w fuel inner ""
            shift (-1)
            w.line "}")
        w.line s!"allocator.free({accessor}{var.name});"
      else if var.vartype == "string" then
        w.line s!"allocator.free({accessor}{var.name});"
      else
        w.line s!"{accessor}{var.name}.deinit(allocator);"

/-- `gen_enum` (zig.py L152-159). -/
def genEnum (w : Writer) (ename : String) (edata : Enum) : Emit Unit := do
  w.line s!"pub const {ename} = enum({← w.type edata.encoding.name}) \{"
  shift 1
  each edata.values fun x => do
    w.line s!"{x.1} = {x.2},"
  shift (-1)
  w.line "};"
  w.blank

/-- `gen_struct` (zig.py L161-277). -/
def genStruct (w : Writer) (sname : String) (sdata : Struct) : Emit Unit := do
  w.line s!"pub const {sname} = struct \{"
  shift 1
  each sdata.members fun var => do
    if var.isList then
      w.line s!"{var.name}: []{← w.type var.vartype} = &.\{},"
    else
      let defaultValue := (w.defaults.lookup var.vartype)
      let defaultValue ← (do
        if defaultValue.isNone then
          let defaultValue ← (do
            if w.p.isEnum var.vartype then
              let e ← w.enum var.vartype
              let defaultValue : Option String := some (s!"{e.name}.{(← Writer.defaultPair e).1}")
              pure defaultValue
            else
              let defaultValue : Option String := some (s!"{var.vartype}\{}")
              pure defaultValue)
          pure defaultValue
        else
          pure defaultValue)
      w.line s!"{var.name}: {← w.type var.vartype} = {defaultValue.getD "None"},"
  w.blank
  w.line s!"pub fn getSizeInBytes(self: *const {sname}) usize \{"
  shift 1
  (do
    if (← w.structSimple sdata) then
      w.line "_ = self;"
      w.line s!"return {← w.sizeOf sname};"
    else
      let (measureLines, accumulator) ← genMeasurement w w.p.depth sdata "self." 0
      each measureLines fun s => w.line s
      (do
        if decide (accumulator > 0) then
          w.line s!"size += {accumulator};")
      w.line "return size;")
  shift (-1)
  w.line "}"
  w.blank
  w.line s!"pub fn fromBytes({(if (← w.structSimple sdata) then "" else "allocator: std.mem.Allocator, ")}offset: usize, buffer: []const u8) !struct \{ value: {sname}, bytes_read: usize } \{"
  shift 1
  let simpleOffset : Int := (-1)
  (do
    if sdata.members.length == 0 then
      w.line "_ = offset;"
      w.line "_ = buffer;")
  let simpleOffset ← (do
    if (← w.structSimple sdata) then
      let simpleOffset : Int := 0
      pure simpleOffset
    else
      w.line "var local_offset = offset;"
      w.blank
      pure simpleOffset)
  let simpleOffset ← eachWith sdata.members simpleOffset fun simpleOffset mem => do
    deserializer w w.p.depth mem sname (← w.structSimple sdata) simpleOffset
    let simpleOffset ← (do
      if (← w.structSimple sdata) then
        let simpleOffset := simpleOffset + (← w.sizeOf mem.vartype)
        pure simpleOffset
      else
        pure simpleOffset)
    pure simpleOffset
  w.line s!"return .\{ .value = {sname}\{"
  shift 1
  each sdata.members fun var => do
    w.line s!".{var.name} = {sname}_{var.name},"
  shift (-1)
  (do
    if (← w.structSimple sdata) then
      w.line s!"}, .bytes_read = {← w.sizeOf sdata.name} };"
    else
      w.line "}, .bytes_read = local_offset - offset };")
  shift (-1)
  w.line "}"
  w.blank
  (do
    if sdata.isMessage then
      w.line s!"pub fn writeBytes(self: *const {sname}, offset: usize, buffer: []u8, tag: bool) usize \{"
      shift 1
    else
      w.line s!"pub fn writeBytes(self: *const {sname}, offset: usize, buffer: []u8) usize \{"
      shift 1)
  let simpleOffset : Int := (-1)
  (do
    if sdata.members.length == 0 then
      w.line "_ = self;"
      if !sdata.isMessage then
        w.line "_ = offset;")
  let simpleOffset ← (do
    if (← w.structSimple sdata) then
      let simpleOffset : Int := 0
      let simpleOffset ← (do
        if sdata.isMessage then
          w.line "var local_offset = offset;"
          w.blank
          w.line "if (tag) {"
          shift 1
          let msgTypeId := (← w.messageNumber sname) + 1
          w.line s!"local_offset += writeNumber(u8, local_offset, buffer, {msgTypeId});"
          shift (-1)
          w.line "}"
          let simpleOffset := simpleOffset + 1
          pure simpleOffset
        else
          pure simpleOffset)
      pure simpleOffset
    else
      w.line "var local_offset = offset;"
      (do
        if sdata.isMessage then
          w.line "if (tag) {"
          shift 1
          let msgTypeId := (← w.messageNumber sname) + 1
          w.line s!"local_offset += writeNumber(u8, local_offset, buffer, {msgTypeId});"
          shift (-1)
          w.line "}")
      w.blank
      pure simpleOffset)
  let simpleOffset ← eachWith sdata.members simpleOffset fun simpleOffset mem => do
    serializer w w.p.depth mem "self." ((← w.structSimple sdata) && !sdata.isMessage) simpleOffset
    let simpleOffset ← (do
      if (← w.structSimple sdata) then
        let simpleOffset := simpleOffset + (← w.sizeOf mem.vartype)
        pure simpleOffset
      else
        pure simpleOffset)
    pure simpleOffset
  (do
    if ((← w.structSimple sdata) && !sdata.isMessage) then
      w.line s!"return {simpleOffset};"
    else
      w.blank
      w.line "return local_offset - offset;")
  shift (-1)
  w.line "}"
  (do
    if !(← w.structSimple sdata) then
      w.blank
      w.line s!"pub fn deinit(self: *{sname}, allocator: std.mem.Allocator) void \{"
      shift 1
      each sdata.members fun mem => destructor w w.p.depth mem "self."
      shift (-1)
      w.line "}")
  shift (-1)
  w.line "};"
  w.blank

/-- `generate` (zig.py L281-410). -/
def generate (w : Writer) : Emit Unit := do
  w.line s!"// This file was automatically generated by {libName} v{libVersion}"
  w.line "// <https://github.com/sjml/beschi>"
  w.line "// Do not edit directly."
  w.blank
  (do
    if w.embed.isSome then
      w.line "// DATA PROTOCOL"
      w.line "// -----------------"
      each (splitlines (w.embed.getD "")) fun l => w.line s!"// {l}"
      w.line "// -----------------"
      w.line "// END DATA PROTOCOL"
      w.blank
      w.blank)
  w.line "const std = @import(\"std\");"
  w.blank
  let simpleStructs ← simpleNames w w.p.structs
  let simpleMessages ← simpleNames w w.p.messages
  let simpletons := (simpleStructs ++ simpleMessages)
  let enumTypes := (w.p.enums.map (·.name))
  let subs : List (String × Sub) := [("{# STRING_SIZE_TYPE #}", .text (← w.stringSize)), ("{# LIST_SIZE_TYPE #}", .text (← w.listSize)), ("{# SIMPLE_TYPES #}", .text (s!"{(", ".intercalate simpletons)}{(if decide (simpletons.length > 0) then "," else "")}")), ("{# ENUM_TYPES #}", .text (s!"{(", ".intercalate enumTypes)}{(if decide (enumTypes.length > 0) then "," else "")}"))]
  w.addBoilerplate subs 0
  w.blank
  w.line "pub const MessageType = enum(u8) {"
  shift 1
  each w.p.messages fun m => do
    w.line s!"{m.name},"
  shift (-1)
  w.line "};"
  w.blank
  w.line "pub const Message = union(MessageType) {"
  shift 1
  each w.p.messages fun m => do
    w.line s!"{m.name}: {m.name},"
  w.blank
  w.line "pub fn getSizeInBytes(self: @This()) usize {"
  shift 1
  w.line "return switch (self) {"
  shift 1
  each w.p.messages fun m => do
    w.line s!".{m.name} => self.{m.name}.getSizeInBytes(),"
  shift (-1)
  w.line "};"
  shift (-1)
  w.line "}"
  w.blank
  w.line "pub fn writeBytes(self: @This(), offset: usize, buffer: []u8, tag: bool) usize {"
  shift 1
  w.line "return switch (self) {"
  shift 1
  each w.p.messages fun m => do
    w.line s!".{m.name} => self.{m.name}.writeBytes(offset, buffer, tag),"
  shift (-1)
  w.line "};"
  shift (-1)
  w.line "}"
  shift (-1)
  w.line "};"
  w.blank
  w.line "pub fn processRawBytes(allocator: std.mem.Allocator, buffer: []const u8, max: i32) ![]Message {"
  shift 1
  w.line "var msg_list = std.ArrayList(Message).init(allocator);"
  w.line "defer msg_list.deinit();"
  w.line "if (max == 0) {"
  shift 1
  w.line "return msg_list.toOwnedSlice();"
  shift (-1)
  w.line "}"
  w.line "var local_offset: usize = 0;"
  w.line "while (local_offset < buffer.len and (max < 0 or msg_list.items.len < max)) {"
  shift 1
  w.line "const msg_type_byte = (try readNumber(u8, local_offset, buffer)).value;"
  w.line "local_offset += 1;"
  w.line "if (msg_type_byte == 0) {"
  shift 1
  w.line "return msg_list.toOwnedSlice();"
  shift (-1)
  w.line "}"
  w.line "const msg_type: MessageType = std.meta.intToEnum(MessageType, msg_type_byte - 1) catch return DataReaderError.InvalidData;"
  w.line "switch(msg_type) {"
  shift 1
  each w.p.messages fun mdata => do
    w.line s!".{mdata.name} => \{"
    shift 1
    (do
      if (← w.structSimple mdata) then
        w.line s!"const msg_read = try {mdata.name}.fromBytes(local_offset, buffer);"
      else
        w.line s!"const msg_read = try {mdata.name}.fromBytes(allocator, local_offset, buffer);")
    w.line "local_offset += msg_read.bytes_read;"
    w.line s!"try msg_list.append(Message\{ .{mdata.name} = msg_read.value });"
    shift (-1)
    w.line "},"
  shift (-1)
  w.line "}"
  shift (-1)
  w.line "}"
  w.line "return msg_list.toOwnedSlice();"
  shift (-1)
  w.line "}"
  w.blank
  each w.p.enums fun edata => do
    genEnum w edata.name edata
  each w.p.structs fun sdata => do
    genStruct w sdata.name sdata
  each w.p.messages fun mdata => do
    genStruct w mdata.name mdata
  w.blank
  assertBalanced

end Beschi.Text.Zig
