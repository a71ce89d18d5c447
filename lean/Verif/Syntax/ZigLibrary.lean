import Verif.Spec.Rows
/-
How the functions of the library that do not depend on the protocol are written in Zig: the ones that
Verif/Lang/Zig.lean and Verif/Lang/Library.lean describe.
-/
namespace Beschi.Syntax.Zig
open Beschi.Spec

/-- The errors (Zig.zig L1-4). -/
def errors : List Row := [
    ⟨0, "const DataReaderError = error {"⟩,
    ⟨1, "EOF,"⟩,
    ⟨1, "InvalidData,"⟩,
    ⟨0, "};"⟩]

/-- Is it the type of a number? (Zig.zig L6-21). -/
def numberTypeIsValid : List Row := [
    ⟨0, "fn numberTypeIsValid(comptime T: type) bool {"⟩,
    ⟨1, "const validNumericTypes = [_]type{"⟩,
    ⟨2, "bool,"⟩,
    ⟨2, "u8,  i8,"⟩,
    ⟨2, "u16, i16,"⟩,
    ⟨2, "u32, i32,"⟩,
    ⟨2, "u64, i64,"⟩,
    ⟨2, "f32, f64,"⟩,
    ⟨1, "};"⟩,
    ⟨1, "for (validNumericTypes) |vt| {"⟩,
    ⟨2, "if (T == vt) {"⟩,
    ⟨3, "return true;"⟩,
    ⟨2, "}"⟩,
    ⟨1, "}"⟩,
    ⟨1, "return false;"⟩,
    ⟨0, "}"⟩]

/-- Do values of the type need no memory of their own? (Zig.zig L31-44). -/
def typeIsSimple : List Row := [
    ⟨0, "fn typeIsSimple(comptime T: type) bool {"⟩,
    ⟨1, "if (comptime numberTypeIsValid(T)) {"⟩,
    ⟨2, "return true;"⟩,
    ⟨1, "}"⟩,
    ⟨1, "for (simpleTypes) |vt| {"⟩,
    ⟨2, "if (T == vt) {"⟩,
    ⟨3, "return true;"⟩,
    ⟨2, "}"⟩,
    ⟨1, "}"⟩,
    ⟨1, "if (typeIsEnum(T)) {"⟩,
    ⟨2, "return true;"⟩,
    ⟨1, "}"⟩,
    ⟨1, "return false;"⟩,
    ⟨0, "}"⟩]

/-- Is it an enum? (Zig.zig L46-53). -/
def typeIsEnum : List Row := [
    ⟨0, "fn typeIsEnum(comptime T: type) bool {"⟩,
    ⟨1, "for (enumTypes) |vt| {"⟩,
    ⟨2, "if (T == vt) {"⟩,
    ⟨3, "return true;"⟩,
    ⟨2, "}"⟩,
    ⟨1, "}"⟩,
    ⟨1, "return false;"⟩,
    ⟨0, "}"⟩]

/-- Is it the number of a value? (Zig.zig L55-62). -/
def isValidEnum : List Row := [
    ⟨0, "fn isValidEnum(comptime Te: type, comptime Ti: type, value: Ti) bool {"⟩,
    ⟨1, "inline for (std.meta.fields(Te)) |f| {"⟩,
    ⟨2, "if (value == f.value) {"⟩,
    ⟨3, "return true;"⟩,
    ⟨2, "}"⟩,
    ⟨1, "}"⟩,
    ⟨1, "return false;"⟩,
    ⟨0, "}"⟩]

/-- Reading a number or the value of an enum (Zig.zig L64-99). -/
def readNumber : List Row := [
    ⟨0, "pub fn readNumber(comptime T: type, offset: usize, buffer: []const u8) !struct { value: T, bytes_read: usize } {"⟩,
    ⟨1, "comptime {"⟩,
    ⟨2, "const actual_type = switch (@typeInfo(T)) {"⟩,
    ⟨3, ".Enum => |enum_info| enum_info.tag_type,"⟩,
    ⟨3, "else => T,"⟩,
    ⟨2, "};"⟩,
    ⟨0, ""⟩,
    ⟨2, "if (!numberTypeIsValid(actual_type)) {"⟩,
    ⟨3, "@compileError(\"Invalid number type\");"⟩,
    ⟨2, "}"⟩,
    ⟨1, "}"⟩,
    ⟨0, ""⟩,
    ⟨1, "if (offset + @sizeOf(T) > buffer.len) {"⟩,
    ⟨2, "return DataReaderError.EOF;"⟩,
    ⟨1, "}"⟩,
    ⟨0, ""⟩,
    ⟨1, "const val: T = switch (T) {"⟩,
    ⟨2, "f32 => @bitCast(std.mem.readInt(u32, buffer[offset..][0..@sizeOf(T)], .little)),"⟩,
    ⟨2, "f64 => @bitCast(std.mem.readInt(u64, buffer[offset..][0..@sizeOf(T)], .little)),"⟩,
    ⟨2, "bool => std.mem.readInt(u8, buffer[offset..][0..@sizeOf(T)], .little) != 0,"⟩,
    ⟨2, "else => enum_conversion: {"⟩,
    ⟨3, "break :enum_conversion switch (@typeInfo(T)) {"⟩,
    ⟨4, ".Enum => |ei| {"⟩,
    ⟨5, "const raw = std.mem.readInt(ei.tag_type, buffer[offset..][0..@sizeOf(T)], .little);"⟩,
    ⟨5, "if (!isValidEnum(T, ei.tag_type, raw)) {"⟩,
    ⟨6, "return DataReaderError.InvalidData;"⟩,
    ⟨5, "}"⟩,
    ⟨5, "break :enum_conversion @enumFromInt(raw);"⟩,
    ⟨4, "},"⟩,
    ⟨4, "else => std.mem.readInt(T, buffer[offset..][0..@sizeOf(T)], .little),"⟩,
    ⟨3, "};"⟩,
    ⟨2, "},"⟩,
    ⟨1, "};"⟩,
    ⟨0, ""⟩,
    ⟨1, "return .{ .value = val, .bytes_read = @sizeOf(T) };"⟩,
    ⟨0, "}"⟩]

/-- Writing a number or the value of an enum (Zig.zig L179-202). -/
def writeNumber : List Row := [
    ⟨0, "pub fn writeNumber(comptime T: type, offset: usize, buffer: []u8, value: T) usize {"⟩,
    ⟨1, "comptime {"⟩,
    ⟨2, "const actual_type = switch (@typeInfo(T)) {"⟩,
    ⟨3, ".Enum => |enum_info| enum_info.tag_type,"⟩,
    ⟨3, "else => T,"⟩,
    ⟨2, "};"⟩,
    ⟨0, ""⟩,
    ⟨2, "if (!numberTypeIsValid(actual_type)) {"⟩,
    ⟨3, "@compileError(\"Invalid number type\");"⟩,
    ⟨2, "}"⟩,
    ⟨1, "}"⟩,
    ⟨0, ""⟩,
    ⟨1, "const slice = buffer[offset..][0..@sizeOf(T)];"⟩,
    ⟨1, "switch (T) {"⟩,
    ⟨2, "f32 => std.mem.writeInt(u32, @constCast(slice), @bitCast(value), .little),"⟩,
    ⟨2, "f64 => std.mem.writeInt(u64, @constCast(slice), @bitCast(value), .little),"⟩,
    ⟨2, "bool => std.mem.writeInt(u8, @constCast(slice), @intFromBool(value), .little),"⟩,
    ⟨2, "else => switch (@typeInfo(T)) {"⟩,
    ⟨3, ".Enum => |ei| std.mem.writeInt(ei.tag_type, @constCast(slice), @intFromEnum(value), .little),"⟩,
    ⟨3, "else => std.mem.writeInt(T, @constCast(slice), value, .little),"⟩,
    ⟨2, "}"⟩,
    ⟨1, "}"⟩,
    ⟨1, "return @sizeOf(T);"⟩,
    ⟨0, "}"⟩]

/-- Writing any message (Zig.zig L232-236). -/
def writeBytes : List Row := [
    ⟨0, "pub fn writeBytes(m: *const Message, offset: usize, buffer: []u8, tag: bool) usize {"⟩,
    ⟨1, "switch (m.*) {"⟩,
    ⟨2, "inline else => |inner| return inner.writeBytes(offset, buffer, tag),"⟩,
    ⟨1, "}"⟩,
    ⟨0, "}"⟩]

/-- The size of packed messages (Zig.zig L238-246). -/
def packedSize : List Row := [
    ⟨0, "pub fn getPackedSize(msg_list: []const Message) usize {"⟩,
    ⟨1, "var size: usize = 0;"⟩,
    ⟨1, "for (msg_list) |msg| {"⟩,
    ⟨2, "size += msg.getSizeInBytes();"⟩,
    ⟨1, "}"⟩,
    ⟨1, "size += msg_list.len;"⟩,
    ⟨1, "size += 9;"⟩,
    ⟨1, "return size;"⟩,
    ⟨0, "}"⟩]

/-- Packing messages (Zig.zig L248-262). -/
def pack : List Row := [
    ⟨0, "pub fn packMessages(msg_list: []const Message, buffer: []u8) void {"⟩,
    ⟨1, "const header_bytes = \"BSCI\";"⟩,
    ⟨1, "var offset: usize = 0;"⟩,
    ⟨0, ""⟩,
    ⟨1, "for (header_bytes) |b| {"⟩,
    ⟨2, "offset += writeNumber(u8, offset, buffer, b);"⟩,
    ⟨1, "}"⟩,
    ⟨1, "offset += writeNumber(u32, offset, buffer, @intCast(msg_list.len));"⟩,
    ⟨0, ""⟩,
    ⟨1, "for (msg_list) |msg| {"⟩,
    ⟨2, "offset += msg.writeBytes(offset, buffer, true);"⟩,
    ⟨1, "}"⟩,
    ⟨0, ""⟩,
    ⟨1, "offset += writeNumber(u8, offset, buffer, 0);"⟩,
    ⟨0, "}"⟩]

/-- Unpacking messages (Zig.zig L264-286). -/
def unpack : List Row := [
    ⟨0, "pub fn unpackMessages(allocator: std.mem.Allocator, buffer: []u8) ![]Message {"⟩,
    ⟨1, "var offset: usize = 0;"⟩,
    ⟨1, "if (!std.mem.eql(u8, buffer[0..4], \"BSCI\")) {"⟩,
    ⟨2, "return DataReaderError.InvalidData;"⟩,
    ⟨1, "}"⟩,
    ⟨1, "offset += 4;"⟩,
    ⟨1, "const msg_count_read = try readNumber(u32, 4, buffer);"⟩,
    ⟨1, "offset += msg_count_read.bytes_read;"⟩,
    ⟨1, "const msg_count = msg_count_read.value;"⟩,
    ⟨1, "if (msg_count == 0) {"⟩,
    ⟨2, "return allocator.alloc(Message, 0);"⟩,
    ⟨1, "}"⟩,
    ⟨1, "const msg_list = try processRawBytes(allocator, buffer[offset..], @intCast(msg_count));"⟩,
    ⟨1, "errdefer allocator.free(msg_list);"⟩,
    ⟨0, ""⟩,
    ⟨1, "if (msg_list.len == 0) {"⟩,
    ⟨2, "return DataReaderError.InvalidData;"⟩,
    ⟨1, "}"⟩,
    ⟨1, "if (msg_list.len != msg_count) {"⟩,
    ⟨2, "return DataReaderError.InvalidData;"⟩,
    ⟨1, "}"⟩,
    ⟨1, "return msg_list;"⟩,
    ⟨0, "}"⟩]

end Beschi.Syntax.Zig
