import Verif.Spec.Rows
import Verif.Lang.Swift
/-
How the functions of the library are written in Swift: the ones that Verif/Lang/Swift.lean and
Verif/Lang/Library.lean describe.  `len` is the type of the lengths of strings.
-/
namespace Beschi.Syntax.Swift
open Beschi.Spec

/-- Is all of it read? (Swift.0.swift L13-15). -/
def isFinished : List Row := [
    ⟨0, "func IsFinished() -> Bool {"⟩,
    ⟨1, "return self.currentOffset >= self.data.count"⟩,
    ⟨0, "}"⟩]

/-- The errors (Swift.0.swift L1-4). -/
def errors : List Row := [
    ⟨0, "public enum DataReaderError: Error {"⟩,
    ⟨1, "case EOF"⟩,
    ⟨1, "case InvalidData"⟩,
    ⟨0, "}"⟩]

/-- Reading a Boolean (Swift.0.swift L30-32). -/
def readBool : List Row := [
    ⟨0, "func GetBool() throws -> Bool {"⟩,
    ⟨1, "return try self.GetUInt8() > 0"⟩,
    ⟨0, "}"⟩]

/-- Reading a string (Swift.0.swift L138-151). -/
def readString (len : String) : List Row := [
    ⟨0, "func GetString() throws -> String {"⟩,
    ⟨1, s!"let stringLength = try Int(self.Get{len}())"⟩,
    ⟨1, "if (self.data.count < self.currentOffset + stringLength) {"⟩,
    ⟨2, "throw DataReaderError.EOF"⟩,
    ⟨1, "}"⟩,
    ⟨1, "let stringData = self.data[self.currentOffset..<(self.currentOffset+stringLength)]"⟩,
    ⟨1, "guard"⟩,
    ⟨2, "let ret = String(data: stringData, encoding: String.Encoding.utf8)"⟩,
    ⟨1, "else {"⟩,
    ⟨2, "throw DataReaderError.InvalidData"⟩,
    ⟨1, "}"⟩,
    ⟨1, "self.currentOffset += stringLength"⟩,
    ⟨1, "return ret"⟩,
    ⟨0, "}"⟩]

/-- Writing a Boolean (Swift.0.swift L174-176). -/
def writeBool : List Row := [
    ⟨0, "func Write(bool: Bool) {"⟩,
    ⟨1, "self.Write(uint8: bool ? 1 : 0)"⟩,
    ⟨0, "}"⟩]

/-- Writing a string (Swift.0.swift L224-228). -/
def writeString (label len : String) : List Row := [
    ⟨0, "func Write(string: String) {"⟩,
    ⟨1, "let buffer = string.data(using: .utf8)!"⟩,
    ⟨1, s!"self.Write({label}: {len}(buffer.count))"⟩,
    ⟨1, "self.data.append(buffer)"⟩,
    ⟨0, "}"⟩]

/-- Reading an integer (Swift.0.swift L17-28, L34-110): it is taken from as many bytes as it has, the lowest one
first. -/
def readNumber (n : NumTy) : List Row := [
    ⟨0, s!"func Get{Lang.Swift.native n}() throws -> {Lang.Swift.native n} \{"⟩,
    ⟨1, s!"if (self.data.count < self.currentOffset + {n.size}) \{"⟩,
    ⟨2, "throw DataReaderError.EOF"⟩,
    ⟨1, "}"⟩,
    ⟨1, s!"let ret = {Lang.Swift.native n}(littleEndian: data.withUnsafeBytes \{ dataBytes in"⟩,
    ⟨2, s!"var val: {Lang.Swift.native n} = 0"⟩,
    ⟨2, s!"memcpy(&val, dataBytes.baseAddress! + self.currentOffset, {n.size})"⟩,
    ⟨2, "return val"⟩,
    ⟨1, "})"⟩,
    ⟨1, s!"self.currentOffset += {n.size}"⟩,
    ⟨1, "return ret"⟩,
    ⟨0, "}"⟩]

/-- Reading a floating-point number from the bits of an integer of type `c` (Swift.0.swift L112-136). -/
def readFloat (n c : NumTy) : List Row := [
    ⟨0, s!"func Get{Lang.Swift.native n}() throws -> {Lang.Swift.native n} \{"⟩,
    ⟨1, s!"if (self.data.count < self.currentOffset + {n.size}) \{"⟩,
    ⟨2, "throw DataReaderError.EOF"⟩,
    ⟨1, "}"⟩,
    ⟨1, s!"let ret = {Lang.Swift.native n}(bitPattern: {Lang.Swift.native c}(littleEndian: data.withUnsafeBytes \{ dataBytes in"⟩,
    ⟨2, s!"var val: {Lang.Swift.native c} = 0"⟩,
    ⟨2, s!"memcpy(&val, dataBytes.baseAddress! + self.currentOffset, {n.size})"⟩,
    ⟨2, "return val"⟩,
    ⟨1, "}))"⟩,
    ⟨1, s!"self.currentOffset += {n.size}"⟩,
    ⟨1, "return ret"⟩,
    ⟨0, "}"⟩]

/-- Writing an integer (Swift.0.swift L169-172, L178-206). -/
def writeNumber (n : NumTy) : List Row := [
    ⟨0, s!"func Write({Lang.Swift.label n}: {Lang.Swift.native n}) \{"⟩,
    ⟨1, s!"var val = {Lang.Swift.label n};"⟩,
    ⟨1, s!"self.data.append(&val, length: MemoryLayout<{Lang.Swift.native n}>.size);"⟩,
    ⟨0, "}"⟩]

/-- Writing a floating-point number as the bits of an integer of type `c` (Swift.0.swift L208-222). -/
def writeFloat (n c : NumTy) : List Row := [
    ⟨0, s!"func Write({Lang.Swift.label n}: {Lang.Swift.native n}) \{"⟩,
    ⟨1, s!"var val = {Lang.Swift.label n};"⟩,
    ⟨1, s!"var valOut = {Lang.Swift.native c}(littleEndian: withUnsafeBytes(of: &val) \{"⟩,
    ⟨2, s!"$0.load(fromByteOffset: 0, as: {Lang.Swift.native c}.self)"⟩,
    ⟨1, "})"⟩,
    ⟨1, s!"self.data.append(&valOut, length: MemoryLayout<{Lang.Swift.native c}>.size);"⟩,
    ⟨0, "}"⟩]

/-- Unpacking messages (Swift.0.swift L249-274). -/
def unpack : List Row := [
    ⟨0, "public static func UnpackMessages(_ data: Data) throws -> [Message] {"⟩,
    ⟨1, "let dataReader = DataReader(fromData: data)"⟩,
    ⟨1, "let headerBytes = dataReader.data[dataReader.currentOffset..<dataReader.currentOffset+4];"⟩,
    ⟨1, "guard"⟩,
    ⟨2, "let headerLabel = String(data: headerBytes, encoding: String.Encoding.utf8)"⟩,
    ⟨1, "else {"⟩,
    ⟨2, "throw DataReaderError.InvalidData"⟩,
    ⟨1, "}"⟩,
    ⟨1, "dataReader.currentOffset += 4"⟩,
    ⟨1, "if headerLabel != \"BSCI\" {"⟩,
    ⟨2, "throw DataReaderError.InvalidData"⟩,
    ⟨1, "}"⟩,
    ⟨1, "let msgCount = try dataReader.GetUInt32();"⟩,
    ⟨1, "if msgCount == 0 {"⟩,
    ⟨2, "return [Message]()"⟩,
    ⟨1, "}"⟩,
    ⟨1, "let listData = data.subdata(in: dataReader.currentOffset..<dataReader.data.count)"⟩,
    ⟨1, "let msgList: [Message] = try ProcessRawBytes(listData, max: Int(msgCount))"⟩,
    ⟨1, "if msgList.count == 0 {"⟩,
    ⟨2, "throw DataReaderError.InvalidData"⟩,
    ⟨1, "}"⟩,
    ⟨1, "if msgList.count != msgCount {"⟩,
    ⟨2, "throw DataReaderError.InvalidData"⟩,
    ⟨1, "}"⟩,
    ⟨1, "return msgList.compactMap { $0 }"⟩,
    ⟨0, "}"⟩]

/-- The size of packed messages (Swift.1.swift L2-10). -/
def packedSize : List Row := [
    ⟨0, "public func GetPackedSize() -> Int {"⟩,
    ⟨1, "var size: Int = 0"⟩,
    ⟨1, "for msg in self {"⟩,
    ⟨2, "size += Int(msg.GetSizeInBytes())"⟩,
    ⟨1, "}"⟩,
    ⟨1, "size += self.count"⟩,
    ⟨1, "size += 9"⟩,
    ⟨1, "return size"⟩,
    ⟨0, "}"⟩]

/-- Packing messages; `dot` is what precedes the names (Swift.1.swift L12-22). -/
def pack (dot : String) : List Row := [
    ⟨0, "public func PackMessages(_ data: NSMutableData) -> Void {"⟩,
    ⟨1, s!"let dataWriter = {dot}DataWriter(withData: data)"⟩,
    ⟨1, "let headerBytes = \"BSCI\".data(using: String.Encoding.utf8)!"⟩,
    ⟨1, "dataWriter.data.append(headerBytes)"⟩,
    ⟨1, "var msgCount = UInt32(littleEndian: UInt32(self.count))"⟩,
    ⟨1, "dataWriter.data.append(Swift.withUnsafeBytes(of: &msgCount, {Data($0)}))"⟩,
    ⟨1, "for msg in self {"⟩,
    ⟨2, "msg.WriteBytes(data: dataWriter.data, tag: true)"⟩,
    ⟨1, "}"⟩,
    ⟨1, "dataWriter.Write(uint8: 0)"⟩,
    ⟨0, "}"⟩]

end Beschi.Syntax.Swift
