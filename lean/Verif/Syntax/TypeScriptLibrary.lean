import Verif.Spec.Rows
import Verif.Lang.TypeScript
import Verif.Lang.AssemblyScript
/-
How the functions of the library are written in TypeScript and AssemblyScript: the ones that
Verif/Lang/TypeScript.lean, Verif/Lang/AssemblyScript.lean and Verif/Lang/Library.lean describe.  `base` is what
the methods for the lengths of strings are called after, `len` the type of these lengths.
-/
namespace Beschi.Syntax.TypeScript
open Beschi.Spec

/-- Is all of it read? (TypeScript.ts L19-21). -/
def isFinished : List Row := [
    ⟨0, "isFinished(): boolean {"⟩,
    ⟨1, "return this.currentOffset >= this.data.byteLength;"⟩,
    ⟨0, "}"⟩]

/-- Reading a byte (TypeScript.ts L23-27). -/
def readByte : List Row := [
    ⟨0, "getByte(): number {"⟩,
    ⟨1, "const ret = this.data.getUint8(this.currentOffset);"⟩,
    ⟨1, "this.currentOffset += 1;"⟩,
    ⟨1, "return ret;"⟩,
    ⟨0, "}"⟩]

/-- Reading a Boolean (TypeScript.ts L29-31). -/
def readBool : List Row := [
    ⟨0, "getBool(): boolean {"⟩,
    ⟨1, "return this.getByte() > 0;"⟩,
    ⟨0, "}"⟩]

/-- Reading a number of type `float` (TypeScript.ts L69-73). -/
def readFloat32 : List Row := [
    ⟨0, "getFloat32(): number {"⟩,
    ⟨1, "const ret = this.data.getFloat32(this.currentOffset, true);"⟩,
    ⟨1, "this.currentOffset += 4;"⟩,
    ⟨1, "return Math.fround(ret);"⟩,
    ⟨0, "}"⟩]

/-- Reading a string (TypeScript.ts L81-86). -/
def readString (base : String) : List Row := [
    ⟨0, "getString(): string {"⟩,
    ⟨1, s!"const len = this.get{base}();"⟩,
    ⟨1, "const strBuffer = new Uint8Array(this.data.buffer, this.currentOffset, len);"⟩,
    ⟨1, "this.currentOffset += len;"⟩,
    ⟨1, "return _textDec.decode(strBuffer);"⟩,
    ⟨0, "}"⟩]

/-- Writing a byte (TypeScript.ts L89-92). -/
def writeByte : List Row := [
    ⟨0, "setByte(val: number) {"⟩,
    ⟨1, "this.data.setUint8(this.currentOffset, val);"⟩,
    ⟨1, "this.currentOffset += 1;"⟩,
    ⟨0, "}"⟩]

/-- Writing a Boolean (TypeScript.ts L94-96). -/
def writeBool : List Row := [
    ⟨0, "setBool(val: boolean): void {"⟩,
    ⟨1, "this.setByte(val ? 1 : 0);"⟩,
    ⟨0, "}"⟩]

/-- Writing a string (TypeScript.ts L138-144). -/
def writeString (base : String) : List Row := [
    ⟨0, "setString(val: string): void {"⟩,
    ⟨1, "const strBuffer = _textEnc.encode(val);"⟩,
    ⟨1, s!"this.set{base}(strBuffer.byteLength);"⟩,
    ⟨1, "const arr = new Uint8Array(this.data.buffer, this.data.byteOffset, this.data.byteLength);"⟩,
    ⟨1, "arr.set(strBuffer, this.currentOffset);"⟩,
    ⟨1, "this.currentOffset += strBuffer.byteLength;"⟩,
    ⟨0, "}"⟩]

/-- The size of packed messages (TypeScript.ts L157-165). -/
def packedSize : List Row := [
    ⟨0, "export function GetPackedSize(msgList: Message[]): number {"⟩,
    ⟨1, "let size = 0;"⟩,
    ⟨1, "for (const msg of msgList) {"⟩,
    ⟨2, "size += msg.getSizeInBytes();"⟩,
    ⟨1, "}"⟩,
    ⟨1, "size += msgList.length;"⟩,
    ⟨1, "size += 9;"⟩,
    ⟨1, "return size;"⟩,
    ⟨0, "}"⟩]

/-- Packing messages (TypeScript.ts L167-184). -/
def pack : List Row := [
    ⟨0, "export function PackMessages(msgList: Message[], data: DataView|DataAccess): void {"⟩,
    ⟨1, "let da: DataAccess;"⟩,
    ⟨1, "if (data instanceof DataView) {"⟩,
    ⟨2, "da = new DataAccess(data);"⟩,
    ⟨1, "}"⟩,
    ⟨1, "else {"⟩,
    ⟨2, "da = data;"⟩,
    ⟨1, "}"⟩,
    ⟨1, "const headerBytes = _textEnc.encode(\"BSCI\");"⟩,
    ⟨1, "const arr = new Uint8Array(da.data.buffer);"⟩,
    ⟨1, "arr.set(headerBytes, da.currentOffset);"⟩,
    ⟨1, "da.currentOffset += headerBytes.byteLength;"⟩,
    ⟨1, "da.setUint32(msgList.length);"⟩,
    ⟨1, "for (const msg of msgList) {"⟩,
    ⟨2, "msg.writeBytes(da, true);"⟩,
    ⟨1, "}"⟩,
    ⟨1, "da.setByte(0);"⟩,
    ⟨0, "}"⟩]

/-- Unpacking messages (TypeScript.ts L186-212). -/
def unpack : List Row := [
    ⟨0, "export function UnpackMessages(data: DataView|DataAccess): Message[] {"⟩,
    ⟨1, "let da: DataAccess;"⟩,
    ⟨1, "if (data instanceof DataView) {"⟩,
    ⟨2, "da = new DataAccess(data);"⟩,
    ⟨1, "}"⟩,
    ⟨1, "else {"⟩,
    ⟨2, "da = data;"⟩,
    ⟨1, "}"⟩,
    ⟨1, "const headerBuffer = new Uint8Array(da.data.buffer, da.currentOffset, 4);"⟩,
    ⟨1, "da.currentOffset += 4;"⟩,
    ⟨1, "const headerLabel = _textDec.decode(headerBuffer);"⟩,
    ⟨1, "if (headerLabel !== \"BSCI\") {"⟩,
    ⟨2, "throw new Error(\"Packed message buffer has invalid header.\");"⟩,
    ⟨1, "}"⟩,
    ⟨1, "const msgCount = da.getUint32();"⟩,
    ⟨1, "if (msgCount == 0) {"⟩,
    ⟨2, "return [];"⟩,
    ⟨1, "}"⟩,
    ⟨1, "const msgList = ProcessRawBytes(da, msgCount);"⟩,
    ⟨1, "if (msgList.length == 0) {"⟩,
    ⟨2, "throw new Error(\"No messages in buffer.\");"⟩,
    ⟨1, "}"⟩,
    ⟨1, "if (msgList.length != msgCount) {"⟩,
    ⟨2, "throw new Error(\"Unexpected number of messages in buffer.\");"⟩,
    ⟨1, "}"⟩,
    ⟨1, "return msgList;"⟩,
    ⟨0, "}"⟩]

/-- What is inserted in the names of the methods of `DataView` that yield a `bigint`. -/
def big (n : NumTy) : String := if Lang.TypeScript.native n.name = "bigint" then "Big" else ""

/-- Reading a number of more than one byte (TypeScript.ts L33-67, L75-79): it takes as many bytes as it has, the
lowest one first. -/
def readNumber (n : NumTy) : List Row := [
    ⟨0, s!"get{Lang.TypeScript.base n}(): {Lang.TypeScript.native n.name} \{"⟩,
    ⟨1, s!"const ret = this.data.get{big n}{Lang.TypeScript.base n}(this.currentOffset, true);"⟩,
    ⟨1, s!"this.currentOffset += {n.size};"⟩,
    ⟨1, "return ret;"⟩,
    ⟨0, "}"⟩]

/-- Writing a number of more than one byte (TypeScript.ts L98-136). -/
def writeNumber (n : NumTy) : List Row := [
    ⟨0, s!"set{Lang.TypeScript.base n}(val: {Lang.TypeScript.native n.name}): void \{"⟩,
    ⟨1, s!"this.data.set{big n}{Lang.TypeScript.base n}(this.currentOffset, val, true);"⟩,
    ⟨1, s!"this.currentOffset += {n.size};"⟩,
    ⟨0, "}"⟩]

end Beschi.Syntax.TypeScript

namespace Beschi.Syntax.AssemblyScript
open Beschi.Spec

/-- Is all of it read? (AssemblyScript.ts L13-15). -/
def isFinished : List Row := [
    ⟨0, "isFinished(): bool {"⟩,
    ⟨1, "return this.currentOffset > (this.data.byteLength as u32);"⟩,
    ⟨0, "}"⟩]

/-- Reading a byte (AssemblyScript.ts L17-25). -/
def readByte : List Row := [
    ⟨0, "getByte(): u8 {"⟩,
    ⟨1, "if (this.currentOffset + 1 > (this.data.byteLength as u32)) {"⟩,
    ⟨3, "this.hasError = true;"⟩,
    ⟨3, "return 0;"⟩,
    ⟨1, "}"⟩,
    ⟨1, "const ret = this.data.getUint8(this.currentOffset);"⟩,
    ⟨1, "this.currentOffset += 1;"⟩,
    ⟨1, "return ret;"⟩,
    ⟨0, "}"⟩]

/-- Reading a Boolean (AssemblyScript.ts L27-29). -/
def readBool : List Row := [
    ⟨0, "getBool(): bool {"⟩,
    ⟨1, "return this.getByte() > 0;"⟩,
    ⟨0, "}"⟩]

/-- Reading a string (AssemblyScript.ts L111-125). -/
def readString (base : String) : List Row := [
    ⟨0, "getString(): string {"⟩,
    ⟨1, s!"const len = this.get{base}();"⟩,
    ⟨1, "if (this.hasError) {"⟩,
    ⟨3, "return \"\";"⟩,
    ⟨1, "}"⟩,
    ⟨1, "if (this.currentOffset + len > (this.data.byteLength as u32)) {"⟩,
    ⟨3, "this.hasError = true;"⟩,
    ⟨3, "return \"\";"⟩,
    ⟨1, "}"⟩,
    ⟨1, "const strBuffer = new Uint8Array(len);"⟩,
    ⟨1, "for (let i = 0; i < strBuffer.byteLength; i++) {"⟩,
    ⟨3, "strBuffer[i] = this.getByte();"⟩,
    ⟨1, "}"⟩,
    ⟨1, "return String.UTF8.decode(strBuffer.buffer, false);"⟩,
    ⟨0, "}"⟩]

/-- Writing a byte (AssemblyScript.ts L128-135). -/
def writeByte : List Row := [
    ⟨0, "setByte(val: u8): void {"⟩,
    ⟨1, "if (this.currentOffset + 1 > (this.data.byteLength as u32)) {"⟩,
    ⟨3, "this.hasError = true;"⟩,
    ⟨3, "return;"⟩,
    ⟨1, "}"⟩,
    ⟨1, "this.data.setUint8(this.currentOffset, val);"⟩,
    ⟨1, "this.currentOffset += 1;"⟩,
    ⟨0, "}"⟩]

/-- Writing a Boolean (AssemblyScript.ts L137-139). -/
def writeBool : List Row := [
    ⟨0, "setBool(val: bool): void {"⟩,
    ⟨1, "this.setByte(val ? 1 : 0);"⟩,
    ⟨0, "}"⟩]

/-- Writing a string (AssemblyScript.ts L213-227). -/
def writeString (base len : String) : List Row := [
    ⟨0, "setString(val: string): void {"⟩,
    ⟨1, "const strBuffer = String.UTF8.encode(val, false);"⟩,
    ⟨1, "const bufferArray = Uint8Array.wrap(strBuffer);"⟩,
    ⟨1, s!"this.set{base}(strBuffer.byteLength as {len});"⟩,
    ⟨1, "if (this.hasError) {"⟩,
    ⟨3, "return;"⟩,
    ⟨1, "}"⟩,
    ⟨1, "if (this.currentOffset + bufferArray.byteLength > (this.data.byteLength as u32)) {"⟩,
    ⟨3, "this.hasError = true;"⟩,
    ⟨3, "return;"⟩,
    ⟨1, "}"⟩,
    ⟨1, "for (let i = 0; i < bufferArray.byteLength; i++) {"⟩,
    ⟨2, "this.setByte(bufferArray[i] as u8);"⟩,
    ⟨1, "}"⟩,
    ⟨0, "}"⟩]

/-- The size of packed messages (AssemblyScript.ts L250-258). -/
def packedSize : List Row := [
    ⟨0, "export function GetPackedSize(msgList: Message[]): usize {"⟩,
    ⟨1, "let size: usize = 0;"⟩,
    ⟨1, "for (let i = 0; i < msgList.length; i++) {"⟩,
    ⟨2, "size += msgList[i].getSizeInBytes();"⟩,
    ⟨1, "}"⟩,
    ⟨1, "size += msgList.length;"⟩,
    ⟨1, "size += 9;"⟩,
    ⟨1, "return size;"⟩,
    ⟨0, "}"⟩]

/-- Packing messages (AssemblyScript.ts L260-275). -/
def pack : List Row := [
    ⟨0, "export function PackMessages(msgList: Message[], data: DataView): void {"⟩,
    ⟨1, "const da = new DataAccess(data);"⟩,
    ⟨1, "const headerBytes = String.UTF8.encode(\"BSCI\", false);"⟩,
    ⟨1, "const arr = Uint8Array.wrap(headerBytes);"⟩,
    ⟨1, "for (let i = 0; i < arr.byteLength; i++) {"⟩,
    ⟨2, "da.setByte(arr[i] as u8);"⟩,
    ⟨2, "if (da.hasError) { return; }"⟩,
    ⟨0, "}"⟩,
    ⟨1, "da.setUint32(msgList.length);"⟩,
    ⟨1, "if (da.hasError) { return; }"⟩,
    ⟨1, "for (let i = 0; i < msgList.length; i++) {"⟩,
    ⟨3, "msgList[i].writeBytesDA(da, true);"⟩,
    ⟨3, "if (da.hasError) { return; }"⟩,
    ⟨1, "}"⟩,
    ⟨1, "da.setByte(0);"⟩,
    ⟨0, "}"⟩]

/-- Unpacking messages (AssemblyScript.ts L277-303). -/
def unpack : List Row := [
    ⟨0, "export function UnpackMessages(data: DataView): Message[] {"⟩,
    ⟨1, "const da = new DataAccess(data);"⟩,
    ⟨1, "if (da.data.byteLength < 12) {"⟩,
    ⟨2, "throw new Error(\"Packed message buffer is too short.\");"⟩,
    ⟨1, "}"⟩,
    ⟨1, "const headerBuffer = new Uint8Array(4);"⟩,
    ⟨1, "for (let i = 0; i < 4; i++) {"⟩,
    ⟨2, "headerBuffer[i] = da.getByte();"⟩,
    ⟨1, "}"⟩,
    ⟨1, "const headerLabel = String.UTF8.decode(headerBuffer.buffer, false);"⟩,
    ⟨1, "if (headerLabel !== \"BSCI\") {"⟩,
    ⟨2, "throw new Error(\"Packed message buffer has invalid header: \" + headerLabel);"⟩,
    ⟨1, "}"⟩,
    ⟨1, "const msgCount = da.getUint32();"⟩,
    ⟨1, "if (msgCount == 0) {"⟩,
    ⟨2, "return [];"⟩,
    ⟨1, "}"⟩,
    ⟨1, "const dv = new DataView(data.buffer, da.currentOffset, data.byteLength - da.currentOffset);"⟩,
    ⟨1, "const msgList = ProcessRawBytes(dv, msgCount);"⟩,
    ⟨1, "if (msgList.length == 0) {"⟩,
    ⟨2, "throw new Error(\"No messages in buffer.\");"⟩,
    ⟨1, "}"⟩,
    ⟨1, "if (msgList.length != msgCount) {"⟩,
    ⟨2, "throw new Error(\"Unexpected number of messages in buffer.\");"⟩,
    ⟨1, "}"⟩,
    ⟨1, "return msgList;"⟩,
    ⟨0, "}"⟩]

/-- Reading a number of more than one byte (AssemblyScript.ts L31-109): it takes as many bytes as it has, the
lowest one first; nothing is read if there are not so many. -/
def readNumber (n : NumTy) : List Row := [
    ⟨0, s!"get{Lang.TypeScript.base n}(): {Lang.AssemblyScript.native n.name} \{"⟩,
    ⟨1, s!"if (this.currentOffset + {n.size} > (this.data.byteLength as u32)) \{"⟩,
    ⟨3, "this.hasError = true;"⟩,
    ⟨3, "return 0;"⟩,
    ⟨1, "}"⟩,
    ⟨1, s!"const ret = this.data.get{Lang.TypeScript.base n}(this.currentOffset, true);"⟩,
    ⟨1, s!"this.currentOffset += {n.size};"⟩,
    ⟨1, "return ret;"⟩,
    ⟨0, "}"⟩]

/-- Writing a number of more than one byte (AssemblyScript.ts L141-211). -/
def writeNumber (n : NumTy) : List Row := [
    ⟨0, s!"set{Lang.TypeScript.base n}(val: {Lang.AssemblyScript.native n.name}): void \{"⟩,
    ⟨1, s!"if (this.currentOffset + {n.size} > (this.data.byteLength as u32)) \{"⟩,
    ⟨3, "this.hasError = true;"⟩,
    ⟨3, "return;"⟩,
    ⟨1, "}"⟩,
    ⟨1, s!"this.data.set{Lang.TypeScript.base n}(this.currentOffset, val, true);"⟩,
    ⟨1, s!"this.currentOffset += {n.size};"⟩,
    ⟨0, "}"⟩]

end Beschi.Syntax.AssemblyScript
