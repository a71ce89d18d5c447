/-
The boilerplate files (beschi/writers/boilerplate), as `read().splitlines()` gives them (writer.py L60).
-/
namespace Beschi.Text.Boilerplate

/-- writers/boilerplate/AssemblyScript.ts, L1-304. -/
def assemblyScript : List String := [
  "",
  "export class DataAccess {",
  "  data: DataView;",
  "  currentOffset: u32;",
  "  hasError: bool;",
  "",
  "  constructor(buffer: DataView) {",
  "    this.currentOffset = 0;",
  "    this.data = buffer;",
  "    this.hasError = false;",
  "  }",
  "",
  "  isFinished(): bool {",
  "    return this.currentOffset > (this.data.byteLength as u32);",
  "  }",
  "",
  "  getByte(): u8 {",
  "    if (this.currentOffset + 1 > (this.data.byteLength as u32)) {",
  "        this.hasError = true;",
  "        return 0;",
  "    }",
  "    const ret = this.data.getUint8(this.currentOffset);",
  "    this.currentOffset += 1;",
  "    return ret;",
  "  }",
  "",
  "  getBool(): bool {",
  "    return this.getByte() > 0;",
  "  }",
  "",
  "  getInt16(): i16 {",
  "    if (this.currentOffset + 2 > (this.data.byteLength as u32)) {",
  "        this.hasError = true;",
  "        return 0;",
  "    }",
  "    const ret = this.data.getInt16(this.currentOffset, true);",
  "    this.currentOffset += 2;",
  "    return ret;",
  "  }",
  "",
  "  getUint16(): u16 {",
  "    if (this.currentOffset + 2 > (this.data.byteLength as u32)) {",
  "        this.hasError = true;",
  "        return 0;",
  "    }",
  "    const ret = this.data.getUint16(this.currentOffset, true);",
  "    this.currentOffset += 2;",
  "    return ret;",
  "  }",
  "",
  "  getInt32(): i32 {",
  "    if (this.currentOffset + 4 > (this.data.byteLength as u32)) {",
  "        this.hasError = true;",
  "        return 0;",
  "    }",
  "    const ret = this.data.getInt32(this.currentOffset, true);",
  "    this.currentOffset += 4;",
  "    return ret;",
  "  }",
  "",
  "  getUint32(): u32 {",
  "    if (this.currentOffset + 4 > (this.data.byteLength as u32)) {",
  "        this.hasError = true;",
  "        return 0;",
  "    }",
  "    const ret = this.data.getUint32(this.currentOffset, true);",
  "    this.currentOffset += 4;",
  "    return ret;",
  "  }",
  "",
  "  getInt64(): i64 {",
  "    if (this.currentOffset + 8 > (this.data.byteLength as u32)) {",
  "        this.hasError = true;",
  "        return 0;",
  "    }",
  "    const ret = this.data.getInt64(this.currentOffset, true);",
  "    this.currentOffset += 8;",
  "    return ret;",
  "  }",
  "",
  "  getUint64(): u64 {",
  "    if (this.currentOffset + 8 > (this.data.byteLength as u32)) {",
  "        this.hasError = true;",
  "        return 0;",
  "    }",
  "    const ret = this.data.getUint64(this.currentOffset, true);",
  "    this.currentOffset += 8;",
  "    return ret;",
  "  }",
  "",
  "  getFloat32(): f32 {",
  "    if (this.currentOffset + 4 > (this.data.byteLength as u32)) {",
  "        this.hasError = true;",
  "        return 0;",
  "    }",
  "    const ret = this.data.getFloat32(this.currentOffset, true);",
  "    this.currentOffset += 4;",
  "    return ret;",
  "  }",
  "",
  "  getFloat64(): f64 {",
  "    if (this.currentOffset + 8 > (this.data.byteLength as u32)) {",
  "        this.hasError = true;",
  "        return 0;",
  "    }",
  "    const ret = this.data.getFloat64(this.currentOffset, true);",
  "    this.currentOffset += 8;",
  "    return ret;",
  "  }",
  "",
  "  getString(): string {",
  "    const len = this.get{# STRING_SIZE_TYPE #}();",
  "    if (this.hasError) {",
  "        return \"\";",
  "    }",
  "    if (this.currentOffset + len > (this.data.byteLength as u32)) {",
  "        this.hasError = true;",
  "        return \"\";",
  "    }",
  "    const strBuffer = new Uint8Array(len);",
  "    for (let i = 0; i < strBuffer.byteLength; i++) {",
  "        strBuffer[i] = this.getByte();",
  "    }",
  "    return String.UTF8.decode(strBuffer.buffer, false);",
  "  }",
  "",
  "",
  "  setByte(val: u8): void {",
  "    if (this.currentOffset + 1 > (this.data.byteLength as u32)) {",
  "        this.hasError = true;",
  "        return;",
  "    }",
  "    this.data.setUint8(this.currentOffset, val);",
  "    this.currentOffset += 1;",
  "  }",
  "",
  "  setBool(val: bool): void {",
  "    this.setByte(val ? 1 : 0);",
  "  }",
  "",
  "  setInt16(val: i16): void {",
  "    if (this.currentOffset + 2 > (this.data.byteLength as u32)) {",
  "        this.hasError = true;",
  "        return;",
  "    }",
  "    this.data.setInt16(this.currentOffset, val, true);",
  "    this.currentOffset += 2;",
  "  }",
  "",
  "  setUint16(val: u16): void {",
  "    if (this.currentOffset + 2 > (this.data.byteLength as u32)) {",
  "        this.hasError = true;",
  "        return;",
  "    }",
  "    this.data.setUint16(this.currentOffset, val, true);",
  "    this.currentOffset += 2;",
  "  }",
  "",
  "  setInt32(val: i32): void {",
  "    if (this.currentOffset + 4 > (this.data.byteLength as u32)) {",
  "        this.hasError = true;",
  "        return;",
  "    }",
  "    this.data.setInt32(this.currentOffset, val, true);",
  "    this.currentOffset += 4;",
  "  }",
  "",
  "  setUint32(val: u32): void {",
  "    if (this.currentOffset + 4 > (this.data.byteLength as u32)) {",
  "        this.hasError = true;",
  "        return;",
  "    }",
  "    this.data.setUint32(this.currentOffset, val, true);",
  "    this.currentOffset += 4;",
  "  }",
  "",
  "  setInt64(val: i64): void {",
  "    if (this.currentOffset + 8 > (this.data.byteLength as u32)) {",
  "        this.hasError = true;",
  "        return;",
  "    }",
  "    this.data.setInt64(this.currentOffset, val, true);",
  "    this.currentOffset += 8;",
  "  }",
  "",
  "  setUint64(val: u64): void {",
  "    if (this.currentOffset + 8 > (this.data.byteLength as u32)) {",
  "        this.hasError = true;",
  "        return;",
  "    }",
  "    this.data.setUint64(this.currentOffset, val, true);",
  "    this.currentOffset += 8;",
  "  }",
  "",
  "  setFloat32(val: f32): void {",
  "    if (this.currentOffset + 4 > (this.data.byteLength as u32)) {",
  "        this.hasError = true;",
  "        return;",
  "    }",
  "    this.data.setFloat32(this.currentOffset, val, true);",
  "    this.currentOffset += 4;",
  "  }",
  "",
  "  setFloat64(val: f64): void {",
  "    if (this.currentOffset + 8 > (this.data.byteLength as u32)) {",
  "        this.hasError = true;",
  "        return;",
  "    }",
  "    this.data.setFloat64(this.currentOffset, val, true);",
  "    this.currentOffset += 8;",
  "  }",
  "",
  "  setString(val: string): void {",
  "    const strBuffer = String.UTF8.encode(val, false);",
  "    const bufferArray = Uint8Array.wrap(strBuffer);",
  "    this.set{# STRING_SIZE_TYPE #}(strBuffer.byteLength as {# NATIVE_STRING_SIZE_TYPE #});",
  "    if (this.hasError) {",
  "        return;",
  "    }",
  "    if (this.currentOffset + bufferArray.byteLength > (this.data.byteLength as u32)) {",
  "        this.hasError = true;",
  "        return;",
  "    }",
  "    for (let i = 0; i < bufferArray.byteLength; i++) {",
  "      this.setByte(bufferArray[i] as u8);",
  "    }",
  "  }",
  "}",
  "",
  "export abstract class Message {",
  "  abstract getMessageType(): MessageType;",
  "  abstract writeBytes(dv: DataView, tag: bool): bool;",
  "  abstract writeBytesDA(da: DataAccess, tag: bool): bool;",
  "  abstract getSizeInBytes(): usize;",
  "",
  "  static fromBytes(data: DataView): Message | null {",
  "    const da = new DataAccess(data);",
  "    return this.fromBytesDA(da);",
  "  };",
  "",
  "  static fromBytesDA(data: DataAccess): Message | null {",
  "    const msgList = ProcessRawBytes(data, 1);",
  "    if (msgList.length == 0) {",
  "      return null;",
  "    }",
  "    return msgList[0];",
  "  }",
  "}",
  "",
  "export function GetPackedSize(msgList: Message[]): usize {",
  "  let size: usize = 0;",
  "  for (let i = 0; i < msgList.length; i++) {",
  "    size += msgList[i].getSizeInBytes();",
  "  }",
  "  size += msgList.length;",
  "  size += 9;",
  "  return size;",
  "}",
  "",
  "export function PackMessages(msgList: Message[], data: DataView): void {",
  "  const da = new DataAccess(data);",
  "  const headerBytes = String.UTF8.encode(\"BSCI\", false);",
  "  const arr = Uint8Array.wrap(headerBytes);",
  "  for (let i = 0; i < arr.byteLength; i++) {",
  "    da.setByte(arr[i] as u8);",
  "    if (da.hasError) { return; }",
  "}",
  "  da.setUint32(msgList.length);",
  "  if (da.hasError) { return; }",
  "  for (let i = 0; i < msgList.length; i++) {",
  "      msgList[i].writeBytesDA(da, true);",
  "      if (da.hasError) { return; }",
  "  }",
  "  da.setByte(0);",
  "}",
  "",
  "export function UnpackMessages(data: DataView): Message[] {",
  "  const da = new DataAccess(data);",
  "  if (da.data.byteLength < 12) {",
  "    throw new Error(\"Packed message buffer is too short.\");",
  "  }",
  "  const headerBuffer = new Uint8Array(4);",
  "  for (let i = 0; i < 4; i++) {",
  "    headerBuffer[i] = da.getByte();",
  "  }",
  "  const headerLabel = String.UTF8.decode(headerBuffer.buffer, false);",
  "  if (headerLabel !== \"BSCI\") {",
  "    throw new Error(\"Packed message buffer has invalid header: \" + headerLabel);",
  "  }",
  "  const msgCount = da.getUint32();",
  "  if (msgCount == 0) {",
  "    return [];",
  "  }",
  "  const dv = new DataView(data.buffer, da.currentOffset, data.byteLength - da.currentOffset);",
  "  const msgList = ProcessRawBytes(dv, msgCount);",
  "  if (msgList.length == 0) {",
  "    throw new Error(\"No messages in buffer.\");",
  "  }",
  "  if (msgList.length != msgCount) {",
  "    throw new Error(\"Unexpected number of messages in buffer.\");",
  "  }",
  "  return msgList;",
  "}",
  ""]

/-- writers/boilerplate/C.0.h, L1-64. -/
def c0 : List String := [
  "// To use this header file, include it normally wherever you need access",
  "//   to its structures and functions.",
  "// Then in *exactly* one file, #define BESCHI_IMPLEMENTATION",
  "//   *before* including it.",
  "",
  "#ifndef INCLUDE_BESCHI_H",
  "#define INCLUDE_BESCHI_H",
  "",
  "#include <stdlib.h>",
  "#include <stddef.h>",
  "#include <stdint.h>",
  "#include <stdbool.h>",
  "",
  "typedef uint8_t beschi_err_t;",
  "#define BESCHI_ERR_OK  0",
  "#define BESCHI_ERR_EOF 1",
  "#define BESCHI_ERR_INVALID_DATA 2",
  "#define BESCHI_ERR_ALLOCATION_FAILURE 3",
  "",
  "#ifdef __cplusplus",
  "extern \"C\" {",
  "#endif",
  "",
  "///////////////////////////////////////",
  "// standard utility declarations",
  "",
  "typedef struct {",
  "    uint8_t* buffer;",
  "    size_t bufferSize;",
  "    size_t position;",
  "} beschi_DataAccess;",
  "",
  "bool beschi_IsFinished(const beschi_DataAccess *r);",
  "beschi_err_t beschi_ReadUInt8(beschi_DataAccess *r, uint8_t *ui8);",
  "beschi_err_t beschi_ReadBool(beschi_DataAccess *r, bool *b);",
  "beschi_err_t beschi_ReadInt16(beschi_DataAccess *r, int16_t *i16);",
  "beschi_err_t beschi_ReadUInt16(beschi_DataAccess *r, uint16_t *ui16);",
  "beschi_err_t beschi_ReadInt32(beschi_DataAccess *r, int32_t *i32);",
  "beschi_err_t beschi_ReadUInt32(beschi_DataAccess *r, uint32_t *ui32);",
  "beschi_err_t beschi_ReadInt64(beschi_DataAccess *r, int64_t *i64);",
  "beschi_err_t beschi_ReadUInt64(beschi_DataAccess *r, uint64_t *ui32);",
  "beschi_err_t beschi_ReadFloat(beschi_DataAccess *r, float *f);",
  "beschi_err_t beschi_ReadDouble(beschi_DataAccess *r, double *d);",
  "beschi_err_t beschi_ReadString(beschi_DataAccess *r, char **s, {# STRING_SIZE_TYPE_NATIVE #} *len);",
  "",
  "beschi_err_t beschi_WriteUInt8(beschi_DataAccess *w, const uint8_t ui8);",
  "beschi_err_t beschi_WriteBool(beschi_DataAccess *w, const bool b);",
  "beschi_err_t beschi_WriteInt16(beschi_DataAccess *w, const int16_t i16);",
  "beschi_err_t beschi_WriteUInt16(beschi_DataAccess *w, const uint16_t ui16);",
  "beschi_err_t beschi_WriteInt32(beschi_DataAccess *w, const int32_t i32);",
  "beschi_err_t beschi_WriteUInt32(beschi_DataAccess *w, const uint32_t ui32);",
  "beschi_err_t beschi_WriteInt64(beschi_DataAccess *w, const int64_t i64);",
  "beschi_err_t beschi_WriteUInt64(beschi_DataAccess *w, const uint64_t ui32);",
  "beschi_err_t beschi_WriteFloat(beschi_DataAccess *w, const float f);",
  "beschi_err_t beschi_WriteDouble(beschi_DataAccess *w, const double d);",
  "beschi_err_t beschi_WriteString(beschi_DataAccess *w, char* const *s, const {# STRING_SIZE_TYPE_NATIVE #} len);",
  "",
  "// end of standard utility declarations",
  "///////////////////////////////////////",
  "",
  "",
  "///////////////////////////////////////",
  "// struct/message declarations",
  ""]

/-- writers/boilerplate/C.1.h, L1-254. -/
def c1 : List String := [
  "#ifdef __cplusplus",
  "}",
  "#endif",
  "",
  "#endif // INCLUDE_BESCHI_H",
  "",
  "",
  "// end of struct/message declarations",
  "///////////////////////////////////////",
  "",
  "",
  "#ifdef BESCHI_IMPLEMENTATION",
  "",
  "//////////////////////////////////////////////////////////////////////////////",
  "//",
  "//   IMPLEMENTATION",
  "//",
  "",
  "",
  "#ifndef BESCHI_MALLOC",
  "    #define BESCHI_MALLOC(size)             malloc(size)",
  "    #define BESCHI_REALLOC(ptr, newSize)    realloc(ptr, newSize)",
  "    #define BESCHI_FREE(ptr)                free(ptr)",
  "#endif",
  "",
  "",
  "///////////////////////////////////////",
  "// standard utility definitions",
  "",
  "bool beschi_IsFinished(const beschi_DataAccess *r) {",
  "    return r->position >= r->bufferSize;",
  "}",
  "",
  "beschi_err_t beschi_ReadUInt8(beschi_DataAccess *r, uint8_t *ui8) {",
  "    if (r->bufferSize < r->position + 1) {",
  "        return BESCHI_ERR_EOF;",
  "    }",
  "    memcpy(ui8, r->buffer + r->position, 1);",
  "    r->position += 1;",
  "    return BESCHI_ERR_OK;",
  "}",
  "",
  "beschi_err_t beschi_ReadBool(beschi_DataAccess *r, bool *b) {",
  "    uint8_t byteVal;",
  "    beschi_err_t err = beschi_ReadUInt8(r, &byteVal);",
  "    if (err != BESCHI_ERR_OK) {",
  "        return err;",
  "    }",
  "    *b = byteVal > 0;",
  "    return BESCHI_ERR_OK;",
  "}",
  "",
  "beschi_err_t beschi_ReadInt16(beschi_DataAccess *r, int16_t *i16) {",
  "    if (r->bufferSize < r->position + 2) {",
  "        return BESCHI_ERR_EOF;",
  "    }",
  "    memcpy(i16, r->buffer + r->position, 2);",
  "    r->position += 2;",
  "    return BESCHI_ERR_OK;",
  "}",
  "",
  "beschi_err_t beschi_ReadUInt16(beschi_DataAccess *r, uint16_t *ui16) {",
  "    if (r->bufferSize < r->position + 2) {",
  "        return BESCHI_ERR_EOF;",
  "    }",
  "    memcpy(ui16, r->buffer + r->position, 2);",
  "    r->position += 2;",
  "    return BESCHI_ERR_OK;",
  "}",
  "",
  "beschi_err_t beschi_ReadInt32(beschi_DataAccess *r, int32_t *i32) {",
  "    if (r->bufferSize < r->position + 4) {",
  "        return BESCHI_ERR_EOF;",
  "    }",
  "    memcpy(i32, r->buffer + r->position, 4);",
  "    r->position += 4;",
  "    return BESCHI_ERR_OK;",
  "}",
  "",
  "beschi_err_t beschi_ReadUInt32(beschi_DataAccess *r, uint32_t *ui32) {",
  "    if (r->bufferSize < r->position + 4) {",
  "        return BESCHI_ERR_EOF;",
  "    }",
  "    memcpy(ui32, r->buffer + r->position, 4);",
  "    r->position += 4;",
  "    return BESCHI_ERR_OK;",
  "}",
  "",
  "beschi_err_t beschi_ReadInt64(beschi_DataAccess *r, int64_t *i64) {",
  "    if (r->bufferSize < r->position + 8) {",
  "        return BESCHI_ERR_EOF;",
  "    }",
  "    memcpy(i64, r->buffer + r->position, 8);",
  "    r->position += 8;",
  "    return BESCHI_ERR_OK;",
  "}",
  "",
  "beschi_err_t beschi_ReadUInt64(beschi_DataAccess *r, uint64_t *ui64) {",
  "    if (r->bufferSize < r->position + 8) {",
  "        return BESCHI_ERR_EOF;",
  "    }",
  "    memcpy(ui64, r->buffer + r->position, 8);",
  "    r->position += 8;",
  "    return BESCHI_ERR_OK;",
  "}",
  "",
  "beschi_err_t beschi_ReadFloat(beschi_DataAccess *r, float *f) {",
  "    if (r->bufferSize < r->position + 4) {",
  "        return BESCHI_ERR_EOF;",
  "    }",
  "    memcpy(f, r->buffer + r->position, 4);",
  "    r->position += 4;",
  "    return BESCHI_ERR_OK;",
  "}",
  "",
  "beschi_err_t beschi_ReadDouble(beschi_DataAccess *r, double *d) {",
  "    if (r->bufferSize < r->position + 8) {",
  "        return BESCHI_ERR_EOF;",
  "    }",
  "    memcpy(d, r->buffer + r->position, 8);",
  "    r->position += 8;",
  "    return BESCHI_ERR_OK;",
  "}",
  "",
  "beschi_err_t beschi_ReadString(beschi_DataAccess *r, char **s, {# STRING_SIZE_TYPE_LOWER #}_t *len) {",
  "    beschi_err_t err;",
  "    err = beschi_Read{# STRING_SIZE_TYPE #}(r, len);",
  "    if (err != BESCHI_ERR_OK) {",
  "        return err;",
  "    }",
  "    if (r->bufferSize < r->position + *len) {",
  "        return BESCHI_ERR_EOF;",
  "    }",
  "    *s = (char*)BESCHI_MALLOC((size_t)(*len + 1));",
  "    if (*s == NULL) { return BESCHI_ERR_ALLOCATION_FAILURE; }",
  "    memcpy(*s, r->buffer + r->position, *len);",
  "    (*s)[*len] = '\\0';",
  "    r->position += *len;",
  "    return BESCHI_ERR_OK;",
  "}",
  "",
  "",
  "",
  "beschi_err_t beschi_WriteUInt8(beschi_DataAccess *w, const uint8_t ui8) {",
  "    if (w->bufferSize < w->position + 1) {",
  "        return BESCHI_ERR_EOF;",
  "    }",
  "    w->buffer[w->position] = ui8;",
  "    w->position += 1;",
  "    return BESCHI_ERR_OK;",
  "}",
  "",
  "beschi_err_t beschi_WriteBool(beschi_DataAccess *w, const bool b) {",
  "    beschi_err_t err;",
  "    err = beschi_WriteUInt8(w, (uint8_t)(b ? 1 : 0));",
  "    if (err != BESCHI_ERR_OK) {",
  "        return err;",
  "    }",
  "    return BESCHI_ERR_OK;",
  "}",
  "",
  "beschi_err_t beschi_WriteInt16(beschi_DataAccess *w, const int16_t i16) {",
  "    if (w->bufferSize < w->position + 2) {",
  "        return BESCHI_ERR_EOF;",
  "    }",
  "    memcpy(w->buffer + w->position, &i16, 2);",
  "    w->position += 2;",
  "    return BESCHI_ERR_OK;",
  "}",
  "",
  "beschi_err_t beschi_WriteUInt16(beschi_DataAccess *w, const uint16_t ui16) {",
  "    if (w->bufferSize < w->position + 2) {",
  "        return BESCHI_ERR_EOF;",
  "    }",
  "    memcpy(w->buffer + w->position, &ui16, 2);",
  "    w->position += 2;",
  "    return BESCHI_ERR_OK;",
  "}",
  "",
  "beschi_err_t beschi_WriteInt32(beschi_DataAccess *w, const int32_t i32) {",
  "    if (w->bufferSize < w->position + 4) {",
  "        return BESCHI_ERR_EOF;",
  "    }",
  "    memcpy(w->buffer + w->position, &i32, 4);",
  "    w->position += 4;",
  "    return BESCHI_ERR_OK;",
  "}",
  "",
  "beschi_err_t beschi_WriteUInt32(beschi_DataAccess *w, const uint32_t ui32) {",
  "    if (w->bufferSize < w->position + 4) {",
  "        return BESCHI_ERR_EOF;",
  "    }",
  "    memcpy(w->buffer + w->position, &ui32, 4);",
  "    w->position += 4;",
  "    return BESCHI_ERR_OK;",
  "}",
  "",
  "beschi_err_t beschi_WriteInt64(beschi_DataAccess *w, const int64_t i64) {",
  "    if (w->bufferSize < w->position + 8) {",
  "        return BESCHI_ERR_EOF;",
  "    }",
  "    memcpy(w->buffer + w->position, &i64, 8);",
  "    w->position += 8;",
  "    return BESCHI_ERR_OK;",
  "}",
  "",
  "beschi_err_t beschi_WriteUInt64(beschi_DataAccess *w, const uint64_t ui64) {",
  "    if (w->bufferSize < w->position + 8) {",
  "        return BESCHI_ERR_EOF;",
  "    }",
  "    memcpy(w->buffer + w->position, &ui64, 8);",
  "    w->position += 8;",
  "    return BESCHI_ERR_OK;",
  "}",
  "",
  "beschi_err_t beschi_WriteFloat(beschi_DataAccess *w, const float f) {",
  "    if (w->bufferSize < w->position + 4) {",
  "        return BESCHI_ERR_EOF;",
  "    }",
  "    memcpy(w->buffer + w->position, &f, 4);",
  "    w->position += 4;",
  "    return BESCHI_ERR_OK;",
  "}",
  "",
  "beschi_err_t beschi_WriteDouble(beschi_DataAccess *w, const double d) {",
  "    if (w->bufferSize < w->position + 8) {",
  "        return BESCHI_ERR_EOF;",
  "    }",
  "    memcpy(w->buffer + w->position, &d, 8);",
  "    w->position += 8;",
  "    return BESCHI_ERR_OK;",
  "}",
  "",
  "beschi_err_t beschi_WriteString(beschi_DataAccess *w, char* const *s, const {# STRING_SIZE_TYPE_LOWER #}_t len) {",
  "    beschi_err_t err;",
  "    err = beschi_Write{# STRING_SIZE_TYPE #}(w, len);",
  "    if (err != BESCHI_ERR_OK) {",
  "        return err;",
  "    }",
  "    if (w->bufferSize < w->position + len) {",
  "        return BESCHI_ERR_EOF;",
  "    }",
  "    memcpy(w->buffer + w->position, *s, len);",
  "    w->position += len;",
  "    return BESCHI_ERR_OK;",
  "}",
  "",
  "// end of standard utility definitions",
  "///////////////////////////////////////",
  "",
  "",
  "///////////////////////////////////////",
  "// struct/message definitions",
  ""]

/-- writers/boilerplate/C.2.h, L1-12. -/
def c2 : List String := [
  "",
  "// end of struct/message definitions",
  "///////////////////////////////////////",
  "",
  "",
  "//",
  "//   END OF IMPLEMENTATION",
  "//",
  "//////////////////////////////////////////////////////////////////////////////",
  "",
  "#endif // BESCHI_IMPLEMENTATION",
  ""]

/-- writers/boilerplate/CSharp.0.cs, L1-5. -/
def cSharp0 : List String := [
  "using System;",
  "using System.IO;",
  "using System.Text;",
  "using System.Collections.Generic;",
  ""]

/-- writers/boilerplate/CSharp.1.cs, L1-98. -/
def cSharp1 : List String := [
  "public class DataReadErrorException : Exception",
  "{",
  "    public DataReadErrorException() { }",
  "",
  "    public DataReadErrorException(string msg)",
  "        : base(msg) { }",
  "",
  "    public DataReadErrorException(string msg, Exception inner)",
  "        : base(msg, inner) { }",
  "}",
  "",
  "public class UnknownMessageTypeException : Exception",
  "{",
  "    public UnknownMessageTypeException() { }",
  "",
  "    public UnknownMessageTypeException(string msg)",
  "        : base(msg) { }",
  "",
  "    public UnknownMessageTypeException(string msg, Exception inner)",
  "        : base(msg, inner) { }",
  "}",
  "",
  "public abstract class Message",
  "{",
  "    abstract public MessageType GetMessageType();",
  "    abstract public void WriteBytes(BinaryWriter bw, bool tag);",
  "    abstract public int GetSizeInBytes();",
  "",
  "    public static Message[] ProcessRawBytes(BinaryReader br, int max)",
  "    {",
  "        List<Message> msgList = new List<Message>();",
  "        if (max == 0)",
  "        {",
  "            return msgList.ToArray();",
  "        }",
  "        while (br.BaseStream.Position < br.BaseStream.Length && (max < 0 || msgList.Count < max))",
  "        {",
  "            byte msgType = br.ReadByte();",
  "            switch (msgType)",
  "            {",
  "                case 0:",
  "                    return msgList.ToArray();",
  "{# MESSAGE_TYPE_CASES #}",
  "                default:",
  "                    throw new UnknownMessageTypeException(String.Format(\"Unknown message type: {0}\", msgType));",
  "            }",
  "        }",
  "        return msgList.ToArray();",
  "    }",
  "",
  "    public static int GetPackedSize(ICollection<Message> msgList) {",
  "        var size = 0;",
  "        foreach (var msg in msgList)",
  "        {",
  "            size += msg.GetSizeInBytes();",
  "        }",
  "        size += msgList.Count;",
  "        size += 9;",
  "        return size;",
  "    }",
  "",
  "    public static void PackMessages(ICollection<Message> msgList, BinaryWriter bw)",
  "    {",
  "        byte[] headerBytes = System.Text.Encoding.UTF8.GetBytes(\"BSCI\");",
  "        bw.Write(headerBytes);",
  "",
  "        bw.Write((uint)msgList.Count);",
  "        foreach (var msg in msgList)",
  "        {",
  "            msg.WriteBytes(bw, true);",
  "        }",
  "        bw.Write((byte)0);",
  "    }",
  "",
  "    public static Message[] UnpackMessages(BinaryReader br)",
  "    {",
  "        byte[] headerLabel = br.ReadBytes(4);",
  "        if (System.Text.Encoding.UTF8.GetString(headerLabel) != \"BSCI\")",
  "        {",
  "            throw new DataReadErrorException(\"Packed message buffer has invalid header.\");",
  "        }",
  "        uint msgCount = br.ReadUInt32();",
  "        if (msgCount == 0) {",
  "            return Array.Empty<Message>();",
  "        }",
  "        Message[] msgList = Message.ProcessRawBytes(br, Convert.ToInt32(msgCount));",
  "        if (msgList.Length == 0)",
  "        {",
  "            throw new DataReadErrorException(\"No messages in buffer.\");",
  "        }",
  "        if (msgList.Length != msgCount)",
  "        {",
  "            throw new DataReadErrorException(\"Unexpected number of messages in buffer.\");",
  "        }",
  "        return msgList;",
  "    }",
  "}",
  ""]

/-- writers/boilerplate/Go.go, L1-81. -/
def go : List String := [
  "package beschi",
  "",
  "import (",
  "\t\"encoding/binary\"",
  "\t\"fmt\"",
  "\t\"io\"",
  ")",
  "",
  "func readString(data io.Reader, str *string) error {",
  "\tvar len {# STRING_SIZE_TYPE #}",
  "\tbinary.Read(data, binary.LittleEndian, &len)",
  "\tsbytes := make([]byte, len)",
  "\terr := binary.Read(data, binary.LittleEndian, &sbytes)",
  "\tif err != nil {",
  "\t\tpanic(err)",
  "\t}",
  "\t*str = string(sbytes)",
  "\treturn err",
  "}",
  "",
  "func writeString(data io.Writer, str *string) {",
  "\tstrLen := ({# STRING_SIZE_TYPE #})(len(*str))",
  "\tbinary.Write(data, binary.LittleEndian, strLen)",
  "\tio.WriteString(data, *str)",
  "}",
  "",
  "func getDataOffset(data io.Reader) int64 {",
  "\tif seeker, ok := data.(io.Seeker); ok {",
  "\t\toffset, _ := seeker.Seek(0, io.SeekCurrent)",
  "\t\treturn offset",
  "\t}",
  "\treturn -1",
  "}",
  "",
  "func GetPackedSize(msgList []Message) int {",
  "\tsize := 0",
  "\tfor _, msg := range msgList {",
  "\t\tsize += msg.GetSizeInBytes()",
  "\t}",
  "\tsize += len(msgList)",
  "\tsize += 9",
  "\treturn size",
  "}",
  "",
  "func PackMessages(msgList []Message, data io.Writer) {",
  "\tio.WriteString(data, \"BSCI\")",
  "\tbinary.Write(data, binary.LittleEndian, uint32(len(msgList)))",
  "\tfor _, msg := range msgList {",
  "\t\tmsg.WriteBytes(data, true)",
  "\t}",
  "\tbinary.Write(data, binary.LittleEndian, byte(0))",
  "}",
  "",
  "func UnpackMessages(data io.Reader) ([]Message, error) {",
  "\tsbytes := make([]byte, 4)",
  "\terr := binary.Read(data, binary.LittleEndian, &sbytes)",
  "\tif err != nil {",
  "\t\tpanic(err)",
  "\t}",
  "\tif string(sbytes) != \"BSCI\" {",
  "\t\treturn nil, fmt.Errorf(\"packed message buffer has invalid header\")",
  "\t}",
  "\tvar msgCount int32",
  "\tif err := binary.Read(data, binary.LittleEndian, &msgCount); err != nil {",
  "\t\treturn nil, fmt.Errorf(\"could not read message count (%w)\", err)",
  "\t}",
  "\tif msgCount == 0 {",
  "\t\treturn []Message{}, nil",
  "\t}",
  "\tmsgList, err := ProcessRawBytes(data, int(msgCount))",
  "\tif err != nil {",
  "\t\treturn nil, fmt.Errorf(\"could not raw packed bytes (%w)\", err)",
  "\t}",
  "\tif len(msgList) == 0 {",
  "\t\treturn nil, fmt.Errorf(\"no messages in buffer\")",
  "\t}",
  "\tif len(msgList) != int(msgCount) {",
  "\t\treturn nil, fmt.Errorf(\"unexpected number of messages in buffer\")",
  "\t}",
  "\treturn msgList, nil;",
  "}"]

/-- writers/boilerplate/Rust.rs, L1-178. -/
def rust : List String := [
  "#![allow(dead_code)] // some generated functions chains may not be fully exploited",
  "",
  "use std::fmt;",
  "use std::error::Error;",
  "",
  "#[derive(Debug)]",
  "pub enum BeschiError {",
  "    EndOfFile,",
  "    InvalidData,",
  "    EndOfMessageList,",
  "}",
  "",
  "impl Error for BeschiError {}",
  "",
  "impl fmt::Display for BeschiError {",
  "    fn fmt(&self, f: &mut fmt::Formatter) -> fmt::Result {",
  "        match self {",
  "            BeschiError::EndOfFile => write!(f, \"end of file reached prematurely\"),",
  "            BeschiError::InvalidData => write!(f, \"invalid data encountered\"),",
  "            BeschiError::EndOfMessageList => write!(f, \"end of message list encountered\"),",
  "        }",
  "    }",
  "}",
  "",
  "pub struct BufferReader<'a> {",
  "    buffer: &'a [u8],",
  "    pub current_position: usize,",
  "}",
  "",
  "impl<'a> BufferReader<'a> {",
  "    pub fn new(buffer: &'a [u8]) -> Self {",
  "        BufferReader { buffer, current_position: 0 }",
  "    }",
  "",
  "    pub fn from_vec(buffer: Vec<u8>) -> BufferReader<'static> {",
  "        let buffer = Box::new(buffer);",
  "        BufferReader {",
  "            buffer: Box::leak(buffer),",
  "            current_position: 0,",
  "        }",
  "    }",
  "",
  "    pub fn is_finished(&self) -> bool {",
  "        self.current_position >= self.buffer.len()",
  "    }",
  "",
  "    pub fn has_remaining(&self, size: usize) -> bool {",
  "        self.current_position + size <= self.buffer.len()",
  "    }",
  "",
  "    pub fn take_byte(&mut self) -> Result<u8, BeschiError> {",
  "        if !self.has_remaining(1) {",
  "            return Err(BeschiError::EndOfFile);",
  "        }",
  "        self.current_position += 1;",
  "        Ok(self.buffer[self.current_position-1])",
  "    }",
  "",
  "    pub fn take(&mut self, amount: usize) -> Result<&[u8], BeschiError> {",
  "        if !self.has_remaining(amount) {",
  "            return Err(BeschiError::EndOfFile);",
  "        }",
  "",
  "        let ret: &[u8] = &self.buffer[self.current_position..self.current_position+amount];",
  "        self.current_position += amount;",
  "        Ok(ret)",
  "    }",
  "",
  "    pub fn read_string(&mut self) -> Result<String, BeschiError> {",
  "        let len = self.read_{# STRING_SIZE_TYPE #}()?;",
  "        let string_bytes = self.take(len as usize)?;",
  "        match String::from_utf8(string_bytes.to_vec()) {",
  "            Err(_) => Err(BeschiError::InvalidData),",
  "            Ok(v) => Ok(v)",
  "        }",
  "    }",
  "",
  "    pub fn read_u8(&mut self) -> Result<u8, BeschiError> {",
  "        let byte = self.take_byte()?;",
  "        Ok(byte)",
  "    }",
  "",
  "    pub fn read_i16(&mut self) -> Result<i16, BeschiError> {",
  "        let bytes = self.take(2)?;",
  "        Ok(i16::from_le_bytes(bytes.try_into().unwrap()))",
  "    }",
  "",
  "    pub fn read_u16(&mut self) -> Result<u16, BeschiError> {",
  "        let bytes = self.take(2)?;",
  "        Ok(u16::from_le_bytes(bytes.try_into().unwrap()))",
  "    }",
  "",
  "    pub fn read_i32(&mut self) -> Result<i32, BeschiError> {",
  "        let bytes = self.take(4)?;",
  "        Ok(i32::from_le_bytes(bytes.try_into().unwrap()))",
  "    }",
  "",
  "    pub fn read_u32(&mut self) -> Result<u32, BeschiError> {",
  "        let bytes = self.take(4)?;",
  "        Ok(u32::from_le_bytes(bytes.try_into().unwrap()))",
  "    }",
  "",
  "    pub fn read_i64(&mut self) -> Result<i64, BeschiError> {",
  "        let bytes = self.take(8)?;",
  "        Ok(i64::from_le_bytes(bytes.try_into().unwrap()))",
  "    }",
  "",
  "    pub fn read_u64(&mut self) -> Result<u64, BeschiError> {",
  "        let bytes = self.take(8)?;",
  "        Ok(u64::from_le_bytes(bytes.try_into().unwrap()))",
  "    }",
  "",
  "    pub fn read_f32(&mut self) -> Result<f32, BeschiError> {",
  "        let bytes = self.take(4)?;",
  "        Ok(f32::from_le_bytes(bytes.try_into().unwrap()))",
  "    }",
  "",
  "    pub fn read_f64(&mut self) -> Result<f64, BeschiError> {",
  "        let bytes = self.take(8)?;",
  "        Ok(f64::from_le_bytes(bytes.try_into().unwrap()))",
  "    }",
  "}",
  "",
  "pub trait MessageCodec {",
  "    fn get_message_type(&self) -> MessageType;",
  "    fn get_size_in_bytes(&self) -> usize;",
  "    fn from_bytes(reader: &mut BufferReader) -> Result<Self, BeschiError>",
  "        where Self: Sized;",
  "    fn write_bytes(&self, writer: &mut Vec<u8>, tag: bool);",
  "}",
  "",
  "",
  "pub fn get_packed_size(msg_list: &[Message]) -> usize {",
  "    let mut size: usize = 0;",
  "",
  "    for msg in msg_list {",
  "        size += msg.get_size_in_bytes();",
  "    }",
  "    size += msg_list.len();",
  "    size += 9;",
  "",
  "    size",
  "}",
  "",
  "pub fn pack_messages(msg_list: &[Message], writer: &mut Vec<u8>) {",
  "    let header_bytes = b\"BSCI\";",
  "    writer.extend_from_slice(header_bytes);",
  "    let msg_count = msg_list.len() as u32;",
  "    writer.extend_from_slice(&msg_count.to_le_bytes());",
  "",
  "    for msg in msg_list {",
  "        msg.write_bytes(writer, true);",
  "    }",
  "    writer.push(0);",
  "}",
  "",
  "pub fn unpack_messages(reader: &mut BufferReader) -> Result<Vec<Message>, BeschiError> {",
  "    let header_label = reader.take(4)?;",
  "    if header_label != b\"BSCI\" {",
  "        return Err(BeschiError::InvalidData);",
  "    }",
  "",
  "    let msg_count = reader.read_u32()? as usize;",
  "    if msg_count == 0 {",
  "        return Ok(Vec::new());",
  "    }",
  "",
  "    let msg_list = process_raw_bytes(reader, msg_count as i32)?;",
  "    let read_count = msg_list.len();",
  "    if read_count == 0 {",
  "        return Err(BeschiError::InvalidData);",
  "    }",
  "    if msg_list.len() != msg_count {",
  "        return Err(BeschiError::InvalidData);",
  "    }",
  "",
  "    Ok(msg_list)",
  "}"]

/-- writers/boilerplate/Swift.0.swift, L1-276. -/
def swift0 : List String := [
  "public enum DataReaderError: Error {",
  "    case EOF",
  "    case InvalidData",
  "}",
  "",
  "class DataReader {",
  "    let data: Data",
  "    var currentOffset: Int = 0",
  "    init(fromData data: Data) {",
  "        self.data = data",
  "    }",
  "",
  "    func IsFinished() -> Bool {",
  "        return self.currentOffset >= self.data.count",
  "    }",
  "",
  "    func GetUInt8() throws -> UInt8 {",
  "        if (self.data.count < self.currentOffset + 1) {",
  "            throw DataReaderError.EOF",
  "        }",
  "        let ret = UInt8(littleEndian: data.withUnsafeBytes { dataBytes in",
  "            var val: UInt8 = 0",
  "            memcpy(&val, dataBytes.baseAddress! + self.currentOffset, 1)",
  "            return val",
  "        })",
  "        self.currentOffset += 1",
  "        return ret",
  "    }",
  "",
  "    func GetBool() throws -> Bool {",
  "        return try self.GetUInt8() > 0",
  "    }",
  "",
  "    func GetInt16() throws -> Int16 {",
  "        if (self.data.count < self.currentOffset + 2) {",
  "            throw DataReaderError.EOF",
  "        }",
  "        let ret = Int16(littleEndian: data.withUnsafeBytes { dataBytes in",
  "            var val: Int16 = 0",
  "            memcpy(&val, dataBytes.baseAddress! + self.currentOffset, 2)",
  "            return val",
  "        })",
  "        self.currentOffset += 2",
  "        return ret",
  "    }",
  "",
  "    func GetUInt16() throws -> UInt16 {",
  "        if (self.data.count < self.currentOffset + 2) {",
  "            throw DataReaderError.EOF",
  "        }",
  "        let ret = UInt16(littleEndian: data.withUnsafeBytes { dataBytes in",
  "            var val: UInt16 = 0",
  "            memcpy(&val, dataBytes.baseAddress! + self.currentOffset, 2)",
  "            return val",
  "        })",
  "        self.currentOffset += 2",
  "        return ret",
  "    }",
  "",
  "    func GetInt32() throws -> Int32 {",
  "        if (self.data.count < self.currentOffset + 4) {",
  "            throw DataReaderError.EOF",
  "        }",
  "        let ret = Int32(littleEndian: data.withUnsafeBytes { dataBytes in",
  "            var val: Int32 = 0",
  "            memcpy(&val, dataBytes.baseAddress! + self.currentOffset, 4)",
  "            return val",
  "        })",
  "        self.currentOffset += 4",
  "        return ret",
  "    }",
  "",
  "    func GetUInt32() throws -> UInt32 {",
  "        if (self.data.count < self.currentOffset + 4) {",
  "            throw DataReaderError.EOF",
  "        }",
  "        let ret = UInt32(littleEndian: data.withUnsafeBytes { dataBytes in",
  "            var val: UInt32 = 0",
  "            memcpy(&val, dataBytes.baseAddress! + self.currentOffset, 4)",
  "            return val",
  "        })",
  "        self.currentOffset += 4",
  "        return ret",
  "    }",
  "",
  "    func GetInt64() throws -> Int64 {",
  "        if (self.data.count < self.currentOffset + 8) {",
  "            throw DataReaderError.EOF",
  "        }",
  "        let ret = Int64(littleEndian: data.withUnsafeBytes { dataBytes in",
  "            var val: Int64 = 0",
  "            memcpy(&val, dataBytes.baseAddress! + self.currentOffset, 8)",
  "            return val",
  "        })",
  "        self.currentOffset += 8",
  "        return ret",
  "    }",
  "",
  "    func GetUInt64() throws -> UInt64 {",
  "        if (self.data.count < self.currentOffset + 8) {",
  "            throw DataReaderError.EOF",
  "        }",
  "        let ret = UInt64(littleEndian: data.withUnsafeBytes { dataBytes in",
  "            var val: UInt64 = 0",
  "            memcpy(&val, dataBytes.baseAddress! + self.currentOffset, 8)",
  "            return val",
  "        })",
  "        self.currentOffset += 8",
  "        return ret",
  "    }",
  "",
  "    func GetFloat32() throws -> Float32 {",
  "        if (self.data.count < self.currentOffset + 4) {",
  "            throw DataReaderError.EOF",
  "        }",
  "        let ret = Float32(bitPattern: UInt32(littleEndian: data.withUnsafeBytes { dataBytes in",
  "            var val: UInt32 = 0",
  "            memcpy(&val, dataBytes.baseAddress! + self.currentOffset, 4)",
  "            return val",
  "        }))",
  "        self.currentOffset += 4",
  "        return ret",
  "    }",
  "",
  "    func GetFloat64() throws -> Float64 {",
  "        if (self.data.count < self.currentOffset + 8) {",
  "            throw DataReaderError.EOF",
  "        }",
  "        let ret = Float64(bitPattern: UInt64(littleEndian: data.withUnsafeBytes { dataBytes in",
  "            var val: UInt64 = 0",
  "            memcpy(&val, dataBytes.baseAddress! + self.currentOffset, 8)",
  "            return val",
  "        }))",
  "        self.currentOffset += 8",
  "        return ret",
  "    }",
  "",
  "    func GetString() throws -> String {",
  "        let stringLength = try Int(self.Get{# STRING_SIZE_TYPE #}())",
  "        if (self.data.count < self.currentOffset + stringLength) {",
  "            throw DataReaderError.EOF",
  "        }",
  "        let stringData = self.data[self.currentOffset..<(self.currentOffset+stringLength)]",
  "        guard",
  "            let ret = String(data: stringData, encoding: String.Encoding.utf8)",
  "        else {",
  "            throw DataReaderError.InvalidData",
  "        }",
  "        self.currentOffset += stringLength",
  "        return ret",
  "    }",
  "}",
  "",
  "class DataWriter {",
  "    var data: NSMutableData",
  "",
  "    init() {",
  "        self.data = NSMutableData()",
  "    }",
  "",
  "    init(withData: NSMutableData) {",
  "        self.data = withData",
  "    }",
  "",
  "    var asData: Data {",
  "        return self.data as Data",
  "    }",
  "",
  "    func Write(uint8: UInt8) {",
  "        var val = uint8;",
  "        self.data.append(&val, length: MemoryLayout<UInt8>.size);",
  "    }",
  "",
  "    func Write(bool: Bool) {",
  "        self.Write(uint8: bool ? 1 : 0)",
  "    }",
  "",
  "    func Write(int16: Int16) {",
  "        var val = int16;",
  "        self.data.append(&val, length: MemoryLayout<Int16>.size);",
  "    }",
  "",
  "    func Write(uint16: UInt16) {",
  "        var val = uint16;",
  "        self.data.append(&val, length: MemoryLayout<UInt16>.size);",
  "    }",
  "",
  "    func Write(int32: Int32) {",
  "        var val = int32;",
  "        self.data.append(&val, length: MemoryLayout<Int32>.size);",
  "    }",
  "",
  "    func Write(uint32: UInt32) {",
  "        var val = uint32;",
  "        self.data.append(&val, length: MemoryLayout<UInt32>.size);",
  "    }",
  "",
  "    func Write(int64: Int64) {",
  "        var val = int64;",
  "        self.data.append(&val, length: MemoryLayout<Int64>.size);",
  "    }",
  "",
  "    func Write(uint64: UInt64) {",
  "        var val = uint64;",
  "        self.data.append(&val, length: MemoryLayout<UInt64>.size);",
  "    }",
  "",
  "    func Write(float32: Float32) {",
  "        var val = float32;",
  "        var valOut = UInt32(littleEndian: withUnsafeBytes(of: &val) {",
  "            $0.load(fromByteOffset: 0, as: UInt32.self)",
  "        })",
  "        self.data.append(&valOut, length: MemoryLayout<UInt32>.size);",
  "    }",
  "",
  "    func Write(float64: Float64) {",
  "        var val = float64;",
  "        var valOut = UInt64(littleEndian: withUnsafeBytes(of: &val) {",
  "            $0.load(fromByteOffset: 0, as: UInt64.self)",
  "        })",
  "        self.data.append(&valOut, length: MemoryLayout<UInt64>.size);",
  "    }",
  "",
  "    func Write(string: String) {",
  "        let buffer = string.data(using: .utf8)!",
  "        self.Write({# STRING_SIZE_TYPE_LOWER #}: {# STRING_SIZE_TYPE #}(buffer.count))",
  "        self.data.append(buffer)",
  "    }",
  "}",
  "",
  "",
  "public class Message {",
  "    public func GetMessageType() -> MessageType {",
  "        fatalError(\"GetMessageType must be implemented in subclass\")",
  "    }",
  "    public func WriteBytes(data: NSMutableData, tag: Bool) -> Void {",
  "        fatalError(\"WriteBytes must be implemented in subclass\")",
  "    }",
  "    public func GetSizeInBytes() -> UInt32 {",
  "        fatalError(\"GetSizeInBytes must be implemented in subclass\")",
  "    }",
  "    public class func FromBytes(_ fromData: Data) throws -> Self {",
  "        fatalError(\"FromBytes:fromData must be implemented in subclass\")",
  "    }",
  "    class func FromBytes(dataReader: DataReader) throws -> Self {",
  "        fatalError(\"FromBytes:dataReader must be implemented in subclass\")",
  "    }",
  "",
  "    public static func UnpackMessages(_ data: Data) throws -> [Message] {",
  "        let dataReader = DataReader(fromData: data)",
  "        let headerBytes = dataReader.data[dataReader.currentOffset..<dataReader.currentOffset+4];",
  "        guard",
  "            let headerLabel = String(data: headerBytes, encoding: String.Encoding.utf8)",
  "        else {",
  "            throw DataReaderError.InvalidData",
  "        }",
  "        dataReader.currentOffset += 4",
  "        if headerLabel != \"BSCI\" {",
  "            throw DataReaderError.InvalidData",
  "        }",
  "        let msgCount = try dataReader.GetUInt32();",
  "        if msgCount == 0 {",
  "            return [Message]()",
  "        }",
  "        let listData = data.subdata(in: dataReader.currentOffset..<dataReader.data.count)",
  "        let msgList: [Message] = try ProcessRawBytes(listData, max: Int(msgCount))",
  "        if msgList.count == 0 {",
  "            throw DataReaderError.InvalidData",
  "        }",
  "        if msgList.count != msgCount {",
  "            throw DataReaderError.InvalidData",
  "        }",
  "        return msgList.compactMap { $0 }",
  "    }",
  "}",
  ""]

/-- writers/boilerplate/Swift.1.swift, L1-23. -/
def swift1 : List String := [
  "extension Array where Element == {# NAMESPACE_PREFIX_DOT #}Message {",
  "    public func GetPackedSize() -> Int {",
  "        var size: Int = 0",
  "        for msg in self {",
  "            size += Int(msg.GetSizeInBytes())",
  "        }",
  "        size += self.count",
  "        size += 9",
  "        return size",
  "    }",
  "",
  "    public func PackMessages(_ data: NSMutableData) -> Void {",
  "        let dataWriter = {# NAMESPACE_PREFIX_DOT #}DataWriter(withData: data)",
  "        let headerBytes = \"BSCI\".data(using: String.Encoding.utf8)!",
  "        dataWriter.data.append(headerBytes)",
  "        var msgCount = UInt32(littleEndian: UInt32(self.count))",
  "        dataWriter.data.append(Swift.withUnsafeBytes(of: &msgCount, {Data($0)}))",
  "        for msg in self {",
  "            msg.WriteBytes(data: dataWriter.data, tag: true)",
  "        }",
  "        dataWriter.Write(uint8: 0)",
  "    }",
  "}"]

/-- writers/boilerplate/TypeScript.ts, L1-213. -/
def typeScript : List String := [
  "",
  "const _textDec = new TextDecoder('utf-8');",
  "const _textEnc = new TextEncoder();",
  "",
  "export class DataAccess {",
  "  data: DataView;",
  "  currentOffset: number;",
  "",
  "  constructor(buffer: ArrayBuffer|DataView) {",
  "    this.currentOffset = 0;",
  "    if (buffer instanceof ArrayBuffer) {",
  "      this.data = new DataView(buffer);",
  "    }",
  "    else {",
  "      this.data = buffer;",
  "    }",
  "  }",
  "",
  "  isFinished(): boolean {",
  "    return this.currentOffset >= this.data.byteLength;",
  "  }",
  "",
  "  getByte(): number {",
  "    const ret = this.data.getUint8(this.currentOffset);",
  "    this.currentOffset += 1;",
  "    return ret;",
  "  }",
  "",
  "  getBool(): boolean {",
  "    return this.getByte() > 0;",
  "  }",
  "",
  "  getInt16(): number {",
  "    const ret = this.data.getInt16(this.currentOffset, true);",
  "    this.currentOffset += 2;",
  "    return ret;",
  "  }",
  "",
  "  getUint16(): number {",
  "    const ret = this.data.getUint16(this.currentOffset, true);",
  "    this.currentOffset += 2;",
  "    return ret;",
  "  }",
  "",
  "  getInt32(): number {",
  "    const ret = this.data.getInt32(this.currentOffset, true);",
  "    this.currentOffset += 4;",
  "    return ret;",
  "  }",
  "",
  "  getUint32(): number {",
  "    const ret = this.data.getUint32(this.currentOffset, true);",
  "    this.currentOffset += 4;",
  "    return ret;",
  "  }",
  "",
  "  getInt64(): bigint {",
  "    const ret = this.data.getBigInt64(this.currentOffset, true);",
  "    this.currentOffset += 8;",
  "    return ret;",
  "  }",
  "",
  "  getUint64(): bigint {",
  "    const ret = this.data.getBigUint64(this.currentOffset, true);",
  "    this.currentOffset += 8;",
  "    return ret;",
  "  }",
  "",
  "  getFloat32(): number {",
  "    const ret = this.data.getFloat32(this.currentOffset, true);",
  "    this.currentOffset += 4;",
  "    return Math.fround(ret);",
  "  }",
  "",
  "  getFloat64(): number {",
  "    const ret = this.data.getFloat64(this.currentOffset, true);",
  "    this.currentOffset += 8;",
  "    return ret;",
  "  }",
  "",
  "  getString(): string {",
  "    const len = this.get{# STRING_SIZE_TYPE #}();",
  "    const strBuffer = new Uint8Array(this.data.buffer, this.currentOffset, len);",
  "    this.currentOffset += len;",
  "    return _textDec.decode(strBuffer);",
  "  }",
  "",
  "",
  "  setByte(val: number) {",
  "    this.data.setUint8(this.currentOffset, val);",
  "    this.currentOffset += 1;",
  "  }",
  "",
  "  setBool(val: boolean): void {",
  "    this.setByte(val ? 1 : 0);",
  "  }",
  "",
  "  setInt16(val: number): void {",
  "    this.data.setInt16(this.currentOffset, val, true);",
  "    this.currentOffset += 2;",
  "  }",
  "",
  "  setUint16(val: number): void {",
  "    this.data.setUint16(this.currentOffset, val, true);",
  "    this.currentOffset += 2;",
  "  }",
  "",
  "  setInt32(val: number): void {",
  "    this.data.setInt32(this.currentOffset, val, true);",
  "    this.currentOffset += 4;",
  "  }",
  "",
  "  setUint32(val: number): void {",
  "    this.data.setUint32(this.currentOffset, val, true);",
  "    this.currentOffset += 4;",
  "  }",
  "",
  "  setInt64(val: bigint): void {",
  "    this.data.setBigInt64(this.currentOffset, val, true);",
  "    this.currentOffset += 8;",
  "  }",
  "",
  "  setUint64(val: bigint): void {",
  "    this.data.setBigUint64(this.currentOffset, val, true);",
  "    this.currentOffset += 8;",
  "  }",
  "",
  "  setFloat32(val: number): void {",
  "    this.data.setFloat32(this.currentOffset, val, true);",
  "    this.currentOffset += 4;",
  "  }",
  "",
  "  setFloat64(val: number): void {",
  "    this.data.setFloat64(this.currentOffset, val, true);",
  "    this.currentOffset += 8;",
  "  }",
  "",
  "  setString(val: string): void {",
  "    const strBuffer = _textEnc.encode(val);",
  "    this.set{# STRING_SIZE_TYPE #}(strBuffer.byteLength);",
  "    const arr = new Uint8Array(this.data.buffer, this.data.byteOffset, this.data.byteLength);",
  "    arr.set(strBuffer, this.currentOffset);",
  "    this.currentOffset += strBuffer.byteLength;",
  "  }",
  "}",
  "",
  "export abstract class Message {",
  "  abstract getMessageType(): MessageType;",
  "  abstract writeBytes(dv: DataView|DataAccess, tag: boolean): void;",
  "  abstract getSizeInBytes(): number;",
  "",
  "  static fromBytes(data: DataView|DataAccess|ArrayBuffer): Message | null {",
  "    throw new Error(\"Cannot read abstract Message from bytes.\");",
  "  };",
  "}",
  "",
  "export function GetPackedSize(msgList: Message[]): number {",
  "  let size = 0;",
  "  for (const msg of msgList) {",
  "    size += msg.getSizeInBytes();",
  "  }",
  "  size += msgList.length;",
  "  size += 9;",
  "  return size;",
  "}",
  "",
  "export function PackMessages(msgList: Message[], data: DataView|DataAccess): void {",
  "  let da: DataAccess;",
  "  if (data instanceof DataView) {",
  "    da = new DataAccess(data);",
  "  }",
  "  else {",
  "    da = data;",
  "  }",
  "  const headerBytes = _textEnc.encode(\"BSCI\");",
  "  const arr = new Uint8Array(da.data.buffer);",
  "  arr.set(headerBytes, da.currentOffset);",
  "  da.currentOffset += headerBytes.byteLength;",
  "  da.setUint32(msgList.length);",
  "  for (const msg of msgList) {",
  "    msg.writeBytes(da, true);",
  "  }",
  "  da.setByte(0);",
  "}",
  "",
  "export function UnpackMessages(data: DataView|DataAccess): Message[] {",
  "  let da: DataAccess;",
  "  if (data instanceof DataView) {",
  "    da = new DataAccess(data);",
  "  }",
  "  else {",
  "    da = data;",
  "  }",
  "  const headerBuffer = new Uint8Array(da.data.buffer, da.currentOffset, 4);",
  "  da.currentOffset += 4;",
  "  const headerLabel = _textDec.decode(headerBuffer);",
  "  if (headerLabel !== \"BSCI\") {",
  "    throw new Error(\"Packed message buffer has invalid header.\");",
  "  }",
  "  const msgCount = da.getUint32();",
  "  if (msgCount == 0) {",
  "    return [];",
  "  }",
  "  const msgList = ProcessRawBytes(da, msgCount);",
  "  if (msgList.length == 0) {",
  "    throw new Error(\"No messages in buffer.\");",
  "  }",
  "  if (msgList.length != msgCount) {",
  "    throw new Error(\"Unexpected number of messages in buffer.\");",
  "  }",
  "  return msgList;",
  "}",
  ""]

/-- writers/boilerplate/Zig.zig, L1-286. -/
def zig : List String := [
  "const DataReaderError = error {",
  "    EOF,",
  "    InvalidData,",
  "};",
  "",
  "fn numberTypeIsValid(comptime T: type) bool {",
  "    const validNumericTypes = [_]type{",
  "        bool,",
  "        u8,  i8,",
  "        u16, i16,",
  "        u32, i32,",
  "        u64, i64,",
  "        f32, f64,",
  "    };",
  "    for (validNumericTypes) |vt| {",
  "        if (T == vt) {",
  "            return true;",
  "        }",
  "    }",
  "    return false;",
  "}",
  "",
  "const simpleTypes = [_]type{",
  "    {# SIMPLE_TYPES #}",
  "};",
  "",
  "const enumTypes = [_]type{",
  "    {# ENUM_TYPES #}",
  "};",
  "",
  "fn typeIsSimple(comptime T: type) bool {",
  "    if (comptime numberTypeIsValid(T)) {",
  "        return true;",
  "    }",
  "    for (simpleTypes) |vt| {",
  "        if (T == vt) {",
  "            return true;",
  "        }",
  "    }",
  "    if (typeIsEnum(T)) {",
  "        return true;",
  "    }",
  "    return false;",
  "}",
  "",
  "fn typeIsEnum(comptime T: type) bool {",
  "    for (enumTypes) |vt| {",
  "        if (T == vt) {",
  "            return true;",
  "        }",
  "    }",
  "    return false;",
  "}",
  "",
  "fn isValidEnum(comptime Te: type, comptime Ti: type, value: Ti) bool {",
  "    inline for (std.meta.fields(Te)) |f| {",
  "        if (value == f.value) {",
  "            return true;",
  "        }",
  "    }",
  "    return false;",
  "}",
  "",
  "pub fn readNumber(comptime T: type, offset: usize, buffer: []const u8) !struct { value: T, bytes_read: usize } {",
  "    comptime {",
  "        const actual_type = switch (@typeInfo(T)) {",
  "            .Enum => |enum_info| enum_info.tag_type,",
  "            else => T,",
  "        };",
  "",
  "        if (!numberTypeIsValid(actual_type)) {",
  "            @compileError(\"Invalid number type\");",
  "        }",
  "    }",
  "",
  "    if (offset + @sizeOf(T) > buffer.len) {",
  "        return DataReaderError.EOF;",
  "    }",
  "",
  "    const val: T = switch (T) {",
  "        f32 => @bitCast(std.mem.readInt(u32, buffer[offset..][0..@sizeOf(T)], .little)),",
  "        f64 => @bitCast(std.mem.readInt(u64, buffer[offset..][0..@sizeOf(T)], .little)),",
  "        bool => std.mem.readInt(u8, buffer[offset..][0..@sizeOf(T)], .little) != 0,",
  "        else => enum_conversion: {",
  "            break :enum_conversion switch (@typeInfo(T)) {",
  "                .Enum => |ei| {",
  "                    const raw = std.mem.readInt(ei.tag_type, buffer[offset..][0..@sizeOf(T)], .little);",
  "                    if (!isValidEnum(T, ei.tag_type, raw)) {",
  "                        return DataReaderError.InvalidData;",
  "                    }",
  "                    break :enum_conversion @enumFromInt(raw);",
  "                },",
  "                else => std.mem.readInt(T, buffer[offset..][0..@sizeOf(T)], .little),",
  "            };",
  "        },",
  "    };",
  "",
  "    return .{ .value = val, .bytes_read = @sizeOf(T) };",
  "}",
  "",
  "pub fn readString(allocator: std.mem.Allocator, offset: usize, buffer: []const u8) !struct { value: []u8, bytes_read: usize } {",
  "    const len_read = try readNumber({# STRING_SIZE_TYPE #}, offset, buffer);",
  "    const len = len_read.value;",
  "",
  "    if (offset + @sizeOf({# STRING_SIZE_TYPE #}) + len > buffer.len) {",
  "        return DataReaderError.EOF;",
  "    }",
  "",
  "    var str = try allocator.alloc(u8, len);",
  "    for (0..len) |i| {",
  "        str[i] = buffer[offset + len_read.bytes_read + i];",
  "    }",
  "    return .{ .value = str, .bytes_read = @sizeOf({# STRING_SIZE_TYPE #}) + len };",
  "}",
  "",
  "pub fn readList(comptime T: type, allocator: std.mem.Allocator, offset: usize, buffer: []const u8) !struct { value: []T, bytes_read: usize } {",
  "    var local_offset = offset;",
  "    const len_read = try readNumber({# LIST_SIZE_TYPE #}, local_offset, buffer);",
  "    const len = len_read.value;",
  "    local_offset += len_read.bytes_read;",
  "    var list = try allocator.alloc(T, len);",
  "    var made_count: {# LIST_SIZE_TYPE #} = 0;",
  "",
  "    errdefer {",
  "        for (0..made_count) |i| {",
  "            if (comptime (numberTypeIsValid(T) or typeIsEnum(T))) {",
  "                // no-op; just keeping the same structure as below",
  "            }",
  "            else {",
  "                switch (T) {",
  "                    []u8, []const u8 => {",
  "                        allocator.free(list[i]);",
  "                    },",
  "                    else => {",
  "                        if (comptime typeIsSimple(T)) {",
  "                            // no-op",
  "                        }",
  "                        else {",
  "                            list[i].deinit(allocator);",
  "                        }",
  "                    }",
  "                }",
  "            }",
  "        }",
  "        allocator.free(list);",
  "    }",
  "",
  "    for (0..len) |i| {",
  "        if (comptime (numberTypeIsValid(T) or typeIsEnum(T))) {",
  "            const list_read = try readNumber(T, local_offset, buffer);",
  "            list[i] = list_read.value;",
  "            local_offset += list_read.bytes_read;",
  "        } else {",
  "            switch (T) {",
  "                []u8, []const u8 => {",
  "                    const list_read = try readString(allocator, local_offset, buffer);",
  "                    list[i] = list_read.value;",
  "                    local_offset += list_read.bytes_read;",
  "                },",
  "                else => {",
  "                    if (comptime typeIsSimple(T)) {",
  "                        const list_read = try T.fromBytes(local_offset, buffer);",
  "                        list[i] = list_read.value;",
  "                        local_offset += list_read.bytes_read;",
  "                    }",
  "                    else {",
  "                        const list_read = try T.fromBytes(allocator, local_offset, buffer);",
  "                        list[i] = list_read.value;",
  "                        local_offset += list_read.bytes_read;",
  "                    }",
  "                },",
  "            }",
  "        }",
  "        made_count += 1;",
  "    }",
  "    return .{ .value = list, .bytes_read = local_offset - offset };",
  "}",
  "",
  "pub fn writeNumber(comptime T: type, offset: usize, buffer: []u8, value: T) usize {",
  "    comptime {",
  "        const actual_type = switch (@typeInfo(T)) {",
  "            .Enum => |enum_info| enum_info.tag_type,",
  "            else => T,",
  "        };",
  "",
  "        if (!numberTypeIsValid(actual_type)) {",
  "            @compileError(\"Invalid number type\");",
  "        }",
  "    }",
  "",
  "    const slice = buffer[offset..][0..@sizeOf(T)];",
  "    switch (T) {",
  "        f32 => std.mem.writeInt(u32, @constCast(slice), @bitCast(value), .little),",
  "        f64 => std.mem.writeInt(u64, @constCast(slice), @bitCast(value), .little),",
  "        bool => std.mem.writeInt(u8, @constCast(slice), @intFromBool(value), .little),",
  "        else => switch (@typeInfo(T)) {",
  "            .Enum => |ei| std.mem.writeInt(ei.tag_type, @constCast(slice), @intFromEnum(value), .little),",
  "            else => std.mem.writeInt(T, @constCast(slice), value, .little),",
  "        }",
  "    }",
  "    return @sizeOf(T);",
  "}",
  "",
  "pub fn writeString(offset: usize, buffer: []u8, value: []const u8) usize {",
  "    _ = writeNumber({# LIST_SIZE_TYPE #}, offset, buffer, @intCast(value.len));",
  "    std.mem.copyForwards(u8, buffer[offset+@sizeOf({# LIST_SIZE_TYPE #})..][0..value.len], value);",
  "    return @sizeOf({# LIST_SIZE_TYPE #}) + value.len;",
  "}",
  "",
  "pub fn writeList(comptime T: type, offset: usize, buffer: []u8, value: []T) usize {",
  "    var local_offset = offset;",
  "    local_offset += writeNumber({# LIST_SIZE_TYPE #}, local_offset, buffer, @intCast(value.len));",
  "",
  "    for (value) |item| {",
  "        if (comptime (numberTypeIsValid(T) or typeIsEnum(T))) {",
  "            local_offset += writeNumber(T, local_offset, buffer, item);",
  "        }",
  "        else {",
  "            switch(T) {",
  "                []u8, []const u8 => {",
  "                    local_offset += writeString(local_offset, buffer, item);",
  "                },",
  "                else => {",
  "                    local_offset += item.writeBytes(local_offset, buffer);",
  "                }",
  "            }",
  "        }",
  "    }",
  "    return local_offset - offset;",
  "}",
  "",
  "pub fn writeBytes(m: *const Message, offset: usize, buffer: []u8, tag: bool) usize {",
  "    switch (m.*) {",
  "        inline else => |inner| return inner.writeBytes(offset, buffer, tag),",
  "    }",
  "}",
  "",
  "pub fn getPackedSize(msg_list: []const Message) usize {",
  "    var size: usize = 0;",
  "    for (msg_list) |msg| {",
  "        size += msg.getSizeInBytes();",
  "    }",
  "    size += msg_list.len;",
  "    size += 9;",
  "    return size;",
  "}",
  "",
  "pub fn packMessages(msg_list: []const Message, buffer: []u8) void {",
  "    const header_bytes = \"BSCI\";",
  "    var offset: usize = 0;",
  "",
  "    for (header_bytes) |b| {",
  "        offset += writeNumber(u8, offset, buffer, b);",
  "    }",
  "    offset += writeNumber(u32, offset, buffer, @intCast(msg_list.len));",
  "",
  "    for (msg_list) |msg| {",
  "        offset += msg.writeBytes(offset, buffer, true);",
  "    }",
  "",
  "    offset += writeNumber(u8, offset, buffer, 0);",
  "}",
  "",
  "pub fn unpackMessages(allocator: std.mem.Allocator, buffer: []u8) ![]Message {",
  "    var offset: usize = 0;",
  "    if (!std.mem.eql(u8, buffer[0..4], \"BSCI\")) {",
  "        return DataReaderError.InvalidData;",
  "    }",
  "    offset += 4;",
  "    const msg_count_read = try readNumber(u32, 4, buffer);",
  "    offset += msg_count_read.bytes_read;",
  "    const msg_count = msg_count_read.value;",
  "    if (msg_count == 0) {",
  "        return allocator.alloc(Message, 0);",
  "    }",
  "    const msg_list = try processRawBytes(allocator, buffer[offset..], @intCast(msg_count));",
  "    errdefer allocator.free(msg_list);",
  "",
  "    if (msg_list.len == 0) {",
  "        return DataReaderError.InvalidData;",
  "    }",
  "    if (msg_list.len != msg_count) {",
  "        return DataReaderError.InvalidData;",
  "    }",
  "    return msg_list;",
  "}"]

end Beschi.Text.Boilerplate
