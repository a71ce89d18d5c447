import Verif.Syntax.C
/-
How the functions of the library are written in C: the ones that Verif/Lang/C.lean describes.  `pre` and `up` are
what the names of functions and types, and those of macros, begin with; `len` is the type of the lengths of
strings, and `kind` what it is called in the names of functions.
-/
namespace Beschi.Syntax.C
open Beschi.Spec

/-- The errors (C.0.h L14-18). -/
def errors (pre up : String) : List Row := [
    ⟨0, s!"typedef uint8_t {pre}err_t;"⟩,
    ⟨0, s!"#define {up}ERR_OK  0"⟩,
    ⟨0, s!"#define {up}ERR_EOF 1"⟩,
    ⟨0, s!"#define {up}ERR_INVALID_DATA 2"⟩,
    ⟨0, s!"#define {up}ERR_ALLOCATION_FAILURE 3"⟩]

/-- The data, and how far it has been read or written (C.0.h L27-31). -/
def access (pre : String) : List Row := [
    ⟨0, "typedef struct {"⟩,
    ⟨1, "uint8_t* buffer;"⟩,
    ⟨1, "size_t bufferSize;"⟩,
    ⟨1, "size_t position;"⟩,
    ⟨0, s!"} {pre}DataAccess;"⟩]

/-- The declarations of the functions below (C.0.h L33-56). -/
def declarations (pre len : String) : List Row := [
    ⟨0, s!"bool {pre}IsFinished(const {pre}DataAccess *r);"⟩,
    ⟨0, s!"{pre}err_t {pre}ReadUInt8({pre}DataAccess *r, uint8_t *ui8);"⟩,
    ⟨0, s!"{pre}err_t {pre}ReadBool({pre}DataAccess *r, bool *b);"⟩,
    ⟨0, s!"{pre}err_t {pre}ReadInt16({pre}DataAccess *r, int16_t *i16);"⟩,
    ⟨0, s!"{pre}err_t {pre}ReadUInt16({pre}DataAccess *r, uint16_t *ui16);"⟩,
    ⟨0, s!"{pre}err_t {pre}ReadInt32({pre}DataAccess *r, int32_t *i32);"⟩,
    ⟨0, s!"{pre}err_t {pre}ReadUInt32({pre}DataAccess *r, uint32_t *ui32);"⟩,
    ⟨0, s!"{pre}err_t {pre}ReadInt64({pre}DataAccess *r, int64_t *i64);"⟩,
    ⟨0, s!"{pre}err_t {pre}ReadUInt64({pre}DataAccess *r, uint64_t *ui32);"⟩,
    ⟨0, s!"{pre}err_t {pre}ReadFloat({pre}DataAccess *r, float *f);"⟩,
    ⟨0, s!"{pre}err_t {pre}ReadDouble({pre}DataAccess *r, double *d);"⟩,
    ⟨0, s!"{pre}err_t {pre}ReadString({pre}DataAccess *r, char **s, {len} *len);"⟩,
    ⟨0, ""⟩,
    ⟨0, s!"{pre}err_t {pre}WriteUInt8({pre}DataAccess *w, const uint8_t ui8);"⟩,
    ⟨0, s!"{pre}err_t {pre}WriteBool({pre}DataAccess *w, const bool b);"⟩,
    ⟨0, s!"{pre}err_t {pre}WriteInt16({pre}DataAccess *w, const int16_t i16);"⟩,
    ⟨0, s!"{pre}err_t {pre}WriteUInt16({pre}DataAccess *w, const uint16_t ui16);"⟩,
    ⟨0, s!"{pre}err_t {pre}WriteInt32({pre}DataAccess *w, const int32_t i32);"⟩,
    ⟨0, s!"{pre}err_t {pre}WriteUInt32({pre}DataAccess *w, const uint32_t ui32);"⟩,
    ⟨0, s!"{pre}err_t {pre}WriteInt64({pre}DataAccess *w, const int64_t i64);"⟩,
    ⟨0, s!"{pre}err_t {pre}WriteUInt64({pre}DataAccess *w, const uint64_t ui32);"⟩,
    ⟨0, s!"{pre}err_t {pre}WriteFloat({pre}DataAccess *w, const float f);"⟩,
    ⟨0, s!"{pre}err_t {pre}WriteDouble({pre}DataAccess *w, const double d);"⟩,
    ⟨0, s!"{pre}err_t {pre}WriteString({pre}DataAccess *w, char* const *s, const {len} len);"⟩]

/-- How memory is asked for and given back (C.1.h L20-24). -/
def allocation (up : String) : List Row := [
    ⟨0, s!"#ifndef {up}MALLOC"⟩,
    ⟨1, s!"#define {up}MALLOC(size)             malloc(size)"⟩,
    ⟨1, s!"#define {up}REALLOC(ptr, newSize)    realloc(ptr, newSize)"⟩,
    ⟨1, s!"#define {up}FREE(ptr)                free(ptr)"⟩,
    ⟨0, "#endif"⟩]

/-- Is all of it read? (C.1.h L30-32). -/
def isFinished (pre : String) : List Row := [
    ⟨0, s!"bool {pre}IsFinished(const {pre}DataAccess *r) \{"⟩,
    ⟨1, "return r->position >= r->bufferSize;"⟩,
    ⟨0, "}"⟩]

/-- Reading a Boolean (C.1.h L43-51). -/
def readBool (pre up : String) : List Row := [
    ⟨0, s!"{pre}err_t {pre}ReadBool({pre}DataAccess *r, bool *b) \{"⟩,
    ⟨1, "uint8_t byteVal;"⟩,
    ⟨1, s!"{pre}err_t err = {pre}ReadUInt8(r, &byteVal);"⟩,
    ⟨1, s!"if (err != {up}ERR_OK) \{"⟩,
    ⟨2, "return err;"⟩,
    ⟨1, "}"⟩,
    ⟨1, "*b = byteVal > 0;"⟩,
    ⟨1, s!"return {up}ERR_OK;"⟩,
    ⟨0, "}"⟩]

/-- Reading a string (C.1.h L125-140). -/
def readString (pre up kind len : String) : List Row := [
    ⟨0, s!"{pre}err_t {pre}ReadString({pre}DataAccess *r, char **s, {len} *len) \{"⟩,
    ⟨1, s!"{pre}err_t err;"⟩,
    ⟨1, s!"err = {pre}Read{kind}(r, len);"⟩,
    ⟨1, s!"if (err != {up}ERR_OK) \{"⟩,
    ⟨2, "return err;"⟩,
    ⟨1, "}"⟩,
    ⟨1, "if (r->bufferSize < r->position + *len) {"⟩,
    ⟨2, s!"return {up}ERR_EOF;"⟩,
    ⟨1, "}"⟩,
    ⟨1, s!"*s = (char*){up}MALLOC((size_t)(*len + 1));"⟩,
    ⟨1, s!"if (*s == NULL) \{ return {up}ERR_ALLOCATION_FAILURE; }"⟩,
    ⟨1, "memcpy(*s, r->buffer + r->position, *len);"⟩,
    ⟨1, "(*s)[*len] = '\\0';"⟩,
    ⟨1, "r->position += *len;"⟩,
    ⟨1, s!"return {up}ERR_OK;"⟩,
    ⟨0, "}"⟩]

/-- Writing a byte (C.1.h L144-151). -/
def writeByte (pre up : String) : List Row := [
    ⟨0, s!"{pre}err_t {pre}WriteUInt8({pre}DataAccess *w, const uint8_t ui8) \{"⟩,
    ⟨1, "if (w->bufferSize < w->position + 1) {"⟩,
    ⟨2, s!"return {up}ERR_EOF;"⟩,
    ⟨1, "}"⟩,
    ⟨1, "w->buffer[w->position] = ui8;"⟩,
    ⟨1, "w->position += 1;"⟩,
    ⟨1, s!"return {up}ERR_OK;"⟩,
    ⟨0, "}"⟩]

/-- Writing a Boolean (C.1.h L153-160). -/
def writeBool (pre up : String) : List Row := [
    ⟨0, s!"{pre}err_t {pre}WriteBool({pre}DataAccess *w, const bool b) \{"⟩,
    ⟨1, s!"{pre}err_t err;"⟩,
    ⟨1, s!"err = {pre}WriteUInt8(w, (uint8_t)(b ? 1 : 0));"⟩,
    ⟨1, s!"if (err != {up}ERR_OK) \{"⟩,
    ⟨2, "return err;"⟩,
    ⟨1, "}"⟩,
    ⟨1, s!"return {up}ERR_OK;"⟩,
    ⟨0, "}"⟩]

/-- Writing a string (C.1.h L234-246). -/
def writeString (pre up kind len : String) : List Row := [
    ⟨0, s!"{pre}err_t {pre}WriteString({pre}DataAccess *w, char* const *s, const {len} len) \{"⟩,
    ⟨1, s!"{pre}err_t err;"⟩,
    ⟨1, s!"err = {pre}Write{kind}(w, len);"⟩,
    ⟨1, s!"if (err != {up}ERR_OK) \{"⟩,
    ⟨2, "return err;"⟩,
    ⟨1, "}"⟩,
    ⟨1, "if (w->bufferSize < w->position + len) {"⟩,
    ⟨2, s!"return {up}ERR_EOF;"⟩,
    ⟨1, "}"⟩,
    ⟨1, "memcpy(w->buffer + w->position, *s, len);"⟩,
    ⟨1, "w->position += len;"⟩,
    ⟨1, s!"return {up}ERR_OK;"⟩,
    ⟨0, "}"⟩]

/-- What a number is called in the functions that read and write it. -/
def short : NumTy → String
  | .byte => "ui8" | .bool => "b" | .uint16 => "ui16" | .int16 => "i16" | .uint32 => "ui32" | .int32 => "i32"
  | .uint64 => "ui64" | .int64 => "i64" | .float => "f" | .double => "d"

/-- Reading a number (C.1.h L34-41, L53-123): as many bytes as its type has are copied. -/
def readNumber (pre up : String) (n : NumTy) : List Row := [
    ⟨0, s!"{pre}err_t {pre}Read{Lang.C.suffix n}({pre}DataAccess *r, {native n} *{short n}) \{"⟩,
    ⟨1, s!"if (r->bufferSize < r->position + {n.size}) \{"⟩,
    ⟨2, s!"return {up}ERR_EOF;"⟩,
    ⟨1, "}"⟩,
    ⟨1, s!"memcpy({short n}, r->buffer + r->position, {n.size});"⟩,
    ⟨1, s!"r->position += {n.size};"⟩,
    ⟨1, s!"return {up}ERR_OK;"⟩,
    ⟨0, "}"⟩]

/-- Writing a number (C.1.h L162-232). -/
def writeNumber (pre up : String) (n : NumTy) : List Row := [
    ⟨0, s!"{pre}err_t {pre}Write{Lang.C.suffix n}({pre}DataAccess *w, const {native n} {short n}) \{"⟩,
    ⟨1, s!"if (w->bufferSize < w->position + {n.size}) \{"⟩,
    ⟨2, s!"return {up}ERR_EOF;"⟩,
    ⟨1, "}"⟩,
    ⟨1, s!"memcpy(w->buffer + w->position, &{short n}, {n.size});"⟩,
    ⟨1, s!"w->position += {n.size};"⟩,
    ⟨1, s!"return {up}ERR_OK;"⟩,
    ⟨0, "}"⟩]

end Beschi.Syntax.C
