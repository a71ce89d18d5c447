import Verif.Syntax.Size
import Verif.Syntax.Initial
import Verif.Lang.C
/-
How the statements of the generated functions are written in C.

These are the lines that the statements in Verif/Lang/C.lean and the functions in Verif/Lang/CMemory.lean
stand for.  They are stated apart from the functions that write the text (Verif/Text/C.lean, c.py L63-739).
-/
namespace Beschi.Syntax.C
open Beschi.Spec Beschi.Lang

/-- What all names of the file begin with. -/
def pre (p : Protocol) : String := (namespaceOf p).getD "beschi" ++ "_"

/-- What all names of constants and macros begin with. -/
def up (p : Protocol) : String := String.ofList ((pre p).toList.map Char.toUpper)

/-- What a type of numbers is called. -/
def native : NumTy → String
  | .byte => "uint8_t" | .bool => "bool" | .uint16 => "uint16_t" | .int16 => "int16_t"
  | .uint32 => "uint32_t" | .int32 => "int32_t" | .uint64 => "uint64_t" | .int64 => "int64_t"
  | .float => "float" | .double => "double"

/-- What any type is called. -/
def typeOf (p : Protocol) (t : String) : String :=
  match NumTy.ofName? t with
  | some n => native n
  | none => if t = "string" then "char*" else pre p ++ t

/-- The name of a variable or member. -/
def name : Loc → String
  | .var x => x
  | .mem x => x

/-- The type of what a function reads. -/
def read (prim : String) : String := ((Lang.C.readable prim).map native).getD ""

/-- The type of what a function writes. -/
def written (prim : String) : String := ((Lang.C.writable prim).map native).getD ""

/-- The results of functions. -/
def fine (p : Protocol) : List Row := flush ["return " ++ up p ++ "ERR_OK;"]
def invalid (p : Protocol) : List Row := flush ["return " ++ up p ++ "ERR_INVALID_DATA;"]

/-- Lines in braces, after a line that ends in one. -/
def block (first : String) (rs : List Row) : List Row := flush [first ++ " {"] ++ inside 1 rs ++ flush ["}"]

/-- An error is passed on. -/
def check (p : Protocol) : List Row := block ("if (err != " ++ up p ++ "ERR_OK)") (flush ["return err;"])

/-- Room that could not be found. -/
def room (p : Protocol) (e : String) : String := "if (" ++ e ++ " == NULL) { return " ++ up p ++ "ERR_ALLOCATION_FAILURE; }"

/-- Room for `n` things of a type. -/
def rooms (p : Protocol) (t n : String) : String := "(" ++ t ++ "*)" ++ up p ++ "MALLOC(sizeof(" ++ t ++ ") * " ++ n ++ ")"

/-- A loop of the variable `i` followed by the number `k`, up to `n`, which has type `t`. -/
def loop (t n : String) (k : Nat) (rs : List Row) : List Row :=
  block ("for (" ++ t ++ " i" ++ toString k ++ " = 0; i" ++ toString k ++ " < " ++ n ++ "; i" ++ toString k ++ "++)") rs

/-! ### Reading and writing -/

/-- The lines that read a value into `target`; `len` is where the length of a text goes, and `_x` is a
variable for the number of an enum. -/
def readAtom (p : Protocol) (target len x : String) : RAtom → List Row
  | .text => flush ["err = " ++ pre p ++ "ReadString(r, &(" ++ target ++ "), &(" ++ len ++ "));"] ++ check p
  | .num prim => flush ["err = " ++ pre p ++ prim ++ "(r, &(" ++ target ++ "));"] ++ check p
  | .enum prim e =>
    flush [read prim ++ " _" ++ x ++ ";", "err = " ++ pre p ++ prim ++ "(r, &(_" ++ x ++ "));"] ++ check p ++
    block ("if (!" ++ pre p ++ "IsValid" ++ e ++ "(_" ++ x ++ "))") (invalid p) ++
    flush [target ++ " = (" ++ pre p ++ e ++ ")_" ++ x ++ ";"]
  | .call s | .whole s => flush ["err = " ++ pre p ++ s ++ "_FromBytes(r, &(" ++ target ++ "));"] ++ check p

/-- The type of the elements. -/
def elementType (p : Protocol) : RAtom → String
  | .num prim => read prim
  | .text => "char*"
  | .enum _ e => pre p ++ e
  | .call s | .whole s => pre p ++ s

/-- The lines of one statement of a reading function. -/
def readStmt (p : Protocol) : RStmt → List Row
  | .one x a => readAtom p ("dst->" ++ name x) ("dst->" ++ name x ++ "_len") (name x) a
  | .list x len prim a =>
    flush ["err = " ++ pre p ++ prim ++ "(r, &(dst->" ++ name len ++ "));"] ++ check p ++
    flush ["dst->" ++ name x ++ " = " ++ rooms p (elementType p a) ("dst->" ++ name len) ++ ";", room p ("dst->" ++ name x)] ++
    (match a with
      | .text => flush ["dst->" ++ name x ++ "_els_len = " ++ rooms p (native p.stringSize) ("dst->" ++ name len) ++ ";",
          room p ("dst->" ++ name x)]
      | _ => []) ++
    loop (read prim) ("dst->" ++ name len) 1
      (readAtom p ("dst->" ++ name x ++ "[i1]") ("dst->" ++ name x ++ "_els_len[i1]") (name x) a) ++
    check p

/-- How a reading function is called. -/
def readHead (p : Protocol) (st : Struct) : String :=
  pre p ++ "err_t " ++ pre p ++ st.name ++ "_FromBytes(" ++ pre p ++ "DataAccess* r, " ++ pre p ++ st.name ++ "* dst)"

/-- A reading function. -/
def reader (p : Protocol) (st : Struct) (f : RFun) : List Row :=
  block (readHead p st) (
    (if st.isMessage then flush ["dst->_mt = " ++ pre p ++ "MessageType_" ++ st.name ++ ";"] else []) ++
    (if f.body ≠ [] then flush [pre p ++ "err_t err;"] else []) ++
    f.body.flatMap (readStmt p) ++ fine p)

/-- The lines that write the value of `e`; `len` is the length of a text.  Numbers of an enum are
converted. -/
def writeAtom (p : Protocol) (enum : Bool) (e len : String) : WAtom → List Row
  | .text => flush ["err = " ++ pre p ++ "WriteString(w, &(" ++ e ++ "), (" ++ len ++ "));"] ++ check p
  | .num prim =>
    flush ["err = " ++ pre p ++ prim ++ "(w, " ++ (if enum then "(" ++ written prim ++ ")" else "") ++ "(" ++ e ++ "));"] ++
    check p
  | .call s => flush ["err = " ++ pre p ++ s ++ "_WriteBytes(w, &(" ++ e ++ "));"] ++ check p

/-- The lines of one statement of a writing function, for a member of type `t`. -/
def writeStmt (p : Protocol) (t : String) : WStmt → List Row
  | .one x a => writeAtom p (p.enum? t).isSome ("src->" ++ x) ("src->" ++ x ++ "_len") a
  | .list x prim a =>
    flush ["err = " ++ pre p ++ prim ++ "(w, (src->" ++ x ++ "_len));"] ++ check p ++
    loop (written prim) ("src->" ++ x ++ "_len") 1
      (writeAtom p (p.enum? t).isSome ("src->" ++ x ++ "[i1]") ("src->" ++ x ++ "_els_len[i1]") a) ++
    check p

/-- How a writing function is called. -/
def writeHead (p : Protocol) (st : Struct) : String :=
  pre p ++ "err_t " ++ pre p ++ st.name ++ "_WriteBytes(" ++ pre p ++ "DataAccess* w, const " ++ pre p ++ st.name ++
  "* src" ++ if st.isMessage then ", bool tag)" else ")"

/-- A writing function. -/
def writer (p : Protocol) (st : Struct) (f : WFun) : List Row :=
  block (writeHead p st) (
    flush [pre p ++ "err_t err;"] ++
    (if st.isMessage then
      block "if (tag)" (flush ["err = " ++ pre p ++ "WriteUInt8(w, (uint8_t)(src->_mt));"] ++ check p)
    else []) ++
    ((st.members.zip f.body).flatMap fun x => writeStmt p x.1.vartype x.2) ++ fine p)

/-! ### Sizes -/

/-- A step that follows a pointer. -/
def first : MStep → String
  | .fld n => "->" ++ n
  | .idx v => "[" ++ v ++ "]"

/-- An access path; the message is a pointer. -/
def path (a : MPath) : String :=
  match a.steps with
  | [] => a.root
  | s :: ss => a.root ++ first s ++ String.join (ss.map step)

/-- The length of an element of a list of texts. -/
def length (a : MPath) : String :=
  match a.steps.getLast? with
  | some (.idx v) => path ⟨a.root, a.steps.dropLast⟩ ++ "_els_len[" ++ v ++ "]"
  | _ => path a ++ "_len"

/-- The steps of a size computation. -/
def sizes (p : Protocol) : SizeSyntax where
  init := "*size = 0;"
  ret n := "*size = " ++ toString n ++ ";"
  add n := "*size += " ++ toString n ++ ";"
  addCount a n := "*size += " ++ a ++ "_len * " ++ toString n ++ ";"
  addText a := "*size += " ++ a ++ "_len;"
  addTextPlus k a := "*size += " ++ toString k ++ " + " ++ a ++ ";"
  loop v _ a := ["for (" ++ native p.listSize ++ " " ++ v ++ " = 0; " ++ v ++ " < " ++ a ++ "_len; " ++ v ++ "++) {"]
  path := path
  element := length

/-- How a size computation is called. -/
def sizeHead (p : Protocol) (st : Struct) : String :=
  pre p ++ "err_t " ++ pre p ++ st.name ++ "_GetSizeInBytes(const " ++ pre p ++ st.name ++ "* m, size_t* size)"

/-- A size computation. -/
def size (p : Protocol) (st : Struct) (f : MFun) : List Row :=
  block (sizeHead p st)
    ((sizes p).lines f.lines ++ if f.returns then fine p else [])

/-! ### Creation and release -/

/-- Numbers that are zero. -/
def zero : NumTy → String
  | .bool => "false"
  | .float => "0.0f"
  | .double => "0.0"
  | _ => "0"

/-- The initial value of one member; `members` is for the members of a struct. -/
def initialOne (p : Protocol) (members : List Variable → List Row) (m : Variable) : List Row :=
  match Lang.C.default p m with
  | .ok .list =>
    flush (["." ++ m.name ++ "_len = 0,"] ++
      (if m.vartype = "string" then ["." ++ m.name ++ "_els_len = NULL,"] else []) ++ ["." ++ m.name ++ " = NULL,"])
  | .ok (.num _) => flush ["." ++ m.name ++ " = " ++ ((NumTy.ofName? m.vartype).map zero).getD "" ++ ","]
  | .ok .text => flush ["." ++ m.name ++ "_len = 0,", "." ++ m.name ++ " = (char*)\"\","]
  | .ok (.entry i) => flush ["." ++ m.name ++ " = " ++ pre p ++ m.vartype ++ "_" ++ entryName p m.vartype i ++ ","]
  | .ok (.make s) =>
    flush ["." ++ m.name ++ " = {"] ++ inside 1 (members ((p.struct? s).map (·.members) |>.getD [])) ++ flush ["},"]
  | .error _ => []

/-- The initial values of members, those of the structs inside them included. -/
def initial (p : Protocol) : Nat → List Variable → List Row
  | 0, _ => []
  | fuel + 1, ms => ms.flatMap (initialOne p (initial p fuel))

/-- The release of one member `m` of `a` (`Lang.C.cleanVar`); `one` is for what is not in a list, and `k` is
how far inside. -/
def cleanVar (p : Protocol) (one : Nat → String → String → List Row) (k : Nat) (a : String) (m : Variable) : List Row :=
  if p.simpleVar m false then []
  else if m.isList then
    if p.simpleVar m true then flush [up p ++ "FREE(" ++ a ++ m.name ++ ");"]
    else
      loop (native p.listSize) (a ++ m.name ++ "_len") k (one (k + 1) m.vartype (a ++ m.name ++ "[i" ++ toString k ++ "]")) ++
      flush ((if m.vartype = "string" then [up p ++ "FREE(" ++ a ++ m.name ++ "_els_len);"] else []) ++
        [up p ++ "FREE(" ++ a ++ m.name ++ ");"])
  else one k m.vartype (a ++ m.name)

/-- The release of something of type `t` that is not a list (`Lang.C.cleanOne`). -/
def cleanOne (p : Protocol) : Nat → Nat → String → String → List Row
  | 0, _, _, _ => []
  | fuel + 1, k, t, e =>
    if p.simpleVar { name := "", vartype := t, isList := false } false then []
    else if t = "string" then flush [up p ++ "FREE(" ++ e ++ ");"]
    else ((p.struct? t).map (·.members) |>.getD []).flatMap (cleanVar p (cleanOne p fuel) k (e ++ "."))

/-- How these functions are called. -/
def createHead (p : Protocol) (st : Struct) : String := pre p ++ st.name ++ "* " ++ pre p ++ st.name ++ "_Create(void)"
def cleanupHead (p : Protocol) (st : Struct) : String := "void " ++ pre p ++ st.name ++ "_Cleanup(" ++ pre p ++ st.name ++ " *m)"
def destroyHead (p : Protocol) (st : Struct) : String := "void " ++ pre p ++ st.name ++ "_Destroy(" ++ pre p ++ st.name ++ " *m)"

/-- The functions that make and release a message. -/
def memory (p : Protocol) (st : Struct) : List Row :=
  block (createHead p st) (
    flush ([pre p ++ st.name ++ "* out = (" ++ pre p ++ st.name ++ "*)" ++ up p ++ "MALLOC(sizeof(" ++ pre p ++ st.name ++ "));",
      "if (out == NULL) { return NULL; }", "out->_mt = " ++ pre p ++ "MessageType_" ++ st.name ++ ";"] ++
      (st.members.map fun m => "out->" ++ m.name ++ " = " ++ pre p ++ st.name ++ "_default." ++ m.name ++ ";") ++
      ["return out;"])) ++
  flush [""] ++
  block (cleanupHead p st)
    (st.members.flatMap (cleanVar p (cleanOne p (depth p)) 1 "m->")) ++
  flush [""] ++
  block (destroyHead p st)
    (flush [pre p ++ st.name ++ "_Cleanup(m);", up p ++ "FREE(m);"])

/-! ### Types and functions -/

/-- The constant with the initial values of a message. -/
def constant (p : Protocol) (st : Struct) : List Row :=
  flush ["const " ++ pre p ++ st.name ++ " " ++ pre p ++ st.name ++ "_default = {"] ++
  inside 1 (flush ["._mt = " ++ pre p ++ "MessageType_" ++ st.name ++ ","] ++ initial p (depth p) st.members) ++ flush ["};"]

/-- The functions of a struct or message. -/
def functions (p : Protocol) (st : Struct) (sz : MFun) : List Row :=
  (if st.isMessage then
    constant p st ++ flush [""] ++ size p st sz ++ flush [""] ++ memory p st ++ flush [""]
  else []) ++
  reader p st (Lang.C.fromBytes p st) ++ flush [""] ++ writer p st (Lang.C.writeBytes p st)

/-- The fields of a member. -/
def fields (p : Protocol) (m : Variable) : List String :=
  if m.isList then
    [native p.listSize ++ " " ++ m.name ++ "_len;"] ++
    (if m.vartype = "string" then [native p.listSize ++ "* " ++ m.name ++ "_els_len;"] else []) ++
    [typeOf p m.vartype ++ "* " ++ m.name ++ ";"]
  else
    (if m.vartype = "string" then [native p.stringSize ++ " " ++ m.name ++ "_len;"] else []) ++
    [typeOf p m.vartype ++ " " ++ m.name ++ ";"]

/-- The type of a struct or message, and how its functions are called. -/
def type (p : Protocol) (st : Struct) : List Row :=
  flush ["typedef struct {"] ++
  inside 1 ((if st.isMessage then flush [pre p ++ "MessageType _mt;"] else []) ++
    st.members.flatMap fun m => flush (fields p m)) ++
  flush ["} " ++ pre p ++ st.name ++ ";"] ++
  (if st.isMessage then flush ["extern const " ++ pre p ++ st.name ++ " " ++ pre p ++ st.name ++ "_default;"] else []) ++
  flush ["", writeHead p st ++ ";", readHead p st ++ ";"] ++
  (if st.isMessage then flush [sizeHead p st ++ ";", createHead p st ++ ";", cleanupHead p st ++ ";", destroyHead p st ++ ";"]
  else [])

/-- All but the last are followed by a comma. -/
def commas : List String → List String
  | [] => []
  | [x] => [x]
  | x :: y :: r => (x ++ ",") :: commas (y :: r)

/-- An enum. -/
def enum (p : Protocol) (e : Enum) : List Row :=
  flush ["typedef enum " ++ pre p ++ e.name ++ " {"] ++
  inside 1 (flush (commas (e.values.map fun x => pre p ++ e.name ++ "_" ++ x.1 ++ " = " ++ toString x.2))) ++
  flush ["} " ++ pre p ++ e.name ++ ";"]

/-- The function that tells whether a number is in an enum. -/
def valid (p : Protocol) (e : Enum) : List Row :=
  block ("bool " ++ pre p ++ "IsValid" ++ e.name ++ "(" ++ native e.encoding ++ " value)") (
    block "switch (value)" (
      flush (e.values.map fun x => "case " ++ pre p ++ e.name ++ "_" ++ x.1 ++ ":") ++
      inside 1 (flush ["return true;"]) ++ flush ["default:"] ++ inside 1 (flush ["return false;"])))

/-! ### Messages by their numbers -/

/-- The numbers of the messages. -/
def messageTypes (p : Protocol) (arms : List (Nat × String)) : List Row :=
  flush ["typedef enum {"] ++
  inside 1 (flush ([pre p ++ "MessageType_BuiltIn_NullMessage = 0,"] ++
    commas (arms.map fun x => pre p ++ "MessageType_" ++ x.2 ++ " = " ++ toString x.1))) ++
  flush ["} " ++ pre p ++ "MessageType;"]

/-- One case. -/
def arm (p : Protocol) (m : String) (rs : List Row) : List Row :=
  flush ["case " ++ pre p ++ "MessageType_" ++ m ++ ":"] ++ inside 1 rs

/-- All other cases. -/
def other (rs : List Row) : List Row := flush ["default:"] ++ inside 1 rs

/-- The start of a function that may fail. -/
def result (p : Protocol) (f args : String) : String := pre p ++ "err_t " ++ pre p ++ f ++ "(" ++ args ++ ")"

/-- The number of a message in memory. -/
def typeOfMessage (p : Protocol) (arms : List (Nat × String)) : List Row :=
  block (pre p ++ "MessageType " ++ pre p ++ "GetMessageType(const void* m)") (
    flush ["const uint8_t* buffer = (const uint8_t*)m;", "uint8_t msgType = buffer[0];"] ++
    block ("if (msgType > " ++ toString arms.length ++ ")") (flush ["return " ++ pre p ++ "MessageType_BuiltIn_NullMessage;"]) ++
    flush ["return (" ++ pre p ++ "MessageType)msgType;"])

/-- A function that asks for the number of a message. -/
def anyMessage (p : Protocol) (arms : List (Nat × String)) (f args : String) (does : String → List Row) : List Row :=
  block (result p f args) (
    flush [pre p ++ "MessageType msgType = " ++ pre p ++ "GetMessageType(m);", "switch (msgType) {"] ++
    arm p "BuiltIn_NullMessage" (invalid p) ++ (arms.flatMap fun x => arm p x.2 (does x.2)) ++
    other (invalid p) ++ flush ["}"])

/-- The size, the writing and the release of any message. -/
def sizeAny (p : Protocol) (arms : List (Nat × String)) : List Row :=
  anyMessage p arms "GetSizeInBytes" "const void* m, size_t* len" fun m =>
    flush ["return " ++ pre p ++ m ++ "_GetSizeInBytes((const " ++ pre p ++ m ++ "*)m, len);"]
def writeAny (p : Protocol) (arms : List (Nat × String)) : List Row :=
  anyMessage p arms "WriteBytes" (pre p ++ "DataAccess* w, const void* m, bool tag") fun m =>
    flush ["return " ++ pre p ++ m ++ "_WriteBytes(w, (const " ++ pre p ++ m ++ "*)m, tag);"]
def destroyAny (p : Protocol) (arms : List (Nat × String)) : List Row :=
  anyMessage p arms "Destroy" "void* m" fun m =>
    flush [pre p ++ m ++ "_Destroy((" ++ pre p ++ m ++ "*)m);"] ++ fine p

/-- The reading of tagged messages. -/
def process (p : Protocol) (arms : List (Nat × String)) : List Row :=
  block (result p "ProcessRawBytes" (pre p ++ "DataAccess* r, int32_t max, void*** msgListDst, size_t* len")) (
    flush [pre p ++ "err_t err = " ++ up p ++ "ERR_OK;", "size_t currCapacity = 8;",
      "*msgListDst = (void**)" ++ up p ++ "MALLOC(sizeof(void*) * currCapacity);", room p "*msgListDst", "*len = 0;"] ++
    block "if (max == 0)" (fine p) ++
    block ("while (!" ++ pre p ++ "IsFinished(r) && (max < 0 || *len < (size_t)max))") (
      block "while (*len >= currCapacity)" (flush ["currCapacity *= 2;",
        "*msgListDst = (void**)" ++ up p ++ "REALLOC(*msgListDst, (sizeof(void*) * currCapacity));", room p "*msgListDst"]) ++
      flush ["uint8_t msgType;", pre p ++ "ReadUInt8(r, &msgType);"] ++ check p ++
      flush ["", "void* out;", "switch (msgType) {"] ++ arm p "BuiltIn_NullMessage" (fine p) ++
      (arms.flatMap fun x => arm p x.2 (
        flush ["out = " ++ up p ++ "MALLOC(sizeof(" ++ pre p ++ x.2 ++ "));", room p "out",
          "err = " ++ pre p ++ x.2 ++ "_FromBytes(r, (" ++ pre p ++ x.2 ++ "*)out);", "(*msgListDst)[*len] = out;", "*len += 1;"] ++
        check p ++ flush ["break;"])) ++
      other (invalid p ++ flush ["break;"]) ++ flush ["}"]) ++
    fine p)

/-- The release of a list of messages. -/
def destroyList (p : Protocol) (arms : List (Nat × String)) : List Row :=
  block (result p "DestroyMessageList" "void** msgList, size_t len") (
    block "for (size_t i = 0; i < len; i++)" (
      flush [pre p ++ "MessageType msgType = " ++ pre p ++ "GetMessageType(msgList[i]);", "switch (msgType) {"] ++
      (arms.flatMap fun x => arm p x.2 (
        flush [pre p ++ x.2 ++ "_Destroy((" ++ pre p ++ x.2 ++ "*)msgList[i]);", "break;"])) ++
      arm p "BuiltIn_NullMessage" (invalid p) ++ other (invalid p) ++ flush ["}"]) ++
    flush [up p ++ "FREE(msgList);"] ++ fine p)

/-- The size of a pack. -/
def packedSize (p : Protocol) (arms : List (Nat × String)) : List Row :=
  block (result p "GetPackedSize" "void** msgList, size_t len, size_t* packedSize") (
    flush ["*packedSize = 0;"] ++
    block "for (size_t i = 0; i < len; i++)" (
      flush ["size_t individualSize = 0;", pre p ++ "MessageType msgType = " ++ pre p ++ "GetMessageType(msgList[i]);",
        "switch (msgType) {"] ++
      (arms.flatMap fun x => arm p x.2 (
        flush [pre p ++ x.2 ++ "_GetSizeInBytes((" ++ pre p ++ x.2 ++ "*)msgList[i], &individualSize);",
          "*packedSize += individualSize;", "break;"])) ++
      arm p "BuiltIn_NullMessage" (invalid p) ++ other (invalid p) ++ flush ["}"]) ++
    flush ["*packedSize += len;", "*packedSize += 9;"] ++ fine p)

/-- The writing of a pack. -/
def pack (p : Protocol) (arms : List (Nat × String)) : List Row :=
  block (result p "PackMessages" ("void** msgList, size_t len, " ++ pre p ++ "DataAccess* w")) (
    flush [pre p ++ "err_t err = " ++ up p ++ "ERR_OK;"] ++ block "if (msgList == NULL)" (invalid p) ++
    flush ["const char header[] = \"BSCI\";", "memcpy(w->buffer, header, 4);", "w->position += 4;",
      "err = " ++ pre p ++ "WriteUInt32(w, (uint32_t)len);"] ++ check p ++
    block "for (size_t i = 0; i < len; i++)" (
      flush [pre p ++ "MessageType msgType = " ++ pre p ++ "GetMessageType(msgList[i]);", "switch (msgType) {"] ++
      (arms.flatMap fun x => arm p x.2 (
        flush ["err = " ++ pre p ++ x.2 ++ "_WriteBytes(w, (" ++ pre p ++ x.2 ++ "*)msgList[i], true);"] ++ check p ++
        flush ["break;"])) ++
      arm p "BuiltIn_NullMessage" (invalid p) ++ other (invalid p) ++ flush ["}"]) ++
    flush [pre p ++ "WriteUInt8(w, 0);", ""] ++ fine p)

/-- The reading of a pack. -/
def unpack (p : Protocol) : List Row :=
  block (result p "UnpackMessages" (pre p ++ "DataAccess* r, void*** msgListOut, size_t* len")) (
    flush [pre p ++ "err_t err = " ++ up p ++ "ERR_OK;"] ++
    block "if (memcmp(r->buffer, \"BSCI\", 4) != 0)" (invalid p) ++
    flush ["r->position += 4;", "uint32_t msgCount;", "err = " ++ pre p ++ "ReadUInt32(r, &msgCount);"] ++ check p ++
    flush ["err = " ++ pre p ++ "ProcessRawBytes(r, (int32_t)msgCount, msgListOut, len);"] ++ check p ++
    block "if (len == 0)" (flush [up p ++ "FREE(*msgListOut);", "*msgListOut = NULL;"] ++ invalid p) ++
    block "if (*len != (size_t)msgCount)" (
      flush [pre p ++ "DestroyMessageList(*msgListOut, *len);", "*msgListOut = NULL;", "*len = 0;"] ++ invalid p) ++
    flush [""] ++ fine p)

/-- The functions for any message. -/
def library (p : Protocol) (arms : List (Nat × String)) : List Row :=
  typeOfMessage p arms ++ flush [""] ++ sizeAny p arms ++ flush [""] ++ writeAny p arms ++ flush [""] ++
  destroyAny p arms ++ flush [""] ++ process p arms ++ flush [""] ++ destroyList p arms ++ flush [""] ++
  packedSize p arms ++ flush [""] ++ pack p arms ++ flush [""] ++ unpack p

end Beschi.Syntax.C
