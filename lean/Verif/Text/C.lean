import Verif.Text.Writer
/-
The text written for C (beschi/writers/c.py), function by function and line by line.
-/
namespace Beschi.Text.C

set_option linter.unusedVariables false

/-- What is added to `self.type_mapping` (c.py L19-29). -/
def mapping : List (String × String) := [
  ("byte", "uint8_t"), ("bool", "bool"), ("uint16", "uint16_t"), ("int16", "int16_t"),
  ("uint32", "uint32_t"), ("int32", "int32_t"), ("uint64", "uint64_t"), ("int64", "int64_t"),
  ("float", "float"), ("double", "double"), ("string", "char*")]

/-- `self.base_serializers` (c.py L31-42). -/
def codecs : List (String × String) := [
  ("byte", "UInt8"), ("bool", "Bool"), ("uint16", "UInt16"), ("int16", "Int16"),
  ("uint32", "UInt32"), ("int32", "Int32"), ("uint64", "UInt64"), ("int64", "Int64"),
  ("float", "Float"), ("double", "Double")]

/-- `self.base_defaults` (c.py L44-55). -/
def defaults : List (String × String) := [
  ("byte", "0"), ("bool", "false"), ("uint16", "0"), ("int16", "0"), ("uint32", "0"),
  ("int32", "0"), ("uint64", "0"), ("int64", "0"), ("float", "0.0f"), ("double", "0.0")]

/-- `CWriter` after `__init__` (c.py L14-61): `self.prefix` and `self.subs` come from the namespace. -/
def writer (p : Protocol) (tab : Option String) (embed : Option String) (boilerplate : Nat → List String) :
    Except Exn Writer :=
  let w : Writer :=
    { p, tab := tab.getD "    ", nativeTab := "    ", mapping, codecs, defaults, embed, boilerplate,
      pref := "beschi_" }
  match p.ns with
  | none => .ok w
  | some (.str ns) => .ok { w with pref := ns ++ "_", subs := [("beschi", .text ns), ("BESCHI", .text (upper ns))] }
  | some _ => .error .namespaceShape

/-- The digits at the start of a text, and what follows. -/
def takeDigits : List Char → List Char × List Char
  | [] => ([], [])
  | c :: cs => if c.isDigit then let (d, r) := takeDigits cs; (c :: d, r) else ([], c :: cs)

/-- `re.match(r"(.*)\\[(i\\d+)\\]$", name)` with its two groups (c.py L103, L142): read from the end.  ASCII
digits only; names have no line breaks. -/
def indexed (name : String) : Option (String × String) :=
  match name.toList.reverse with
  | ']' :: cs => match takeDigits cs with
    | ([], _) => none
    | (ds, 'i' :: '[' :: rest) => some (String.ofList rest.reverse, String.ofList ('i' :: ds.reverse))
    | _ => none
  | _ => none

/-- `err_check_return` (c.py L63-68). -/
def errCheckReturn (w : Writer) : Emit Unit := do
  w.line s!"if (err != {(upper w.pref)}ERR_OK) \{"
  shift 1
  w.line "return err;"
  shift (-1)
  w.line "}"

/-- `deserializer` (c.py L70-128). -/
def deserializer (w : Writer) : Nat → Variable → String → Emit Unit
  | 0, _, _ => Emit.raise .recursion
  | fuel + 1, var, accessor => do
    if var.isList then
      w.line s!"err = {w.pref}Read{← w.codec w.p.listSize.name}(r, &({accessor}{var.name}_len));"
      errCheckReturn w
      let pref ← (do
        if (Writer.isNum var.vartype || var.vartype == "string") then
          let pref := ""
          pure pref
        else
          let pref := w.pref
          pure pref)
      w.line s!"{accessor}{var.name} = ({pref}{← w.type var.vartype}*){(upper w.pref)}MALLOC(sizeof({pref}{← w.type var.vartype}) * {accessor}{var.name}_len);"
      w.line s!"if ({accessor}{var.name} == NULL) \{ return {(upper w.pref)}ERR_ALLOCATION_FAILURE; }"
      (do
        if var.vartype == "string" then
          w.line s!"{accessor}{var.name}_els_len = ({← w.stringSize}*){(upper w.pref)}MALLOC(sizeof({← w.stringSize}) * {accessor}{var.name}_len);"
          w.line s!"if ({accessor}{var.name} == NULL) \{ return {(upper w.pref)}ERR_ALLOCATION_FAILURE; }")
      let idx ← level
      w.line s!"for ({← w.listSize} i{idx} = 0; i{idx} < {accessor}{var.name}_len; i{idx}++) \{"
      shift 1
      (do
        if w.p.isEnum var.vartype then
          let e ← w.enum var.vartype
          w.line s!"{← w.type e.encoding.name} _{var.name};"
          w.line s!"err = {w.pref}Read{← w.codec e.encoding.name}(r, &(_{var.name}));"
          errCheckReturn w
          w.line s!"if (!{w.pref}IsValid{var.vartype}(_{var.name})) \{"
          shift 1
          w.line s!"return {(upper w.pref)}ERR_INVALID_DATA;"
          shift (-1)
          w.line "}"
          w.line s!"{accessor}{var.name}[i{idx}] = ({w.pref}{var.vartype})_{var.name};"
        else
          let inner := (⟨s!"{var.name}[i{idx}]", var.vartype, false⟩ : Variable)
          deserializer w fuel inner accessor)
      shift (-1)
      w.line "}"
      errCheckReturn w
    else if var.vartype == "string" then
      (match indexed var.name with
        | some (name, idx) => w.line s!"err = {w.pref}ReadString(r, &({accessor}{var.name}), &({accessor}{name}_els_len[{idx}]));"
        | none => w.line s!"err = {w.pref}ReadString(r, &({accessor}{var.name}), &({accessor}{var.name}_len));")
      errCheckReturn w
    else if w.p.isEnum var.vartype then
      let e ← w.enum var.vartype
      w.line s!"{← w.type e.encoding.name} _{var.name};"
      w.line s!"err = {w.pref}Read{← w.codec e.encoding.name}(r, &(_{var.name}));"
      errCheckReturn w
      w.line s!"if (!{w.pref}IsValid{var.vartype}(_{var.name})) \{"
      shift 1
      w.line s!"return {(upper w.pref)}ERR_INVALID_DATA;"
      shift (-1)
      w.line "}"
      w.line s!"{accessor}{var.name} = ({w.pref}{var.vartype})_{var.name};"
    else if Writer.isNum var.vartype then
      w.line s!"err = {w.pref}Read{← w.codec var.vartype}(r, &({accessor}{var.name}));"
      errCheckReturn w
    else
      w.line s!"err = {w.pref}{var.vartype}_FromBytes(r, &({accessor}{var.name}));"
      errCheckReturn w

/-- `serializer` (c.py L130-156). -/
def serializer (w : Writer) : Nat → Variable → String → Emit Unit
  | 0, _, _ => Emit.raise .recursion
  | fuel + 1, var, accessor => do
    (do
      if var.isList then
        w.line s!"err = {w.pref}Write{← w.codec w.p.listSize.name}(w, ({accessor}{var.name}_len));"
        errCheckReturn w
        let idx ← level
        w.line s!"for ({← w.listSize} i{idx} = 0; i{idx} < {accessor}{var.name}_len; i{idx}++) \{"
        shift 1
        let inner := (⟨s!"{var.name}[i{idx}]", var.vartype, false⟩ : Variable)
        serializer w fuel inner accessor
        shift (-1)
        w.line "}"
      else if var.vartype == "string" then
        (match indexed var.name with
          | some (name, idx) => w.line s!"err = {w.pref}WriteString(w, &({accessor}{var.name}), ({accessor}{name}_els_len[{idx}]));"
          | none => w.line s!"err = {w.pref}WriteString(w, &({accessor}{var.name}), ({accessor}{var.name}_len));")
      else if w.p.isEnum var.vartype then
        let e ← w.enum var.vartype
        w.line s!"err = {w.pref}Write{← w.codec e.encoding.name}(w, ({← w.type e.encoding.name})({accessor}{var.name}));"
      else if Writer.isNum var.vartype then
        w.line s!"err = {w.pref}Write{← w.codec var.vartype}(w, ({accessor}{var.name}));"
      else
        w.line s!"err = {w.pref}{var.vartype}_WriteBytes(w, &({accessor}{var.name}));")
    errCheckReturn w

/-- `gen_measurement` (c.py L158-200). -/
def genMeasurement (w : Writer) : Nat → Struct → String → Emit (List String × Nat)
  | 0, _, _ => Emit.raise .recursion
  | fuel + 1, st, accessor => do
    let lines : List String := []
    let accum := 0
    let (lines, accum) ← (do
      if (← w.structSimple st) then
        let lines := lines ++ [s!"*size = {← w.sizeOf st.name};"]
        pure (lines, accum)
      else
        let sizeInit := "*size = 0;"
        let lines := lines ++ [sizeInit]
        let (accum, lines) ← eachWith st.members (accum, lines) fun (accum, lines) var => do
          let (accum, lines) ← (do
            if var.isList then
              let accum := accum + w.p.listSize.size
              let idx ← level
              let lines ← (do
                if (← w.simple var true) then
                  let lines := lines ++ [s!"*size += {accessor}{var.name}_len * {← w.sizeOf var.vartype};"]
                  pure lines
                else if var.vartype == "string" then
                  let lines := lines ++ [s!"for ({← w.listSize} i{idx} = 0; i{idx} < {accessor}{var.name}_len; i{idx}++) \{"]
                  let lines := lines ++ [s!"{w.tab}*size += {w.p.stringSize.size} + {accessor}{var.name}_els_len[i{idx}];"]
                  let lines := lines ++ ["}"]
                  pure lines
                else
                  let lines := lines ++ [s!"for ({← w.listSize} i{idx} = 0; i{idx} < {accessor}{var.name}_len; i{idx}++) \{"]
                  shift 1
                  let (clines, caccum) ← genMeasurement w fuel (← w.struct var.vartype) (s!"{accessor}{var.name}[i{idx}].")
                  shift (-1)
                  let clines := if (← headLine clines) == sizeInit then clines.tail else clines
                  let clines := clines ++ [s!"*size += {caccum};"]
                  let lines := lines ++ (clines.map fun l => s!"{w.tab}{l}")
                  let lines := lines ++ ["}"]
                  pure lines)
              pure (accum, lines)
            else if (← w.simple var false) then
              let accum := accum + (← w.sizeOf var.vartype)
              pure (accum, lines)
            else if var.vartype == "string" then
              let accum := accum + w.p.stringSize.size
              let lines := lines ++ [s!"*size += {accessor}{var.name}_len;"]
              pure (accum, lines)
            else
              let (clines, caccum) ← genMeasurement w fuel (← w.struct var.vartype) (s!"{accessor}{var.name}.")
              let clines := if (← headLine clines) == sizeInit then clines.tail else clines
              let lines := lines ++ clines
              let accum := accum + caccum
              pure (accum, lines))
          pure (accum, lines)
        pure (lines, accum))
    pure (lines, accum)

/-- `gen_default` (c.py L202-222). -/
def genDefault (w : Writer) : Nat → List Variable → Emit Unit
  | 0, _ => Emit.raise .recursion
  | fuel + 1, members => do
    each members fun var => do
      if var.isList then
        w.line s!".{var.name}_len = 0,"
        (do
          if var.vartype == "string" then
            w.line s!".{var.name}_els_len = NULL,")
        w.line s!".{var.name} = NULL,"
      else if (w.defaults.lookup var.vartype).isSome then
        w.line s!".{var.name} = {← Writer.look w.defaults var.vartype},"
      else if var.vartype == "string" then
        w.line s!".{var.name}_len = 0,"
        w.line s!".{var.name} = (char*)\"\","
      else if w.p.isEnum var.vartype then
        let e ← w.enum var.vartype
        w.line s!".{var.name} = {w.pref}{e.name}_{(← Writer.defaultPair e).1},"
      else
        w.line s!".{var.name} = \{"
        shift 1
        genDefault w fuel ((← w.struct var.vartype).members)
        shift (-1)
        w.line "},"

/-- `destructor` (c.py L224-244).  A list and its elements, and a struct and its members, are a call each. -/
def destructor (w : Writer) : Nat → Variable → String → Emit Unit
  | 0, _, _ => Emit.raise .recursion
  | fuel + 1, var, accessor => do
    if (← w.simple var false) then pure () else do
      if var.isList then
        if (← w.simple var true) then
          w.line s!"{(upper w.pref)}FREE({accessor}{var.name});"
        else
          let idx ← level
          w.line s!"for ({← w.listSize} i{idx} = 0; i{idx} < {accessor}{var.name}_len; i{idx}++) \{"
          shift 1
          let inner := (⟨s!"{var.name}[i{idx}]", var.vartype, false⟩ : Variable)
          destructor w fuel inner accessor
          shift (-1)
          w.line "}"
          (do
            if var.vartype == "string" then
              w.line s!"{(upper w.pref)}FREE({accessor}{var.name}_els_len);")
          w.line s!"{(upper w.pref)}FREE({accessor}{var.name});"
      else if var.vartype == "string" then
        w.line s!"{(upper w.pref)}FREE({accessor}{var.name});"
      else
        each (← w.struct var.vartype).members fun mem => destructor w fuel mem (s!"{accessor}{var.name}.")

/-- `gen_enum` (c.py L246-254). -/
def genEnum (w : Writer) (ename : String) (edata : Enum) : Emit Unit := do
  w.line s!"typedef enum {w.pref}{ename} \{"
  shift 1
  each edata.values.zipIdx fun x => do
    w.line s!"{w.pref}{ename}_{x.1.1} = {x.1.2}{(if decide (x.2 < (edata.values.length - 1)) then "," else "")}"
  shift (-1)
  w.line s!"} {w.pref}{ename};"
  w.line s!"bool {w.pref}IsValid{ename}({← w.type edata.encoding.name} value);"
  w.blank

/-- `gen_struct` (c.py L256-296). -/
def genStruct (w : Writer) (sname : String) (sdata : Struct) : Emit Unit := do
  w.line "typedef struct {"
  shift 1
  (do
    if sdata.isMessage then
      w.line s!"{w.pref}MessageType _mt;")
  each sdata.members fun var => do
    if var.isList then
      w.line s!"{← w.listSize} {var.name}_len;"
      (do
        if var.vartype == "string" then
          w.line s!"{← w.listSize}* {var.name}_els_len;")
      if (Writer.isNum var.vartype || var.vartype == "string") then
        w.line s!"{← w.type var.vartype}* {var.name};"
      else if (w.p.isStruct var.vartype || w.p.isEnum var.vartype) then
        w.line s!"{w.pref}{var.vartype}* {var.name};"
    else if var.vartype == "string" then
      w.line s!"{← w.stringSize} {var.name}_len;"
      w.line s!"{← w.type var.vartype} {var.name};"
    else if Writer.isNum var.vartype then
      w.line s!"{← w.type var.vartype} {var.name};"
    else if w.p.isEnum var.vartype then
      w.line s!"{w.pref}{var.vartype} {var.name};"
    else if w.p.isStruct var.vartype then
      w.line s!"{w.pref}{var.vartype} {var.name};"
  shift (-1)
  w.line s!"} {w.pref}{sname};"
  (do
    if sdata.isMessage then
      w.line s!"extern const {w.pref}{sname} {w.pref}{sname}_default;")
  w.blank
  (do
    if sdata.isMessage then
      w.line s!"{w.pref}err_t {w.pref}{sname}_WriteBytes({w.pref}DataAccess* w, const {w.pref}{sname}* src, bool tag);"
    else
      w.line s!"{w.pref}err_t {w.pref}{sname}_WriteBytes({w.pref}DataAccess* w, const {w.pref}{sname}* src);")
  w.line s!"{w.pref}err_t {w.pref}{sname}_FromBytes({w.pref}DataAccess* r, {w.pref}{sname}* dst);"
  (do
    if sdata.isMessage then
      w.line s!"{w.pref}err_t {w.pref}{sname}_GetSizeInBytes(const {w.pref}{sname}* m, size_t* size);"
      w.line s!"{w.pref}{sname}* {w.pref}{sname}_Create(void);"
      w.line s!"void {w.pref}{sname}_Cleanup({w.pref}{sname} *m);"
      w.line s!"void {w.pref}{sname}_Destroy({w.pref}{sname} *m);")
  w.blank
  w.blank

/-- `gen_enum_implementation` (c.py L298-315). -/
def genEnumImplementation (w : Writer) (ename : String) (edata : Enum) : Emit Unit := do
  w.line s!"bool {w.pref}IsValid{ename}({← w.type edata.encoding.name} value) \{"
  shift 1
  w.line "switch (value) {"
  shift 1
  each edata.values fun x => w.line s!"case {w.pref}{ename}_{x.1}:"
  shift 1
  w.line "return true;"
  shift (-1)
  w.line "default:"
  shift 1
  w.line "return false;"
  shift (-1)
  shift (-1)
  w.line "}"
  shift (-1)
  w.line "}"
  w.blank

/-- `gen_implementation` (c.py L317-394). -/
def genImplementation (w : Writer) (sname : String) (sdata : Struct) : Emit Unit := do
  (do
    if sdata.isMessage then
      w.line s!"const {w.pref}{sname} {w.pref}{sname}_default = \{"
      shift 1
      w.line s!"._mt = {w.pref}MessageType_{sname},"
      genDefault w w.p.depth sdata.members
      shift (-1)
      w.line "};"
      w.blank
      w.line s!"{w.pref}err_t {w.pref}{sname}_GetSizeInBytes(const {w.pref}{sname}* m, size_t* size) \{"
      shift 1
      let (measureLines, accumulator) ← genMeasurement w w.p.depth sdata "m->"
      each measureLines fun s => w.line s
      (do
        if decide (accumulator > 0) then
          w.line s!"*size += {accumulator};")
      w.line s!"return {(upper w.pref)}ERR_OK;"
      shift (-1)
      w.line "}"
      w.blank
      w.line s!"{w.pref}{sname}* {w.pref}{sname}_Create(void) \{"
      shift 1
      w.line s!"{w.pref}{sname}* out = ({w.pref}{sname}*){(upper w.pref)}MALLOC(sizeof({w.pref}{sname}));"
      w.line "if (out == NULL) { return NULL; }"
      w.line s!"out->_mt = {w.pref}MessageType_{sname};"
      each sdata.members fun mem => do
        w.line s!"out->{mem.name} = {w.pref}{sname}_default.{mem.name};"
      w.line "return out;"
      shift (-1)
      w.line "}"
      w.blank
      w.line s!"void {w.pref}{sname}_Cleanup({w.pref}{sname} *m) \{"
      shift 1
      each sdata.members fun mem => destructor w (2 * w.p.depth) mem "m->"
      shift (-1)
      w.line "}"
      w.blank
      w.line s!"void {w.pref}{sname}_Destroy({w.pref}{sname} *m) \{"
      shift 1
      w.line s!"{w.pref}{sname}_Cleanup(m);"
      w.line s!"{(upper w.pref)}FREE(m);"
      shift (-1)
      w.line "}"
      w.blank)
  w.line s!"{w.pref}err_t {w.pref}{sname}_FromBytes({w.pref}DataAccess* r, {w.pref}{sname}* dst) \{"
  shift 1
  (do
    if sdata.isMessage then
      w.line s!"dst->_mt = {w.pref}MessageType_{sname};")
  (do
    if decide (sdata.members.length > 0) then
      w.line s!"{w.pref}err_t err;")
  each sdata.members fun mem => deserializer w w.p.depth mem "dst->"
  w.line s!"return {(upper w.pref)}ERR_OK;"
  shift (-1)
  w.line "}"
  w.blank
  (do
    if sdata.isMessage then
      w.line s!"{w.pref}err_t {w.pref}{sname}_WriteBytes({w.pref}DataAccess* w, const {w.pref}{sname}* src, bool tag) \{"
    else
      w.line s!"{w.pref}err_t {w.pref}{sname}_WriteBytes({w.pref}DataAccess* w, const {w.pref}{sname}* src) \{")
  shift 1
  w.line s!"{w.pref}err_t err;"
  (do
    if sdata.isMessage then
      w.line "if (tag) {"
      shift 1
      w.line s!"err = {w.pref}WriteUInt8(w, (uint8_t)(src->_mt));"
      errCheckReturn w
      shift (-1)
      w.line "}")
  each sdata.members fun mem => serializer w w.p.depth mem "src->"
  w.line s!"return {(upper w.pref)}ERR_OK;"
  shift (-1)
  w.line "}"
  w.blank

/-- `generate` (c.py L396-739). -/
def generate (w : Writer) : Emit Unit := do
  w.line "/*"
  w.line s!"   This file was automatically generated by {libName} v{libVersion}"
  w.line "   <https://github.com/sjml/beschi>"
  w.line "   Do not edit directly."
  w.line "*/"
  w.blank
  (do
    if w.embed.isSome then
      w.line "/*"
      w.line "DATA PROTOCOL"
      w.line "-----------------"
      each (splitlines (w.embed.getD "")) fun l => w.line s!"{l}"
      w.line "-----------------"
      w.line "END DATA PROTOCOL"
      w.line "*/"
      w.blank
      w.blank)
  w.addBoilerplate (w.subs ++ [("{# STRING_SIZE_TYPE #}", .text (← w.codec w.p.stringSize.name)), ("{# STRING_SIZE_TYPE_LOWER #}", .text (lower (← w.codec w.p.stringSize.name))), ("{# STRING_SIZE_TYPE_NATIVE #}", .text (← w.stringSize))]) 0
  w.line "typedef enum {"
  shift 1
  w.line s!"{w.pref}MessageType_BuiltIn_NullMessage = 0,"
  each w.p.messages.zipIdx fun x => do
    w.line s!"{w.pref}MessageType_{x.1.name} = {(x.2 + 1)}{(if decide (x.2 < (w.p.messages.length - 1)) then "," else "")}"
  shift (-1)
  w.line s!"} {w.pref}MessageType;"
  w.blank
  w.line s!"{w.pref}MessageType {w.pref}GetMessageType(const void* m);"
  w.line s!"{w.pref}err_t {w.pref}GetSizeInBytes(const void* m, size_t* len);"
  w.line s!"{w.pref}err_t {w.pref}WriteBytes({w.pref}DataAccess* w, const void* m, bool tag);"
  w.line s!"{w.pref}err_t {w.pref}ProcessRawBytes({w.pref}DataAccess* r, int32_t max, void*** msgListOut, size_t* len);"
  w.line s!"{w.pref}err_t {w.pref}Destroy(void* m);"
  w.line s!"{w.pref}err_t {w.pref}DestroyMessageList(void** msgList, size_t len);"
  w.line s!"{w.pref}err_t {w.pref}GetPackedSize(void** msgList, size_t len, size_t* packedSize);"
  w.line s!"{w.pref}err_t {w.pref}PackMessages(void** msgList, size_t len, {w.pref}DataAccess* w);"
  w.line s!"{w.pref}err_t {w.pref}UnpackMessages({w.pref}DataAccess* r, void*** msgListOut, size_t* len);"
  w.blank
  each w.p.enums fun edata => do
    genEnum w edata.name edata
  each w.p.structs fun sdata => do
    genStruct w sdata.name sdata
  each w.p.messages fun mdata => do
    genStruct w mdata.name mdata
  w.addBoilerplate (w.subs ++ [("{# STRING_SIZE_TYPE #}", .text (← w.codec w.p.stringSize.name)), ("{# STRING_SIZE_TYPE_LOWER #}", .text (lower (← w.codec w.p.stringSize.name)))]) 1
  w.line s!"{w.pref}MessageType {w.pref}GetMessageType(const void* m) \{"
  shift 1
  w.line "const uint8_t* buffer = (const uint8_t*)m;"
  w.line "uint8_t msgType = buffer[0];"
  w.line s!"if (msgType > {w.p.messages.length}) \{"
  shift 1
  w.line s!"return {w.pref}MessageType_BuiltIn_NullMessage;"
  shift (-1)
  w.line "}"
  w.line s!"return ({w.pref}MessageType)msgType;"
  shift (-1)
  w.line "}"
  w.blank
  w.line s!"{w.pref}err_t {w.pref}GetSizeInBytes(const void* m, size_t* len) \{"
  shift 1
  w.line s!"{w.pref}MessageType msgType = {w.pref}GetMessageType(m);"
  w.line "switch (msgType) {"
  w.line s!"case {w.pref}MessageType_BuiltIn_NullMessage:"
  shift 1
  w.line s!"return {(upper w.pref)}ERR_INVALID_DATA;"
  shift (-1)
  each w.p.messages fun m => do
    w.line s!"case {w.pref}MessageType_{m.name}:"
    shift 1
    w.line s!"return {w.pref}{m.name}_GetSizeInBytes((const {w.pref}{m.name}*)m, len);"
    shift (-1)
  w.line "default:"
  shift 1
  w.line s!"return {(upper w.pref)}ERR_INVALID_DATA;"
  shift (-1)
  w.line "}"
  shift (-1)
  w.line "}"
  w.blank
  w.line s!"{w.pref}err_t {w.pref}WriteBytes({w.pref}DataAccess* w, const void* m, bool tag) \{"
  shift 1
  w.line s!"{w.pref}MessageType msgType = {w.pref}GetMessageType(m);"
  w.line "switch (msgType) {"
  w.line s!"case {w.pref}MessageType_BuiltIn_NullMessage:"
  shift 1
  w.line s!"return {(upper w.pref)}ERR_INVALID_DATA;"
  shift (-1)
  each w.p.messages fun m => do
    w.line s!"case {w.pref}MessageType_{m.name}:"
    shift 1
    w.line s!"return {w.pref}{m.name}_WriteBytes(w, (const {w.pref}{m.name}*)m, tag);"
    shift (-1)
  w.line "default:"
  shift 1
  w.line s!"return {(upper w.pref)}ERR_INVALID_DATA;"
  shift (-1)
  w.line "}"
  shift (-1)
  w.line "}"
  w.blank
  w.line s!"{w.pref}err_t {w.pref}Destroy(void* m) \{"
  shift 1
  w.line s!"{w.pref}MessageType msgType = {w.pref}GetMessageType(m);"
  w.line "switch (msgType) {"
  w.line s!"case {w.pref}MessageType_BuiltIn_NullMessage:"
  shift 1
  w.line s!"return {(upper w.pref)}ERR_INVALID_DATA;"
  shift (-1)
  each w.p.messages fun m => do
    w.line s!"case {w.pref}MessageType_{m.name}:"
    shift 1
    w.line s!"{w.pref}{m.name}_Destroy(({w.pref}{m.name}*)m);"
    w.line s!"return {(upper w.pref)}ERR_OK;"
    shift (-1)
  w.line "default:"
  shift 1
  w.line s!"return {(upper w.pref)}ERR_INVALID_DATA;"
  shift (-1)
  w.line "}"
  shift (-1)
  w.line "}"
  w.blank
  w.line s!"{w.pref}err_t {w.pref}ProcessRawBytes({w.pref}DataAccess* r, int32_t max, void*** msgListDst, size_t* len) \{"
  shift 1
  w.line s!"{w.pref}err_t err = {(upper w.pref)}ERR_OK;"
  w.line "size_t currCapacity = 8;"
  w.line s!"*msgListDst = (void**){(upper w.pref)}MALLOC(sizeof(void*) * currCapacity);"
  w.line s!"if (*msgListDst == NULL) \{ return {(upper w.pref)}ERR_ALLOCATION_FAILURE; }"
  w.line "*len = 0;"
  w.line "if (max == 0) {"
  shift 1
  w.line s!"return {(upper w.pref)}ERR_OK;"
  shift (-1)
  w.line "}"
  w.line s!"while (!{w.pref}IsFinished(r) && (max < 0 || *len < (size_t)max)) \{"
  shift 1
  w.line "while (*len >= currCapacity) {"
  shift 1
  w.line "currCapacity *= 2;"
  w.line s!"*msgListDst = (void**){(upper w.pref)}REALLOC(*msgListDst, (sizeof(void*) * currCapacity));"
  w.line s!"if (*msgListDst == NULL) \{ return {(upper w.pref)}ERR_ALLOCATION_FAILURE; }"
  shift (-1)
  w.line "}"
  w.line "uint8_t msgType;"
  w.line s!"{w.pref}ReadUInt8(r, &msgType);"
  errCheckReturn w
  w.blank
  w.line "void* out;"
  w.line "switch (msgType) {"
  w.line s!"case {w.pref}MessageType_BuiltIn_NullMessage:"
  shift 1
  w.line s!"return {(upper w.pref)}ERR_OK;"
  shift (-1)
  each w.p.messages fun m => do
    w.line s!"case {w.pref}MessageType_{m.name}:"
    shift 1
    w.line s!"out = {(upper w.pref)}MALLOC(sizeof({w.pref}{m.name}));"
    w.line s!"if (out == NULL) \{ return {(upper w.pref)}ERR_ALLOCATION_FAILURE; }"
    w.line s!"err = {w.pref}{m.name}_FromBytes(r, ({w.pref}{m.name}*)out);"
    w.line "(*msgListDst)[*len] = out;"
    w.line "*len += 1;"
    errCheckReturn w
    w.line "break;"
    shift (-1)
  w.line "default:"
  shift 1
  w.line s!"return {(upper w.pref)}ERR_INVALID_DATA;"
  w.line "break;"
  shift (-1)
  w.line "}"
  shift (-1)
  w.line "}"
  w.line s!"return {(upper w.pref)}ERR_OK;"
  shift (-1)
  w.line "}"
  w.blank
  w.line s!"{w.pref}err_t {w.pref}DestroyMessageList(void** msgList, size_t len) \{"
  shift 1
  w.line "for (size_t i = 0; i < len; i++) {"
  shift 1
  w.line s!"{w.pref}MessageType msgType = {w.pref}GetMessageType(msgList[i]);"
  w.line "switch (msgType) {"
  each w.p.messages fun m => do
    w.line s!"case {w.pref}MessageType_{m.name}:"
    shift 1
    w.line s!"{w.pref}{m.name}_Destroy(({w.pref}{m.name}*)msgList[i]);"
    w.line "break;"
    shift (-1)
  w.line s!"case {w.pref}MessageType_BuiltIn_NullMessage:"
  shift 1
  w.line s!"return {(upper w.pref)}ERR_INVALID_DATA;"
  shift (-1)
  w.line "default:"
  shift 1
  w.line s!"return {(upper w.pref)}ERR_INVALID_DATA;"
  shift (-1)
  w.line "}"
  shift (-1)
  w.line "}"
  w.line s!"{(upper w.pref)}FREE(msgList);"
  w.line s!"return {(upper w.pref)}ERR_OK;"
  shift (-1)
  w.line "}"
  w.blank
  w.line s!"{w.pref}err_t {w.pref}GetPackedSize(void** msgList, size_t len, size_t* packedSize) \{"
  shift 1
  w.line "*packedSize = 0;"
  w.line "for (size_t i = 0; i < len; i++) {"
  shift 1
  w.line "size_t individualSize = 0;"
  w.line s!"{w.pref}MessageType msgType = {w.pref}GetMessageType(msgList[i]);"
  w.line "switch (msgType) {"
  each w.p.messages fun m => do
    w.line s!"case {w.pref}MessageType_{m.name}:"
    shift 1
    w.line s!"{w.pref}{m.name}_GetSizeInBytes(({w.pref}{m.name}*)msgList[i], &individualSize);"
    w.line "*packedSize += individualSize;"
    w.line "break;"
    shift (-1)
  w.line s!"case {w.pref}MessageType_BuiltIn_NullMessage:"
  shift 1
  w.line s!"return {(upper w.pref)}ERR_INVALID_DATA;"
  shift (-1)
  w.line "default:"
  shift 1
  w.line s!"return {(upper w.pref)}ERR_INVALID_DATA;"
  shift (-1)
  w.line "}"
  shift (-1)
  w.line "}"
  w.line "*packedSize += len;"
  w.line "*packedSize += 9;"
  w.line s!"return {(upper w.pref)}ERR_OK;"
  shift (-1)
  w.line "}"
  w.blank
  w.line s!"{w.pref}err_t {w.pref}PackMessages(void** msgList, size_t len, {w.pref}DataAccess* w) \{"
  shift 1
  w.line s!"{w.pref}err_t err = {(upper w.pref)}ERR_OK;"
  w.line "if (msgList == NULL) {"
  shift 1
  w.line s!"return {(upper w.pref)}ERR_INVALID_DATA;"
  shift (-1)
  w.line "}"
  w.line "const char header[] = \"BSCI\";"
  w.line "memcpy(w->buffer, header, 4);"
  w.line "w->position += 4;"
  w.line s!"err = {w.pref}WriteUInt32(w, (uint32_t)len);"
  errCheckReturn w
  w.line "for (size_t i = 0; i < len; i++) {"
  shift 1
  w.line s!"{w.pref}MessageType msgType = {w.pref}GetMessageType(msgList[i]);"
  w.line "switch (msgType) {"
  each w.p.messages fun m => do
    w.line s!"case {w.pref}MessageType_{m.name}:"
    shift 1
    w.line s!"err = {w.pref}{m.name}_WriteBytes(w, ({w.pref}{m.name}*)msgList[i], true);"
    errCheckReturn w
    w.line "break;"
    shift (-1)
  w.line s!"case {w.pref}MessageType_BuiltIn_NullMessage:"
  shift 1
  w.line s!"return {(upper w.pref)}ERR_INVALID_DATA;"
  shift (-1)
  w.line "default:"
  shift 1
  w.line s!"return {(upper w.pref)}ERR_INVALID_DATA;"
  shift (-1)
  w.line "}"
  shift (-1)
  w.line "}"
  w.line s!"{w.pref}WriteUInt8(w, 0);"
  w.blank
  w.line s!"return {(upper w.pref)}ERR_OK;"
  shift (-1)
  w.line "}"
  w.blank
  w.line s!"{w.pref}err_t {w.pref}UnpackMessages({w.pref}DataAccess* r, void*** msgListOut, size_t* len) \{"
  shift 1
  w.line s!"{w.pref}err_t err = {(upper w.pref)}ERR_OK;"
  w.line "if (memcmp(r->buffer, \"BSCI\", 4) != 0) {"
  shift 1
  w.line s!"return {(upper w.pref)}ERR_INVALID_DATA;"
  shift (-1)
  w.line "}"
  w.line "r->position += 4;"
  w.line "uint32_t msgCount;"
  w.line s!"err = {w.pref}ReadUInt32(r, &msgCount);"
  errCheckReturn w
  w.line s!"err = {w.pref}ProcessRawBytes(r, (int32_t)msgCount, msgListOut, len);"
  errCheckReturn w
  w.line "if (len == 0) {"
  shift 1
  w.line s!"{(upper w.pref)}FREE(*msgListOut);"
  w.line "*msgListOut = NULL;"
  w.line s!"return {(upper w.pref)}ERR_INVALID_DATA;"
  shift (-1)
  w.line "}"
  w.line "if (*len != (size_t)msgCount) {"
  shift 1
  w.line s!"{w.pref}DestroyMessageList(*msgListOut, *len);"
  w.line "*msgListOut = NULL;"
  w.line "*len = 0;"
  w.line s!"return {(upper w.pref)}ERR_INVALID_DATA;"
  shift (-1)
  w.line "}"
  w.blank
  w.line s!"return {(upper w.pref)}ERR_OK;"
  shift (-1)
  w.line "}"
  w.blank
  each w.p.enums fun edata => do
    genEnumImplementation w edata.name edata
  each w.p.structs fun sdata => do
    genImplementation w sdata.name sdata
  each w.p.messages fun mdata => do
    genImplementation w mdata.name mdata
  w.addBoilerplate w.subs 2

end Beschi.Text.C
