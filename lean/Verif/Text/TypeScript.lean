import Verif.Text.Writer
/-
The text written for TypeScript (beschi/writers/typescript.py), function by function and line by line.
-/
namespace Beschi.Text.TypeScript

set_option linter.unusedVariables false

/-- What is added to `self.type_mapping` (typescript.py L27-34). -/
def mapping : List (String × String) := [
  ("byte", "number"), ("bool", "boolean"), ("uint16", "number"), ("int16", "number"),
  ("uint32", "number"), ("int32", "number"), ("uint64", "bigint"), ("int64", "bigint"),
  ("float", "number"), ("double", "number")]

/-- `self.base_serializers` (typescript.py L36-47). -/
def codecs : List (String × String) := [
  ("byte", "Byte"), ("bool", "Bool"), ("uint16", "Uint16"), ("int16", "Int16"),
  ("uint32", "Uint32"), ("int32", "Int32"), ("uint64", "Uint64"), ("int64", "Int64"),
  ("float", "Float32"), ("double", "Float64")]

/-- `TypeScriptWriter` after `__init__` (typescript.py L20-49). -/
def writer (p : Protocol) (useNamespace : Bool) (tab : Option String) (embed : Option String)
    (boilerplate : Nat → List String) : Writer :=
  { p, tab := tab.getD "  ", nativeTab := "  ", mapping, codecs, embed, useNamespace, boilerplate }

/-- `deserializer` (typescript.py L51-124). -/
def deserializer (w : Writer) : Nat → Variable → String → Emit Unit
  | 0, _, _ => Emit.raise .recursion
  | fuel + 1, var, accessor => do
    let varClean := (replaceAll var.name [("[", "_"), ("]", "_")])
    if var.isList then
      w.line s!"const {varClean}_Length = da.get{← w.codec w.p.listSize.name}();"
      (do
        if w.assembly then
          w.line "if (da.hasError) { return null; }")
      w.line s!"{accessor}{var.name} = new Array<{← w.type var.vartype}>({varClean}_Length);"
      let idx ← level
      w.line s!"for (let i{idx}: {← w.type w.p.listSize.name} = 0; i{idx} < {varClean}_Length; i{idx}++) \{"
      shift 1
      (do
        if w.p.isEnum var.vartype then
          let e ← w.enum var.vartype
          (do
            if !w.assembly then
              w.line s!"const _{var.name} = da.get{← w.codec e.encoding.name}();"
              w.line s!"if ({var.vartype}[_{var.name}] === undefined) \{"
              shift 1
              w.line s!"throw new Error(`Enum ($\{_{var.name}}) out of range for {var.vartype}`);"
              shift (-1)
              w.line "}"
            else
              w.line s!"let _{var.name} = da.get{← w.codec e.encoding.name}();"
              w.line "if (da.hasError) { return null; }"
              w.line s!"if (_{var.name} < {(← Writer.minimumPair e).2} || _{var.name} >= ({var.vartype}._Unknown as {← w.type e.encoding.name})) \{"
              shift 1
              w.line s!"_{var.name} = {var.vartype}._Unknown as {← w.type e.encoding.name};"
              shift (-1)
              w.line "}")
          w.line s!"{accessor}{var.name}[i{idx}] = _{var.name};"
        else
          let inner := (⟨s!"{var.name}[i{idx}]", var.vartype, false⟩ : Variable)
          deserializer w fuel inner accessor)
      shift (-1)
      w.line "}"
    else if var.vartype == "string" then
      w.line s!"{accessor}{var.name} = da.getString();"
      if w.assembly then
        w.line "if (da.hasError) { return null; }"
    else if w.p.isEnum var.vartype then
      let e ← w.enum var.vartype
      (do
        if !w.assembly then
          w.line s!"const _{var.name} = da.get{← w.codec e.encoding.name}();"
          w.line s!"if ({var.vartype}[_{var.name}] === undefined) \{"
          shift 1
          w.line s!"throw new Error(`Enum ($\{_{var.name}}) out of range for {var.vartype}`);"
          shift (-1)
          w.line "}"
        else
          w.line s!"let _{var.name} = da.get{← w.codec e.encoding.name}();"
          w.line "if (da.hasError) { return null; }"
          w.line s!"if (_{var.name} < {(← Writer.minimumPair e).2} || _{var.name} >= ({var.vartype}._Unknown as {← w.type e.encoding.name})) \{"
          shift 1
          w.line s!"_{var.name} = {var.vartype}._Unknown as {← w.type e.encoding.name};"
          shift (-1)
          w.line "}")
      w.line s!"{accessor}{var.name} = _{var.name};"
    else if Writer.isNum var.vartype then
      w.line s!"{accessor}{var.name} = da.get{← w.codec var.vartype}();"
      if w.assembly then
        w.line "if (da.hasError) { return null; }"
    else if !w.assembly then
      w.line s!"{accessor}{var.name} = {var.vartype}.fromBytes(da);"
    else
      w.line s!"const _{varClean} = {var.vartype}.fromBytes(da);"
      w.line s!"if (_{varClean} == null) \{"
      shift 1
      w.line "return null;"
      shift (-1)
      w.line "}"
      w.line "else {"
      shift 1
      w.line s!"{accessor}{var.name} = _{varClean};"
      shift (-1)
      w.line "}"

/-- `serializer` (typescript.py L126-159). -/
def serializer (w : Writer) : Nat → Variable → String → Emit Unit
  | 0, _, _ => Emit.raise .recursion
  | fuel + 1, var, accessor => do
    if var.isList then
      (do
        if !w.assembly then
          w.line s!"da.set{← w.codec w.p.listSize.name}({accessor}{var.name}.length);"
        else
          w.line s!"da.set{← w.codec w.p.listSize.name}({accessor}{var.name}.length as {← w.type w.p.listSize.name});"
          w.line "if (da.hasError) { return false; }")
      w.line s!"for (let i = 0; i < {accessor}{var.name}.length; i++) \{"
      shift 1
      w.line s!"let el = {accessor}{var.name}[i];"
      let inner := (⟨"el", var.vartype, false⟩ : Variable)
      serializer w fuel inner ""
      shift (-1)
      w.line "}"
    else if var.vartype == "string" then
      w.line s!"da.setString({accessor}{var.name});"
      if w.assembly then
        w.line "if (da.hasError) { return false; }"
    else if w.p.isEnum var.vartype then
      let e ← w.enum var.vartype
      if !w.assembly then
        w.line s!"da.set{← w.codec e.encoding.name}({accessor}{var.name});"
      else
        w.line s!"da.set{← w.codec e.encoding.name}({accessor}{var.name} as {← w.type e.encoding.name});"
        w.line "if (da.hasError) { return false; }"
    else if Writer.isNum var.vartype then
      w.line s!"da.set{← w.codec var.vartype}({accessor}{var.name});"
      if w.assembly then
        w.line "if (da.hasError) { return false; }"
    else if !w.assembly then
      w.line s!"{accessor}{var.name}.writeBytes(da);"
    else
      w.line s!"if (!{accessor}{var.name}.writeBytes(da)) \{ return false; };"

/-- `gen_measurement` (typescript.py L161-210). -/
def genMeasurement (w : Writer) : Nat → Struct → String → Emit (List String × Nat)
  | 0, _, _ => Emit.raise .recursion
  | fuel + 1, st, accessor => do
    let lines : List String := []
    let accum := 0
    let (lines, accum) ← (do
      if (← w.structSimple st) then
        let lines := lines ++ [s!"return {← w.sizeOf st.name};"]
        pure (lines, accum)
      else
        let sizeInit ← (do
          if !w.assembly then
            let sizeInit := "let size: number = 0;"
            pure sizeInit
          else
            let sizeInit := "let size: usize = 0;"
            pure sizeInit)
        let lines := lines ++ [sizeInit]
        let (accum, lines) ← eachWith st.members (accum, lines) fun (accum, lines) var => do
          let (accum, lines) ← (do
            if var.isList then
              let accum := accum + w.p.listSize.size
              let lines ← (do
                if (← w.simple var true) then
                  let lines := lines ++ [s!"size += {accessor}{var.name}.length * {← w.sizeOf var.vartype};"]
                  pure lines
                else if var.vartype == "string" then
                  let lines := lines ++ [s!"for (let {var.name}_i=0; {var.name}_i < {accessor}{var.name}.length; {var.name}_i++) \{"]
                  let lines ← (do
                    if !w.assembly then
                      let lines := lines ++ [s!"{w.tab}size += {w.p.stringSize.size} + _textEnc.encode({accessor}{var.name}[{var.name}_i]).byteLength;"]
                      pure lines
                    else
                      let lines := lines ++ [s!"{w.tab}size += {w.p.stringSize.size} + String.UTF8.encode({accessor}{var.name}[{var.name}_i], false).byteLength;"]
                      pure lines)
                  let lines := lines ++ ["}"]
                  pure lines
                else
                  let varClean := (replaceAll var.name [("[", "_"), ("]", "_")])
                  let lines := lines ++ [s!"for (let {varClean}_i=0; {varClean}_i < {accessor}{var.name}.length; {varClean}_i++) \{"]
                  let (clines, caccum) ← genMeasurement w fuel (← w.struct var.vartype) (s!"{accessor}{var.name}[{varClean}_i].")
                  let clines := if (← headLine clines) == sizeInit then clines.tail else clines
                  let clines := clines ++ [s!"size += {caccum};"]
                  let lines := lines ++ (clines.map fun l => s!"{w.tab}{l}")
                  let lines := lines ++ ["}"]
                  pure lines)
              pure (accum, lines)
            else if (← w.simple var false) then
              let accum := accum + (← w.sizeOf var.vartype)
              pure (accum, lines)
            else if var.vartype == "string" then
              let accum := accum + w.p.stringSize.size
              let lines ← (do
                if !w.assembly then
                  let lines := lines ++ [s!"size += _textEnc.encode({accessor}{var.name}).byteLength;"]
                  pure lines
                else
                  let lines := lines ++ [s!"size += String.UTF8.encode({accessor}{var.name}, false).byteLength;"]
                  pure lines)
              pure (accum, lines)
            else
              let (clines, caccum) ← genMeasurement w fuel (← w.struct var.vartype) (s!"{accessor}{var.name}.")
              let clines := if (← headLine clines) == sizeInit then clines.tail else clines
              let lines := lines ++ clines
              let accum := accum + caccum
              pure (accum, lines))
          pure (accum, lines)
        pure (lines, accum))
    pure (lines, accum)

/-- `gen_enum` (typescript.py L212-221). -/
def genEnum (w : Writer) (ename : String) (edata : Enum) : Emit Unit := do
  w.line s!"export enum {ename} \{"
  shift 1
  each edata.values fun x => do
    w.line s!"{x.1} = {x.2},"
  (do
    if w.assembly then
      w.line "_Unknown,")
  shift (-1)
  w.line "}"
  w.blank

/-- `gen_struct` (typescript.py L223-378). -/
def genStruct (w : Writer) (sname : String) (sdata : Struct) : Emit Unit := do
  (do
    if sdata.isMessage then
      w.line s!"export class {sname} extends Message \{"
    else
      w.line s!"export class {sname} \{")
  shift 1
  each sdata.members fun var => do
    if var.isList then
      w.line s!"{var.name}: {← w.type var.vartype}[] = [];"
    else
      let defaultValue : Option String := some "0"
      let defaultValue ← (do
        if (← w.type var.vartype) == "bigint" then
          let defaultValue : Option String := some "0n"
          pure defaultValue
        else if (← w.type var.vartype) == "boolean" then
          let defaultValue : Option String := some "false"
          pure defaultValue
        else if (← w.type var.vartype) == "string" then
          let defaultValue : Option String := some "\"\""
          pure defaultValue
        else if w.p.isEnum var.vartype then
          let e ← w.enum var.vartype
          let defaultValue : Option String := some (s!"{var.vartype}.{(← Writer.defaultPair e).1}")
          pure defaultValue
        else if w.p.isStruct var.vartype then
          let defaultValue : Option String := some (s!"new {var.vartype}()")
          pure defaultValue
        else
          pure defaultValue)
      w.line s!"{var.name}: {← w.type var.vartype}{(if (defaultValue.getD "") != "" then s!" = {defaultValue.getD "None"}" else "")};"
  w.blank
  (do
    if sdata.isMessage then
      w.line s!"getMessageType() : MessageType \{ return MessageType.{sname}Type; }"
      w.blank
      (do
        if !w.assembly then
          w.line "getSizeInBytes(): number {"
        else
          w.line "getSizeInBytes(): usize {")
      shift 1
      let (measureLines, accumulator) ← genMeasurement w w.p.depth sdata "this."
      each measureLines fun s => w.line s
      (do
        if decide (accumulator > 0) then
          w.line s!"size += {accumulator};")
      (do
        if decide (measureLines.length > 1) then
          w.line "return size;")
      shift (-1)
      w.line "}"
      w.blank)
  (do
    if sdata.isMessage then
      if !w.assembly then
        w.line s!"static override fromBytes(data: DataView|DataAccess|ArrayBuffer): {sname} \{"
        shift 1
        w.line "let da: DataAccess;"
        w.line "if (data instanceof DataView) {"
        shift 1
        w.line "da = new DataAccess(data);"
        shift (-1)
        w.line "}"
        w.line "else if (data instanceof ArrayBuffer) {"
        shift 1
        w.line "da = new DataAccess(new DataView(data));"
        shift (-1)
        w.line "}"
        w.line "else {"
        shift 1
        w.line "da = data;"
        shift (-1)
        w.line "}"
      else
        w.line s!"static override fromBytes(data: DataView): {sname} | null \{"
        shift 1
        w.line "const da = new DataAccess(data);"
        w.line s!"return {sname}.fromBytesDA(da);"
        shift (-1)
        w.line "}"
        w.blank
        w.line s!"static override fromBytesDA(da: DataAccess): {sname} | null \{"
        shift 1
    else
      (do
        if !w.assembly then
          w.line s!"static fromBytes(da: DataAccess): {sname} \{"
        else
          w.line s!"static fromBytes(da: DataAccess): {sname} | null \{")
      shift 1)
  (do
    if (sdata.isMessage && !w.assembly) then
      w.line "try {"
      shift 1)
  w.line s!"const n{sname} = new {← w.type sname}();"
  each sdata.members fun mem => deserializer w w.p.depth mem (s!"n{sname}.")
  w.line s!"return n{sname};"
  (do
    if (sdata.isMessage && !w.assembly) then
      shift (-1)
      w.line "}"
      w.line "catch (err) {"
      shift 1
      w.line "let errMsg = \"[Unknown error]\";"
      w.line "if (err instanceof Error) {"
      shift 1
      w.line "errMsg = `${err.name} -- ${err.message}`;"
      shift (-1)
      w.line "}"
      w.line s!"throw new Error(`Could not read {sname} from offset $\{da.currentOffset} ($\{errMsg})`);"
      shift (-1)
      w.line "}")
  shift (-1)
  w.line "}"
  w.blank
  (do
    if sdata.isMessage then
      if !w.assembly then
        w.line "writeBytes(data: DataView|DataAccess, tag: boolean): void {"
        shift 1
        w.line "let da: DataAccess;"
        w.line "if (data instanceof DataView) {"
        shift 1
        w.line "da = new DataAccess(data);"
        shift (-1)
        w.line "}"
        w.line "else {"
        shift 1
        w.line "da = data;"
        shift (-1)
        w.line "}"
        w.line "if (tag) {"
        shift 1
        w.line s!"da.setByte(MessageType.{sname}Type);"
        shift (-1)
        w.line "}"
      else
        w.line "writeBytes(data: DataView, tag: boolean): bool {"
        shift 1
        w.line "const da = new DataAccess(data);"
        w.line "return this.writeBytesDA(da, tag);"
        shift (-1)
        w.line "}"
        w.blank
        w.line "writeBytesDA(da: DataAccess, tag: boolean): bool {"
        shift 1
        w.line "if (tag) {"
        shift 1
        w.line s!"da.setByte(MessageType.{sname}Type as u8);"
        w.line "if (da.hasError) { return false; }"
        shift (-1)
        w.line "}"
    else
      (do
        if !w.assembly then
          w.line "writeBytes(da: DataAccess): void {"
        else
          w.line "writeBytes(da: DataAccess): bool {")
      shift 1)
  each sdata.members fun mem => serializer w w.p.depth mem "this."
  (do
    if w.assembly then
      w.line "return true;")
  shift (-1)
  w.line "}"
  shift (-1)
  w.line "}"
  w.blank

/-- `generate` (typescript.py L380-518). -/
def generate (w : Writer) : Emit Unit := do
  w.line s!"// This file was automatically generated by {libName} v{libVersion}"
  w.line "// <https://github.com/sjml/beschi>"
  w.line "// Do not edit directly."
  w.blank
  (do
    if w.embed.isSome then
      w.line "/*"
      w.line "DATA PROTOCOL"
      w.line "-----------------"
      each (splitlines (w.embed.getD "")) fun l => w.line s!"{l}"
      w.line "-----------------"
      w.line "END DATA PROTOCOL"
      w.line "*/"
      w.blank
      w.blank)
  (do
    if w.useNamespace then
      w.line s!"namespace {← w.nsText} \{"
      shift 1)
  w.addBoilerplate [("{# STRING_SIZE_TYPE #}", .text (← w.codec w.p.stringSize.name)), ("{# NATIVE_STRING_SIZE_TYPE #}", .text (← w.type w.p.stringSize.name))] 0
  w.line "export enum MessageType {"
  shift 1
  each w.p.messages.zipIdx fun x => w.line s!"{x.1.name}Type = {(x.2 + 1)},"
  (do
    if w.assembly then
      w.line "_Unknown,")
  shift (-1)
  w.line "}"
  w.blank
  (do
    if !w.assembly then
      w.line "export function ProcessRawBytes(data: DataView|DataAccess, max: number): Message[] {"
      shift 1
      w.line "if (max === undefined) {"
      shift 1
      w.line "max = -1;"
      shift (-1)
      w.line "}"
      w.line "let da: DataAccess;"
      w.line "if (data instanceof DataView) {"
      shift 1
      w.line "da = new DataAccess(data);"
      shift (-1)
      w.line "}"
      w.line "else {"
      shift 1
      w.line "da = data;"
      shift (-1)
      w.line "}"
    else
      w.line "export function ProcessRawBytes(data: DataView, max: number): Message[] {"
      shift 1
      w.line "const da = new DataAccess(data);"
      w.line "return ProcessRawBytesDA(da, max);"
      shift (-1)
      w.line "}"
      w.blank
      w.line "export function ProcessRawBytesDA(da: DataAccess, max: number): Message[] {"
      shift 1)
  w.line "const msgList: Message[] = [];"
  w.line "if (max == 0) {"
  shift 1
  w.line "return msgList;"
  shift (-1)
  w.line "}"
  w.line "while (!da.isFinished() && (max < 0 || msgList.length < max)) {"
  shift 1
  w.line s!"const msgType: {← w.type "byte"} = da.getByte();"
  w.line "let newMsg: Message | null;"
  w.line s!"switch (msgType{(if w.assembly then " as i32" else "")}) \{"
  shift 1
  w.line "case 0:"
  shift 1
  w.line "return msgList;"
  shift (-1)
  each w.p.messages fun m => do
    w.line s!"case MessageType.{m.name}Type:"
    shift 1
    (do
      if w.assembly then
        w.line s!"newMsg = {m.name}.fromBytesDA(da);"
        w.line "if (newMsg == null) {"
        shift 1
        w.line "return msgList;"
        shift (-1)
        w.line "}"
      else
        w.line s!"newMsg = {m.name}.fromBytes(da);")
    w.line "msgList.push(newMsg);"
    w.line "break;"
    shift (-1)
  w.line "default:"
  shift 1
  (do
    if !w.assembly then
      w.line "throw new Error(`Unknown message type: ${msgType}`);"
    else
      w.line "return msgList;")
  shift (-1)
  shift (-1)
  w.line "}"
  shift (-1)
  w.line "}"
  w.line "return msgList;"
  shift (-1)
  w.line "}"
  w.blank
  each w.p.enums fun edata => do
    genEnum w edata.name edata
  each w.p.structs fun sdata => do
    genStruct w sdata.name sdata
  each w.p.messages fun mdata => do
    genStruct w mdata.name mdata
  (do
    if !w.assembly then
      w.line "export const MessageTypeMap = new Map<MessageType, { new(): Message }>(["
      shift 1
      each w.p.messages fun m => do
        w.line s!"[MessageType.{m.name}Type, {m.name}],"
      shift (-1)
      w.line "]);"
      w.blank)
  (do
    if w.useNamespace then
      shift (-1)
      w.line "}")
  w.blank
  assertBalanced

end Beschi.Text.TypeScript
