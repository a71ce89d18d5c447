import Verif.Text.Writer
/-
The text written for Go (beschi/writers/go.py), function by function and line by line.
-/
namespace Beschi.Text.Go

set_option linter.unusedVariables false

/-- What is added to `self.type_mapping` (go.py L38-47). -/
def mapping : List (String × String) := [
  ("byte", "byte"), ("bool", "bool"), ("uint16", "uint16"), ("int16", "int16"),
  ("uint32", "uint32"), ("int32", "int32"), ("uint64", "uint64"), ("int64", "int64"),
  ("float", "float32"), ("double", "float64")]

/-- `GoWriter` after `__init__` (go.py L19-47); the members have been renamed already, see
Verif/Lang/Rename.lean. -/
def writer (p : Protocol) (rename : Bool) (tab : Option String) (embed : Option String)
    (boilerplate : Nat → List String) : Writer :=
  { p, tab := tab.getD "\t", nativeTab := "\t", mapping, embed, rename, boilerplate }

/-- Is there a member of which `f` is true?  The loop ends at the first one. -/
def anyMember : List Variable → (Variable → Except Exn Bool) → Except Exn Bool
  | [], _ => .ok false
  | v :: vs, f => do if (← f v) then pure true else anyMember vs f

/-- `struct_has_enums` (go.py L49-57). -/
def structHasEnums (w : Writer) : Nat → Struct → Except Exn Bool
  | 0, _ => .error .recursion
  | fuel + 1, s => anyMember s.members fun var => do
    if w.p.isEnum var.vartype then
      pure true
    else if w.p.isStruct var.vartype then
      let st ← w.struct var.vartype
      structHasEnums w fuel st
    else
      pure false

/-- `max(len(e) for e in edata.values.keys())` (go.py L175). -/
def longest (edata : Enum) : Except Exn Nat :=
  match edata.values with
  | [] => .error .value
  | x :: xs => .ok (xs.foldl (fun n y => max n y.1.length) x.1.length)

/-- `f"{v:<{n}}"` (go.py L181). -/
def padRight (n : Nat) (v : String) : String := v ++ times (n - v.length : Nat) " "

/-- `deserializer` (go.py L59-115). -/
def deserializer (w : Writer) : Nat → Variable → String → Bool → Bool → Emit Unit
  | 0, _, _, _, _ => Emit.raise .recursion
  | fuel + 1, var, accessor, byRef, declareErr => do
    if var.isList then
      w.line s!"var {var.name}_Len {← w.listSize}"
      w.line s!"if err {(if declareErr then ":" else "")}= binary.Read(data, binary.LittleEndian, &{var.name}_Len); err != nil \{"
      shift 1
      w.line s!"return {(if byRef then "" else "nil, ")}fmt.Errorf(\"could not read {var.name}_Len at offset %d (%w)\", getDataOffset(data), err)"
      shift (-1)
      w.line "}"
      w.line s!"{accessor}.{var.name} = make([]{← w.type var.vartype}, {var.name}_Len)"
      let idx ← level
      w.line s!"for i{idx} := ({← w.listSize})(0); i{idx} < {var.name}_Len; i{idx}++ \{"
      shift 1
      (do
        if w.p.isEnum var.vartype then
          w.line s!"var _{var.name} {var.vartype}"
          w.line s!"if err {(if declareErr then ":" else "")}= binary.Read(data, binary.LittleEndian, &_{var.name}); err != nil \{"
          shift 1
          w.line s!"return {(if byRef then "" else "nil, ")}fmt.Errorf(\"could not read {accessor}.{var.name} at offset %d (%w)\", getDataOffset(data), err)"
          shift (-1)
          w.line "}"
          w.line s!"if !isValid{var.vartype}(_{var.name}) \{"
          shift 1
          w.line s!"return {(if byRef then "" else "nil, ")}fmt.Errorf(\"enum %d out of range for {var.vartype}\", _{var.name})"
          shift (-1)
          w.line "}"
          w.line s!"{accessor}.{var.name}[i{idx}] = _{var.name}"
        else
          let inner := (⟨s!"{var.name}[i{idx}]", var.vartype, false⟩ : Variable)
          deserializer w fuel inner accessor byRef declareErr)
      shift (-1)
      w.line "}"
    else if var.vartype == "string" then
      w.line s!"if err {(if declareErr then ":" else "")}= readString(data, &{accessor}.{var.name}); err != nil \{"
      shift 1
      w.line s!"return {(if byRef then "" else "nil, ")}fmt.Errorf(\"could not read string at offset %d (%w)\", getDataOffset(data), err)"
      shift (-1)
      w.line "}"
    else if w.p.isEnum var.vartype then
      w.line s!"var _{var.name} {var.vartype}"
      w.line s!"if err {(if declareErr then ":" else "")}= binary.Read(data, binary.LittleEndian, &_{var.name}); err != nil \{"
      shift 1
      w.line s!"return {(if byRef then "" else "nil, ")}fmt.Errorf(\"could not read {accessor}.{var.name} at offset %d (%w)\", getDataOffset(data), err)"
      shift (-1)
      w.line "}"
      w.line s!"if !isValid{var.vartype}(_{var.name}) \{"
      shift 1
      w.line s!"return {(if byRef then "" else "nil, ")}fmt.Errorf(\"enum %d out of range for {var.vartype}\", _{var.name})"
      shift (-1)
      w.line "}"
      w.line s!"{accessor}.{var.name} = _{var.name}"
    else if (← w.simple var false) then
      w.line s!"if err {(if declareErr then ":" else "")}= binary.Read(data, binary.LittleEndian, &{accessor}.{var.name}); err != nil \{"
      shift 1
      w.line s!"return {(if byRef then "" else "nil, ")}fmt.Errorf(\"could not read {accessor}.{var.name} at offset %d (%w)\", getDataOffset(data), err)"
      shift (-1)
      w.line "}"
    else
      w.line s!"{var.vartype}FromBytes(data, &{accessor}.{var.name})"

/-- `serializer` (go.py L117-136). -/
def serializer (w : Writer) : Nat → Variable → String → Emit Unit
  | 0, _, _ => Emit.raise .recursion
  | fuel + 1, var, accessor => do
    if var.isList then
      w.line s!"{var.name}_Len := ({← w.listSize})(len({accessor}.{var.name}))"
      w.line s!"binary.Write(data, binary.LittleEndian, {var.name}_Len)"
      let idx ← level
      w.line s!"for i{idx} := ({← w.listSize})(0); i{idx} < {var.name}_Len; i{idx}++ \{"
      shift 1
      let inner := (⟨s!"{var.name}[i{idx}]", var.vartype, false⟩ : Variable)
      serializer w fuel inner accessor
      shift (-1)
      w.line "}"
    else if var.vartype == "string" then
      w.line s!"writeString(data, &{accessor}.{var.name})"
    else if w.p.isEnum var.vartype then
      let e ← w.enum var.vartype
      w.line s!"binary.Write(data, binary.LittleEndian, &{accessor}.{var.name})"
    else if (← w.simple var false) then
      w.line s!"binary.Write(data, binary.LittleEndian, &{accessor}.{var.name})"
    else
      w.line s!"{accessor}.{var.name}.WriteBytes(data)"

/-- `gen_measurement` (go.py L138-177). -/
def genMeasurement (w : Writer) : Nat → Struct → String → Emit (List String × Nat)
  | 0, _, _ => Emit.raise .recursion
  | fuel + 1, st, accessor => do
    let lines : List String := []
    let accum := 0
    let (lines, accum) ← (do
      if (← w.structSimple st) then
        let lines := lines ++ [s!"return {← w.sizeOf st.name}"]
        pure (lines, accum)
      else
        let sizeInit := "size := 0"
        let lines := lines ++ [sizeInit]
        let (accum, lines) ← eachWith st.members (accum, lines) fun (accum, lines) var => do
          let (accum, lines) ← (do
            if var.isList then
              let accum := accum + w.p.listSize.size
              let lines ← (do
                if (← w.simple var true) then
                  let lines := lines ++ [s!"size += len({accessor}{var.name}) * {← w.sizeOf var.vartype}"]
                  pure lines
                else if var.vartype == "string" then
                  let lines := lines ++ [s!"for _, s := range {accessor}{var.name} \{"]
                  let lines := lines ++ [s!"{w.tab}size += {w.p.stringSize.size} + len(s)"]
                  let lines := lines ++ ["}"]
                  pure lines
                else
                  let lines := lines ++ [s!"for _, el := range {accessor}{var.name} \{"]
                  let (clines, caccum) ← genMeasurement w fuel (← w.struct var.vartype) "el."
                  let clines := if (← headLine clines) == sizeInit then clines.tail else clines
                  let clines := clines ++ [s!"size += {caccum}"]
                  let lines := lines ++ (clines.map fun l => s!"{w.tab}{l}")
                  let lines := lines ++ ["}"]
                  pure lines)
              pure (accum, lines)
            else if (← w.simple var false) then
              let accum := accum + (← w.sizeOf var.vartype)
              pure (accum, lines)
            else if var.vartype == "string" then
              let accum := accum + w.p.stringSize.size
              let lines := lines ++ [s!"size += len({accessor}{var.name})"]
              pure (accum, lines)
            else
              let (clines, caccum) ← genMeasurement w fuel (← w.struct var.vartype) (s!"{accessor}{var.name}.")
              let clines := if (← headLine clines) == sizeInit then clines.tail else clines
              let lines := lines ++ clines
              let accum := accum + caccum
              pure (accum, lines))
          pure (accum, lines)
        pure (lines, accum))
    pure (lines, accum)

/-- `gen_enum` (go.py L179-204). -/
def genEnum (w : Writer) (ename : String) (edata : Enum) : Emit Unit := do
  let longestEntry ← longest edata
  w.line s!"type {ename} {← w.type edata.encoding.name}"
  w.blank
  w.line "const ("
  shift 1
  each edata.values fun x => do
    w.line s!"{ename}{padRight longestEntry x.1} {ename} = {x.2}"
  shift (-1)
  w.line ")"
  w.blank
  w.line s!"func isValid{ename}(value {ename}) bool \{"
  shift 1
  w.line "switch value {"
  w.line s!"case {(", ".intercalate (edata.values.map fun x => s!"{ename}{x.1}"))}:"
  shift 1
  w.line "return true"
  shift (-1)
  w.line "default:"
  shift 1
  w.line "return false"
  shift (-1)
  w.line "}"
  shift (-1)
  w.line "}"
  w.blank

/-- `gen_struct` (go.py L206-297). -/
def genStruct (w : Writer) (sname : String) (sdata : Struct) : Emit Unit := do
  w.line s!"type {sname} struct \{"
  shift 1
  each sdata.members fun var => do
    if var.isList then
      w.line s!"{var.name} []{← w.type var.vartype}"
    else
      w.line s!"{var.name} {← w.type var.vartype}"
  shift (-1)
  w.line "}"
  w.blank
  w.line s!"func New{sname}Default() {sname} \{"
  shift 1
  (do
    if !(← structHasEnums w w.p.depth sdata) then
      w.line s!"return {sname}\{}"
    else
      w.line s!"return {sname}\{"
      shift 1
      each sdata.members fun var => do
        if (w.p.isEnum var.vartype && !var.isList) then
          let e ← w.enum var.vartype
          w.line s!"{var.name}: {var.vartype}{(← Writer.defaultPair e).1},"
        else if (w.p.isStruct var.vartype && !var.isList) then
          let s ← w.struct var.vartype
          if (← structHasEnums w w.p.depth s) then
            w.line s!"{var.name}: New{var.vartype}Default(),"
      shift (-1)
      w.line "}")
  shift (-1)
  w.line "}"
  w.blank
  (do
    if sdata.isMessage then
      w.line s!"func (output {sname}) GetMessageType() MessageType \{"
      shift 1
      w.line s!"return {sname}Type"
      shift (-1)
      w.line "}"
      w.blank
      w.line s!"func (output {sname}) GetSizeInBytes() int \{"
      shift 1
      let (measureLines, accumulator) ← genMeasurement w w.p.depth sdata "output."
      each measureLines fun s => w.line s
      (do
        if decide (accumulator > 0) then
          w.line s!"size += {accumulator}")
      (do
        if decide (measureLines.length > 1) then
          w.line "return size")
      shift (-1)
      w.line "}"
      w.blank
      w.line s!"func {sdata.name}FromBytes(data io.Reader) (*{sname}, error) \{"
      shift 1
      w.line s!"msg := &{sdata.name}\{}"
      w.blank
      let first := true
      let first ← eachWith sdata.members first fun first mem => do
        let first ← (do
          if first then
            let first := false
            deserializer w w.p.depth mem "msg" false true
            pure first
          else
            deserializer w w.p.depth mem "msg" false true
            pure first)
        pure first
      w.blank
      w.line "return msg, nil"
    else
      w.line s!"func {sname}FromBytes(data io.Reader, input *{sname}) error \{"
      shift 1
      each sdata.members fun mem => deserializer w w.p.depth mem "input" true true
      w.line "return nil")
  shift (-1)
  w.line "}"
  w.blank
  (do
    if sdata.isMessage then
      w.line s!"func (output {sname}) WriteBytes(data io.Writer, tag bool) \{"
      shift 1
      w.line "if tag {"
      shift 1
      w.line s!"binary.Write(data, binary.LittleEndian, {sname}Type)"
      shift (-1)
      w.line "}"
    else
      w.line s!"func (output {sname}) WriteBytes(data io.Writer) \{"
      shift 1)
  each sdata.members fun mem => serializer w w.p.depth mem "output"
  shift (-1)
  w.line "}"
  w.blank

/-- `generate` (go.py L299-404). -/
def generate (w : Writer) : Emit Unit := do
  w.line s!"// This file was automatically generated by {libName} v{libVersion}"
  w.line "// <https://github.com/sjml/beschi>"
  w.line "// Do not edit directly."
  w.blank
  (do
    if w.embed.isSome then
      w.line "/*"
      w.line "DATA PROTOCOL"
      w.line "-----------------"
      each (splitlines (w.embed.getD "")) fun l => w.line s!"{l}"
      w.line "-----------------"
      w.line "END DATA PROTOCOL"
      w.line "*/"
      w.blank
      w.blank)
  let subs : List (String × Sub) := [("{# STRING_SIZE_TYPE #}", .text (← w.stringSize))]
  let subs ← (do
    if w.nsTrue then
      let subs := subs ++ [("Beschi", Sub.text (← w.nsText))]
      let subs ← (do
        if w.rename then
          let subs := subs ++ [("beschi", Sub.text (Lang.snake (← w.nsText)))]
          pure subs
        else
          pure subs)
      pure subs
    else
      pure subs)
  w.addBoilerplate subs 0
  w.blank
  w.line "type MessageType byte"
  w.line "const ("
  shift 1
  each w.p.messages.zipIdx fun x => w.line s!"{x.1.name}Type MessageType = {(x.2 + 1)}"
  shift (-1)
  w.line ")"
  w.blank
  w.line "type Message interface {"
  shift 1
  w.line "GetMessageType() MessageType"
  w.line "WriteBytes(data io.Writer, tag bool)"
  w.line "GetSizeInBytes() int"
  shift (-1)
  w.line "}"
  w.blank
  w.line "func ProcessRawBytes(data io.Reader, max int) ([]Message, error) {"
  shift 1
  w.line "var msgList []Message"
  w.line "if max == 0 {"
  shift 1
  w.line "return msgList, nil"
  shift (-1)
  w.line "}"
  w.line "var err error"
  w.line "for (err != io.EOF) && (max < 0 || len(msgList) < max) {"
  shift 1
  w.line "var msgType MessageType"
  w.line "err = binary.Read(data, binary.LittleEndian, &msgType)"
  w.line "if err == io.EOF {"
  shift 1
  w.line "break"
  shift (-1)
  w.line "}"
  w.line "if msgType == 0 {"
  shift 1
  w.line "return msgList, nil"
  shift (-1)
  w.line "}"
  w.line "switch msgType {"
  each w.p.messages fun m => do
    w.line s!"case {m.name}Type:"
    shift 1
    w.line s!"msg, err := {m.name}FromBytes(data)"
    w.line "if err != nil {"
    shift 1
    w.line s!"return nil, fmt.Errorf(\"err in {m.name} read (%w)\", err)"
    shift (-1)
    w.line "}"
    w.line "msgList = append(msgList, msg)"
    shift (-1)
  w.line "default:"
  shift 1
  w.line "return nil, fmt.Errorf(\"unknown message type: %d\", msgType)"
  shift (-1)
  w.line "}"
  shift (-1)
  w.line "}"
  w.line "return msgList, nil"
  shift (-1)
  w.line "}"
  w.blank
  each w.p.enums fun edata => do
    genEnum w edata.name edata
  each w.p.structs fun sdata => do
    genStruct w sdata.name sdata
  each w.p.messages fun mdata => do
    genStruct w mdata.name mdata
  w.blank
  assertBalanced

end Beschi.Text.Go
