import Verif.Text.Writer
/-
The text written for Swift (beschi/writers/swift.py), function by function and line by line.
-/
namespace Beschi.Text.Swift

set_option linter.unusedVariables false

/-- What is added to `self.type_mapping` (swift.py L17-27). -/
def mapping : List (String × String) := [
  ("byte", "UInt8"), ("bool", "Bool"), ("uint16", "UInt16"), ("int16", "Int16"),
  ("uint32", "UInt32"), ("int32", "Int32"), ("uint64", "UInt64"), ("int64", "Int64"),
  ("float", "Float32"), ("double", "Float64"), ("string", "String")]

/-- `self.base_defaults` (swift.py L29-41). -/
def defaults : List (String × String) := [
  ("byte", "0"), ("bool", "false"), ("uint16", "0"), ("int16", "0"), ("uint32", "0"),
  ("int32", "0"), ("uint64", "0"), ("int64", "0"), ("float", "0.0"), ("double", "0.0"),
  ("string", "\"\"")]

/-- `SwiftWriter` after `__init__` (swift.py L12-41). -/
def writer (p : Protocol) (tab : Option String) (embed : Option String) (boilerplate : Nat → List String) : Writer :=
  { p, tab := tab.getD "    ", nativeTab := "    ", mapping, defaults, embed, boilerplate }

/-- `deserializer` (swift.py L43-75). -/
def deserializer (w : Writer) : Nat → Variable → String → Emit Unit
  | 0, _, _ => Emit.raise .recursion
  | fuel + 1, var, accessor => do
    if var.isList then
      w.line s!"let {var.name}_Length = try dataReader.Get{← w.listSize}()"
      w.line s!"{accessor}{var.name} = []"
      w.line s!"for _ in 0..<{var.name}_Length \{"
      shift 1
      (do
        if w.p.isEnum var.vartype then
          let e ← w.enum var.vartype
          w.line s!"let _{var.name}Read = try dataReader.Get{← w.type e.encoding.name}()"
          w.line s!"guard let _{var.name}_el = {var.vartype}(rawValue: _{var.name}Read) else \{"
          shift 1
          w.line "throw DataReaderError.InvalidData"
          shift (-1)
          w.line "}"
        else
          let inner := (⟨s!"let _{var.name}_el", var.vartype, false⟩ : Variable)
          deserializer w fuel inner "")
      w.line s!"{accessor}{var.name}.append(_{var.name}_el)"
      shift (-1)
      w.line "}"
    else if (Writer.isNum var.vartype || var.vartype == "string") then
      w.line s!"{accessor}{var.name} = try dataReader.Get{← w.type var.vartype}()"
    else if w.p.isEnum var.vartype then
      let e ← w.enum var.vartype
      w.line s!"let _{var.name}Read = try dataReader.Get{← w.type e.encoding.name}()"
      w.line s!"guard let _{var.name} = {var.vartype}(rawValue: _{var.name}Read) else \{"
      shift 1
      w.line "throw DataReaderError.InvalidData"
      shift (-1)
      w.line "}"
      w.line s!"{accessor}{var.name} = _{var.name}"
    else
      w.line s!"{accessor}{var.name} = try {var.vartype}.FromBytes(dataReader: dataReader)"

/-- `serializer` (swift.py L77-92). -/
def serializer (w : Writer) : Nat → Variable → String → Emit Unit
  | 0, _, _ => Emit.raise .recursion
  | fuel + 1, var, accessor => do
    if var.isList then
      w.line s!"dataWriter.Write({(lower (← w.listSize))}: {← w.listSize}({accessor}{var.name}.count))"
      w.line s!"for el in {accessor}{var.name} \{"
      shift 1
      let inner := (⟨"el", var.vartype, false⟩ : Variable)
      serializer w fuel inner ""
      shift (-1)
      w.line "}"
    else if (Writer.isNum var.vartype || var.vartype == "string") then
      w.line s!"dataWriter.Write({(lower (← w.type var.vartype))}: {accessor}{var.name})"
    else if w.p.isEnum var.vartype then
      let e ← w.enum var.vartype
      w.line s!"dataWriter.Write({(lower (← w.type e.encoding.name))}: {accessor}{var.name}.rawValue)"
    else
      w.line s!"{accessor}{var.name}.WriteBytes(dataWriter)"

/-- `gen_measurement` (swift.py L94-133). -/
def genMeasurement (w : Writer) : Nat → Struct → String → Emit (List String × Nat)
  | 0, _, _ => Emit.raise .recursion
  | fuel + 1, st, accessor => do
    let lines : List String := []
    let accum := 0
    let (lines, accum) ← (do
      if (← w.structSimple st) then
        let lines := lines ++ [s!"return {← w.sizeOf st.name};"]
        pure (lines, accum)
      else
        let sizeInit := "var size = 0"
        let lines := lines ++ [sizeInit]
        let (accum, lines) ← eachWith st.members (accum, lines) fun (accum, lines) var => do
          let (accum, lines) ← (do
            if var.isList then
              let accum := accum + w.p.listSize.size
              let lines ← (do
                if (← w.simple var true) then
                  let lines := lines ++ [s!"size += {accessor}{var.name}.count * {← w.sizeOf var.vartype}"]
                  pure lines
                else if var.vartype == "string" then
                  let lines := lines ++ [s!"for s in {accessor}{var.name} \{"]
                  let lines := lines ++ [s!"{w.tab}size += {w.p.stringSize.size} + s.data(using: String.Encoding.utf8)!.count"]
                  let lines := lines ++ ["}"]
                  pure lines
                else
                  let lines := lines ++ [s!"for {var.name}_el in {accessor}{var.name} \{"]
                  let (clines, caccum) ← genMeasurement w fuel (← w.struct var.vartype) (s!"{var.name}_el.")
                  let clines := if (← headLine clines) == sizeInit then clines.tail else clines
                  let clines := clines ++ [s!"size += {caccum}"]
                  let lines := lines ++ (clines.map fun l => s!"{w.tab}{l}")
                  let lines := lines ++ ["}"]
                  pure lines)
              pure (accum, lines)
            else if (← w.simple var false) then
              let accum := accum + (← w.sizeOf var.vartype)
              pure (accum, lines)
            else if var.vartype == "string" then
              let accum := accum + w.p.stringSize.size
              let lines := lines ++ [s!"size += {accessor}{var.name}.data(using: String.Encoding.utf8)!.count"]
              pure (accum, lines)
            else
              let (clines, caccum) ← genMeasurement w fuel (← w.struct var.vartype) (s!"{accessor}{var.name}.")
              let clines := if (← headLine clines) == sizeInit then clines.tail else clines
              let lines := lines ++ clines
              let accum := accum + caccum
              pure (accum, lines))
          pure (accum, lines)
        pure (lines, accum))
    pure (lines, accum)

/-- `gen_enum` (swift.py L135-142). -/
def genEnum (w : Writer) (ename : String) (edata : Enum) : Emit Unit := do
  w.line s!"public enum {ename}: {← w.type edata.encoding.name} \{"
  shift 1
  each edata.values fun x => do
    w.line s!"case {x.1} = {x.2}"
  shift (-1)
  w.line "}"
  w.blank

/-- `gen_struct` (swift.py L144-231). -/
def genStruct (w : Writer) (sname : String) (sdata : Struct) : Emit Unit := do
  (do
    if sdata.isMessage then
      w.line s!"public class {sname}: Message \{"
    else
      w.line s!"public struct {sname} \{")
  shift 1
  each sdata.members fun var => do
    if var.isList then
      w.line s!"public var {var.name}: [{← w.type var.vartype}] = []"
    else
      let defaultValue := (w.defaults.lookup var.vartype)
      let defaultValue ← (do
        if defaultValue.isNone then
          let defaultValue ← (do
            if w.p.isEnum var.vartype then
              let e ← w.enum var.vartype
              let defaultValue : Option String := some (s!"{var.vartype}.{(← Writer.defaultPair e).1}")
              pure defaultValue
            else
              let defaultValue : Option String := some (s!"{var.vartype}()")
              pure defaultValue)
          pure defaultValue
        else
          pure defaultValue)
      w.line s!"public var {var.name}: {← w.type var.vartype}{(if (defaultValue.getD "") != "" then s!" = {defaultValue.getD "None"}" else "")}"
  w.blank
  (do
    if sdata.isMessage then
      w.line "public required override init() {}"
    else
      w.line "public init() {}")
  w.blank
  (do
    if sdata.isMessage then
      w.line "public override func GetMessageType() -> MessageType {"
      shift 1
      w.line s!"return MessageType.{sname}Type"
      shift (-1)
      w.line "}"
      w.blank
      w.line "public override func GetSizeInBytes() -> UInt32 {"
      shift 1
      let (measureLines, accumulator) ← genMeasurement w w.p.depth sdata "self."
      each measureLines fun s => w.line s
      (do
        if decide (accumulator > 0) then
          w.line s!"size += {accumulator};")
      (do
        if decide (measureLines.length > 1) then
          w.line "return UInt32(size)")
      shift (-1)
      w.line "}"
      w.blank
      w.line "public override class func FromBytes(_ fromData: Data) throws -> Self {"
      shift 1
      w.line "let dr = DataReader(fromData: fromData)"
      w.line "return try FromBytes(dataReader: dr)"
      shift (-1)
      w.line "}"
      w.blank
      w.line "override class func FromBytes(dataReader: DataReader) throws -> Self {"
      shift 1
    else
      w.line "static func FromBytes(dataReader: DataReader) throws -> Self {"
      shift 1)
  let decl := "var"
  let decl ← (do
    if (sdata.members.length == 0 || sdata.isMessage) then
      let decl := "let"
      pure decl
    else
      pure decl)
  w.line s!"{decl} n{sname} = Self.init()"
  each sdata.members fun mem => deserializer w w.p.depth mem (s!"n{sname}.")
  w.line s!"return n{sname}"
  shift (-1)
  w.line "}"
  w.blank
  (do
    if sdata.isMessage then
      w.line "public override func WriteBytes(data: NSMutableData, tag: Bool) -> Void {"
      shift 1
      w.line "let dataWriter = DataWriter(withData: data)"
      w.line "if (tag) {"
      shift 1
      w.line s!"dataWriter.Write(uint8: MessageType.{sname}Type.rawValue)"
      shift (-1)
      w.line "}"
    else
      w.line "func WriteBytes(_ dataWriter: DataWriter) -> Void {"
      shift 1)
  each sdata.members fun mem => serializer w w.p.depth mem "self."
  shift (-1)
  w.line "}"
  shift (-1)
  w.line "}"
  w.blank

/-- `generate` (swift.py L233-345). -/
def generate (w : Writer) : Emit Unit := do
  w.line s!"// This file was automatically generated by {libName} v{libVersion}"
  w.line "// <https://github.com/sjml/beschi>"
  w.line "// Do not edit directly."
  w.blank
  w.line "import Foundation"
  w.blank
  (do
    if w.embed.isSome then
      w.line "/*"
      w.line "DATA PROTOCOL"
      w.line "-----------------"
      each (splitlines (w.embed.getD "")) fun l => w.line s!"{l}"
      w.line "-----------------"
      w.line "END DATA PROTOCOL"
      w.line "*/"
      w.blank
      w.blank)
  (do
    if w.nsGiven then
      w.line s!"public /* namespace */ enum {← w.nsText} \{"
      shift 1)
  w.addBoilerplate [("{# STRING_SIZE_TYPE #}", .text (← w.stringSize)), ("{# STRING_SIZE_TYPE_LOWER #}", .text (lower (← w.stringSize)))] 0
  w.line "public enum MessageType: UInt8 {"
  shift 1
  (do
    if w.p.messages.length == 0 then
      w.line "case __NullMessage = 0 /* to keep the compiler happy */")
  each w.p.messages.zipIdx fun x => w.line s!"case {x.1.name}Type = {(x.2 + 1)}"
  shift (-1)
  w.line "}"
  w.blank
  (do
    if w.nsGiven then
      w.line "public static func ProcessRawBytes(_ data: Data, max: Int) throws -> [Message] {"
      shift 1
      w.line "var msgList: [Message] = []"
    else
      w.line "public func ProcessRawBytes(_ data: Data, max: Int) throws -> [Message] {"
      shift 1
      w.line "var msgList: [Message] = []")
  w.line "if max == 0 {"
  shift 1
  w.line "return msgList"
  shift (-1)
  w.line "}"
  w.line "let dr = DataReader(fromData: data)"
  w.line "while !dr.IsFinished() && (max < 0 || msgList.count < max) {"
  shift 1
  let accessor := ""
  let accessor ← (do
    if w.nsGiven then
      let accessor := s!"{← w.nsText}."
      pure accessor
    else
      pure accessor)
  w.line "let msgTypeByte = try dr.GetUInt8()"
  w.line "if msgTypeByte == 0 {"
  shift 1
  w.line "return msgList"
  shift (-1)
  w.line "}"
  w.line s!"guard let msgType = {accessor}MessageType(rawValue: msgTypeByte)"
  w.line "else {"
  shift 1
  w.line "throw DataReaderError.InvalidData"
  shift (-1)
  w.line "}"
  w.line "switch msgType {"
  shift 1
  each w.p.messages fun m => do
    w.line s!"case {accessor}MessageType.{m.name}Type:"
    shift 1
    w.line s!"msgList.append(try {m.name}.FromBytes(dataReader: dr))"
    shift (-1)
  (do
    if w.p.messages.length == 0 then
      w.line s!"case {accessor}MessageType.__NullMessage:"
      shift 1
      w.line "break"
      shift (-1))
  shift (-1)
  w.line "}"
  shift (-1)
  w.line "}"
  w.line "return msgList"
  shift (-1)
  w.line "}"
  w.blank
  each w.p.enums fun edata => do
    genEnum w edata.name edata
  each w.p.structs fun sdata => do
    genStruct w sdata.name sdata
  each w.p.messages fun mdata => do
    genStruct w mdata.name mdata
  (do
    if w.nsGiven then
      shift (-1)
      w.line "}")
  w.blank
  let dotted ← if w.nsGiven then pure s!"{← w.nsText}." else pure ""
  w.addBoilerplate [("{# NAMESPACE_PREFIX_DOT #}", .text dotted)] 1
  w.blank
  assertBalanced

end Beschi.Text.Swift
