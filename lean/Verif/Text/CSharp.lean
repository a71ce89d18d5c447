import Verif.Text.Writer
/-
The text written for C# (beschi/writers/csharp.py), function by function and line by line.
-/
namespace Beschi.Text.CSharp

set_option linter.unusedVariables false

/-- What is added to `self.type_mapping` (csharp.py L17-26). -/
def mapping : List (String × String) := [
  ("byte", "byte"), ("bool", "bool"), ("uint16", "ushort"), ("int16", "short"),
  ("uint32", "uint"), ("int32", "int"), ("uint64", "ulong"), ("int64", "long"),
  ("float", "float"), ("double", "double")]

/-- `self.base_deserializers` (csharp.py L28-39). -/
def codecs : List (String × String) := [
  ("byte", "ReadByte"), ("bool", "ReadBoolean"), ("uint16", "ReadUInt16"),
  ("int16", "ReadInt16"), ("uint32", "ReadUInt32"), ("int32", "ReadInt32"),
  ("uint64", "ReadUInt64"), ("int64", "ReadInt64"), ("float", "ReadSingle"),
  ("double", "ReadDouble")]

/-- `CSharpWriter` after `__init__` (csharp.py L12-39). -/
def writer (p : Protocol) (tab : Option String) (embed : Option String) (boilerplate : Nat → List String) : Writer :=
  { p, tab := tab.getD "    ", nativeTab := "    ", mapping, codecs, embed, boilerplate }

/-- `deserializer` (csharp.py L41-83). -/
def deserializer (w : Writer) : Nat → Variable → String → Emit Unit
  | 0, _, _ => Emit.raise .recursion
  | fuel + 1, var, accessor => do
    let varClean := (replaceAll var.name [("[", "_"), ("]", "_"), (" ", "_")])
    if var.isList then
      w.line s!"{← w.listSize} {varClean}_Length = br.{← w.codec w.p.listSize.name}();"
      w.line s!"{accessor}{var.name} = new List<{← w.type var.vartype}>();"
      let idx ← level
      w.line s!"for (int i{idx} = 0; i{idx} < {varClean}_Length; i{idx}++)"
      w.line "{"
      shift 1
      (do
        if w.p.isEnum var.vartype then
          let e ← w.enum var.vartype
          w.line s!"{← w.type e.encoding.name} _{var.name} = br.{← w.codec e.encoding.name}();"
          w.line s!"if (!Enum.IsDefined(typeof({var.vartype}), _{var.name}))"
          w.line "{"
          shift 1
          w.line s!"throw new DataReadErrorException(String.Format(\"Enum \{0} out of range for {var.vartype}\", _{var.name}));"
          shift (-1)
          w.line "}"
          w.line s!"{accessor}{var.name}.Add(({var.vartype})_{var.name});"
        else
          let inner := (⟨s!"{← w.type var.vartype} _el", var.vartype, false⟩ : Variable)
          deserializer w fuel inner ""
          w.line s!"{accessor}{var.name}.Add(_el);")
      shift (-1)
      w.line "}"
    else if var.vartype == "string" then
      w.line s!"{← w.stringSize} {varClean}_Length = br.{← w.codec w.p.stringSize.name}();"
      w.line s!"byte[] {varClean}_Buffer = br.ReadBytes((int){varClean}_Length);"
      w.line s!"{accessor}{var.name} = System.Text.Encoding.UTF8.GetString({varClean}_Buffer);"
    else if w.p.isEnum var.vartype then
      let e ← w.enum var.vartype
      w.line s!"{← w.type e.encoding.name} _{var.name} = br.{← w.codec e.encoding.name}();"
      w.line s!"if (!Enum.IsDefined(typeof({var.vartype}), _{var.name}))"
      w.line "{"
      shift 1
      w.line s!"throw new DataReadErrorException(String.Format(\"Enum \{0} out of range for {var.vartype}\", _{var.name}));"
      shift (-1)
      w.line "}"
      w.line s!"{accessor}{var.name} = ({var.vartype})_{var.name};"
    else if (w.codecs.lookup var.vartype).isSome then
      w.line s!"{accessor}{var.name} = br.{← w.codec var.vartype}();"
    else
      w.line s!"{accessor}{var.name} = {var.vartype}.FromBytes(br);"

/-- `serializer` (csharp.py L85-105). -/
def serializer (w : Writer) : Nat → Variable → String → Emit Unit
  | 0, _, _ => Emit.raise .recursion
  | fuel + 1, var, accessor => do
    if var.isList then
      w.line s!"bw.Write(({← w.listSize}){accessor}{var.name}.Count);"
      w.line s!"foreach ({← w.type var.vartype} el in {accessor}{var.name})"
      w.line "{"
      shift 1
      let inner := (⟨"el", var.vartype, false⟩ : Variable)
      serializer w fuel inner ""
      shift (-1)
      w.line "}"
    else if var.vartype == "string" then
      w.line s!"byte[] {var.name}_Buffer = System.Text.Encoding.UTF8.GetBytes({accessor}{var.name});"
      w.line s!"bw.Write(({← w.stringSize}){var.name}_Buffer.Length);"
      w.line s!"bw.Write({var.name}_Buffer);"
    else if w.p.isEnum var.vartype then
      let e ← w.enum var.vartype
      w.line s!"bw.Write(({← w.type e.encoding.name}){accessor}{var.name});"
    else if Writer.isNum var.vartype then
      w.line s!"bw.Write({accessor}{var.name});"
    else
      w.line s!"{accessor}{var.name}.WriteBytes(bw);"

/-- `gen_measurement` (csharp.py L107-151). -/
def genMeasurement (w : Writer) : Nat → Struct → String → Emit (List String × Nat)
  | 0, _, _ => Emit.raise .recursion
  | fuel + 1, st, accessor => do
    let lines : List String := []
    let accum := 0
    let (lines, accum) ← (do
      if (← w.structSimple st) then
        let lines := lines ++ [s!"return {← w.sizeOf st.name};"]
        pure (lines, accum)
      else
        let sizeInit := "int size = 0;"
        let lines := lines ++ [sizeInit]
        let (accum, lines) ← eachWith st.members (accum, lines) fun (accum, lines) var => do
          let (accum, lines) ← (do
            if var.isList then
              let accum := accum + w.p.listSize.size
              let lines ← (do
                if (← w.simple var true) then
                  let lines := lines ++ [s!"size += {accessor}{var.name}.Count * {← w.sizeOf var.vartype};"]
                  pure lines
                else if var.vartype == "string" then
                  let lines := lines ++ [s!"foreach (string s in {accessor}{var.name})"]
                  let lines := lines ++ ["{"]
                  let lines := lines ++ [s!"{w.tab}size += {w.p.stringSize.size} + System.Text.Encoding.UTF8.GetBytes(s).Length;"]
                  let lines := lines ++ ["}"]
                  pure lines
                else
                  let idx ← level
                  let lines := lines ++ [s!"foreach ({← w.type var.vartype} el{idx} in {accessor}{var.name})"]
                  let lines := lines ++ ["{"]
                  shift 1
                  let (clines, caccum) ← genMeasurement w fuel (← w.struct var.vartype) (s!"el{idx}.")
                  let clines := if (← headLine clines) == sizeInit then clines.tail else clines
                  let clines := clines ++ [s!"size += {caccum};"]
                  let lines := lines ++ (clines.map fun l => s!"{w.tab}{l}")
                  shift (-1)
                  let lines := lines ++ ["}"]
                  pure lines)
              pure (accum, lines)
            else if (← w.simple var false) then
              let accum := accum + (← w.sizeOf var.vartype)
              pure (accum, lines)
            else if var.vartype == "string" then
              let accum := accum + w.p.stringSize.size
              let lines := lines ++ [s!"size += {accessor}{var.name}.Length;"]
              pure (accum, lines)
            else
              let (clines, caccum) ← genMeasurement w fuel (← w.struct var.vartype) (s!"{accessor}{var.name}.")
              let clines := if (← headLine clines) == sizeInit then clines.tail else clines
              let lines := lines ++ clines
              let accum := accum + caccum
              pure (accum, lines))
          pure (accum, lines)
        pure (lines, accum))
    pure (lines, accum)

/-- `gen_enum` (csharp.py L153-161). -/
def genEnum (w : Writer) (ename : String) (edata : Enum) : Emit Unit := do
  w.line s!"public enum {ename} : {← w.type edata.encoding.name}"
  w.line "{"
  shift 1
  each edata.values fun x => do
    w.line s!"{x.1} = {x.2},"
  shift (-1)
  w.line "}"
  w.blank

/-- `gen_struct` (csharp.py L163-246). -/
def genStruct (w : Writer) (sname : String) (sdata : Struct) : Emit Unit := do
  (do
    if sdata.isMessage then
      w.line s!"public class {sname} : Message"
    else
      w.line s!"public class {sname}")
  w.line "{"
  shift 1
  each sdata.members fun var => do
    if var.isList then
      w.line s!"public List<{← w.type var.vartype}> {var.name} = new List<{← w.type var.vartype}>();"
    else
      let default : Option String := none
      let default ← (do
        if var.vartype == "string" then
          let default : Option String := some "\"\""
          pure default
        else if w.p.isEnum var.vartype then
          let e ← w.enum var.vartype
          let default : Option String := some (s!"{var.vartype}.{(← Writer.defaultPair e).1}")
          pure default
        else if w.p.isStruct var.vartype then
          let default : Option String := some (s!"new {var.vartype}()")
          pure default
        else
          pure default)
      w.line s!"public {← w.type var.vartype} {var.name}{(if (default.getD "") != "" then s!" = {default.getD "None"}" else "")};"
  (do
    if sdata.isMessage then
      w.blank
      w.line s!"public override MessageType GetMessageType() \{ return MessageType.{sname}Type; }"
      w.blank
      w.line "public override int GetSizeInBytes()"
      w.line "{"
      shift 1
      let (measureLines, accumulator) ← genMeasurement w w.p.depth sdata "this."
      each measureLines fun s => w.line s
      (do
        if decide (accumulator > 0) then
          w.line s!"size += {accumulator};")
      (do
        if decide (measureLines.length > 1) then
          w.line "return size;")
      shift (-1)
      w.line "}")
  w.blank
  w.line s!"public static {sname} FromBytes(BinaryReader br)"
  w.line "{"
  shift 1
  (do
    if sdata.isMessage then
      w.line "try"
      w.line "{"
      shift 1)
  w.line s!"{sname} _n{sname} = new {sname}();"
  each sdata.members fun mem => deserializer w w.p.depth mem (s!"_n{sname}.")
  w.line s!"return _n{sname};"
  (do
    if sdata.isMessage then
      shift (-1)
      w.line "}"
      w.line "catch (System.IO.EndOfStreamException)"
      w.line "{"
      shift 1
      w.line s!"throw new DataReadErrorException(String.Format(\"Could not read {sname} from offset \{0}\", br.BaseStream.Position));"
      shift (-1)
      w.line "}")
  shift (-1)
  w.line "}"
  w.blank
  (do
    if sdata.isMessage then
      w.line "public override void WriteBytes(BinaryWriter bw, bool tag)"
      w.line "{"
      shift 1
      w.line "if (tag)"
      w.line "{"
      shift 1
      w.line s!"bw.Write((byte)MessageType.{sname}Type);"
      shift (-1)
      w.line "}"
    else
      w.line "public void WriteBytes(BinaryWriter bw)"
      w.line "{"
      shift 1)
  each sdata.members fun mem => serializer w w.p.depth mem "this."
  shift (-1)
  w.line "}"
  w.blank
  shift (-1)
  w.line "}"
  w.blank

/-- `generate` (csharp.py L248-308). -/
def generate (w : Writer) : Emit Unit := do
  w.line s!"// This file was automatically generated by {libName} v{libVersion}"
  w.line "// <https://github.com/sjml/beschi>"
  w.line "// Do not edit directly."
  w.blank
  (do
    if w.embed.isSome then
      w.line "/*"
      w.line "DATA PROTOCOL"
      w.line "-----------------"
      each (splitlines (w.embed.getD "")) fun l => w.line s!"{l}"
      w.line "-----------------"
      w.line "END DATA PROTOCOL"
      w.line "*/"
      w.blank
      w.blank)
  w.addBoilerplate [] 0
  (do
    if w.nsTrue then
      w.line s!"namespace {← w.nsText}"
      w.line "{"
      shift 1)
  let msgTypesSub : List String := []
  let msgTypesSub ← eachWith w.p.messages msgTypesSub fun msgTypesSub m => do
    let msgTypesSub := msgTypesSub ++ [s!"                case (byte)MessageType.{m.name}Type:"]
    let msgTypesSub := msgTypesSub ++ [s!"                    msgList.Add({m.name}.FromBytes(br));"]
    let msgTypesSub := msgTypesSub ++ ["                    break;"]
    pure msgTypesSub
  w.addBoilerplate [("{# MESSAGE_TYPE_CASES #}", .lines msgTypesSub)] 1
  w.line "public enum MessageType"
  w.line "{"
  shift 1
  each w.p.messages.zipIdx fun x => w.line s!"{x.1.name}Type = {(x.2 + 1)},"
  shift (-1)
  w.line "}"
  w.blank
  each w.p.enums fun edata => do
    genEnum w edata.name edata
  each w.p.structs fun sdata => do
    genStruct w sdata.name sdata
  each w.p.messages fun mdata => do
    genStruct w mdata.name mdata
  (do
    if w.nsTrue then
      shift (-1)
      w.line "}")
  w.blank
  assertBalanced

end Beschi.Text.CSharp
