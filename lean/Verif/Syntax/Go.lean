import Verif.Syntax.Size
import Verif.Syntax.Initial
import Verif.Lang.Go
/-
How the generated functions are written in Go.

These are the lines that the reads, writes and size computations in Verif/Lang/Go.lean stand for.  They are
stated apart from the functions that write the text (Verif/Text/Go.lean, go.py L59-404).
-/
namespace Beschi.Syntax.Go
open Beschi.Spec Beschi.Lang

/-- A call whose error leaves the function; `failed` is what is returned before the error. -/
def check (failed call what : String) : List Row :=
  flush [s!"if err := {call}; err != nil \{"] ++
  inside 1 (flush [s!"return {failed}fmt.Errorf(\"could not read {what} at offset %d (%w)\", getDataOffset(data), err)"]) ++
  flush ["}"]

/-- The call that reads a value of a fixed size. -/
def readFixed (target : String) : String := s!"binary.Read(data, binary.LittleEndian, &{target})"

/-- The lines that read one value into `target`, which is in the member `x` of `obj`. -/
def readAtom (failed obj x target : String) : Lang.Go.GAtom → List Row
  | .text => check failed s!"readString(data, &{target})" "string"
  | .enum e =>
    flush [s!"var _{x} {e}"] ++ check failed (readFixed s!"_{x}") s!"{obj}.{x}" ++
    flush [s!"if !isValid{e}(_{x}) \{"] ++
    inside 1 (flush [s!"return {failed}fmt.Errorf(\"enum %d out of range for {e}\", _{x})"]) ++
    flush ["}", s!"{target} = _{x}"]
  | .native _ => check failed (readFixed target) target
  | .call s => flush [s!"{s}FromBytes(data, &{target})"]

/-- The type of a member. -/
def typeOf (t : String) : String :=
  match NumTy.ofName? t with
  | some n => Lang.Go.native n
  | none => t

/-- The loop over a list of the length `x_Len`. -/
def loop (p : Protocol) (x : String) : String :=
  s!"for i1 := ({Lang.Go.native p.listSize})(0); i1 < {x}_Len; i1++ \{"

/-- The lines that read a member. -/
def readMember (p : Protocol) (failed obj : String) (m : Variable) : List Row :=
  if m.isList then
    flush [s!"var {m.name}_Len {Lang.Go.native p.listSize}"] ++ check failed (readFixed s!"{m.name}_Len") s!"{m.name}_Len" ++
    flush [s!"{obj}.{m.name} = make([]{typeOf m.vartype}, {m.name}_Len)", loop p m.name] ++
    inside 1 (readAtom failed obj m.name s!"{obj}.{m.name}[i1]" (Lang.Go.atom p m.vartype)) ++
    flush ["}"]
  else readAtom failed obj m.name s!"{obj}.{m.name}" (Lang.Go.atom p m.vartype)

/-- A reading function. -/
def reader (p : Protocol) (st : Struct) : List Row :=
  if st.isMessage then
    flush [s!"func {st.name}FromBytes(data io.Reader) (*{st.name}, error) \{"] ++
    inside 1 (flush [s!"msg := &{st.name}\{}", ""] ++ st.members.flatMap (readMember p "nil, " "msg") ++
      flush ["", "return msg, nil"]) ++
    flush ["}"]
  else
    flush [s!"func {st.name}FromBytes(data io.Reader, input *{st.name}) error \{"] ++
    inside 1 (st.members.flatMap (readMember p "" "input") ++ flush ["return nil"]) ++
    flush ["}"]

/-- The call that writes a value of a fixed size. -/
def writeFixed (e : String) : String := s!"binary.Write(data, binary.LittleEndian, {e})"

/-- Is a struct written as a whole? -/
def whole (p : Protocol) (s : String) : Bool :=
  match p.struct? s with
  | some st => p.simpleStruct st
  | none => false

/-- The line that writes one value.  (The size of a number is that of its type.) -/
def writeAtom (p : Protocol) (e : String) : WAtom → String
  | .num _ => writeFixed s!"&{e}"
  | .text => s!"writeString(data, &{e})"
  | .call s => if whole p s then writeFixed s!"&{e}" else s!"{e}.WriteBytes(data)"

/-- The lines of one statement of a writing function. -/
def writeStmt (p : Protocol) : WStmt → List Row
  | .one x a => flush [writeAtom p s!"output.{x}" a]
  | .list x lenPrim a =>
    flush [s!"{x}_Len := ({lenPrim})(len(output.{x}))", writeFixed s!"{x}_Len", loop p x] ++
    inside 1 (flush [writeAtom p s!"output.{x}[i1]" a]) ++
    flush ["}"]

/-- A writing function. -/
def writer (p : Protocol) (st : Struct) : List Row :=
  (if st.isMessage then
      flush [s!"func (output {st.name}) WriteBytes(data io.Writer, tag bool) \{"] ++
      inside 1 (flush ["if tag {"] ++ inside 1 (flush [writeFixed s!"{st.name}Type"]) ++ flush ["}"])
    else flush [s!"func (output {st.name}) WriteBytes(data io.Writer) \{"]) ++
  inside 1 ((Lang.Go.writeBytes p st).body.flatMap (writeStmt p)) ++
  flush ["}"]

/-- The steps of a size computation. -/
def sizes : SizeSyntax where
  init := "size := 0"
  ret n := s!"return {n}"
  add n := s!"size += {n}"
  addCount a n := s!"size += len({a}) * {n}"
  addText a := s!"size += len({a})"
  addTextPlus k a := s!"size += {k} + len({a})"
  loop v _ a := [s!"for _, {v} := range {a} \{"]

/-- A size computation. -/
def size (st : String) (f : MFun) : List Row :=
  flush [s!"func (output {st}) GetSizeInBytes() int \{"] ++
  inside 1 (sizes.lines f.lines ++ if f.returns then flush ["return size"] else []) ++
  flush ["}"]

/-- What is said of a member in a composite literal: nothing if its default is the zero value. -/
def field (p : Protocol) (m : Variable) : List Row :=
  match Lang.Go.default p m with
  | .ok (.entry i) => flush [s!"{m.name}: {m.vartype}{entryName p m.vartype i},"]
  | .ok (.make s) => flush [s!"{m.name}: New{s}Default(),"]
  | _ => []

/-- The function that makes a default object. -/
def create (p : Protocol) (st : Struct) : List Row :=
  flush [s!"func New{st.name}Default() {st.name} \{"] ++
  inside 1 (if Lang.Go.hasEnums p (depth p) st then
      flush [s!"return {st.name}\{"] ++ inside 1 (st.members.flatMap (field p)) ++ flush ["}"]
    else flush [s!"return {st.name}\{}"]) ++
  flush ["}"]

/-- The declaration of a struct or message. -/
def declaration (st : Struct) : List Row :=
  flush [s!"type {st.name} struct \{"] ++
  inside 1 (flush (st.members.map fun m => s!"{m.name} {if m.isList then "[]" else ""}{typeOf m.vartype}")) ++
  flush ["}"]

/-- A struct or message with its functions. -/
def type (p : Protocol) (st : Struct) (sz : MFun) : List Row :=
  declaration st ++ flush [""] ++ create p st ++ flush [""] ++
  (if st.isMessage then
      flush [s!"func (output {st.name}) GetMessageType() MessageType \{"] ++
      inside 1 (flush [s!"return {st.name}Type"]) ++
      flush ["}", ""] ++ size st.name sz ++ flush [""]
    else []) ++
  reader p st ++ flush [""] ++ writer p st

/-- The length of the longest name of a value. -/
def width (e : Enum) : Nat := (e.values.map fun x => x.1.length).foldl max 0

/-- An enum and the check of its numbers. -/
def enum (e : Enum) : List Row :=
  flush [s!"type {e.name} {Lang.Go.native e.encoding}", "", "const ("] ++
  inside 1 (flush (e.values.map fun x =>
    s!"{e.name}{x.1}{repeated (width e - x.1.length) " "} {e.name} = {x.2}")) ++
  flush [")", "", s!"func isValid{e.name}(value {e.name}) bool \{"] ++
  inside 1 (
    flush ["switch value {", s!"case {", ".intercalate (e.values.map fun x => e.name ++ x.1)}:"] ++
    inside 1 (flush ["return true"]) ++ flush ["default:"] ++ inside 1 (flush ["return false"]) ++ flush ["}"]) ++
  flush ["}"]

/-- The numbers of the messages. -/
def messageTypes (arms : List (Nat × String)) : List Row :=
  flush ["type MessageType byte", "const ("] ++
  inside 1 (flush (arms.map fun x => s!"{x.2}Type MessageType = {x.1}")) ++
  flush [")"]

/-- The reading of tagged messages. -/
def process (arms : List (Nat × String)) : List Row :=
  flush ["func ProcessRawBytes(data io.Reader, max int) ([]Message, error) {"] ++
  inside 1 (
    flush ["var msgList []Message", "if max == 0 {"] ++ inside 1 (flush ["return msgList, nil"]) ++
    flush ["}", "var err error", "for (err != io.EOF) && (max < 0 || len(msgList) < max) {"] ++
    inside 1 (
      flush ["var msgType MessageType", "err = binary.Read(data, binary.LittleEndian, &msgType)", "if err == io.EOF {"] ++
      inside 1 (flush ["break"]) ++ flush ["}", "if msgType == 0 {"] ++ inside 1 (flush ["return msgList, nil"]) ++
      flush ["}", "switch msgType {"] ++
      (arms.flatMap fun x => flush [s!"case {x.2}Type:"] ++
        inside 1 (flush [s!"msg, err := {x.2}FromBytes(data)", "if err != nil {"] ++
          inside 1 (flush [s!"return nil, fmt.Errorf(\"err in {x.2} read (%w)\", err)"]) ++
          flush ["}", "msgList = append(msgList, msg)"])) ++
      flush ["default:"] ++ inside 1 (flush ["return nil, fmt.Errorf(\"unknown message type: %d\", msgType)"]) ++
      flush ["}"]) ++
    flush ["}", "return msgList, nil"]) ++
  flush ["}"]

end Beschi.Syntax.Go
