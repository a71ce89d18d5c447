import Verif.Syntax.Size
import Verif.Syntax.Initial
import Verif.Lang.Swift
/-
How the statements of the generated functions are written in Swift.

These are the lines that the statements in Verif/Lang/Swift.lean stand for.  They are stated apart from the
functions that write the text (Verif/Text/Swift.lean, swift.py L43-231).
-/
namespace Beschi.Syntax.Swift
open Beschi.Spec Beschi.Lang

/-- The name of a variable or member. -/
def name : Loc → String
  | .var x => x
  | .mem x => x

/-- The lines that read a number of the enum `e` into a constant called `raw`, and then into a constant `x`. -/
def readEnum (prim e raw x : String) : List Row :=
  flush [s!"let {raw} = try dataReader.{prim}()", s!"guard let {x} = {e}(rawValue: {raw}) else \{"] ++
  inside 1 (flush ["throw DataReaderError.InvalidData"]) ++
  flush ["}"]

/-- The lines that read a value of the member `x`: into `target`, or if it is of an enum type into the
constant `value`. -/
def readAtom (x target value : String) : RAtom → List Row
  | .num prim => flush [s!"{target} = try dataReader.{prim}()"]
  | .text => flush [s!"{target} = try dataReader.GetString()"]
  | .enum prim e => readEnum prim e s!"_{x}Read" value
  | .call s | .whole s => flush [s!"{target} = try {s}.FromBytes(dataReader: dataReader)"]

/-- Does it read an enum? -/
def isEnum : RAtom → Bool
  | .enum _ _ => true
  | _ => false

/-- The lines of one statement of a reading function; `obj` is the new object. -/
def readStmt (obj : String) : RStmt → List Row
  | .one x a => readAtom (name x) s!"{obj}.{name x}" s!"_{name x}" a ++
      if isEnum a then flush [s!"{obj}.{name x} = _{name x}"] else []
  | .list x len lenPrim a =>
    flush [s!"let {name len} = try dataReader.{lenPrim}()", s!"{obj}.{name x} = []",
      s!"for _ in 0..<{name len} \{"] ++
    inside 1 (readAtom (name x) s!"let _{name x}_el" s!"_{name x}_el" a ++
      flush [s!"{obj}.{name x}.append(_{name x}_el)"]) ++
    flush ["}"]

/-- A reading function. -/
def reader (isMessage : Bool) (st : String) (f : RFun) : List Row :=
  flush [if isMessage then "override class func FromBytes(dataReader: DataReader) throws -> Self {"
    else "static func FromBytes(dataReader: DataReader) throws -> Self {"] ++
  inside 1 (flush [s!"{if f.body = [] ∨ isMessage then "let" else "var"} n{st} = Self.init()"] ++
    f.body.flatMap (readStmt s!"n{st}") ++ flush [s!"return n{st}"]) ++
  flush ["}"]

/-- The number type that is written. -/
def written (prim : String) : String :=
  match Lang.Swift.writable prim with
  | some n => Lang.Swift.native n
  | none => ""

/-- The lines that write the value of the expression `e`. -/
def writeAtom (isEnum : Bool) (e : String) : WAtom → List Row
  | .num prim => flush [s!"dataWriter.Write({prim}: {e}{if isEnum then ".rawValue" else ""})"]
  | .text => flush [s!"dataWriter.Write(string: {e})"]
  | .call _ => flush [s!"{e}.WriteBytes(dataWriter)"]

/-- The lines of one statement of a writing function. -/
def writeStmt (isEnum : Bool) : WStmt → List Row
  | .one x a => writeAtom isEnum s!"self.{x}" a
  | .list x lenPrim a =>
    flush [s!"dataWriter.Write({lenPrim}: {written lenPrim}(self.{x}.count))", s!"for el in self.{x} \{"] ++
    inside 1 (writeAtom isEnum "el" a) ++
    flush ["}"]

/-- A writing function.  Which members are of an enum type is in `enums`. -/
def writer (isMessage : Bool) (st : String) (enums : List Bool) (f : WFun) : List Row :=
  (if isMessage then
      flush ["public override func WriteBytes(data: NSMutableData, tag: Bool) -> Void {"] ++
      inside 1 (flush ["let dataWriter = DataWriter(withData: data)", "if (tag) {"] ++
        inside 1 (flush [s!"dataWriter.Write(uint8: MessageType.{st}Type.rawValue)"]) ++ flush ["}"])
    else flush ["func WriteBytes(_ dataWriter: DataWriter) -> Void {"]) ++
  inside 1 ((enums.zip f.body).flatMap fun x => writeStmt x.1 x.2) ++
  flush ["}"]

/-- The steps of a size computation. -/
def sizes : SizeSyntax where
  init := "var size = 0"
  ret n := s!"return {n};"
  add n := s!"size += {n}"
  addCount a n := s!"size += {a}.count * {n}"
  addText a := s!"size += {a}.data(using: String.Encoding.utf8)!.count"
  addTextPlus k a := s!"size += {k} + {a}.data(using: String.Encoding.utf8)!.count"
  loop v _ a := [s!"for {v} in {a} \{"]

/-- A step of a size computation that is not in a loop: a number is added with a semicolon. -/
def sizeLine : MLine → List Row
  | .add n => flush [s!"size += {n};"]
  | l => sizes.line l

/-- A size computation. -/
def size (f : MFun) : List Row :=
  flush ["public override func GetSizeInBytes() -> UInt32 {"] ++
  inside 1 (f.lines.flatMap sizeLine ++ if f.returns then flush ["return UInt32(size)"] else []) ++
  flush ["}"]

/-- The type of one value. -/
def typeOf : RAtom → String
  | .num prim => match Lang.Swift.readable prim with
    | some n => Lang.Swift.native n
    | none => ""
  | .text => "String"
  | .enum _ e => e
  | .call s | .whole s => s

/-- Default values. -/
def initial : InitialSyntax where
  zero := "0.0"
  list _ := "[]"
  entry t x := s!"{t}.{x}"
  make s := s!"{s}()"

/-- The line for one member. -/
def member (p : Protocol) (m : Variable) : String :=
  let t := typeOf (Lang.Swift.atom p m.vartype)
  match Lang.Swift.default p m with
  | .ok d => s!"public var {m.name}: {if m.isList then s!"[{t}]" else t} = {initial.expr p m.vartype t d}"
  | .error _ => ""

/-- A struct or message. -/
def type (p : Protocol) (st : Struct) (sz : MFun) : List Row :=
  flush [if st.isMessage then s!"public class {st.name}: Message \{" else s!"public struct {st.name} \{"] ++
  inside 1 (
    flush (st.members.map (member p)) ++
    flush ["", if st.isMessage then "public required override init() {}" else "public init() {}", ""] ++
    (if st.isMessage then
        flush ["public override func GetMessageType() -> MessageType {"] ++
        inside 1 (flush [s!"return MessageType.{st.name}Type"]) ++
        flush ["}", ""] ++
        size sz ++
        flush ["", "public override class func FromBytes(_ fromData: Data) throws -> Self {"] ++
        inside 1 (flush ["let dr = DataReader(fromData: fromData)", "return try FromBytes(dataReader: dr)"]) ++
        flush ["}", ""]
      else []) ++
    reader st.isMessage st.name (Lang.Swift.fromBytes p st) ++ flush [""] ++
    writer st.isMessage st.name (st.members.map fun m => p.isEnum m.vartype) (Lang.Swift.writeBytes p st)) ++
  flush ["}"]

/-- An enum. -/
def enum (e : Enum) : List Row :=
  flush [s!"public enum {e.name}: {Lang.Swift.native e.encoding} \{"] ++
  inside 1 (flush (e.values.map fun x => s!"case {x.1} = {x.2}")) ++
  flush ["}"]

/-- The numbers of the messages. -/
def messageTypes (arms : List (Nat × String)) : List Row :=
  flush ["public enum MessageType: UInt8 {"] ++
  inside 1 (flush (if arms = [] then ["case __NullMessage = 0 /* to keep the compiler happy */"]
    else arms.map fun x => s!"case {x.2}Type = {x.1}")) ++
  flush ["}"]

/-- The reading of tagged messages; `ns` is the namespace. -/
def process (ns : Option String) (arms : List (Nat × String)) : List Row :=
  let dot := match ns with
    | some n => s!"{n}."
    | none => ""
  flush [s!"public {if ns.isSome then "static " else ""}func ProcessRawBytes(_ data: Data, max: Int) throws -> [Message] \{"] ++
  inside 1 (
    flush ["var msgList: [Message] = []", "if max == 0 {"] ++ inside 1 (flush ["return msgList"]) ++
    flush ["}", "let dr = DataReader(fromData: data)",
      "while !dr.IsFinished() && (max < 0 || msgList.count < max) {"] ++
    inside 1 (
      flush ["let msgTypeByte = try dr.GetUInt8()", "if msgTypeByte == 0 {"] ++ inside 1 (flush ["return msgList"]) ++
      flush ["}", s!"guard let msgType = {dot}MessageType(rawValue: msgTypeByte)", "else {"] ++
      inside 1 (flush ["throw DataReaderError.InvalidData"]) ++
      flush ["}", "switch msgType {"] ++
      inside 1 (if arms = [] then
          flush [s!"case {dot}MessageType.__NullMessage:"] ++ inside 1 (flush ["break"])
        else arms.flatMap fun x => flush [s!"case {dot}MessageType.{x.2}Type:"] ++
          inside 1 (flush [s!"msgList.append(try {x.2}.FromBytes(dataReader: dr))"])) ++
      flush ["}"]) ++
    flush ["}", "return msgList"]) ++
  flush ["}"]

end Beschi.Syntax.Swift
