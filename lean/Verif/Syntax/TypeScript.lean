import Verif.Syntax.Size
import Verif.Syntax.Initial
import Verif.Lang.AssemblyScript
/-
How the statements of the generated functions are written in TypeScript, and (where `asm` is true) in
AssemblyScript.

These are the lines that the statements in Verif/Lang/TypeScript.lean and Verif/Lang/AssemblyScript.lean
stand for.  They are stated apart from the functions that write the text (Verif/Text/TypeScript.lean,
typescript.py L51-518).
-/
namespace Beschi.Syntax.TypeScript
open Beschi.Spec Beschi.Lang

/-- What a type is called. -/
def typeOf (asm : Bool) (t : String) : String :=
  if asm then Lang.AssemblyScript.native t else Lang.TypeScript.native t

/-- In AssemblyScript, the function is left after a read or write that failed. -/
def stop (asm : Bool) (result : String) : List Row :=
  if asm then flush ["if (da.hasError) { return " ++ result ++ "; }"] else []

/-- The least number of an enum. -/
def least (p : Protocol) (e : String) : Int :=
  match p.enum? e with
  | some d => ((d.values.map (·.2)).min?).getD 0
  | none => 0

/-- The number type of an enum. -/
def encoding (asm : Bool) (p : Protocol) (e : String) : String :=
  match p.enum? e with
  | some d => typeOf asm d.encoding.name
  | none => ""

/-- The lines that read a number of the enum `e` into `_x`. -/
def readEnum (asm : Bool) (p : Protocol) (x prim e : String) : List Row :=
  if asm then
    flush ["let _" ++ x ++ " = da." ++ prim ++ "();"] ++ stop asm "null" ++
    flush ["if (_" ++ x ++ " < " ++ toString (least p e) ++ " || _" ++ x ++ " >= (" ++ e ++ "._Unknown as " ++
      encoding asm p e ++ ")) {"] ++
    inside 1 (flush ["_" ++ x ++ " = " ++ e ++ "._Unknown as " ++ encoding asm p e ++ ";"]) ++
    flush ["}"]
  else
    flush ["const _" ++ x ++ " = da." ++ prim ++ "();", "if (" ++ e ++ "[_" ++ x ++ "] === undefined) {"] ++
    inside 1 (flush ["throw new Error(`Enum (${_" ++ x ++ "}) out of range for " ++ e ++ "`);"]) ++
    flush ["}"]

/-- The lines that read one value of the member `x` into `target`; `tmp` is a name for an object. -/
def readAtom (asm : Bool) (p : Protocol) (x tmp target : String) : RAtom → List Row
  | .text => flush [target ++ " = da.getString();"] ++ stop asm "null"
  | .num prim => flush [target ++ " = da." ++ prim ++ "();"] ++ stop asm "null"
  | .enum prim e => readEnum asm p x prim e ++ flush [target ++ " = _" ++ x ++ ";"]
  | .call s | .whole s =>
    if asm then
      flush ["const _" ++ tmp ++ " = " ++ s ++ ".fromBytes(da);", "if (_" ++ tmp ++ " == null) {"] ++
      inside 1 (flush ["return null;"]) ++ flush ["}", "else {"] ++
      inside 1 (flush [target ++ " = _" ++ tmp ++ ";"]) ++ flush ["}"]
    else flush [target ++ " = " ++ s ++ ".fromBytes(da);"]

/-- The type of the elements. -/
def elementType (asm : Bool) : RAtom → String
  | .num prim => match Lang.TypeScript.readable prim with
    | some n => typeOf asm n.name
    | none => ""
  | .text => "string"
  | .enum _ e => e
  | .call s | .whole s => s

/-- The name of a variable or member. -/
def name : Loc → String
  | .var x => x
  | .mem x => x

/-- The lines of one statement of a reading function; `obj` is the new object, and the loop variable is
called `i` followed by the number `k`. -/
def readStmt (asm : Bool) (p : Protocol) (obj : String) (k : Nat) : RStmt → List Row
  | .one x a => readAtom asm p (name x) (name x) (obj ++ "." ++ name x) a
  | .list x len prim a =>
    flush ["const " ++ name len ++ " = da." ++ prim ++ "();"] ++ stop asm "null" ++
    flush [obj ++ "." ++ name x ++ " = new Array<" ++ elementType asm a ++ ">(" ++ name len ++ ");",
      "for (let i" ++ toString k ++ ": " ++ typeOf asm p.listSize.name ++ " = 0; i" ++ toString k ++ " < " ++ name len ++
        "; i" ++ toString k ++ "++) {"] ++
    inside 1 (readAtom asm p (name x) (name x ++ "_i" ++ toString k ++ "_") (obj ++ "." ++ name x ++ "[i" ++ toString k ++ "]") a) ++
    flush ["}"]

/-- What a reading function does after its first lines. -/
def readBody (asm : Bool) (p : Protocol) (st : String) (k : Nat) (f : RFun) : List Row :=
  flush ["const n" ++ st ++ " = new " ++ st ++ "();"] ++ f.body.flatMap (readStmt asm p ("n" ++ st) k) ++
  flush ["return n" ++ st ++ ";"]

/-- A reading function; `k` is how far inside it is in the file. -/
def reader (asm : Bool) (p : Protocol) (isMessage : Bool) (st : String) (k : Nat) (f : RFun) : List Row :=
  if asm then
    (if isMessage then
      flush ["static override fromBytes(data: DataView): " ++ st ++ " | null {"] ++
      inside 1 (flush ["const da = new DataAccess(data);", "return " ++ st ++ ".fromBytesDA(da);"]) ++
      flush ["}", "", "static override fromBytesDA(da: DataAccess): " ++ st ++ " | null {"]
    else flush ["static fromBytes(da: DataAccess): " ++ st ++ " | null {"]) ++
    inside 1 (readBody asm p st (k + 1) f) ++ flush ["}"]
  else if isMessage then
    flush ["static override fromBytes(data: DataView|DataAccess|ArrayBuffer): " ++ st ++ " {"] ++
    inside 1 (flush ["let da: DataAccess;", "if (data instanceof DataView) {"] ++
      inside 1 (flush ["da = new DataAccess(data);"]) ++ flush ["}", "else if (data instanceof ArrayBuffer) {"] ++
      inside 1 (flush ["da = new DataAccess(new DataView(data));"]) ++ flush ["}", "else {"] ++
      inside 1 (flush ["da = data;"]) ++ flush ["}", "try {"] ++
      inside 1 (readBody asm p st (k + 2) f) ++ flush ["}", "catch (err) {"] ++
      inside 1 (flush ["let errMsg = \"[Unknown error]\";", "if (err instanceof Error) {"] ++
        inside 1 (flush ["errMsg = `${err.name} -- ${err.message}`;"]) ++
        flush ["}", "throw new Error(`Could not read " ++ st ++ " from offset ${da.currentOffset} (${errMsg})`);"]) ++
      flush ["}"]) ++
    flush ["}"]
  else
    flush ["static fromBytes(da: DataAccess): " ++ st ++ " {"] ++ inside 1 (readBody asm p st (k + 1) f) ++ flush ["}"]

/-- The lines that write the value of the expression `e`; enums are converted in AssemblyScript. -/
def writeAtom (asm : Bool) (conversion e : String) : WAtom → List Row
  | .num prim => flush ["da." ++ prim ++ "(" ++ e ++ conversion ++ ");"] ++ stop asm "false"
  | .text => flush ["da.setString(" ++ e ++ ");"] ++ stop asm "false"
  | .call _ => if asm then flush ["if (!" ++ e ++ ".writeBytes(da)) { return false; };"] else flush [e ++ ".writeBytes(da);"]

/-- The conversion of a member of type `t`. -/
def conversion (asm : Bool) (p : Protocol) (t : String) : String :=
  if asm && (p.enum? t).isSome then " as " ++ encoding asm p t else ""

/-- The lines of one statement of a writing function. -/
def writeStmt (asm : Bool) (p : Protocol) (conversion : String) : WStmt → List Row
  | .one x a => writeAtom asm conversion ("this." ++ x) a
  | .list x prim a =>
    flush ["da." ++ prim ++ "(this." ++ x ++ ".length" ++ (if asm then " as " ++ typeOf asm p.listSize.name else "") ++ ");"] ++
    stop asm "false" ++
    flush ["for (let i = 0; i < this." ++ x ++ ".length; i++) {"] ++
    inside 1 (flush ["let el = this." ++ x ++ "[i];"] ++ writeAtom asm conversion "el" a) ++
    flush ["}"]

/-- A writing function. -/
def writer (asm : Bool) (p : Protocol) (st : Struct) (f : WFun) : List Row :=
  (if st.isMessage then
    if asm then
      flush ["writeBytes(data: DataView, tag: boolean): bool {"] ++
      inside 1 (flush ["const da = new DataAccess(data);", "return this.writeBytesDA(da, tag);"]) ++
      flush ["}", "", "writeBytesDA(da: DataAccess, tag: boolean): bool {"] ++
      inside 1 (flush ["if (tag) {"] ++
        inside 1 (flush ["da.setByte(MessageType." ++ st.name ++ "Type as u8);"] ++ stop asm "false") ++ flush ["}"])
    else
      flush ["writeBytes(data: DataView|DataAccess, tag: boolean): void {"] ++
      inside 1 (flush ["let da: DataAccess;", "if (data instanceof DataView) {"] ++
        inside 1 (flush ["da = new DataAccess(data);"]) ++ flush ["}", "else {"] ++
        inside 1 (flush ["da = data;"]) ++ flush ["}", "if (tag) {"] ++
        inside 1 (flush ["da.setByte(MessageType." ++ st.name ++ "Type);"]) ++ flush ["}"])
  else flush ["writeBytes(da: DataAccess): " ++ (if asm then "bool" else "void") ++ " {"]) ++
  inside 1 ((st.members.zip f.body).flatMap (fun x => writeStmt asm p (conversion asm p x.1.vartype) x.2) ++
    (if asm then flush ["return true;"] else [])) ++
  flush ["}"]

/-- The number of bytes of a text. -/
def bytes (asm : Bool) (a : String) : String :=
  if asm then "String.UTF8.encode(" ++ a ++ ", false).byteLength" else "_textEnc.encode(" ++ a ++ ").byteLength"

/-- The steps of a size computation. -/
def sizes (asm : Bool) : SizeSyntax where
  init := if asm then "let size: usize = 0;" else "let size: number = 0;"
  ret n := "return " ++ toString n ++ ";"
  add n := "size += " ++ toString n ++ ";"
  addCount a n := "size += " ++ a ++ ".length * " ++ toString n ++ ";"
  addText a := "size += " ++ bytes asm a ++ ";"
  addTextPlus k a := "size += " ++ toString k ++ " + " ++ bytes asm a ++ ";"
  loop v _ a := ["for (let " ++ v ++ "=0; " ++ v ++ " < " ++ a ++ ".length; " ++ v ++ "++) {"]

/-- A size computation. -/
def size (asm : Bool) (f : MFun) : List Row :=
  flush [if asm then "getSizeInBytes(): usize {" else "getSizeInBytes(): number {"] ++
  inside 1 ((sizes asm).lines f.lines ++ if f.returns then flush ["return size;"] else []) ++
  flush ["}"]

/-- Default values. -/
def initial (asm : Bool) : InitialSyntax where
  no := if asm then "0" else "false"
  zero := "0"
  list _ := "[]"
  entry e x := e ++ "." ++ x
  make s := "new " ++ s ++ "()"

/-- The initial value of a member.  There is none that type checks for a struct or enum that is called
`bigint` or `boolean`. -/
def initialValue (asm : Bool) (p : Protocol) (m : Variable) : String :=
  match if asm then Lang.AssemblyScript.default p m else Lang.TypeScript.default p m with
  | .ok d => (initial asm).expr p m.vartype "" d ++
      (if m.isList = false ∧ typeOf asm m.vartype = "bigint" then "n" else "")
  | .error _ => if typeOf asm m.vartype = "bigint" then "0n" else "false"

/-- The declaration of a member. -/
def member (asm : Bool) (p : Protocol) (m : Variable) : String :=
  m.name ++ ": " ++ typeOf asm m.vartype ++ (if m.isList then "[]" else "") ++ " = " ++ initialValue asm p m ++ ";"

/-- A struct or message; `k` is how far inside it is in the file. -/
def type (asm : Bool) (p : Protocol) (k : Nat) (st : Struct) (sz : MFun) : List Row :=
  flush [if st.isMessage then "export class " ++ st.name ++ " extends Message {" else "export class " ++ st.name ++ " {"] ++
  inside 1 (flush (st.members.map (member asm p)) ++ flush [""] ++
    (if st.isMessage then
      flush ["getMessageType() : MessageType { return MessageType." ++ st.name ++ "Type; }", ""] ++ size asm sz ++ flush [""]
    else []) ++
    reader asm p st.isMessage st.name (k + 1)
      (if asm then Lang.AssemblyScript.fromBytes p st else Lang.TypeScript.fromBytes p st) ++
    flush [""] ++
    writer asm p st (if asm then Lang.AssemblyScript.writeBytes p st else Lang.TypeScript.writeBytes p st)) ++
  flush ["}"]

/-- An enum. -/
def enum (asm : Bool) (e : Enum) : List Row :=
  flush ["export enum " ++ e.name ++ " {"] ++
  inside 1 (flush (e.values.map fun x => x.1 ++ " = " ++ toString x.2 ++ ",") ++ if asm then flush ["_Unknown,"] else []) ++
  flush ["}"]

/-- The numbers of the messages. -/
def messageTypes (asm : Bool) (arms : List (Nat × String)) : List Row :=
  flush ["export enum MessageType {"] ++
  inside 1 (flush (arms.map fun x => x.2 ++ "Type = " ++ toString x.1 ++ ",") ++ if asm then flush ["_Unknown,"] else []) ++
  flush ["}"]

/-- The reading of tagged messages. -/
def process (asm : Bool) (arms : List (Nat × String)) : List Row :=
  (if asm then
      flush ["export function ProcessRawBytes(data: DataView, max: number): Message[] {"] ++
      inside 1 (flush ["const da = new DataAccess(data);", "return ProcessRawBytesDA(da, max);"]) ++
      flush ["}", "", "export function ProcessRawBytesDA(da: DataAccess, max: number): Message[] {"]
    else
      flush ["export function ProcessRawBytes(data: DataView|DataAccess, max: number): Message[] {"] ++
      inside 1 (flush ["if (max === undefined) {"] ++ inside 1 (flush ["max = -1;"]) ++
        flush ["}", "let da: DataAccess;", "if (data instanceof DataView) {"] ++
        inside 1 (flush ["da = new DataAccess(data);"]) ++ flush ["}", "else {"] ++
        inside 1 (flush ["da = data;"]) ++ flush ["}"])) ++
  inside 1 (
    flush ["const msgList: Message[] = [];", "if (max == 0) {"] ++ inside 1 (flush ["return msgList;"]) ++
    flush ["}", "while (!da.isFinished() && (max < 0 || msgList.length < max)) {"] ++
    inside 1 (
      flush ["const msgType: " ++ typeOf asm "byte" ++ " = da.getByte();", "let newMsg: Message | null;",
        if asm then "switch (msgType as i32) {" else "switch (msgType) {"] ++
      inside 1 (flush ["case 0:"] ++ inside 1 (flush ["return msgList;"]) ++
        (arms.flatMap fun x => flush ["case MessageType." ++ x.2 ++ "Type:"] ++
          inside 1 ((if asm then
              flush ["newMsg = " ++ x.2 ++ ".fromBytesDA(da);", "if (newMsg == null) {"] ++
              inside 1 (flush ["return msgList;"]) ++ flush ["}"]
            else flush ["newMsg = " ++ x.2 ++ ".fromBytes(da);"]) ++
            flush ["msgList.push(newMsg);", "break;"])) ++
        flush ["default:"] ++
        inside 1 (flush [if asm then "return msgList;" else "throw new Error(`Unknown message type: ${msgType}`);"])) ++
      flush ["}"]) ++
    flush ["}", "return msgList;"]) ++
  flush ["}"]

end Beschi.Syntax.TypeScript
