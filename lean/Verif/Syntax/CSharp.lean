import Verif.Syntax.Size
import Verif.Syntax.Initial
import Verif.Lang.CSharp
/-
How the statements of the generated functions are written in C#.

These are the lines that the statements in Verif/Lang/CSharp.lean stand for.  They are stated apart from
the functions that write the text (Verif/Text/CSharp.lean, csharp.py L41-308).
-/
namespace Beschi.Syntax.CSharp
open Beschi.Spec Beschi.Lang

/-- What a type is called. -/
def typeOf (t : String) : String :=
  match NumTy.ofName? t with
  | some n => Lang.CSharp.native n
  | none => t

/-- The name of a variable or member. -/
def name : Loc → String
  | .var x => x
  | .mem x => x

/-- The type of what a method reads. -/
def result (prim : String) : String :=
  match Lang.CSharp.readable prim with
  | some n => Lang.CSharp.native n
  | none => ""

/-- Lines in braces. -/
def block (rs : List Row) : List Row := flush ["{"] ++ inside 1 rs ++ flush ["}"]

/-- The lines that read a number of the enum `e` into `_x`. -/
def readEnum (x prim e : String) : List Row :=
  flush [result prim ++ " _" ++ x ++ " = br." ++ prim ++ "();",
    "if (!Enum.IsDefined(typeof(" ++ e ++ "), _" ++ x ++ "))"] ++
  block (flush ["throw new DataReadErrorException(String.Format(\"Enum {0} out of range for " ++ e ++ "\", _" ++ x ++ "));"])

/-- The lines that read a text into `target`; `x` is part of the names of the variables. -/
def readText (p : Protocol) (x target : String) : List Row :=
  flush [Lang.CSharp.native p.stringSize ++ " " ++ x ++ "_Length = br." ++ Lang.CSharp.readPrim p.stringSize ++ "();",
    "byte[] " ++ x ++ "_Buffer = br.ReadBytes((int)" ++ x ++ "_Length);",
    target ++ " = System.Text.Encoding.UTF8.GetString(" ++ x ++ "_Buffer);"]

/-- The lines that read the member `x` of the object `obj`. -/
def readOne (p : Protocol) (obj x : String) : RAtom → List Row
  | .text => readText p x (obj ++ "." ++ x)
  | .num prim => flush [obj ++ "." ++ x ++ " = br." ++ prim ++ "();"]
  | .enum prim e => readEnum x prim e ++ flush [obj ++ "." ++ x ++ " = (" ++ e ++ ")_" ++ x ++ ";"]
  | .call s | .whole s => flush [obj ++ "." ++ x ++ " = " ++ s ++ ".FromBytes(br);"]

/-- The lines that read one element of the member `x` of the object `obj`. -/
def readElement (p : Protocol) (obj x : String) : RAtom → List Row
  | .text => readText p "string__el" "string _el" ++ flush [obj ++ "." ++ x ++ ".Add(_el);"]
  | .num prim => flush [result prim ++ " _el = br." ++ prim ++ "();", obj ++ "." ++ x ++ ".Add(_el);"]
  | .enum prim e => readEnum x prim e ++ flush [obj ++ "." ++ x ++ ".Add((" ++ e ++ ")_" ++ x ++ ");"]
  | .call s | .whole s => flush [s ++ " _el = " ++ s ++ ".FromBytes(br);", obj ++ "." ++ x ++ ".Add(_el);"]

/-- The type of the elements. -/
def elementType : RAtom → String
  | .num prim => result prim
  | .text => "string"
  | .enum _ e => e
  | .call s | .whole s => s

/-- The lines of one statement of a reading function; `obj` is the new object, and the loop variable is
called `i` followed by the number `k`. -/
def readStmt (p : Protocol) (obj : String) (k : Nat) : RStmt → List Row
  | .one x a => readOne p obj (name x) a
  | .list x len prim a =>
    flush [result prim ++ " " ++ name len ++ " = br." ++ prim ++ "();",
      obj ++ "." ++ name x ++ " = new List<" ++ elementType a ++ ">();",
      "for (int i" ++ toString k ++ " = 0; i" ++ toString k ++ " < " ++ name len ++ "; i" ++ toString k ++ "++)"] ++
    block (readElement p obj (name x) a)

/-- What a reading function does. -/
def readBody (p : Protocol) (st : String) (k : Nat) (f : RFun) : List Row :=
  flush [st ++ " _n" ++ st ++ " = new " ++ st ++ "();"] ++ f.body.flatMap (readStmt p ("_n" ++ st) k) ++
  flush ["return _n" ++ st ++ ";"]

/-- A reading function; `k` is how far inside it is in the file. -/
def reader (p : Protocol) (isMessage : Bool) (st : String) (k : Nat) (f : RFun) : List Row :=
  flush ["public static " ++ st ++ " FromBytes(BinaryReader br)"] ++
  block (if isMessage then
      flush ["try"] ++ block (readBody p st (k + 2) f) ++ flush ["catch (System.IO.EndOfStreamException)"] ++
      block (flush ["throw new DataReadErrorException(String.Format(\"Could not read " ++ st ++
        " from offset {0}\", br.BaseStream.Position));"])
    else readBody p st (k + 1) f)

/-- The lines that write the value of the expression `e`, the value of the variable or member `x`.  Numbers
of an enum are converted; other numbers have the type that is written already. -/
def writeAtom (p : Protocol) (enum : Bool) (e x : String) : WAtom → List Row
  | .num prim => flush ["bw.Write(" ++ (if enum then "(" ++ prim ++ ")" else "") ++ e ++ ");"]
  | .text => flush ["byte[] " ++ x ++ "_Buffer = System.Text.Encoding.UTF8.GetBytes(" ++ e ++ ");",
      "bw.Write((" ++ Lang.CSharp.native p.stringSize ++ ")" ++ x ++ "_Buffer.Length);", "bw.Write(" ++ x ++ "_Buffer);"]
  | .call _ => flush [e ++ ".WriteBytes(bw);"]

/-- The lines of one statement of a writing function, for a member of type `t`. -/
def writeStmt (p : Protocol) (t : String) : WStmt → List Row
  | .one x a => writeAtom p (p.enum? t).isSome ("this." ++ x) x a
  | .list x prim a =>
    flush ["bw.Write((" ++ prim ++ ")this." ++ x ++ ".Count);", "foreach (" ++ typeOf t ++ " el in this." ++ x ++ ")"] ++
    block (writeAtom p (p.enum? t).isSome "el" "el" a)

/-- A writing function. -/
def writer (p : Protocol) (st : Struct) (f : WFun) : List Row :=
  flush [if st.isMessage then "public override void WriteBytes(BinaryWriter bw, bool tag)"
    else "public void WriteBytes(BinaryWriter bw)"] ++
  block ((if st.isMessage then
      flush ["if (tag)"] ++ block (flush ["bw.Write((byte)MessageType." ++ st.name ++ "Type);"])
    else []) ++
    (st.members.zip f.body).flatMap fun x => writeStmt p x.1.vartype x.2)

/-- The steps of a size computation.  The text of a member is measured with `Length`, a text in a list by
its bytes. -/
def sizes : SizeSyntax where
  init := "int size = 0;"
  ret n := "return " ++ toString n ++ ";"
  add n := "size += " ++ toString n ++ ";"
  addCount a n := "size += " ++ a ++ ".Count * " ++ toString n ++ ";"
  addText a := "size += " ++ a ++ ".Length;"
  addTextPlus k a := "size += " ++ toString k ++ " + System.Text.Encoding.UTF8.GetBytes(" ++ a ++ ").Length;"
  loop v t a := ["foreach (" ++ typeOf t ++ " " ++ v ++ " in " ++ a ++ ")", "{"]

/-- A size computation. -/
def size (f : MFun) : List Row :=
  flush ["public override int GetSizeInBytes()"] ++
  block (sizes.lines f.lines ++ if f.returns then flush ["return size;"] else [])

/-- Default values; numbers have none. -/
def initial : InitialSyntax where
  zero := ""
  list t := "new List<" ++ t ++ ">()"
  entry e x := e ++ "." ++ x
  make s := "new " ++ s ++ "()"

/-- The initial value of a member. -/
def initialValue (p : Protocol) (m : Variable) : String :=
  match Lang.CSharp.default p m with
  | .ok (.num _) => ""
  | .ok d => " = " ++ initial.expr p m.vartype (typeOf m.vartype) d
  | .error _ => ""

/-- The declaration of a member. -/
def member (p : Protocol) (m : Variable) : String :=
  "public " ++ (if m.isList then "List<" ++ typeOf m.vartype ++ ">" else typeOf m.vartype) ++ " " ++ m.name ++
  initialValue p m ++ ";"

/-- A struct or message; `k` is how far inside it is in the file. -/
def type (p : Protocol) (k : Nat) (st : Struct) (sz : MFun) : List Row :=
  flush [if st.isMessage then "public class " ++ st.name ++ " : Message" else "public class " ++ st.name] ++
  block (flush (st.members.map (member p)) ++
    (if st.isMessage then
      flush ["", "public override MessageType GetMessageType() { return MessageType." ++ st.name ++ "Type; }", ""] ++ size sz
    else []) ++
    flush [""] ++ reader p st.isMessage st.name (k + 1) (Lang.CSharp.fromBytes p st) ++
    flush [""] ++ writer p st (Lang.CSharp.writeBytes p st) ++ flush [""])

/-- An enum. -/
def enum (e : Enum) : List Row :=
  flush ["public enum " ++ e.name ++ " : " ++ Lang.CSharp.native e.encoding] ++
  block (flush (e.values.map fun x => x.1 ++ " = " ++ toString x.2 ++ ","))

/-- The numbers of the messages. -/
def messageTypes (arms : List (Nat × String)) : List Row :=
  flush ["public enum MessageType"] ++ block (flush (arms.map fun x => x.2 ++ "Type = " ++ toString x.1 ++ ","))

/-- The reading of tagged messages. -/
def process (arms : List (Nat × String)) : List Row :=
  flush ["public static Message[] ProcessRawBytes(BinaryReader br, int max)"] ++
  block (
    flush ["List<Message> msgList = new List<Message>();", "if (max == 0)"] ++ block (flush ["return msgList.ToArray();"]) ++
    flush ["while (br.BaseStream.Position < br.BaseStream.Length && (max < 0 || msgList.Count < max))"] ++
    block (flush ["byte msgType = br.ReadByte();", "switch (msgType)"] ++
      block (flush ["case 0:"] ++ inside 1 (flush ["return msgList.ToArray();"]) ++
        (arms.flatMap fun x => flush ["case (byte)MessageType." ++ x.2 ++ "Type:"] ++
          inside 1 (flush ["msgList.Add(" ++ x.2 ++ ".FromBytes(br));", "break;"])) ++
        flush ["default:"] ++
        inside 1 (flush ["throw new UnknownMessageTypeException(String.Format(\"Unknown message type: {0}\", msgType));"]))) ++
    flush ["return msgList.ToArray();"])

end Beschi.Syntax.CSharp
