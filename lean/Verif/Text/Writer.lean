import Verif.Protocol.Sizes
import Verif.Lang.Names
/-
The text that the generators write: `TextUtil` and `Writer` (beschi/writer.py).

The rest of the model looks at the generated functions as statements with a meaning.  Here are the
functions that write them, line by line, as they are in Python: a function that writes takes the
indentation level and the lines written so far to new ones, or raises an exception.

Simplifications: Python's `print` (only used if a boilerplate file is missing) is left out; recursion
has fuel, running out of it is `RecursionError`.
-/
namespace Beschi.Text

/-- The exceptions that writing can raise. -/
inductive Exn where
  /-- KeyError -/
  | key (k : String)
  /-- NotImplementedError, from `is_simple` and `get_size_of` -/
  | notImplemented
  /-- RecursionError -/
  | recursion
  /-- ValueError: `list.index`, `max`, `min` -/
  | value
  /-- StopIteration: `next` -/
  | stopIteration
  /-- IndexError -/
  | index
  /-- AssertionError -/
  | assertion
  /-- a namespace that is neither missing nor a string (an array or a table): Python writes it as it
  prints such values, or raises AttributeError or TypeError; not modelled -/
  | namespaceShape
  deriving DecidableEq, Repr

/-- The attributes of a writer that change: `self.indent_level`, `self.output` (writer.py L36-37). -/
structure Out where
  indent : Int
  lines : List String

/-- A Python function that may write. -/
def Emit (α : Type) : Type := Out → Except Exn (α × Out)

namespace Emit

/-- Return without writing. -/
protected def pure {α} (a : α) : Emit α := fun o => .ok (a, o)

/-- One after the other; an exception ends everything. -/
protected def bind {α β} (x : Emit α) (f : α → Emit β) : Emit β := fun o =>
  match x o with
  | .error e => .error e
  | .ok (a, o) => f a o

instance : Monad Emit where
  pure := Emit.pure
  bind := Emit.bind

/-- Something that may raise but does not write. -/
def lift {α} (x : Except Exn α) : Emit α := fun o =>
  match x with
  | .error e => .error e
  | .ok a => .ok (a, o)

instance : MonadLift (Except Exn) Emit where
  monadLift := Emit.lift

/-- `raise` -/
def raise {α} (e : Exn) : Emit α := fun _ => .error e

end Emit

/-- `for x in xs: ...` -/
def each {α} : List α → (α → Emit Unit) → Emit Unit
  | [], _ => pure ()
  | x :: xs, f => do
    f x
    each xs f

/-- `for x in xs: ...` where the body assigns to variables that are used later. -/
def eachWith {α β} : List α → β → (β → α → Emit β) → Emit β
  | [], b, _ => pure b
  | x :: xs, b, f => do
    let b ← f b x
    eachWith xs b f

/-- `self.indent_level += k` -/
def shift (k : Int) : Emit Unit := fun o => .ok ((), { o with indent := o.indent + k })

/-- the value of `self.indent_level` -/
def level : Emit Int := fun o => .ok (o.indent, o)

/-- `s * n` for a string: empty if `n` is not positive. -/
def times (n : Int) (s : String) : String := String.join (List.replicate n.toNat s)

/-- Does the text start with `old`?  If so, what follows it (`startswith`). -/
def dropPrefix : List Char → List Char → Option (List Char)
  | [], cs => some cs
  | _ :: _, [] => none
  | a :: as, c :: cs => if a = c then dropPrefix as cs else none

/-- `s.replace(old, new)`: from left to right, not overlapping; `skip` characters belong to an
occurrence that has been replaced.  For an `old` that is not empty. -/
def replaceChars (old new : List Char) : Nat → List Char → List Char
  | _, [] => []
  | skip + 1, _ :: cs => replaceChars old new skip cs
  | 0, c :: cs => match dropPrefix old (c :: cs) with
    | some _ => new ++ replaceChars old new (old.length - 1) cs
    | none => c :: replaceChars old new 0 cs

/-- `s.replace(old, new)` for strings. -/
def replace (s old new : String) : String := String.ofList (replaceChars old.toList new.toList 0 s.toList)

/-- `TextUtil.replace` (writer.py L17-20). -/
def replaceAll (s : String) (subs : List (String × String)) : String :=
  subs.foldl (fun s sub => replace s sub.1 sub.2) s

/-- `str.lower`, on ASCII letters. -/
def lower (s : String) : String := String.ofList (s.toList.map Char.toLower)
/-- `str.upper`, on ASCII letters. -/
def upper (s : String) : String := String.ofList (s.toList.map Char.toUpper)

/-- The characters at which `str.splitlines` ends a line; "\r\n" counts as one. -/
def lineEnds : List Char :=
  ['\n', '\r', '\x0b', '\x0c', '\x1c', '\x1d', '\x1e', '\x85', Char.ofNat 0x2028, Char.ofNat 0x2029]

/-- `str.splitlines`; `cur` is the line being read. -/
def splitChars : List Char → List Char → List (List Char)
  | [], [] => []
  | cur, [] => [cur]
  | cur, '\r' :: '\n' :: cs => cur :: splitChars [] cs
  | cur, c :: cs => if lineEnds.contains c then cur :: splitChars [] cs else splitChars (cur ++ [c]) cs

/-- `str.splitlines` for strings. -/
def splitlines (s : String) : List String := (splitChars [] s.toList).map String.ofList

/-- A replacement: a text inside lines, or lines for a line (writer.py L52). -/
inductive Sub where
  | text (s : String)
  | lines (ls : List String)

/-- The substitutions in a boilerplate text (writer.py L61-68). -/
def substitute (lines : List String) : String × Sub → List String
  | (old, .text new) => lines.map (replace · old new)
  | (old, .lines new) => lines.flatMap fun l => if l = old then new else [l]

/-- The loop of `replace_indent` (writer.py L70-72): how often the text starts with `old`, and what
follows.  The loop of Python ends if `old` is not empty; the fuel is the length of the text. -/
def stripIndent (old : List Char) : Nat → List Char → Nat × List Char
  | 0, cs => (0, cs)
  | fuel + 1, cs => match dropPrefix old cs with
    | none => (0, cs)
    | some rest => let (n, r) := stripIndent old fuel rest; (n + 1, r)

/-- `replace_indent` (writer.py L69-73). -/
def replaceIndent (line old new : String) : String :=
  let (n, rest) := stripIndent old.toList line.length line.toList
  times n new ++ String.ofList rest

/-- The attributes of a writer that are set when it is created, and the files it uses. -/
structure Writer where
  /-- `self.protocol` (writer.py L39) -/
  p : Protocol
  /-- `self.tab`, possibly changed afterwards (writer.py L40, cli.py L84-85) -/
  tab : String
  /-- `self.native_tab` (writer.py L41) -/
  nativeTab : String
  /-- the entries of `self.type_mapping` that the subclass adds -/
  mapping : List (String × String)
  /-- `self.base_serializers` or `self.base_deserializers` -/
  codecs : List (String × String) := []
  /-- `self.base_defaults` -/
  defaults : List (String × String) := []
  /-- `self.embed_protocol`: the text of the protocol if it is to be embedded -/
  embed : Option String := none
  /-- `self.prefix` (c.py L57-61, rust.py L296-299) -/
  pref : String := ""
  /-- `self.subs` (c.py L56-60) -/
  subs : List (String × Sub) := []
  /-- `self.rename` (go.py L20) -/
  rename : Bool := false
  /-- `self.use_namespace` (typescript.py L25) -/
  useNamespace : Bool := false
  /-- `self.is_assembly_script` (typescript.py L49) -/
  assembly : Bool := false
  /-- the lines of the boilerplate files, by their index (writer.py L53-60) -/
  boilerplate : Nat → List String

namespace Writer
variable (w : Writer)

/-- Dictionary lookup that raises KeyError. -/
def look (d : List (String × String)) (k : String) : Except Exn String :=
  match d.lookup k with
  | some v => .ok v
  | none => .error (.key k)

/-- `self.type_mapping` (writer.py L43-50): what the subclass adds comes last and so counts. -/
def types : List (String × String) :=
  w.mapping ++ w.p.enums.map (fun e => (e.name, e.name)) ++ w.p.messages.map (fun m => (m.name, m.name)) ++
    w.p.structs.map (fun s => (s.name, s.name)) ++ [("string", "string")]

/-- `self.type_mapping[t]` -/
def type (t : String) : Except Exn String := look w.types t

/-- `self.base_serializers[t]` -/
def codec (t : String) : Except Exn String := look w.codecs t

/-- `self.protocol.enums[t]` -/
def enum (t : String) : Except Exn Enum :=
  match w.p.enum? t with
  | some e => .ok e
  | none => .error (.key t)

/-- `self.protocol.structs[t]` -/
def struct (t : String) : Except Exn Struct :=
  match w.p.struct? t with
  | some s => .ok s
  | none => .error (.key t)

/-- `t in NUMERIC_TYPE_SIZES` -/
def isNum (t : String) : Bool := (NumTy.ofName? t).isSome

/-- The exceptions of the functions about sizes (protocol.py L63, L266-276). -/
def sizeExn : SizeErr → Exn
  | .missing => .key ""
  | .recursion => .recursion
  | _ => .notImplemented

/-- `var.is_simple(listed)` (protocol.py L49-63) -/
def simple (v : Variable) (listed : Bool) : Except Exn Bool :=
  (varIsSimple w.p w.p.depth v listed).mapError sizeExn

/-- `st.is_simple()` (protocol.py L115-116) -/
def structSimple (s : Struct) : Except Exn Bool := (structIsSimple w.p w.p.depth s).mapError sizeExn

/-- `self.protocol.get_size_of(t)` (protocol.py L260-277) -/
def sizeOf (t : String) : Except Exn Nat := (getSizeOf w.p w.p.depth t).mapError sizeExn

/-- `e.get_default_pair()` (protocol.py L100-101) -/
def defaultPair (e : Enum) : Except Exn (String × Int) :=
  match e.values with
  | x :: _ => .ok x
  | [] => .error .stopIteration

/-- `min(self.values, key=self.values.get)`: the first one with the least value. -/
def leastPair : String × Int → List (String × Int) → String × Int
  | x, [] => x
  | x, y :: ys => leastPair (if y.2 < x.2 then y else x) ys

/-- `e.get_minimum_pair()` (protocol.py L103-105) -/
def minimumPair (e : Enum) : Except Exn (String × Int) :=
  match e.values with
  | x :: xs => .ok (leastPair x xs)
  | [] => .error .value

/-- `list(self.protocol.messages.keys()).index(name)` (rust.py L240, zig.py L238, L247) -/
def messageNumber (name : String) : Except Exn Nat :=
  match w.p.messages.findIdx? (·.name == name) with
  | some i => .ok i
  | none => .error .value

/-- The namespace as text: `None` if there is none. -/
def nsText : Except Exn String :=
  match w.p.ns with
  | none => .ok "None"
  | some (.str s) => .ok s
  | some _ => .error .namespaceShape

/-- `self.protocol.namespace != None` -/
def nsGiven : Bool := w.p.ns.isSome

/-- The truth value of `self.protocol.namespace`. -/
def nsTrue : Bool :=
  match w.p.ns with
  | none => false
  | some (.str s) => s != ""
  | some (.int i) => i != 0
  | some (.bool b) => b
  | some .other => true
  | some (.arr l) => !l.isEmpty
  | some (.table l) => !l.isEmpty

/-- `self.get_native_list_size()` (writer.py L95-96) -/
def listSize : Except Exn String := w.type w.p.listSize.name
/-- `self.get_native_string_size()` (writer.py L98-99) -/
def stringSize : Except Exn String := w.type w.p.stringSize.name

/-- `self.indent_string` (writer.py L92-93) -/
def indentString (lvl : Int) (text : String) : String := times lvl w.tab ++ text

/-- `self.write_line(text)` (writer.py L85-89) -/
def line (text : String) : Emit Unit := fun o =>
  .ok ((), { o with lines := o.lines ++ [if text.length = 0 then "" else w.indentString o.indent text] })

/-- `self.write_line()` (writer.py L85-87) -/
def blank : Emit Unit := w.line ""

/-- `self.add_boilerplate(substitutions, index)` (writer.py L52-77); the file is there. -/
def addBoilerplate (subs : List (String × Sub)) (index : Nat) : Emit Unit :=
  each ((subs.foldl substitute (w.boilerplate index)).map (replaceIndent · w.nativeTab w.tab)) w.line

end Writer

/-- `lines[0]` -/
def headLine : List String → Except Exn String
  | [] => .error .index
  | l :: _ => .ok l

/-- `assert self.indent_level == 0` (csharp.py L306, go.py L402, swift.py L343, typescript.py L516,
zig.py L408) -/
def assertBalanced : Emit Unit := fun o => if o.indent = 0 then .ok ((), o) else .error .assertion

/-- LIB_NAME (__init__.py L1) -/
def libName : String := "Beschi"
/-- LIB_VERSION (__init__.py L2) -/
def libVersion : String := "0.4.0"

/-- `generate` starts with no output at indentation level 0 and returns the lines joined (the last line
of each `generate`). -/
def run (x : Emit Unit) : Except Exn String :=
  match x ⟨0, []⟩ with
  | .error e => .error e
  | .ok (_, o) => .ok ("\n".intercalate o.lines)

end Beschi.Text
