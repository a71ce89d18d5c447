import Verif.Lang.Writer
import Verif.Protocol.SizeLemmas
/-
Shape and meaning of the size computations that the generators emit (`gen_measurement` and the
`GetSizeInBytes` part of `gen_struct`).  The eight `gen_measurement` methods
(rust.py L104-144, csharp.py L107-151, swift.py L94-133, go.py L138-177, typescript.py L161-210 for
TypeScript and AssemblyScript, zig.py L92-132, c.py L158-200) are the same algorithm; they differ in
the form of loops, the names of loop variables and the way the bytes of a text are counted.  Those
differences are the parameter `MStyle`.  Sizes are unbounded natural numbers here; overflow of the
target's integer type is not modelled.
-/
namespace Beschi.Lang
open Spec

/-- A step of an access path: `.name` or `[i]` (the `accessor` strings of `gen_measurement`,
rust.py L119-139, typescript.py L178-205, c.py L173-195). -/
inductive MStep where
  | fld (n : String)
  | idx (v : String)
  deriving DecidableEq, Repr

/-- An access path such as `self.path.points` or `this.points[points_i].label` (the `accessor`
strings, same lines). -/
structure MPath where
  root : String
  steps : List MStep := []
  deriving DecidableEq, Repr

/-- The path of a member of the object at this path (`f"{accessor}{var.name}"`, same lines). -/
def MPath.dot (a : MPath) (n : String) : MPath := { a with steps := a.steps ++ [.fld n] }

/-- The path of an element of the list at this path (`f"{accessor}{var.name}[{i}]"`,
typescript.py L182-189, c.py L176-181). -/
def MPath.at (a : MPath) (v : String) : MPath := { a with steps := a.steps ++ [.idx v] }

/-- How the length of a text is taken: in bytes of UTF-8, or in UTF-16 units (`.Length` of a C#
string, csharp.py L144). -/
inductive How where
  | bytes
  | utf16
  deriving DecidableEq, Repr

/-- One line (or loop) of a size computation (`gen_measurement`, lines above). -/
inductive MLine where
  /-- `let mut size: usize = 0;` and the like -/
  | init
  /-- `return 12;` and the like, for objects of fixed size -/
  | ret (n : Nat)
  /-- `size += 12;` -/
  | add (n : Nat)
  /-- `size += x.len() * 12;` -/
  | addCount (path : MPath) (n : Nat)
  /-- `size += x.len();` for a text -/
  | addText (path : MPath) (how : How)
  /-- `size += 4 + x.len();` for a text -/
  | addTextPlus (k : Nat) (path : MPath) (how : How)
  /-- `for v in x { ... }`; the type of the elements is only written in C# (csharp.py L123, L129) -/
  | each (v type : String) (path : MPath) (body : List MLine)
  /-- `for (v = 0; v < x.length; v++) { ... }` -/
  | index (v type : String) (path : MPath) (body : List MLine)

/-- Is the line the initialisation?  (the test `clines[0] == size_init`, rust.py L127) -/
def MLine.isInit : MLine → Bool
  | .init => true
  | _ => false

/-- What differs between the languages (lines above). -/
structure MStyle where
  /-- loops over indices instead of elements -/
  indexed : Bool
  /-- loop variable for a list of structs, from the member's name and the nesting level -/
  loopVar : String → Nat → String
  /-- loop variable for a list of texts -/
  textVar : String → Nat → String
  /-- how the length of a member that is a text is taken -/
  text : How
  /-- how the length of a text in a list is taken -/
  texts : How
  /-- does the level also grow for a struct member that is not in a list (zig.py L127) -/
  inlineDeeper : Bool
  /-- is the final `return size` written always (zig.py L188, c.py L332) or only if there is more
  than one line (rust.py L220, csharp.py L196, swift.py L185, go.py L255, typescript.py L262) -/
  alwaysReturn : Bool

/-- Drop a leading initialisation (rust.py L127-128, L140-141; csharp.py L133-134, L147-148;
swift.py L116-117, L129-130; go.py L160-161, L173-174; typescript.py L190-191, L206-207;
zig.py L115-116, L128-129; c.py L183-184, L196-197). -/
def dropInit : List MLine → List MLine
  | l :: ls => if l.isInit then ls else l :: ls
  | [] => []

/-- The lines for a loop over the list at `path` whose body is built from the path of an element. -/
def MStyle.loop (M : MStyle) (v type : String) (path : MPath) (body : List MLine) : MLine :=
  if M.indexed then .index v type path body else .each v type path body

/-- The path of the current element inside the loop. -/
def MStyle.element (M : MStyle) (v : String) (path : MPath) : MPath :=
  if M.indexed then path.at v else { root := v }

/-- The lines for one member (the loop body of `gen_measurement`: rust.py L115-143, csharp.py
L117-150, swift.py L104-132, go.py L148-176, typescript.py L174-209, zig.py L103-131,
c.py L168-199); `rec` is the recursive call.  `none` is the `KeyError` of `self.protocol.structs[..]`. -/
def measureMember (M : MStyle) (p : Protocol)
    (rec : Struct → MPath → Nat → Option (List MLine × Nat)) (acc : MPath) (lvl : Nat) (m : Variable) :
    Option (List MLine × Nat) :=
  if m.isList then
    if p.simpleVar m true then
      some ([.addCount (acc.dot m.name) (p.sizeOf m.vartype)], p.listSize.size)
    else if m.vartype = "string" then
      let v := M.textVar m.name lvl
      some ([M.loop v m.vartype (acc.dot m.name)
        [.addTextPlus p.stringSize.size (M.element v (acc.dot m.name)) M.texts]], p.listSize.size)
    else
      let v := M.loopVar m.name lvl
      match p.struct? m.vartype with
      | none => none
      | some s => match rec s (M.element v (acc.dot m.name)) (lvl + 1) with
        | none => none
        | some (clines, caccum) =>
          some ([M.loop v m.vartype (acc.dot m.name) (dropInit clines ++ [.add caccum])], p.listSize.size)
  else
    if p.simpleVar m false then some ([], p.sizeOf m.vartype)
    else if m.vartype = "string" then
      some ([.addText (acc.dot m.name) M.text], p.stringSize.size)
    else
      match p.struct? m.vartype with
      | none => none
      | some s => match rec s (acc.dot m.name) (if M.inlineDeeper then lvl + 1 else lvl) with
        | none => none
        | some (clines, caccum) => some (dropInit clines, caccum)

/-- The lines for the members in order, and the accumulated constant (same lines). -/
def measureMembers (M : MStyle) (p : Protocol)
    (rec : Struct → MPath → Nat → Option (List MLine × Nat)) (acc : MPath) (lvl : Nat) :
    List Variable → Option (List MLine × Nat)
  | [] => some ([], 0)
  | m :: ms =>
    match measureMember M p rec acc lvl m, measureMembers M p rec acc lvl ms with
    | some (l1, a1), some (l2, a2) => some (l1 ++ l2, a1 + a2)
    | _, _ => none

/-- `gen_measurement` (rust.py L104-144, csharp.py L107-151, swift.py L94-133, go.py L138-177,
typescript.py L161-210, zig.py L92-132, c.py L158-200). -/
def measureStruct (M : MStyle) (p : Protocol) : Nat → Struct → MPath → Nat →
    Option (List MLine × Nat)
  | 0, _, _, _ => none
  | fuel + 1, st, acc, lvl =>
    if p.simpleStruct st then some ([.ret (p.sizeOf st.name)], 0)
    else match measureMembers M p (measureStruct M p fuel) acc lvl st.members with
      | none => none
      | some (lines, accum) => some (.init :: lines, accum)

/-- A size computation: its lines, and whether they are followed by `return size`. -/
structure MFun where
  lines : List MLine
  returns : Bool

/-- The whole function (`gen_struct`: rust.py L216-221, csharp.py L192-197, swift.py L181-186,
go.py L251-256, typescript.py L258-263, zig.py L179-188, c.py L328-332): the measured lines, then
the accumulated constant if there is one, then `return size`. -/
def measureFun (M : MStyle) (p : Protocol) (st : Struct) (root : String) (lvl : Nat) :
    Option MFun :=
  match measureStruct M p (depth p) st { root := root } lvl with
  | none => none
  | some (lines, accum) =>
    some { lines := if accum > 0 then lines ++ [.add accum] else lines
           returns := M.alwaysReturn || decide (lines.length > 1) }

/-! ### Meaning -/

/-- Number of UTF-16 units of a UTF-8 text: one per byte that starts a character, one more if the
character takes four bytes. -/
def utf16Units (s : List UInt8) : Nat :=
  s.countP (fun b => b < 0x80 || 0xC0 ≤ b) + s.countP (fun b => 0xF0 ≤ b)

/-- Length of a text. -/
def How.measure : How → List UInt8 → Nat
  | .bytes, s => s.length
  | .utf16, s => utf16Units s

/-- Values of the variables in scope, innermost first. -/
abbrev MEnv := List (String × Val)

/-- Follow the steps of a path. -/
def evalSteps (env : MEnv) : Val → List MStep → Option Val
  | v, [] => some v
  | .record fs, .fld n :: rest => match fs.lookup n with
    | some v => evalSteps env v rest
    | none => none
  | .list vs, .idx x :: rest => match env.lookup x with
    | some (.int i) => if i < 0 then none else match vs[i.toNat]? with
      | some v => evalSteps env v rest
      | none => none
    | _ => none
  | _, _ => none

/-- The value at a path. -/
def evalPath (env : MEnv) (a : MPath) : Option Val :=
  match env.lookup a.root with
  | some v => evalSteps env v a.steps
  | none => none

/-- The list at a path; anything else is an error in the generated code. -/
def evalList (env : MEnv) (a : MPath) : Except Fail (List Val) :=
  match evalPath env a with
  | some (.list vs) => .ok vs
  | _ => .error .crash

/-- The text at a path. -/
def evalText (env : MEnv) (a : MPath) : Except Fail (List UInt8) :=
  match evalPath env a with
  | some (.str s) => .ok s
  | _ => .error .crash

/-- State after a line: go on with the size so far, or the function has returned. -/
inductive Flow where
  | go (size : Nat)
  | done (n : Nat)
  deriving DecidableEq, Repr

/-- Run the body for each element. -/
def evalEach (f : Val → Nat → Except Fail Flow) : List Val → Nat → Except Fail Flow
  | [], size => .ok (.go size)
  | v :: vs, size => match f v size with
    | .ok (.go size) => evalEach f vs size
    | r => r

/-- Run the body for each index; the bound is evaluated before each round. -/
def evalIndex (len : Nat → Except Fail Nat) (f : Nat → Nat → Except Fail Flow) :
    Nat → Nat → Nat → Except Fail Flow
  | 0, _, _ => .error .fuel
  | fuel + 1, i, size => match len i with
    | .error e => .error e
    | .ok n =>
      if i < n then match f i size with
        | .ok (.go size) => evalIndex len f fuel (i + 1) size
        | r => r
      else .ok (.go size)

mutual
/-- Execute one line; `bound` is the fuel of index loops. -/
def evalLine (bound : Nat) : MLine → MEnv → Nat → Except Fail Flow
  | .init, _, _ => .ok (.go 0)
  | .ret n, _, _ => .ok (.done n)
  | .add n, _, size => .ok (.go (size + n))
  | .addCount a n, env, size => match evalList env a with
    | .ok vs => .ok (.go (size + vs.length * n))
    | .error e => .error e
  | .addText a how, env, size => match evalText env a with
    | .ok s => .ok (.go (size + how.measure s))
    | .error e => .error e
  | .addTextPlus k a how, env, size => match evalText env a with
    | .ok s => .ok (.go (size + (k + how.measure s)))
    | .error e => .error e
  | .each x _ a body, env, size => match evalList env a with
    | .ok vs => evalEach (fun v size => evalLines bound body ((x, v) :: env) size) vs size
    | .error e => .error e
  | .index x _ a body, env, size =>
    evalIndex (fun i => (evalList ((x, .int i) :: env) a).map List.length)
      (fun i size => evalLines bound body ((x, .int i) :: env) size) (bound + 1) 0 size
/-- Execute lines in order. -/
def evalLines (bound : Nat) : List MLine → MEnv → Nat → Except Fail Flow
  | [], _, size => .ok (.go size)
  | l :: ls, env, size => match evalLine bound l env size with
    | .ok (.go size) => evalLines bound ls env size
    | r => r
end

mutual
/-- A bound on the length of every list inside a value. -/
def weight : Val → Nat
  | .list vs => vs.length + weightList vs
  | .record fs => weightFields fs
  | _ => 0
/-- Sum over the elements. -/
def weightList : List Val → Nat
  | [] => 0
  | v :: vs => weight v + weightList vs
/-- Sum over the members. -/
def weightFields : List (String × Val) → Nat
  | [] => 0
  | (_, v) :: fs => weight v + weightFields fs
end

/-- Run a size computation on an object; a function that can end without `return` does not compile. -/
def runMeasure (f : MFun) (root : String) (v : Val) : Except Fail Nat :=
  match evalLines (weight v) f.lines [(root, v)] 0 with
  | .ok (.go n) => if f.returns then .ok n else .error .illTyped
  | .ok (.done n) => .ok n
  | .error e => .error e

end Beschi.Lang
