import Verif.Protocol.Usable
import Verif.Lang.Numbers
/-
Shape and meaning of the reading functions that the generators emit
(`deserializer` and the `FromBytes` part of `gen_struct` in beschi/writers/*.py).

A generated function is a list of statements; the statements are those the `deserializer` methods
write, with the lines of one read grouped together.  The meaning is given once here; what differs
between languages (which primitive reads what, how text is decoded, how enums are checked, how a
list length is turned into a loop) is a parameter (`ReadSem`).  Recursion through nested structs has
fuel; running out of it is the failure `fuel`.  Running out of memory is not modelled.
-/
namespace Beschi.Lang
open Spec

/-- How generated code can fail.  `eof` and `invalid` are the library's own errors (Rust.rs
L6-11, Swift.0.swift L2-5, Zig.zig L1-4, C.0.h L14-18; the exceptions and errors of the others are
cited where they arise). -/
inductive Fail where
  /-- reported to the caller: the data ends too early -/
  | eof
  /-- reported to the caller: the data is not acceptable -/
  | invalid
  /-- the program stops: panic, trap, failed assertion, undefined behaviour, or an exception that is
  not one of the library's own -/
  | crash
  /-- the generated code does not compile or does not type check -/
  | illTyped
  /-- recursion deeper than allowed for -/
  | fuel
  deriving DecidableEq, Repr

/-- The failures a caller is told about (same lines). -/
def Fail.reported : Fail → Bool
  | .eof | .invalid => true
  | _ => false

/-- Bytes that can be read from: the buffer or slice that the readers of all languages wrap. -/
abbrev Buf := List UInt8

/-- Take `k` bytes at a position; fail with `e` if there are not so many: the bounds check that the
readers have in common (Rust.rs L32-43, CSharp.0.cs, Swift.0.swift, TypeScript.ts L27-73,
Zig.zig L76-78, C.1.h L30-41); each language's own definitions cite its lines. -/
def takeN (e : Fail) (k : Nat) (b : Buf) (pos : Nat) : Except Fail (List UInt8 × Nat) :=
  if pos + k ≤ b.length then .ok ((b.drop pos).take k, pos + k) else .error e

/-- Read a little-endian number at a position; fail with `e` at the end of the data (same lines). -/
def takeNum (e : Fail) (n : NumTy) (b : Buf) (pos : Nat) : Except Fail (Val × Nat) :=
  match takeN e n.size b pos with
  | .ok (bs, pos) => .ok (fromLE n bs, pos)
  | .error e => .error e

/-- Something a generated function can store into: a local variable, or a member of the object being
built (the left-hand sides written by `deserializer`: rust.py L46-74, csharp.py L41-83, swift.py L43-75, go.py L59-115, typescript.py L51-124,
zig.py L45-73, c.py L70-128). -/
inductive Loc where
  | var (name : String)
  | mem (name : String)
  deriving DecidableEq, Repr

/-- One read of a single value (the right-hand sides written by `deserializer`: rust.py L46-74, csharp.py L41-83, swift.py L43-75, go.py L59-115, 
typescript.py L51-124,
zig.py L45-73, c.py L70-128). -/
inductive RAtom where
  /-- call of the number primitive with the given name -/
  | num (prim : String)
  /-- call of the text primitive -/
  | text
  /-- read a number with the given primitive, then check or convert it to the enum -/
  | enum (prim : String) (e : String)
  /-- call of the reading function of another struct -/
  | call (s : String)
  /-- call of a reading function that does not read one member after the other -/
  | whole (s : String)
  deriving DecidableEq, Repr

/-- One statement of a reading function: the lines `deserializer` writes for one member
(rust.py L46-74, csharp.py L41-83, swift.py L43-75, go.py L59-115, typescript.py L51-124,
zig.py L45-73, c.py L70-128). -/
inductive RStmt where
  | one (dst : Loc) (a : RAtom)
  /-- read a length with `lenPrim` into `len`, then that many elements into `dst` -/
  | list (dst len : Loc) (lenPrim : String) (a : RAtom)
  deriving DecidableEq, Repr

/-- A reading function: the part of `gen_struct` that writes `from_bytes` (rust.py L226-232,
csharp.py L202-222, swift.py L200-209, go.py L259-279, typescript.py L270-325, zig.py L196-219,
c.py L340-375). -/
structure RFun where
  /-- names the function's own calls rely on; once rebound, later reads do not compile -/
  params : List Loc := []
  /-- names declared in the function that the language requires to be distinct -/
  decls : List String := []
  body : List RStmt
  /-- the members of the returned object and where their values are taken from -/
  result : List (String × Loc)

/-- What differs between the runtimes of the target languages: the reading functions of
beschi/writers/boilerplate/*; each language's instance cites its lines. -/
structure ReadSem where
  num : String → Buf → Nat → Except Fail (Val × Nat)
  text : Buf → Nat → Except Fail (Val × Nat)
  enum : String → Int → Except Fail Val
  count : Int → Except Fail Nat
  /-- structs that are read by a function of another form (zig.py L46-54) -/
  isWhole : String → Bool := fun _ => false
  whole : String → Buf → Nat → Except Fail (Val × Nat) := fun _ _ _ => .error .illTyped

/-- Variable bindings, latest first (assignments written by `deserializer`, lines above). -/
abbrev REnv := List (Loc × Val)

/-- Read `k` elements one after the other: the loop over a list (rust.py L47-57, csharp.py L42-57,
swift.py L44-55, go.py L60-86, typescript.py L52-87, Zig.zig L149-175, c.py L71-97). -/
def readItems (rd : Nat → Except Fail (Val × Nat)) : Nat → Nat → Except Fail (List Val × Nat)
  | 0, pos => .ok ([], pos)
  | k + 1, pos => do
    let (v, pos) ← rd pos
    let (vs, pos) ← readItems rd k pos
    return (v :: vs, pos)

/-- The integer in a value: lengths and enums are read by integer primitives only. -/
def asInt : Val → Except Fail Int
  | .int i => .ok i
  | _ => .error .illTyped

/-- Execute one statement (the lines of `deserializer` above). -/
def execStmt (S : ReadSem) (rd : RAtom → Nat → Except Fail (Val × Nat)) (b : Buf) (env : REnv)
    (pos : Nat) : RStmt → Except Fail (REnv × Nat)
  | .one dst a => do
    let (v, pos) ← rd a pos
    return ((dst, v) :: env, pos)
  | .list dst len lenPrim a => do
    let (n, pos) ← S.num lenPrim b pos
    let i ← asInt n
    let k ← S.count i
    let (vs, pos) ← readItems (rd a) k pos
    return ((dst, .list vs) :: (len, n) :: env, pos)

/-- Execute the statements of a function in order (`[self.deserializer(mem, ..) for mem in
sdata.members]`: rust.py L228, csharp.py L210, swift.py L207, go.py L266-271, L277,
typescript.py L308, zig.py L204-205, c.py L371). -/
def execBody (S : ReadSem) (rd : RAtom → Nat → Except Fail (Val × Nat)) (params : List Loc) (b : Buf) :
    REnv → Nat → List RStmt → Except Fail (REnv × Nat)
  | env, pos, [] => .ok (env, pos)
  | env, pos, s :: ss =>
    if params.any (fun l => env.any (fun e => e.1 == l)) then .error .illTyped
    else do
      let (env, pos) ← execStmt S rd b env pos s
      execBody S rd params b env pos ss

/-- Build the returned object (`from_bytes`, lines above). -/
def buildResult (env : REnv) : List (String × Loc) → Except Fail (List (String × Val))
  | [] => .ok []
  | (n, l) :: rest => match env.lookup l with
    | none => .error .illTyped
    | some v => do
      let fs ← buildResult env rest
      return ((n, v) :: fs)

/-- Run a reading function (`from_bytes`, lines above). -/
def runFun (S : ReadSem) (rd : RAtom → Nat → Except Fail (Val × Nat)) (b : Buf) (pos : Nat)
    (f : RFun) : Except Fail (Val × Nat) :=
  if ¬ f.decls.Nodup then .error .illTyped
  else do
    let (env, pos) ← execBody S rd f.params b [] pos f.body
    let fs ← buildResult env f.result
    return (.record fs, pos)

/-- Execute a single read; `fn` gives the generated reading functions by struct name
(`deserializer`, lines above). -/
def readAtom (S : ReadSem) (fn : String → Option RFun) (b : Buf) :
    Nat → RAtom → Nat → Except Fail (Val × Nat)
  | 0, _, _ => .error .fuel
  | fuel + 1, a, pos => match a with
    | .num prim => S.num prim b pos
    | .text => S.text b pos
    | .enum prim e => do
      let (n, pos) ← S.num prim b pos
      let i ← asInt n
      let v ← S.enum e i
      return (v, pos)
    | .call s => match fn s with
      | none => .error .illTyped
      | some f => runFun S (readAtom S fn b fuel) b pos f
    | .whole s => S.whole s b pos

/-- Recursion depth that suffices for reading and writing any accepted protocol's messages; not part
of the code. -/
def depth (p : Protocol) : Nat := p.structs.length + 2

end Beschi.Lang
