import Verif.Lang.Reader
/-
Shape and meaning of the writing functions that the generators emit (`serializer` and the
`WriteBytes` part of `gen_struct`: rust.py L76-102 and L235-249, csharp.py L85-105 and L225-241,
swift.py L77-92 and L213-227, go.py L117-136 and L283-296, typescript.py L126-159 and L328-374 (also for
AssemblyScript), zig.py L75-87 and L221-265, c.py L130-156 and L377-393).

A writing function is a list of statements over the members of the object.  Running it gives the
pieces of output in order, one per primitive write; how the pieces reach the caller (appended to a
growing buffer, or stored in one of fixed size) is modelled separately.
-/
namespace Beschi.Lang
open Spec

/-- One write of a single value (the non-list branches of `serializer`: rust.py L85-102,
csharp.py L95-105, swift.py L86-92, go.py L128-136, typescript.py L140-159, zig.py L75-87,
c.py L141-156). -/
inductive WAtom where
  /-- write of a number by the primitive with the given name -/
  | num (prim : String)
  /-- write of a text: length, then UTF-8 bytes -/
  | text
  /-- call of the writing function of another struct -/
  | call (s : String)
  deriving DecidableEq, Repr

/-- One statement of a writing function (`serializer`, same lines): write the member `src`, or its
length with `lenPrim` and then its elements. -/
inductive WStmt where
  | one (src : String) (a : WAtom)
  | list (src : String) (lenPrim : String) (a : WAtom)
  deriving DecidableEq, Repr

/-- A writing function (`gen_struct`: rust.py L235-249, csharp.py L225-241, swift.py L213-227,
go.py L283-296, typescript.py L328-374, zig.py L221-265, c.py L377-393). -/
structure WFun where
  /-- names declared for the object and in the function that the language requires to be distinct -/
  decls : List String := []
  body : List WStmt

/-- What differs between the runtimes of the target languages: number primitives, text, the
conversion of a list's length to the size type, and how many elements of a list of given length are
written after such a length (all of them, except where the loop runs up to the converted length:
go.py L118-127). -/
structure WriteSem where
  num : String → Val → Except Fail (List UInt8)
  text : List UInt8 → Except Fail (List (List UInt8))
  count : Nat → Except Fail Int
  loops : Int → Nat → Nat := fun _ k => k

/-- Text bytes of a value. -/
def asText : Val → Except Fail (List UInt8)
  | .str s => .ok s
  | _ => .error .illTyped

/-- Elements of a list value. -/
def asList : Val → Except Fail (List Val)
  | .list l => .ok l
  | _ => .error .illTyped

/-- Members of an object. -/
def asRecord : Val → Except Fail (List (String × Val))
  | .record fs => .ok fs
  | _ => .error .illTyped

/-- A member of an object. -/
def getField (fs : List (String × Val)) (n : String) : Except Fail Val :=
  match fs.lookup n with
  | some v => .ok v
  | none => .error .illTyped

/-- Write elements one after the other. -/
def writeItems (wr : Val → Except Fail (List (List UInt8))) : List Val → Except Fail (List (List UInt8))
  | [] => .ok []
  | v :: vs => do
    let a ← wr v
    let b ← writeItems wr vs
    return a ++ b

/-- Execute one statement. -/
def writeStmt (S : WriteSem) (wr : WAtom → Val → Except Fail (List (List UInt8)))
    (fs : List (String × Val)) : WStmt → Except Fail (List (List UInt8))
  | .one src a => do
    let v ← getField fs src
    wr a v
  | .list src lenPrim a => do
    let v ← getField fs src
    let vs ← asList v
    let i ← S.count vs.length
    let len ← S.num lenPrim (.int i)
    let items ← writeItems (wr a) (vs.take (S.loops i vs.length))
    return len :: items

/-- Execute the statements of a function in order. -/
def writeBody (S : WriteSem) (wr : WAtom → Val → Except Fail (List (List UInt8)))
    (fs : List (String × Val)) : List WStmt → Except Fail (List (List UInt8))
  | [] => .ok []
  | s :: ss => do
    let a ← writeStmt S wr fs s
    let b ← writeBody S wr fs ss
    return a ++ b

/-- Run a writing function on an object. -/
def runWrite (S : WriteSem) (wr : WAtom → Val → Except Fail (List (List UInt8))) (v : Val) (f : WFun) :
    Except Fail (List (List UInt8)) :=
  if ¬ f.decls.Nodup then .error .illTyped
  else do
    let fs ← asRecord v
    writeBody S wr fs f.body

/-- Execute a single write; `fn` gives the generated writing functions by struct name. -/
def writeAtom (S : WriteSem) (fn : String → Option WFun) :
    Nat → WAtom → Val → Except Fail (List (List UInt8))
  | 0, _, _ => .error .fuel
  | fuel + 1, a, v => match a with
    | .num prim => do
      let bs ← S.num prim v
      return [bs]
    | .text => do
      let s ← asText v
      S.text s
    | .call s => match fn s with
      | none => .error .illTyped
      | some f => runWrite S (writeAtom S fn fuel) v f

end Beschi.Lang
