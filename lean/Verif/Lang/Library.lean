import Verif.Lang.Measure
/-
What a generated library offers to a program that uses it, and the parts of it that have the same
shape in all languages: the loop over a stream of tagged messages, packing and unpacking.
-/
namespace Beschi.Lang
open Spec

/-- The operations of a generated library.  A message is given by the name of its type and its
value; output is the list of pieces written one after the other. -/
structure Library where
  /-- the number the library gives to a message type -/
  ident : String → Option Nat
  /-- the message type the library reads after a given identifier byte -/
  dispatch : Nat → Option String
  /-- write a message, with or without its identifier -/
  write : String → Bool → Val → Except Fail (List (List UInt8))
  /-- read a message without identifier from a buffer at a position -/
  read : String → Buf → Nat → Except Fail (Val × Nat)
  /-- the size of a message in bytes -/
  size : String → Val → Except Fail Nat
  /-- process a stream of tagged messages, with a limit -/
  process : Buf → Nat → Int → Except Fail (List (String × Val) × Nat)
  packedSize : List (String × Val) → Except Fail Nat
  pack : List (String × Val) → Except Fail (List (List UInt8))
  unpack : Buf → Nat → Except Fail (List (String × Val))
  /-- a freshly created message -/
  create : String → Except Fail Val

/-- Position of a message among the declared ones: `list(self.protocol.messages.keys()).index(sname)`
(rust.py L240) and the running number of `enumerate(self.protocol.messages)` (csharp.py L287,
swift.py L257-258, go.py L316-321, typescript.py L402-403, zig.py L316-318, c.py L436-440). -/
def messageIndex (p : Protocol) (m : String) : Option Nat := p.messages.findIdx? (·.name == m)

/-- The arms of the generated dispatch: numbers counted from `first`, with the message read for
each (`enumerate(self.protocol.messages)`, rust.py L327-328 and the same loops as above). -/
def messageArms (p : Protocol) (first : Nat) : List (Nat × String) :=
  p.messages.zipIdx.map fun x => (x.2 + first, x.1.name)

/-- Reading of a message, from the generated reading functions `fn`: `from_bytes` of the message
(rust.py L226-232, csharp.py L202-222, swift.py L200-209, typescript.py L270-325, zig.py L196-219,
c.py L340-375). -/
def readMessage (S : ReadSem) (fn : Struct → RFun) (p : Protocol) (m : String) (b : Buf) (pos : Nat) :
    Except Fail (Val × Nat) :=
  match p.message? m with
  | none => .error .illTyped
  | some st => runFun S (readAtom S (fun s => (p.struct? s).map fn) b (depth p)) b pos (fn st)

/-- Writing of a message, from the generated writing functions `fn`: `write_bytes` of the message
(rust.py L235-249, csharp.py L225-241, swift.py L213-227, typescript.py L328-374, zig.py L221-265,
c.py L377-393); the identifier is the number of the message counted from 1. -/
def writeMessage (S : WriteSem) (fn : Struct → WFun) (p : Protocol) (m : String) (tag : Bool)
    (v : Val) : Except Fail (List (List UInt8)) :=
  match p.message? m, messageIndex p m with
  | some st, some i => do
    let cs ← runWrite S (writeAtom S (fun s => (p.struct? s).map fn) (depth p)) v (fn st)
    return if tag then [UInt8.ofNat (i + 1)] :: cs else cs
  | _, _ => .error .illTyped

/-- `get_size_in_bytes` of a message (rust.py L214-223, csharp.py L188-199, swift.py L178-188,
go.py L248-257, typescript.py L255-264, zig.py L177-189, c.py L326-333). -/
def sizeMessage (M : MStyle) (root : String) (lvl : Nat) (p : Protocol) (m : String) (v : Val) :
    Except Fail Nat :=
  match p.message? m with
  | none => .error .illTyped
  | some st => match measureFun M p st root lvl with
    | none => .error .illTyped
    | some f => runMeasure f root v

/-- The check that a number is one of those declared for an enum: one `match` arm per value
(rust.py L166-173), `Enum.IsDefined` (csharp.py L53, L72), `init(rawValue:)` (swift.py L59-65),
the reverse mapping of a TypeScript enum (typescript.py L80, L97), `isValidEnum`
(Zig.zig L55-62, L86-91), one `case` per value (c.py L298-315). -/
def checkDeclared (p : Protocol) (e : String) (i : Int) : Except Fail Val :=
  match p.enum? e with
  | none => .error .illTyped
  | some d => match d.values.find? (·.2 == i) with
    | some x => .ok (.int x.2)
    | none => .error .invalid

/-- Outcome of one round of the loop over a stream: the stream has ended, or one more message. -/
inductive Step where
  | stop (pos : Nat)
  | msg (m : String × Val) (pos : Nat)

/-- The loop of `ProcessRawBytes` (rust.py L350-376, CSharp.1.cs L29-49, swift.py L272-321,
go.py L345-389, typescript.py L417-491, zig.py L355-394, c.py L535-587): go on while there is data
and fewer than `max` messages have been read (no limit if `max` is negative).  `acc` is the list
being built.  The fuel bounds the number of rounds. -/
def processLoop (finished : Nat → Bool) (step : Nat → Except Fail Step) (max : Int) :
    Nat → List (String × Val) → Nat → Except Fail (List (String × Val) × Nat)
  | 0, _, _ => .error .fuel
  | fuel + 1, acc, pos =>
    if !finished pos && (decide (max < 0) || decide ((acc.length : Int) < max)) then
      match step pos with
      | .error e => .error e
      | .ok (.stop pos) => .ok (acc, pos)
      | .ok (.msg m pos) => processLoop finished step max fuel (acc ++ [m]) pos
    else .ok (acc, pos)

/-- `ProcessRawBytes` (same lines): nothing is read if the limit is zero. -/
def processBytes (finished : Nat → Bool) (step : Nat → Except Fail Step) (b : Buf) (pos : Nat)
    (max : Int) : Except Fail (List (String × Val) × Nat) :=
  if max = 0 then .ok ([], pos) else processLoop finished step max (b.length + 2 - pos) [] pos

/-- A function that is given the data from a position on as a buffer of its own; the position it
reaches is counted from there. -/
def rebased {α : Type} (f : Buf → Nat → Except Fail (α × Nat)) (b : Buf) (pos : Nat) :
    Except Fail (α × Nat) :=
  match f (b.drop pos) 0 with
  | .ok (v, q) => .ok (v, pos + q)
  | .error e => .error e

/-- One tagged message where 0 ends the stream: read the identifier with `tag`, choose the message
with `dispatch`, read it with `read`; `unknown` is the failure for other identifiers. -/
def taggedStep (tag : Nat → Except Fail (Nat × Nat)) (dispatch : Nat → Option String)
    (read : String → Nat → Except Fail (Val × Nat)) (unknown : Fail) (pos : Nat) : Except Fail Step :=
  match tag pos with
  | .error e => .error e
  | .ok (t, pos) =>
    if t = 0 then .ok (.stop pos)
    else match dispatch t with
      | none => .error unknown
      | some m => match read m pos with
        | .error e => .error e
        | .ok (v, pos) => .ok (.msg (m, v) pos)

/-- Read the identifier byte of a message. -/
def takeTag (e : Fail) (b : Buf) (pos : Nat) : Except Fail (Nat × Nat) :=
  match b[pos]? with
  | some t => .ok (t.toNat, pos + 1)
  | none => .error e

/-- Sum of the sizes of messages. -/
def sumSizes (size : String → Val → Except Fail Nat) : List (String × Val) → Except Fail Nat
  | [] => .ok 0
  | (m, v) :: ms => do
    let a ← size m v
    let b ← sumSizes size ms
    return a + b

/-- `GetPackedSize` (Rust.rs L133-143, CSharp.1.cs L51-60, Swift.1.swift L2-10, Go.go L35-43,
TypeScript.ts L157-165, AssemblyScript.ts L250-258, Zig.zig L238-246, c.py L618-648). -/
def packedSizeOf (size : String → Val → Except Fail Nat) (ms : List (String × Val)) :
    Except Fail Nat := do
  let k ← sumSizes size ms
  return k + ms.length + 9

/-- Write messages one after the other, each with its identifier. -/
def writeAll (wr : String → Bool → Val → Except Fail (List (List UInt8))) :
    List (String × Val) → Except Fail (List (List UInt8))
  | [] => .ok []
  | (m, v) :: ms => do
    let a ← wr m true v
    let b ← writeAll wr ms
    return a ++ b

/-- The letters `BSCI`. -/
def bsci : List UInt8 := [66, 83, 67, 73]

/-- `PackMessages` (Rust.rs L145-155, CSharp.1.cs L62-73, Swift.1.swift L12-22, Go.go L45-52,
TypeScript.ts L167-184, AssemblyScript.ts L260-275, Zig.zig L248-262, c.py L651-690): the letters BSCI, the number of
messages (`count`), the tagged messages, a zero byte. -/
def packWith (header : List (List UInt8)) (count : Nat → Except Fail (List UInt8))
    (wr : String → Bool → Val → Except Fail (List (List UInt8))) (ms : List (String × Val)) :
    Except Fail (List (List UInt8)) := do
  let n ← count ms.length
  let body ← writeAll wr ms
  return header ++ [n] ++ body ++ [[0]]

/-- The last part of `UnpackMessages`: no message, or not as many as announced, is an error
(Rust.rs L169-177, CSharp.1.cs L88-95, Swift.0.swift L266-273, Go.go L73-80, TypeScript.ts L203-211,
AssemblyScript.ts L295-302, Zig.zig L279-285, c.py L708-725). -/
def checkCount (n : Int) (ms : List (String × Val)) : Except Fail (List (String × Val)) :=
  if ms.length = 0 then .error .invalid
  else if (ms.length : Int) ≠ n then .error .invalid
  else .ok ms

/-- `UnpackMessages` (Rust.rs L157-178, CSharp.1.cs L75-96, Swift.0.swift L249-274, Go.go L54-81,
TypeScript.ts L186-212, AssemblyScript.ts L277-303, Zig.zig L264-286, c.py L693-725): check the
letters, read the number of messages, process at most so many, compare the numbers.  `short` is the
failure when there are fewer than four bytes, `countTy` and `countFail` the type of the number and
the failure when it is cut off, `limit` the conversion of the number to a limit. -/
def unpackWith (short countFail : Fail) (countTy : NumTy) (limit : Int → Except Fail Int)
    (process : Nat → Int → Except Fail (List (String × Val) × Nat)) (b : Buf) (pos : Nat) :
    Except Fail (List (String × Val)) :=
  match takeN short 4 b pos with
  | .error e => .error e
  | .ok (h, pos) =>
    if h ≠ bsci then .error .invalid
    else match takeNum countFail countTy b pos with
      | .ok (.int n, pos) =>
        if n = 0 then .ok []
        else match limit n with
          | .error e => .error e
          | .ok k => match process pos k with
            | .error e => .error e
            | .ok (ms, _) => checkCount n ms
      | .ok _ => .error .illTyped
      | .error e => .error e

/-- A library that does not compile. -/
def broken : Library where
  ident _ := none
  dispatch _ := none
  write _ _ _ := .error .illTyped
  read _ _ _ := .error .illTyped
  size _ _ := .error .illTyped
  process _ _ _ := .error .illTyped
  packedSize _ := .error .illTyped
  pack _ := .error .illTyped
  unpack _ _ := .error .illTyped
  create _ := .error .illTyped

end Beschi.Lang
