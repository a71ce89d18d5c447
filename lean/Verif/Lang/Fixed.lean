import Verif.Lang.Languages
/-
Writing into a buffer that the program provides: TypeScript, AssemblyScript, C and Zig.  In the other
languages the output grows as needed.
-/
namespace Beschi.Lang
open Spec

/-- The languages that write into a buffer of fixed size. -/
inductive Fixed where
  | c
  | typescript
  | assemblyscript
  | zig
  deriving DecidableEq

namespace Fixed

/-- The language; how text is read does not matter here. -/
def language : Fixed → Language
  | .c => .c
  | .typescript => .typescript id
  | .assemblyscript => .assemblyscript id
  | .zig => .zig

/-- Store the pieces of a message, if they can be computed: the buffer afterwards, and the position
reached or the failure. -/
def place (r : Except Fail (List (List UInt8))) (buf : Buf) (off : Nat) : Buf × Except Fail Nat :=
  match r with
  | .error e => (buf, .error e)
  | .ok cs => fillState .eof cs buf off

/-- `writeBytes` of a message into a buffer at a position.  TypeScript: typescript.py L328-374,
TypeScript.ts L89-144, where `DataView` and `set` throw a `RangeError`; AssemblyScript: the same lines
of typescript.py and AssemblyScript.ts L130-227, where `false` is returned after the first piece that
does not fit; C: c.py L377-393; Zig: zig.py L221-265 (if the program stops, the buffer is of no
interest). -/
def writeInto (F : Fixed) (p : Protocol) (m : String) (tag : Bool) (v : Val) (buf : Buf) (off : Nat) :
    Buf × Except Fail Nat :=
  match F with
  | .c => place (C.write p m tag v) buf off
  | .typescript => place (TypeScript.write p m tag v) buf off
  | .assemblyscript => place (AssemblyScript.write p m tag v) buf off
  | .zig => match Zig.writeBytes p m tag buf off v with
    | .ok (buf, k) => (buf, .ok (off + k))
    | .error e => (buf, .error e)

/-- `PackMessages` into a buffer, from its start: the buffer afterwards.  TypeScript.ts L167-184 (for a
view of a whole buffer); AssemblyScript.ts L260-275, which returns nothing, whether everything fitted
or not; c.py L651-690; Zig.zig L248-262. -/
def packInto (F : Fixed) (p : Protocol) (ms : List (String × Val)) (buf : Buf) : Except Fail Buf :=
  match F with
  | .c => (C.packInto p ms buf 0).map (·.1)
  | .typescript =>
    match packWith [bsci] (fun n => .ok (leBytes 4 n)) (TypeScript.write p) ms with
    | .error e => .error e
    | .ok cs => (fill .eof cs buf 0).map (·.1)
  | .assemblyscript =>
    match packWith (bsci.map fun x => [x]) (fun n => .ok (leBytes 4 n)) (AssemblyScript.write p) ms with
    | .error e => .error e
    | .ok cs => .ok (fillState .eof cs buf 0).1
  | .zig => Zig.packInto p ms buf

end Fixed

/-! ### Views of part of a buffer (TypeScript) -/

namespace TypeScript

/-- Is the view inside its buffer?  (`DataView` cannot be created otherwise.) -/
def View.Valid (w : View) : Prop := w.offset + w.length ≤ w.buffer.length

/-- The view after the bytes it shows have been changed. -/
def View.with (w : View) (b : Buf) : View :=
  { w with buffer := w.buffer.take w.offset ++ b ++ w.buffer.drop (w.offset + w.length) }

/-- `writeBytes` of a message given a view (typescript.py L328-374): everything is stored through the
view, texts by way of an array over the same bytes (TypeScript.ts L89-144). -/
def writeView (p : Protocol) (m : String) (tag : Bool) (v : Val) (w : View) : View × Except Fail Nat :=
  let r := Fixed.place (write p m tag v) w.bytes 0
  (w.with r.1, r.2)

/-- `ProcessRawBytes` from a position of a view (typescript.py L417-490). -/
def processView (lossy : List UInt8 → List UInt8) (p : Protocol) (w : View) (pos : Nat) (max : Int) :
    Except Fail (List (String × Val) × Nat) :=
  processBytes (fun pos => decide (w.bytes.length ≤ pos))
    (taggedStep (takeTag .eof w.bytes) (dispatch p)
      (fun m pos => readIn lossy p m w.buffer w.bytes pos) .invalid) w.bytes pos max

/-- `PackMessages` into a view (TypeScript.ts L167-184): the letters are stored in the underlying
buffer, from its start. -/
def packView (p : Protocol) (ms : List (String × Val)) (w : View) : View × Except Fail Nat :=
  match store .eof bsci w.buffer 0 with
  | .error e => (w, .error e)
  | .ok (buffer, _) =>
    let w := { w with buffer := buffer }
    let r := Fixed.place (packWith [] (fun n => .ok (leBytes 4 n)) (write p) ms) w.bytes 4
    (w.with r.1, r.2)

/-- `UnpackMessages` from a view (TypeScript.ts L186-212): the letters are looked for at the start of
the underlying buffer. -/
def unpackView (lossy : List UInt8 → List UInt8) (p : Protocol) (w : View) :
    Except Fail (List (String × Val)) :=
  match takeN .eof 4 w.buffer 0 with
  | .error e => .error e
  | .ok (h, pos) =>
    if h ≠ bsci then .error .invalid
    else match takeNum .eof .uint32 w.bytes pos with
      | .ok (.int n, pos) =>
        if n = 0 then .ok []
        else match processView lossy p w pos n with
          | .error e => .error e
          | .ok (ms, _) => checkCount n ms
      | .ok _ => .error .illTyped
      | .error e => .error e

end TypeScript
end Beschi.Lang
