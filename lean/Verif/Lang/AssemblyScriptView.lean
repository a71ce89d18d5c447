import Verif.Lang.ViewProof
/-
Views of part of a buffer in AssemblyScript.  A view is a `DataView`, as in TypeScript.  Every number
is read and written with the methods of the view, and texts byte by byte with `getByte` and `setByte`
(AssemblyScript.ts L110-125, L212-227), so that the place where the view starts is observed; only
`UnpackMessages` makes a new view, and it does so over the underlying buffer (L294).
-/
namespace Beschi.Lang.AssemblyScript
open Spec
open TypeScript (View)

/-- `fromBytes` of a message given a view (typescript.py L289-293; AssemblyScript.ts L1-125): starts at position 0 of the view. -/
def readView (lossy : List UInt8 → List UInt8) (p : Protocol) (m : String) (w : View) :
    Except Fail (Val × Nat) := read lossy p m w.bytes 0

/-- `writeBytes` of a message given a view (AssemblyScript.ts L127-227). -/
def writeView (p : Protocol) (m : String) (tag : Bool) (v : Val) (w : View) : View × Except Fail Nat :=
  let r := Fixed.place (write p m tag v) w.bytes 0
  (w.with r.1, r.2)

/-- `ProcessRawBytes` of a view (typescript.py L437-441): starts at position 0. -/
def processView (lossy : List UInt8 → List UInt8) (p : Protocol) (w : View) (max : Int) :
    Except Fail (List (String × Val) × Nat) := process lossy p w.bytes 0 max

/-- `PackMessages` into a view (AssemblyScript.ts L260-275): the letters too are stored with `setByte`.
Nothing is returned; if something does not fit, the rest is left out. -/
def packView (p : Protocol) (ms : List (String × Val)) (w : View) : Except Fail View :=
  (Fixed.packInto .assemblyscript p ms w.bytes).map w.with

/-- `UnpackMessages` from a view (AssemblyScript.ts L277-303).  The letters and the number of messages
are read through the view.  The messages are processed in a new view (L294) of the underlying buffer,
which starts at the position reached, counted from the start of the buffer instead of the start of the
view.  (Creating it cannot fail: it ends no later than the view.) -/
def unpackView (lossy : List UInt8 → List UInt8) (p : Protocol) (w : View) :
    Except Fail (List (String × Val)) :=
  if w.length < 12 then .error .crash
  else thrown (unpackWith .invalid .invalid .uint32 (fun n => .ok n)
    (fun q k => processView lossy p ⟨w.buffer, q, w.length - q⟩ k) w.bytes 0)

end Beschi.Lang.AssemblyScript
