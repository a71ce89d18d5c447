import Verif.Lang.Library
/-
Writing into a buffer that the program provides, as TypeScript, AssemblyScript, C and Zig do: each
primitive write stores its bytes at the current position if they fit, and fails otherwise.
-/
namespace Beschi.Lang

/-- Store bytes in a buffer at a position if there is room (`DataAccess.Set..`, TypeScript.ts L76-155,
AssemblyScript.ts L111-225; C.1.h L144-246). -/
def store (e : Fail) (bs : List UInt8) (buf : Buf) (off : Nat) : Except Fail (Buf × Nat) :=
  if off + bs.length ≤ buf.length then
    .ok (buf.take off ++ bs ++ buf.drop (off + bs.length), off + bs.length)
  else .error e

/-- Store pieces of output one after the other (same lines); the first that does not fit ends the
writing. -/
def fill (e : Fail) : List (List UInt8) → Buf → Nat → Except Fail (Buf × Nat)
  | [], buf, off => .ok (buf, off)
  | c :: cs, buf, off => match store e c buf off with
    | .error e => .error e
    | .ok (buf, off) => fill e cs buf off

/-- The same with the buffer as it is left behind, also by a failure (same lines): the position
reached or the failure. -/
def fillState (e : Fail) : List (List UInt8) → Buf → Nat → Buf × Except Fail Nat
  | [], buf, off => (buf, .ok off)
  | c :: cs, buf, off => match store e c buf off with
    | .error e => (buf, .error e)
    | .ok (buf, off) => fillState e cs buf off

end Beschi.Lang
