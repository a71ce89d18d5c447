import Verif.Lang.C
/-
Reading in C when memory may run out (beschi/writers/c.py and boilerplate/C.1.h): every `MALLOC` and
`REALLOC` asks an allocator, which may refuse.  The header lets the user replace these macros (C.1.h
L19-24).

The values are those of `C.lean`; what is left in memory is not modelled here.  Storing through a null
pointer is `crash`.
-/
namespace Beschi.Lang.C
open Spec

/-- Why a function does not succeed. -/
inductive Stop where
  /-- as without an allocator -/
  | fail (f : Fail)
  /-- `ERR_ALLOCATION_FAILURE` (C.0.h L18) is returned -/
  | noMemory
  deriving DecidableEq, Repr

/-- Which requests are granted, by their number. -/
abbrev Allocator := Nat → Bool

/-- What depends on the number of requests so far: the outcome, and the number of requests then. -/
def Attempt (α : Type) := Nat → Except Stop α × Nat

/-- Statements one after the other: what comes after a `return err` is not executed
(`err_check_return`, c.py L63-68). -/
def Attempt.bind {α β} (x : Attempt α) (f : α → Attempt β) : Attempt β := fun c => match x c with
  | (.error e, c) => (.error e, c)
  | (.ok a, c) => f a c

/-- Statements one after the other (same lines). -/
instance : Monad Attempt where
  pure a := fun c => (.ok a, c)
  bind := Attempt.bind

/-- What does not need memory. -/
def Attempt.of {α} (x : Except Fail α) : Attempt α := fun c => (x.mapError .fail, c)

/-- `MALLOC` or `REALLOC` (C.1.h L19-24): is there memory? -/
def request (al : Allocator) : Attempt Bool := fun c => (.ok (al c), c + 1)

/-- `MALLOC` and `if (.. == NULL) { return ..ERR_ALLOCATION_FAILURE; }` (C.1.h L135-136, c.py L78-79, L539-540,
L552-553, L569-570) -/
def need (al : Allocator) : Attempt Unit := do
  if ← request al then pure () else fun c => (.error .noMemory, c)

/-- `ReadString` (C.1.h L126-141): there is no request if the data ends too early, or if the size cannot
be computed. -/
def allocString (al : Allocator) (p : Protocol) (b : Buf) (pos : Nat) : Attempt (Val × Nat) := do
  let (n, pos) ← Attempt.of (readNum (readPrim p.stringSize) b pos)
  match n with
  | .int i =>
    if (b.length : Int) < (pos + i) % 2 ^ 64 ∨ room p.stringSize i = none then Attempt.of (do
      let (bs, pos) ← slice p i b pos
      return (.str bs, pos))
    else do
      need al
      Attempt.of (do
        let (bs, pos) ← slice p i b pos
        return (.str bs, pos))
  | _ => Attempt.of (.error .illTyped)

/-- `ReadString` where the length is to be stored in a block that could not be allocated: the length is
read from the data, if it is there (C.1.h L128-131), and stored through a null pointer. -/
def nullString (p : Protocol) (b : Buf) (pos : Nat) : Attempt (Val × Nat) := do
  let _ ← Attempt.of (readNum (readPrim p.stringSize) b pos)
  Attempt.of (.error .crash)

/-- The loop over the elements of a list (c.py L84-99). -/
def allocItems (rd : Nat → Attempt (Val × Nat)) : Nat → Nat → Attempt (List Val × Nat)
  | 0, pos => pure ([], pos)
  | k + 1, pos => do
    let (v, pos) ← rd pos
    let (vs, pos) ← allocItems rd k pos
    return (v :: vs, pos)

/-- The memory for the lengths of the texts in a list (c.py L80-82): the test after the request is for the
elements, which are there, so a refusal goes unnoticed. -/
def lengths (al : Allocator) (a : RAtom) : Attempt Bool :=
  if a = .text then request al else pure true

/-- One member (`deserializer`, c.py L70-128). -/
def allocStmt (al : Allocator) (p : Protocol) (rd : RAtom → Nat → Attempt (Val × Nat)) (b : Buf) (env : REnv) (pos : Nat) :
    RStmt → Attempt (REnv × Nat)
  | .one dst a => do
    let (v, pos) ← rd a pos
    return ((dst, v) :: env, pos)
  | .list dst len lenPrim a => do
    let (n, pos) ← Attempt.of (readNum lenPrim b pos)
    let i ← Attempt.of (asInt n)
    need al
    let k ← Attempt.of ((readSem p).count i)
    let there ← lengths al a
    let (vs, pos) ← allocItems (if there then rd a else nullString p b) k pos
    return ((dst, .list vs) :: (len, n) :: env, pos)

/-- The members in order (c.py L371). -/
def allocBody (al : Allocator) (p : Protocol) (rd : RAtom → Nat → Attempt (Val × Nat)) (b : Buf) :
    REnv → Nat → List RStmt → Attempt (REnv × Nat)
  | env, pos, [] => pure (env, pos)
  | env, pos, s :: ss => do
    let (env, pos) ← allocStmt al p rd b env pos s
    allocBody al p rd b env pos ss

/-- `{name}_FromBytes` (c.py L365-374). -/
def allocFun (al : Allocator) (p : Protocol) (rd : RAtom → Nat → Attempt (Val × Nat)) (b : Buf) (pos : Nat) (f : RFun) :
    Attempt (Val × Nat) := do
  let (env, pos) ← allocBody al p rd b [] pos f.body
  let fs ← Attempt.of (buildResult env f.result)
  return (.record fs, pos)

/-- Reading of one value (`deserializer`, c.py L103-128). -/
def allocAtom (al : Allocator) (p : Protocol) (b : Buf) : Nat → RAtom → Nat → Attempt (Val × Nat)
  | 0, _, _ => Attempt.of (.error .fuel)
  | fuel + 1, a, pos => match a with
    | .num prim => Attempt.of (readNum prim b pos)
    | .text => allocString al p b pos
    | .enum prim e => do
      let (n, pos) ← Attempt.of (readNum prim b pos)
      let i ← Attempt.of (asInt n)
      let v ← Attempt.of (checkDeclared p e i)
      return (v, pos)
    | .call s => match p.struct? s with
      | none => Attempt.of (.error .illTyped)
      | some st => allocFun al p (allocAtom al p b fuel) b pos (fromBytes p st)
    | .whole _ => Attempt.of (.error .illTyped)

/-- `{name}_FromBytes` of a message into a struct that the caller provides (c.py L365-374). -/
def allocRead (al : Allocator) (p : Protocol) (m : String) (b : Buf) (pos : Nat) : Attempt (Val × Nat) :=
  match p.message? m with
  | none => Attempt.of (.error .illTyped)
  | some st => allocFun al p (allocAtom al p b (depth p)) b pos (fromBytes p st)

/-- The loop of `ProcessRawBytes` (c.py L548-584) where there is room for `room` messages.  Storing a message
behind that is a fault; the code stores it after reading it, whether that succeeds or not (L571-574). -/
def allocLoop (al : Allocator) (p : Protocol) (b : Buf) (max : Int) :
    Nat → Nat → List (String × Val) → Nat → Attempt (List (String × Val) × Nat)
  | 0, _, _, _ => Attempt.of (.error .fuel)
  | fuel + 1, room, acc, pos =>
    if pos < b.length ∧ (max < 0 ∨ (acc.length : Int) < max) then do
      let room ← (if acc.length < room then pure room else do need al; pure (2 * room))
      let (t, pos) ← Attempt.of (takeTag .eof b pos)
      if t = 0 then pure (acc, pos)
      else match dispatch p t with
        | none => Attempt.of (.error .invalid)
        | some m => do
          need al
          if acc.length < room then do
            let (v, pos) ← allocRead al p m b pos
            allocLoop al p b max fuel room (acc ++ [(m, v)]) pos
          else Attempt.of (.error .crash)
    else pure (acc, pos)

/-- `ProcessRawBytes` (c.py L535-587). -/
def allocProcess (al : Allocator) (p : Protocol) (b : Buf) (pos : Nat) (max : Int) :
    Attempt (List (String × Val) × Nat) := do
  need al
  if max = 0 then pure ([], pos) else allocLoop al p b max (b.length + 2 - pos) 8 [] pos

/-- `UnpackMessages` (c.py L693-726): the letters are looked for at the start of the buffer; `len == 0` (L708)
compares the address of a variable, so it is never true. -/
def allocUnpack (al : Allocator) (p : Protocol) (b : Buf) (pos : Nat) : Attempt (List (String × Val)) := do
  let (h, _) ← Attempt.of (takeN .crash 4 b 0)
  if h ≠ bsci then Attempt.of (.error .invalid)
  else do
    let (v, pos) ← Attempt.of (takeNum .eof .uint32 b (pos + 4))
    let n ← Attempt.of (asInt v)
    let k ← Attempt.of (limit n)
    let (ms, _) ← allocProcess al p b pos k
    if (ms.length : Int) ≠ n then Attempt.of (.error .invalid) else pure ms

end Beschi.Lang.C
