import Verif.Protocol.Basic
/-
`Variable.is_simple`, `Struct.is_simple` and `Protocol.get_size_of` (beschi/protocol.py).
Python's recursion is given fuel; running out of it stands for unbounded recursion.
-/
namespace Beschi

/-- The ways the size functions fail: NotImplementedError for a type that is not known, for text,
for a list member; KeyError for a name that is not a type; unbounded recursion. -/
inductive SizeErr where
  | unknownType | text | list | missing | recursion
  deriving DecidableEq, Repr

/-- `Variable.is_simple(listed)` (protocol.py L49-63).  `Struct.is_simple` (protocol.py L115-116)
is inlined as the map over the members; like the list comprehension it evaluates every member. -/
def varIsSimple (p : Protocol) : Nat → Variable → Bool → Except SizeErr Bool
  | 0, _, _ => .error .recursion
  | fuel + 1, v, listed =>
    if v.isList && !listed then .ok false
    else if (NumTy.ofName? v.vartype).isSome then .ok true
    else if v.vartype == "string" then .ok false
    else if p.isEnum v.vartype then .ok true
    else match p.struct? v.vartype with
      | some s => (s.members.mapM fun m => varIsSimple p fuel m false).map fun bs => bs.all id
      | none => match p.message? v.vartype with
        | some s => (s.members.mapM fun m => varIsSimple p fuel m false).map fun bs => bs.all id
        | none => .error .unknownType

/-- `Struct.is_simple` (protocol.py L115-116). -/
def structIsSimple (p : Protocol) (fuel : Nat) (s : Struct) : Except SizeErr Bool :=
  (s.members.mapM fun m => varIsSimple p fuel m false).map fun bs => bs.all id

/-- `Protocol.get_size_of` (protocol.py L260-277). -/
def getSizeOf (p : Protocol) : Nat → String → Except SizeErr Nat
  | 0, _ => .error .recursion
  | fuel + 1, t =>
    match NumTy.ofName? t with
    | some n => .ok n.size
    | none => match p.enum? t with
      | some e => .ok e.encoding.size
      | none =>
        if t == "string" then .error .text
        else match p.struct? t <|> p.message? t with
          | none => .error .missing
          | some st => st.members.foldlM (init := 0) fun size m =>
              if m.isList then .error .list
              else (getSizeOf p fuel m.vartype).map (size + ·)

/-- Recursion depth enough for every accepted protocol (see `C09_no_failure`); Python's own limit
(about a thousand frames) is not modelled. -/
def Protocol.depth (p : Protocol) : Nat := p.structs.length + 2

/-- `var.is_simple()` / `var.is_simple(True)` as used by the generators (protocol.py L49-63). -/
def Protocol.simpleVar (p : Protocol) (v : Variable) (listed : Bool) : Bool :=
  match varIsSimple p p.depth v listed with
  | .ok b => b
  | .error _ => false

/-- `st.is_simple()` as used by the generators (protocol.py L115-116). -/
def Protocol.simpleStruct (p : Protocol) (s : Struct) : Bool :=
  match structIsSimple p p.depth s with
  | .ok b => b
  | .error _ => false

/-- `self.protocol.get_size_of(t)` as used by the generators (protocol.py L260-277). -/
def Protocol.sizeOf (p : Protocol) (t : String) : Nat :=
  match getSizeOf p p.depth t with
  | .ok n => n
  | .error _ => 0

end Beschi
