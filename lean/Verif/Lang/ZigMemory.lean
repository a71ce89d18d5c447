import Verif.Lang.Zig
/-
Messages in memory, as the Zig code handles them (beschi/writers/zig.py and boilerplate/Zig.zig): what
reading allocates, what `errdefer` and `deinit` release, and how the lists of messages that
`processRawBytes` and `unpackMessages` return are allocated.

The heap is a set of numbered blocks.  Whether a request for memory is granted is up to the allocator that
the program passes in: it is a parameter, and may decide by the number of the request and the number of
elements asked for.  Releasing something that is not allocated (or no longer) is `crash`.  As in Zig's
`std.mem.Allocator`, a request for no elements is granted without allocating anything, and releasing a
slice without elements does nothing; the elements of every slice in the generated code have a size other
than zero.  Not modelled: the contents of memory as bytes.
-/
namespace Beschi.Lang.Zig
open Spec

/-! ### Memory -/

/-- What is stored for a member of a struct or an element of a list (`gen_struct`, zig.py L164-175). -/
inductive Obj where
  /-- a number, `bool` or enum, or a struct of those: nothing in it points to other memory -/
  | plain (v : Val)
  /-- a slice: its length, and the block with its elements; none has been allocated for those of length
  zero (`""` and `&.{}`, zig.py L42, L166, and what `alloc` returns for no elements) -/
  | slice (len : Nat) (id : Option Nat)
  /-- a struct whose size varies -/
  | record (fs : List (String × Obj))

/-- What is stored in a block. -/
inductive Block where
  /-- the characters of a text (Zig.zig L109) -/
  | chars (bs : List UInt8)
  /-- the elements of a list (Zig.zig L121) -/
  | objs (os : List Obj)
  /-- messages: the type, which is the tag of the union `Message`, and the members (zig.py L323-327) -/
  | messages (ms : List (String × Obj))

/-- The heap: the number for the next block, and the blocks allocated. -/
structure Heap where
  next : Nat
  blocks : Nat → Option Block

/-- The heap before anything is allocated. -/
def Heap.empty : Heap := ⟨0, fun _ => none⟩

/-- Nothing is allocated under numbers not given out yet. -/
def Heap.Fresh (h : Heap) : Prop := ∀ id, h.next ≤ id → h.blocks id = none

/-- The allocator that a program passes in. -/
structure Allocator where
  /-- is the request granted? given its number and the number of elements -/
  grants : Nat → Nat → Bool
  /-- can a block be given another size where it is? given the number of the next block -/
  resizes : Nat → Bool

/-- An allocator that never runs out of memory. -/
def Allocator.ample : Allocator := ⟨fun _ _ => true, fun _ => false⟩

/-- Failures: those in `Fail`, and the allocator's error. -/
inductive MemFail where
  | fail (e : Fail)
  | outOfMemory
  deriving DecidableEq, Repr

/-- The program stops, so that nothing is executed any more, `errdefer` included. -/
def MemFail.stops : MemFail → Bool
  | .fail .crash => true
  | _ => false

/-- Change what is stored under a number. -/
def Heap.set (h : Heap) (id : Nat) (b : Option Block) : Heap :=
  { h with blocks := fun i => if i = id then b else h.blocks i }

/-- Store in the block of a slice; there is nothing to store for an empty slice. -/
def Heap.fill (h : Heap) : Option Nat → Block → Heap
  | none, _ => h
  | some id, b => h.set id (some b)

/-- `allocator.alloc` for `n` elements (Zig.zig L109, L121): the block, and the heap. -/
def Heap.alloc (h : Heap) (A : Allocator) (n : Nat) (b : Block) : Option (Option Nat × Heap) :=
  if n = 0 then some (none, h)
  else if A.grants h.next n then
    some (some h.next, { next := h.next + 1, blocks := fun i => if i = h.next then some b else h.blocks i })
  else none

/-- `allocator.free` of a slice of length `n` (Zig.zig L132, L145, L277; zig.py L147, L149). -/
def Heap.free (h : Heap) (n : Nat) (id : Option Nat) : Except Fail Heap :=
  if n = 0 then .ok h
  else match id with
    | none => .error .crash
    | some id => match h.blocks id with
      | some _ => .ok (h.set id none)
      | none => .error .crash

/-- The elements of a list. -/
def Heap.elements (h : Heap) : Obj → Except Fail (List Obj)
  | .slice n id =>
    if n = 0 then .ok []
    else match id with
      | none => .error .crash
      | some id => match h.blocks id with
        | some (.objs os) => if os.length < n then .error .crash else .ok (os.take n)
        | _ => .error .crash
  | _ => .error .illTyped

/-! ### Releasing -/

/-- Release objects one after the other: the loops in zig.py L140-146 and Zig.zig L125-144. -/
def releaseEach (one : Obj → Heap → Except Fail Heap) : List Obj → Heap → Except Fail Heap
  | [], h => .ok h
  | o :: os, h => match one o h with
    | .error e => .error e
    | .ok h => releaseEach one os h

/-- `allocator.free` of a text or list. -/
def freeSlice (o : Obj) (h : Heap) : Except Fail Heap :=
  match o with
  | .slice n id => h.free n id
  | _ => .error .illTyped

/-- `destructor` for one member (zig.py L134-150); `one` releases what is not in a list. -/
def releaseVar (p : Protocol) (one : String → Obj → Heap → Except Fail Heap) (m : Variable) (o : Obj)
    (h : Heap) : Except Fail Heap :=
  if p.simpleVar m false then .ok h
  else if m.isList then
    if p.simpleVar m true then freeSlice o h
    else match h.elements o with
      | .error e => .error e
      | .ok os => match releaseEach (one m.vartype) os h with
        | .error e => .error e
        | .ok h => freeSlice o h
  else one m.vartype o h

/-- The members in order (zig.py L271). -/
def releaseMembers (p : Protocol) (one : String → Obj → Heap → Except Fail Heap)
    (fs : List (String × Obj)) : List Variable → Heap → Except Fail Heap
  | [], h => .ok h
  | m :: ms, h => match fs.lookup m.name with
    | none => .error .illTyped
    | some o => match releaseVar p one m o h with
      | .error e => .error e
      | .ok h => releaseMembers p one fs ms h

/-- `destructor` for a variable that is not a list (zig.py L135-136, L148-151): nothing for numbers, enums
and structs of those, `free` for a text, and for other structs their `deinit` (L267-273). -/
def releaseOne (p : Protocol) : Nat → String → Obj → Heap → Except Fail Heap
  | 0, _, _, _ => .error .fuel
  | fuel + 1, t, o, h =>
    if p.simpleVar { name := "", vartype := t, isList := false } false then .ok h
    else if t = "string" then freeSlice o h
    else match p.struct? t, o with
      | some st, .record fs => releaseMembers p (releaseOne p fuel) fs st.members h
      | _, _ => .error .illTyped

/-- `deinit` of a message (zig.py L267-273); messages of fixed size have none. -/
def deinit (p : Protocol) (m : String) (o : Obj) (h : Heap) : Except Fail Heap :=
  match p.message? m, o with
  | some st, .record fs =>
    if p.simpleStruct st then .error .illTyped
    else releaseMembers p (releaseOne p (depth p)) fs st.members h
  | _, _ => .error .illTyped

/-- What `errdefer` in `readList` does with an element that has been made (Zig.zig L126-143). -/
def undo (p : Protocol) (fuel : Nat) (t : String) (o : Obj) (h : Heap) : Except Fail Heap :=
  if (NumTy.ofName? t).isSome || (p.enum? t).isSome then .ok h
  else if t = "string" then freeSlice o h
  else match p.struct? t with
    | none => .error .illTyped
    | some st =>
      if p.simpleStruct st then .ok h
      else match o with
        | .record fs => releaseMembers p (releaseOne p fuel) fs st.members h
        | _ => .error .illTyped

/-! ### Reading -/

/-- The outcome of reading: the heap, and the failure or the object with the new position. -/
abbrev Got (α : Type) := Heap × Except MemFail (α × Nat)

/-- `readString` (Zig.zig L101-114). -/
def memString (p : Protocol) (A : Allocator) (b : Buf) (pos : Nat) (h : Heap) : Got Obj :=
  match readNum (native p.stringSize) b pos with
  | .error e => (h, .error (.fail e))
  | .ok (.int i, q) =>
    if i < 0 then (h, .error (.fail .illTyped))
    else if 2 ^ 64 ≤ (q : Int) + i then (h, .error (.fail .crash))
    else match takeN .eof i.toNat b q with
      | .error e => (h, .error (.fail e))
      | .ok (bs, q) => match h.alloc A bs.length (.chars bs) with
        | none => (h, .error .outOfMemory)
        | some (id, h) =>
          if inRange p.stringSize (p.stringSize.size + i) then (h, .ok (.slice bs.length id, q))
          else (h, .error (.fail .crash))
  | .ok _ => (h, .error (.fail .illTyped))

/-- The loop over the elements of a list (Zig.zig L148-175): the elements made, also after a failure. -/
def memItems (rd : Nat → Heap → Got Obj) : Nat → Nat → Heap → List Obj × Heap × Except MemFail Nat
  | 0, pos, h => ([], h, .ok pos)
  | k + 1, pos, h => match rd pos h with
    | (h, .error e) => ([], h, .error e)
    | (h, .ok (o, pos)) => match memItems rd k pos h with
      | (os, h, r) => (o :: os, h, r)

/-- What `errdefer` in `readList` does (Zig.zig L124-146): release the elements made, then the list. -/
def undoList (un : Obj → Heap → Except Fail Heap) (os : List Obj) (k : Nat) (id : Option Nat) (h : Heap) :
    Except Fail Heap :=
  match releaseEach un os h with
  | .error x => .error x
  | .ok h => h.free k id

/-- `readList` once the length is known (Zig.zig L121-176).  The block is filled when all elements have
been read; only `errdefer` looks at the elements earlier. -/
def memList (A : Allocator) (rd : Nat → Heap → Got Obj) (un : Obj → Heap → Except Fail Heap) (k pos : Nat)
    (h : Heap) : Got Obj :=
  match h.alloc A k (.objs []) with
  | none => (h, .error .outOfMemory)
  | some (id, h) => match memItems rd k pos h with
    | (os, h, .ok pos) => (h.fill id (.objs os), .ok (.slice k id, pos))
    | (os, h, .error e) =>
      if e.stops then (h, .error e)
      else match undoList un os k id h with
        | .error x => (h, .error (.fail x))
        | .ok h => (h, .error e)

/-- One member of a struct whose size varies (`deserializer`, zig.py L56-72; `readList`, Zig.zig
L116-120). -/
def memMember (p : Protocol) (A : Allocator) (rd : String → Nat → Heap → Got Obj)
    (un : String → Obj → Heap → Except Fail Heap) (b : Buf) (m : Variable) (pos : Nat) (h : Heap) :
    Got Obj :=
  if m.isList then match readNum (native p.listSize) b pos with
    | .error e => (h, .error (.fail e))
    | .ok (n, pos) => match asInt n with
      | .error e => (h, .error (.fail e))
      | .ok i => match (readSem p).count i with
        | .error e => (h, .error (.fail e))
        | .ok k => memList A (rd m.vartype) (un m.vartype) k pos h
  else rd m.vartype pos h

/-- The members in order (zig.py L204-205); nothing is released after a failure. -/
def memMembers (p : Protocol) (A : Allocator) (rd : String → Nat → Heap → Got Obj)
    (un : String → Obj → Heap → Except Fail Heap) (b : Buf) :
    List Variable → Nat → Heap → Got (List Obj)
  | [], pos, h => (h, .ok ([], pos))
  | m :: ms, pos, h => match memMember p A rd un b m pos h with
    | (h, .error e) => (h, .error e)
    | (h, .ok (o, pos)) => match memMembers p A rd un b ms pos h with
      | (h, .error e) => (h, .error e)
      | (h, .ok (os, pos)) => (h, .ok (o :: os, pos))

/-- `fromBytes` of a struct whose size varies (zig.py L196-219). -/
def memBody (p : Protocol) (A : Allocator) (rd : String → Nat → Heap → Got Obj)
    (un : String → Obj → Heap → Except Fail Heap) (b : Buf) (st : Struct) (pos : Nat) (h : Heap) :
    Got Obj :=
  match memMembers p A rd un b st.members pos h with
  | (h, .error e) => (h, .error e)
  | (h, .ok (os, pos)) => (h, .ok (.record ((st.members.map (·.name)).zip os), pos))

/-- A value that is read without allocating anything. -/
def memPlain (r : Except Fail (Val × Nat)) (h : Heap) : Got Obj :=
  match r with
  | .error e => (h, .error (.fail e))
  | .ok (v, pos) => (h, .ok (.plain v, pos))

/-- Reading of one value, by type (zig.py L56-72; in a list Zig.zig L149-172). -/
def memValue (p : Protocol) (A : Allocator) (b : Buf) : Nat → String → Nat → Heap → Got Obj
  | 0, _, _, h => (h, .error (.fail .fuel))
  | fuel + 1, t, pos, h =>
    match NumTy.ofName? t with
    | some n => memPlain (readNum (native n) b pos) h
    | none =>
      if t = "string" then memString p A b pos h
      else match p.enum? t with
        | some e => memPlain (readAtom (readSem p) (fun _ => none) b 1 (.enum (native e.encoding) t) pos) h
        | none => match p.struct? t with
          | none => (h, .error (.fail .illTyped))
          | some st =>
            if p.simpleStruct st then memPlain (readFixed p st b pos) h
            else memBody p A (memValue p A b fuel) (undo p fuel) b st pos h

/-- `fromBytes` of a message (zig.py L196-219). -/
def memRead (p : Protocol) (A : Allocator) (m : String) (b : Buf) (pos : Nat) (h : Heap) : Got Obj :=
  match p.message? m with
  | none => (h, .error (.fail .illTyped))
  | some st =>
    if !readOk p (depth p) st.members (p.simpleStruct st) then (h, .error (.fail .illTyped))
    else if p.simpleStruct st then memPlain (readFixed p st b pos) h
    else memBody p A (memValue p A b (depth p)) (undo p (depth p)) b st pos h

/-! ### Defaults -/

/-- The initial value of a member (zig.py L164-175). -/
def memDefault (p : Protocol) : Nat → Variable → Except Fail Obj
  | 0, _ => .error .fuel
  | fuel + 1, m =>
    if m.isList then .ok (.slice 0 none)
    else match NumTy.ofName? m.vartype with
      | some n => .ok (.plain (zeroOf n))
      | none =>
        if m.vartype = "string" then .ok (.slice 0 none)
        else match p.enum? m.vartype with
          | some e => match e.values.head? with
            | some x => .ok (.plain (.int x.2))
            | none => .error .illTyped
          | none => match p.struct? m.vartype with
            | none => .error .illTyped
            | some st => match st.members.mapM (fun m => memDefault p fuel m) with
              | .error e => .error e
              | .ok os => .ok (.record ((st.members.map (·.name)).zip os))

/-- A message with all members left out, `M{}` (zig.py L162-175). -/
def memCreate (p : Protocol) (m : String) : Except Fail Obj :=
  match p.message? m with
  | none => .error .illTyped
  | some st => match st.members.mapM (fun m => memDefault p (depth p) m) with
    | .error e => .error e
    | .ok os => .ok (.record ((st.members.map (·.name)).zip os))

/-! ### Streams -/

/-- `std.ArrayList(Message)`: how many messages there is room for, the block, and the messages
(zig.py L357). -/
structure MsgList where
  room : Nat := 0
  id : Option Nat := none
  items : List (String × Obj) := []

/-- The room that an `ArrayList` makes: half as much more and eight, as often as needed; once is enough
for one more element (`growCapacity` in Zig's library). -/
def moreRoom (room : Nat) : Nat := room + (room / 2 + 8)

/-- The block of an `ArrayList` gets room for `n` messages, the first ones being `ms`: where it is if
the allocator can do so, or in a new block (`ensureTotalCapacityPrecise` and `toOwnedSlice` in Zig's library;
what the old block has is copied before it is released). -/
def resized (A : Allocator) (l : MsgList) (n : Nat) (ms : List (String × Obj)) (h : Heap) :
    Except MemFail (Option Nat × Heap) :=
  if l.room ≠ 0 ∧ A.resizes h.next then .ok (l.id, h.fill l.id (.messages ms))
  else match h.alloc A n (.messages ms) with
    | none => .error .outOfMemory
    | some (id, h) => match h.free l.room l.id with
      | .error e => .error (.fail e)
      | .ok h => .ok (id, h)

/-- `msg_list.append` (zig.py L385). -/
def append (A : Allocator) (l : MsgList) (x : String × Obj) (h : Heap) :
    Except MemFail (MsgList × Heap) :=
  if l.items.length < l.room then
    .ok ({ l with items := l.items ++ [x] }, h.fill l.id (.messages (l.items ++ [x])))
  else match resized A l (moreRoom l.room) (l.items ++ [x]) h with
    | .error e => .error e
    | .ok (id, h) => .ok ({ room := moreRoom l.room, id := id, items := l.items ++ [x] }, h)

/-- `msg_list.toOwnedSlice` (zig.py L361, L371, L392): a slice with just the messages; the list is empty
afterwards, so that the deferred `deinit` has nothing to do. -/
def toOwnedSlice (A : Allocator) (l : MsgList) (h : Heap) : Except MemFail (Obj × Heap) :=
  if l.items.length = 0 then match h.free l.room l.id with
    | .error e => .error (.fail e)
    | .ok h => .ok (.slice 0 none, h)
  else match resized A l l.items.length l.items h with
    | .error e => .error e
    | .ok (id, h) => .ok (.slice l.items.length id, h)

/-- The deferred `msg_list.deinit` (zig.py L358): releases the block of the list; the messages are left as
they are. -/
def abandon (l : MsgList) (e : MemFail) (h : Heap) : Got Obj :=
  if e.stops then (h, .error e)
  else match h.free l.room l.id with
    | .error x => (h, .error (.fail x))
    | .ok h => (h, .error e)

/-- The end of `processRawBytes` (zig.py L371, L392). -/
def finish (A : Allocator) (l : MsgList) (pos : Nat) (h : Heap) : Got Obj :=
  match toOwnedSlice A l h with
  | .error e => abandon l e h
  | .ok (o, h) => (h, .ok (o, pos))

/-- The loop of `processRawBytes` (zig.py L365-391). -/
def memLoop (p : Protocol) (A : Allocator) (b : Buf) (max : Int) :
    Nat → MsgList → Nat → Heap → Got Obj
  | 0, l, _, h => abandon l (.fail .fuel) h
  | fuel + 1, l, pos, h =>
    if pos < b.length ∧ (max < 0 ∨ (l.items.length : Int) < max) then
      match takeTag .eof b pos with
      | .error e => abandon l (.fail e) h
      | .ok (t, pos) =>
        if t = 0 then finish A l pos h
        else match dispatch p t with
          | none => abandon l (.fail .invalid) h
          | some m => match memRead p A m b pos h with
            | (h, .error e) => abandon l e h
            | (h, .ok (o, pos)) => match append A l (m, o) h with
              | .error e => abandon l e h
              | .ok (l, h) => memLoop p A b max fuel l pos h
    else finish A l pos h

/-- `processRawBytes` (zig.py L355-394). -/
def memProcess (p : Protocol) (A : Allocator) (b : Buf) (max : Int) (h : Heap) : Got Obj :=
  if p.messages.all fun st => readOk p (depth p) st.members (p.simpleStruct st) then
    if max = 0 then finish A {} 0 h
    else memLoop p A b max (b.length + 2) {} 0 h
  else (h, .error (.fail .illTyped))

/-- The end of `unpackMessages` (Zig.zig L276-285): the number of messages is compared with the one
announced.  `errdefer` releases the list, the messages are left as they are. -/
def counted (n : Int) : Got Obj → Heap × Except MemFail Obj
  | (h, .error e) => (h, .error e)
  | (h, .ok (.slice len id, _)) =>
    if len = 0 ∨ (len : Int) ≠ n then match h.free len id with
      | .error x => (h, .error (.fail x))
      | .ok h => (h, .error (.fail .invalid))
    else (h, .ok (.slice len id))
  | (h, .ok _) => (h, .error (.fail .illTyped))

/-- `unpackMessages` (Zig.zig L264-286). -/
def memUnpack (p : Protocol) (A : Allocator) (b : Buf) (h : Heap) : Heap × Except MemFail Obj :=
  match takeN .crash 4 b 0 with
  | .error e => (h, .error (.fail e))
  | .ok (w, pos) =>
    if w ≠ bsci then (h, .error (.fail .invalid))
    else match takeNum .eof .uint32 b pos with
      | .ok (.int n, pos) =>
        if n = 0 then (h, .ok (.slice 0 none))
        else match limit n with
          | .error e => (h, .error (.fail e))
          | .ok k => counted n (memProcess p A (b.drop pos) k h)
      | .ok _ => (h, .error (.fail .illTyped))
      | .error e => (h, .error (.fail e))

/-! ### What a program has to do

The library has no function that releases a list of messages, and the union `Message` has no `deinit`
(zig.py L323-350): a program has to look at every message and call the `deinit` of its type, if it has
one. -/

/-- Release the contents of messages, by type. -/
def releaseContents (p : Protocol) : List (String × Obj) → Heap → Except Fail Heap
  | [], h => .ok h
  | (m, o) :: ms, h => match p.message? m with
    | none => .error .illTyped
    | some st =>
      if p.simpleStruct st then releaseContents p ms h
      else match deinit p m o h with
        | .error e => .error e
        | .ok h => releaseContents p ms h

/-- The messages in a slice. -/
def Heap.messages (h : Heap) : Obj → Except Fail (List (String × Obj))
  | .slice n id =>
    if n = 0 then .ok []
    else match id with
      | none => .error .crash
      | some id => match h.blocks id with
        | some (.messages ms) => if ms.length < n then .error .crash else .ok (ms.take n)
        | _ => .error .crash
  | _ => .error .illTyped

/-- Release a list of messages, contents first. -/
def releaseMessages (p : Protocol) (o : Obj) (h : Heap) : Except Fail Heap :=
  match h.messages o with
  | .error e => .error e
  | .ok ms => match releaseContents p ms h with
    | .error e => .error e
    | .ok h => freeSlice o h

/-! ### What memory holds -/

mutual
/-- The memory holds the value: what a program finds that looks at the object (the types of members are those
of `gen_struct`, zig.py L164-175). -/
inductive Holds (h : Heap) : Obj → Val → Prop
  | plain {v} : Holds h (.plain v) v
  | text {id bs} : (bs ≠ [] → ∃ i, id = some i ∧ h.blocks i = some (.chars bs)) →
      Holds h (.slice bs.length id) (.str bs)
  | list {id os vs} : (os ≠ [] → ∃ i, id = some i ∧ h.blocks i = some (.objs os)) → HoldsAll h os vs →
      Holds h (.slice os.length id) (.list vs)
  | record {fs vs} : HoldsFields h fs vs → Holds h (.record fs) (.record vs)
/-- The same for the elements of a list. -/
inductive HoldsAll (h : Heap) : List Obj → List Val → Prop
  | nil : HoldsAll h [] []
  | cons {o os v vs} : Holds h o v → HoldsAll h os vs → HoldsAll h (o :: os) (v :: vs)
/-- The same for members. -/
inductive HoldsFields (h : Heap) : List (String × Obj) → List (String × Val) → Prop
  | nil : HoldsFields h [] []
  | cons {n o fs v vs} : Holds h o v → HoldsFields h fs vs → HoldsFields h ((n, o) :: fs) ((n, v) :: vs)
end

/-- The memory holds the messages, each with its type, which is the tag of the union `Message`
(zig.py L323-327). -/
inductive HoldsMessages (h : Heap) : List (String × Obj) → List (String × Val) → Prop
  | nil : HoldsMessages h [] []
  | cons {m o ms v vs} : Holds h o v → HoldsMessages h ms vs → HoldsMessages h ((m, o) :: ms) ((m, v) :: vs)

end Beschi.Lang.Zig
