import Verif.Lang.C
/-
Messages in memory, as the C code handles them (beschi/writers/c.py and boilerplate/C.1.h): what
reading allocates, what `_Cleanup`, `_Destroy` and `DestroyMessageList` release, what `_Create`
leaves uninitialised, and what writing and measuring look at.

The heap is a set of numbered blocks.  Every allocation gives a block with a new number and succeeds
(except where `C.lean` says otherwise); releasing anything that is not the start of an allocated block,
releasing a block again, following a pointer that does not point to a block, and using a variable that
has no value are `crash`.  Not modelled: the contents of memory as bytes, the terminating zero of
texts, stores outside of a block (those that can happen while reading are `crash` in `C.lean`),
comparisons of pointers.
-/
namespace Beschi.Lang.C
open Spec

/-! ### Memory -/

/-- The value of a pointer variable. -/
inductive Ptr where
  /-- `NULL` -/
  | null
  /-- the string literal `""` (c.py L213) -/
  | literal
  /-- no value: the variable has not been assigned -/
  | wild
  /-- the start of a block -/
  | block (id : Nat)
  deriving DecidableEq, Repr

/-- What is stored for a member of a struct or an element of a list (`gen_struct`, c.py L255-278). -/
inductive Obj where
  /-- nothing: the variable or variables have not been assigned -/
  | wild
  /-- a number, `bool` or enum -/
  | num (v : Val)
  /-- a text in a list: `x[i]`; its length is in another block -/
  | chars (s : Ptr)
  /-- a text: `x_len` and `x` -/
  | text (len : Option Int) (s : Ptr)
  /-- a list: `x_len`, `x` and, for a list of texts, `x_els_len` -/
  | list (len : Option Int) (els lens : Ptr)
  /-- a struct -/
  | record (fs : List (String × Obj))

/-- What is stored in a block. -/
inductive Block where
  /-- the characters of a text (C.1.h L135) -/
  | chars (bs : List UInt8)
  /-- the elements of a list (c.py L78) -/
  | objs (os : List Obj)
  /-- the lengths of the texts in a list (c.py L81) -/
  | lens (ns : List (Option Int))
  /-- a message: `_mt`, given by the name of the message type, and the members (c.py L340, L568) -/
  | message (m : String) (o : Obj)
  /-- an array of pointers to messages with room for a number of them (c.py L538) -/
  | array (room : Nat) (ms : List Ptr)

/-- The heap: the number for the next block, and the blocks allocated. -/
structure Heap where
  next : Nat
  blocks : Nat → Option Block

/-- The heap before anything is allocated. -/
def Heap.empty : Heap := ⟨0, fun _ => none⟩

/-- Nothing is allocated under numbers not given out yet: this holds of the empty heap and is kept by
everything below, so every program starts with such a heap. -/
def Heap.Fresh (h : Heap) : Prop := ∀ id, h.next ≤ id → h.blocks id = none

/-- Change what is stored under a number. -/
def Heap.set (h : Heap) (id : Nat) (b : Option Block) : Heap :=
  { h with blocks := fun i => if i = id then b else h.blocks i }

/-- `MALLOC` (C.0.h). -/
def Heap.alloc (h : Heap) (b : Block) : Heap :=
  { next := h.next + 1, blocks := fun i => if i = h.next then some b else h.blocks i }

/-- `FREE` (C.0.h). -/
def Heap.free (h : Heap) : Ptr → Except Fail Heap
  | .null => .ok h
  | .block id => match h.blocks id with
    | some _ => .ok (h.set id none)
    | none => .error .crash
  | _ => .error .crash

/-- Follow a pointer. -/
def Heap.at (h : Heap) : Ptr → Except Fail Block
  | .block id => match h.blocks id with
    | some b => .ok b
    | none => .error .crash
  | _ => .error .crash

/-- Element `i` of a list; for a text, its length is looked up too. -/
def element (h : Heap) (els lens : Ptr) (i : Nat) : Except Fail Obj :=
  match h.at els with
  | .ok (.objs os) => match os[i]? with
    | some (.chars s) => match h.at lens with
      | .ok (.lens ns) => match ns[i]? with
        | some n => .ok (.text n s)
        | none => .error .crash
      | _ => .error .crash
    | some o => .ok o
    | none => .error .crash
  | _ => .error .crash

/-! ### Reading -/

/-- The outcome of reading into memory: what the destination holds afterwards, also after a failure;
the heap; and the failure or the new position. -/
abbrev Filled (α : Type) := α × Heap × Except Fail Nat

/-- `ReadString` (C.1.h L126-141). -/
def memString (p : Protocol) (b : Buf) (pos : Nat) (h : Heap) : Filled Obj :=
  match readNum (readPrim p.stringSize) b pos with
  | .error e => (.wild, h, .error e)
  | .ok (.int i, pos) => match slice p i b pos with
    | .error e => (.text (some i) .wild, h, .error e)
    | .ok (bs, pos) => (.text (some i) (.block h.next), h.alloc (.chars bs), .ok pos)
  | .ok _ => (.wild, h, .error .illTyped)

/-- The loop over the elements of a list (c.py L84-99); after a failure the remaining elements have no
value. -/
def memItems (rd : Nat → Heap → Filled Obj) : Nat → Nat → Heap → Filled (List Obj)
  | 0, pos, h => ([], h, .ok pos)
  | k + 1, pos, h => match rd pos h with
    | (o, h, .error e) => (o :: List.replicate k .wild, h, .error e)
    | (o, h, .ok pos) => match memItems rd k pos h with
      | (os, h, r) => (o :: os, h, r)

/-- What the elements block holds for an element: of a text only the pointer (c.py L107-108). -/
def elsPart : Obj → Obj
  | .text _ s => .chars s
  | o => o

/-- What the block of lengths holds for an element (c.py L107-108). -/
def lensPart : Obj → Option Int
  | .text n _ => n
  | _ => none

/-- The elements of a list of `k` elements: allocate, then read (c.py L78-99).  The blocks are filled
when all elements have been read; nothing looks at them earlier. -/
def memList (rd : Nat → Heap → Filled Obj) (texts : Bool) (i : Int) (k : Nat) (pos : Nat)
    (h : Heap) : Filled Obj :=
  if texts then
    match memItems rd k pos ((h.alloc (.objs [])).alloc (.lens [])) with
    | (os, h', r) => (.list (some i) (.block h.next) (.block (h.next + 1)),
        (h'.set h.next (some (.objs (os.map elsPart)))).set (h.next + 1)
          (some (.lens (os.map lensPart))), r)
  else
    match memItems rd k pos (h.alloc (.objs [])) with
    | (os, h', r) => (.list (some i) (.block h.next) .wild,
        h'.set h.next (some (.objs os)), r)

/-- One member (`deserializer`, c.py L70-128). -/
def memStmt (p : Protocol) (rd : RAtom → Nat → Heap → Filled Obj) (b : Buf) (pos : Nat) (h : Heap) :
    RStmt → Filled Obj
  | .one _ a => rd a pos h
  | .list _ _ lenPrim a => match readNum lenPrim b pos with
    | .error e => (.wild, h, .error e)
    | .ok (n, pos) => match asInt n with
      | .error e => (.wild, h, .error e)
      | .ok i => match (readSem p).count i with
        | .error e => (.list (some i) .null .wild, h, .error e)
        | .ok k => memList (rd a) (a == .text) i k pos h

/-- The members in order; after a failure the remaining ones have no value (c.py L371). -/
def memMembers (p : Protocol) (rd : RAtom → Nat → Heap → Filled Obj) (b : Buf) :
    Nat → Heap → List RStmt → Filled (List Obj)
  | pos, h, [] => ([], h, .ok pos)
  | pos, h, st :: sts => match memStmt p rd b pos h st with
    | (o, h, .error e) => (o :: List.replicate sts.length .wild, h, .error e)
    | (o, h, .ok pos) => match memMembers p rd b pos h sts with
      | (os, h, r) => (o :: os, h, r)

/-- `{name}_FromBytes` (c.py L365-374). -/
def memFun (p : Protocol) (rd : RAtom → Nat → Heap → Filled Obj) (b : Buf) (pos : Nat) (h : Heap)
    (f : RFun) : Filled Obj :=
  match memMembers p rd b pos h f.body with
  | (os, h, r) => (.record ((f.result.map (·.1)).zip os), h, r)

/-- Reading of one value (`deserializer`, c.py L103-128). -/
def memAtom (p : Protocol) (b : Buf) : Nat → RAtom → Nat → Heap → Filled Obj
  | 0, _, _, h => (.wild, h, .error .fuel)
  | fuel + 1, a, pos, h => match a with
    | .num prim => match readNum prim b pos with
      | .error e => (.wild, h, .error e)
      | .ok (v, pos) => (.num v, h, .ok pos)
    | .text => memString p b pos h
    | .enum prim e => match readNum prim b pos with
      | .error x => (.wild, h, .error x)
      | .ok (n, pos) => match asInt n with
        | .error x => (.wild, h, .error x)
        | .ok i => match checkDeclared p e i with
          | .error x => (.wild, h, .error x)
          | .ok v => (.num v, h, .ok pos)
    | .call s => match p.struct? s with
      | none => (.wild, h, .error .illTyped)
      | some st => memFun p (memAtom p b fuel) b pos h (fromBytes p st)
    | .whole _ => (.wild, h, .error .illTyped)

/-- `{name}_FromBytes` of a message into a struct that the caller provides (c.py L365-374). -/
def memRead (p : Protocol) (m : String) (b : Buf) (pos : Nat) (h : Heap) : Filled Obj :=
  match p.message? m with
  | none => (.wild, h, .error .illTyped)
  | some st => memFun p (memAtom p b (depth p)) b pos h (fromBytes p st)

/-! ### Releasing -/

/-- The loop over the elements of a list, from element `i` on, `k` times (c.py L231-236). -/
def cleanEach (one : Obj → Heap → Except Fail Heap) (els lens : Ptr) :
    Nat → Nat → Heap → Except Fail Heap
  | 0, _, h => .ok h
  | k + 1, i, h => match element h els lens i with
    | .error e => .error e
    | .ok o => match one o h with
      | .error e => .error e
      | .ok h => cleanEach one els lens k (i + 1) h

/-- `destructor` for one member (c.py L224-244); `one` releases what is not in a list. -/
def cleanVar (p : Protocol) (one : String → Obj → Heap → Except Fail Heap) (m : Variable) (o : Obj)
    (h : Heap) : Except Fail Heap :=
  if p.simpleVar m false then .ok h
  else if m.isList then match o with
    | .list len els lens =>
      if p.simpleVar m true then h.free els
      else match len with
        | none => .error .crash
        | some n => match cleanEach (one m.vartype) els lens n.toNat 0 h with
          | .error e => .error e
          | .ok h =>
            if m.vartype = "string" then match h.free lens with
              | .error e => .error e
              | .ok h => h.free els
            else h.free els
    | .wild => .error .crash
    | _ => .error .illTyped
  else one m.vartype o h

/-- The members in order (c.py L244, L350). -/
def cleanMembers (p : Protocol) (one : String → Obj → Heap → Except Fail Heap)
    (fs : List (String × Obj)) : List Variable → Heap → Except Fail Heap
  | [], h => .ok h
  | m :: ms, h => match fs.lookup m.name with
    | none => .error .illTyped
    | some o => match cleanVar p one m o h with
      | .error e => .error e
      | .ok h => cleanMembers p one fs ms h

/-- `destructor` for a variable that is not a list (c.py L224-226, L241-244): nothing for numbers,
enums and structs of those, `FREE` for a text, and for other structs the code for its members. -/
def cleanOne (p : Protocol) : Nat → String → Obj → Heap → Except Fail Heap
  | 0, _, _, _ => .error .fuel
  | fuel + 1, t, o, h =>
    if p.simpleVar { name := "", vartype := t, isList := false } false then .ok h
    else if t = "string" then match o with
      | .text _ s => h.free s
      | .wild => .error .crash
      | _ => .error .illTyped
    else match p.struct? t with
      | none => .error .illTyped
      | some st => match o with
        | .record fs => cleanMembers p (cleanOne p fuel) fs st.members h
        | .wild => .error .crash
        | _ => .error .illTyped

/-- `{name}_Cleanup` (c.py L348-353). -/
def cleanup (p : Protocol) (m : String) (o : Obj) (h : Heap) : Except Fail Heap :=
  match p.message? m, o with
  | some st, .record fs => cleanMembers p (cleanOne p (depth p)) fs st.members h
  | _, _ => .error .illTyped

/-- `{name}_Destroy` (c.py L355-362). -/
def destroy (p : Protocol) (m : String) (q : Ptr) (h : Heap) : Except Fail Heap :=
  match h.at q with
  | .ok (.message _ o) => match cleanup p m o h with
    | .error e => .error e
    | .ok h => h.free q
  | _ => .error .crash

/-- The loop of `DestroyMessageList` (c.py L590-610): which `_Destroy` is called depends on `_mt`. -/
def destroyEach (p : Protocol) : List Ptr → Heap → Except Fail Heap
  | [], h => .ok h
  | q :: qs, h => match h.at q with
    | .ok (.message m _) => match p.message? m with
      | none => .error .invalid
      | some _ => match destroy p m q h with
        | .error e => .error e
        | .ok h => destroyEach p qs h
    | _ => .error .crash

/-- `DestroyMessageList` (c.py L588-615). -/
def destroyList (p : Protocol) (q : Ptr) (len : Nat) (h : Heap) : Except Fail Heap :=
  match h.at q with
  | .ok (.array _ ms) =>
    if ms.length < len then .error .crash
    else match destroyEach p (ms.take len) h with
      | .error e => .error e
      | .ok h => h.free q
  | _ => .error .crash

/-! ### Streams -/

/-- Make room for one more pointer (c.py L550-556).  `REALLOC` gives a new block with the old
contents and releases the old block.  The inner `while` runs at most once, as the capacity is doubled
before it is exceeded by more than one. -/
def grow (room : Nat) (ms : List Ptr) (id : Nat) (h : Heap) : Nat × Nat × Heap :=
  if ms.length < room then (room, id, h)
  else (2 * room, h.next, (h.alloc (.array (2 * room) ms)).set id none)

/-- The loop of `ProcessRawBytes` (c.py L548-584) with the list so far in block `id`: the block of the
list, the list, the heap, and the failure or the position.  A message that could not be read is in the
list too (L571-573).  Storing a pointer behind the end of the block is a fault. -/
def memLoop (p : Protocol) (b : Buf) (max : Int) : Nat → Nat → Nat → List Ptr → Nat → Heap →
    Filled (Nat × List Ptr)
  | 0, _, id, ms, _, h => ((id, ms), h, .error .fuel)
  | fuel + 1, room, id, ms, pos, h =>
    if pos < b.length ∧ (max < 0 ∨ (ms.length : Int) < max) then
      match grow room ms id h with
      | (room, id, h) => match takeTag .eof b pos with
        | .error e => ((id, ms), h, .error e)
        | .ok (t, pos) =>
          if t = 0 then ((id, ms), h, .ok pos)
          else match dispatch p t with
            | none => ((id, ms), h, .error .invalid)
            | some m => match memRead p m b pos (h.alloc (.message m .wild)) with
              | (o, h', r) =>
                let ms' := ms ++ [.block h.next]
                let h'' := (h'.set h.next (some (.message m o))).set id (some (.array room ms'))
                if room ≤ ms.length then ((id, ms), h', .error .crash)
                else match r with
                | .error e => ((id, ms'), h'', .error e)
                | .ok pos => memLoop p b max fuel room id ms' pos h''
    else ((id, ms), h, .ok pos)

/-- `ProcessRawBytes` (c.py L535-587): the block of the list, the list, the heap, and the failure or
the position. -/
def memProcess (p : Protocol) (b : Buf) (pos : Nat) (max : Int) (h : Heap) :
    Filled (Nat × List Ptr) :=
  if max = 0 then ((h.next, []), h.alloc (.array 8 []), .ok pos)
  else memLoop p b max (b.length + 2 - pos) 8 h.next [] pos (h.alloc (.array 8 []))

/-- `UnpackMessages` (c.py L693-726): the list, its messages, the heap, and the failure or the position.
`len == 0` (L709) compares the address of a variable, so it is never true.  If the number of messages
is not the announced one, everything is released. -/
def memUnpack (p : Protocol) (b : Buf) (pos : Nat) (h : Heap) : Filled (Ptr × List Ptr) :=
  match takeN .crash 4 b 0 with
  | .error e => ((.wild, []), h, .error e)
  | .ok (w, _) =>
    if w ≠ bsci then ((.wild, []), h, .error .invalid)
    else match takeNum .eof .uint32 b (pos + 4) with
      | .ok (.int n, pos) => match limit n with
        | .error e => ((.wild, []), h, .error e)
        | .ok k => match memProcess p b pos k h with
          | ((id, ms), h, .error e) => ((.block id, ms), h, .error e)
          | ((id, ms), h, .ok pos) =>
            if (ms.length : Int) ≠ n then match destroyList p (.block id) ms.length h with
              | .error e => ((.null, []), h, .error e)
              | .ok h => ((.null, []), h, .error .invalid)
            else ((.block id, ms), h, .ok pos)
      | .ok _ => ((.wild, []), h, .error .illTyped)
      | .error e => ((.wild, []), h, .error e)

/-! ### Writing and measuring -/

/-- `WriteString` (C.1.h L234-246): the characters are copied from where the pointer points. -/
def memText (p : Protocol) (h : Heap) (len : Option Int) (s : Ptr) : Except Fail (List (List UInt8)) :=
  match len with
  | none => .error .crash
  | some i => match writeNum (writePrim p.stringSize) (.int i) with
    | .error e => .error e
    | .ok n => match s with
      | .literal => if i = 0 then .ok [n, []] else .error .crash
      | s => match h.at s with
        | .ok (.chars bs) => if i < 0 ∨ (bs.length : Int) < i then .error .crash
            else .ok [n, bs.take i.toNat]
        | _ => .error .crash

/-- The loop over the elements of a list, from element `i` on, `k` times (c.py L134-140). -/
def memWriteEach (wr : Obj → Except Fail (List (List UInt8))) (h : Heap) (els lens : Ptr) :
    Nat → Nat → Except Fail (List (List UInt8))
  | 0, _ => .ok []
  | k + 1, i => match element h els lens i with
    | .error e => .error e
    | .ok o => match wr o with
      | .error e => .error e
      | .ok a => match memWriteEach wr h els lens k (i + 1) with
        | .error e => .error e
        | .ok b => .ok (a ++ b)

/-- One member (`serializer`, c.py L130-156). -/
def memWriteStmt (wr : WAtom → Obj → Except Fail (List (List UInt8))) (h : Heap)
    (fs : List (String × Obj)) : WStmt → Except Fail (List (List UInt8))
  | .one src a => match fs.lookup src with
    | none => .error .illTyped
    | some o => wr a o
  | .list src lenPrim a => match fs.lookup src with
    | some (.list len els lens) => match len with
      | none => .error .crash
      | some i => match writeNum lenPrim (.int i) with
        | .error e => .error e
        | .ok n => match memWriteEach (wr a) h els lens i.toNat 0 with
          | .error e => .error e
          | .ok items => .ok (n :: items)
    | some .wild => .error .crash
    | _ => .error .illTyped

/-- The members in order (c.py L389). -/
def memWriteBody (wr : WAtom → Obj → Except Fail (List (List UInt8))) (h : Heap)
    (fs : List (String × Obj)) : List WStmt → Except Fail (List (List UInt8))
  | [] => .ok []
  | s :: ss => match memWriteStmt wr h fs s with
    | .error e => .error e
    | .ok a => match memWriteBody wr h fs ss with
      | .error e => .error e
      | .ok b => .ok (a ++ b)

/-- One value (`serializer`, c.py L141-155). -/
def memWriteAtom (p : Protocol) (h : Heap) : Nat → WAtom → Obj → Except Fail (List (List UInt8))
  | 0, _, _ => .error .fuel
  | fuel + 1, a, o => match a, o with
    | _, .wild => .error .crash
    | .num prim, .num v => match writeNum prim v with
      | .error e => .error e
      | .ok bs => .ok [bs]
    | .text, .text len s => memText p h len s
    | .call s, .record fs => match p.struct? s with
      | none => .error .illTyped
      | some st => memWriteBody (memWriteAtom p h fuel) h fs (writeBytes p st).body
    | _, _ => .error .illTyped

/-- `{name}_WriteBytes` of a message in memory (c.py L377-394): what is written, piece by piece. -/
def memWrite (p : Protocol) (m : String) (tag : Bool) (h : Heap) (o : Obj) :
    Except Fail (List (List UInt8)) :=
  match p.message? m, messageIndex p m, o with
  | some st, some i, .record fs =>
    match memWriteBody (memWriteAtom p h (depth p)) h fs (writeBytes p st).body with
    | .error e => .error e
    | .ok cs => .ok (if tag then [UInt8.ofNat (i + 1)] :: cs else cs)
  | _, _, _ => .error .illTyped

/-- The variables of a size computation: the message `m` and the loop variables. -/
structure MemEnv where
  root : Obj
  idx : List (String × Nat) := []

/-- Follow the steps of a path (the accessors of `gen_measurement`, c.py L168-199). -/
def memSteps (h : Heap) (idx : List (String × Nat)) : Obj → List MStep → Except Fail Obj
  | o, [] => .ok o
  | .record fs, .fld n :: rest => match fs.lookup n with
    | some o => memSteps h idx o rest
    | none => .error .illTyped
  | .list _ els lens, .idx x :: rest => match idx.lookup x with
    | none => .error .illTyped
    | some i => match element h els lens i with
      | .error e => .error e
      | .ok o => memSteps h idx o rest
  | .wild, _ => .error .crash
  | _, _ => .error .illTyped

/-- `x_len` of the list or text at a path (c.py L173-192), or the entry of `x_els_len` (L177). -/
def memLen (h : Heap) (e : MemEnv) (a : MPath) : Except Fail Nat :=
  match memSteps h e.idx e.root a.steps with
  | .error x => .error x
  | .ok (.list (some i) _ _) => .ok i.toNat
  | .ok (.text (some i) _) => .ok i.toNat
  | .ok (.list none _ _) => .error .crash
  | .ok (.text none _) => .error .crash
  | .ok .wild => .error .crash
  | .ok _ => .error .illTyped

mutual
/-- Execute one line of a size computation (`gen_measurement`, c.py L158-200). -/
def memLine (h : Heap) (bound : Nat) : MLine → MemEnv → Nat → Except Fail Flow
  | .init, _, _ => .ok (.go 0)
  | .ret n, _, _ => .ok (.done n)
  | .add n, _, size => .ok (.go (size + n))
  | .addCount a n, e, size => match memLen h e a with
    | .ok k => .ok (.go (size + k * n))
    | .error x => .error x
  | .addText a _, e, size => match memLen h e a with
    | .ok k => .ok (.go (size + k))
    | .error x => .error x
  | .addTextPlus k a _, e, size => match memLen h e a with
    | .ok n => .ok (.go (size + (k + n)))
    | .error x => .error x
  | .each _ _ _ _, _, _ => .error .illTyped
  | .index x _ a body, e, size =>
    evalIndex (fun i => memLen h { e with idx := (x, i) :: e.idx } a)
      (fun i size => memLines h bound body { e with idx := (x, i) :: e.idx } size) (bound + 1) 0 size
/-- Execute lines in order. -/
def memLines (h : Heap) (bound : Nat) : List MLine → MemEnv → Nat → Except Fail Flow
  | [], _, size => .ok (.go size)
  | l :: ls, e, size => match memLine h bound l e size with
    | .ok (.go size) => memLines h bound ls e size
    | r => r
end

/-- `{name}_GetSizeInBytes` of a message in memory (c.py L326-334); `bound` is at least the length of
every list in it. -/
def memSize (p : Protocol) (m : String) (bound : Nat) (h : Heap) (o : Obj) : Except Fail Nat :=
  match p.message? m with
  | none => .error .illTyped
  | some st => match measureFun style p st "m" 1 with
    | none => .error .illTyped
    | some f => match memLines h bound f.lines { root := o } 0 with
      | .ok (.go n) => .ok n
      | .ok (.done n) => .ok n
      | .error e => .error e

/-! ### Creating -/

/-- The initialiser of a member in `{name}_default` (`gen_default`, c.py L202-222). -/
def memDefault (p : Protocol) : Nat → Variable → Except Fail Obj
  | 0, _ => .error .fuel
  | fuel + 1, m =>
    if m.isList then .ok (.list (some 0) .null (if m.vartype = "string" then .null else .wild))
    else match NumTy.ofName? m.vartype with
      | some n => .ok (.num (zeroOf n))
      | none =>
        if m.vartype = "string" then .ok (.text (some 0) .literal)
        else match p.enum? m.vartype with
          | some e => match e.values.head? with
            | some x => .ok (.num (.int x.2))
            | none => .error .illTyped
          | none => match p.struct? m.vartype with
            | none => .error .illTyped
            | some st => match st.members.mapM (fun m => memDefault p fuel m) with
              | .error e => .error e
              | .ok os => .ok (.record ((st.members.map (·.name)).zip os))

/-- What `out->x = {name}_default.x` copies of a member (c.py L343-344): the variable `x` itself, not
`x_len` or `x_els_len`. -/
def copied : Obj → Obj
  | .text _ s => .text none s
  | .list _ els _ => .list none els .wild
  | o => o

/-- `{name}_Create` (c.py L337-346): the new message and the heap. -/
def memCreate (p : Protocol) (m : String) (h : Heap) : Except Fail (Ptr × Heap) :=
  match p.message? m with
  | none => .error .illTyped
  | some st => match st.members.mapM (fun m => memDefault p (depth p) m) with
    | .error e => .error e
    | .ok os => .ok (.block h.next,
        h.alloc (.message m (.record ((st.members.map (·.name)).zip (os.map copied)))))

end Beschi.Lang.C
