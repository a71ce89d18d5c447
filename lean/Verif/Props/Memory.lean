import Verif.Lang.CMemoryUse
import Verif.Props.Limits
/-
C27 and C28: memory in C.

The heap is in Verif/Lang/CMemory.lean: blocks are allocated one by one; releasing a block that is not
allocated (or no longer), releasing something that is not a block, following a pointer to something
that is not allocated, and using a variable without a value are all the failure `crash`.  So if
releasing does not fail and the blocks afterwards are those from before, then everything allocated
since has been released exactly once, and nothing else.
-/
namespace Beschi.Props
open Beschi Beschi.Spec Beschi.Lang

/-! ### Material for the examples -/

theorem empty_fresh : C.Heap.empty.Fresh := fun _ _ => rfl

/-- A `Draw` message: a shape with two points, the title "Hi" and two tags; one layer with a title;
two kinds. -/
def drawn : Buf :=
  [2, 0, 0, 0, 128, 63, 0, 0, 0, 64, 0, 0, 0, 0, 0, 0, 0, 0, 2, 0, 72, 105, 2, 0, 2, 0, 1, 0, 97, 0, 0, 1,
   1, 0, 0, 0, 0, 0, 255, 255, 1, 0, 3, 0, 97, 98, 99, 0,
   1, 0, 0, 0, 0, 0, 0, 0, 2, 0, 44, 1, 2, 0, 0, 0, 0, 0, 0, 0, 0, 0]

set_option maxRecDepth 20000 in
/-- It is read; thirteen blocks are allocated. -/
theorem drawn_read : ∃ o heap',
    C.memRead demoProtocol "Draw" drawn 0 .empty = (o, heap', .ok drawn.length) ∧ heap'.next = 13 :=
  ⟨_, _, rfl, rfl⟩

/-- The same message in a stream, between two others. -/
def stream : Buf := 2 :: 1 :: drawn ++ [2]

set_option maxRecDepth 20000 in
theorem stream_processed : ∃ id qs heap',
    C.memProcess demoProtocol stream 0 (-1) .empty = ((id, qs), heap', .ok stream.length) ∧
      qs.length = 3 ∧ heap'.next = 17 :=
  ⟨_, _, _, rfl, rfl, rfl⟩

set_option maxRecDepth 20000 in
theorem stream_unpacked : ∃ q qs heap' pos',
    C.memUnpack demoProtocol (bsci ++ [3, 0, 0, 0] ++ stream ++ [0]) 0 .empty = ((q, qs), heap', .ok pos') ∧
      qs.length = 3 ∧ heap'.next = 17 :=
  ⟨_, _, _, _, rfl, rfl, rfl⟩

set_option maxRecDepth 20000 in
/-- Four messages are announced, there are three. -/
theorem stream_mismatch : ∃ qs heap' e,
    C.memUnpack demoProtocol (bsci ++ [4, 0, 0, 0] ++ stream ++ [0]) 0 .empty =
      ((.null, qs), heap', .error e) ∧ heap'.next = 17 :=
  ⟨_, _, _, rfl, rfl⟩

section
variable {j : Toml} {p : Protocol} (h : Loads j (.ok p)) (hs : C.Supported p)
variable {d : Struct} (hd : d ∈ p.messages) {heap heap' : C.Heap} (hf : heap.Fresh)

/-! ### C27 -/

include h hs hd in
/-- C27: reading into memory succeeds and fails exactly as the reading function does that the other
properties are about; and what is in memory afterwards is the value read: writing it and measuring it
gives what writing and measuring the value gives. -/
theorem C27_read_partial (b : Buf) (pos : Nat) (heap : C.Heap) :
    (C.memRead p d.name b pos heap).2.2 = (C.read p d.name b pos).map (·.2) ∧
      ∀ v pos', C.read p d.name b pos = .ok (v, pos') →
        (∀ tag cs, C.write p d.name tag v = .ok cs →
          C.memWrite p d.name tag (C.memRead p d.name b pos heap).2.1 (C.memRead p d.name b pos heap).1 =
            .ok cs) ∧
        (∀ n, C.size p d.name v = .ok n →
          C.memSize p d.name (weight v) (C.memRead p d.name b pos heap).2.1
            (C.memRead p d.name b pos heap).1 = .ok n) := by
  have hu := usable_of_loads h
  have ha := C.memRead_agrees hu hs hd b pos heap
  unfold C.Agrees at ha
  generalize C.memRead p d.name b pos heap = x at ha ⊢
  obtain ⟨o, heap', r⟩ := x
  cases r with
  | error e =>
    simp only at ha ⊢
    rw [ha]
    exact ⟨rfl, fun v pos' hr => nomatch hr⟩
  | ok pos' =>
    simp only at ha ⊢
    obtain ⟨v, ids, ha, ⟨fs, vs, rfl, rfl, ho⟩, hg⟩ := ha
    rw [ha]
    refine ⟨rfl, fun w q hr => ?_⟩
    cases hr
    have hrep : C.Rep heap' (.record fs) (.record vs) := .record (ho.rep hu)
    exact ⟨fun tag cs hw => C.memWrite_rep hrep hw, fun n hn => C.memSize_rep hrep hn⟩

example : (C.memRead demoProtocol "Draw" drawn 0 .empty).2.2 = (C.read demoProtocol "Draw" drawn 0).map (·.2) ∧
    (C.memRead demoProtocol "Draw" drawn 0 .empty).2.2 = .ok drawn.length := by
  obtain ⟨o, heap', hr, _⟩ := drawn_read
  exact ⟨(C27_read_partial demo_loads demo_c (d := demoProtocol.messages[0]) (by decide) drawn 0 .empty).1,
    by rw [hr]⟩

include h hs hd hf in
/-- C27: after a message has been read successfully, `_Cleanup` releases every block allocated while
reading it exactly once, and nothing else. -/
theorem C27_cleanup_partial {b : Buf} {pos pos' : Nat} {o : C.Obj}
    (hr : C.memRead p d.name b pos heap = (o, heap', .ok pos')) :
    (∀ id < heap.next, heap'.blocks id = heap.blocks id) ∧
      ∃ after, C.cleanup p d.name o heap' = .ok after ∧ after.blocks = heap.blocks := by
  have hu := usable_of_loads h
  have ha := C.memRead_agrees hu hs hd b pos heap
  unfold C.Agrees at ha
  rw [hr] at ha
  obtain ⟨v, ids, ha, ⟨fs, vs, rfl, rfl, ho⟩, hg⟩ := ha
  exact ⟨fun id hi => hg.old hi, _, C.cleanup_own hu hs hd ho hg.nodup, hg.without hf⟩

example : ∃ o heap' after, C.memRead demoProtocol "Draw" drawn 0 .empty = (o, heap', .ok drawn.length) ∧
    heap'.next = 13 ∧ C.cleanup demoProtocol "Draw" o heap' = .ok after ∧
    after.blocks = C.Heap.empty.blocks := by
  obtain ⟨o, heap', hr, hn⟩ := drawn_read
  obtain ⟨_, after, h1, h2⟩ := C27_cleanup_partial demo_loads demo_c
    (d := demoProtocol.messages[0]) (by decide) empty_fresh hr
  exact ⟨o, heap', after, hr, hn, h1, h2⟩

include h hs hd hf in
/-- C27: the same for a message in a block of its own (as `_Create` and `ProcessRawBytes` allocate it,
with whatever was in it before) and `_Destroy`. -/
theorem C27_destroy_partial {b : Buf} {pos pos' : Nat} {o o' : C.Obj}
    (hr : C.memRead p d.name b pos (heap.alloc (.message d.name o')) = (o, heap', .ok pos')) :
    ∃ after, C.destroy p d.name (.block heap.next)
      (heap'.set heap.next (some (.message d.name o))) = .ok after ∧ after.blocks = heap.blocks := by
  have hu := usable_of_loads h
  have ha := C.memRead_agrees hu hs hd b pos (heap.alloc (.message d.name o'))
  unfold C.Agrees at ha
  rw [hr] at ha
  obtain ⟨v, ids, ha, ⟨fs, vs, rfl, rfl, ho⟩, hg⟩ := ha
  have hg' := ((C.Grown.alloc heap (.message d.name o')).trans hg).set (id := heap.next) (by simp)
    (some (.message d.name (.record fs)))
  have hne : ∀ i ∈ ids, i ≠ heap.next := fun i hi => by
    have := hg.range i hi; simp only [C.Heap.alloc] at this; omega
  exact ⟨_, C.destroy_own hu hs hd (C.set_self _ _ _)
    (ho.mono fun i hi => C.set_other _ (hne i hi)) hg'.nodup, hg'.without hf⟩

set_option maxRecDepth 20000 in
example : ∃ o heap' pos', C.memRead demoProtocol "Draw" drawn 0
    (C.Heap.empty.alloc (.message "Draw" .wild)) = (o, heap', .ok pos') := ⟨_, _, _, rfl⟩

include h hs hf in
/-- C27: after a stream has been processed successfully, `DestroyMessageList` releases every block
allocated while processing it exactly once, and nothing else.  The list has as many messages as were
read. -/
theorem C27_list_partial {b : Buf} {pos pos' : Nat} {max : Int} {id : Nat} {qs : List C.Ptr}
    (hr : C.memProcess p b pos max heap = ((id, qs), heap', .ok pos')) :
    (∃ ms, C.process p b pos max = .ok (ms, pos') ∧ qs.length = ms.length) ∧
      ∃ after, C.destroyList p (.block id) qs.length heap' = .ok after ∧ after.blocks = heap.blocks := by
  have hu := usable_of_loads h
  have ha := C.memProcess_agrees hu hs b pos max hf
  rw [hr] at ha
  obtain ⟨ms, room, ids, ha, hl⟩ := ha
  exact ⟨⟨ms, ha, hl.msgs.length⟩, _, C.destroyList_own hu hs hl.array hl.msgs hl.grown.nodup,
    hl.grown.without hf⟩

example : ∃ id heap' after, C.destroyList demoProtocol (.block id) 3 heap' = .ok after ∧
    heap'.next = 17 ∧ after.blocks = C.Heap.empty.blocks := by
  obtain ⟨id, qs, heap', hr, hl, hn⟩ := stream_processed
  obtain ⟨_, after, h1, h2⟩ := C27_list_partial demo_loads demo_c empty_fresh hr
  exact ⟨id, heap', after, hl ▸ h1, hn, h2⟩

include h hs hf in
/-- C27: processing a stream into memory fails as the function does that the other properties are
about. -/
theorem C27_process_partial (b : Buf) (pos : Nat) (max : Int) :
    (C.memProcess p b pos max heap).2.2 = (C.process p b pos max).map (·.2) := by
  have ha := C.memProcess_agrees (usable_of_loads h) hs b pos max hf
  generalize C.memProcess p b pos max heap = x at ha ⊢
  obtain ⟨⟨id, qs⟩, heap', r⟩ := x
  cases r with
  | error e => simp only at ha ⊢; rw [ha]; rfl
  | ok pos' => obtain ⟨ms, room, ids, ha, _⟩ := ha; simp only; rw [ha]; rfl

example : (C.process demoProtocol stream 0 (-1)).map (·.2) = .ok stream.length := by
  obtain ⟨id, qs, heap', hr, hl, hn⟩ := stream_processed
  rw [← C27_process_partial demo_loads demo_c empty_fresh, hr]

include h hs hf in
/-- C27: the same for unpacking. -/
theorem C27_unpacked_partial {b : Buf} {pos pos' : Nat} {q : C.Ptr} {qs : List C.Ptr}
    (hr : C.memUnpack p b pos heap = ((q, qs), heap', .ok pos')) :
    (∃ ms, C.unpackFrom p b pos = .ok ms ∧ qs.length = ms.length) ∧
      ∃ after, C.destroyList p q qs.length heap' = .ok after ∧ after.blocks = heap.blocks := by
  have hu := usable_of_loads h
  have ha := C.memUnpack_agrees hu hs b pos hf
  rw [hr] at ha
  obtain ⟨id, ms, room, ids, rfl, ha, hl⟩ := ha
  exact ⟨⟨ms, ha, hl.msgs.length⟩, _, C.destroyList_own hu hs hl.array hl.msgs hl.grown.nodup,
    hl.grown.without hf⟩

example : ∃ q heap' after, C.destroyList demoProtocol q 3 heap' = .ok after ∧
    heap'.next = 17 ∧ after.blocks = C.Heap.empty.blocks := by
  obtain ⟨q, qs, heap', pos', hr, hl, hn⟩ := stream_unpacked
  obtain ⟨_, after, h1, h2⟩ := C27_unpacked_partial demo_loads demo_c empty_fresh hr
  exact ⟨q, heap', after, hl ▸ h1, hn, h2⟩

include h hs hf in
/-- C27: if unpacking fails because the number of messages is not the announced one, the list is `NULL`
and everything allocated has been released exactly once, and nothing else. -/
theorem C27_mismatch_partial {b : Buf} {pos : Nat} {qs : List C.Ptr} {r : Except Fail Nat}
    (hr : C.memUnpack p b pos heap = ((.null, qs), heap', r)) :
    r.isOk = false ∧ heap'.blocks = heap.blocks := by
  have ha := C.memUnpack_agrees (usable_of_loads h) hs b pos hf
  rw [hr] at ha
  cases r with
  | error e => exact ⟨rfl, ha.2 rfl⟩
  | ok pos' => obtain ⟨id, _, _, _, hn, _⟩ := ha; cases hn

example : ∃ heap' : C.Heap, heap'.next = 17 ∧ heap'.blocks = C.Heap.empty.blocks := by
  obtain ⟨qs, heap', e, hr, hn⟩ := stream_mismatch
  exact ⟨heap', hn, (C27_mismatch_partial demo_loads demo_c empty_fresh hr).2⟩

/-- Two texts. -/
def wTexts : Protocol := single [⟨"x", "string", false⟩, ⟨"y", "string", false⟩]

/-- The other half of C27 is needed: what a failed read has allocated cannot be released.  Here the
second of two texts is cut off; the first one has been allocated, and `_Cleanup` releases a pointer
that has never been assigned. -/
theorem C27_failed_read :
    Accepted wTexts ∧ (C.memRead wTexts "M" [1, 0, 65, 5, 0] 0 .empty).2.2 = .error .eof ∧
      (C.memRead wTexts "M" [1, 0, 65, 5, 0] 0 .empty).2.1.blocks 0 = some (.chars [65]) ∧
      C.cleanup wTexts "M" (C.memRead wTexts "M" [1, 0, 65, 5, 0] 0 .empty).1
        (C.memRead wTexts "M" [1, 0, 65, 5, 0] 0 .empty).2.1 = .error .crash :=
  ⟨⟨10, rfl⟩, rfl, rfl, rfl⟩

/-- The message that could not be read is also in the list that `ProcessRawBytes` leaves, with its
length, so `DestroyMessageList` has the same problem. -/
theorem C27_failed_list :
    Accepted wTexts ∧ ∃ id qs heap', C.memProcess wTexts [1, 1, 0, 65, 5, 0] 0 (-1) .empty =
        ((id, qs), heap', .error .eof) ∧
      C.destroyList wTexts (.block id) qs.length heap' = .error .crash :=
  ⟨⟨10, rfl⟩, _, _, _, rfl, rfl⟩

/-! ### C28 -/

include h hs hd in
/-- C28, as far as it is true: `_Create` gives a new block with a message; it can be written and
measured, with the same result as the default value, exactly if it has no list and no text among its
members.  Otherwise, both use a length that has not been assigned. -/
theorem C28_created_partial (heap : C.Heap) :
    ∃ vs o, IsDefaultFields p d.members vs ∧
      C.memCreate p d.name heap = .ok (.block heap.next, heap.alloc (.message d.name o)) ∧
      ((∀ m ∈ d.members, m.isList = false ∧ m.vartype ≠ "string") →
        (∀ tag, ∃ cs, C.write p d.name tag (.record vs) = .ok cs ∧
          C.memWrite p d.name tag (heap.alloc (.message d.name o)) o = .ok cs) ∧
        ∃ n, C.size p d.name (.record vs) = .ok n ∧
          C.memSize p d.name 0 (heap.alloc (.message d.name o)) o = .ok n) ∧
      ((∃ m ∈ d.members, m.isList = true ∨ m.vartype = "string") →
        (∀ tag, C.memWrite p d.name tag (heap.alloc (.message d.name o)) o = .error .crash) ∧
        ∀ bound, C.memSize p d.name bound (heap.alloc (.message d.name o)) o = .error .crash) := by
  have hu := usable_of_loads h
  obtain ⟨vs, hv⟩ := default_fields_exist hu (s := d) (List.mem_append_right _ hd)
  obtain ⟨fs, hb, hc⟩ := C.memCreate_blank hu hd hv heap
  obtain ⟨bs, he⟩ := IsDefaultFields.enc hu hv
  have hm : EncMsg p d.name (.record vs) bs := ⟨d, vs, hd, rfl, rfl, he⟩
  obtain ⟨pre, post, e⟩ := List.append_of_mem hd
  refine ⟨vs, _, hv, hc, fun hl => ?_, fun ⟨m, hmm, hl⟩ => ?_⟩
  · have hr := C.created_rep (h := heap.alloc (.message d.name (.record (C.copiedFields fs)))) hu hb
      (fun m hm hx => by
        rcases hx with hx | hx
        · rw [(hl m hm).1] at hx; cases hx
        · exact (hl m hm).2 hx)
    refine ⟨fun tag => ?_, ?_⟩
    · obtain ⟨cs, h1, _⟩ := C.write_encoded hu hs tag e hm
      exact ⟨cs, h1, C.memWrite_rep hr h1⟩
    · have h1 := C.size_encoded hu hs hm
      have := C.memSize_rep hr h1
      rw [show weight (.record vs) = 0 by simpa [weight] using C.weight_defaults hv] at this
      exact ⟨_, h1, this⟩
  · refine ⟨fun tag => ?_, fun bound => ?_⟩
    · obtain ⟨cs, h1, _⟩ := C.write_encoded hu hs tag e hm
      exact C.created_write_crash hu hs hd hb hmm hl h1
    · rcases hb.loose hu (hs.names _ (by simp [bodies, hd])) m hmm hl with ⟨_, h2⟩ | ⟨_, _, h2⟩
      · exact C.memSize_crash hu hs hd hv (hb.mixed hu) hmm hl h2 .list bound
      · exact C.memSize_crash hu hs hd hv (hb.mixed hu) hmm hl h2 .text bound

/-- Both cases arise: `Draw` has lists, `Ping` has none. -/
example : (∃ m ∈ demoProtocol.messages[0].members, m.isList = true ∨ m.vartype = "string") ∧
    ∀ m ∈ demoProtocol.messages[2].members, m.isList = false ∧ m.vartype ≠ "string" := by decide

include h hs hd hf in
/-- C28, as far as it is true: a created message can be destroyed, which releases its block and nothing
else, exactly if no text can be reached without going through a list and no list among its members has
elements that contain texts or lists.  Otherwise, a string literal is released, or a length is used that
has not been assigned. -/
theorem C28_destroyed_partial :
    ∃ q heap', C.memCreate p d.name heap = .ok (q, heap') ∧
      ((∀ m ∈ d.members, if m.isList = true then ¬ Varying p m.vartype else ¬ TextInside p m.vartype) →
        ∃ after, C.destroy p d.name q heap' = .ok after ∧ after.blocks = heap.blocks) ∧
      ((¬ ∀ m ∈ d.members, if m.isList = true then ¬ Varying p m.vartype else ¬ TextInside p m.vartype) →
        C.destroy p d.name q heap' = .error .crash) := by
  have hu := usable_of_loads h
  obtain ⟨vs, hv⟩ := default_fields_exist hu (s := d) (List.mem_append_right _ hd)
  obtain ⟨fs, hb, hc⟩ := C.memCreate_blank hu hd hv heap
  obtain ⟨h1, h2⟩ := C.cleanup_created hu hs hd hb
    (heap.alloc (.message d.name (.record (C.copiedFields fs))))
  have hx : (∀ m ∈ d.members, if m.isList = true then ¬ Varying p m.vartype else ¬ TextInside p m.vartype) ↔
      ¬ ∃ m ∈ d.members, C.Undestroyable p m := by
    simp only [not_exists, not_and, C.Undestroyable]
    refine forall_congr' fun m => forall_congr' fun hm => ?_
    cases m.isList <;> simp
  have hblk : (heap.alloc (.message d.name (.record (C.copiedFields fs)))).blocks heap.next =
      some (.message d.name (.record (C.copiedFields fs))) := by simp [C.Heap.alloc]
  refine ⟨_, _, hc, fun hn => ?_, fun hn => ?_⟩
  · refine ⟨_, ?_, C.Grown.without hf (C.Grown.alloc heap
      (.message d.name (.record (C.copiedFields fs))))⟩
    simp only [C.destroy, C.Heap.at, hblk, h2 (hx.1 hn)]
    exact C.free_block hblk
  · simp only [C.destroy, C.Heap.at, hblk]
    rw [h1 (not_not.1 fun hn' => hn (hx.2 hn'))]

/-- Both cases arise: `Draw` has a list of shapes, which have texts; `Ping` has no texts. -/
example : (¬ ∀ m ∈ demoProtocol.messages[0].members,
      if m.isList = true then ¬ Varying demoProtocol m.vartype else ¬ TextInside demoProtocol m.vartype) ∧
    ∀ m ∈ demoProtocol.messages[2].members,
      if m.isList = true then ¬ Varying demoProtocol m.vartype else ¬ TextInside demoProtocol m.vartype := by
  constructor
  · intro h
    have := h ⟨"layers", "Shape", true⟩ (by decide)
    rw [if_pos rfl] at this
    exact this demo_shape_varies
  · have key : ∀ t, TextInside demoProtocol t → t = "string" ∨ t ∈ demoProtocol.structs.map (·.name) := by
      intro t h
      cases h with
      | text => exact .inl rfl
      | struct hs => exact .inr (List.mem_map_of_mem hs)
    have h : ∀ m ∈ demoProtocol.messages[2].members, m.isList = false ∧ m.vartype ≠ "string" ∧
        m.vartype ∉ demoProtocol.structs.map (·.name) := by decide
    intro m hm
    obtain ⟨h1, h2, h3⟩ := h m hm
    rw [h1]
    exact fun ht => (key _ ht).elim h2 h3

end

/-- C28 is false: a message with a single text can be created, but not written, measured or destroyed. -/
theorem C28_fails :
    Accepted wText ∧ ∃ o, C.memCreate wText "M" .empty =
        .ok (.block 0, C.Heap.empty.alloc (.message "M" o)) ∧
      C.memWrite wText "M" false (C.Heap.empty.alloc (.message "M" o)) o = .error .crash ∧
      C.memSize wText "M" 0 (C.Heap.empty.alloc (.message "M" o)) o = .error .crash ∧
      C.destroy wText "M" (.block 0) (C.Heap.empty.alloc (.message "M" o)) = .error .crash :=
  ⟨⟨10, rfl⟩, _, rfl, rfl, rfl, rfl⟩

end Beschi.Props
