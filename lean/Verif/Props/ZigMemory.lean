import Verif.Lang.ZigMemoryLeak
import Verif.Props.Memory
/-
C41, C42 and C43: memory in Zig.

The heap is in Verif/Lang/ZigMemory.lean: every request to the allocator may be refused; releasing a slice
that is not allocated (or no longer) and looking into one are the failure `crash`.  So if releasing does not
fail and the blocks afterwards are those from before, then everything allocated since has been released
exactly once, and nothing else.
-/
namespace Beschi.Props
open Beschi Beschi.Spec Beschi.Lang

/-- There is a block that was not there before. -/
def Leaked (heap heap' : Zig.Heap) : Prop := ∃ id, heap.blocks id = none ∧ heap'.blocks id ≠ none

theorem leaked_of_new {heap heap' : Zig.Heap} (hf : heap.Fresh) (hn : Zig.New heap heap') :
    Leaked heap heap' := by
  obtain ⟨id, h1, _, h3⟩ := hn
  exact ⟨id, hf id h1, h3⟩

theorem kept_nothing {heap heap' : Zig.Heap} (hg : Zig.Grown heap heap' []) : heap'.blocks = heap.blocks :=
  funext fun id => hg.same id (by simp)

theorem zig_empty_fresh : Zig.Heap.empty.Fresh := fun _ _ => rfl

theorem ample_generous : Zig.Allocator.ample.Generous := fun _ _ => rfl

section
variable {j : Toml} {p : Protocol} (h : Loads j (.ok p)) (hs : Zig.Supported p)
variable {d : Struct} (hd : d ∈ p.messages) (A : Zig.Allocator) {heap heap' : Zig.Heap} (hf : heap.Fresh)

/-! ### C41 -/

include h hs hd hf in
/-- C41: reading into memory succeeds and fails exactly as the reading function does that the other
properties are about, unless the allocator refuses something; and the memory holds the value read. -/
theorem C41_read_partial (b : Buf) (pos : Nat) :
    (∀ o pos', Zig.memRead p A d.name b pos heap = (heap', .ok (o, pos')) →
      ∃ v, (Zig.library p).read d.name b pos = .ok (v, pos') ∧ Zig.Holds heap' o v) ∧
    (∀ e, Zig.memRead p A d.name b pos heap = (heap', .error (.fail e)) →
      (Zig.library p).read d.name b pos = .error e) ∧
    (Zig.memRead p A d.name b pos heap = (heap', .error .outOfMemory) → ∃ i n, A.grants i n = false) := by
  have ha := Zig.memRead_agrees (usable_of_loads h) hs hd A b pos heap hf
  rw [Zig.library_eq (usable_of_loads h) hs]
  unfold Zig.Agrees at ha
  refine ⟨fun o pos' hx => ?_, fun e hx => ?_, fun hx => ?_⟩
  · rw [hx] at ha
    obtain ⟨v, ids, h1, h2, _⟩ := ha
    exact ⟨v, h1, h2.holds⟩
  · rw [hx] at ha
    exact ha.same e rfl
  · rw [hx] at ha
    obtain ⟨i, n, h1, _⟩ := ha.memory rfl
    exact ⟨i, n, h1⟩

include h hs hd hf in
/-- C41: after a successful read, `deinit` releases exactly what has been allocated. -/
theorem C41_deinit_partial (hv : VaryingBody p d.members) {b : Buf} {pos pos' : Nat} {o : Zig.Obj}
    (hx : Zig.memRead p A d.name b pos heap = (heap', .ok (o, pos'))) :
    ∃ after, Zig.deinit p d.name o heap' = .ok after ∧ after.blocks = heap.blocks := by
  have hu := usable_of_loads h
  have ha := Zig.memRead_agrees hu hs hd A b pos heap hf
  unfold Zig.Agrees at ha
  rw [hx] at ha
  obtain ⟨v, ids, _, h2, h3⟩ := ha
  have hns : ¬ p.simpleStruct d = true := by
    rw [Zig.simple_iff hu (mem_bodies_message hd)]
    exact not_not.2 hv
  rw [Zig.OwnMsg, if_neg hns] at h2
  obtain ⟨fs, vs, rfl, rfl, h2⟩ := h2
  exact ⟨_, Zig.deinit_own hu hs hd hv h2 h3.nodup, h3.restored hf⟩

include h hs hd in
/-- C41: reading a message of fixed size, which has no `deinit`, does not touch the memory. -/
theorem C41_fixed_partial (hv : ¬ VaryingBody p d.members) (b : Buf) (pos : Nat) :
    (Zig.memRead p A d.name b pos heap).1 = heap := by
  have hu := usable_of_loads h
  rw [Zig.memRead, message?_of_mem hu.messagesDistinct hd]
  simp only [Zig.readOk_message hu hs hd, Bool.not_true, Bool.false_eq_true, if_false]
  rw [if_pos ((Zig.simple_iff hu (mem_bodies_message hd)).2 hv)]
  unfold Zig.memPlain
  cases Zig.readFixed p d b pos <;> rfl

include h hs hd in
/-- C41: a message with default members holds the default values; it can be released, whatever the memory
looks like, and that changes nothing. -/
theorem C41_created_partial : ∃ vs o, IsDefaultFields p d.members vs ∧ Zig.memCreate p d.name = .ok o ∧
    ∀ heap, Zig.Holds heap o (.record vs) ∧
      (VaryingBody p d.members → Zig.deinit p d.name o heap = .ok heap) := by
  have hu := usable_of_loads h
  obtain ⟨vs, hv⟩ := default_fields_exist hu (s := d) (List.mem_append_right _ hd)
  obtain ⟨fs, h1, h2⟩ := Zig.memCreate_own hu hd hv
  refine ⟨vs, _, hv, h1, fun heap => ⟨.record (h2 heap).holds, fun hvb => ?_⟩⟩
  rw [Zig.deinit_own hu hs hd hvb (h2 heap) List.nodup_nil, Zig.without_nil]

include h hs hf in
/-- C41: a stream is processed with memory as it is without; the memory holds the messages; releasing them
one by one and then the list releases exactly what has been allocated. -/
theorem C41_process_partial (b : Buf) (max : Int) :
    (∀ o pos', Zig.memProcess p A b max heap = (heap', .ok (o, pos')) →
      ∃ ms is, (Zig.library p).process b 0 max = .ok (ms, pos') ∧ heap'.messages o = .ok is ∧
        Zig.HoldsMessages heap' is ms ∧
        ∃ after, Zig.releaseMessages p o heap' = .ok after ∧ after.blocks = heap.blocks) ∧
    (∀ e, Zig.memProcess p A b max heap = (heap', .error (.fail e)) →
      (Zig.library p).process b 0 max = .error e) ∧
    (Zig.memProcess p A b max heap = (heap', .error .outOfMemory) → ∃ i n, A.grants i n = false) := by
  have hu := usable_of_loads h
  have ha := Zig.memProcess_agrees hu hs A b max hf
  rw [Zig.library_eq hu hs]
  unfold Zig.Agrees at ha
  refine ⟨fun o pos' hx => ?_, fun e hx => ?_, fun hx => ?_⟩
  · rw [hx] at ha
    obtain ⟨ms, ids, h1, h2, h3⟩ := ha
    obtain ⟨is, h4, h5⟩ := h2.messages
    exact ⟨ms, is, h1, h4, h5, _, Zig.releaseMessages_own hu hs h2 h3.nodup, h3.restored hf⟩
  · rw [hx] at ha
    exact ha.same e rfl
  · rw [hx] at ha
    obtain ⟨i, n, h1, _⟩ := ha.memory rfl
    exact ⟨i, n, h1⟩

include h hs hf in
/-- C41: the same for packed messages. -/
theorem C41_unpack_partial (b : Buf) :
    (∀ o, Zig.memUnpack p A b heap = (heap', .ok o) →
      ∃ ms is, (Zig.library p).unpack b 0 = .ok ms ∧ heap'.messages o = .ok is ∧
        Zig.HoldsMessages heap' is ms ∧
        ∃ after, Zig.releaseMessages p o heap' = .ok after ∧ after.blocks = heap.blocks) ∧
    (∀ e, Zig.memUnpack p A b heap = (heap', .error (.fail e)) → (Zig.library p).unpack b 0 = .error e) ∧
    (Zig.memUnpack p A b heap = (heap', .error .outOfMemory) → ∃ i n, A.grants i n = false) := by
  have hu := usable_of_loads h
  have ha := Zig.memUnpack_agrees hu hs A b hf
  rw [Zig.library_eq hu hs]
  refine ⟨fun o hx => ?_, fun e hx => ?_, fun hx => ?_⟩
  · rw [hx] at ha
    obtain ⟨ms, ids, h1, h2, h3⟩ := ha
    obtain ⟨is, h4, h5⟩ := h2.messages
    exact ⟨ms, is, h1, h4, h5, _, Zig.releaseMessages_own hu hs h2 h3.nodup, h3.restored hf⟩
  · rw [hx] at ha
    exact ha.same e rfl
  · rw [hx] at ha
    obtain ⟨i, n, h1, _⟩ := ha.memory rfl
    exact ⟨i, n, h1⟩

/-! ### C42 -/

include h hs hd hf in
/-- C42 for messages in which nothing comes after a text or list: a failed read leaves nothing allocated,
whether data is missing, wrong, or the allocator refuses something - unless the program stops. -/
theorem C42_tidy_partial (ht : TidyBody p d.members) {b : Buf} {pos : Nat} {e : Zig.MemFail}
    (hx : Zig.memRead p A d.name b pos heap = (heap', .error e)) (hc : e ≠ .fail .crash) :
    heap'.blocks = heap.blocks := by
  have ha := Zig.memRead_agrees (usable_of_loads h) hs hd A b pos heap hf
  unfold Zig.Agrees at ha
  rw [hx] at ha
  obtain ⟨ids, h1, h2⟩ := ha.kept
  have : e.stops = false := by
    rcases e with (_ | _ | _ | _ | _) | _ <;> first | rfl | exact absurd rfl hc
  rw [h2 ht this] at h1
  exact kept_nothing h1

include h hs hd in
/-- C42 fails for all other messages: there is data (the beginning of a message) that cannot be read, and
after the attempt there is a block in memory that was not there before - however generous the allocator. -/
theorem C42_untidy_partial (ht : ¬ TidyBody p d.members) :
    ∃ bs, CutBody (written.restrict (Zig.Short p)) p d.members bs ∧
      (bs.length < 2 ^ 63 → ∀ A : Zig.Allocator, A.Generous → ∀ heap : Zig.Heap, heap.Fresh →
        ∃ heap', Zig.memRead p A d.name bs 0 heap = (heap', .error (.fail .eof)) ∧ Leaked heap heap') := by
  have hu := usable_of_loads h
  obtain ⟨bs, hc⟩ := Zig.untidy_message hu hs hd ht
  refine ⟨bs, hc, fun hl A hA heap hf => ?_⟩
  obtain ⟨heap', h1, h2⟩ := Zig.memRead_cut hu hs hd hA hc hl (pos := 0) ⟨[], [], by simp, rfl⟩ (by simp) hf
  exact ⟨heap', h1, leaked_of_new hf h2⟩

include h hs hd hf in
/-- C42 fails for all data that is cut off after a text or list (that is not empty) of the same struct has
been read. -/
theorem C42_cut_partial {A : Zig.Allocator} (hA : A.Generous) {b : Buf} {pos : Nat} {bs : List UInt8}
    (hc : CutBody (written.restrict (Zig.Short p)) p d.members bs) (hat : At b pos bs)
    (hend : pos + bs.length = b.length) (hl : b.length < 2 ^ 63) :
    ∃ heap', Zig.memRead p A d.name b pos heap = (heap', .error (.fail .eof)) ∧ Leaked heap heap' := by
  obtain ⟨heap', h1, h2⟩ := Zig.memRead_cut (usable_of_loads h) hs hd hA hc hl hat hend hf
  exact ⟨heap', h1, leaked_of_new hf h2⟩

include h hs hd hf in
/-- C42 fails, however the data goes on after the first members: if these contain a text or list that is not
empty, and reading fails, then there is a block that was not there before. -/
theorem C42_later_partial {A : Zig.Allocator} (hA : A.Generous) {pre post : List Variable}
    (hm : d.members = pre ++ post) {fs : List (String × Val)} {bs : List UInt8}
    (hl : LayoutFields (written.restrict (Zig.Short p)) p pre fs bs) {n : String} {v : Val}
    (hi : (n, v) ∈ fs) (hh : Heavy v) {b : Buf} {pos : Nat} (hat : At b pos bs) (hb : b.length < 2 ^ 63)
    {e : Zig.MemFail} (hx : Zig.memRead p A d.name b pos heap = (heap', .error e)) : Leaked heap heap' :=
  leaked_of_new hf (Zig.memRead_lost (usable_of_loads h) hs hd hA hm hl hi hh hb hat hf hx)

include h hs hf in
/-- C42 for streams, if all messages are of fixed size: after a failure nothing is left allocated. -/
theorem C42_process_fixed_partial (hall : ∀ s ∈ p.messages, ¬ VaryingBody p s.members) {b : Buf} {max : Int}
    {e : Zig.MemFail} (hx : Zig.memProcess p A b max heap = (heap', .error e)) (hc : e ≠ .fail .crash) :
    heap'.blocks = heap.blocks := by
  have ha := Zig.memProcess_agrees (usable_of_loads h) hs A b max hf
  unfold Zig.Agrees at ha
  rw [hx] at ha
  obtain ⟨ids, h1, h2⟩ := ha.kept
  have : e.stops = false := by
    rcases e with (_ | _ | _ | _ | _) | _ <;> first | rfl | exact absurd rfl hc
  rw [h2 hall this] at h1
  exact kept_nothing h1

include h hs hf in
/-- C42: the same for packed messages. -/
theorem C42_unpack_fixed_partial (hall : ∀ s ∈ p.messages, ¬ VaryingBody p s.members) {b : Buf}
    {e : Zig.MemFail} (hx : Zig.memUnpack p A b heap = (heap', .error e)) (hc : e ≠ .fail .crash) :
    heap'.blocks = heap.blocks := by
  have ha := Zig.memUnpack_agrees (usable_of_loads h) hs A b hf
  rw [hx] at ha
  obtain ⟨ids, h1, h2⟩ := ha.kept
  have : e.stops = false := by
    rcases e with (_ | _ | _ | _ | _) | _ <;> first | rfl | exact absurd rfl hc
  rw [h2 hall this] at h1
  exact kept_nothing h1

include h hs hf in
/-- C42 fails for all streams that begin with a message that contains a text or list (that is not empty), or
have one later on, and cannot be read to their end: the messages read stay in memory, and nobody knows
where. -/
theorem C42_process_partial {A : Zig.Allocator} (hA : A.Generous) {ms : List (String × Val)}
    {bs rest : List UInt8} (hst : Stream p ms bs) (ht : ∀ x ∈ ms, Texts (Zig.Short p) x.2)
    (hh : ∃ x ∈ ms, Heavy x.2) {max : Int} (hmax : max < 0 ∨ (ms.length : Int) ≤ max)
    (hl : (bs ++ rest).length < 2 ^ 63) {e : Zig.MemFail}
    (hx : Zig.memProcess p A (bs ++ rest) max heap = (heap', .error e)) : Leaked heap heap' := by
  obtain ⟨id, h1, h2, h3, _⟩ := Zig.memProcess_keeps (usable_of_loads h) hs hA hl hf hst ht hh
    ⟨[], rest, by simp, rfl⟩ hmax
  rw [hx] at h2 h3
  exact leaked_of_new hf ⟨id, h1, h2, h3⟩

include h hs hf in
/-- C42: the same for packed messages, also if only their number is not the one announced. -/
theorem C42_unpack_partial {A : Zig.Allocator} (hA : A.Generous) {ms : List (String × Val)}
    {bs rest : List UInt8} (hst : Stream p ms bs) (ht : ∀ x ∈ ms, Texts (Zig.Short p) x.2)
    (hh : ∃ x ∈ ms, Heavy x.2) {n : Nat} (hn : ms.length ≤ n) (hn' : n < 2 ^ 31) {b : Buf}
    (hb : b = bsci ++ (littleEndian 4 n ++ bs) ++ rest) (hl : b.length < 2 ^ 63) {e : Zig.MemFail}
    (hx : Zig.memUnpack p A b heap = (heap', .error e)) : Leaked heap heap' :=
  leaked_of_new hf (Zig.memUnpack_lost (usable_of_loads h) hs hA hl hf
    (EncNum.int (n := .uint32) (i := n) ⟨by omega, by omega⟩) hst ht hh
    (by rw [hb]; exact ⟨[], rest, by simp [width], rfl⟩) hn hn' hx)

/-! ### C43 -/

include h hs hd hf in
/-- C43 for messages in which no list can be reached: an allocator that grants every request for at most as
many bytes as there are in the buffer is never asked for more. -/
theorem C43_request_partial (hn : ¬ HasListBody p d.members) (b : Buf) (pos : Nat)
    (hA : ∀ i n, n ≤ b.length → A.grants i n = true) :
    (Zig.memRead p A d.name b pos heap).2 ≠ .error .outOfMemory := by
  intro hx
  have ha := Zig.memRead_agrees (usable_of_loads h) hs hd A b pos heap hf
  unfold Zig.Agrees at ha
  rw [hx] at ha
  obtain ⟨i, n, h1, h2⟩ := ha.memory rfl
  rw [hA i n (h2 hn)] at h1
  cases h1

include h hs hd in
/-- C43 fails for lists: a few bytes are enough to ask for any number of elements that can be written as a
length. -/
theorem C43_list_partial {m : Variable} {ms : List Variable} (hm : d.members = m :: ms)
    (hl : m.isList = true) {n : Nat} {len : List UInt8} (hn : EncNum p.listSize (.int n) len) (h0 : n ≠ 0)
    (hA : ∀ i, A.grants i n = false) :
    Zig.memRead p A d.name len 0 heap = (heap, .error .outOfMemory) := by
  have hu := usable_of_loads h
  rw [Zig.memRead_varying hu hs hd ⟨m, by rw [hm]; simp, .inl hl⟩, Zig.memBody, hm]
  simp only [Zig.memMembers, Zig.memMember, hl, if_true, Zig.readNum_native]
  have hat : At len 0 len := ⟨[], [], by simp, rfl⟩
  rw [takeNum_at hat (.written hn)]
  simp only [asInt]
  rw [show (Zig.readSem p).count n = .ok n by simp [Zig.readSem]]
  simp only [Zig.memList, Zig.Heap.alloc, h0, if_false, hA, Bool.false_eq_true]

end

/-! ### Witnesses -/

/-- C42 as stated fails: of two texts, the first is complete and the second is missing. -/
theorem C42_fails : Accepted wTexts ∧ ∃ heap',
    Zig.memRead wTexts .ample "M" [1, 0, 65] 0 .empty = (heap', .error (.fail .eof)) ∧
      heap'.blocks 0 = some (.chars [65]) := ⟨⟨10, rfl⟩, _, rfl, rfl⟩

/-- An allocator that refuses is enough, the data can be whole. -/
theorem C42_fails_refused : Accepted wTexts ∧ ∃ heap',
    Zig.memRead wTexts { Zig.Allocator.ample with grants := fun i _ => i == 0 } "M" [1, 0, 65, 1, 0, 66] 0
      .empty = (heap', .error .outOfMemory) ∧ heap'.blocks 0 = some (.chars [65]) :=
  ⟨⟨10, rfl⟩, _, rfl, rfl⟩

/-- In a stream, one text is enough: here a message that has been read is followed by an unknown type
number. -/
theorem C42_fails_stream : Accepted wText ∧ ∃ heap',
    Zig.memProcess wText .ample [1, 1, 0, 65, 9] (-1) .empty = (heap', .error (.fail .invalid)) ∧
      heap'.blocks 0 = some (.chars [65]) := ⟨⟨10, rfl⟩, _, rfl, rfl⟩

/-- C43 as stated fails: two bytes are enough to ask for room for 65535 numbers. -/
theorem C43_fails : Accepted wBytes ∧
    Zig.memRead wBytes { Zig.Allocator.ample with grants := fun _ n => decide (n < 65535) } "M" [255, 255] 0
      .empty = (.empty, .error .outOfMemory) := ⟨⟨10, rfl⟩, rfl⟩

/-! ### Examples -/

theorem wText_zig : Zig.Supported wText where
  messages := by decide
  file := by decide
  union := by decide
  types := by decide
  locals := by decide
  flat := by simp [wText, single, structNames]
  numbers := by simp [wText, single]
  sizes := by decide
  unsigned := by decide

theorem wText_accepted : Accepted wText := ⟨10, rfl⟩

theorem wTexts_zig : Zig.Supported wTexts where
  messages := by decide
  file := by decide
  union := by decide
  types := by decide
  locals := by decide
  flat := by simp [wTexts, single, structNames]
  numbers := by simp [wTexts, single]
  sizes := by decide
  unsigned := by decide

theorem wTexts_accepted : Accepted wTexts := ⟨10, rfl⟩

theorem wBytes_zig : Zig.Supported wBytes where
  messages := by decide
  file := by decide
  union := by decide
  types := by decide
  locals := by decide
  flat := by simp [wBytes, single, structNames]
  numbers := by simp [wBytes, single]
  sizes := by decide
  unsigned := by decide

set_option maxRecDepth 20000 in
theorem zig_drawn_read : ∃ o heap',
    Zig.memRead demoProtocol .ample "Draw" drawn 0 .empty = (heap', .ok (o, drawn.length)) ∧
      heap'.next = 8 := ⟨_, _, rfl, rfl⟩

theorem draw_varies : VaryingBody demoProtocol demoProtocol.messages[0].members :=
  ⟨_, List.mem_cons_self, .inr demo_shape_varies⟩

/-- A `Draw` message is read, with eight allocations, and released. -/
example : ∃ v o heap' after,
    Zig.memRead demoProtocol .ample "Draw" drawn 0 .empty = (heap', .ok (o, drawn.length)) ∧
      (Zig.library demoProtocol).read "Draw" drawn 0 = .ok (v, drawn.length) ∧ Zig.Holds heap' o v ∧
      heap'.next = 8 ∧ Zig.deinit demoProtocol "Draw" o heap' = .ok after ∧
      after.blocks = Zig.Heap.empty.blocks := by
  obtain ⟨o, heap', hr, hn⟩ := zig_drawn_read
  obtain ⟨after, h1, h2⟩ := C41_deinit_partial demo_loads demo_zig (d := demoProtocol.messages[0]) (by decide)
    _ zig_empty_fresh draw_varies hr
  obtain ⟨v, h3, h4⟩ := (C41_read_partial demo_loads demo_zig (d := demoProtocol.messages[0]) (by decide)
    .ample zig_empty_fresh drawn 0).1 _ _ hr
  exact ⟨v, o, heap', after, hr, h3, h4, hn, h1, h2⟩

/-- `Ping` is of fixed size, so the memory is not touched. -/
example : (Zig.memRead demoProtocol .ample "Ping" [0, 0, 0, 0, 0, 0, 0, 0, 2, 0] 0 .empty).1 = .empty ∧
    (Zig.memRead demoProtocol .ample "Ping" [0, 0, 0, 0, 0, 0, 0, 0, 2, 0] 0 .empty).2 =
      .ok (.plain (.record [("stamp", .int 0), ("how", .int 2)]), 10) := ⟨rfl, rfl⟩

set_option maxRecDepth 20000 in
/-- Three messages of a stream, and the same packed: ten allocations, all released. -/
example : ∃ o heap' after, Zig.memProcess demoProtocol .ample stream (-1) .empty =
      (heap', .ok (o, stream.length)) ∧ heap'.next = 10 ∧
      Zig.releaseMessages demoProtocol o heap' = .ok after ∧ after.blocks = Zig.Heap.empty.blocks := by
  obtain ⟨o, heap', hr, hn⟩ : ∃ o heap', Zig.memProcess demoProtocol .ample stream (-1) .empty =
      (heap', .ok (o, stream.length)) ∧ heap'.next = 10 := ⟨_, _, rfl, rfl⟩
  obtain ⟨_, _, _, _, _, after, h1, h2⟩ :=
    (C41_process_partial demo_loads demo_zig .ample zig_empty_fresh stream (-1)).1 _ _ hr
  exact ⟨o, heap', after, hr, hn, h1, h2⟩

set_option maxRecDepth 20000 in
example : ∃ o heap' after, Zig.memUnpack demoProtocol .ample (bsci ++ [3, 0, 0, 0] ++ stream ++ [0]) .empty =
      (heap', .ok o) ∧ heap'.next = 10 ∧
      Zig.releaseMessages demoProtocol o heap' = .ok after ∧ after.blocks = Zig.Heap.empty.blocks := by
  obtain ⟨o, heap', hr, hn⟩ : ∃ o heap', Zig.memUnpack demoProtocol .ample
      (bsci ++ [3, 0, 0, 0] ++ stream ++ [0]) .empty = (heap', .ok o) ∧ heap'.next = 10 := ⟨_, _, rfl, rfl⟩
  obtain ⟨_, _, _, _, _, after, h1, h2⟩ :=
    (C41_unpack_partial demo_loads demo_zig .ample zig_empty_fresh _).1 _ hr
  exact ⟨o, heap', after, hr, hn, h1, h2⟩

/-- The message with one text is tidy; a text that is cut off leaves nothing behind. -/
theorem wText_tidy : TidyBody wText [⟨"x", "string", false⟩] := .last .text

example : (Zig.memRead wText .ample "M" [5, 0, 65] 0 .empty).2 = .error (.fail .eof) ∧
    (Zig.memRead wText .ample "M" [5, 0, 65] 0 .empty).1.blocks = Zig.Heap.empty.blocks :=
  ⟨rfl, C42_tidy_partial wText_accepted wText_zig (d := ⟨"M", [⟨"x", "string", false⟩], true⟩)
    List.mem_cons_self .ample zig_empty_fresh wText_tidy (b := [5, 0, 65]) (pos := 0) (e := .fail .eof)
    (by rfl) nofun⟩

/-- `Draw` is not. -/
theorem draw_untidy : ¬ TidyBody demoProtocol demoProtocol.messages[0].members := by
  intro h
  cases h with
  | skip _ hv _ => exact hv demo_shape_varies

example : ∃ bs, CutBody (written.restrict (Zig.Short demoProtocol)) demoProtocol
      demoProtocol.messages[0].members bs :=
  (C42_untidy_partial demo_loads demo_zig (d := demoProtocol.messages[0]) (by decide) draw_untidy).imp
    fun _ h => h.1

theorem wTexts_first : LayoutFields (written.restrict (Zig.Short wTexts)) wTexts [⟨"x", "string", false⟩]
    [("x", .str [65])] [1, 0, 65] := by
  have h1 : Layout written wTexts "string" (.str [65]) [1, 0, 65] :=
    .text (bs := [65]) (len := [1, 0]) (.int (n := .uint16) (i := 1) (by constructor <;> omega)) ⟨rfl, ['A'], by decide⟩
  have := LayoutFields.one (m := ⟨"x", "string", false⟩) rfl h1 .nil
  exact LayoutFields.restrict this ⟨by simp [Texts, Zig.Short, wTexts, single, IntRange, NumTy.size], trivial⟩

theorem wTexts_heavy : Heavy (.str [65]) := .text nofun

/-- Two texts, the second is missing. -/
example : ∃ heap', Zig.memRead wTexts .ample "M" [1, 0, 65] 0 .empty = (heap', .error (.fail .eof)) ∧
    Leaked .empty heap' :=
  C42_cut_partial wTexts_accepted wTexts_zig (d := wTexts.messages[0]) List.mem_cons_self zig_empty_fresh
    ample_generous (.here (m := ⟨"y", "string", false⟩) (post := []) wTexts_first List.mem_cons_self wTexts_heavy)
    ⟨[], [], by simp, rfl⟩ (by decide) (by decide)

/-- Two texts, the length of the second is wrong. -/
example : Leaked .empty (Zig.memRead wTexts .ample "M" [1, 0, 65, 5, 0] 0 .empty).1 :=
  C42_later_partial wTexts_accepted wTexts_zig (d := wTexts.messages[0]) List.mem_cons_self zig_empty_fresh
    ample_generous rfl wTexts_first List.mem_cons_self wTexts_heavy (b := [1, 0, 65, 5, 0]) (pos := 0)
    ⟨[], [5, 0], by simp, rfl⟩ (by decide) (e := .fail .eof) (by rfl)

theorem draw_heavy : Heavy demoDraw :=
  .record (n := "kinds") (v := .list [.int (-1), .int 2]) (by simp) (.list nofun)

theorem demo_zig_stream : Stream demoProtocol [("Draw", demoDraw)] (1 :: demoDrawBytes) := by
  simpa using Stream.cons (pre := []) (p := demoProtocol) rfl demoDraw_enc .nil

theorem demo_zig_short : ∀ x ∈ [("Draw", demoDraw)], Texts (Zig.Short demoProtocol) x.2 :=
  fun x hx => demo_faithful .zig x (by simp only [List.mem_singleton] at hx; subst hx; simp [demoMessages])

set_option maxRecDepth 20000 in
/-- A `Draw` message followed by an unknown type number. -/
example : ∃ heap', Zig.memProcess demoProtocol .ample (1 :: demoDrawBytes ++ [9]) (-1) .empty =
      (heap', .error (.fail .invalid)) ∧ Leaked .empty heap' := by
  obtain ⟨heap', hx⟩ : ∃ heap', Zig.memProcess demoProtocol .ample (1 :: demoDrawBytes ++ [9]) (-1) .empty =
      (heap', .error (.fail .invalid)) := ⟨_, rfl⟩
  exact ⟨heap', hx, C42_process_partial demo_loads demo_zig zig_empty_fresh ample_generous demo_zig_stream
    demo_zig_short ⟨_, List.mem_cons_self, draw_heavy⟩ (.inl (by decide)) (by decide) hx⟩

set_option maxRecDepth 20000 in
/-- One packed message where two are announced. -/
example : ∃ heap' e, Zig.memUnpack demoProtocol .ample
      (bsci ++ ([2, 0, 0, 0] ++ (1 :: demoDrawBytes)) ++ [0]) .empty = (heap', .error e) ∧ Leaked .empty heap' := by
  obtain ⟨heap', e, hx⟩ : ∃ heap' e, Zig.memUnpack demoProtocol .ample
      (bsci ++ ([2, 0, 0, 0] ++ (1 :: demoDrawBytes)) ++ [0]) .empty = (heap', .error e) := ⟨_, _, rfl⟩
  exact ⟨heap', e, hx, C42_unpack_partial demo_loads demo_zig zig_empty_fresh ample_generous demo_zig_stream
    demo_zig_short ⟨_, List.mem_cons_self, draw_heavy⟩ (n := 2) (by decide) (by decide) (by rfl) (by decide) hx⟩

/-- All messages of a protocol with one number are of fixed size. -/
theorem wByte_fixed : ∀ s ∈ wByte.messages, ¬ VaryingBody wByte s.members := by
  intro s hs ⟨m, hm, hv⟩
  simp only [wByte, single, List.mem_singleton] at hs
  subst hs
  simp only [List.mem_singleton] at hm
  subst hm
  rcases hv with hv | hv
  · cases hv
  · revert hv
    generalize ht : (⟨"x", "byte", false⟩ : Variable).vartype = t
    intro hv
    cases hv <;> simp_all [wByte, single]

/-- There, an allocator that refuses is met by a stream, in which the list of messages grows. -/
example : (Zig.memProcess wByte { Zig.Allocator.ample with grants := fun _ _ => false } [1, 7] (-1) .empty).2 =
    .error .outOfMemory := rfl

/-- No list can be reached in the message with two texts. -/
theorem wTexts_nolist : ¬ HasListBody wTexts wTexts.messages[0].members := by
  have : ∀ t, ¬ HasList wTexts t := by
    intro t ht
    cases ht with
    | list hs _ _ => cases hs
    | inside hs _ _ => cases hs
  rintro ⟨m, hm, hl | hl⟩
  · simp only [wTexts, single, List.getElem_cons_zero, List.mem_cons, List.not_mem_nil, or_false] at hm
    rcases hm with rfl | rfl <;> cases hl
  · exact this _ hl

example : (Zig.memRead wTexts { Zig.Allocator.ample with grants := fun _ n => decide (n ≤ 5) } "M"
    [255, 255, 65, 66, 67] 0 .empty).2 ≠ .error .outOfMemory :=
  C43_request_partial wTexts_accepted wTexts_zig (d := wTexts.messages[0]) List.mem_cons_self _ zig_empty_fresh
    wTexts_nolist [255, 255, 65, 66, 67] 0 (by intro i n hn; simpa using hn)

example : Zig.memRead wBytes { Zig.Allocator.ample with grants := fun _ n => decide (n < 65535) } "M"
    [255, 255] 0 .empty = (.empty, .error .outOfMemory) :=
  C43_list_partial C43_fails.1 wBytes_zig (d := wBytes.messages[0]) List.mem_cons_self _ rfl rfl (n := 65535)
    (.int (n := .uint16) (by constructor <;> decide)) (by decide) (by intro i; rfl)

end Beschi.Props
