import Verif.Lang.Library
import Verif.Lang.MeasureProof
import Verif.Lang.Rename
/-
Generic lemmas about message numbers, the stream loop, packing and unpacking.
-/
namespace Beschi.Lang
open Spec

/-! ### Message numbers -/

theorem messageIndex_of_split {p : Protocol} (h : Usable p) {pre post : List Struct} {d : Struct}
    (e : p.messages = pre ++ d :: post) : messageIndex p d.name = some pre.length := by
  have hn := h.messagesDistinct
  simp only [messageNames, e, List.map_append, List.map_cons] at hn
  rw [List.nodup_append] at hn
  rw [messageIndex, e, List.findIdx?_append]
  have : List.findIdx? (fun x => x.name == d.name) pre = none := by
    rw [List.findIdx?_eq_none_iff]
    intro x hx
    have := hn.2.2 x.name (List.mem_map_of_mem hx) d.name (by simp)
    simpa using this
  simp [this, List.findIdx?_cons]

theorem lookup_zipIdx (l : List Struct) (first k t : Nat) :
    List.lookup t ((l.zipIdx k).map fun x => (x.2 + first, x.1.name)) =
      if k + first ≤ t then l[t - (k + first)]?.map (·.name) else none := by
  induction l generalizing k with
  | nil => simp
  | cons d l ih =>
    simp only [List.zipIdx_cons, List.map_cons, List.lookup_cons]
    by_cases ht : t = k + first
    · subst ht; simp
    · have hb : (t == k + first) = false := by simpa using ht
      rw [hb, ih]
      by_cases hle : k + 1 + first ≤ t
      · rw [if_pos hle, if_pos (by omega)]
        have : t - (k + first) = (t - (k + 1 + first)) + 1 := by omega
        rw [this, List.getElem?_cons_succ]
      · rw [if_neg hle, if_neg (by omega)]

/-- The dispatch finds the message with the given number. -/
theorem messageArms_lookup (p : Protocol) (first t : Nat) :
    List.lookup t (messageArms p first) =
      if first ≤ t then p.messages[t - first]?.map (·.name) else none := by
  have := lookup_zipIdx p.messages first 0 t
  simpa [messageArms] using this

theorem messageArms_of_split {p : Protocol} {first : Nat} {pre post : List Struct} {d : Struct}
    (e : p.messages = pre ++ d :: post) :
    List.lookup (pre.length + first) (messageArms p first) = some d.name := by
  rw [messageArms_lookup, if_pos (by omega), e]
  simp

theorem tag_toNat {p : Protocol} (h : Usable p) {pre post : List Struct} {d : Struct}
    (e : p.messages = pre ++ d :: post) :
    (UInt8.ofNat (pre.length + 1)).toNat = pre.length + 1 := by
  have := h.messageCount
  rw [e] at this
  simp only [List.length_append, List.length_cons] at this
  rw [UInt8.toNat_ofNat']
  exact Nat.mod_eq_of_lt (by omega)

theorem takeTag_at {e : Fail} {b : Buf} {pos : Nat} {t : UInt8} {bs : List UInt8}
    (h : At b pos (t :: bs)) : takeTag e b pos = .ok (t.toNat, pos + 1) := by
  obtain ⟨pre, rest, rfl, rfl⟩ := h
  simp [takeTag]

theorem takeTag_ok {e : Fail} {b : Buf} {pos t pos' : Nat} (h : takeTag e b pos = .ok (t, pos')) :
    pos' = pos + 1 ∧ pos < b.length ∧ ∃ x : UInt8, t = x.toNat ∧ At b pos [x] := by
  unfold takeTag at h
  split at h
  · rename_i x hx
    cases h
    have hl : pos < b.length := by
      by_contra hc
      rw [List.getElem?_eq_none (by omega)] at hx
      cases hx
    refine ⟨rfl, hl, x, rfl, b.take pos, b.drop (pos + 1), ?_, by simp; omega⟩
    rw [List.getElem?_eq_getElem hl] at hx
    cases hx
    rw [List.singleton_append, ← List.drop_eq_getElem_cons hl, List.take_append_drop]
  · cases h

theorem takeTag_error {e x : Fail} {b : Buf} {pos : Nat} (h : takeTag e b pos = .error x) :
    x = e ∧ b.length ≤ pos := by
  unfold takeTag at h
  split at h
  · cases h
  · rename_i hn
    cases h
    exact ⟨rfl, by simpa using hn⟩

/-! ### Streams -/

/-- Values as the language sees them, with its member names. -/
def mapMsgs (f : String → String) (ms : List (String × Val)) : List (String × Val) :=
  ms.map fun x => (x.1, x.2.mapNames f)

@[simp] theorem mapMsgs_nil (f : String → String) : mapMsgs f [] = [] := rfl
@[simp] theorem mapMsgs_length (f : String → String) (ms : List (String × Val)) :
    (mapMsgs f ms).length = ms.length := by simp [mapMsgs]
@[simp] theorem mapMsgs_append (f : String → String) (a b : List (String × Val)) :
    mapMsgs f (a ++ b) = mapMsgs f a ++ mapMsgs f b := by simp [mapMsgs]
theorem mapMsgs_cons (f : String → String) (m : String) (v : Val) (ms : List (String × Val)) :
    mapMsgs f ((m, v) :: ms) = (m, v.mapNames f) :: mapMsgs f ms := rfl

theorem Stream.split {p : Protocol} {a b : List (String × Val)} {bs : List UInt8}
    (h : Stream p (a ++ b) bs) : ∃ x y, bs = x ++ y ∧ Stream p a x ∧ Stream p b y := by
  induction a generalizing bs with
  | nil => exact ⟨[], bs, rfl, .nil, h⟩
  | cons m a ih =>
    cases h with
    | cons hp he hs =>
      obtain ⟨x, y, rfl, hx, hy⟩ := ih hs
      exact ⟨_, y, (List.append_assoc _ x y).symm, .cons hp he hx, hy⟩

theorem Stream.append {p : Protocol} {a b : List (String × Val)} {x y : List UInt8}
    (h1 : Stream p a x) (h2 : Stream p b y) : Stream p (a ++ b) (x ++ y) := by
  induction h1 with
  | nil => exact h2
  | cons hp he _ ih =>
    have := Stream.cons hp he ih
    simpa using this

theorem Stream.length_le {p : Protocol} {ms : List (String × Val)} {bs : List UInt8}
    (h : Stream p ms bs) : ms.length ≤ bs.length := by
  induction h with
  | nil => simp
  | cons _ _ _ ih => simp; omega

/-- The reader of tagged messages returns each message of the format whose value satisfies `Q`. -/
def StepReads (step : Nat → Except Fail Step) (p : Protocol) (f : String → String)
    (Q : Val → Prop) (b : Buf) : Prop :=
  ∀ pre d post v bs pos, p.messages = pre ++ d :: post → EncMsg p d.name v bs → Q v →
    At b pos (UInt8.ofNat (pre.length + 1) :: bs) →
    step pos = .ok (.msg (d.name, v.mapNames f) (pos + 1 + bs.length))

/-- Rounds of the loop over messages of the format. -/
theorem processLoop_stream {finished : Nat → Bool} {step : Nat → Except Fail Step} {p : Protocol}
    {f : String → String} {b : Buf} {Q : Val → Prop} (hr : StepReads step p f Q b)
    (hfin : ∀ pos, pos < b.length → finished pos = false) {ms : List (String × Val)}
    {bs : List UInt8} (hs : Stream p ms bs) (hQ : ∀ x ∈ ms, Q x.2) {max : Int} :
    ∀ (fuel : Nat) (acc : List (String × Val)) (pos : Nat), At b pos bs →
      (max < 0 ∨ ((acc.length + ms.length : Nat) : Int) ≤ max) →
      processLoop finished step max (fuel + ms.length) acc pos =
        processLoop finished step max fuel (acc ++ mapMsgs f ms) (pos + bs.length) := by
  induction hs with
  | nil => intro fuel acc pos _ _; simp
  | @cons pre post d v bs ms rest hp he _ ih =>
    intro fuel acc pos hat hm
    simp only [List.length_cons] at hm
    have hlt : pos < b.length := by
      have := hat.le
      simp only [List.length_append, List.length_cons] at this
      omega
    have hcond : (!finished pos && (decide (max < 0) || decide ((acc.length : Int) < max))) = true := by
      rw [hfin pos hlt]
      rcases hm with hm | hm
      · simp [hm]
      · have : (acc.length : Int) < max := by omega
        simp [this]
    rw [List.length_cons, ← Nat.add_assoc, processLoop, if_pos hcond,
      hr pre d post v bs pos hp he (hQ (d.name, v) (by simp)) hat.left]
    simp only
    have hat2 := hat.right
    rw [ih (fun x hx => hQ x (by simp [hx])) fuel _ _ (by simpa [Nat.add_comm, Nat.add_left_comm, Nat.add_assoc] using hat2)
      (by simp; omega)]
    rw [mapMsgs_cons, List.append_assoc, List.singleton_append]
    congr 1
    simp; omega

/-- How the loop goes on after the messages of the format, seen from `ProcessRawBytes`. -/
theorem processBytes_stream {finished : Nat → Bool} {step : Nat → Except Fail Step} {p : Protocol}
    {f : String → String} {b : Buf} {Q : Val → Prop} (hr : StepReads step p f Q b)
    (hfin : ∀ pos, pos < b.length → finished pos = false) {ms : List (String × Val)}
    {bs : List UInt8} (hs : Stream p ms bs) (hQ : ∀ x ∈ ms, Q x.2) {max : Int} (h0 : max ≠ 0) {pos : Nat} (hat : At b pos bs)
    (hm : max < 0 ∨ (ms.length : Int) ≤ max) :
    ∃ fuel, processBytes finished step b pos max =
      processLoop finished step max (fuel + 1) (mapMsgs f ms) (pos + bs.length) ∧
      fuel + 1 + ms.length = b.length + 2 - pos := by
  have h1 := Stream.length_le hs
  have h2 := hat.le
  refine ⟨b.length + 1 - pos - ms.length, ?_, by omega⟩
  rw [processBytes, if_neg h0]
  have e : b.length + 2 - pos = (b.length + 1 - pos - ms.length + 1) + ms.length := by omega
  rw [e, processLoop_stream hr hfin hs hQ _ [] pos hat (by simpa using hm)]
  simp

/-- Nothing more is read at the end of the data. -/
def EndsAt (finished : Nat → Bool) (step : Nat → Except Fail Step) (b : Buf) : Prop :=
  ∀ pos, pos = b.length → finished pos = true ∨ step pos = .ok (.stop pos)

/-- A stream up to the end of the data. -/
theorem processBytes_all {finished : Nat → Bool} {step : Nat → Except Fail Step} {p : Protocol}
    {f : String → String} {b : Buf} {Q : Val → Prop} (hr : StepReads step p f Q b)
    (hfin : ∀ pos, pos < b.length → finished pos = false) (hend : EndsAt finished step b)
    {ms : List (String × Val)} {bs : List UInt8} (hs : Stream p ms bs) (hQ : ∀ x ∈ ms, Q x.2) {max : Int} (h0 : max ≠ 0)
    {pos : Nat} (hat : At b pos bs) (hm : max < 0 ∨ (ms.length : Int) ≤ max)
    (he : pos + bs.length = b.length) :
    processBytes finished step b pos max = .ok (mapMsgs f ms, b.length) := by
  obtain ⟨fuel, e, _⟩ := processBytes_stream hr hfin hs hQ h0 hat hm
  rw [e, processLoop, he]
  rcases hend _ rfl with h | h
  · rw [if_neg (by simp [h])]
  · split
    · rw [h]
    · rfl

/-- A stream followed by a zero byte: the position is right after that byte. -/
theorem processBytes_zero {finished : Nat → Bool} {step : Nat → Except Fail Step} {p : Protocol}
    {f : String → String} {b : Buf} {Q : Val → Prop} (hr : StepReads step p f Q b)
    (hfin : ∀ pos, pos < b.length → finished pos = false)
    (hzero : ∀ pos, At b pos [0] → step pos = .ok (.stop (pos + 1)))
    {ms : List (String × Val)} {bs : List UInt8} (hs : Stream p ms bs) (hQ : ∀ x ∈ ms, Q x.2) {max : Int}
    {pos : Nat} (hat : At b pos (bs ++ [0])) (hm : max < 0 ∨ (ms.length : Int) < max) :
    processBytes finished step b pos max = .ok (mapMsgs f ms, pos + bs.length + 1) := by
  obtain ⟨fuel, e, _⟩ := processBytes_stream (max := max) hr hfin hs hQ (by rcases hm with h | h <;> omega) hat.left
    (by rcases hm with h | h; exacts [.inl h, .inr (by omega)])
  have hle := hat.right.le
  simp only [List.length_singleton] at hle
  rw [e, processLoop, if_pos ?_, hzero _ hat.right]
  rw [hfin _ (by omega)]
  rcases hm with hm | hm <;> simp [hm]

/-- The limit is reached: the position is right after the last message. -/
theorem processBytes_limit {finished : Nat → Bool} {step : Nat → Except Fail Step} {p : Protocol}
    {f : String → String} {b : Buf} {Q : Val → Prop} (hr : StepReads step p f Q b)
    (hfin : ∀ pos, pos < b.length → finished pos = false)
    {ms : List (String × Val)} {bs : List UInt8} (hs : Stream p ms bs) (hQ : ∀ x ∈ ms, Q x.2)
    {pos : Nat} (hat : At b pos bs) :
    processBytes finished step b pos ms.length = .ok (mapMsgs f ms, pos + bs.length) := by
  by_cases h0 : (ms.length : Int) = 0
  · have : ms = [] := List.eq_nil_of_length_eq_zero (by omega)
    subst this
    cases hs
    simp [processBytes]
  · obtain ⟨fuel, e, _⟩ := processBytes_stream hr hfin hs hQ h0 hat (by omega)
    rw [e, processLoop, if_neg]
    simp

/-- Something that cannot be read is met before the limit. -/
theorem processBytes_bad {finished : Nat → Bool} {step : Nat → Except Fail Step} {p : Protocol}
    {f : String → String} {b : Buf} {Q : Val → Prop} (hr : StepReads step p f Q b)
    (hfin : ∀ pos, pos < b.length → finished pos = false)
    {ms : List (String × Val)} {bs : List UInt8} (hs : Stream p ms bs) (hQ : ∀ x ∈ ms, Q x.2) {max : Int}
    {pos : Nat} (hat : At b pos bs) (hlt : pos + bs.length < b.length)
    (hm : max < 0 ∨ (ms.length : Int) < max) {e : Fail} (hbad : step (pos + bs.length) = .error e) :
    processBytes finished step b pos max = .error e := by
  obtain ⟨fuel, e', _⟩ := processBytes_stream (max := max) hr hfin hs hQ (by rcases hm with h | h <;> omega) hat
    (by rcases hm with h | h; exacts [.inl h, .inr (by omega)])
  rw [e', processLoop, if_pos ?_, hbad]
  rw [hfin _ hlt]
  rcases hm with hm | hm <;> simp [hm]

/-! ### The stream loop on arbitrary data -/

/-- A round ends in a position that has moved on but not beyond the data, or in a failure in `E`. -/
def StepWithin (E : Fail → Prop) (b : Buf) (pos : Nat) : Except Fail Step → Prop
  | .ok (.stop pos') => pos ≤ pos' ∧ pos' ≤ b.length
  | .ok (.msg _ pos') => pos < pos' ∧ pos' ≤ b.length
  | .error x => E x

theorem processLoop_within {E : Fail → Prop} {finished : Nat → Bool} {step : Nat → Except Fail Step} {b : Buf}
    {max : Int} (hstep : ∀ pos, pos ≤ b.length → finished pos = false → StepWithin E b pos (step pos)) :
    ∀ fuel acc pos, pos ≤ b.length → b.length + 1 ≤ fuel + pos →
      Within E b pos (processLoop finished step max fuel acc pos)
  | 0, acc, pos, hp, hf => by omega
  | fuel + 1, acc, pos, hp, hf => by
    rw [processLoop]
    split
    · rename_i hc
      have hfp : finished pos = false := by
        simp only [Bool.and_eq_true, Bool.not_eq_true'] at hc
        exact hc.1
      have := hstep pos hp hfp
      split
      · rename_i e he; rw [he] at this; exact this
      · rename_i q he; rw [he] at this; exact this
      · rename_i m q he
        rw [he] at this
        simp only [StepWithin] at this
        have ih := processLoop_within (max := max) hstep fuel (acc ++ [m]) q this.2 (by omega)
        revert ih
        cases processLoop finished step max fuel (acc ++ [m]) q with
        | error e => exact fun h => h
        | ok r => exact fun h => ⟨by have := h.1; omega, h.2⟩
    · exact ⟨Nat.le_refl _, hp⟩

theorem processBytes_within {E : Fail → Prop} {finished : Nat → Bool} {step : Nat → Except Fail Step} {b : Buf}
    {max : Int} (hstep : ∀ pos, pos ≤ b.length → finished pos = false → StepWithin E b pos (step pos))
    {pos : Nat} (hp : pos ≤ b.length) :
    Within E b pos (processBytes finished step b pos max) := by
  unfold processBytes
  split
  · exact ⟨Nat.le_refl _, hp⟩
  · exact processLoop_within hstep _ _ _ hp (by omega)

/-- The loop never returns more messages than the limit. -/
theorem processLoop_max {finished : Nat → Bool} {step : Nat → Except Fail Step} {max : Int} :
    ∀ fuel acc pos ms pos', (0 ≤ max → (acc.length : Int) ≤ max) →
      processLoop finished step max fuel acc pos = .ok (ms, pos') → 0 ≤ max → (ms.length : Int) ≤ max
  | 0, _, _, _, _, _, h, _ => by cases h
  | fuel + 1, acc, pos, ms, pos', ha, h, h0 => by
    rw [processLoop] at h
    split at h
    · rename_i hc
      split at h
      · cases h
      · cases h; exact ha h0
      · refine processLoop_max fuel _ _ _ _ (fun _ => ?_) h h0
        simp only [Bool.and_eq_true, Bool.or_eq_true, decide_eq_true_eq] at hc
        rw [List.length_append, List.length_singleton]
        omega
    · cases h; exact ha h0

/-! ### Tagged messages -/

section
variable {tag : Nat → Except Fail (Nat × Nat)} {dispatch : Nat → Option String}
  {read : String → Nat → Except Fail (Val × Nat)} {unknown : Fail} {b : Buf}

theorem taggedStep_reads {p : Protocol} (h : Usable p) {f : String → String} {Q : Val → Prop}
    (htag : ∀ pos t bs, At b pos (t :: bs) → tag pos = .ok (t.toNat, pos + 1))
    (hdis : ∀ pre d post, p.messages = pre ++ d :: post → dispatch (pre.length + 1) = some d.name)
    (hread : ∀ m v bs pos, EncMsg p m v bs → Q v → At b pos bs →
      read m pos = .ok (v.mapNames f, pos + bs.length)) :
    StepReads (taggedStep tag dispatch read unknown) p f Q b := by
  intro pre d post v bs pos hp he hq hat
  have hat' : At b pos ([UInt8.ofNat (pre.length + 1)] ++ bs) := hat
  rw [taggedStep, htag _ _ _ hat, tag_toNat h hp]
  simp only [Nat.add_eq_zero_iff, one_ne_zero, and_false, if_false, hdis _ _ _ hp,
    hread _ _ _ _ he hq (by simpa using hat'.right)]

theorem taggedStep_zero (htag : ∀ pos t bs, At b pos (t :: bs) → tag pos = .ok (t.toNat, pos + 1))
    {pos : Nat} (hat : At b pos [0]) :
    taggedStep tag dispatch read unknown pos = .ok (.stop (pos + 1)) := by
  rw [taggedStep, htag _ _ _ hat]
  simp

theorem taggedStep_unknown (htag : ∀ pos t bs, At b pos (t :: bs) → tag pos = .ok (t.toNat, pos + 1))
    {pos : Nat} {t : UInt8} (hat : At b pos [t]) (h0 : t ≠ 0) (hd : dispatch t.toNat = none) :
    taggedStep tag dispatch read unknown pos = .error unknown := by
  rw [taggedStep, htag _ _ _ hat]
  have : t.toNat ≠ 0 := fun e => h0 (by rw [← UInt8.toNat_inj]; simpa using e)
  simp [this, hd]

theorem taggedStep_broken (htag : ∀ pos t bs, At b pos (t :: bs) → tag pos = .ok (t.toNat, pos + 1))
    {pos : Nat} {t : UInt8} {m : String} {e : Fail} (hat : At b pos [t]) (h0 : t ≠ 0)
    (hd : dispatch t.toNat = some m) (hr : read m (pos + 1) = .error e) :
    taggedStep tag dispatch read unknown pos = .error e := by
  rw [taggedStep, htag _ _ _ hat]
  have : t.toNat ≠ 0 := fun e => h0 (by rw [← UInt8.toNat_inj]; simpa using e)
  simp [this, hd, hr]

theorem taggedStep_within {E : Fail → Prop} (htag : ∀ pos, pos ≤ b.length → match tag pos with
      | .ok (_, q) => q = pos + 1 ∧ q ≤ b.length
      | .error x => E x) (hu : E unknown)
    (hread : ∀ t m, dispatch t = some m → ∀ pos, pos ≤ b.length → Within E b pos (read m pos)) {pos : Nat} (hp : pos ≤ b.length) :
    StepWithin E b pos (taggedStep tag dispatch read unknown pos) := by
  unfold taggedStep
  have h1 := htag pos hp
  split
  · rename_i he; rw [he] at h1; exact h1
  · rename_i t q he
    rw [he] at h1
    simp only at h1
    split
    · simp only [StepWithin]; omega
    · split
      · exact hu
      · rename_i m hm
        have h2 := hread t m hm q h1.2
        split
        · rename_i he'; rw [he'] at h2; exact h2
        · rename_i he'; rw [he'] at h2; simp only [Within] at h2; simp only [StepWithin]; omega
end

/-! ### Packing -/

/-- A list of messages that has an encoding; the empty list has one. -/
theorem writeAll_stream {p : Protocol} {f : String → String} {Q : Val → Prop}
    {wr : String → Bool → Val → Except Fail (List (List UInt8))}
    (hw : ∀ pre d post v bs, p.messages = pre ++ d :: post → EncMsg p d.name v bs → Q v →
      ∃ cs, wr d.name true (v.mapNames f) = .ok cs ∧ cs.flatten = UInt8.ofNat (pre.length + 1) :: bs)
    {ms : List (String × Val)} {bs : List UInt8} (hs : Stream p ms bs)
    (hQ : ∀ x ∈ ms, Q x.2) :
    ∃ cs, writeAll wr (mapMsgs f ms) = .ok cs ∧ cs.flatten = bs := by
  induction hs with
  | nil => exact ⟨[], rfl, rfl⟩
  | cons hp he _ ih =>
    obtain ⟨cs, e1, e2⟩ := ih (fun x hx => hQ x (by simp [hx]))
    obtain ⟨ds, e3, e4⟩ := hw _ _ _ _ _ hp he (hQ _ List.mem_cons_self)
    refine ⟨ds ++ cs, ?_, by simp [e2, e4]⟩
    rw [mapMsgs_cons, writeAll, e3, e1]
    rfl

theorem packWith_stream {p : Protocol} {f : String → String} {Q : Val → Prop}
    {wr : String → Bool → Val → Except Fail (List (List UInt8))}
    (hw : ∀ pre d post v bs, p.messages = pre ++ d :: post → EncMsg p d.name v bs → Q v →
      ∃ cs, wr d.name true (v.mapNames f) = .ok cs ∧ cs.flatten = UInt8.ofNat (pre.length + 1) :: bs)
    {header : List (List UInt8)} (hh : header.flatten = bsci)
    {count : Nat → Except Fail (List UInt8)} {ms : List (String × Val)} {bs : List UInt8}
    (hc : count ms.length = .ok (littleEndian 4 ms.length)) (hs : Stream p ms bs)
    (hQ : ∀ x ∈ ms, Q x.2) :
    ∃ cs, packWith header count wr (mapMsgs f ms) = .ok cs ∧
      cs.flatten = bsci ++ littleEndian 4 ms.length ++ bs ++ [0] := by
  obtain ⟨cs, e1, e2⟩ := writeAll_stream hw hs hQ
  refine ⟨header ++ [littleEndian 4 ms.length] ++ cs ++ [[0]], ?_, ?_⟩
  · simp [packWith, e1, hc, bind, Except.bind, pure, Except.pure]
  · simp [hh, e2]

theorem sumSizes_stream {p : Protocol} {f : String → String} {Q : Val → Prop} {size : String → Val → Except Fail Nat}
    (hz : ∀ m v bs, EncMsg p m v bs → Q v → size m (v.mapNames f) = .ok bs.length)
    {ms : List (String × Val)} {bs : List UInt8} (hs : Stream p ms bs)
    (hQ : ∀ x ∈ ms, Q x.2) :
    ∃ k, sumSizes size (mapMsgs f ms) = .ok k ∧ k + ms.length = bs.length := by
  induction hs with
  | nil => exact ⟨0, rfl, rfl⟩
  | @cons pre post d v bs ms rest hp he _ ih =>
    obtain ⟨k, e1, e2⟩ := ih (fun x hx => hQ x (by simp [hx]))
    refine ⟨bs.length + k, ?_, by simp; omega⟩
    rw [mapMsgs_cons, sumSizes, hz _ _ _ he (hQ _ List.mem_cons_self), e1]
    rfl

theorem packedSizeOf_stream {p : Protocol} {f : String → String} {Q : Val → Prop} {size : String → Val → Except Fail Nat}
    (hz : ∀ m v bs, EncMsg p m v bs → Q v → size m (v.mapNames f) = .ok bs.length)
    {ms : List (String × Val)} {bs : List UInt8} (hs : Stream p ms bs)
    (hQ : ∀ x ∈ ms, Q x.2) :
    packedSizeOf size (mapMsgs f ms) = .ok (bs.length + 9) := by
  obtain ⟨k, e1, e2⟩ := sumSizes_stream hz hs hQ
  simp only [packedSizeOf, e1, bind, Except.bind, pure, Except.pure, mapMsgs_length]
  congr 1
  omega

/-! ### Unpacking -/

theorem littleEndian4 (n : Nat) (h : n < 2 ^ 32) : EncNum .uint32 (.int n) (littleEndian 4 n) :=
  .int ⟨by omega, by omega⟩

/-- Unpacking the packed form returns the messages. -/
theorem unpackWith_packed {short countFail : Fail} {countTy : NumTy} {limit : Int → Except Fail Int}
    {process : Nat → Int → Except Fail (List (String × Val) × Nat)} {b : Buf} {pos : Nat}
    {ms : List (String × Val)} {bs : List UInt8} {f : String → String}
    (hty : ∀ n : Nat, n < 2 ^ 31 → DecNum countTy (.int n) (littleEndian 4 n))
    (hat : At b pos (bsci ++ littleEndian 4 ms.length ++ bs ++ [0])) (hn : ms.length < 2 ^ 31)
    (hlim : ∀ n : Nat, 0 < n → n < 2 ^ 31 → limit n = .ok n)
    (hproc : ms ≠ [] → ∃ q, process (pos + 8) ms.length = .ok (mapMsgs f ms, q)) :
    unpackWith short countFail countTy limit process b pos = .ok (mapMsgs f ms) := by
  have h1 : At b pos bsci := hat.left.left.left
  have h2 : At b (pos + 4) (littleEndian 4 ms.length) := hat.left.left.right
  have e1 := takeN_at (e := short) h1
  rw [show bsci.length = 4 from rfl] at e1
  have e2 := takeNum_at (e := countFail) h2 (hty _ hn)
  rw [littleEndian_length] at e2
  rw [unpackWith, e1]
  simp only [ne_eq, not_true_eq_false, if_false, e2]
  by_cases h0 : ms = []
  · subst h0; simp
  · have hpos := List.length_pos_of_ne_nil h0
    obtain ⟨q, hq⟩ := hproc h0
    rw [if_neg (by omega), hlim _ hpos hn]
    simp only [show pos + 4 + 4 = pos + 8 from rfl, hq, checkCount, mapMsgs_length]
    rw [if_neg (by omega), if_neg (by simp)]

/-- What unpacking accepts. -/
theorem unpackWith_ok {short countFail : Fail} {countTy : NumTy} {limit : Int → Except Fail Int}
    {process : Nat → Int → Except Fail (List (String × Val) × Nat)} {b : Buf} {pos : Nat}
    {ms : List (String × Val)}
    (h : unpackWith short countFail countTy limit process b pos = .ok ms) :
    ∃ cnt, At b pos (bsci ++ cnt) ∧ DecNum countTy (.int ms.length) cnt := by
  unfold unpackWith at h
  split at h
  · cases h
  · rename_i hd q hq
    obtain ⟨h1, h2, rfl⟩ := takeN_ok hq
    split at h
    · cases h
    · rename_i hb
      have hb : hd = bsci := not_not.1 hb
      subst hb
      split at h
      · rename_i n q hn
        obtain ⟨cnt, h3, h4, h5⟩ := takeNum_ok hn
        have hat : At b pos (bsci ++ cnt) := h1.append h3
        split at h
        · rename_i h0
          cases h
          subst h0
          exact ⟨cnt, hat, h4⟩
        · split at h
          · cases h
          · split at h
            · cases h
            · unfold checkCount at h
              split at h
              · cases h
              · split at h
                · cases h
                · rename_i hne
                  cases h
                  have := not_not.1 hne
                  subst this
                  exact ⟨cnt, hat, h4⟩
      · cases h
      · cases h

/-- Unpacking fails only with reported errors. -/
theorem unpackWith_error {E : Fail → Prop} {short countFail : Fail} {countTy : NumTy} {limit : Int → Except Fail Int}
    {process : Nat → Int → Except Fail (List (String × Val) × Nat)} {b : Buf} {pos : Nat} {x : Fail}
    (hs : E short) (hc : E countFail) (hty : integral countTy = true)
    (hl : ∀ i e, IntRange countTy i → i ≠ 0 → limit i = .error e → E e)
    (hp : ∀ q k e, q ≤ b.length → process q k = .error e → E e)
    (hi : E .invalid) (h : unpackWith short countFail countTy limit process b pos = .error x) : E x := by
  unfold unpackWith at h
  split at h
  · rename_i hq
    cases h
    rw [(takeN_error hq).1]; exact hs
  · split at h
    · cases h; exact hi
    · split at h
      · rename_i n q hn
        split at h
        · cases h
        · rename_i h0
          obtain ⟨cnt, h3, h4, h5⟩ := takeNum_ok hn
          have hle := h3.le
          split at h
          · rename_i he; cases h; exact hl _ _ (intRange_of_dec h4) h0 he
          · split at h
            · rename_i he; cases h; exact hp _ _ _ (by omega) he
            · unfold checkCount at h
              split at h
              · cases h; exact hi
              · split at h
                · cases h; exact hi
                · cases h
      · rename_i r hne hr
        obtain ⟨cnt, h3, h4, h5⟩ := takeNum_ok (v := r.1) (pos' := r.2) hr
        obtain ⟨i, hi'⟩ := dec_int hty h4
        exact absurd (Prod.ext hi' rfl : r = (Val.int i, r.2)) (fun e => hne i r.2 e)
      · rename_i he
        cases h
        rw [takeNum_error he]; exact hc

end Beschi.Lang
