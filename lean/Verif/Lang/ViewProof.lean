import Verif.Lang.FixedProof
import Verif.Spec.Reach
/-
Reading through views that show part of a buffer.
-/
namespace Beschi.Lang.TypeScript
open Spec

variable {lossy : List UInt8 → List UInt8} {p : Protocol}

/-- The reads that lead to no text. -/
def Plain (p : Protocol) (a : RAtom) : Prop :=
  a ≠ .text ∧ ∀ s, a = .call s → ¬ Reaches p s "string"

theorem atom_plain {t : String} (h : ¬ Reaches p t "string") : Plain p (atom p t) := by
  unfold atom Plain
  split
  · rename_i ht; subst ht; exact absurd .refl h
  · cases p.enum? t with
    | some e => simp
    | none => cases NumTy.ofName? t with
      | some n => simp
      | none => exact ⟨by simp, fun s hs => by cases hs; exact h⟩

theorem deserializer_atom (m : Variable) : (deserializer p m).atom = atom p m.vartype := by
  unfold deserializer
  split <;> rfl

theorem body_plain {st : Struct} (h : ∀ v ∈ st.members, ¬ Reaches p v.vartype "string") :
    ∀ s ∈ (fromBytes p st).body, Plain p s.atom := by
  intro s hs
  simp only [fromBytes, List.mem_map] at hs
  obtain ⟨v, hv, rfl⟩ := hs
  rw [deserializer_atom]
  exact atom_plain (h v hv)

/-- Messages without text are read from the bytes the view shows. -/
theorem readIn_textFree {m : String} (h : TextFree p m) (buffer buffer' b : Buf) (pos : Nat) :
    readIn lossy p m buffer b pos = readIn lossy p m buffer' b pos := by
  unfold readIn readMessage
  cases hm : p.message? m with
  | none => rfl
  | some st =>
    obtain ⟨h1, h2⟩ := message?_some hm
    refine runFun_congr (S := readSem lossy p buffer) (S' := readSem lossy p buffer') rfl rfl
      fun s hs pos => readAtom_congr (S := readSem lossy p buffer) (S' := readSem lossy p buffer')
        (G := Plain p) rfl rfl rfl rfl (fun h => h.1 rfl) ?_ _ (body_plain (h st h1 h2) s hs)
    intro s f hG hf
    rw [Option.map_eq_some_iff] at hf
    obtain ⟨st', hs', rfl⟩ := hf
    obtain ⟨m1, rfl⟩ := struct?_some hs'
    exact body_plain fun v hv hr => hG.2 _ rfl (.member m1 hv hr)

theorem takeN_prefix {e : Fail} {k : Nat} {b b' : Buf} {pos : Nat} {r : List UInt8 × Nat} (hb : b <+: b')
    (h : takeN e k b pos = .ok r) : takeN e k b' pos = .ok r := by
  obtain ⟨t, rfl⟩ := hb
  unfold takeN at h ⊢
  split at h
  · rename_i hl
    cases h
    rw [if_pos (by rw [List.length_append]; omega), List.drop_append_of_le_length (by omega),
      List.take_append_of_le_length (by rw [List.length_drop]; omega)]
  · cases h

theorem readString_prefix {buffer buffer' b : Buf} (hb : buffer <+: buffer') {pos : Nat} {r : Val × Nat}
    (h : readString lossy p buffer b pos = .ok r) : readString lossy p buffer' b pos = .ok r := by
  unfold readString at h ⊢
  split at h
  · cases h
  · rename_i hz
    rw [if_neg hz]
    cases hn : readNum (readPrim p.stringSize) b pos with
    | error e => rw [hn] at h; cases h
    | ok x =>
      rw [hn] at h
      obtain ⟨v, q⟩ := x
      cases v with
      | int i =>
        simp only at h ⊢
        split at h
        · cases h
        · rename_i hi
          rw [if_neg hi]
          cases ht : takeN .eof i.toNat buffer q with
          | error e => rw [ht] at h; cases h
          | ok y => rw [ht] at h; rw [takeN_prefix hb ht]; exact h
      | _ => cases h

/-- What is read when the underlying buffer ends with the view is read when it goes on. -/
theorem readIn_prefix {m : String} {buffer buffer' b : Buf} (hb : buffer <+: buffer') {pos : Nat}
    {r : Val × Nat} (h : readIn lossy p m buffer b pos = .ok r) :
    readIn lossy p m buffer' b pos = .ok r := by
  unfold readIn readMessage at h ⊢
  cases hm : p.message? m with
  | none => rw [hm] at h; cases h
  | some st =>
    rw [hm] at h
    exact runFun_le (S := readSem lossy p buffer) (S' := readSem lossy p buffer') rfl rfl
      (fun a pos r hr => readAtom_le (S := readSem lossy p buffer) (S' := readSem lossy p buffer')
        rfl rfl rfl rfl (fun pos r hr => readString_prefix hb hr) _ hr) h

theorem processLoop_le {fin : Nat → Bool} {step step' : Nat → Except Fail Step}
    (h : ∀ pos r, step pos = .ok r → step' pos = .ok r) {max : Int} :
    ∀ {fuel : Nat} {acc : List (String × Val)} {pos : Nat} {r : List (String × Val) × Nat},
      processLoop fin step max fuel acc pos = .ok r → processLoop fin step' max fuel acc pos = .ok r
  | 0, _, _, _, hr => hr
  | fuel + 1, acc, pos, r, hr => by
    unfold processLoop at hr ⊢
    split at hr
    · rename_i hc
      rw [if_pos hc]
      cases hs : step pos with
      | error e => rw [hs] at hr; cases hr
      | ok x =>
        rw [hs] at hr
        rw [h _ _ hs]
        cases x with
        | stop q => exact hr
        | msg m q => exact processLoop_le h hr
    · rename_i hc
      rw [if_neg hc]
      exact hr

theorem taggedStep_le {tag : Nat → Except Fail (Nat × Nat)} {dispatch : Nat → Option String}
    {rd rd' : String → Nat → Except Fail (Val × Nat)} (h : ∀ m pos r, rd m pos = .ok r → rd' m pos = .ok r)
    {unknown : Fail} {pos : Nat} {r : Step} (hr : taggedStep tag dispatch rd unknown pos = .ok r) :
    taggedStep tag dispatch rd' unknown pos = .ok r := by
  unfold taggedStep at hr ⊢
  cases ht : tag pos with
  | error e => rw [ht] at hr; cases hr
  | ok x =>
    obtain ⟨t, q⟩ := x
    rw [ht] at hr
    simp only at hr ⊢
    split at hr
    · rename_i h0; rw [if_pos h0]; exact hr
    · rename_i h0
      rw [if_neg h0]
      cases hd : dispatch t with
      | none => rw [hd] at hr; cases hr
      | some m =>
        rw [hd] at hr
        simp only at hr ⊢
        cases hm : rd m q with
        | error e => rw [hm] at hr; cases hr
        | ok y => rw [hm] at hr; rw [h _ _ _ hm]; exact hr

/-- The view that begins where its buffer begins. -/
theorem bytes_prefix {w : View} (h : w.offset = 0) : w.bytes <+: w.buffer := by
  unfold View.bytes
  rw [h, List.drop_zero]
  exact List.take_prefix _ _

theorem processView_start {w : View} (h : w.offset = 0) {pos : Nat} {max : Int}
    {r : List (String × Val) × Nat} (hr : process lossy p w.bytes pos max = .ok r) :
    processView lossy p w pos max = .ok r := by
  unfold process processBytes at hr
  unfold processView processBytes
  split at hr
  · rename_i hm; rw [if_pos hm]; exact hr
  · rename_i hm
    rw [if_neg hm]
    exact processLoop_le (fun pos r => taggedStep_le fun m pos r => readIn_prefix (bytes_prefix h)) hr

theorem processView_textFree {w : View} (h : ∀ d ∈ p.messages, TextFree p d.name) {pos : Nat}
    {max : Int} : processView lossy p w pos max = process lossy p w.bytes pos max := by
  have : ∀ m pos, readIn lossy p m w.buffer w.bytes pos = read lossy p m w.bytes pos := by
    intro m pos
    by_cases hm : m ∈ p.messages.map (·.name)
    · obtain ⟨d, hd, rfl⟩ := List.mem_map.1 hm
      exact readIn_textFree (h d hd) ..
    · exact readIn_textFree (fun d hd hn => absurd (hn ▸ List.mem_map_of_mem hd) hm) ..
  unfold processView process
  simp only [this]

theorem unpackView_start {w : View} (h : w.offset = 0) {ms : List (String × Val)}
    (hr : unpackWith .eof .eof .uint32 (fun n => .ok n) (process lossy p w.bytes) w.bytes 0 = .ok ms) :
    unpackView lossy p w = .ok ms := by
  unfold unpackWith at hr
  unfold unpackView
  cases ht : takeN .eof 4 w.bytes 0 with
  | error e => rw [ht] at hr; cases hr
  | ok x =>
    rw [ht] at hr
    rw [takeN_prefix (bytes_prefix h) ht]
    obtain ⟨hd, q⟩ := x
    simp only at hr ⊢
    split at hr
    · cases hr
    · rename_i hh
      rw [if_neg hh]
      cases hn : takeNum .eof .uint32 w.bytes q with
      | error e => rw [hn] at hr; cases hr
      | ok y =>
        rw [hn] at hr
        obtain ⟨v, q'⟩ := y
        cases v with
        | int n =>
          simp only at hr ⊢
          split at hr
          · rename_i h0; rw [if_pos h0]; exact hr
          · rename_i h0
            rw [if_neg h0]
            cases hp : process lossy p w.bytes q' n with
            | error e => rw [hp] at hr; cases hr
            | ok z => rw [hp] at hr; rw [processView_start h hp]; exact hr
        | _ => cases hr

/-! ### What a view shows after a change -/

theorem View.bytes_with {w : View} (hv : w.Valid) {b : Buf} (hb : b.length = w.length) :
    (w.with b).bytes = b := by
  unfold View.Valid at hv
  unfold View.bytes View.with
  simp only
  rw [List.append_assoc, List.drop_left' (by rw [List.length_take]; omega), List.take_left' hb]

theorem View.bytes_length {w : View} (hv : w.Valid) : w.bytes.length = w.length := by
  unfold View.Valid at hv
  unfold View.bytes
  rw [List.length_take, List.length_drop]; omega

theorem View.outside {w : View} (hv : w.Valid) {b : Buf} (hb : b.length = w.length) :
    (w.with b).buffer.take w.offset = w.buffer.take w.offset ∧
    (w.with b).buffer.drop (w.offset + w.length) = w.buffer.drop (w.offset + w.length) := by
  unfold View.Valid at hv
  unfold View.with
  simp only
  refine ⟨?_, ?_⟩
  · rw [List.append_assoc, List.take_left' (by rw [List.length_take]; omega)]
  · rw [List.drop_left' (by rw [List.length_append, List.length_take]; omega)]

theorem packWith_header {count : Nat → Except Fail (List UInt8)}
    {wr : String → Bool → Val → Except Fail (List (List UInt8))} {ms : List (String × Val)}
    {h : List UInt8} {cs : List (List UInt8)} (e : packWith [h] count wr ms = .ok cs) :
    ∃ cs', packWith [] count wr ms = .ok cs' ∧ cs = h :: cs' := by
  unfold packWith at *
  cases hn : count ms.length with
  | error x => rw [hn] at e; exact nomatch e
  | ok n =>
    rw [hn] at e
    cases hw : writeAll wr ms with
    | error x => rw [hw] at e; exact nomatch e
    | ok body =>
      rw [hw] at e
      cases e
      exact ⟨_, rfl, rfl⟩

/-- Packing into a view that starts where its buffer starts. -/
theorem packView_start {p : Protocol} (hu : Usable p) (hs : Supported p)
    {ms : List (String × Val)} {bs : List UInt8} (hst : Stream p ms bs) (hn : ms.length < 2 ^ 31)
    {w : View} (hv : w.Valid) (ho : w.offset = 0) (h : bs.length + 9 ≤ w.length) :
    packView p ms w = (w.with (bsci ++ littleEndian 4 ms.length ++ bs ++ [0] ++ w.bytes.drop (bs.length + 9)),
      .ok (bs.length + 9)) := by
  obtain ⟨cs, h1, h2⟩ := ((Language.typescript id).laws hu hs).pack hst hn
  rw [show mapMsgs (Language.typescript id).rename ms = ms from mapMsgs_id ms] at h1
  obtain ⟨cs', h3, rfl⟩ := packWith_header
    (show packWith [bsci] (fun n => .ok (leBytes 4 n)) (write p) ms = .ok cs from h1)
  have h4 : cs'.flatten = littleEndian 4 ms.length ++ bs ++ [0] := by
    rw [List.flatten_cons, List.append_assoc, List.append_assoc] at h2
    rw [List.append_assoc]
    exact List.append_cancel_left h2
  have hl : (littleEndian 4 ms.length ++ bs ++ [0]).length = bs.length + 5 := by
    simp [littleEndian]; omega
  obtain ⟨buf, o, len⟩ := w
  simp only at ho h
  subst ho
  unfold View.Valid at hv
  simp only [Nat.zero_add] at hv
  have hb : View.bytes ⟨bsci ++ buf.drop 4, 0, len⟩ = bsci ++ (buf.take len).drop 4 := by
    simp only [View.bytes, List.drop_zero, List.take_append, bsci, List.length_cons, List.length_nil,
      List.drop_take]
    rw [List.take_of_length_le (by simp; omega)]
  unfold packView
  simp only
  rw [store, if_pos (by simp [bsci]; omega)]
  simp only [List.take_zero, List.nil_append]
  rw [show buf.drop (0 + bsci.length) = buf.drop 4 from rfl, hb]
  rw [Fixed.place_room ⟨cs', h3, h4⟩ (by rw [hl]; simp [bsci]; omega), hl]
  simp only [View.with, View.bytes, List.take_zero, List.nil_append, List.drop_zero, Nat.zero_add]
  have e1 : (bsci ++ (buf.take len).drop 4).take 4 = bsci := by simp [bsci]
  have e2 : (bsci ++ (buf.take len).drop 4).drop (4 + (bs.length + 5)) = (buf.take len).drop (bs.length + 9) := by
    rw [List.drop_append, List.drop_of_length_le (by simp [bsci]), List.nil_append, List.drop_drop]
    congr 1
    simp [bsci]; omega
  have e3 : (bsci ++ buf.drop 4).drop len = buf.drop len := by
    rw [List.drop_append, List.drop_of_length_le (by simp [bsci]; omega), List.nil_append, List.drop_drop]
    congr 1
    simp [bsci]; omega
  rw [e1, e2, e3]
  simp only [List.append_assoc, show 4 + (bs.length + 5) = bs.length + 9 by omega]

end Beschi.Lang.TypeScript
