import Verif.Lang.AssemblyScriptView
import Verif.Props.Buffers
/-
C46: views that start inside a larger buffer, in AssemblyScript.
-/
namespace Beschi.Props
open Lang Spec

/-! ### The claim for unpacking -/

/-- C46, unpacking: what is unpacked from a view is what is unpacked from a copy of its bytes. -/
def UnpacksViewsAS (lossy : List UInt8 → List UInt8) (p : Protocol) : Prop :=
  ∀ w : TypeScript.View, w.Valid →
    AssemblyScript.unpackView lossy p w = ((Language.assemblyscript lossy).library p).unpack w.bytes 0

/-! ### Reading and writing -/

/-- C46: reading a message through a view is reading it from a copy of the bytes the view shows. -/
theorem C46_read (lossy : List UInt8 → List UInt8) (p : Protocol) (m : String) (w : TypeScript.View) :
    AssemblyScript.readView lossy p m w = ((Language.assemblyscript lossy).library p).read m w.bytes 0 := rfl

/-- C46: so is processing a stream. -/
theorem C46_process (lossy : List UInt8 → List UInt8) (p : Protocol) (w : TypeScript.View) (max : Int) :
    AssemblyScript.processView lossy p w max =
      ((Language.assemblyscript lossy).library p).process w.bytes 0 max := rfl

/-- C46: a message that lies in a view is read, wherever the view starts and whatever surrounds it. -/
theorem C46_read_message_partial (lossy : List UInt8 → List UInt8) {data : Toml} {p : Protocol}
    (h : Loads data (.ok p)) (hs : AssemblyScript.Supported p) {m : String} {v : Val} {bs : List UInt8}
    (he : EncMsg p m v bs) (hf : Texts ((Language.assemblyscript lossy).Faithful p) v)
    (front rest back : List UInt8)
    (hl : (bs ++ rest).length < (Language.assemblyscript lossy).limit) :
    AssemblyScript.readView lossy p m
      ⟨front ++ (bs ++ rest) ++ back, front.length, (bs ++ rest).length⟩ = .ok (v, bs.length) := by
  have hb : TypeScript.View.bytes ⟨front ++ (bs ++ rest) ++ back, front.length, (bs ++ rest).length⟩ =
      bs ++ rest := by
    unfold TypeScript.View.bytes
    simp only
    rw [List.append_assoc, List.drop_left, List.take_left]
  rw [C46_read, hb]
  have := ((Language.assemblyscript lossy).laws (usable_of_loads h) hs).read (pos := 0) he hf hl
    ⟨[], rest, by simp, rfl⟩
  rwa [show v.mapNames (Language.assemblyscript lossy).rename = v from Val.mapNames_id v, Nat.zero_add] at this

section
variable {data : Toml} {p : Protocol} (h : Loads data (.ok p)) (hs : AssemblyScript.Supported p)
  {w : TypeScript.View} (hv : w.Valid)
include h hs hv

/-- C46: writing through a view changes the bytes it shows as it would change a copy of them, and no
others; without room it fails. -/
theorem C46_write_partial {pre post : List Struct} {d : Struct} {v : Val} {bs : List UInt8}
    (e : p.messages = pre ++ d :: post) (he : EncMsg p d.name v bs) (tag : Bool) :
    (AssemblyScript.writeView p d.name tag v w).1.buffer.take w.offset = w.buffer.take w.offset ∧
    (AssemblyScript.writeView p d.name tag v w).1.buffer.drop (w.offset + w.length) =
      w.buffer.drop (w.offset + w.length) ∧
    (bs.length + (if tag then 1 else 0) ≤ w.length →
      (AssemblyScript.writeView p d.name tag v w).2 = .ok (bs.length + (if tag then 1 else 0)) ∧
      (AssemblyScript.writeView p d.name tag v w).1.bytes =
        (if tag then [UInt8.ofNat (pre.length + 1)] else []) ++ bs ++
          w.bytes.drop (bs.length + (if tag then 1 else 0))) ∧
    (w.length < bs.length + (if tag then 1 else 0) →
      ∃ e, (AssemblyScript.writeView p d.name tag v w).2 = .error e ∧ e.reported = true) := by
  have hl := TypeScript.View.bytes_length hv
  have hw := (C26_write_partial h .assemblyscript (by decide) hs pre d post v bs e he).2 tag w.bytes 0
    (Nat.zero_le _)
  obtain ⟨h1, _, h3, h4⟩ := hw
  have hk := h1.trans hl
  obtain ⟨o1, o2⟩ := TypeScript.View.outside hv hk
  rw [hl, Nat.zero_add] at h3 h4
  refine ⟨o1, o2, fun hr => ?_, fun hr => h4 hr⟩
  have h5 := h3 hr
  refine ⟨congrArg Prod.snd h5, (TypeScript.View.bytes_with hv hk).trans ((congrArg Prod.fst h5).trans ?_)⟩
  simp

/-- C46: packing into a view puts the messages at the start of the bytes it shows, and changes no byte
outside it. -/
theorem C46_pack_partial {ms : List (String × Val)} {bs : List UInt8} (hst : Stream p ms bs)
    (hn : ms.length < 2 ^ 31) (hr : bs.length + 9 ≤ w.length) :
    ∃ w', AssemblyScript.packView p ms w = .ok w' ∧ w'.offset = w.offset ∧ w'.length = w.length ∧
      w'.bytes = [66, 83, 67, 73] ++ littleEndian 4 ms.length ++ bs ++ [0] ++ w.bytes.drop (bs.length + 9) ∧
      w'.buffer.take w.offset = w.buffer.take w.offset ∧
      w'.buffer.drop (w.offset + w.length) = w.buffer.drop (w.offset + w.length) := by
  have hl := TypeScript.View.bytes_length hv
  have hp := C26_pack_partial h .assemblyscript hs ms bs w.bytes hst hn (by rw [hl]; exact hr)
  have hk : ([66, 83, 67, 73] ++ littleEndian 4 ms.length ++ bs ++ [0] ++
      w.bytes.drop (bs.length + 9)).length = w.length := by
    simp [littleEndian, hl]; omega
  obtain ⟨o1, o2⟩ := TypeScript.View.outside hv hk
  refine ⟨w.with _, ?_, rfl, rfl, TypeScript.View.bytes_with hv hk, o1, o2⟩
  unfold AssemblyScript.packView
  rw [hp]; rfl

end

/-- Packing nothing into nine bytes in the middle of a buffer. -/
example : ∃ w', AssemblyScript.packView demoProtocol [] ⟨[1, 2, 3, 4, 5, 6, 7, 8, 9, 10, 11, 12], 2, 9⟩ = .ok w' ∧
    w'.bytes = [66, 83, 67, 73, 0, 0, 0, 0, 0] ∧ w'.buffer.take 2 = [1, 2] ∧ w'.buffer.drop 11 = [12] := by
  obtain ⟨w', h1, _, _, h2, h3, h4⟩ := C46_pack_partial demo_loads demo_assemblyscript
    (w := ⟨[1, 2, 3, 4, 5, 6, 7, 8, 9, 10, 11, 12], 2, 9⟩) (by show 2 + 9 ≤ 12; decide) .nil (by decide)
    (by decide)
  exact ⟨w', h1, h2, h3, h4⟩

/-- A number between other bytes. -/
example (lossy : List UInt8 → List UInt8) :
    AssemblyScript.readView lossy wByte "M" ⟨[9, 9, 7, 8], 2, 1⟩ = .ok (.record [("x", .int 7)], 1) := rfl

/-! ### Unpacking -/

/-- C46, what unpacking from a view does, for every view: the first eight bytes are those of the view,
the others are those at the same positions of the underlying buffer. -/
theorem C46_unpack_place (lossy : List UInt8 → List UInt8) (p : Protocol) {w : TypeScript.View}
    (hv : w.Valid) :
    AssemblyScript.unpackView lossy p w =
      ((Language.assemblyscript lossy).library p).unpack
        (w.bytes.take 8 ++ (w.buffer.drop 8).take (w.length - 8)) 0 := by
  have hl := TypeScript.View.bytes_length hv
  have hv' : w.offset + w.length ≤ w.buffer.length := hv
  show _ = AssemblyScript.unpack lossy p _ 0
  unfold AssemblyScript.unpackView AssemblyScript.unpack
  by_cases hs : w.length < 12
  · rw [if_pos hs, if_pos]
    simp only [List.length_append, List.length_take, List.length_drop, hl]; omega
  rw [if_neg hs, if_neg (by
    simp only [List.length_append, List.length_take, List.length_drop, hl]; omega)]
  have h8 : (w.bytes.take 8).length = 8 := by rw [List.length_take, hl]; omega
  set tl := (w.buffer.drop 8).take (w.length - 8) with htl
  have ok : ∀ (b : Buf) (q : Nat), q + 4 ≤ b.length →
      takeN .invalid 4 b q = .ok ((b.drop q).take 4, q + 4) := fun b q hq => if_pos hq
  have hl8 : 8 ≤ (w.bytes.take 8 ++ tl).length := by rw [List.length_append]; omega
  have hw8 : 8 ≤ w.bytes.length := by omega
  have h4 : takeN .invalid 4 w.bytes 0 = .ok (w.bytes.take 4, 4) := ok _ 0 (by omega)
  have hh : takeN .invalid 4 (w.bytes.take 8 ++ tl) 0 = takeN .invalid 4 w.bytes 0 := by
    rw [ok _ 0 (by omega), ok _ 0 (by omega), List.drop_zero, List.drop_zero,
      List.take_append_of_le_length (by omega), List.take_take]
    rfl
  have num : ∀ b : Buf, takeNum .invalid .uint32 b 4 = (match takeN .invalid 4 b 4 with
    | .ok (bs, pos) => .ok (fromLE .uint32 bs, pos)
    | .error e => .error e) := fun _ => rfl
  have h5 : takeNum .invalid .uint32 w.bytes 4 = .ok (fromLE .uint32 ((w.bytes.drop 4).take 4), 8) := by
    rw [num, ok _ 4 (by omega)]
  have hc : takeNum .invalid .uint32 (w.bytes.take 8 ++ tl) 4 = takeNum .invalid .uint32 w.bytes 4 := by
    rw [h5, num, ok _ 4 (by omega), List.drop_append_of_le_length (by omega),
      List.take_append_of_le_length (by rw [List.length_drop]; omega), List.drop_take, List.take_take]
    rfl
  congr 1
  unfold unpackWith
  rw [hh]
  rw [h4]
  simp only
  rw [hc]
  rw [h5]
  have h6 : ∀ k, rebased (fun b q => AssemblyScript.process lossy p b q k) (w.bytes.take 8 ++ tl) 8 =
      (AssemblyScript.process lossy p tl 0 k).map fun r => (r.1, 8 + r.2) := by
    intro k
    unfold rebased
    rw [List.drop_left' h8]
    simp only
    cases AssemblyScript.process lossy p tl 0 k <;> rfl
  split
  · rfl
  · generalize fromLE .uint32 ((w.bytes.drop 4).take 4) = c
    cases c <;> try rfl
    rename_i n
    simp only [h6]
    show _ = _
    unfold AssemblyScript.processView TypeScript.View.bytes
    simp only [← htl]
    split
    · rfl
    · cases AssemblyScript.process lossy p tl 0 n <;> rfl

/-- C46, as far as it holds for unpacking: from a view that starts where its buffer starts. -/
theorem C46_unpack_partial (lossy : List UInt8 → List UInt8) (p : Protocol) {w : TypeScript.View}
    (hv : w.Valid) (ho : w.offset = 0) :
    AssemblyScript.unpackView lossy p w =
      ((Language.assemblyscript lossy).library p).unpack w.bytes 0 := by
  rw [C46_unpack_place lossy p hv]
  congr 1
  unfold TypeScript.View.bytes
  rw [ho, List.drop_zero, List.take_take]
  obtain hc | hc := Nat.le_total 8 w.length
  · rw [Nat.min_eq_left hc]
    conv_rhs => rw [show w.length = 8 + (w.length - 8) by omega, List.take_add]
  · rw [Nat.min_eq_right hc, Nat.sub_eq_zero_of_le hc, List.take_zero, List.append_nil]

/-- C46, where it fails, for every protocol: of two groups of packed messages, equally long and with
equally many messages, one after the other in a buffer, the first is returned when the second is
unpacked, without any failure. -/
theorem C46_fails_second (lossy : List UInt8 → List UInt8) (p : Protocol) {a b : List UInt8}
    (hl : a.length = b.length) (h8 : a.take 8 = b.take 8) :
    AssemblyScript.unpackView lossy p ⟨a ++ b, a.length, b.length⟩ =
      ((Language.assemblyscript lossy).library p).unpack a 0 := by
  have hb : TypeScript.View.bytes ⟨a ++ b, a.length, b.length⟩ = b := by
    unfold TypeScript.View.bytes; simp
  rw [C46_unpack_place lossy p (by show _ + _ ≤ _; simp), hb, ← h8]
  congr 1
  simp only
  obtain hc | hc := Nat.le_total 8 a.length
  · rw [List.drop_append_of_le_length hc, List.take_left' (by rw [List.length_drop, hl]),
      List.take_append_drop]
  · rw [← hl, Nat.sub_eq_zero_of_le hc, List.take_zero, List.append_nil, List.take_of_length_le hc]

/-- Two such groups, of one message each. -/
example (lossy : List UInt8 → List UInt8) :
    AssemblyScript.unpackView lossy wByte ⟨[66, 83, 67, 73, 1, 0, 0, 0, 1, 5, 0, 0] ++
      [66, 83, 67, 73, 1, 0, 0, 0, 1, 6, 0, 0], 12, 12⟩ = .ok [("M", .record [("x", .int 5)])] :=
  C46_fails_second lossy wByte (a := [66, 83, 67, 73, 1, 0, 0, 0, 1, 5, 0, 0])
    (b := [66, 83, 67, 73, 1, 0, 0, 0, 1, 6, 0, 0]) rfl rfl

/-- C46, where it fails: the second group has one message with the value 6, but 5 is returned. -/
theorem C46_fails_unpack (lossy : List UInt8 → List UInt8) :
    Accepted wByte ∧ ¬ UnpacksViewsAS lossy wByte := by
  refine ⟨⟨10, rfl⟩, fun h => ?_⟩
  have h1 := h ⟨[66, 83, 67, 73, 1, 0, 0, 0, 1, 5, 0, 0] ++ [66, 83, 67, 73, 1, 0, 0, 0, 1, 6, 0, 0], 12, 12⟩
    (by show 12 + 12 ≤ 24; decide)
  exact nomatch (h1 : Except.ok [("M", Val.record [("x", .int 5)])] =
    Except.ok [("M", Val.record [("x", .int 6)])])

end Beschi.Props
