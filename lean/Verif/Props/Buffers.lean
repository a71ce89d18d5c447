import Verif.Lang.ViewProof
import Verif.Props.Limits
/-
Property theorems about buffers that the program provides: C26 (writing into a buffer of fixed size)
and C31 (views of part of a buffer in TypeScript).
-/
namespace Beschi.Props
open Beschi Beschi.Spec Beschi.Lang

/-! ### C26, the claims -/

/-- C26 for one language and protocol.  Whatever the buffer and the starting position in it, writing a
message keeps the length of the buffer and the bytes before the starting position; it succeeds if
there is room for as many bytes as `GetSizeInBytes` says, one more for the number of the message, and
then only these bytes change; otherwise a failure is reported. -/
def WritesInto (F : Fixed) (p : Protocol) : Prop :=
  ∀ pre d post v bs, p.messages = pre ++ d :: post → EncMsg p d.name v bs →
    (F.language.library p).size d.name v = .ok bs.length ∧
    ∀ (tag : Bool) (buf : Buf) (off : Nat), off ≤ buf.length →
      (F.writeInto p d.name tag v buf off).1.length = buf.length ∧
      (F.writeInto p d.name tag v buf off).1.take off = buf.take off ∧
      (off + bs.length + (if tag then 1 else 0) ≤ buf.length →
        F.writeInto p d.name tag v buf off =
          (buf.take off ++ ((if tag then [UInt8.ofNat (pre.length + 1)] else []) ++ bs) ++
            buf.drop (off + bs.length + (if tag then 1 else 0)),
           .ok (off + bs.length + (if tag then 1 else 0)))) ∧
      (buf.length < off + bs.length + (if tag then 1 else 0) →
        ∃ e, (F.writeInto p d.name tag v buf off).2 = .error e ∧ e.reported = true)

/-- C26 for packing, if the buffer is long enough: the packed messages are at its start and the rest
is unchanged. -/
def PacksInto (F : Fixed) (p : Protocol) : Prop :=
  ∀ ms bs buf, Stream p ms bs → ms.length < 2 ^ 31 → bs.length + 9 ≤ buf.length →
    F.packInto p ms buf =
      .ok ([66, 83, 67, 73] ++ littleEndian 4 ms.length ++ bs ++ [0] ++ buf.drop (bs.length + 9))

/-- C26 for packing, if the buffer is too short: this is reported. -/
def PackRefuses (F : Fixed) (p : Protocol) : Prop :=
  ∀ ms bs buf, Stream p ms bs → ms.length < 2 ^ 31 → buf.length < bs.length + 9 →
    ∃ e, F.packInto p ms buf = .error e ∧ e.reported = true

theorem tagging_length (tag : Bool) (i : Nat) (bs : List UInt8) :
    (tagging tag i bs).length = bs.length + (if tag then 1 else 0) := by
  cases tag <;> simp [tagging]

theorem tagging_eq (tag : Bool) (i : Nat) (bs : List UInt8) :
    tagging tag i bs = (if tag then [UInt8.ofNat (i + 1)] else []) ++ bs := by
  cases tag <;> simp [tagging]

theorem fixed_seen (F : Fixed) (v : Val) : v.mapNames F.language.rename = v := by
  cases F <;> exact Val.mapNames_id v

theorem fixed_measured (F : Fixed) (v : Val) : Texts F.language.Measured v := by
  cases F <;> exact texts_true (fun _ => trivial) v

/-! ### C26, proofs -/

section
variable {data : Toml} {p : Protocol} (h : Loads data (.ok p))
include h

/-- C26 in C, TypeScript and AssemblyScript. -/
theorem C26_write_partial (F : Fixed) (hF : F ≠ .zig) (hs : F.language.Supported p) : WritesInto F p := by
  have hu := usable_of_loads h
  intro pre d post v bs e he
  refine ⟨?_, fun tag buf off ho => ?_⟩
  · have := (F.language.laws hu hs).size he (fixed_measured F v)
    rwa [fixed_seen] at this
  · rw [Fixed.writeInto_place hF hs]
    have hp := Fixed.pieces F hu hs e he tag
    refine ⟨(Fixed.place_keeps _ _ _).1, (Fixed.place_keeps _ _ _).2, fun hr => ?_, fun hr => ?_⟩
    · rw [Fixed.place_room hp (by rw [tagging_length]; omega), tagging_length, tagging_eq, Nat.add_assoc]
    · exact ⟨.eof, Fixed.place_full hp ho (by rw [tagging_length]; omega), rfl⟩

/-- C26 in Zig, as far as it holds: without room the program stops. -/
theorem C26_zig_partial (hs : Zig.Supported p) {pre post : List Struct} {d : Struct} {v : Val}
    {bs : List UInt8} (e : p.messages = pre ++ d :: post) (he : EncMsg p d.name v bs) (tag : Bool)
    {buf : Buf} {off : Nat} (ho : off ≤ buf.length) :
    (off + bs.length + (if tag then 1 else 0) ≤ buf.length →
      Fixed.zig.writeInto p d.name tag v buf off =
        (buf.take off ++ ((if tag then [UInt8.ofNat (pre.length + 1)] else []) ++ bs) ++
          buf.drop (off + bs.length + (if tag then 1 else 0)),
         .ok (off + bs.length + (if tag then 1 else 0)))) ∧
    (buf.length < off + bs.length + (if tag then 1 else 0) →
      (Fixed.zig.writeInto p d.name tag v buf off).2 = .error .crash) := by
  have hu := usable_of_loads h
  rw [Fixed.writeInto_zig hu hs e he tag ho, tagging_length, tagging_eq, ← Nat.add_assoc]
  exact ⟨fun hr => if_pos hr, fun hr => by rw [if_neg (by omega)]⟩

/-- C26, packing into a buffer that is long enough, in all four languages. -/
theorem C26_pack_partial (F : Fixed) (hs : F.language.Supported p) : PacksInto F p :=
  fun _ _ _ hst hn hl => Fixed.packInto_room F (usable_of_loads h) hs hst hn hl

/-- C26, packing into a buffer that is too short: TypeScript reports it, Zig stops. -/
theorem C26_pack_short_partial (hs : TypeScript.Supported p) : PackRefuses .typescript p :=
  fun _ _ _ hst hn hl => ⟨.eof, Fixed.packInto_typescript (usable_of_loads h) hs hst hn hl, rfl⟩

theorem C26_pack_short_zig_partial (hs : Zig.Supported p) {ms : List (String × Val)} {bs : List UInt8}
    {buf : Buf} (hst : Stream p ms bs) (hn : ms.length < 2 ^ 31) (hl : buf.length < bs.length + 9) :
    Fixed.zig.packInto p ms buf = .error .crash :=
  Fixed.packInto_zig (usable_of_loads h) hs hst hn hl

end

example : WritesInto .typescript demoProtocol := C26_write_partial demo_loads _ (by decide) demo_typescript
example : WritesInto .assemblyscript demoProtocol := C26_write_partial demo_loads _ (by decide) demo_assemblyscript
example : WritesInto .c demoProtocol := C26_write_partial demo_loads _ (by decide) demo_c
example : PacksInto .zig demoProtocol := C26_pack_partial demo_loads _ demo_zig
example : PackRefuses .typescript demoProtocol := C26_pack_short_partial demo_loads demo_typescript
example : Fixed.zig.packInto demoProtocol [] [0] = .error .crash :=
  C26_pack_short_zig_partial demo_loads demo_zig .nil (by decide) (by decide)
example : (Fixed.zig.writeInto demoProtocol "Clear" true (.record []) [] 0).2 = .error .crash :=
  (C26_zig_partial demo_loads demo_zig (pre := demoProtocol.messages.take 1)
    (post := demoProtocol.messages.drop 2) (d := ⟨"Clear", [], true⟩) rfl
    ⟨_, _, by simp [demoProtocol], rfl, rfl, .nil⟩ true (by decide)).2 (by decide)

/-! ### C26, where it fails -/

/-- Zig stops when the buffer is too short. -/
theorem C26_fails_zig : Accepted wByte ∧ ¬ WritesInto .zig wByte := by
  refine ⟨⟨10, rfl⟩, fun h => ?_⟩
  obtain ⟨e, h1, h2⟩ := ((h [] _ [] (.record [("x", .int 7)]) [7] rfl (encMsg_of_encode (by decide))).2
    false [] 0 (by decide)).2.2.2 (by decide)
  have h3 : (Fixed.zig.writeInto wByte "M" false (.record [("x", .int 7)]) [] 0).2 = .error .crash := rfl
  cases h1.symm.trans h3
  cases h2

/-- C reports success although the final zero did not fit. -/
theorem C26_pack_fails_c : Accepted wByte ∧ ¬ PackRefuses .c wByte := by
  refine ⟨⟨10, rfl⟩, fun h => ?_⟩
  obtain ⟨e, h1, _⟩ := h [] [] [1, 2, 3, 4, 5, 6, 7, 8] .nil (by decide) (by decide)
  exact nomatch (h1 : Except.ok ([66, 83, 67, 73, 0, 0, 0, 0] : Buf) = Except.error e)

/-- C writes the letters without looking whether there is room for them. -/
theorem C26_pack_fails_c_overrun : Fixed.c.packInto wByte [] [1, 2, 3] = .error .crash := rfl

/-- AssemblyScript says nothing. -/
theorem C26_pack_fails_assemblyscript : Accepted wByte ∧ ¬ PackRefuses .assemblyscript wByte := by
  refine ⟨⟨10, rfl⟩, fun h => ?_⟩
  obtain ⟨e, h1, _⟩ := h [] [] [1, 2, 3] .nil (by decide) (by decide)
  exact nomatch (h1 : Except.ok ([66, 83, 67] : Buf) = Except.error e)

/-! ### C31, the claims -/

/-- C31, reading: what is read through a view is what is read from a copy of the bytes it shows. -/
def ReadsViews (lossy : List UInt8 → List UInt8) (p : Protocol) : Prop :=
  ∀ (m : String) (w : TypeScript.View), w.Valid →
    TypeScript.readView lossy p m w = ((Language.typescript lossy).library p).read m w.bytes 0

/-- C31, unpacking. -/
def UnpacksViews (lossy : List UInt8 → List UInt8) (p : Protocol) : Prop :=
  ∀ w : TypeScript.View, w.Valid →
    TypeScript.unpackView lossy p w = ((Language.typescript lossy).library p).unpack w.bytes 0

/-- C31, packing: the packed messages are at the start of the bytes the view shows, and the bytes it
does not show are unchanged. -/
def PacksViews (p : Protocol) : Prop :=
  ∀ ms bs (w : TypeScript.View), w.Valid → Stream p ms bs → ms.length < 2 ^ 31 → bs.length + 9 ≤ w.length →
    (TypeScript.packView p ms w).1.bytes =
      [66, 83, 67, 73] ++ littleEndian 4 ms.length ++ bs ++ [0] ++ w.bytes.drop (bs.length + 9) ∧
    (TypeScript.packView p ms w).1.buffer.take w.offset = w.buffer.take w.offset

/-! ### C31, proofs -/

/-- C31: writing through a view changes the bytes it shows as it would change a copy of them, and no
others; without room it fails. -/
theorem C31_write_partial {data : Toml} {p : Protocol} (h : Loads data (.ok p))
    (hs : TypeScript.Supported p) {pre post : List Struct} {d : Struct} {v : Val} {bs : List UInt8}
    (e : p.messages = pre ++ d :: post) (he : EncMsg p d.name v bs) {w : TypeScript.View}
    (hv : w.Valid) :
    (TypeScript.writeView p d.name false v w).1.buffer.take w.offset = w.buffer.take w.offset ∧
    (TypeScript.writeView p d.name false v w).1.buffer.drop (w.offset + w.length) =
      w.buffer.drop (w.offset + w.length) ∧
    (bs.length ≤ w.length → (TypeScript.writeView p d.name false v w).2 = .ok bs.length ∧
      (TypeScript.writeView p d.name false v w).1.bytes = bs ++ w.bytes.drop bs.length) ∧
    (w.length < bs.length → ∃ e, (TypeScript.writeView p d.name false v w).2 = .error e) := by
  have hu := usable_of_loads h
  have hp := Fixed.pieces .typescript hu hs e he false
  have hl := TypeScript.View.bytes_length hv
  have hk := (Fixed.place_keeps (TypeScript.write p d.name false v) w.bytes 0).1.trans hl
  obtain ⟨o1, o2⟩ := TypeScript.View.outside hv hk
  refine ⟨o1, o2, fun hr => ?_, fun hr => ?_⟩
  · have := Fixed.place_room (buf := w.bytes) (off := 0) hp (by simp only [tagging]; rw [hl]; simpa using hr)
    refine ⟨?_, ?_⟩
    · exact (congrArg Prod.snd this).trans (by simp [tagging])
    · exact (TypeScript.View.bytes_with hv hk).trans ((congrArg Prod.fst this).trans (by simp [tagging]))
  · exact ⟨.eof, Fixed.place_full (buf := w.bytes) (off := 0) hp (Nat.zero_le _)
      (by simp only [tagging]; rw [hl]; simpa using hr)⟩

/-- C31, as far as it holds: messages without text are read through a view as from a copy. -/
theorem C31_read_partial (lossy : List UInt8 → List UInt8) {p : Protocol} {m : String} (h : TextFree p m)
    (w : TypeScript.View) :
    TypeScript.readView lossy p m w = ((Language.typescript lossy).library p).read m w.bytes 0 :=
  TypeScript.readIn_textFree h ..

/-- C31, as far as it holds: what is read from a copy is read through a view that starts where its
buffer starts. -/
theorem C31_read_start_partial (lossy : List UInt8 → List UInt8) {p : Protocol} {m : String}
    {w : TypeScript.View} (h : w.offset = 0) {r : Val × Nat}
    (hr : ((Language.typescript lossy).library p).read m w.bytes 0 = .ok r) :
    TypeScript.readView lossy p m w = .ok r :=
  TypeScript.readIn_prefix (TypeScript.bytes_prefix h) hr

/-- C31 for streams, without text. -/
theorem C31_process_partial (lossy : List UInt8 → List UInt8) {p : Protocol}
    (h : ∀ d ∈ p.messages, TextFree p d.name) (w : TypeScript.View) (pos : Nat) (max : Int) :
    TypeScript.processView lossy p w pos max =
      ((Language.typescript lossy).library p).process w.bytes pos max :=
  TypeScript.processView_textFree h

/-- C31 for packed messages, in views that start where their buffer starts. -/
theorem C31_unpack_start_partial (lossy : List UInt8 → List UInt8) {p : Protocol} {w : TypeScript.View}
    (h : w.offset = 0) {ms : List (String × Val)}
    (hr : ((Language.typescript lossy).library p).unpack w.bytes 0 = .ok ms) :
    TypeScript.unpackView lossy p w = .ok ms :=
  TypeScript.unpackView_start h hr

/-- C31 for packing, in views that start where their buffer starts. -/
theorem C31_pack_start_partial {data : Toml} {p : Protocol} (h : Loads data (.ok p))
    (hs : TypeScript.Supported p) {ms : List (String × Val)} {bs : List UInt8} (hst : Stream p ms bs)
    (hn : ms.length < 2 ^ 31) {w : TypeScript.View} (hv : w.Valid) (ho : w.offset = 0)
    (hl : bs.length + 9 ≤ w.length) :
    (TypeScript.packView p ms w).2 = .ok (bs.length + 9) ∧
    (TypeScript.packView p ms w).1.bytes =
      [66, 83, 67, 73] ++ littleEndian 4 ms.length ++ bs ++ [0] ++ w.bytes.drop (bs.length + 9) ∧
    (TypeScript.packView p ms w).1.buffer.drop w.length = w.buffer.drop w.length := by
  rw [TypeScript.packView_start (usable_of_loads h) hs hst hn hv ho hl]
  have hk : (bsci ++ littleEndian 4 ms.length ++ bs ++ [0] ++ w.bytes.drop (bs.length + 9)).length =
      w.length := by
    have := TypeScript.View.bytes_length hv
    simp [bsci, littleEndian, this]; omega
  refine ⟨rfl, TypeScript.View.bytes_with hv hk, ?_⟩
  have := (TypeScript.View.outside hv hk).2
  rwa [ho, Nat.zero_add] at this

example : (TypeScript.packView demoProtocol [] ⟨[1, 2, 3, 4, 5, 6, 7, 8, 9, 10, 11], 0, 10⟩).2 = .ok 9 :=
  (C31_pack_start_partial demo_loads demo_typescript .nil (by decide) (by show 0 + 10 ≤ 11; decide) rfl
    (by decide)).1

example : TextFree demoProtocol "Ping" := by
  intro d hd hn v hv hr
  simp only [demoProtocol, List.mem_cons, List.not_mem_nil, or_false] at hd
  rcases hd with rfl | rfl | rfl
  · exact absurd hn (by decide)
  · exact absurd hn (by decide)
  · simp only [List.mem_cons, List.not_mem_nil, or_false] at hv
    rcases hv with rfl | rfl
    · generalize ht : "int64" = t at hr
      generalize hu : "string" = u at hr
      cases hr with
      | refl => exact absurd (ht.trans hu.symm) (by decide)
      | @member s _ _ hs _ _ =>
        simp only [demoProtocol, List.mem_cons, List.not_mem_nil, or_false] at hs
        rcases hs with rfl | rfl <;> exact absurd ht (by decide)
    · generalize ht : "Kind" = t at hr
      generalize hu : "string" = u at hr
      cases hr with
      | refl => exact absurd (ht.trans hu.symm) (by decide)
      | @member s _ _ hs _ _ =>
        simp only [demoProtocol, List.mem_cons, List.not_mem_nil, or_false] at hs
        rcases hs with rfl | rfl <;> exact absurd ht (by decide)

/-! ### C31, where it fails -/

/-- Text is taken from the wrong place. -/
theorem C31_fails_read (lossy : List UInt8 → List UInt8) : Accepted wText ∧ ¬ ReadsViews lossy wText := by
  refine ⟨⟨10, rfl⟩, fun h => ?_⟩
  have := h "M" ⟨[7, 1, 0, 65], 1, 3⟩ (by show 1 + 3 ≤ 4; decide)
  exact nomatch (this : Except.ok (Val.record [("x", .str [0])], 3) =
    Except.ok (Val.record [("x", .str [65])], 3))

/-- Text is read beyond the end of the view. -/
theorem C31_fails_overread (lossy : List UInt8 → List UInt8) :
    TypeScript.readView lossy wText "M" ⟨[1, 0, 65], 0, 2⟩ = .ok (.record [("x", .str [65])], 3) ∧
    ((Language.typescript lossy).library wText).read "M" [1, 0] 0 = .error .eof := ⟨rfl, rfl⟩

/-- Packed messages are not recognised. -/
theorem C31_fails_unpack (lossy : List UInt8 → List UInt8) : Accepted wByte ∧ ¬ UnpacksViews lossy wByte := by
  refine ⟨⟨10, rfl⟩, fun h => ?_⟩
  have := h ⟨[0, 66, 83, 67, 73, 0, 0, 0, 0, 0], 1, 9⟩ (by show 1 + 9 ≤ 10; decide)
  exact nomatch (this : Except.error Fail.invalid = Except.ok [])

/-- The letters are written outside the view. -/
theorem C31_fails_pack : Accepted wByte ∧ ¬ PacksViews wByte := by
  refine ⟨⟨10, rfl⟩, fun h => ?_⟩
  have := (h [] [] ⟨[0, 0, 0, 0, 0, 0, 0, 0, 0, 0], 1, 9⟩ (by show 1 + 9 ≤ 10; decide) .nil (by decide) (by decide)).2
  exact absurd (this : ([66] : List UInt8) = [0]) (by decide)

end Beschi.Props
