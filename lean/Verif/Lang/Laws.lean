import Verif.Lang.LibraryProof
import Verif.Lang.Texts
import Verif.Lang.Create
/-
The laws every generated library is to satisfy on data that follows the wire format, collected so
that they can be proved language by language and used for all of them together.
-/
namespace Beschi.Lang
open Spec

/-- The laws.  `f` is the renaming of members the language uses, `T` the texts it reads back
faithfully, `Z` the texts whose size it computes faithfully, `lim` a bound on the length of buffers,
`least` the length of the shortest packed data it unpacks. -/
structure Laws (L : Library) (p : Protocol) (f : String → String) (T Z : List UInt8 → Prop)
    (lim : Nat) (least : Nat := 0) : Prop where
  ident : ∀ {pre d post}, p.messages = pre ++ d :: post → L.ident d.name = some (pre.length + 1)
  dispatch : ∀ {pre d post}, p.messages = pre ++ d :: post →
    L.dispatch (pre.length + 1) = some d.name
  unknown : ∀ {t : Nat}, t = 0 ∨ p.messages.length < t → t < 256 → L.dispatch t = none
  write : ∀ {m v bs}, EncMsg p m v bs →
    ∃ cs, L.write m false (v.mapNames f) = .ok cs ∧ cs.flatten = bs
  tagged : ∀ {pre d post v bs}, p.messages = pre ++ d :: post → EncMsg p d.name v bs →
    ∃ cs, L.write d.name true (v.mapNames f) = .ok cs ∧
      cs.flatten = UInt8.ofNat (pre.length + 1) :: bs
  read : ∀ {m v bs b pos}, EncMsg p m v bs → Texts T v → b.length < lim → At b pos bs →
    L.read m b pos = .ok (v.mapNames f, pos + bs.length)
  size : ∀ {m v bs}, EncMsg p m v bs → Texts Z v → L.size m (v.mapNames f) = .ok bs.length
  processAll : ∀ {ms bs b pos max}, Stream p ms bs → (∀ x ∈ ms, Texts T x.2) → b.length < lim →
    At b pos bs → pos + bs.length = b.length → max < 0 ∨ (ms.length : Int) ≤ max →
    ∃ q, L.process b pos max = .ok (mapMsgs f ms, q)
  processZero : ∀ {ms bs b pos max}, Stream p ms bs → (∀ x ∈ ms, Texts T x.2) → b.length < lim →
    At b pos (bs ++ [0]) → max < 0 ∨ (ms.length : Int) < max →
    ∃ q, L.process b pos max = .ok (mapMsgs f ms, q)
  processLimit : ∀ {ms bs b pos}, Stream p ms bs → (∀ x ∈ ms, Texts T x.2) → b.length < lim →
    At b pos bs → L.process b pos ms.length = .ok (mapMsgs f ms, pos + bs.length)
  packedSize : ∀ {ms bs}, Stream p ms bs → (∀ x ∈ ms, Texts Z x.2) →
    L.packedSize (mapMsgs f ms) = .ok (bs.length + 9)
  pack : ∀ {ms bs}, Stream p ms bs → ms.length < 2 ^ 31 →
    ∃ cs, L.pack (mapMsgs f ms) = .ok cs ∧
      cs.flatten = bsci ++ littleEndian 4 ms.length ++ bs ++ [0]
  unpack : ∀ {ms bs b pos}, Stream p ms bs → (∀ x ∈ ms, Texts T x.2) → ms.length < 2 ^ 31 →
    least ≤ bs.length + 9 → b.length < lim → At b pos (bsci ++ littleEndian 4 ms.length ++ bs ++ [0]) →
    L.unpack b pos = .ok (mapMsgs f ms)
  create : ∀ {d fs}, d ∈ p.messages → IsDefaultFields p d.members fs →
    L.create d.name = .ok ((Val.record fs).mapNames f)

theorem mapMsgs_id (ms : List (String × Val)) : mapMsgs id ms = ms := by
  simp [mapMsgs, Val.mapNames_id]

theorem Stream.rename' {p : Protocol} {f : String → String} {ms : List (String × Val)}
    {bs : List UInt8} (h : Stream p ms bs) : Stream (p.rename f) (mapMsgs f ms) bs := Stream.rename h

theorem texts_mapMsgs {T : List UInt8 → Prop} {f : String → String} {ms : List (String × Val)}
    (h : ∀ x ∈ ms, Texts T x.2) : ∀ x ∈ mapMsgs f ms, Texts T x.2 := by
  intro x hx
  simp only [mapMsgs, List.mem_map] at hx
  obtain ⟨y, hy, rfl⟩ := hx
  exact (texts_mapNames f y.2).2 (h y hy)

theorem rename_split {p : Protocol} {f : String → String} {pre post : List Struct} {d : Struct}
    (e : p.messages = pre ++ d :: post) : (p.rename f).messages =
      pre.map (Struct.rename f) ++ d.rename f :: post.map (Struct.rename f) := by
  simp [Protocol.rename, e]

/-- Laws for the protocol with renamed members are laws for the protocol itself. -/
theorem Laws.rename {L : Library} {p : Protocol} {f : String → String} {T Z : List UInt8 → Prop}
    {lim least : Nat} (h : Laws L (p.rename f) id T Z lim least) : Laws L p f T Z lim least where
  ident e := by simpa [Struct.rename] using h.ident (rename_split e)
  dispatch e := by simpa [Struct.rename] using h.dispatch (rename_split e)
  unknown ht := h.unknown (by simpa [Protocol.rename] using ht)
  write he := by simpa [Val.mapNames_id] using h.write (EncMsg.rename (f := f) he)
  tagged e he := by
    simpa [Val.mapNames_id, Struct.rename] using h.tagged (rename_split (f := f) e) (EncMsg.rename (f := f) he)
  read he ht hl hat := by
    simpa [Val.mapNames_id] using h.read (EncMsg.rename (f := f) he) ((texts_mapNames f _).2 ht) hl hat
  size he ht := by
    simpa [Val.mapNames_id] using h.size (EncMsg.rename (f := f) he) ((texts_mapNames f _).2 ht)
  processAll hs ht hl hat e hm := by
    simpa [mapMsgs_id] using h.processAll (Stream.rename' (f := f) hs) (texts_mapMsgs ht) hl hat e (by simpa using hm)
  processZero hs ht hl hat hm := by
    simpa [mapMsgs_id] using h.processZero (Stream.rename' (f := f) hs) (texts_mapMsgs ht) hl hat (by simpa using hm)
  processLimit hs ht hl hat := by
    simpa [mapMsgs_id] using h.processLimit (Stream.rename' (f := f) hs) (texts_mapMsgs ht) hl hat
  packedSize hs ht := by
    simpa [mapMsgs_id] using h.packedSize (Stream.rename' (f := f) hs) (texts_mapMsgs ht)
  pack hs hl := by
    simpa [mapMsgs_id] using h.pack (Stream.rename' (f := f) hs) (by simpa using hl)
  unpack hs ht hn hle hl hat := by
    simpa [mapMsgs_id] using h.unpack (Stream.rename' (f := f) hs) (texts_mapMsgs ht) (by simpa using hn) hle hl (by simpa using hat)
  create hd hf := by
    have := h.create (d := Struct.rename f _) (List.mem_map_of_mem hd) (IsDefaultFields.rename hf)
    rw [Val.mapNames_id] at this
    exact this

/-- The laws about streams alone. -/
structure ProcessLaws (process : Buf → Nat → Int → Except Fail (List (String × Val) × Nat))
    (p : Protocol) (T : List UInt8 → Prop) (lim : Nat) : Prop where
  all : ∀ {ms bs b pos max}, Stream p ms bs → (∀ x ∈ ms, Texts T x.2) → b.length < lim →
    At b pos bs → pos + bs.length = b.length → max < 0 ∨ (ms.length : Int) ≤ max →
    ∃ q, process b pos max = .ok (ms, q)
  zero : ∀ {ms bs b pos max}, Stream p ms bs → (∀ x ∈ ms, Texts T x.2) → b.length < lim →
    At b pos (bs ++ [0]) → max < 0 ∨ (ms.length : Int) < max →
    ∃ q, process b pos max = .ok (ms, q)
  limit : ∀ {ms bs b pos}, Stream p ms bs → (∀ x ∈ ms, Texts T x.2) → b.length < lim →
    At b pos bs → process b pos ms.length = .ok (ms, pos + bs.length)

/-- The laws about streams, from those about one tagged message. -/
theorem processLaws_of_steps {p : Protocol} {T : List UInt8 → Prop} {lim : Nat}
    {finished : Buf → Nat → Bool} {step : Buf → Nat → Except Fail Step}
    (hstep : ∀ b, b.length < lim → StepReads (step b) p id (Texts T) b)
    (hfin : ∀ b pos, pos < b.length → finished b pos = false)
    (hend : ∀ b, EndsAt (finished b) (step b) b)
    (hzero : ∀ b pos, At b pos [0] → step b pos = .ok (.stop (pos + 1))) :
    ProcessLaws (fun b pos max => processBytes (finished b) (step b) b pos max) p T lim where
  all {ms bs b pos max} hs ht hl hat he hm := by
    by_cases h0 : max = 0
    · subst h0
      have hnil : ms = [] := List.eq_nil_of_length_eq_zero (by omega)
      subst hnil
      exact ⟨pos, by simp [processBytes]⟩
    · refine ⟨b.length, ?_⟩
      have := processBytes_all (hstep b hl) (hfin b) (hend b) hs ht h0 hat hm he
      rwa [mapMsgs_id] at this
  zero {ms bs b pos max} hs ht hl hat hm := by
    refine ⟨pos + bs.length + 1, ?_⟩
    have := processBytes_zero (hstep b hl) (hfin b) (hzero b) hs ht hat hm
    rwa [mapMsgs_id] at this
  limit {ms bs b pos} hs ht hl hat := by
    have := processBytes_limit (hstep b hl) (hfin b) hs ht hat
    rwa [mapMsgs_id] at this

theorem At.drop {b : Buf} {pos : Nat} {bs : List UInt8} (h : At b pos bs) : At (b.drop pos) 0 bs := by
  obtain ⟨pre, rest, rfl, rfl⟩ := h
  exact ⟨[], rest, by simp, rfl⟩

/-- The laws hold as well when the data is first cut to begin at the position. -/
theorem ProcessLaws.rebase {process : Buf → Nat → Int → Except Fail (List (String × Val) × Nat)}
    {p : Protocol} {T : List UInt8 → Prop} {lim : Nat} (h : ProcessLaws process p T lim) :
    ProcessLaws (fun b pos max => rebased (fun b q => process b q max) b pos) p T lim where
  all {ms bs b pos max} hs ht hl hat he hm := by
    obtain ⟨q, hq⟩ := h.all (b := b.drop pos) hs ht (by rw [List.length_drop]; omega) (At.drop hat)
      (by rw [List.length_drop]; omega) hm
    exact ⟨pos + q, by simp [rebased, hq]⟩
  zero {ms bs b pos max} hs ht hl hat hm := by
    obtain ⟨q, hq⟩ := h.zero (b := b.drop pos) hs ht (by rw [List.length_drop]; omega) (At.drop hat) hm
    exact ⟨pos + q, by simp [rebased, hq]⟩
  limit {ms bs b pos} hs ht hl hat := by
    have hq := h.limit (b := b.drop pos) hs ht (by rw [List.length_drop]; omega) (At.drop hat)
    simp [rebased, hq]

/-- Unpacking in the common shape, from the laws about streams. -/
theorem unpackWith_law {p : Protocol} {T : List UInt8 → Prop} {lim : Nat}
    {proc : Buf → Nat → Int → Except Fail (List (String × Val) × Nat)} (hproc : ProcessLaws proc p T lim)
    {short countFail : Fail} {countTy : NumTy} {limit : Int → Except Fail Int}
    (hty : ∀ n : Nat, n < 2 ^ 31 → DecNum countTy (.int n) (littleEndian 4 n))
    (hlim : ∀ n : Nat, 0 < n → n < 2 ^ 31 → limit n = .ok n)
    {ms : List (String × Val)} {bs : List UInt8} {b : Buf} {pos : Nat}
    (hs : Stream p ms bs) (ht : ∀ x ∈ ms, Texts T x.2) (hn : ms.length < 2 ^ 31) (hl : b.length < lim)
    (hat : At b pos (bsci ++ littleEndian 4 ms.length ++ bs ++ [0])) :
    unpackWith short countFail countTy limit (proc b) b pos = .ok ms := by
  rw [← mapMsgs_id ms]
  refine unpackWith_packed hty hat hn hlim (fun _ => ?_)
  rw [mapMsgs_id]
  rw [List.append_assoc] at hat
  have := hat.right
  exact ⟨_, hproc.limit hs ht hl (by simpa [littleEndian_length, bsci] using this.left)⟩

/-- The laws of a library whose packing has the common shape, from the laws of its single messages
and streams and of its unpacking. -/
theorem Laws.of_parts {L : Library} {p : Protocol} {T Z : List UInt8 → Prop} {lim least : Nat}
    (hident : ∀ {pre d post}, p.messages = pre ++ d :: post → L.ident d.name = some (pre.length + 1))
    (hdispatch : ∀ {pre d post}, p.messages = pre ++ d :: post →
      L.dispatch (pre.length + 1) = some d.name)
    (hunknown : ∀ {t : Nat}, t = 0 ∨ p.messages.length < t → t < 256 → L.dispatch t = none)
    (hwrite : ∀ {pre d post v bs} (tag : Bool), p.messages = pre ++ d :: post → EncMsg p d.name v bs →
      ∃ cs, L.write d.name tag v = .ok cs ∧
        cs.flatten = if tag then UInt8.ofNat (pre.length + 1) :: bs else bs)
    (hread : ∀ {m v bs b pos}, EncMsg p m v bs → Texts T v → b.length < lim → At b pos bs →
      L.read m b pos = .ok (v, pos + bs.length))
    (hsize : ∀ {m v bs}, EncMsg p m v bs → Texts Z v → L.size m v = .ok bs.length)
    (hcreate : ∀ {d fs}, d ∈ p.messages → IsDefaultFields p d.members fs →
      L.create d.name = .ok (.record fs))
    (hproc : ProcessLaws L.process p T lim)
    (hpackedSize : ∀ ms, L.packedSize ms = packedSizeOf L.size ms)
    {header : List (List UInt8)} {count : Nat → Except Fail (List UInt8)}
    (hpack : ∀ ms, L.pack ms = packWith header count L.write ms) (hheader : header.flatten = bsci)
    (hcount : ∀ n : Nat, n < 2 ^ 31 → count n = .ok (littleEndian 4 n))
    (hunpack : ∀ {ms bs b pos}, Stream p ms bs → (∀ x ∈ ms, Texts T x.2) → ms.length < 2 ^ 31 →
      least ≤ bs.length + 9 → b.length < lim →
      At b pos (bsci ++ littleEndian 4 ms.length ++ bs ++ [0]) → L.unpack b pos = .ok ms) :
    Laws L p id T Z lim least where
  ident := hident
  dispatch := hdispatch
  unknown := hunknown
  write h := by
    rw [Val.mapNames_id]
    obtain ⟨d, _, hd, rfl, _⟩ := id h
    obtain ⟨pre, post, e⟩ := List.append_of_mem hd
    exact hwrite false e h
  tagged e h := by rw [Val.mapNames_id]; exact hwrite true e h
  read h1 h2 h3 h4 := by rw [Val.mapNames_id]; exact hread h1 h2 h3 h4
  size h1 h2 := by rw [Val.mapNames_id]; exact hsize h1 h2
  create h1 h2 := by rw [Val.mapNames_id]; exact hcreate h1 h2
  processAll hs ht hl hat he hm := by rw [mapMsgs_id]; exact hproc.all hs ht hl hat he hm
  processZero hs ht hl hat hm := by rw [mapMsgs_id]; exact hproc.zero hs ht hl hat hm
  processLimit hs ht hl hat := by rw [mapMsgs_id]; exact hproc.limit hs ht hl hat
  packedSize {ms bs} hs ht := by
    rw [hpackedSize]
    exact packedSizeOf_stream (f := id) (Q := Texts Z)
      (fun m v bs he hz => by rw [Val.mapNames_id]; exact hsize he hz) hs ht
  pack {ms bs} hs hn := by
    rw [hpack]
    exact packWith_stream (f := id) (Q := fun _ => True)
      (fun pre d post v bs e he _ => by rw [Val.mapNames_id]; exact hwrite true e he) hheader
      (hcount _ hn) hs (fun _ _ => trivial)
  unpack hs ht hn hle hl hat := by rw [mapMsgs_id]; exact hunpack hs ht hn hle hl hat

/-- The laws of a library whose packing and unpacking have the common shape, from the laws of its
single messages and streams. -/
theorem Laws.of_core {L : Library} {p : Protocol} {T Z : List UInt8 → Prop} {lim : Nat}
    (hident : ∀ {pre d post}, p.messages = pre ++ d :: post → L.ident d.name = some (pre.length + 1))
    (hdispatch : ∀ {pre d post}, p.messages = pre ++ d :: post →
      L.dispatch (pre.length + 1) = some d.name)
    (hunknown : ∀ {t : Nat}, t = 0 ∨ p.messages.length < t → t < 256 → L.dispatch t = none)
    (hwrite : ∀ {pre d post v bs} (tag : Bool), p.messages = pre ++ d :: post → EncMsg p d.name v bs →
      ∃ cs, L.write d.name tag v = .ok cs ∧
        cs.flatten = if tag then UInt8.ofNat (pre.length + 1) :: bs else bs)
    (hread : ∀ {m v bs b pos}, EncMsg p m v bs → Texts T v → b.length < lim → At b pos bs →
      L.read m b pos = .ok (v, pos + bs.length))
    (hsize : ∀ {m v bs}, EncMsg p m v bs → Texts Z v → L.size m v = .ok bs.length)
    (hcreate : ∀ {d fs}, d ∈ p.messages → IsDefaultFields p d.members fs →
      L.create d.name = .ok (.record fs))
    (hproc : ProcessLaws L.process p T lim)
    (hpackedSize : ∀ ms, L.packedSize ms = packedSizeOf L.size ms)
    {header : List (List UInt8)} {count : Nat → Except Fail (List UInt8)}
    (hpack : ∀ ms, L.pack ms = packWith header count L.write ms) (hheader : header.flatten = bsci)
    (hcount : ∀ n : Nat, n < 2 ^ 31 → count n = .ok (littleEndian 4 n))
    {short countFail : Fail} {countTy : NumTy} {limit : Int → Except Fail Int}
    (hunpack : ∀ b pos, L.unpack b pos = unpackWith short countFail countTy limit (L.process b) b pos)
    (hty : ∀ n : Nat, n < 2 ^ 31 → DecNum countTy (.int n) (littleEndian 4 n))
    (hlim : ∀ n : Nat, 0 < n → n < 2 ^ 31 → limit n = .ok n) :
    Laws L p id T Z lim :=
  Laws.of_parts hident hdispatch hunknown hwrite hread hsize hcreate hproc hpackedSize hpack hheader
    hcount fun hs ht hn _ hl hat => by
      rw [hunpack]
      exact unpackWith_law hproc hty hlim hs ht hn hl hat

end Beschi.Lang
