import Verif.Lang.Languages
import Verif.Lang.ArbitraryProof
import Verif.Props.Languages
/-
Property theorems about arbitrary (cut off, damaged, hostile) data: C15, C16, C17, C21, C24.

As in Verif/Props/Languages.lean, the theorems assume `Language.Supported`; here some claims are false
in some languages even so.  The exceptions are stated below, one definition for each property, and
shown to be needed in Verif/Props/Limits.lean.
-/
namespace Beschi.Props
open Beschi Beschi.Spec Beschi.Lang

/-- Languages and protocols for which reading is claimed not to crash.  In Go reading crashes where a
text is cut off; in the other languages a crash needs a size type that can hold lengths beyond what
the language's own lengths can, or negative ones. -/
def NeverCrashes : Language → Protocol → Prop
  | .rust _, p => p.stringSize ∈ [NumTy.byte, .uint16, .uint32]
  | .csharp _, p => p.stringSize ∈ [NumTy.byte, .uint16]
  | .swift _, p => p.stringSize ∈ [NumTy.byte, .uint16, .uint32] ∧ Unsigned p.listSize
  | .typescript _, _ => True
  | .c, p => p.stringSize ∈ [NumTy.byte, .uint16, .uint32] ∧ p.listSize ∉ [NumTy.uint64, .int64]
  | .assemblyscript _, p => p.stringSize ∈ [NumTy.byte, .uint16] ∧ Unsigned p.listSize
  | .go _, p => ¬ UsesText p ∧ p.listSize ∈ [NumTy.byte, .uint16, .uint32]
  | .zig, p => p.stringSize ∈ [NumTy.byte, .uint16, .uint32]

/-- Buffers for which reading is claimed not to crash are shorter than this.  (In Zig, a text of
almost maximal length crashes the reader.) -/
def crashLimit : Language → Protocol → Nat
  | .swift _, _ => 2 ^ 62
  | .zig, p => min (2 ^ 63) (2 ^ (8 * p.stringSize.size) - p.stringSize.size)
  | l, _ => l.limit

/-- The messages for which every cut is claimed to be noticed: not with strings in C#, where a string
that is cut off is returned as it is; not with strings, or structs that contain strings or lists, in
Go, where errors inside these are dropped. -/
def NoticesCuts : Language → Protocol → Struct → Prop
  | .csharp _, p, d => ∀ m ∈ d.members, ¬ HasText p m.vartype
  | .go _, p, d => ∀ m ∈ d.members, ¬ Varying p m.vartype
  | _, _, _ => True

/-- The languages that check enum values at every depth.  (Go checks only some, AssemblyScript
replaces undeclared values.) -/
def ChecksEnums : Language → Prop
  | .go _ | .assemblyscript _ => False
  | _ => True

/-- The languages whose stream processing reports errors: in AssemblyScript it ends quietly. -/
def ReportsInStreams : Language → Prop
  | .assemblyscript _ => False
  | _ => True

/-- The languages that process a stream by way of a new buffer that starts with the stream. -/
def Rebases : Language → Prop
  | .swift _ | .zig => True
  | _ => False

/-- The languages whose unpacking does not crash for any data. -/
def UnpackNeverCrashes : Language → Protocol → Prop
  | .rust _, p => p.stringSize ∈ [NumTy.byte, .uint16, .uint32]
  | .typescript _, _ => True
  | _, _ => False

theorem crashLimit_le (l : Language) (p : Protocol) : crashLimit l p ≤ l.limit := by
  cases l <;> simp [crashLimit, Language.limit]

theorem Varying.unrename {f : String → String} {p : Protocol} {t : String} (h : Varying (p.rename f) t) :
    Varying p t := by
  induction h with
  | text => exact .text
  | list hs hm hl =>
    obtain ⟨s0, h0, rfl⟩ := List.mem_map.1 hs
    obtain ⟨m0, h1, rfl⟩ := List.mem_map.1 hm
    exact .list (s := s0) h0 h1 hl
  | inside hs hm _ ih =>
    obtain ⟨s0, h0, rfl⟩ := List.mem_map.1 hs
    obtain ⟨m0, h1, rfl⟩ := List.mem_map.1 hm
    exact .inside (s := s0) h0 h1 ih

theorem ReadWithin.lower {E : Fail → Prop} {L : Library} {p : Protocol} {lim lim' : Nat}
    (h : ReadWithin E L p lim) (hl : lim' ≤ lim) : ReadWithin E L p lim' :=
  fun h1 h2 h3 => h h1 h2 (by omega)

section
variable {p : Protocol} (h : Usable p) (l : Language) (hs : l.Supported p)
include h hs

theorem readWithin_compiled : ReadWithin Compiled (l.library p) p l.limit := by
  have he : Compiled .eof := ⟨nofun, nofun⟩
  have hi : Compiled .invalid := ⟨nofun, nofun⟩
  have hc : Compiled .crash := ⟨nofun, nofun⟩
  intro m b pos hm hp hb
  cases l with
  | c => exact C.within h hs he hi (.inl hc) hm hp hb
  | csharp _ => exact CSharp.within h hs he hi (.inl hc) hm hp hb
  | go _ => exact Go.within h _ hs he hi (.inl hc) hm hp hb
  | rust _ => exact Rust.within h _ hs he hi (.inl hc) hm hp hb
  | swift _ => exact Swift.within h hs he hi (.inl hc) hm hp hb
  | typescript _ => exact TypeScript.within h hs he hi hm hp hb
  | assemblyscript _ => exact AssemblyScript.within h hs he (.inl hc) hm hp hb
  | zig => exact Zig.within h hs he hi (.inl hc) hm hp hb

theorem readWithin_reported (hn : NeverCrashes l p) :
    ReadWithin Reported (l.library p) p (crashLimit l p) := by
  have he : Reported .eof := rfl
  have hi : Reported .invalid := rfl
  intro m b pos hm hp hb
  cases l with
  | c => exact C.within h hs he hi (.inr ⟨hn.1, by simpa using hn.2, by simp [crashLimit, Language.limit]⟩) hm hp hb
  | csharp _ => exact CSharp.within h hs he hi (.inr hn) hm hp hb
  | go _ => exact Go.within h _ hs he hi (.inr hn) hm hp hb
  | rust _ => exact Rust.within h _ hs he hi (.inr hn) hm hp hb
  | swift _ => exact Swift.within h hs he hi (.inr ⟨hn.1, hn.2, by simp [crashLimit]⟩) hm hp hb
  | typescript _ => exact TypeScript.within h hs he hi hm hp hb
  | assemblyscript _ => exact AssemblyScript.within h hs he (.inr hn) hm hp hb
  | zig => exact Zig.within h hs he hi (.inr ⟨hn, Nat.min_le_right _ _⟩) hm hp hb

theorem streamWithin_compiled : StreamWithin Compiled (l.library p) l.limit := by
  have he : Compiled .eof := ⟨nofun, nofun⟩
  have hi : Compiled .invalid := ⟨nofun, nofun⟩
  have hc : Compiled .crash := ⟨nofun, nofun⟩
  intro b pos max hp hb
  cases l with
  | c => exact C.streamWithin h hs he hi (.inl hc) hp hb
  | csharp _ => exact CSharp.streamWithin h hs he hi (.inl hc) hp hb
  | go _ => exact Go.streamWithin h _ hs he hi (.inl hc) hp hb
  | rust _ => exact Rust.streamWithin h _ hs he hi (.inl hc) hp hb
  | swift _ => exact Swift.streamWithin h hs he hi (.inl hc) hp hb
  | typescript _ => exact TypeScript.streamWithin h hs he hi hp hb
  | assemblyscript _ => exact AssemblyScript.streamWithin h hs (.inl hc) hp hb
  | zig => exact Zig.streamWithin h hs he hi (.inl hc) hp hb

theorem streamWithin_reported (hn : NeverCrashes l p) :
    StreamWithin Reported (l.library p) (crashLimit l p) := by
  have he : Reported .eof := rfl
  have hi : Reported .invalid := rfl
  intro b pos max hp hb
  cases l with
  | c => exact C.streamWithin h hs he hi (.inr ⟨hn.1, by simpa using hn.2, by simp [crashLimit, Language.limit]⟩) hp hb
  | csharp _ => exact CSharp.streamWithin h hs he hi (.inr hn) hp hb
  | go _ => exact Go.streamWithin h _ hs he hi (.inr hn) hp hb
  | rust _ => exact Rust.streamWithin h _ hs he hi (.inr hn) hp hb
  | swift _ => exact Swift.streamWithin h hs he hi (.inr ⟨hn.1, hn.2, by simp [crashLimit]⟩) hp hb
  | typescript _ => exact TypeScript.streamWithin h hs he hi hp hb
  | assemblyscript _ => exact AssemblyScript.streamWithin h hs (.inr hn) hp hb
  | zig => exact Zig.streamWithin h hs he hi (.inr ⟨hn, Nat.min_le_right _ _⟩) hp hb

theorem readShaped (hn : ChecksEnums l) : ReadShaped (l.library p) p l.rename l.limit := by
  intro m b pos v pos' hp hb hr
  cases l with
  | c =>
    have : ReadShaped (C.library p) p id (2 ^ 64) :=
      ReadSound.shaped (R := fun bs s => bs = s) (fun hp hb hr => C.sound h hs hp hb hr)
    exact this hp (by simp only [Language.limit] at hb; omega) hr
  | csharp _ => exact CSharp.shaped h hs hp hb hr
  | go _ => exact hn.elim
  | rust _ => exact Rust.shaped h _ hs hp hb hr
  | swift _ => exact ReadSound.shaped (fun hp hb hr => Swift.sound h hs hp hb hr) hp hb hr
  | typescript _ => exact ReadSound.shaped (fun hp hb hr => TypeScript.sound h hs hp hb hr) hp hb hr
  | assemblyscript _ => exact hn.elim
  | zig =>
    exact ReadSound.shaped (R := fun bs s => bs = s) (fun hp hb hr => Zig.sound h hs hp hb hr) hp hb hr

theorem readStrict (hn : ChecksEnums l) : ReadStrict (l.library p) p l.limit := by
  intro m b pos w bs v pos' hb hd hat hr
  cases l with
  | c =>
    have : ReadStrict (C.library p) p (2 ^ 64) :=
      ReadSound.strict (R := fun bs s => bs = s) h (fun hp hb hr => C.sound h hs hp hb hr)
    exact this (by simp only [Language.limit] at hb; omega) hd hat hr
  | csharp _ => exact CSharp.readStrict h hs hb hd hat hr
  | go _ => exact hn.elim
  | rust _ => exact Rust.readStrict h _ hs hb hd hat hr
  | swift _ => exact ReadSound.strict h (fun hp hb hr => Swift.sound h hs hp hb hr) hb hd hat hr
  | typescript _ => exact ReadSound.strict h (fun hp hb hr => TypeScript.sound h hs hp hb hr) hb hd hat hr
  | assemblyscript _ => exact hn.elim
  | zig =>
    exact ReadSound.strict (R := fun bs s => bs = s) h (fun hp hb hr => Zig.sound h hs hp hb hr) hb hd hat hr

theorem streamUnknown (hn : ReportsInStreams l) :
    StreamUnknown (l.library p) p (l.Faithful p) l.limit := by
  intro ms bs t b pos max h1 h2 h3 h4 h5 h6
  cases l with
  | c => exact C.streamUnknown h hs h1 h2 h3 h4 h5 h6
  | csharp _ => exact (CSharp.streamRejects h hs h1 h2 h3 h4 h5 h6).1
  | go _ => exact (Go.streamRejects h _ hs h1 h2 h3 h4 h5 h6).1
  | rust _ => exact (Rust.streamRejects h _ hs h1 h2 h3 h4 h5 h6).1
  | swift _ => exact Swift.streamUnknown h hs h1 h2 h3 h4 h5 h6
  | typescript _ => exact (TypeScript.streamRejects h hs h1 h2 h3 h4 h5 h6).1
  | assemblyscript _ => exact hn.elim
  | zig => exact Zig.streamUnknown h hs h1 h2 h3 h4 h5 h6

theorem streamRejects {ms : List (String × Val)} {pre bs rest : List UInt8} {t : UInt8} {max : Int}
    (hn : ReportsInStreams l) (hpre : Rebases l → pre = [])
    (hst : Stream p ms bs) (ht : ∀ x ∈ ms, Texts (l.Faithful p) x.2)
    (hlim : (pre ++ bs ++ t :: rest).length < l.limit) (h0 : t ≠ 0)
    (hmax : max < 0 ∨ (ms.length : Int) < max) {m : String} {e : Fail}
    (hd : (l.library p).dispatch t.toNat = some m)
    (hr : (l.library p).read m (pre ++ bs ++ t :: rest) (pre.length + bs.length + 1) = .error e) :
    (l.library p).process (pre ++ bs ++ t :: rest) pre.length max = .error e := by
  have hat : At (pre ++ bs ++ t :: rest) pre.length (bs ++ [t]) := ⟨pre, rest, by simp, rfl⟩
  cases l with
  | c => exact (C.streamRejects h hs hst ht hlim hat h0 hmax).2 m e hd hr
  | csharp _ => exact (CSharp.streamRejects h hs hst ht hlim hat h0 hmax).2 m e hd hr
  | go _ => exact (Go.streamRejects h _ hs hst ht hlim hat h0 hmax).2 m e hd hr
  | rust _ => exact (Rust.streamRejects h _ hs hst ht hlim hat h0 hmax).2 m e hd hr
  | swift mark =>
    cases hpre trivial
    have := (Swift.streamRejects (mark := mark) h hs hst ht hlim hat h0 hmax).2 m e hd hr
    exact rebased_error (K := Swift.inPlace mark p) (fun _ _ _ => rfl) this
  | typescript _ => exact (TypeScript.streamRejects h hs hst ht hlim hat h0 hmax).2 m e hd hr
  | assemblyscript _ => exact hn.elim
  | zig =>
    cases hpre trivial
    rw [Language.library, Zig.library_eq h hs] at hd hr ⊢
    have := (Zig.streamRejects h hs hst ht hlim hat h0 hmax).2 m e hd hr
    exact rebased_error (K := Zig.inPlace p) (fun _ _ _ => rfl) this

end

section
variable {data : Toml} {p : Protocol} (h : Loads data (.ok p)) (l : Language) (hs : l.Supported p)
include h hs

/-! ### C15 -/

/-- C15: if the bytes of a message are cut off anywhere and nothing follows, reading fails, and if
the language never crashes then the failure is reported. -/
theorem C15_truncated_partial {d : Struct} (hd : d ∈ p.messages) (hn : NoticesCuts l p d) {v : Val}
    {pre bs cut : List UInt8} (hv : EncMsg p d.name v (bs ++ cut)) (hcut : cut ≠ [])
    (hlim : (pre ++ bs ++ cut).length < l.limit) :
    ∃ e, (l.library p).read d.name (pre ++ bs) pre.length = .error e ∧
      (NeverCrashes l p → (pre ++ bs).length < crashLimit l p → e.reported = true) := by
  have hu := usable_of_loads h
  obtain ⟨x, rest, rfl⟩ := List.exists_cons_of_ne_nil hcut
  have hshort : (pre ++ bs).length < l.limit := by
    simp only [List.length_append] at hlim ⊢; omega
  have hlim' : (pre ++ (bs ++ x :: rest)).length < l.limit := by simpa using hlim
  suffices hx : ∃ e, (l.library p).read d.name (pre ++ bs) pre.length = .error e by
    obtain ⟨e, he⟩ := hx
    refine ⟨e, he, fun hn hl => ?_⟩
    have := readWithin_reported hu l hs hn (List.mem_map_of_mem hd) (by simp) hl (b := pre ++ bs)
      (pos := pre.length)
    rw [he] at this
    exact this
  cases l with
  | c =>
    exact read_truncated hu (fun _ _ _ h => h) (fun hp hb hr => C.sound hu hs hp hb hr) hv
        (by simp only [Language.limit] at hshort; omega)
  | csharp _ =>
    exact ReadLocal.truncated (Language.laws _ hu hs) (CSharp.readLocal hu hs hd hn) hv
      (texts_true (fun _ => trivial) v) hlim'
  | go noRename =>
    cases hr : (Language.library (.go noRename) p).read d.name (pre ++ bs) pre.length with
    | error e => exact ⟨e, rfl⟩
    | ok r =>
      exfalso
      obtain ⟨cs, h1, h2, _⟩ := Go.core_sound (hu.rename _) hs (d := d.rename _)
        (List.mem_map_of_mem hd) (by
          intro m hm hvar
          obtain ⟨m0, h0, rfl⟩ := List.mem_map.1 hm
          exact hn m0 h0 (Varying.unrename hvar)) (b := pre ++ bs) (v := r.1) (pos' := r.2)
        (by simp) hr
      obtain ⟨w, h4, _⟩ := DecMsg.unrename (fun _ _ _ h => h) h1
      obtain ⟨pre', rest', e1, e2⟩ := h2
      have e3 : bs = cs ++ rest' := by
        have := congrArg (List.drop pre.length) e1
        rw [List.drop_left, e2, List.drop_left] at this
        exact this
      have := DecMsg.same_bytes hu (fun _ _ _ h => h) hv h4 (r := []) (s := rest' ++ x :: rest)
        (by simp [e3])
      have := congrArg List.length this
      simp only [e3, List.length_append, List.length_cons] at this
      omega
  | rust _ =>
    exact ReadLocal.truncated (Language.laws _ hu hs) (Rust.readLocal hu _ hs hd) hv
      (texts_true (fun _ => trivial) v) hlim'
  | swift _ => exact read_truncated hu (fun _ _ _ h => h) (fun hp hb hr => Swift.sound hu hs hp hb hr) hv hshort
  | typescript _ => exact read_truncated hu (fun _ _ _ h => h) (fun hp hb hr => TypeScript.sound hu hs hp hb hr) hv hshort
  | assemblyscript _ => exact read_truncated hu (fun _ _ _ h => h) (fun hp hb hr => AssemblyScript.sound hu hs hp hb hr) hv hshort
  | zig => exact read_truncated hu (fun _ _ _ h => h) (fun hp hb hr => Zig.sound hu hs hp hb hr) hv hshort

/-! ### C16 -/

/-- C16: reading a message from arbitrary bytes ends in a message and a position that has neither
moved back nor beyond the end of the data, or fails; if the language never crashes then the failure is
reported. -/
theorem C16_read_inside_partial {d : Struct} (hd : d ∈ p.messages) (b : Buf) (pos : Nat)
    (hp : pos ≤ b.length) (hlim : b.length < l.limit) :
    (∃ v pos', (l.library p).read d.name b pos = .ok (v, pos') ∧ pos ≤ pos' ∧ pos' ≤ b.length) ∨
    (∃ e, (l.library p).read d.name b pos = .error e ∧ e ≠ .illTyped ∧ e ≠ .fuel ∧
      (NeverCrashes l p → b.length < crashLimit l p → e.reported = true)) := by
  have hu := usable_of_loads h
  have h1 := readWithin_compiled hu l hs (List.mem_map_of_mem hd) hp hlim
  cases hr : (l.library p).read d.name b pos with
  | ok r => rw [hr] at h1; exact .inl ⟨r.1, r.2, rfl, h1⟩
  | error e =>
    rw [hr] at h1
    refine .inr ⟨e, rfl, h1.1, h1.2, fun hn hl => ?_⟩
    have := readWithin_reported hu l hs hn (List.mem_map_of_mem hd) hp hl
    rw [hr] at this
    exact this

/-- C16: the same for the processing of streams. -/
theorem C16_process_inside_partial (b : Buf) (pos : Nat) (max : Int)
    (hp : pos ≤ b.length) (hlim : b.length < l.limit) :
    (∃ ms pos', (l.library p).process b pos max = .ok (ms, pos') ∧ pos ≤ pos' ∧ pos' ≤ b.length) ∨
    (∃ e, (l.library p).process b pos max = .error e ∧ e ≠ .illTyped ∧ e ≠ .fuel ∧
      (NeverCrashes l p → b.length < crashLimit l p → e.reported = true)) := by
  have hu := usable_of_loads h
  have h1 := streamWithin_compiled hu l hs (max := max) hp hlim
  cases hr : (l.library p).process b pos max with
  | ok r => rw [hr] at h1; exact .inl ⟨r.1, r.2, rfl, h1⟩
  | error e =>
    rw [hr] at h1
    refine .inr ⟨e, rfl, h1.1, h1.2, fun hn hl => ?_⟩
    have := streamWithin_reported hu l hs hn (max := max) hp hl
    rw [hr] at this
    exact this

/-! ### C17 -/

/-- C17: whatever bytes a message is read from, every enum in it holds a declared value, at any depth
(and every number is in the range of its type). -/
theorem C17_enums_checked_partial (hn : ChecksEnums l) {m : String} {b : Buf} {pos pos' : Nat} {v : Val}
    (hp : pos ≤ b.length) (hlim : b.length < l.limit)
    (hr : (l.library p).read m b pos = .ok (v, pos')) :
    ∃ w, v = seen l w ∧ MessageShape p m w :=
  readShaped (usable_of_loads h) l hs hn hp hlim hr

omit hs in
/-- C17: Go checks the enums directly in a message, and lists of them. -/
theorem C17_go_direct_enums_partial (noRename : Bool) {d : Struct} (hd : d ∈ p.messages) {b : Buf}
    {pos pos' : Nat} {v : Val} (hr : ((Language.go noRename).library p).read d.name b pos = .ok (v, pos')) :
    ∃ fs, v = .record fs ∧ List.Forall₂
      (fun m f => f.1 = (Language.go noRename).rename m.name ∧ DirectEnum p m f.2) d.members fs :=
  Go.directEnums (usable_of_loads h) noRename hd hr

/-- C17: bytes that are laid out like a message, but with an undeclared enum value somewhere, are
refused. -/
theorem C17_undeclared_refused_partial (hn : ChecksEnums l) {m : String} {w : Val} {bs : List UInt8}
    (hw : DecMsg readableRaw p m w bs) (hbad : ¬ MessageShape p m w) (pre rest : List UInt8)
    (hlim : (pre ++ bs ++ rest).length < l.limit) :
    ∃ e, (l.library p).read m (pre ++ bs ++ rest) pre.length = .error e ∧ e ≠ .illTyped ∧ e ≠ .fuel ∧
      (NeverCrashes l p → (pre ++ bs ++ rest).length < crashLimit l p → e.reported = true) := by
  have hu := usable_of_loads h
  obtain ⟨d, fs, hd, rfl, _⟩ := id hw
  rcases C16_read_inside_partial h l hs hd (pre ++ bs ++ rest) pre.length (by simp) hlim with
    ⟨v, pos', hr, _⟩ | h1
  · obtain ⟨d', gs, h1, h2, rfl, h3⟩ := readStrict hu l hs hn hlim hw (at_mk pre bs rest) hr
    exact absurd ⟨d', gs, h1, h2, rfl, LayoutFields.shape h3⟩ hbad
  · exact h1

/-! ### C21 -/

/-- C21: a byte that identifies no message, met in a stream before the limit, makes the processing of
the stream fail. -/
theorem C21_unknown_partial (hn : ReportsInStreams l) {ms : List (String × Val)} {bs : List UInt8}
    (hst : Stream p ms bs) (ht : ∀ x ∈ ms, Texts (l.Faithful p) x.2) (pre rest : List UInt8) {t : UInt8}
    (ht0 : t ≠ 0) (htn : p.messages.length < t.toNat)
    (hlim : (pre ++ bs ++ t :: rest).length < l.limit) {max : Int}
    (hmax : max < 0 ∨ (ms.length : Int) < max) :
    ∃ e, (l.library p).process (pre ++ bs ++ t :: rest) pre.length max = .error e ∧
      (NeverCrashes l p → (pre ++ bs ++ t :: rest).length < crashLimit l p → e.reported = true) := by
  have hu := usable_of_loads h
  obtain ⟨e, he⟩ := streamUnknown hu l hs hn hst ht hlim
    (pos := pre.length) ⟨pre, rest, by simp, rfl⟩ ht0 hmax (C08_unknown h l (.inr htn))
  refine ⟨e, he, fun hn hl => ?_⟩
  have := streamWithin_reported hu l hs hn (max := max) (pos := pre.length) (by simp) hl
  rw [he] at this
  exact this

/-- C21: a message that cannot be read, met in a stream before the limit, makes the processing of the
stream fail, and in the same way. -/
theorem C21_broken_partial (hn : ReportsInStreams l) {ms : List (String × Val)} {bs : List UInt8}
    (hst : Stream p ms bs) (ht : ∀ x ∈ ms, Texts (l.Faithful p) x.2) (pre rest : List UInt8)
    (hpre : Rebases l → pre = []) {k : Nat} {d : Struct} (hk : p.messages[k]? = some d)
    (hlim : (pre ++ bs ++ UInt8.ofNat (k + 1) :: rest).length < l.limit) {max : Int}
    (hmax : max < 0 ∨ (ms.length : Int) < max) {e : Fail}
    (hr : (l.library p).read d.name (pre ++ bs ++ UInt8.ofNat (k + 1) :: rest)
      (pre.length + bs.length + 1) = .error e) :
    (l.library p).process (pre ++ bs ++ UInt8.ofNat (k + 1) :: rest) pre.length max = .error e := by
  have hu := usable_of_loads h
  have hc : Compiles l p := by
    cases l with
    | c => exact C.fileOk_of hs
    | zig => exact Zig.fileOk_of hu hs
    | _ => exact trivial
  obtain ⟨_, hd, hk'⟩ := C08_identifiers h l hc hk
  have e1 : (UInt8.ofNat (k + 1)).toNat = k + 1 := by rw [UInt8.toNat_ofNat']; omega
  refine streamRejects hu l hs hn hpre hst ht hlim ?_ hmax (by rw [e1]; exact hd) hr
  intro h0
  rw [h0] at e1
  simp at e1

/-! ### C24 -/

/-- C24: unpacking succeeds only if the data starts with the four letters and a count that is the
number of messages returned. -/
theorem C24_unpack_checks_partial {b : Buf} {pos : Nat} {ms : List (String × Val)}
    (hlim : b.length < l.limit) (hu : (l.library p).unpack b pos = .ok ms) :
    ∃ pre rest, b = pre ++ [0x42, 0x53, 0x43, 0x49] ++ littleEndian 4 ms.length ++ rest ∧
      pre.length = pos ∧ ms.length < 2 ^ 32 := by
  have hus := usable_of_loads h
  suffices hx : UnpackChecks (l.library p) l.limit by
    obtain ⟨cnt, ⟨pre, rest, rfl, h2⟩, h3⟩ := hx hlim hu
    cases h3 with
    | written h3 =>
      cases h3 with
      | int hr =>
        simp only [IntRange] at hr
        refine ⟨pre, rest, ?_, h2.symm, by omega⟩
        simp [bsci, width]
  cases l with
  | c =>
    intro b pos ms hb hu
    rw [Language.library, C.library_eq hs] at hu
    exact C.unpackChecks (by simp only [Language.limit] at hb; omega) hu
  | csharp _ => intro b pos ms hb hu; exact CSharp.unpackChecks hb hu
  | go _ => intro b pos ms hb hu; exact Go.unpackChecks _ hb hu
  | rust _ => intro b pos ms hb hu; exact Rust.unpackChecks _ hb hu
  | swift _ => intro b pos ms hb hu; exact Swift.unpackChecks hb hu
  | typescript _ => intro b pos ms hb hu; exact TypeScript.unpackChecks hb hu
  | assemblyscript _ => intro b pos ms hb hu; exact AssemblyScript.unpackChecks hb hu
  | zig => intro b pos ms hb hu; exact Zig.unpackChecks hus hs hb hu

/-- C24: unpacking fails only in a way that is reported. -/
theorem C24_unpack_reports_partial (hn : UnpackNeverCrashes l p) {b : Buf} {pos : Nat} {e : Fail}
    (hp : pos ≤ b.length) (hlim : b.length < l.limit) (hu : (l.library p).unpack b pos = .error e) :
    e.reported = true := by
  have hus := usable_of_loads h
  have he : Reported .eof := rfl
  have hi : Reported .invalid := rfl
  cases l with
  | rust _ => exact Rust.unpackFails hus _ hs he hi (.inr hn) hp hlim hu
  | typescript _ => exact TypeScript.unpackFails hus hs he hi hp hlim hu
  | _ => exact hn.elim

end

/-! ### The theorems apply to the demonstration protocol -/

section
variable {l : Language} (hl : l ≠ .go true)
include hl

/-- Draw has texts: its cuts are noticed except by C# and Go. -/
example (hn : NoticesCuts l demoProtocol demoProtocol.messages[0]) (pre : List UInt8)
    (hb : (pre ++ demoDrawBytes.take 60 ++ demoDrawBytes.drop 60).length < l.limit) :
    ∃ e, (l.library demoProtocol).read "Draw" (pre ++ demoDrawBytes.take 60) pre.length = .error e := by
  obtain ⟨e, h1, _⟩ := C15_truncated_partial demo_loads l (demo_supported hl)
    (d := demoProtocol.messages[0]) (by decide) hn (v := demoDraw) (pre := pre)
    (bs := demoDrawBytes.take 60) (cut := demoDrawBytes.drop 60)
    (by rw [List.take_append_drop]; exact demoDraw_enc) (by decide) hb
  exact ⟨e, h1⟩

omit hl in
example : NoticesCuts (.rust false) demoProtocol demoProtocol.messages[0] ∧
    NeverCrashes (.rust false) demoProtocol :=
  ⟨trivial, by simp [NeverCrashes, demoProtocol]⟩

/-- Ping has not: its cuts are noticed by all. -/
theorem demoPing_cuts : NoticesCuts l demoProtocol demoProtocol.messages[2] := by
  have hv : ∀ t, t = "int64" ∨ t = "Kind" → ¬ Varying demoProtocol t := by
    intro t ht hv
    cases hv with
    | text => revert ht; decide
    | list hs _ _ =>
      simp only [demoProtocol, List.mem_cons, List.not_mem_nil, or_false] at hs
      rcases hs with rfl | rfl <;> revert ht <;> decide
    | inside hs _ _ =>
      simp only [demoProtocol, List.mem_cons, List.not_mem_nil, or_false] at hs
      rcases hs with rfl | rfl <;> revert ht <;> decide
  have hx : ∀ t, HasText demoProtocol t → Varying demoProtocol t := by
    intro t h
    induction h with
    | text => exact .text
    | inside hs hm _ ih => exact .inside hs hm ih
  have hm : ∀ m ∈ demoProtocol.messages[2].members, m.vartype = "int64" ∨ m.vartype = "Kind" := by decide
  cases l with
  | csharp _ => exact fun m h1 h2 => hv _ (hm m h1) (hx _ h2)
  | go _ => exact fun m h1 => hv _ (hm m h1)
  | _ => exact trivial

example : ∃ e, (l.library demoProtocol).read "Ping" [254, 255, 255, 255, 255, 255, 255, 255, 2] 0 =
    .error e := by
  obtain ⟨e, h1, _⟩ := C15_truncated_partial demo_loads l (demo_supported hl)
    (d := demoProtocol.messages[2]) (by decide) (demoPing_cuts hl) (v := demoPing) (pre := [])
    (bs := [254, 255, 255, 255, 255, 255, 255, 255, 2]) (cut := [0]) demoPing_enc (by decide)
    (by cases l <;> simp [Language.limit])
  exact ⟨e, h1⟩

example (b : Buf) (hb : b.length < l.limit) :
    (∃ v pos', (l.library demoProtocol).read "Draw" b 0 = .ok (v, pos') ∧ 0 ≤ pos' ∧ pos' ≤ b.length) ∨
    (∃ e, (l.library demoProtocol).read "Draw" b 0 = .error e ∧ e ≠ .illTyped ∧ e ≠ .fuel ∧
      (NeverCrashes l demoProtocol → b.length < crashLimit l demoProtocol → e.reported = true)) :=
  C16_read_inside_partial demo_loads l (demo_supported hl) (d := demoProtocol.messages[0]) (by decide)
    b 0 (Nat.zero_le _) hb

example (b : Buf) (hb : b.length < l.limit) :
    (∃ ms pos', (l.library demoProtocol).process b 0 (-1) = .ok (ms, pos') ∧ 0 ≤ pos' ∧ pos' ≤ b.length) ∨
    (∃ e, (l.library demoProtocol).process b 0 (-1) = .error e ∧ e ≠ .illTyped ∧ e ≠ .fuel ∧
      (NeverCrashes l demoProtocol → b.length < crashLimit l demoProtocol → e.reported = true)) :=
  C16_process_inside_partial demo_loads l (demo_supported hl) b 0 (-1) (Nat.zero_le _) hb

omit hl in
example (lossy mark : List UInt8 → List UInt8) : NeverCrashes (.csharp lossy) demoProtocol ∧
    NeverCrashes (.swift mark) demoProtocol ∧ NeverCrashes (.typescript lossy) demoProtocol ∧
    NeverCrashes .c demoProtocol ∧ NeverCrashes (.assemblyscript lossy) demoProtocol ∧
    NeverCrashes .zig demoProtocol :=
  ⟨by simp [NeverCrashes, demoProtocol], by simp [NeverCrashes, demoProtocol, Unsigned], trivial,
    by simp [NeverCrashes, demoProtocol], by simp [NeverCrashes, demoProtocol, Unsigned],
    by simp [NeverCrashes, demoProtocol]⟩

example (hn : ChecksEnums l) (hb : demoDrawBytes.length < l.limit) :
    ∃ v pos', (l.library demoProtocol).read "Draw" demoDrawBytes 0 = .ok (v, pos') ∧
    ∃ w, v = seen l w ∧ MessageShape demoProtocol "Draw" w := by
  have hr := (l.laws demo_usable (demo_supported hl)).read demoDraw_enc
    (demo_faithful l _ List.mem_cons_self) hb (b := demoDrawBytes) (pos := 0) ⟨[], [], by simp, rfl⟩
  exact ⟨_, _, hr, C17_enums_checked_partial demo_loads l (demo_supported hl) hn (Nat.zero_le _) hb hr⟩

omit hl in
/-- Bytes like those of a Ping, but 5 is not a declared value. -/
theorem demoBad_raw : DecMsg readableRaw demoProtocol "Ping" (.record [("stamp", .int 1), ("how", .int 5)])
    [1, 0, 0, 0, 0, 0, 0, 0, 5, 0] :=
  ⟨demoProtocol.messages[2], _, by decide, rfl, rfl,
    .one (A := readableRaw) (a := [1, 0, 0, 0, 0, 0, 0, 0]) (b := [5, 0]) rfl
      (.num (A := readableRaw) (n := .int64) (.written (.int (n := .int64) (i := 1) (by decide))))
      (.one (A := readableRaw) (a := [5, 0]) (b := []) rfl
        (.enum (A := readableRaw) (e := demoProtocol.enums[0]) (by decide) (i := 5) rfl
          (.written (.int (n := .int16) (i := 5) (by decide)))) .nil)⟩

omit hl in
theorem demoBad_shape :
    ¬ MessageShape demoProtocol "Ping" (.record [("stamp", .int 1), ("how", .int 5)]) := by
  rintro ⟨d, fs, hd, hn, e, hf⟩
  simp only [demoProtocol, List.mem_cons, List.not_mem_nil, or_false] at hd
  rcases hd with rfl | rfl | rfl
  · revert hn; decide
  · revert hn; decide
  · simp only [Val.record.injEq] at e
    subst e
    cases hf with
    | one _ _ hf =>
      cases hf with
      | one _ hx _ =>
        generalize ht : (⟨"how", "Kind", false⟩ : Variable).vartype = t at hx
        cases hx with
        | @num n _ _ => cases n <;> revert ht <;> decide
        | enum he hi =>
          simp only [demoProtocol, List.mem_cons, List.not_mem_nil, or_false] at he
          subst he
          revert hi
          simp

omit hl in
example (noRename : Bool) {b : Buf} {v : Val} {pos' : Nat}
    (hr : ((Language.go noRename).library demoProtocol).read "Ping" b 0 = .ok (v, pos')) :
    ∃ fs, v = .record fs ∧ List.Forall₂ (fun m f => f.1 = (Language.go noRename).rename m.name ∧
      DirectEnum demoProtocol m f.2) demoProtocol.messages[2].members fs :=
  C17_go_direct_enums_partial demo_loads noRename (d := demoProtocol.messages[2]) (by decide) hr

example (hn : ChecksEnums l) : ∃ e, (l.library demoProtocol).read "Ping"
    [1, 0, 0, 0, 0, 0, 0, 0, 5, 0, 77] 0 = .error e := by
  obtain ⟨e, h1, _⟩ := C17_undeclared_refused_partial demo_loads l (demo_supported hl) hn
    demoBad_raw demoBad_shape [] [77] (by cases l <;> simp [Language.limit])
  exact ⟨e, h1⟩

example (hn : ReportsInStreams l) (pre bs rest : List UInt8) (hst : Stream demoProtocol demoMessages bs)
    (hb : (pre ++ bs ++ 4 :: rest).length < l.limit) :
    ∃ e, (l.library demoProtocol).process (pre ++ bs ++ 4 :: rest) pre.length (-1) = .error e ∧
      (NeverCrashes l demoProtocol → (pre ++ bs ++ 4 :: rest).length < crashLimit l demoProtocol → e.reported = true) :=
  C21_unknown_partial demo_loads l (demo_supported hl) hn hst (demo_faithful l) pre rest (t := 4)
    (by decide) (by decide) hb (.inl (by decide))

/-- A stream with Ping's identifier and too few bytes after it. -/
example (hn : ReportsInStreams l) (bs : List UInt8) (hst : Stream demoProtocol demoMessages bs)
    (hb : (bs ++ [3, 254, 255, 255, 255, 255, 255, 255, 255, 2, 0]).length < l.limit) :
    ∃ e, (l.library demoProtocol).process (bs ++ [3, 254, 255, 255, 255, 255, 255, 255, 255, 2]) 0 (-1) =
      .error e := by
  obtain ⟨e, h1, _⟩ := C15_truncated_partial demo_loads l (demo_supported hl)
    (d := demoProtocol.messages[2]) (by decide) (demoPing_cuts hl) (v := demoPing) (pre := bs ++ [3])
    (bs := [254, 255, 255, 255, 255, 255, 255, 255, 2]) (cut := [0]) demoPing_enc (by decide)
    (by simpa using hb)
  have := C21_broken_partial demo_loads l (demo_supported hl) hn hst (demo_faithful l) []
    [254, 255, 255, 255, 255, 255, 255, 255, 2] (fun _ => rfl) (k := 2)
    (d := demoProtocol.messages[2]) rfl (by simp only [List.length_append, List.length_cons] at hb ⊢; simp at hb ⊢; omega)
    (max := -1) (.inl (by decide)) (e := e) (by simpa using h1)
  exact ⟨e, by simpa using this⟩

example (bs : List UInt8) (hb : bs.length < l.limit) (hle : l.least ≤ bs.length)
    (hp : bytes ((l.library demoProtocol).pack (seenAll l demoMessages)) = .ok bs) :
    ∃ pre rest, bs = pre ++ [0x42, 0x53, 0x43, 0x49] ++ littleEndian 4 3 ++ rest ∧ pre.length = 0 := by
  obtain ⟨bs', h1, h2⟩ := C22_pack_unpack_partial demo_loads l l (demo_supported hl) (demo_supported hl)
    demoMessages_messages (by decide) (demo_faithful l)
  rw [hp] at h1
  cases h1
  have h3 := h2 [] [] (by simpa using hb) hle
  obtain ⟨pre, rest, h4, h5, _⟩ := C24_unpack_checks_partial demo_loads l (demo_supported hl)
    (b := bs) (by simpa using hb) (by simpa using h3)
  exact ⟨pre, rest, h4, h5⟩

omit hl in
example (noRename : Bool) : ((Language.rust noRename).library demoProtocol).unpack [0x42, 0x53, 0x43] 0 =
    .error .eof := by cases noRename <;> rfl

omit hl in
example (noRename : Bool) : Fail.reported .eof = true :=
  C24_unpack_reports_partial demo_loads (.rust noRename) (demo_rust noRename) (by simp [UnpackNeverCrashes, demoProtocol])
    (b := [0x42, 0x53, 0x43]) (pos := 0) (Nat.zero_le _) (by simp [Language.limit]) (by cases noRename <;> rfl)

end
end Beschi.Props
