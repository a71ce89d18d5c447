import Verif.Props.Limits
/-
Property theorem C32: which types of lengths work in which language.
-/
namespace Beschi.Props
open Beschi Beschi.Spec Beschi.Lang

/-- The same protocol with other types for the lengths of lists and texts. -/
def withSizes (p : Protocol) (listSize stringSize : NumTy) : Protocol :=
  { p with listSize := listSize, stringSize := stringSize }

/-- The types of lengths that work in a language: all in Rust and Swift; in C#, lists must not have
64-bit unsigned lengths; in TypeScript and AssemblyScript no lengths may have 64 bits; in Zig both
types must be the same and unsigned; in C they must be the same if there are lists of texts, and with
64-bit lists every struct must have content; in Go with 64-bit unsigned lists all list elements must. -/
def SizesWork : Language → Protocol → NumTy → NumTy → Prop
  | .rust _, _, _, _ => True
  | .swift _, _, _, _ => True
  | .csharp _, _, ls, _ => ls ≠ .uint64
  | .typescript _, _, ls, ss => width ls ≠ 8 ∧ width ss ≠ 8
  | .assemblyscript _, _, ls, ss => width ls ≠ 8 ∧ width ss ≠ 8
  | .zig, _, ls, ss => ls = ss ∧ Unsigned ls
  | .c, p, ls, ss =>
    (ls ≠ ss → ∀ s ∈ p.structs ++ p.messages, ∀ m ∈ s.members, ¬ (m.isList = true ∧ m.vartype = "string")) ∧
    (ls = .uint64 ∨ ls = .int64 → ∀ s ∈ p.structs, Solid p s.name)
  | .go _, p, ls, _ => ls = .uint64 → ∀ s ∈ p.structs ++ p.messages, ∀ m ∈ s.members, m.isList = true →
    Solid p m.vartype

section
variable {p : Protocol} {ls ss : NumTy}

theorem loops_withSizes {ms : List Variable} {ns : List String} (h : Loops (withSizes p ls ss) ms ns) :
    Loops p ms ns := by
  induction h with
  | text a b c => exact .text a b c
  | last a b c d => exact .last a b c d
  | list a b c d _ ih => exact .list a b c d ih
  | member a b c d _ ih => exact .member a b c d ih

theorem solid_withSizes {t : String} (h : Solid p t) : Solid (withSizes p ls ss) t := by
  induction h with
  | num n => exact .num n
  | text => exact .text
  | enum a => exact .enum a
  | list a b c => exact .list (p := withSizes p ls ss) a b c
  | inside a b _ ih => exact .inside (p := withSizes p ls ss) a b ih

theorem varying_withSizes {t : String} (h : Varying p t) : Varying (withSizes p ls ss) t := by
  induction h with
  | text => exact .text
  | list a b c => exact .list (p := withSizes p ls ss) a b c
  | inside a b _ ih => exact .inside (p := withSizes p ls ss) a b ih

theorem varying_iff {t : String} : Varying (withSizes p ls ss) t ↔ Varying p t :=
  ⟨varying_withSizes (ls := p.listSize) (ss := p.stringSize), varying_withSizes⟩

theorem varyingBody_iff {ms : List Variable} : VaryingBody (withSizes p ls ss) ms ↔ VaryingBody p ms := by
  simp only [VaryingBody, varying_iff]

theorem solid_rename {f : String → String} {t : String} (h : Solid p t) : Solid (p.rename f) t := by
  induction h with
  | num n => exact .num n
  | text => exact .text
  | enum a => exact .enum (p := p.rename f) a
  | @list s m a b c =>
    exact .list (p := p.rename f) (s := s.rename f) (m := m.rename f) (List.mem_map_of_mem a)
      (List.mem_map_of_mem b) c
  | @inside s m a b _ ih =>
    exact .inside (p := p.rename f) (s := s.rename f) (m := m.rename f) (List.mem_map_of_mem a)
      (List.mem_map_of_mem b) ih

end

/-- Whether a language works for a protocol depends on the types of lengths only as the table says. -/
theorem supported_of_sizes {l : Language} {p : Protocol} {ls ss : NumTy} (h : l.Supported (withSizes p ls ss))
    (hw : SizesWork l p p.listSize p.stringSize) : l.Supported p := by
  cases l with
  | c =>
    have h : C.Supported (withSizes p ls ss) := h
    refine ⟨h.file, h.fields, h.order, fun s hs m hm h1 h2 => ?_, hw.2⟩
    by_cases e : p.listSize = p.stringSize
    · exact e
    · exact absurd ⟨h1, h2⟩ (hw.1 e s hs m hm)
  | csharp lossy =>
    have h : CSharp.Supported (withSizes p ls ss) := h
    exact ⟨h.distinct, h.outer, h.inner, h.texts, hw⟩
  | go b =>
    have h : Go.Supported (withSizes (p.rename (Go.namer b)) ls ss) := h
    refine ⟨h.package, h.distinct, h.locals, fun s hs hv => h.exported s hs fun x => hv (varying_iff.1 x),
      fun e s hs m hm hl => ?_⟩
    have hb : bodies (p.rename (Go.namer b)) = (bodies p).map (Struct.rename (Go.namer b)) := by
      simp [bodies, Protocol.rename]
    rw [hb] at hs
    obtain ⟨t, ht, rfl⟩ := List.mem_map.1 hs
    obtain ⟨v, hv, rfl⟩ := List.mem_map.1 hm
    exact solid_rename (hw e t ht v hv hl)
  | rust b =>
    have h : Rust.Supported (withSizes (p.rename (Rust.namer b)) ls ss) := h
    exact ⟨h.distinct, h.names, h.apart, h.lists⟩
  | swift mark =>
    have h : Swift.Supported (withSizes p ls ss) := h
    exact ⟨h.distinct, h.locals⟩
  | typescript lossy =>
    have h : TypeScript.Supported (withSizes p ls ss) := h
    exact ⟨h.distinct, h.locals,
      fun s hs ns hl => h.loops s hs ns (loops_withSizes (ls := p.listSize) (ss := p.stringSize) hl),
      by rw [← width_eq]; exact hw.1, by rw [← width_eq]; exact hw.2, h.builtin⟩
  | assemblyscript lossy =>
    have h : AssemblyScript.Supported (withSizes p ls ss) := h
    exact ⟨h.distinct, h.locals,
      fun s hs ns hl => h.loops s hs ns (loops_withSizes (ls := p.listSize) (ss := p.stringSize) hl),
      by rw [← width_eq]; exact hw.1, by rw [← width_eq]; exact hw.2, h.builtin, h.enums⟩
  | zig =>
    have h : Zig.Supported (withSizes p ls ss) := h
    exact ⟨h.messages, h.file, h.union, h.types, h.locals,
      fun s hs hv => h.flat s hs fun x => hv (varyingBody_iff.1 x),
      fun s hs hv => h.numbers s hs fun x => hv (varyingBody_iff.1 x), hw.1.symm, hw.1 ▸ hw.2⟩

/-- C32, as far as it holds: if the generated code works with the default types of lengths, it works
with every pair of types from the table: messages are written as specified and read back. -/
theorem C32_sizes_partial {data : Toml} {p : Protocol} (h : Loads data (.ok p)) (l : Language)
    (hd : l.Supported (withSizes p .uint16 .uint16)) (hw : SizesWork l p p.listSize p.stringSize)
    {m : String} {v : Val} {bs : List UInt8} (he : EncMsg p m v bs) (ht : Texts (l.Faithful p) v)
    (hl : bs.length < l.limit) :
    bytes ((l.library p).write m false (seen l v)) = .ok bs ∧
    (l.library p).read m bs 0 = .ok (seen l v, bs.length) := by
  have hu := usable_of_loads h
  have hs := supported_of_sizes hd hw
  refine ⟨bytes_of ((l.laws hu hs).write he), ?_⟩
  have := (l.laws hu hs).read he ht (b := [] ++ bs ++ []) (by simpa using hl) (at_mk [] bs [])
  simpa [seen] using this

/-- The demonstration protocol with other types of lengths. -/
example (lossy : List UInt8 → List UInt8) : (Language.typescript lossy).Supported
    (withSizes demoProtocol .int32 .byte) :=
  supported_of_sizes (p := withSizes demoProtocol .int32 .byte) (ls := demoProtocol.listSize)
    (ss := demoProtocol.stringSize) demo_typescript ⟨by decide, by decide⟩

/-- 64-bit lengths of texts and lists in Rust. -/
example (noRename : Bool) : ((Language.rust noRename).library wLong).read "M"
    [1, 0, 0, 0, 0, 0, 0, 0, 1, 0] 0 = .ok (seen (.rust noRename) (.record [("x", .list [.int 1])]), 10) :=
  (C32_sizes_partial (p := wLong) (data := description wLong) ⟨10, rfl⟩ (.rust noRename)
    (by
      have h : (Language.rust noRename).rename "x" = "x" := by cases noRename <;> decide
      have hb : bodies ((withSizes wLong .uint16 .uint16).rename (Rust.namer noRename)) =
          [⟨"M", [⟨"x", "uint16", true⟩], true⟩] := by
        rw [← h]; rfl
      exact ⟨by rw [NamesDistinct, hb]; decide, by rw [hb]; decide, by rw [hb]; simp, by rw [hb]; decide⟩)
    trivial (encMsg_of_encode (by decide)) (texts_true (fun _ => trivial) _) (by cases noRename <;> decide)).2

/-! ### The table cannot be extended -/

/-- A text, a list of numbers and a list of texts. -/
def wBoth (ls ss : NumTy) : Protocol :=
  single [⟨"x", "string", false⟩, ⟨"y", "uint16", true⟩, ⟨"z", "string", true⟩] (listSize := ls)
    (stringSize := ss)

/-- A message of this protocol. -/
def bothValue : Val := .record [("x", .str [65]), ("y", .list [.int 1]), ("z", .list [.str [66]])]

/-- Its bytes. -/
def bothBytes (ls ss : NumTy) : List UInt8 :=
  littleEndian (width ss) 1 ++ [65] ++ littleEndian (width ls) 1 ++ [1, 0] ++
    littleEndian (width ls) 1 ++ littleEndian (width ss) 1 ++ [66]

instance (n : NumTy) : Decidable (IntegerType n) := by unfold IntegerType; infer_instance

theorem both_accepted {ls ss : NumTy} (hl : IntegerType ls) (hs : IntegerType ss) : Accepted (wBoth ls ss) := by
  cases ls <;> first | exact absurd hl (by decide) | skip
  all_goals cases ss <;> first | exact absurd hs (by decide) | exact ⟨10, rfl⟩

theorem both_enc {ls ss : NumTy} (hl : IntegerType ls) (hs : IntegerType ss) :
    EncMsg (wBoth ls ss) "M" bothValue (bothBytes ls ss) := by
  cases ls <;> first | exact absurd hl (by decide) | skip
  all_goals cases ss <;> first | exact absurd hs (by decide) | exact encMsg_of_encode (by decide)

/-- What is wrong with writing, or with reading. -/
theorem both_fails {l : Language} {ls ss : NumTy} (hl : IntegerType ls) (hs : IntegerType ss)
    (h : bytes ((l.library (wBoth ls ss)).write "M" false (seen l bothValue)) ≠ .ok (bothBytes ls ss) ∨
      ((l.library (wBoth ls ss)).read "M" (bothBytes ls ss) 0).isOk = false) :
    ¬ (Writes l (wBoth ls ss) ∧ Reads l (wBoth ls ss)) := by
  rintro ⟨hw, hr⟩
  rcases h with h | h
  · exact h (hw _ _ _ (both_enc hl hs))
  · rw [hr _ _ _ (both_enc hl hs) (by
      cases ls <;> first | exact absurd hl (by decide) | skip
      all_goals cases ss <;> first | exact absurd hs (by decide) | decide)] at h
    cases h

theorem both_csharp (lossy : List UInt8 → List UInt8) (ss : NumTy) :
    (((Language.csharp lossy).library (wBoth .uint64 ss)).read "M" (bothBytes .uint64 ss) 0).isOk = false := by
  cases ss <;> rfl

theorem both_typescript (lossy : List UInt8 → List UInt8) {ls ss : NumTy} (hl : IntegerType ls)
    (hs : IntegerType ss) (h : ¬ (width ls ≠ 8 ∧ width ss ≠ 8)) :
    (((Language.typescript lossy).library (wBoth ls ss)).read "M" (bothBytes ls ss) 0).isOk = false := by
  cases ls <;> first | exact absurd hl (by decide) | skip
  all_goals cases ss <;>
    first | exact absurd hs (by decide) | exact absurd ⟨by decide, by decide⟩ h | rfl

theorem both_assemblyscript (lossy : List UInt8 → List UInt8) {ls ss : NumTy} (hl : IntegerType ls)
    (hs : IntegerType ss) (h : ¬ (width ls ≠ 8 ∧ width ss ≠ 8)) :
    (((Language.assemblyscript lossy).library (wBoth ls ss)).read "M" (bothBytes ls ss) 0).isOk = false := by
  cases ls <;> first | exact absurd hl (by decide) | skip
  all_goals cases ss <;>
    first | exact absurd hs (by decide) | exact absurd ⟨by decide, by decide⟩ h | rfl

theorem both_zig {ls ss : NumTy} (hl : IntegerType ls) (hs : IntegerType ss) (h : ¬ (ls = ss ∧ Unsigned ls)) :
    bytes ((Language.zig.library (wBoth ls ss)).write "M" false (seen .zig bothValue)) ≠
        .ok (bothBytes ls ss) ∨
      ((Language.zig.library (wBoth ls ss)).read "M" (bothBytes ls ss) 0).isOk = false := by
  cases ls <;> first | exact absurd hl (by decide) | skip
  all_goals cases ss <;> first
    | exact absurd hs (by decide)
    | exact .inr rfl
    | exact absurd ⟨rfl, by decide⟩ h
    | exact .inl (by decide)

theorem both_c {ls ss : NumTy} (h : ls ≠ ss) :
    ((Language.c.library (wBoth ls ss)).read "M" (bothBytes ls ss) 0).isOk = false := by
  have hc : C.fileOk (wBoth ls ss) = false := by
    have : C.lengthsOk (wBoth ls ss) ⟨"z", "string", true⟩ = false := by
      simp [C.lengthsOk, wBoth, single, h]
    simp [C.fileOk, wBoth, single] at this ⊢
    simp [this]
  rw [Language.library, C.library, hc]
  rfl

/-- C32: every pair of types that is not in the table fails for an accepted protocol. -/
theorem C32_table (l : Language) {ls ss : NumTy} (hl : IntegerType ls) (hs : IntegerType ss)
    (h : ¬ SizesWork l (wBoth ls ss) ls ss) :
    Accepted (wBoth ls ss) ∧ ¬ (Writes l (wBoth ls ss) ∧ Reads l (wBoth ls ss)) := by
  refine ⟨both_accepted hl hs, ?_⟩
  cases l with
  | rust b => exact absurd trivial h
  | swift mark => exact absurd trivial h
  | csharp lossy =>
    have : ls = .uint64 := by simpa [SizesWork] using h
    subst this
    exact both_fails hl hs (.inr (both_csharp lossy ss))
  | typescript lossy => exact both_fails hl hs (.inr (both_typescript lossy hl hs h))
  | assemblyscript lossy => exact both_fails hl hs (.inr (both_assemblyscript lossy hl hs h))
  | zig => exact both_fails hl hs (both_zig hl hs h)
  | go b =>
    refine absurd (fun _ s hs m hm _ => ?_) h
    simp only [wBoth, single, List.nil_append, List.mem_cons, List.not_mem_nil, or_false] at hs
    subst hs
    simp only [List.mem_cons, List.not_mem_nil, or_false] at hm
    rcases hm with rfl | rfl | rfl
    · exact .text
    · exact .num .uint16
    · exact .text
  | c =>
    by_cases e : ls = ss
    · exact absurd ⟨fun x => absurd e x, fun _ => nofun⟩ h
    · exact both_fails hl hs (.inr (both_c e))

example : ¬ SizesWork .zig (wBoth .uint16 .uint32) .uint16 .uint32 := fun h => nomatch h.1

end Beschi.Props
