import Verif.Spec.Cli
import Verif.Props.Described
import Verif.Props.Generated
/-
What the command line tool does: C35, C36, C49.
-/
namespace Beschi.Props
open Beschi Beschi.Spec Beschi.Text Beschi.Cli

theorem language_iff {n : String} {t : Target} : target? n = some t ↔ Language n t := by
  constructor
  · intro h
    unfold target? at h
    split at h <;> first
      | (cases h; constructor)
      | cases h
  · intro h; cases h <;> rfl

theorem given_cases (x : Option String) : (∃ s, x = some s ∧ s ≠ "" ∧ given x = some s) ∨
    ((x = none ∨ x = some "") ∧ given x = none) := by
  cases x with
  | none => exact .inr ⟨.inl rfl, rfl⟩
  | some s =>
    by_cases h : s = ""
    · subst h; exact .inr ⟨.inr rfl, rfl⟩
    · refine .inl ⟨s, rfl, h, ?_⟩
      have : s.length > 0 := by
        rcases Nat.eq_zero_or_pos s.length with h0 | h0
        · exact absurd (String.length_eq_zero_iff.1 h0) h
        · exact h0
      simp [given, this]

theorem given_eq {x : Option String} {y : Option String} : given x = y ↔
    (∃ s, x = some s ∧ s ≠ "" ∧ y = some s) ∨ ((x = none ∨ x = some "") ∧ y = none) := by
  constructor
  · rintro rfl; exact given_cases x
  · intro h
    rcases given_cases x with ⟨s, h1, h2, h3⟩ | ⟨h1, h3⟩ <;> rcases h with ⟨s', h4, h5, h6⟩ | ⟨h4, h6⟩
    · rw [h3, h6]; rw [h1] at h4; exact h4
    · rw [h1] at h4; rcases h4 with h4 | h4
      · cases h4
      · exact absurd (Option.some.inj h4) h2
    · rw [h4] at h1; rcases h1 with h1 | h1
      · cases h1
      · exact absurd (Option.some.inj h1) h5
    · rw [h3, h6]

theorem effective_iff {args : Args} {p q : Protocol} : Effective args p q ↔ q = override args p := by
  unfold Effective override
  rcases given_cases args.ns with ⟨s, h1, h2, h3⟩ | ⟨h1, h3⟩
  · rw [h3]
    constructor
    · rintro ⟨e, ⟨n, h4, _, h5⟩ | ⟨h4, _⟩⟩
      · rw [h1] at h4; cases h4; rw [e, h5]
      · rw [h1] at h4; rcases h4 with h4 | h4
        · cases h4
        · exact absurd (Option.some.inj h4) h2
    · rintro rfl; exact ⟨rfl, .inl ⟨s, h1, h2, rfl⟩⟩
  · rw [h3]
    constructor
    · rintro ⟨e, ⟨n, h4, h5, _⟩ | ⟨_, h4⟩⟩
      · rw [h4] at h1; rcases h1 with h1 | h1
        · cases h1
        · exact absurd (Option.some.inj h1) h5
      · rw [e, h4]
    · rintro rfl; exact ⟨rfl, .inr ⟨h1, rfl⟩⟩

/-- The options that count, for whatever language. -/
def requestedOptions (args : Args) (text : String) : Options where
  indent := given args.indent
  embed := if args.embedProtocol then some text else none
  goNoRename := args.goNoRename
  rustNoRename := args.rustNoRename
  typescriptUseNamespace := args.typescriptUseNamespace

theorem effectively_iff {args : Args} {text : String} {o : Options} :
    Effectively args text o ↔ o = requestedOptions args text := by
  constructor
  · rintro ⟨h1, h2, h3, h4, h5⟩
    have e1 := given_eq.2 h1
    obtain ⟨i, e, g, r, ts⟩ := o
    simp only at h1 h2 h3 h4 h5 e1
    subst h3 h4 h5 e1
    rcases h2 with ⟨h2, rfl⟩ | ⟨h2, rfl⟩ <;> simp [requestedOptions, h2]
  · rintro rfl
    refine ⟨given_cases _, ?_, rfl, rfl, rfl⟩
    cases h : args.embedProtocol <;> simp [requestedOptions, h]

/-- What a writer does with the protocol depends on what its constructor makes of the options. -/
theorem generate_congr {t : Target} {o o' : Options} (h : ∀ p, t.writer o p = t.writer o' p) (p : Protocol) :
    t.generate o p = t.generate o' p := by
  unfold Target.generate Target.outcome
  rw [h]

/-- The options that a writer gets: flags of other languages are not among them. -/
def ownOptions (t : Target) (args : Args) (text : String) : Options where
  indent := given args.indent
  embed := if args.embedProtocol then some text else none
  goNoRename := t = .go && args.goNoRename
  rustNoRename := t = .rust && args.rustNoRename
  typescriptUseNamespace := t = .typescript && args.typescriptUseNamespace

/-- Each constructor finds what it looks up. -/
theorem options_eq {lang : String} {t : Target} (h : Language lang t) (args : Args) (text : String) :
    options t (extraArgs args lang) args.indent text = .ok (ownOptions t args text) := by
  cases h <;> simp [extraArgs, kwargs, additional, options, arg, List.lookup, Kw.truthy, bind, Except.bind, pure,
    Except.pure, ownOptions]

/-- That is what was asked for. -/
theorem generate_own (t : Target) (args : Args) (text : String) (p : Protocol) :
    t.generate (ownOptions t args text) p = t.generate (requestedOptions args text) p := by
  refine generate_congr (fun p => ?_) p
  cases t <;> simp [Target.writer, ownOptions, requestedOptions]

/-! ### C35

The full statement: with failures the files are as before and the status is not 0; otherwise the status
is 0 and the file named, or the standard output, holds exactly the generated text.

Missing: if the generated text cannot be encoded, the output file has been emptied already
(`C35_fails_truncated`); and on the standard output the text is followed by a line break. -/

theorem print_cases (sys : System) (text : String) :
    (sys.encodeOut (text ++ "\n") = none ∧ Cli.print sys text = fail sys) ∨
    (∃ bytes, sys.encodeOut (text ++ "\n") = some bytes ∧ Cli.print sys text = ⟨0, bytes, sys.files⟩) := by
  unfold Cli.print
  cases h : sys.encodeOut (text ++ "\n") with
  | none => exact .inl ⟨rfl, rfl⟩
  | some bytes => exact .inr ⟨bytes, rfl, rfl⟩

theorem store_store {files : String → Option (List UInt8)} {path : String} {a b : List UInt8} :
    store (store files path a) path b = store files path b := by
  funext f
  unfold store
  split <;> rfl

theorem save_cases (sys : System) (path text : String) :
    (sys.writable path = false ∧ save sys path text = fail sys) ∨
    (sys.writable path = true ∧ sys.encode text = none ∧ save sys path text = ⟨1, [], store sys.files path []⟩) ∨
    (∃ bytes, sys.writable path = true ∧ sys.encode text = some bytes ∧
      save sys path text = ⟨0, [], store sys.files path bytes⟩) := by
  unfold save
  cases hw : sys.writable path with
  | false => exact .inl ⟨rfl, by simp⟩
  | true =>
    cases he : sys.encode text with
    | none => exact .inr (.inl ⟨rfl, rfl, by simp⟩)
    | some bytes => exact .inr (.inr ⟨bytes, rfl, rfl, by simp [store_store]⟩)

/-- What the tool does. -/
theorem ends_cases {sys : System} {args : Args} {e : Ending} (hv : args.version = false) (h : Ends sys args e) :
    (e = fail sys ∧ ¬ ∃ out, Requested sys args out) ∨
    (∃ out, Requested sys args out ∧ e = match args.output with
      | none => Cli.print sys out
      | some file => save sys file out) := by
  obtain ⟨fuel, h⟩ := h
  have no : ∀ {P : Prop}, (∀ out, Requested sys args out → P) → ¬ P → ¬ ∃ out, Requested sys args out :=
    fun h1 h2 ⟨out, h3⟩ => h2 (h1 out h3)
  unfold main at h
  rw [hv] at h
  simp only [Bool.false_eq_true, if_false] at h
  split at h
  · rename_i hp
    cases h
    refine .inl ⟨rfl, ?_⟩
    rintro ⟨out, text, data, p, q, lang, t, o, ⟨path, bytes, h1, _⟩, _⟩
    rw [hp] at h1; cases h1
  rename_i path hp
  split at h
  · rename_i hl
    cases h
    refine .inl ⟨rfl, ?_⟩
    rintro ⟨out, text, data, p, q, lang, t, o, _, _, _, h1, _⟩
    rw [hl] at h1; cases h1
  rename_i lang hl
  split at h
  · rename_i hf
    cases h
    refine .inl ⟨rfl, ?_⟩
    rintro ⟨out, text, data, p, q, lang, t, o, ⟨path', bytes, h1, h2, _⟩, _⟩
    rw [hp] at h1; cases h1; rw [hf] at h2; cases h2
  rename_i bytes hf
  split at h
  · rename_i hd
    cases h
    refine .inl ⟨rfl, ?_⟩
    rintro ⟨out, text, data, p, q, lang, t, o, ⟨path', bytes, h1, h2, h3⟩, _⟩
    rw [hp] at h1; cases h1; rw [hf] at h2; cases h2; rw [hd] at h3; cases h3
  rename_i text data hd
  have doc : ∀ {text' data'}, Document sys args text' data' → text' = text ∧ data' = data := by
    rintro text' data' ⟨path', bytes', h1, h2, h3⟩
    rw [hp] at h1; cases h1; rw [hf] at h2; cases h2; rw [hd] at h3; cases h3; exact ⟨rfl, rfl⟩
  split at h
  · cases h
  · rename_i err hload
    cases h
    refine .inl ⟨rfl, ?_⟩
    rintro ⟨out, text', data', p, q, lang, t, o, hdoc, h1, _⟩
    obtain ⟨rfl, rfl⟩ := doc hdoc
    have := loads_unique h1 ⟨fuel, hload⟩
    cases this
  rename_i p hload
  have hload : Loads data (.ok p) := ⟨fuel, hload⟩
  split at h
  · rename_i ht
    cases h
    refine .inl ⟨rfl, ?_⟩
    rintro ⟨out, text', data', p, q, lang', t, o, _, _, _, h1, h2, _⟩
    rw [hl] at h1; cases h1
    rw [language_iff.2 h2] at ht; cases ht
  rename_i t ht
  rw [options_eq (language_iff.1 ht) args text] at h
  simp only [generate_own] at h
  split at h
  · rename_i err hg
    cases h
    refine .inl ⟨rfl, ?_⟩
    rintro ⟨out, text', data', p', q, lang', t', o, hdoc, h1, h2, h3, h4, h5, h6⟩
    obtain ⟨rfl, rfl⟩ := doc hdoc
    have := loads_unique h1 hload
    cases this
    rw [hl] at h3; cases h3
    rw [language_iff.2 h4] at ht; cases ht
    rw [effective_iff.1 h2, effectively_iff.1 h5, hg] at h6
    cases h6
  rename_i out hg
  have hr : Requested sys args out :=
    ⟨text, data, p, _, lang, t, _, ⟨path, bytes, hp, hf, hd⟩, hload, effective_iff.2 rfl, hl, language_iff.1 ht,
      effectively_iff.2 rfl, hg⟩
  refine .inr ⟨out, hr, ?_⟩
  split at h
  · rename_i ho
    cases h; rw [ho]
  · rename_i file ho
    cases h; rw [ho]

/-- At most one text is requested. -/
theorem requested_unique {sys : System} {args : Args} {a b : String} (ha : Requested sys args a)
    (hb : Requested sys args b) : a = b := by
  obtain ⟨text, data, p, q, lang, t, o, ⟨path, bytes, h1, h2, h3⟩, h4, h5, h6, h7, h8, h9⟩ := ha
  obtain ⟨text', data', p', q', lang', t', o', ⟨path', bytes', k1, k2, k3⟩, k4, k5, k6, k7, k8, k9⟩ := hb
  rw [h1] at k1; cases k1
  rw [h2] at k2; cases k2
  rw [h3] at k3; cases k3
  have := loads_unique h4 k4
  cases this
  rw [h6] at k6; cases k6
  have h7 := language_iff.2 h7
  rw [language_iff.2 k7] at h7; cases h7
  rw [effective_iff.1 h5, effectively_iff.1 h8] at h9
  rw [effective_iff.1 k5, effectively_iff.1 k8, h9] at k9
  cases k9
  rfl

/-- If no text is requested, because an argument is missing, the file cannot be read, the protocol is not
accepted, the language is unknown or generation fails, then the status is 1, nothing is printed and all
files are as before. -/
theorem C35_failure {sys : System} {args : Args} {e : Ending} (hv : args.version = false) (h : Ends sys args e)
    (hr : ¬ ∃ out, Requested sys args out) : e.status = 1 ∧ e.stdout = [] ∧ e.files = sys.files := by
  rcases ends_cases hv h with ⟨rfl, _⟩ | ⟨out, h1, _⟩
  · exact ⟨rfl, rfl, rfl⟩
  · exact absurd ⟨out, h1⟩ hr

/-- If it has been asked to write into a file: either the file holds exactly the generated text, the other
files are as before and the status is 0, or the status is 1, and then the files are as before unless the
text cannot be encoded. -/
theorem C35_file_partial {sys : System} {args : Args} {e : Ending} (hv : args.version = false)
    (h : Ends sys args e) {out file : String} (hr : Requested sys args out) (ho : args.output = some file) :
    (∃ bytes, sys.encode out = some bytes ∧ e.status = 0 ∧ e.stdout = [] ∧ e.files file = some bytes ∧
      ∀ f, f ≠ file → e.files f = sys.files f) ∨
    (e.status = 1 ∧ e.stdout = [] ∧ sys.writable file = false ∧ e.files = sys.files) ∨
    (e.status = 1 ∧ e.stdout = [] ∧ sys.encode out = none ∧ ∀ f, f ≠ file → e.files f = sys.files f) := by
  rcases ends_cases hv h with ⟨_, h1⟩ | ⟨out', h1, h2⟩
  · exact absurd ⟨out, hr⟩ h1
  obtain rfl := requested_unique hr h1
  rw [ho] at h2
  simp only at h2
  rcases save_cases sys file out with ⟨h3, h4⟩ | ⟨h3, h4, h5⟩ | ⟨bytes, h3, h4, h5⟩
  · rw [h4] at h2; subst h2; exact .inr (.inl ⟨rfl, rfl, h3, rfl⟩)
  · rw [h5] at h2; subst h2
    exact .inr (.inr ⟨rfl, rfl, h4, fun f hf => by simp [store, hf]⟩)
  · rw [h5] at h2; subst h2
    exact .inl ⟨bytes, h4, rfl, rfl, by simp [store], fun f hf => by simp [store, hf]⟩

/-- If no file is given: the text and a line break are printed, and the status is 0; or they cannot be
encoded, and the status is 1.  No file changes. -/
theorem C35_stdout_partial {sys : System} {args : Args} {e : Ending} (hv : args.version = false)
    (h : Ends sys args e) {out : String} (hr : Requested sys args out) (ho : args.output = none) :
    e.files = sys.files ∧
      ((∃ bytes, sys.encodeOut (out ++ "\n") = some bytes ∧ e.status = 0 ∧ e.stdout = bytes) ∨
        (sys.encodeOut (out ++ "\n") = none ∧ e.status = 1 ∧ e.stdout = [])) := by
  rcases ends_cases hv h with ⟨_, h1⟩ | ⟨out', h1, h2⟩
  · exact absurd ⟨out, hr⟩ h1
  obtain rfl := requested_unique hr h1
  rw [ho] at h2
  simp only at h2
  rcases print_cases sys out with ⟨h3, h4⟩ | ⟨bytes, h3, h4⟩
  · rw [h4] at h2; subst h2; exact ⟨rfl, .inr ⟨h3, rfl, rfl⟩⟩
  · rw [h4] at h2; subst h2; exact ⟨rfl, .inl ⟨bytes, h3, rfl, rfl⟩⟩

/-- So status 0 means that a text was requested and delivered. -/
theorem C35_success {sys : System} {args : Args} {e : Ending} (hv : args.version = false) (h : Ends sys args e)
    (hs : e.status = 0) : ∃ out, Requested sys args out ∧
      match args.output with
      | none => sys.encodeOut (out ++ "\n") = some e.stdout ∧ e.files = sys.files
      | some file => ∃ bytes, sys.encode out = some bytes ∧ e.files file = some bytes ∧
          ∀ f, f ≠ file → e.files f = sys.files f := by
  by_cases hr : ∃ out, Requested sys args out
  · obtain ⟨out, hr⟩ := hr
    refine ⟨out, hr, ?_⟩
    split
    · rename_i ho
      obtain ⟨h1, ⟨bytes, h2, _, h3⟩ | ⟨_, h2, _⟩⟩ := C35_stdout_partial hv h hr ho
      · exact ⟨by rw [h3]; exact h2, h1⟩
      · omega
    · rename_i file ho
      rcases C35_file_partial hv h hr ho with ⟨bytes, h1, _, _, h2, h3⟩ | ⟨h1, _⟩ | ⟨h1, _⟩
      · exact ⟨bytes, h1, h2, h3⟩
      · omega
      · omega
  · have := (C35_failure hv h hr).1
    omega

/-- With `--version` no file changes. -/
theorem C35_version {sys : System} {args : Args} {e : Ending} (hv : args.version = true) (h : Ends sys args e) :
    e.files = sys.files := by
  obtain ⟨fuel, h⟩ := h
  unfold main at h
  rw [if_pos hv] at h
  cases h
  rcases print_cases sys versionString with ⟨_, h⟩ | ⟨b, _, h⟩ <;> rw [h]; rfl

/-- The tool ends unless all arguments are there, the file can be read, and loading it does not end. -/
theorem C35_ends {sys : System} {args : Args} :
    (∃ e, Ends sys args e) ↔ ¬ (args.version = false ∧ (∃ lang, args.lang = some lang) ∧
      ∃ text data, Document sys args text data ∧ Diverges data) := by
  constructor
  · rintro ⟨e, fuel, h⟩ ⟨hv, ⟨lang, hl⟩, text, data, ⟨path, bytes, h1, h2, h3⟩, hd⟩
    unfold main at h
    rw [hv, h1] at h
    simp only [Bool.false_eq_true, if_false] at h
    rw [hl] at h
    simp only at h
    rw [h2] at h
    simp only at h
    rw [h3] at h
    simp only at h
    rw [hd fuel] at h
    cases h
  · intro hn
    by_contra hno
    have none : ∀ fuel, main fuel sys args = none := by
      intro fuel
      cases h : main fuel sys args with
      | none => rfl
      | some e => exact absurd ⟨e, fuel, h⟩ hno
    apply hn
    have h0 := none 0
    unfold main at h0
    split at h0
    · cases h0
    rename_i hv
    split at h0
    · cases h0
    rename_i path hp
    split at h0
    · cases h0
    rename_i lang hl
    split at h0
    · cases h0
    rename_i bytes hf
    split at h0
    · cases h0
    rename_i text data hd
    refine ⟨by simpa using hv, ⟨lang, hl⟩, text, data, ⟨path, bytes, hp, hf, hd⟩, ?_⟩
    intro fuel
    have h := none fuel
    unfold main at h
    rw [if_neg hv, hp] at h
    simp only at h
    rw [hl] at h
    simp only at h
    rw [hf] at h
    simp only at h
    rw [hd] at h
    simp only at h
    cases hload : load fuel data with
    | none => rfl
    | some r =>
      rw [hload] at h
      rcases r with err | p
      · cases h
      · simp only at h
        split at h
        · cases h
        split at h
        · cases h
        split at h
        · cases h
        split at h <;> cases h

theorem containsPlus_ns {p : Protocol} {n : Option Toml} {a b : String}
    (h : ContainsPlus { p with ns := n } a b) : ContainsPlus p a b := by
  induction h with
  | one h => exact .one h
  | more h _ ih => exact .more h ih

/-- The rules for what can be generated do not concern the namespace. -/
theorem usable_ns {p : Protocol} (h : Usable p) (n : Option Toml) : Usable { p with ns := n } :=
  ⟨h.structsDistinct, h.messagesDistinct, h.enumsDistinct, h.structMessage, h.structEnum, h.messageEnum,
    h.notBuiltin, h.types, h.enums, h.messageCount, h.listSize, h.stringSize,
    fun a ha => h.acyclic a (containsPlus_ns ha), h.structFlag, h.messageFlag⟩

/-- Generation does not fail: a text is requested as soon as the protocol is accepted, its namespace is
text (or another one is given) and the language is known. -/
theorem C35_generates {sys : System} {args : Args} {text : String} {data : Toml} {p : Protocol} {lang : String}
    {t : Target} (hd : Document sys args text data) (hl : Loads data (.ok p))
    (hns : TextualNamespace p ∨ ∃ n, args.ns = some n ∧ n ≠ "") (ha : args.lang = some lang)
    (ht : Language lang t) : ∃ out, Requested sys args out := by
  have hq : TextualNamespace (override args p) := by
    have := effective_iff.2 (rfl : override args p = override args p)
    obtain ⟨_, ⟨n, _, _, h⟩ | ⟨h1, h2⟩⟩ := this
    · exact .inr ⟨n, h⟩
    · rcases hns with h | ⟨n, h3, h4⟩
      · unfold TextualNamespace; rw [h2]; exact h
      · rw [h3] at h1; rcases h1 with h1 | h1
        · cases h1
        · exact absurd (Option.some.inj h1) h4
  have hu : Usable (override args p) := by
    unfold override
    split
    · exact usable_of_loads hl
    · exact usable_ns (usable_of_loads hl) _
  obtain ⟨out, h1, _⟩ := outcome_spec (b := false) (o := requestedOptions args text) t hu
    ⟨fun _ _ => .off, fun _ _ _ _ => .off, fun _ _ => .off, fun _ _ _ _ => .off, fun _ _ => .off⟩
    ⟨fun _ _ => .off, fun _ _ => .off⟩ hq
  have hg : ∃ s, t.generate (requestedOptions args text) (override args p) = .ok s := by
    unfold Target.generate
    rw [h1]
    exact ⟨_, rfl⟩
  obtain ⟨s, hs⟩ := hg
  exact ⟨s, text, data, p, _, lang, t, _, hd, hl, effective_iff.2 rfl, ha, ht, effectively_iff.2 rfl, hs⟩

/-- If the generated text cannot be encoded, the output file is empty afterwards, whatever it held. -/
theorem C35_truncated {sys : System} {args : Args} {e : Ending} (hv : args.version = false)
    (h : Ends sys args e) {out file : String} (hr : Requested sys args out) (ho : args.output = some file)
    (hw : sys.writable file = true) (he : sys.encode out = none) : e.status = 1 ∧ e.files file = some [] := by
  rcases ends_cases hv h with ⟨_, h1⟩ | ⟨out', h1, h2⟩
  · exact absurd ⟨out, hr⟩ h1
  obtain rfl := requested_unique hr h1
  rw [ho] at h2
  simp only at h2
  rcases save_cases sys file out with ⟨h3, h4⟩ | ⟨h3, h4, h5⟩ | ⟨bytes, h3, h4, h5⟩
  · rw [hw] at h3; cases h3
  · rw [h5] at h2; subst h2
    exact ⟨rfl, by simp [store]⟩
  · rw [he] at h4; cases h4

/-- A directory with one description and an older output. -/
def demoSystem (encode : String → Option (List UInt8)) : System where
  files := fun f => if f = "p.toml" then some [35] else if f = "out.txt" then some [1, 2, 3] else none
  parse := fun b => if b = [35] then some ("#", demoDoc) else none
  writable := fun f => f == "out.txt"
  encode := encode
  encodeOut := encode

/-- `beschi -p p.toml -l go -o out.txt` -/
def demoArgs : Args where
  protocol := some "p.toml"
  lang := some "go"
  output := some "out.txt"

theorem demo_document (encode : String → Option (List UInt8)) (n : Option String) :
    Document (demoSystem encode) { demoArgs with ns := n } "#" demoDoc :=
  ⟨"p.toml", [35], rfl, rfl, rfl⟩

theorem demo_requested (encode : String → Option (List UInt8)) (n : Option String) :
    ∃ out, Requested (demoSystem encode) { demoArgs with ns := n } out :=
  C35_generates (demo_document encode n) demo_loads (.inl (.inr ⟨_, rfl⟩)) rfl .go

theorem demo_ends (encode : String → Option (List UInt8)) (n : Option String) :
    ∃ e, Ends (demoSystem encode) { demoArgs with ns := n } e := by
  refine C35_ends.2 ?_
  rintro ⟨_, _, text, data, ⟨path, bytes, h1, h2, h3⟩, hd⟩
  cases h1; cases h2; cases h3
  exact diverges_iff.1 hd ⟨_, demo_loads⟩

/-- C35 fails: there is a run with status 1 that destroys what the output file held. -/
theorem C35_fails_truncated : ∃ sys args e file, args.version = false ∧ Ends sys args e ∧
    args.output = some file ∧ e.status = 1 ∧ sys.files file = some [1, 2, 3] ∧ e.files file = some [] := by
  obtain ⟨out, hr⟩ := demo_requested (fun _ => none) none
  obtain ⟨e, he⟩ := demo_ends (fun _ => none) none
  obtain ⟨h1, h2⟩ := C35_truncated rfl he hr rfl rfl rfl
  exact ⟨_, _, e, "out.txt", rfl, he, rfl, h1, rfl, h2⟩

/-- With a working encoding there is a run that ends well. -/
example : ∃ out e, Ends (demoSystem fun s => some s.toUTF8.toList) demoArgs e ∧ e.status = 0 ∧
    e.files "out.txt" = some out := by
  obtain ⟨out, hr⟩ := demo_requested (fun s => some s.toUTF8.toList) none
  obtain ⟨e, he⟩ := demo_ends (fun s => some s.toUTF8.toList) none
  rcases C35_file_partial rfl he hr rfl with ⟨bytes, _, h1, _, h2, _⟩ | ⟨_, _, h, _⟩ | ⟨_, _, h, _⟩
  · exact ⟨bytes, e, he, h1, h2⟩
  · cases h
  · cases h

/-- Without a language nothing is requested. -/
example : ∃ e, Ends (demoSystem fun s => some s.toUTF8.toList) { demoArgs with lang := none } e ∧
    e.status = 1 ∧ e.files "out.txt" = some [1, 2, 3] := by
  have h : Ends (demoSystem fun s => some s.toUTF8.toList) { demoArgs with lang := none } (fail _) := ⟨0, rfl⟩
  obtain ⟨h1, _, h2⟩ := C35_failure rfl h (by
    rintro ⟨_, _, _, _, _, _, _, _, _, _, _, h, _⟩
    cases h)
  exact ⟨_, h, h1, by rw [h2]; rfl⟩

/-! ### C36

The full statement: a namespace given as an argument is accepted exactly if a file with that namespace
would be.  It is false: the argument is not checked.  A namespace without whitespace does act like one in
the file. -/

/-- A namespace with whitespace in a file is never accepted. -/
theorem C36_file {data : Toml} {p : Protocol} {n : String} (h : Loads data (.ok p)) (hn : ¬ NoSpace n) :
    p.ns ≠ some (.str n) := fun e => hn (C01_namespace h n e)

/-- As an argument any text is accepted, and used. -/
theorem C36_unvalidated {sys : System} {args : Args} {text : String} {data : Toml} {p : Protocol}
    {lang n : String} {t : Target} (hd : Document sys args text data) (hl : Loads data (.ok p))
    (ha : args.lang = some lang) (ht : Language lang t) (hn : args.ns = some n) (hne : n ≠ "") :
    ∃ o out, Effectively args text o ∧ t.generate o { p with ns := some (.str n) } = .ok out ∧
      Requested sys args out := by
  obtain ⟨out, hr⟩ := C35_generates hd hl (.inr ⟨n, hn, hne⟩) ha ht
  refine ⟨_, out, effectively_iff.2 rfl, ?_, hr⟩
  obtain ⟨text', data', p', q, lang', t', o, ⟨path, bytes, h1, h2, h3⟩, h4, h5, h6, h7, h8, h9⟩ := hr
  obtain ⟨path', bytes', k1, k2, k3⟩ := hd
  rw [k1] at h1; cases h1
  rw [k2] at h2; cases h2
  rw [k3] at h3; cases h3
  have := loads_unique hl h4
  cases this
  rw [ha] at h6; cases h6
  have h7 := language_iff.2 h7
  rw [language_iff.2 ht] at h7; cases h7
  rw [← effectively_iff.1 h8, ← h9]
  congr 1
  obtain ⟨e, ⟨m, h, _, h'⟩ | ⟨h | h, _⟩⟩ := h5
  · rw [hn] at h; cases h; rw [e, h']
  · rw [hn] at h; cases h
  · rw [hn] at h; exact absurd (Option.some.inj h) hne

/-- C36 fails: no file can have this namespace, but as an argument it leads to an output. -/
theorem C36_fails : ∃ sys args e n, args.ns = some n ∧ Ends sys args e ∧ e.status = 0 ∧
    ¬ ∃ data p, Loads data (.ok p) ∧ p.ns = some (.str n) := by
  obtain ⟨out, hr⟩ := demo_requested (fun s => some s.toUTF8.toList) (some "a b")
  obtain ⟨e, he⟩ := demo_ends (fun s => some s.toUTF8.toList) (some "a b")
  refine ⟨_, _, e, "a b", rfl, he, ?_, ?_⟩
  · rcases C35_file_partial rfl he hr rfl with ⟨bytes, _, h1, _⟩ | ⟨_, _, h, _⟩ | ⟨_, _, h, _⟩
    · exact h1
    · cases h
    · cases h
  · rintro ⟨data, p, h, hp⟩
    refine C36_file h ?_ hp
    intro hs
    exact hs ' ' (by decide) (by decide)

/-- If the namespace has no whitespace, a file that differs in its namespace only is accepted, too. -/
theorem C36_same_file_partial {data : Toml} {p : Protocol} {n : String} {kvs : List (String × Toml)}
    (hl : Loads data (.ok p)) (hn : NoSpace n) (hs : Shaped kvs)
    (hd : Described kvs { p with ns := some (.str n) }) :
    Loads (.table kvs) (.ok { p with ns := some (.str n) }) := by
  obtain ⟨_, rfl, _⟩ := C39_described hl
  have h := C01_accepted_wellFormed hl
  refine (C39_accepted_iff hs).2 ⟨hd, ?_, fun a ha => C03_accepted_acyclic hl a (containsPlus_ns ha), ?_, ?_⟩
  · exact { h with bodies := fun s hs => { h.bodies s hs with } }
  · intro s e
    cases e
    exact hn
  · exact fun e he => C05_narrowest hl he

/-- If the namespace has no whitespace, giving it as an argument and having it in the file lead to the same
text. -/
theorem C36_same_partial {sys sys' : System} {args : Args} {text text' : String} {data : Toml} {p : Protocol}
    {n : String} {kvs : List (String × Toml)} (hd : Document sys args text data) (hl : Loads data (.ok p))
    (hn : NoSpace n) (hne : n ≠ "") (ha : args.ns = some n) (hd' : Document sys' args text' (.table kvs))
    (hs : Shaped kvs) (hdesc : Described kvs { p with ns := some (.str n) })
    (he : args.embedProtocol = false) (out : String) :
    Requested sys args out ↔ Requested sys' { args with ns := none } out := by
  have hl' := C36_same_file_partial hl hn hs hdesc
  have doc : ∀ {sys : System} {args : Args} {t t' : String} {d d' : Toml}, Document sys args t d →
      Document sys args t' d' → t = t' ∧ d = d' := by
    rintro sys args t t' d d' ⟨path, bytes, h1, h2, h3⟩ ⟨path', bytes', k1, k2, k3⟩
    rw [h1] at k1; cases k1
    rw [h2] at k2; cases k2
    rw [h3] at k3; cases k3
    exact ⟨rfl, rfl⟩
  have opt : ∀ t, requestedOptions args t = requestedOptions { args with ns := none } text' := by
    intro t
    simp [requestedOptions, he]
  have opt' : ∀ t, requestedOptions { args with ns := none } t = requestedOptions args text := by
    intro t
    simp [requestedOptions, he]
  have ov : override args p = { p with ns := some (.str n) } := by
    rcases given_cases args.ns with ⟨s, h1, h2, h3⟩ | ⟨h1 | h1, _⟩
    · rw [ha] at h1; cases h1; simp [override, h3]
    · rw [ha] at h1; cases h1
    · rw [ha] at h1; exact absurd (Option.some.inj h1) hne
  constructor
  · rintro ⟨t, d, p', q, lang, tg, o, h1, h2, h3, h4, h5, h6, h7⟩
    obtain ⟨rfl, rfl⟩ := doc h1 hd
    have := loads_unique hl h2
    cases this
    obtain rfl := effective_iff.1 h3
    obtain rfl := effectively_iff.1 h6
    exact ⟨text', _, _, _, lang, tg, _, hd', hl', effective_iff.2 rfl, h4, h5, effectively_iff.2 rfl, by
      rw [← opt t, ← h7, ov]; rfl⟩
  · rintro ⟨t, d, p', q, lang, tg, o, h1, h2, h3, h4, h5, h6, h7⟩
    obtain ⟨rfl, rfl⟩ := doc (args := { args with ns := none }) h1 hd'
    have := loads_unique hl' h2
    cases this
    obtain rfl := effective_iff.1 h3
    obtain rfl := effectively_iff.1 h6
    exact ⟨text, _, _, _, lang, tg, _, hd, hl, effective_iff.2 rfl, h4, h5, effectively_iff.2 rfl, by
      rw [← opt' t, ← h7, ov]; rfl⟩

/-- `bareDoc` with a namespace. -/
def spacedDoc : List (String × Toml) := ("meta", .table [("namespace", .str "space")]) :: bareDoc

/-- A directory with one description. -/
def bareSystem (data : Toml) : System where
  files := fun f => if f = "p.toml" then some [35] else none
  parse := fun _ => some ("#", data)
  writable := fun _ => true
  encode := fun s => some s.toUTF8.toList
  encodeOut := fun s => some s.toUTF8.toList

example (out : String) : Requested (bareSystem (.table bareDoc)) { demoArgs with ns := some "space" } out ↔
    Requested (bareSystem (.table spacedDoc)) demoArgs out := by
  have h1 : Loads (.table bareDoc) (.ok { messages := [⟨"Ping", [⟨"at", "double", true⟩], true⟩] }) := ⟨3, rfl⟩
  have h2 : Loads (.table spacedDoc)
      (.ok { ns := some (.str "space"), messages := [⟨"Ping", [⟨"at", "double", true⟩], true⟩] }) := ⟨3, rfl⟩
  obtain ⟨_, e, h3⟩ := C39_described h2
  cases e
  refine C36_same_partial (args := { demoArgs with ns := some "space" }) (text := "#") (text' := "#")
    ⟨"p.toml", [35], rfl, rfl, rfl⟩ h1 (n := "space") ?_ (by decide) rfl ⟨"p.toml", [35], rfl, rfl, rfl⟩ ?_ h3 rfl out
  · intro c hc
    revert c
    decide
  · refine ⟨?_, .inr ⟨_, rfl⟩, .inr ⟨_, rfl⟩, by decide⟩
    intro key hk
    simp only [List.mem_cons, List.not_mem_nil, or_false] at hk
    rcases hk with rfl | rfl | rfl
    · exact .inl rfl
    · exact .inr ⟨_, rfl⟩
    · exact .inl rfl

/-! ### C49: options of other languages -/

/-- The arguments are the same but for flags that are documented for languages other than `t`. -/
structure SameFor (t : Target) (a b : Args) : Prop where
  version : a.version = b.version
  lang : a.lang = b.lang
  output : a.output = b.output
  protocol : a.protocol = b.protocol
  ns : a.ns = b.ns
  indent : a.indent = b.indent
  embedProtocol : a.embedProtocol = b.embedProtocol
  go : t = .go → a.goNoRename = b.goNoRename
  rust : t = .rust → a.rustNoRename = b.rustNoRename
  typescript : t = .typescript → a.typescriptUseNamespace = b.typescriptUseNamespace

/-- C49: flags for other languages than the one asked for change nothing: neither the files nor what is
printed nor the exit status. -/
theorem C49_foreign_flags {sys : System} {a b : Args} {lang : String} {t : Target} (hl : a.lang = some lang)
    (ht : Language lang t) (h : SameFor t a b) (e : Ending) : Ends sys a e ↔ Ends sys b e := by
  have ho : ∀ text, options t (extraArgs a lang) a.indent text = options t (extraArgs b lang) b.indent text := by
    intro text
    rw [options_eq ht, options_eq ht]
    unfold ownOptions
    rw [h.indent, h.embedProtocol]
    congr 2
    · by_cases e : t = .go
      · rw [h.go e]
      · simp [e]
    · by_cases e : t = .rust
      · rw [h.rust e]
      · simp [e]
    · by_cases e : t = .typescript
      · rw [h.typescript e]
      · simp [e]
  have hv : ∀ p, override a p = override b p := by
    intro p
    unfold override
    rw [h.ns]
  have hm : ∀ fuel, main fuel sys a = main fuel sys b := by
    intro fuel
    unfold main
    rw [h.version, h.protocol, ← h.lang, hl, h.output]
    simp only [language_iff.2 ht, ho, hv]
  unfold Ends
  simp only [hm]

/-- C49: and the text requested is the same. -/
theorem C49_same_text {sys : System} {a b : Args} {lang : String} {t : Target} (hl : a.lang = some lang)
    (ht : Language lang t) (h : SameFor t a b) (out : String) : Requested sys a out ↔ Requested sys b out := by
  have one : ∀ {a b : Args}, a.lang = some lang → SameFor t a b → Requested sys a out → Requested sys b out := by
    rintro a b hl h ⟨text, data, p, q, lang', t', o, ⟨path, bytes, h1, h2, h3⟩, h4, h5, h6, h7, h8, h9⟩
    rw [hl] at h6
    cases h6
    have e := language_iff.2 ht
    rw [language_iff.2 h7] at e
    cases e
    refine ⟨text, data, p, q, lang, t, requestedOptions b text, ⟨path, bytes, h.protocol ▸ h1, h2, h3⟩, h4, ?_,
      h.lang ▸ hl, ht, effectively_iff.2 rfl, ?_⟩
    · rw [effective_iff] at h5 ⊢
      rw [h5]
      unfold override
      rw [h.ns]
    · rw [effectively_iff.1 h8, ← generate_own] at h9
      rw [← generate_own, ← h9]
      congr 1
      unfold ownOptions
      rw [h.indent, h.embedProtocol]
      congr 1
      · by_cases e : t = .go
        · rw [h.go e]
        · simp [e]
      · by_cases e : t = .rust
        · rw [h.rust e]
        · simp [e]
      · by_cases e : t = .typescript
        · rw [h.typescript e]
        · simp [e]
  exact ⟨one hl h, one (h.lang ▸ hl) ⟨h.version.symm, h.lang.symm, h.output.symm, h.protocol.symm, h.ns.symm,
    h.indent.symm, h.embedProtocol.symm, fun e => (h.go e).symm, fun e => (h.rust e).symm,
    fun e => (h.typescript e).symm⟩⟩

example (sys : System) (e : Ending) : Ends sys demoArgs e ↔
    Ends sys { demoArgs with rustNoRename := true, typescriptUseNamespace := true } e :=
  C49_foreign_flags (a := demoArgs) (b := { demoArgs with rustNoRename := true, typescriptUseNamespace := true })
    (lang := "go") rfl .go
    ⟨rfl, rfl, rfl, rfl, rfl, rfl, rfl, fun _ => rfl, nofun, nofun⟩ e

example (sys : System) (out : String) : Requested sys demoArgs out ↔
    Requested sys { demoArgs with rustNoRename := true } out :=
  C49_same_text (a := demoArgs) (b := { demoArgs with rustNoRename := true }) (lang := "go") rfl .go ⟨rfl, rfl, rfl, rfl, rfl, rfl, rfl, fun _ => rfl, nofun, nofun⟩ out

end Beschi.Props
