import Verif.Text.GenerateProof
import Verif.Text.IndentProof
import Verif.Props.Demo
/-
What is known of the generated text: it is complete, its blocks are balanced (C38), and indentation can
be replaced (C37).
-/
namespace Beschi.Props
open Beschi Beschi.Spec Beschi.Text

/-! ### C38: balanced blocks

The full statement: for every accepted protocol, every language and all options, `generate` ends without
an exception at indentation level 0, and the brackets in the generated text match.

Missing in the theorems: protocols whose namespace is an array or a table, which the loader also accepts
(what Python makes of them in the text is not modelled); and names with brackets that do not match, for
which the claim is false. -/

/-- The namespace is missing or a text. -/
def TextualNamespace (p : Protocol) : Prop := p.ns = none ∨ ∃ n, p.ns = some (.str n)

/-- `generate` ends at level 0: neither `assert self.indent_level == 0` nor anything else raises. -/
theorem C38_level_partial {data : Toml} {p : Protocol} (h : Loads data (.ok p)) (hns : TextualNamespace p)
    (t : Target) (o : Options) : ∃ out, t.outcome o p = .ok out ∧ out.indent = 0 := by
  obtain ⟨out, h1, h2, _⟩ := outcome_spec (b := false) (o := o) t (usable_of_loads h)
    ⟨fun _ _ => .off, fun _ _ _ _ => .off, fun _ _ => .off, fun _ _ _ _ => .off, fun _ _ => .off⟩
    ⟨fun _ _ => .off, fun _ _ => .off⟩ hns
  exact ⟨out, h1, h2⟩

example (t : Target) : ∃ out, t.outcome {} demoProtocol = .ok out ∧ out.indent = 0 :=
  C38_level_partial demo_loads (.inr ⟨"Demo", rfl⟩) t {}

/-- The brackets in the generated text match if they match in each name, in the indentation given and
in the text embedded. -/
theorem C38_matched_partial {data : Toml} {p : Protocol} (h : Loads data (.ok p)) (hns : TextualNamespace p)
    (hn : ∀ n, NameIn p n → Matched n.toList) (t : Target) (o : Options)
    (hi : ∀ s, o.indent = some s → Matched s.toList) (he : ∀ s, o.embed = some s → Matched s.toList) :
    ∃ text, t.generate o p = .ok text ∧ Matched text.toList := by
  have hc : ∀ n, NameIn p n → Closed true n := fun n h => closed_of_matched (hn n h)
  obtain ⟨out, h1, _, h3⟩ := outcome_spec (b := true) (o := o) t (usable_of_loads h)
    ⟨fun s hs => (List.mem_append.1 hs).elim (fun h => hc _ (.struct h)) (fun h => hc _ (.message h)),
      fun s hs v hv => hc _ (.member (List.mem_append.1 hs) hv), fun e he => hc _ (.enum he),
      fun e he x hx => hc _ (.value (i := x.2) he hx), fun s hs => hc _ (.ns hs)⟩
    ⟨fun s hs => closed_of_matched (hi s hs), fun s hs => closed_of_matched (he s hs)⟩ hns
  exact ⟨_, by unfold Target.generate; rw [h1]; rfl, h3.matched⟩

/-- Names without brackets are such names. -/
theorem matched_of_noBrackets {s : String} (h : NoBrackets s) : Matched s.toList :=
  matched_of_scan (scan_noBrackets h [])

theorem demo_names : ∀ n, NameIn demoProtocol n → Matched n.toList := by
  have h1 : ∀ s ∈ demoProtocol.structs, scan [] s.name.toList = some [] := by decide
  have h2 : ∀ s ∈ demoProtocol.messages, scan [] s.name.toList = some [] := by decide
  have h3 : ∀ s ∈ demoProtocol.structs, ∀ v ∈ s.members, scan [] v.name.toList = some [] := by decide
  have h4 : ∀ s ∈ demoProtocol.messages, ∀ v ∈ s.members, scan [] v.name.toList = some [] := by decide
  have h5 : ∀ e ∈ demoProtocol.enums, scan [] e.name.toList = some [] := by decide
  have h6 : ∀ e ∈ demoProtocol.enums, ∀ x ∈ e.values, scan [] x.1.toList = some [] := by decide
  intro n hn
  refine matched_of_scan ?_
  cases hn with
  | struct h => exact h1 _ h
  | message h => exact h2 _ h
  | member hs hv => exact hs.elim (fun hs => h3 _ hs _ hv) (fun hs => h4 _ hs _ hv)
  | enum h => exact h5 _ h
  | value h hx => exact h6 _ h _ hx
  | ns h => cases h; decide

example (t : Target) : ∃ text, t.generate { indent := some "  ", embed := some "a = [1]\n" } demoProtocol = .ok text ∧
    Matched text.toList :=
  C38_matched_partial demo_loads (.inr ⟨"Demo", rfl⟩) demo_names t _
    (fun s hs => by cases hs; exact matched_of_scan (by decide))
    (fun s hs => by cases hs; exact matched_of_scan (by decide))

/-- A message whose name contains a bracket. -/
def bracketDoc : Toml := .table [("messages", .arr [.table [("_name", .str "M(")]])]

/-- What it loads to. -/
def bracketProtocol : Protocol where
  ns := none
  listSize := .uint32
  stringSize := .uint32
  structs := []
  messages := [⟨"M(", [], true⟩]
  enums := []

theorem bracket_loads : Loads bracketDoc (.ok bracketProtocol) := ⟨10, rfl⟩

theorem not_matched {t : Target} {o : Options} {p : Protocol}
    (h : (match t.outcome o p with
      | .ok out => scan [] (out.lines.flatMap (·.toList)) != some []
      | .error _ => false) = true) : ¬ ∃ text, t.generate o p = .ok text ∧ Matched text.toList := by
  rintro ⟨text, h1, h2⟩
  unfold Target.generate at h1
  cases ho : t.outcome o p with
  | error e => rw [ho] at h; cases h
  | ok out =>
    rw [ho] at h h1
    have h1 : "\n".intercalate out.lines = text := by simpa [Except.map] using h1
    subst h1
    have := scan_of_matched h2 []
    rw [scan_joined] at this
    simp only [this] at h
    exact absurd h (by decide)

set_option maxRecDepth 100000 in
/-- The brackets in the generated text do not match for every accepted protocol. -/
theorem C38_fails_brackets : ∃ data p, Loads data (.ok p) ∧
    ¬ ∃ text, Target.zig.generate {} p = .ok text ∧ Matched text.toList :=
  ⟨_, _, bracket_loads, not_matched (by decide +kernel)⟩

/-! ### C37: replacing the indentation

The full statement: `replace_indent` keeps the lines, what follows the indentation, and the depth.  The
last part is false in general, and true for the boilerplate files that are there. -/

/-- The indentation is replaced, what follows it is kept. -/
theorem C37_replace {old line rest : String} {k : Nat} (h : Indented old line k rest) (new : String) :
    replaceIndent line old new = repeated k new ++ rest := replaceIndent_eq h

example : Indented "    " "        return 1;  " 2 "return 1;  " := ⟨by decide, by decide⟩

/-- There is such a decomposition for every line, unless the indentation is empty. -/
theorem C37_total {old : String} (h : old ≠ "") (line : String) : ∃ k rest, Indented old line k rest :=
  indented_exists h line

/-- A line of boilerplate as it is written at level `i`. -/
def Written (native tab : String) (i : Nat) (line out : String) : Prop :=
  ∃ k rest, Indented native line k rest ∧
    out = if repeated k tab ++ rest = "" then "" else repeated (i + k) tab ++ rest

/-- The lines of a boilerplate file are written one by one, in their order, deeper by the current level;
without substitutions these are the lines in the file. -/
theorem C37_lines {t : Target} {o : Options} {p : Protocol} {w : Writer} (hw : t.writer o p = .ok w)
    (n i : Nat) (before : List String) :
    ∃ out, w.addBoilerplate [] n ⟨i, before⟩ = .ok ((), ⟨i, before ++ out⟩) ∧
      List.Forall₂ (Written w.nativeTab w.tab i) (t.boilerplate n) out := by
  obtain ⟨h1, h2⟩ := writer_files hw
  have hne : w.nativeTab ≠ "" := by
    rintro e
    rw [e] at h2
    cases t <;> exact absurd h2 (by decide)
  refine ⟨_, by unfold Writer.addBoilerplate; exact each_lines w _ _, ?_⟩
  simp only [List.foldl_nil, h1, List.map_map]
  induction t.boilerplate n with
  | nil => exact .nil
  | cons l ls ih =>
    refine .cons ?_ ih
    obtain ⟨k, rest, hi⟩ := indented_exists hne l
    refine ⟨k, rest, hi, ?_⟩
    simp only [Function.comp_apply, shown_replaceIndent hi]

/-- A line keeps its depth if what follows the indentation does not start with the new one. -/
theorem C37_depth_partial {old line rest : String} {k : Nat} (h : Indented old line k rest) {new : String}
    (hr : ¬ new.toList <+: rest.toList) : Indented new (replaceIndent line old new) k rest :=
  ⟨replaceIndent_eq h, hr⟩

example : Indented "\t" (replaceIndent "    x();" "    " "\t") 1 "x();" :=
  C37_depth_partial (k := 1) ⟨by decide, by decide⟩ (by decide)

/-- All lines of the boilerplate files keep their depth if the new indentation consists of blanks. -/
theorem C37_depth_files {t : Target} {o : Options} {p : Protocol} {w : Writer} (hw : t.writer o p = .ok w)
    {n : Nat} {line : String} (hl : line ∈ t.boilerplate n) {new : String} (hb : Blanks new) :
    ∃ k rest, Indented w.nativeTab line k rest ∧ Indented new (replaceIndent line w.nativeTab new) k rest := by
  obtain ⟨_, h2⟩ := writer_files hw
  have hne : w.nativeTab ≠ "" := by
    rintro e
    rw [e] at h2
    cases t <;> exact absurd h2 (by decide)
  have he := boilerplate_even t n line hl
  rw [← h2] at he
  obtain ⟨k, rest, hi, hc⟩ := indented_of_even hne he
  exact ⟨k, rest, hi, replaceIndent_eq hi, not_prefix_of_blanks hb hc⟩

example : ∃ k rest, Indented "    " "        for msg in self {" k rest ∧
    Indented "\t" (replaceIndent "        for msg in self {" "    " "\t") k rest :=
  C37_depth_files (t := .swift) (o := {}) (p := demoProtocol) rfl (n := 1)
    (List.mem_of_getElem? (i := 3) rfl) ⟨by decide, by decide⟩

/-- In general the depth changes: a line that is indented by six spaces has depth one in a text that is
indented by four, and depth two after the replacement of four by two. -/
theorem C37_fails_depth : Indented "    " "      x" 1 "  x" ∧ Indented "  " (replaceIndent "      x" "    " "  ") 2 "x" :=
  ⟨⟨by decide, by decide⟩, ⟨by decide, by decide⟩⟩

end Beschi.Props
