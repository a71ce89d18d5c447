import Verif.Spec.Comment
import Verif.Text.EmbedProof
import Verif.Text.GenerateProof
import Verif.Props.Generated
/-
C44: embedding the protocol in the output adds a comment, and nothing else.
-/
namespace Beschi.Props
open Beschi Beschi.Spec Beschi.Text

/-! ### Lines -/

theorem linesOf_split {cur cs : List Char} (h : ∀ c ∈ cur, c ∉ breaks) : LinesOf (cur ++ cs) (splitChars cur cs) := by
  obtain ⟨n, hn⟩ : ∃ n, cs.length = n := ⟨_, rfl⟩
  induction n using Nat.strongRecOn generalizing cur cs with
  | _ n ih =>
    cases cs with
    | nil =>
      cases cur with
      | nil => exact .nil
      | cons c cur => rw [List.append_nil]; exact .last nofun h
    | cons c cs =>
      by_cases hr : ∃ cs', c = '\r' ∧ cs = '\n' :: cs'
      · obtain ⟨cs', rfl, rfl⟩ := hr
        rw [splitChars]
        exact .crlf h (ih cs'.length (by simp at hn; omega) (cur := []) nofun rfl)
      · rw [splitChars_step fun cs' e1 e2 => hr ⟨cs', e1, e2⟩]
        split
        · rename_i he
          exact .cons h (by simpa [lineEnds, breaks] using he) (fun e r e' => hr ⟨r, e, e'⟩)
            (ih cs.length (by simp at hn; omega) (cur := []) nofun rfl)
        · rename_i he
          have := ih cs.length (by simp at hn; omega) (cur := cur ++ [c]) (cs := cs) (by
            intro x hx
            rcases List.mem_append.1 hx with hx | hx
            · exact h x hx
            · rw [List.mem_singleton.1 hx]
              simpa [lineEnds, breaks] using he) rfl
          simpa using this

theorem linesOf_splitlines (s : String) : LinesOf s.toList ((splitlines s).map (·.toList)) := by
  have : (splitlines s).map (·.toList) = splitChars [] s.toList := by
    unfold splitlines
    rw [List.map_map]
    exact (List.map_congr_left fun a _ => by simp).trans (List.map_id _)
  rw [this]
  exact linesOf_split (cur := []) nofun

/-! ### What is generated -/

/-- The first lines of the output. -/
def firstLines : Target → List String
  | .c => headingC
  | .swift => headingSwift
  | _ => heading

/-- The comment with the protocol. -/
def embedded : Target → List String → List String
  | .zig => slashesAround
  | _ => blockAround

theorem target_splits (t : Target) :
    Splits t.emit (firstLines t) (fun s => embedded t (splitlines s) ++ ["", ""]) := by
  have hb : blockLines = fun s => blockAround (splitlines s) ++ ["", ""] := by
    funext s; simp [blockLines, blockAround]
  have hz : slashLines = fun s => slashesAround (splitlines s) ++ ["", ""] := by
    funext s; simp [slashLines, slashesAround]
  cases t
  · exact hb ▸ C.splits
  · exact hb ▸ CSharp.splits
  · exact hb ▸ Go.splits
  · exact hb ▸ Rust.splits
  · exact hb ▸ Swift.splits
  · exact hb ▸ TypeScript.splits
  · exact hb ▸ TypeScript.splits
  · exact hz ▸ Zig.splits

theorem writer_embed (t : Target) (o : Options) (p : Protocol) (e : Option String) :
    t.writer { o with embed := e } p = (t.writer o p).map fun w => { w with embed := e } := by
  cases t with
  | c =>
    simp only [Target.writer, Text.C.writer]
    rcases p.ns with _ | (_ | _ | _ | _ | _ | _) <;> rfl
  | _ => rfl

/-- C44: with the option, the output is the output without it (which may be an exception), with lines
inserted after the first few: those of the protocol, as they are, in a fixed frame. -/
theorem C44_embedded (t : Target) (o : Options) (p : Protocol) (s : String) :
    (∃ e, t.generate { o with embed := none } p = .error e ∧ t.generate { o with embed := some s } p = .error e) ∨
    ∃ ls rest, LinesOf s.toList (ls.map (·.toList)) ∧
      t.generate { o with embed := none } p = .ok ("\n".intercalate (firstLines t ++ rest)) ∧
      t.generate { o with embed := some s } p =
        .ok ("\n".intercalate (firstLines t ++ (embedded t ls ++ ["", ""]) ++ rest)) := by
  obtain ⟨rest, h1, h2, h3⟩ := target_splits t
  unfold Target.generate Target.outcome
  rw [writer_embed t o p none, writer_embed t o p (some s)]
  cases t.writer o p with
  | error e => exact .inl ⟨e, rfl, rfl⟩
  | ok w =>
    simp only [Except.map, h3, h1, Option.map_none, Option.getD_none, Option.map_some, Option.getD_some]
    have h4 : ∀ before, rest w ⟨0, before⟩ = later before (rest w ⟨0, []⟩) := fun before => by
      have := h2 w 0 before []
      rwa [List.append_nil] at this
    rw [h4 (firstLines t ++ []), h4 (firstLines t ++ (embedded t (splitlines s) ++ ["", ""]))]
    cases rest w ⟨0, []⟩ with
    | error e => exact .inl ⟨e, rfl, rfl⟩
    | ok r =>
      obtain ⟨⟨⟩, r⟩ := r
      exact .inr ⟨splitlines s, r.lines, linesOf_splitlines s, by simp [later], by simp [later]⟩

/-! ### Comments -/

theorem joined (xs : List String) (y : String) :
    ("\n".intercalate (xs ++ [y])).toList = xs.flatMap (fun x => x.toList ++ ['\n']) ++ y.toList := by
  induction xs with
  | nil => simp
  | cons x xs ih =>
    rw [List.cons_append, String.intercalate_cons_of_ne_nil (by simp)]
    simp only [String.toList_append, ih, List.flatMap_cons, List.append_assoc]
    rfl

/-- Characters that neither begin nor end a comment. -/
def Quiet (c : Char) : Prop := c ≠ '*' ∧ c ≠ '/'

theorem break_quiet {c : Char} (h : c ∈ breaks) : Quiet c := by
  simp only [breaks, List.mem_cons, List.not_mem_nil, or_false] at h
  rcases h with rfl | rfl | rfl | rfl | rfl | rfl | rfl | rfl | rfl | rfl <;> exact ⟨by decide, by decide⟩

theorem deep_quiet {c : Char} (h : Quiet c) (d : Nat) (cs : List Char) : deep (d + 1) (c :: cs) = deep (d + 1) cs := by
  rw [deep]
  · exact fun _ e => absurd e h.2
  · exact fun _ e => absurd e h.1

theorem deep_append {c : Char} (h : Quiet c) (d : Nat) (a b : List Char) :
    deep d (a ++ c :: b) = (deep d a).bind fun d => deep d (c :: b) := by
  fun_induction deep d a with
  | case1 d => rfl
  | case2 => rfl
  | case3 d cs ih => exact ih
  | case4 d cs ih => exact ih
  | case5 d x cs h1 h2 ih =>
    rw [← ih]
    cases cs with
    | nil =>
      simp only [List.cons_append, List.nil_append]
      rw [deep]
      · rintro cs rfl e; cases e; exact h.1 rfl
      · rintro cs rfl e; cases e; exact h.2 rfl
    | cons y cs =>
      simp only [List.cons_append]
      rw [deep]
      · rintro cs' rfl e; cases e; exact h1 _ rfl rfl
      · rintro cs' rfl e; cases e; exact h2 _ rfl rfl

theorem newline_quiet : Quiet '\n' := ⟨by decide, by decide⟩

/-- Each line followed by a line break. -/
def ended (ls : List (List Char)) : List Char := ls.flatMap (· ++ ['\n'])

/-- The line breaks do not matter for the depth. -/
theorem deep_lines {s : List Char} {ls : List (List Char)} (h : LinesOf s ls) (d : Nat) :
    deep (d + 1) s = some 1 ↔ deep (d + 1) (ended ls) = some 1 := by
  have step : ∀ {c : Char} {rest l : List Char} {ls : List (List Char)} (d : Nat), Quiet c →
      (∀ d, deep (d + 1) rest = some 1 ↔ deep (d + 1) (ended ls) = some 1) →
      (deep (d + 1) (l ++ c :: rest) = some 1 ↔ deep (d + 1) (ended (l :: ls)) = some 1) := by
    intro c rest l ls d hc ih
    rw [show ended (l :: ls) = l ++ '\n' :: ended ls by simp [ended], deep_append hc, deep_append newline_quiet]
    cases deep (d + 1) l with
    | none => simp
    | some d' =>
      cases d' with
      | zero => simp [deep]
      | succ d' =>
        simp only [Option.bind_some]
        rw [deep_quiet hc, deep_quiet newline_quiet]
        exact ih d'
  induction h generalizing d with
  | nil => simp [ended]
  | @last l _ _ =>
    rw [show ended [l] = l ++ '\n' :: [] by simp [ended], deep_append newline_quiet]
    cases deep (d + 1) l with
    | none => simp
    | some d' =>
      cases d' with
      | zero => simp [deep]
      | succ d' => simp only [Option.bind_some]; rw [deep_quiet newline_quiet, deep]
  | @crlf l rest ls _ _ ih =>
    refine step d (break_quiet (by decide)) fun d => ?_
    rw [deep_quiet newline_quiet]
    exact ih d
  | @cons l c rest ls _ hc _ _ ih => exact step d (break_quiet hc) ih

theorem infix_quiet {c : Char} (h : Quiet c) (a b : List Char) :
    ['*', '/'] <:+: a ++ c :: b ↔ ['*', '/'] <:+: a ∨ ['*', '/'] <:+: b := by
  induction a with
  | nil =>
    rw [List.nil_append, List.infix_cons_iff]
    simp [h.1.symm]
  | cons x a ih =>
    rw [List.cons_append, List.infix_cons_iff, ih, List.infix_cons_iff, or_assoc]
    refine or_congr ?_ Iff.rfl
    cases a with
    | nil => simp [h.2.symm]
    | cons y a => simp

theorem infix_lines {s : List Char} {ls : List (List Char)} (h : LinesOf s ls) :
    ['*', '/'] <:+: s ↔ ∃ l ∈ ls, ['*', '/'] <:+: l := by
  induction h with
  | nil => simp
  | last => simp
  | crlf _ _ ih =>
    rw [infix_quiet (break_quiet (by decide)), List.infix_cons_iff, ih]
    simp
  | cons _ hc _ _ ih =>
    rw [infix_quiet (break_quiet hc), ih]
    simp

theorem infix_ended (ls : List (List Char)) (t : List Char) :
    ['*', '/'] <:+: ended ls ++ t ↔ (∃ l ∈ ls, ['*', '/'] <:+: l) ∨ ['*', '/'] <:+: t := by
  induction ls with
  | nil => simp [ended]
  | cons l ls ih =>
    rw [show ended (l :: ls) ++ t = l ++ '\n' :: (ended ls ++ t) by simp [ended], infix_quiet newline_quiet, ih]
    simp [or_assoc]

/-- The comment as one text. -/
theorem blockAround_text (ls : List String) : ("\n".intercalate (blockAround ls)).toList =
    ['/', '*'] ++ ('\n' :: (ended ["DATA PROTOCOL".toList, "-----------------".toList] ++
      ended (ls.map (·.toList)) ++
      ended ["-----------------".toList, "END DATA PROTOCOL".toList])) ++ ['*', '/'] := by
  have : blockAround ls = (["/*", "DATA PROTOCOL", "-----------------"] ++ ls ++
    ["-----------------", "END DATA PROTOCOL"]) ++ ["*/"] := by simp [blockAround]
  rw [this, joined]
  simp only [ended, List.flatMap_append, List.flatMap_map, List.flatMap_cons, List.flatMap_nil, List.append_nil]
  simp

/-- C44 in C, C#, Go, TypeScript and AssemblyScript: what is inserted is a comment exactly if the protocol does
not contain `*/`. -/
theorem C44_block {s : String} {ls : List String} (h : LinesOf s.toList (ls.map (·.toList))) :
    BlockComment ("\n".intercalate (blockAround ls)).toList ↔ ¬ ['*', '/'] <:+: s.toList := by
  have key : ['*', '/'] <:+: ('\n' :: (ended ["DATA PROTOCOL".toList, "-----------------".toList] ++
      ended (ls.map (·.toList)) ++ ended ["-----------------".toList, "END DATA PROTOCOL".toList])) ↔
      ['*', '/'] <:+: s.toList := by
    rw [infix_lines h, List.infix_cons_iff, List.append_assoc, infix_ended, infix_ended]
    have h1 : ¬ ['*', '/'] <:+: ended ["-----------------".toList, "END DATA PROTOCOL".toList] := by decide
    have h2 : ¬ ∃ l ∈ ["DATA PROTOCOL".toList, "-----------------".toList], ['*', '/'] <:+: l := by decide
    simp only [h1, h2, or_false, false_or]
    simp
  rw [blockAround_text]
  constructor
  · rintro ⟨body, e, hb⟩ hs
    have e' := List.append_cancel_right e
    rw [List.append_cancel_left e'] at key
    exact hb (key.2 hs)
  · intro hs
    exact ⟨_, rfl, fun hb => hs (key.1 hb)⟩

theorem deep_ended (ls : List (List Char)) (hq : ∀ l ∈ ls, ∀ c ∈ l, Quiet c) (d : Nat) (t : List Char) :
    deep (d + 1) (ended ls ++ t) = deep (d + 1) t := by
  have : ∀ c ∈ ended ls, Quiet c := by
    intro c hc
    simp only [ended, List.mem_flatMap, List.mem_append, List.mem_singleton] at hc
    obtain ⟨l, hl, hc | rfl⟩ := hc
    · exact hq l hl c hc
    · exact newline_quiet
  generalize ended ls = a at this
  induction a with
  | nil => rfl
  | cons c a ih =>
    rw [List.cons_append, deep_quiet (this c (by simp))]
    exact ih fun x hx => this x (by simp [hx])

theorem first_quiet : ∀ l ∈ ["DATA PROTOCOL".toList, "-----------------".toList], ∀ c ∈ l, Quiet c := by
  unfold Quiet
  decide

theorem last_quiet : ∀ l ∈ ["-----------------".toList, "END DATA PROTOCOL".toList], ∀ c ∈ l, Quiet c := by
  unfold Quiet
  decide

theorem ended_frame : ended ["-----------------".toList, "END DATA PROTOCOL".toList] =
    '-' :: ended ["----------------".toList, "END DATA PROTOCOL".toList] := by decide

/-- C44 in Rust and Swift: what is inserted is a comment exactly if the comments inside the protocol are
complete: whoever is inside of one comment before it is so after it. -/
theorem C44_nested {s : String} {ls : List String} (h : LinesOf s.toList (ls.map (·.toList))) :
    NestedComment ("\n".intercalate (blockAround ls)).toList ↔ deep 1 s.toList = some 1 := by
  rw [deep_lines h 0, blockAround_text]
  generalize hb : ended (ls.map (·.toList)) = b
  have first : ∀ t, deep 1 ('\n' :: (ended ["DATA PROTOCOL".toList, "-----------------".toList] ++ t)) = deep 1 t := by
    intro t
    rw [deep_quiet (d := 0) newline_quiet]
    exact deep_ended _ first_quiet 0 t
  have last : ∀ d, deep (d + 1) (ended ["-----------------".toList, "END DATA PROTOCOL".toList] ++ ['*', '/']) = some d := by
    intro d
    rw [deep_ended _ last_quiet, deep, deep]
  rw [ended_frame] at last ⊢
  generalize ended ["----------------".toList, "END DATA PROTOCOL".toList] = z at last ⊢
  generalize ended ["DATA PROTOCOL".toList, "-----------------".toList] = a at first ⊢
  have hd : deep 1 ('\n' :: (a ++ b ++ '-' :: z) ++ ['*', '/']) = some 0 ↔ deep 1 b = some 1 := by
    rw [List.cons_append, List.append_assoc, List.append_assoc, first, List.cons_append,
      deep_append ⟨by decide, by decide⟩]
    cases deep 1 b with
    | none => simp
    | some d =>
      cases d with
      | zero => simp [deep]
      | succ d =>
        have := last d
        rw [List.cons_append] at this
        rw [Option.bind_some, this]
        simp
  rw [← hd]
  constructor
  · rintro ⟨body, e, hb⟩
    rw [List.append_assoc] at e
    rw [List.append_cancel_left e]
    exact hb
  · intro hb
    exact ⟨_, List.append_assoc .., hb⟩

/-- C44 in Zig: every line inserted is a comment. -/
theorem C44_lines {s : String} {ls : List String} (h : LinesOf s.toList (ls.map (·.toList))) :
    ∀ l ∈ slashesAround ls, LineComment l.toList := by
  have hl : ∀ {s : List Char} {ls : List (List Char)}, LinesOf s ls → ∀ l ∈ ls, '\n' ∉ l := by
    intro s ls h
    induction h with
    | nil => simp
    | last _ hb => intro l hl hn; rw [List.mem_singleton.1 hl] at hn; exact hb _ hn (by decide)
    | crlf hb _ ih =>
      intro l hl hn
      rcases List.mem_cons.1 hl with rfl | hl
      · exact hb _ hn (by decide)
      · exact ih l hl hn
    | cons hb _ _ _ ih =>
      intro l hl hn
      rcases List.mem_cons.1 hl with rfl | hl
      · exact hb _ hn (by decide)
      · exact ih l hl hn
  intro l hm
  simp only [slashesAround, List.mem_append, List.mem_cons, List.not_mem_nil, or_false, List.mem_map] at hm
  rcases hm with ((rfl | rfl) | ⟨x, hx, rfl⟩) | (rfl | rfl)
  rotate_left 2
  · rw [String.toList_append]
    refine ⟨⟨' ' :: x.toList, rfl⟩, ?_⟩
    have := hl h x.toList (List.mem_map_of_mem hx)
    simp [this]
  all_goals exact ⟨by decide, by decide⟩

/-- The lines are a comment in the language. -/
def CommentIn : Target → List String → Prop
  | .zig, ls => ∀ l ∈ ls, LineComment l.toList
  | .rust, ls | .swift, ls => NestedComment ("\n".intercalate ls).toList
  | _, ls => BlockComment ("\n".intercalate ls).toList

/-- The text can be inside of a comment. -/
def Harmless : Target → List Char → Prop
  | .zig, _ => True
  | .rust, s | .swift, s => deep 1 s = some 1
  | _, s => ¬ ['*', '/'] <:+: s

/-- C44: what is inserted is a comment exactly if the protocol is a text that can be inside of one. -/
theorem C44_comment (t : Target) {s : String} {ls : List String} (h : LinesOf s.toList (ls.map (·.toList))) :
    CommentIn t (embedded t ls) ↔ Harmless t s.toList := by
  cases t
  case zig => exact ⟨fun _ => trivial, fun _ => C44_lines h⟩
  case rust => exact C44_nested h
  case swift => exact C44_nested h
  all_goals exact C44_block h

/-- C44 for the protocols for which it holds.  Missing: texts that contain `*/`, and in Rust and Swift also
those with a `/*` that is not followed by a `*/` of its own; for them it is false (`C44_fails`). -/
theorem C44_adds_comment_partial {data : Toml} {p : Protocol} (hp : Loads data (.ok p)) (hns : TextualNamespace p)
    (t : Target) (o : Options) {s : String} (hs : Harmless t s.toList) :
    ∃ comment rest, CommentIn t comment ∧
      t.generate { o with embed := none } p = .ok ("\n".intercalate (firstLines t ++ rest)) ∧
      t.generate { o with embed := some s } p = .ok ("\n".intercalate (firstLines t ++ (comment ++ ["", ""]) ++ rest)) := by
  rcases C44_embedded t o p s with ⟨e, he, _⟩ | ⟨ls, rest, h1, h2, h3⟩
  · obtain ⟨out, ho, _⟩ := C38_level_partial hp hns t { o with embed := none }
    unfold Target.generate at he
    rw [ho] at he
    cases he
  · exact ⟨_, rest, (C44_comment t h1).2 hs, h2, h3⟩

/-- A protocol with a comment. -/
def plainText : String := "# what is drawn / moved\r\n[[messages]]\n_name = \"Draw\" # 2 * 3\n"

theorem plain_harmless (t : Target) : Harmless t plainText.toList := by
  cases t <;> first | trivial | (show ¬ _; decide)

example (t : Target) : ∃ comment rest, CommentIn t comment ∧
    t.generate {} demoProtocol = .ok ("\n".intercalate (firstLines t ++ rest)) ∧
    t.generate { embed := some plainText } demoProtocol =
      .ok ("\n".intercalate (firstLines t ++ (comment ++ ["", ""]) ++ rest)) :=
  C44_adds_comment_partial demo_loads (.inr ⟨"Demo", rfl⟩) t {} (plain_harmless t)

example : LinesOf plainText.toList
    [ "# what is drawn / moved".toList, "[[messages]]".toList, "_name = \"Draw\" # 2 * 3".toList] :=
  linesOf_splitlines plainText

/-- A protocol with a comment that contains `*/`. -/
def endingText : String := "# see */draw.toml\n[[messages]]\n_name = \"Draw\"\n"

/-- A protocol with a comment that contains `/*`. -/
def openText : String := "# see src/*.toml\n[[messages]]\n_name = \"Draw\"\n"

/-- The claim without restriction is false in all languages but Zig: generation ends without an exception and
what is inserted is not a comment, so that the rest of the protocol is taken for program text. -/
theorem C44_fails (t : Target) (ht : t ≠ .zig) : ∃ comment rest, ¬ CommentIn t comment ∧
    t.generate {} demoProtocol = .ok ("\n".intercalate (firstLines t ++ rest)) ∧
    t.generate { embed := some endingText } demoProtocol =
      .ok ("\n".intercalate (firstLines t ++ (comment ++ ["", ""]) ++ rest)) := by
  rcases C44_embedded t {} demoProtocol endingText with ⟨e, he, _⟩ | ⟨ls, rest, h1, h2, h3⟩
  · obtain ⟨out, ho, _⟩ := C38_level_partial demo_loads (.inr ⟨"Demo", rfl⟩) t {}
    unfold Target.generate at he
    rw [ho] at he
    cases he
  · refine ⟨_, rest, fun hc => ?_, h2, h3⟩
    have := (C44_comment t h1).1 hc
    revert this
    cases t
    case zig => exact absurd rfl ht
    case rust => show ¬ deep 1 _ = some 1; decide
    case swift => show ¬ deep 1 _ = some 1; decide
    all_goals (show ¬ ¬ _; decide)

/-- In Rust and Swift a `/*` is enough: the rest of the generated code is taken for a comment. -/
theorem C44_fails_open {t : Target} (ht : t = .rust ∨ t = .swift) : ∃ comment rest, ¬ CommentIn t comment ∧
    t.generate { embed := some openText } demoProtocol =
      .ok ("\n".intercalate (firstLines t ++ (comment ++ ["", ""]) ++ rest)) := by
  rcases C44_embedded t {} demoProtocol openText with ⟨e, he, _⟩ | ⟨ls, rest, h1, h2, h3⟩
  · obtain ⟨out, ho, _⟩ := C38_level_partial demo_loads (.inr ⟨"Demo", rfl⟩) t {}
    unfold Target.generate at he
    rw [ho] at he
    cases he
  · refine ⟨_, rest, fun hc => ?_, h3⟩
    have := (C44_comment t h1).1 hc
    revert this
    rcases ht with rfl | rfl
    · show ¬ deep 1 _ = some 1; decide
    · show ¬ deep 1 _ = some 1; decide

end Beschi.Props
