import Verif.Text.Generate
import Verif.Text.Runs
import Verif.Spec.Indent
/-
Replacing the indentation.
-/
namespace Beschi.Text
open Spec

theorem dropPrefix_append (old rest : List Char) : dropPrefix old (old ++ rest) = some rest := by
  induction old with
  | nil => cases rest <;> rfl
  | cons a as ih => simp [dropPrefix, ih]

theorem dropPrefix_none {old cs : List Char} (h : ¬ old <+: cs) : dropPrefix old cs = none := by
  cases hd : dropPrefix old cs with
  | none => rfl
  | some rest => exact absurd ⟨rest, (scan_dropPrefix hd).symm⟩ h

theorem stripIndent_replicate {old rest : List Char} (hr : ¬ old <+: rest) :
    ∀ (k fuel : Nat), k ≤ fuel → stripIndent old fuel ((List.replicate k old).flatten ++ rest) = (k, rest)
  | 0, 0, _ => rfl
  | 0, fuel + 1, _ => by simp [stripIndent, dropPrefix_none hr]
  | k + 1, 0, h => by omega
  | k + 1, fuel + 1, h => by
    simp only [List.replicate_succ, List.flatten_cons, List.append_assoc, stripIndent, dropPrefix_append]
    rw [stripIndent_replicate hr k fuel (by omega)]

theorem toList_repeated (k : Nat) (s : String) : (repeated k s).toList = (List.replicate k s.toList).flatten := by
  unfold repeated
  induction k with
  | zero => rfl
  | succ k ih => rw [List.replicate_succ, String.join_cons, String.toList_append, ih, List.replicate_succ, List.flatten_cons]

theorem _root_.Beschi.Spec.Indented.nonempty {tab line rest : String} {k : Nat} (h : Indented tab line k rest) : tab ≠ "" := by
  rintro rfl
  exact h.2 (by simp)

theorem replaceIndent_eq {old new line rest : String} {k : Nat} (h : Indented old line k rest) :
    replaceIndent line old new = repeated k new ++ rest := by
  have hk : k ≤ line.length := by
    have hne : 0 < old.toList.length := by
      have := h.nonempty
      have : old.toList ≠ [] := by simpa using this
      exact List.length_pos_iff.2 this
    have e : line.length = line.toList.length := String.length_toList.symm
    have hl : ∀ k, k ≤ (List.replicate k old.toList).flatten.length := fun k => by
      induction k with
      | zero => simp
      | succ k ih => rw [List.replicate_succ, List.flatten_cons, List.length_append]; omega
    rw [e, h.1, String.toList_append, toList_repeated, List.length_append]
    have := hl k
    omega
  unfold replaceIndent
  have e : line.toList = (List.replicate k old.toList).flatten ++ rest.toList := by
    rw [h.1, String.toList_append, toList_repeated]
  rw [e, stripIndent_replicate h.2 k _ hk]
  simp [times, repeated]

/-- Every line is indented somehow. -/
theorem indented_exists {tab : String} (ht : tab ≠ "") (line : String) : ∃ k rest, Indented tab line k rest := by
  obtain ⟨n, hn⟩ : ∃ n, line.toList.length = n := ⟨_, rfl⟩
  induction n using Nat.strongRecOn generalizing line with
  | _ n ih =>
    by_cases hp : tab.toList <+: line.toList
    · obtain ⟨rest, hr⟩ := hp
      have hne : tab.toList ≠ [] := by simpa using ht
      have hl := congrArg List.length hr
      rw [List.length_append] at hl
      have := List.length_pos_iff.2 hne
      obtain ⟨k, rest', h1, h2⟩ := ih rest.length (by omega) (String.ofList rest) (by simp)
      refine ⟨k + 1, rest', ?_, h2⟩
      rw [← String.toList_inj, ← hr]
      have h1 := congrArg String.toList h1
      rw [String.toList_ofList] at h1
      rw [h1]
      simp [toList_repeated, List.replicate_succ]
    · exact ⟨0, line, by simp [repeated], hp⟩

theorem repeated_add (i k : Nat) (s : String) : repeated (i + k) s = repeated i s ++ repeated k s := by
  rw [← String.toList_inj, String.toList_append, toList_repeated, toList_repeated, toList_repeated,
    List.replicate_add, List.flatten_append]

theorem each_lines (w : Writer) : ∀ (ls : List String) (o : Out),
    each ls w.line o = .ok ((), { o with lines := o.lines ++ ls.map (w.shown o.indent) })
  | [], o => by simp [each]; rfl
  | l :: ls, o => by
    have := each_lines w ls { o with lines := o.lines ++ [w.shown o.indent l] }
    have e : each (l :: ls) w.line = Emit.bind (w.line l) fun _ => each ls w.line := rfl
    have e' : w.line l o = .ok ((), { o with lines := o.lines ++ [w.shown o.indent l] }) := rfl
    rw [e]
    simp only [Emit.bind, e', this]
    simp

theorem shown_replaceIndent {w : Writer} {i k : Nat} {l rest : String} (h : Indented w.nativeTab l k rest) :
    w.shown i (replaceIndent l w.nativeTab w.tab) =
      if repeated k w.tab ++ rest = "" then "" else repeated (i + k) w.tab ++ rest := by
  rw [replaceIndent_eq h]
  unfold Writer.shown Writer.indentString
  simp only [String.length_eq_zero_iff]
  split
  · rfl
  · rw [repeated_add, String.append_assoc]
    simp [times, repeated]

/-- The text does not start with a blank after its indentation. -/
def evenChars (tab cs : List Char) : Bool :=
  match (stripIndent tab cs.length cs).2 with
  | [] => true
  | c :: _ => !(c == ' ' || c == '\t')

/-- Lines none of which starts with a blank after its indentation. -/
def EvenLines (tab : List Char) (ls : List String) : Prop := ∀ l ∈ ls, evenChars tab l.toList = true

theorem even_nil {tab : List Char} : EvenLines tab [] := fun _ h => by cases h

theorem even_cons {tab cs : List Char} {l : String} {ls : List String} (hl : l = String.ofList cs)
    (h : evenChars tab cs = true) (hs : EvenLines tab ls) : EvenLines tab (l :: ls) := fun x hx => by
  rcases List.mem_cons.1 hx with rfl | hx
  · rw [hl, String.toList_ofList]; exact h
  · exact hs x hx

theorem indented_of_even {tab line : String} (ht : tab ≠ "") (h : evenChars tab.toList line.toList = true) :
    ∃ k rest, Indented tab line k rest ∧ ∀ c ∈ rest.toList.head?, ¬ Blank c := by
  obtain ⟨k, rest, hi⟩ := indented_exists ht line
  refine ⟨k, rest, hi, ?_⟩
  have hk : ∀ new, replaceIndent line tab new = repeated k new ++ rest := fun new => replaceIndent_eq hi
  have e := hk ""
  unfold replaceIndent at e
  simp only at e
  have e0 : ∀ n, repeated n "" = "" := fun n => by
    rw [← String.toList_inj, toList_repeated]; simp
  have e1 : ∀ n, times n "" = "" := fun n => e0 n.toNat
  rw [e1, e0, String.empty_append, String.empty_append] at e
  unfold evenChars at h
  have e := congrArg String.toList e
  rw [String.toList_ofList] at e
  rw [String.length_toList, e] at h
  intro c hc
  cases hr : rest.toList with
  | nil => rw [hr] at hc; simp at hc
  | cons d ds =>
    rw [hr] at hc h
    simp only [List.head?_cons, Option.mem_def, Option.some.injEq] at hc
    subst hc
    simpa [Blank] using h

theorem not_prefix_of_blanks {tab : String} {rest : List Char} (ht : Blanks tab) (h : ∀ c ∈ rest.head?, ¬ Blank c) :
    ¬ tab.toList <+: rest := by
  rintro ⟨r, rfl⟩
  cases hd : tab.toList with
  | nil => exact ht.1 (by simpa using hd)
  | cons c cs =>
    have := ht.2 c (by rw [hd]; simp)
    exact h c (by rw [hd]; simp) this

open Lean Meta Elab Tactic in
/-- Why the lines do not start with a blank after their indentation. -/
partial def evenProof (tab ls : Expr) : TacticM Expr := do
  match_expr ls with
  | List.nil _ => return mkApp (mkConst ``even_nil) tab
  | List.cons _ x y =>
    let .lit (.strVal s) := x.consumeMData | throwError "not a literal: {x}"
    let cs := toExpr s.toList
    let h1 ← mkExpectedTypeHint (← mkEqRefl x) (← mkEq x (mkApp (mkConst ``String.ofList) cs))
    let t := mkConst ``true
    let h2 ← mkExpectedTypeHint (← mkEqRefl t) (← mkEq (mkApp2 (mkConst ``evenChars) tab cs) t)
    return mkAppN (mkConst ``even_cons) #[tab, cs, x, y, h1, h2, ← evenProof tab y]
  | _ => throwError "not a list"

open Lean Meta Elab Tactic in
/-- `EvenLines` for the lines of a file. -/
elab "even_lines" : tactic => withMainContext do
  let g ← getMainGoal
  let_expr EvenLines tab ls := (← instantiateMVars (← g.getType)) | throwError "not EvenLines"
  let some ls ← delta? ls | throwError "not a definition"
  g.assign (← evenProof tab (← zetaReduce ls))

namespace Boilerplate
set_option maxRecDepth 20000

theorem assemblyScript_even : EvenLines [' ', ' '] assemblyScript := by even_lines
theorem c0_even : EvenLines [' ', ' ', ' ', ' '] c0 := by even_lines
theorem c1_even : EvenLines [' ', ' ', ' ', ' '] c1 := by even_lines
theorem c2_even : EvenLines [' ', ' ', ' ', ' '] c2 := by even_lines
theorem cSharp0_even : EvenLines [' ', ' ', ' ', ' '] cSharp0 := by even_lines
theorem cSharp1_even : EvenLines [' ', ' ', ' ', ' '] cSharp1 := by even_lines
theorem go_even : EvenLines ['\t'] go := by even_lines
theorem rust_even : EvenLines [' ', ' ', ' ', ' '] rust := by even_lines
theorem swift0_even : EvenLines [' ', ' ', ' ', ' '] swift0 := by even_lines
theorem swift1_even : EvenLines [' ', ' ', ' ', ' '] swift1 := by even_lines
theorem typeScript_even : EvenLines [' ', ' '] typeScript := by even_lines
theorem zig_even : EvenLines [' ', ' ', ' ', ' '] zig := by even_lines

end Boilerplate

/-- The indentation in the boilerplate of a language. -/
def Target.nativeTab : Target → List Char
  | .go => ['\t']
  | .typescript => [' ', ' ']
  | .assemblyscript => [' ', ' ']
  | _ => [' ', ' ', ' ', ' ']

theorem boilerplate_even (t : Target) (n : Nat) : EvenLines t.nativeTab (t.boilerplate n) := by
  cases t <;> rcases n with _ | _ | _ | n <;> first
    | exact even_nil
    | exact Boilerplate.assemblyScript_even
    | exact Boilerplate.c0_even
    | exact Boilerplate.c1_even
    | exact Boilerplate.c2_even
    | exact Boilerplate.cSharp0_even
    | exact Boilerplate.cSharp1_even
    | exact Boilerplate.go_even
    | exact Boilerplate.rust_even
    | exact Boilerplate.swift0_even
    | exact Boilerplate.swift1_even
    | exact Boilerplate.typeScript_even
    | exact Boilerplate.zig_even

theorem writer_files {t : Target} {o : Options} {p : Protocol} {w : Writer} (h : t.writer o p = .ok w) :
    w.boilerplate = t.boilerplate ∧ w.nativeTab.toList = t.nativeTab := by
  have h2 : "  ".toList = [' ', ' '] := by decide
  have h4 : "    ".toList = [' ', ' ', ' ', ' '] := by decide
  have h1 : "\t".toList = ['\t'] := by decide
  cases t
  · simp only [Target.writer, C.writer] at h
    split at h
    · cases h; exact ⟨rfl, h4⟩
    · cases h; exact ⟨rfl, h4⟩
    · cases h
  all_goals
    cases h
    first | exact ⟨rfl, h4⟩ | exact ⟨rfl, h2⟩ | exact ⟨rfl, h1⟩

end Beschi.Text
