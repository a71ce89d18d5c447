import Lean
import Verif.Text.SizeLink
/-
Replacements in boilerplate: the lines of a part of a boilerplate file, after the replacements, are in the
text.  Lines are seen as templates, i.e. characters and holes.
-/
namespace Beschi.Text
open Beschi.Spec

open Lean Meta Simp in
/-- The characters of a text that is written out. -/
simproc_decl litChars (String.toList _) := fun e => do
  unless e.isAppOfArity ``String.toList 1 do return .continue
  let .lit (.strVal s) := e.appArg! | return .continue
  let l := toExpr s.toList
  return .done { expr := l, proof? := some (mkApp (mkConst ``String.toList_ofList) l) }

/-- Characters and holes. -/
abbrev Template := List (Char ⊕ Nat)

namespace Template

/-- The holes are filled in. -/
def fill (ρ : Nat → List Char) (t : Template) : List Char := t.flatMap fun e => e.elim (fun c => [c]) ρ

/-- The template starts with this text. -/
def starts : List Char → Template → Bool
  | [], _ => true
  | a :: as, .inl c :: t => if a = c then starts as t else false
  | _ :: _, _ => false

/-- The template does not start with this text, whatever is in the holes. -/
def differs : List Char → Template → Bool
  | [], _ => false
  | _ :: _, [] => true
  | a :: as, .inl c :: t => if a = c then differs as t else true
  | _ :: _, .inr _ :: _ => false

/-- The occurrences of a text become holes. -/
def cut (old : List Char) (i : Nat) : Nat → Template → Template
  | _, [] => []
  | skip + 1, _ :: t => cut old i skip t
  | 0, .inr j :: t => .inr j :: cut old i 0 t
  | 0, .inl c :: t => if starts old (.inl c :: t) then .inr i :: cut old i (old.length - 1) t else .inl c :: cut old i 0 t

/-- At each place it does not depend on the holes whether the text occurs there. -/
def certain (old : List Char) : Template → Bool
  | [] => true
  | .inr _ :: t => certain old t
  | .inl c :: t => (starts old (.inl c :: t) || differs old (.inl c :: t)) && certain old t

/-- No occurrence starts within a hole. -/
def Sealed (old : List Char) (ρ : Nat → List Char) : Template → Prop
  | [] => True
  | .inl _ :: t => Sealed old ρ t
  | .inr j :: t => (∀ x y, ρ j = x ++ y → y ≠ [] → dropPrefix old (y ++ fill ρ t) = none) ∧ Sealed old ρ t

theorem fill_inl (ρ : Nat → List Char) (c : Char) (t : Template) : fill ρ (.inl c :: t) = c :: fill ρ t := rfl
theorem fill_inr (ρ : Nat → List Char) (j : Nat) (t : Template) : fill ρ (.inr j :: t) = ρ j ++ fill ρ t := rfl

theorem dropPrefix_of_starts {ρ : Nat → List Char} : ∀ {old : List Char} {t : Template}, starts old t = true →
    (dropPrefix old (fill ρ t)).isSome = true
  | [], _, _ => by cases h : fill ρ _ <;> rfl
  | a :: as, .inl c :: t, h => by
    unfold starts at h
    split at h
    · rename_i e
      rw [fill_inl, dropPrefix, if_pos e]
      exact dropPrefix_of_starts h
    · cases h
  | _ :: _, [], h => by simp [starts] at h
  | _ :: _, .inr _ :: _, h => by simp [starts] at h

theorem dropPrefix_of_differs {ρ : Nat → List Char} : ∀ {old : List Char} {t : Template}, differs old t = true →
    dropPrefix old (fill ρ t) = none
  | [], _, h => by simp [differs] at h
  | a :: as, .inl c :: t, h => by
    rw [fill_inl, dropPrefix]
    unfold differs at h
    split at h
    · rename_i e; rw [if_pos e]; exact dropPrefix_of_differs h
    · rename_i e; rw [if_neg e]
  | _ :: _, [], h => rfl
  | _ :: _, .inr _ :: _, h => by simp [differs] at h

theorem starts_take : ∀ {old : List Char} {t : Template}, starts old t = true → ∀ e ∈ t.take old.length, e.isLeft = true
  | [], t, _ => by simp
  | a :: as, .inl c :: t, h => by
    unfold starts at h
    split at h
    · intro e he
      rcases List.mem_cons.1 he with rfl | he
      · rfl
      · exact starts_take h e he
    · cases h
  | _ :: _, [], h => by simp [starts] at h
  | _ :: _, .inr _ :: _, h => by simp [starts] at h

theorem replaceChars_append {old new y rest : List Char}
    (h : ∀ x z, y = x ++ z → z ≠ [] → dropPrefix old (z ++ rest) = none) :
    replaceChars old new 0 (y ++ rest) = y ++ replaceChars old new 0 rest := by
  induction y with
  | nil => rfl
  | cons c cs ih =>
    rw [List.cons_append, replaceChars]
    have := h [] (c :: cs) rfl (by simp)
    rw [List.cons_append] at this
    rw [this]
    simp only
    rw [ih fun x z e hz => h (c :: x) z (by rw [e]; rfl) hz, List.cons_append]

theorem replaceChars_fill {old : List Char} (hne : old ≠ []) {i : Nat} {ρ : Nat → List Char} : ∀ {t : Template} {skip : Nat},
    certain old t = true → Sealed old ρ t → (∀ e ∈ t.take skip, e.isLeft = true) →
    replaceChars old (ρ i) skip (fill ρ t) = fill ρ (cut old i skip t)
  | [], skip, _, _, _ => by cases skip <;> rfl
  | .inl c :: t, skip + 1, h, hc, hs => by
    simp only [certain, Bool.and_eq_true] at h
    rw [fill_inl, replaceChars, cut]
    exact replaceChars_fill hne h.2 hc fun e he => hs e (by rw [List.take_succ_cons]; exact List.mem_cons_of_mem _ he)
  | .inr j :: t, skip + 1, _, _, hs => by
    have := hs (.inr j) (by simp)
    cases this
  | .inr j :: t, 0, h, hc, _ => by
    rw [fill_inr, cut, fill_inr, replaceChars_append hc.1, replaceChars_fill hne (skip := 0) (by simpa [certain] using h) hc.2 (by simp)]
  | .inl c :: t, 0, h, hc, _ => by
    simp only [certain, Bool.and_eq_true, Bool.or_eq_true] at h
    rw [fill_inl, replaceChars, cut]
    by_cases hs : starts old (.inl c :: t) = true
    · rw [if_pos hs]
      have h1 := dropPrefix_of_starts (ρ := ρ) hs
      rw [fill_inl] at h1
      obtain ⟨x, hx⟩ := Option.isSome_iff_exists.1 h1
      rw [hx]
      simp only
      rw [fill_inr, replaceChars_fill hne h.2 hc]
      intro e he
      have h2 := starts_take hs
      cases hl : old.length with
      | zero => exact absurd (List.length_eq_zero_iff.1 hl) hne
      | succ n =>
        rw [hl] at h2 he
        exact h2 e (by rw [List.take_succ_cons]; exact List.mem_cons_of_mem _ he)
    · rw [if_neg hs]
      have h1 := dropPrefix_of_differs (ρ := ρ) (h.1.resolve_left hs)
      rw [fill_inl] at h1
      rw [h1]
      simp only
      rw [fill_inl, replaceChars_fill hne h.2 hc (by simp)]

theorem sealed_of_head {old : List Char} {ρ : Nat → List Char} {t : Template} (hne : old ≠ [])
    (h : ∀ j, .inr j ∈ t → ∀ c ∈ ρ j, old.head? ≠ some c) : Sealed old ρ t := by
  induction t with
  | nil => trivial
  | cons e t ih =>
    cases e with
    | inl c => exact ih fun j hj => h j (List.mem_cons_of_mem _ hj)
    | inr j =>
      refine ⟨fun x y e hy => ?_, ih fun j hj => h j (List.mem_cons_of_mem _ hj)⟩
      cases y with
      | nil => exact absurd rfl hy
      | cons c cs =>
        cases old with
        | nil => exact absurd rfl hne
        | cons a as =>
          have := h j (by simp) c (by rw [e]; simp)
          rw [List.cons_append, dropPrefix, if_neg]
          rintro rfl
          exact this rfl

/-- A text without holes. -/
def plain (cs : List Char) : Template := cs.map .inl

theorem fill_plain (ρ : Nat → List Char) (cs : List Char) : fill ρ (plain cs) = cs := by
  induction cs with
  | nil => rfl
  | cons c cs ih => show c :: fill ρ (plain cs) = _; rw [ih]

theorem sealed_plain (o : List Char) (ρ : Nat → List Char) (cs : List Char) : Sealed o ρ (plain cs) := by
  induction cs with
  | nil => trivial
  | cons c cs ih => exact ih

end Template

open Template

/-- These lines are those templates. -/
def Fits (ρ : Nat → List Char) (ls : List String) (ts : List Template) : Prop := ls.map String.toList = ts.map (fill ρ)

theorem Fits.of_eq {ρ : Nat → List Char} {ls : List String} {ts ts' : List Template} (h : Fits ρ ls ts) (e : ts = ts') : Fits ρ ls ts' :=
  e ▸ h

theorem Fits.plain {ls : List String} {css : List (List Char)} (h : ls.map String.toList = css) (ρ : Nat → List Char) :
    Fits ρ ls (css.map Template.plain) := by
  unfold Fits
  rw [h, List.map_map]
  conv_lhs => rw [← List.map_id css]
  exact List.map_congr_left fun cs _ => (fill_plain ρ cs).symm

/-- One replacement. -/
theorem Fits.substitute {ρ : Nat → List Char} {ls : List String} {ts : List Template} (h : Fits ρ ls ts) {old new : String}
    {o : List Char} (i : Nat) (ho : old.toList = o) (hn : new.toList = ρ i) (hc : ∀ t ∈ ts, Sealed o ρ t)
    (ht : (!o.isEmpty && ts.all (certain o)) = true) {ts' : List Template} (he : ts.map (cut o i 0) = ts') :
    Fits ρ (substitute ls (old, .text new)) ts' := by
  subst ho he
  simp only [Bool.and_eq_true, Bool.not_eq_true', List.isEmpty_eq_false_iff, List.all_eq_true] at ht
  have hne := ht.1
  have e : ∀ (ls : List String) (ts : List Template), ls.map String.toList = ts.map (fill ρ) → (∀ t ∈ ts, Sealed old.toList ρ t) →
      (∀ t ∈ ts, certain old.toList t = true) →
      (ls.map (replace · old new)).map String.toList = (ts.map (cut old.toList i 0)).map (fill ρ) := by
    intro ls
    induction ls with
    | nil =>
      intro ts h _ _
      cases ts with
      | nil => rfl
      | cons => cases h
    | cons l ls ih =>
      intro ts h hc ht
      cases ts with
      | nil => cases h
      | cons t ts =>
        injection h with h1 h2
        simp only [List.map_cons]
        rw [ih ts h2 (fun t h => hc t (by simp [h])) fun t h => ht t (by simp [h])]
        congr 1
        unfold replace
        rw [String.toList_ofList, h1, hn]
        exact replaceChars_fill hne (ht t (by simp)) (hc t (by simp)) (by simp)
  exact e ls ts h hc ht.2

/-- The holes are below a number. -/
def Template.below (n : Nat) (t : Template) : Bool := t.all fun e => e.elim (fun _ => true) fun j => decide (j < n)

/-- One replacement, when what has been filled in before has nothing of it. -/
theorem Fits.next {ρ : Nat → List Char} {ls : List String} {ts : List Template} (h : Fits ρ ls ts) {old new : String}
    (i n : Nat) {o : List Char} (ho : old.toList = o) (hn : new.toList = ρ i) (hv : ∀ j < n, ∀ c ∈ ρ j, o.head? ≠ some c)
    (ht : (!o.isEmpty && ts.all (certain o) && ts.all (Template.below n)) = true) :
    Fits ρ (Text.substitute ls (old, .text new)) (ts.map (cut o i 0)) := by
  rw [Bool.and_eq_true] at ht
  refine h.substitute i ho hn (fun t h => ?_) ht.1 rfl
  simp only [Bool.and_eq_true, Bool.not_eq_true', List.isEmpty_eq_false_iff, List.all_eq_true] at ht
  refine sealed_of_head ht.1.1 fun j hj c hc => hv j ?_ c hc
  have := List.all_eq_true.1 (ht.2 t h) _ hj
  simpa using this

/-- The text is nowhere in the template; the holes are below a number. -/
def Template.nowhere (old : List Char) (n : Nat) : Template → Bool
  | [] => true
  | .inr j :: t => Nat.blt j n && nowhere old n t
  | .inl c :: t => differs old (.inl c :: t) && nowhere old n t

theorem Template.nowhere_certain {old : List Char} {n : Nat} : ∀ {t : Template}, t.nowhere old n = true → certain old t = true
  | [], _ => rfl
  | .inr j :: t, h => by
    simp only [nowhere, Bool.and_eq_true] at h
    exact nowhere_certain (t := t) h.2
  | .inl c :: t, h => by
    simp only [nowhere, Bool.and_eq_true] at h
    simp only [certain, Bool.and_eq_true, Bool.or_eq_true]
    exact ⟨.inr h.1, nowhere_certain h.2⟩

theorem Template.nowhere_below {old : List Char} {n : Nat} : ∀ {t : Template}, t.nowhere old n = true → t.below n = true
  | [], _ => rfl
  | .inr j :: t, h => by
    simp only [nowhere, Bool.and_eq_true] at h
    have h1 : j < n := Nat.blt_eq ▸ h.1
    have := nowhere_below h.2
    simp only [Template.below, List.all_cons, Bool.and_eq_true] at this ⊢
    exact ⟨by simpa using h1, this⟩
  | .inl c :: t, h => by
    simp only [nowhere, Bool.and_eq_true] at h
    have := nowhere_below h.2
    simp only [Template.below, List.all_cons, Bool.and_eq_true] at this ⊢
    exact ⟨rfl, this⟩

theorem Template.differs_starts : ∀ {old : List Char} {t : Template}, differs old t = true → starts old t = false
  | [], _, h => by simp [differs] at h
  | a :: as, .inl c :: t, h => by
    unfold differs at h
    unfold starts
    split at h
    · rename_i e; rw [if_pos e]; exact differs_starts h
    · rename_i e; rw [if_neg e]
  | _ :: _, [], h => rfl
  | _ :: _, .inr _ :: _, h => by simp [differs] at h

theorem Template.nowhere_cut {old : List Char} {n i : Nat} : ∀ {t : Template}, t.nowhere old n = true → cut old i 0 t = t
  | [], _ => rfl
  | .inr j :: t, h => by
    simp only [nowhere, Bool.and_eq_true] at h
    rw [cut, nowhere_cut h.2]
  | .inl c :: t, h => by
    simp only [nowhere, Bool.and_eq_true] at h
    rw [cut, differs_starts h.1, nowhere_cut h.2]
    rfl

/-- A replacement of what does not occur. -/
theorem Fits.skip {ρ : Nat → List Char} {ls : List String} {ts : List Template} (h : Fits ρ ls ts) {old new : String}
    (i n : Nat) {o : List Char} (ho : old.toList = o) (hn : new.toList = ρ i) (hv : ∀ j < n, ∀ c ∈ ρ j, o.head? ≠ some c)
    (ht : (!o.isEmpty && ts.all (Template.nowhere o n)) = true) : Fits ρ (Text.substitute ls (old, .text new)) ts := by
  simp only [Bool.and_eq_true, List.all_eq_true] at ht
  have := h.next i n ho hn hv (by
    simp only [Bool.and_eq_true, List.all_eq_true]
    exact ⟨⟨ht.1, fun t h => nowhere_certain (ht.2 t h)⟩, fun t h => nowhere_below (ht.2 t h)⟩)
  have e : ts.map (cut o i 0) = ts := by
    conv_rhs => rw [← List.map_id ts]
    exact List.map_congr_left fun t h => nowhere_cut (ht.2 t h)
  rwa [e] at this

/-- All holes are the first one, and this character is behind each. -/
def Template.followed (s : Char) : Template → Bool
  | [] => true
  | .inl _ :: t => followed s t
  | .inr j :: .inl c :: t => Nat.beq j 0 && (decide (c = s) && followed s t)
  | .inr _ :: _ => false

/-- A text that has not this character and is not in the front part is not across both parts. -/
theorem dropPrefix_stop {o y rest : List Char} {s : Char} (hs : s ∉ o) (hy : ¬ o <:+: y) : dropPrefix o (y ++ s :: rest) = none := by
  cases hd : dropPrefix o (y ++ s :: rest) with
  | none => rfl
  | some r =>
    have e := scan_dropPrefix hd
    rcases List.append_eq_append_iff.1 e with ⟨c, h1, h2⟩ | ⟨c, h1, h2⟩
    · cases c with
      | nil => exact absurd (by rw [h1, List.append_nil]) hy
      | cons d c =>
        injection h2 with h2 _
        exact absurd (by rw [h1, h2]; simp) hs
    · exact absurd (by rw [h1]; exact (List.prefix_append _ _).isInfix) hy

theorem Template.sealed_of_followed {o : List Char} {ρ : Nat → List Char} {s : Char} (hs : s ∉ o) (hm : ¬ o <:+: ρ 0) :
    ∀ {t : Template}, followed s t = true → Sealed o ρ t
  | [], _ => trivial
  | .inl _ :: t, h => sealed_of_followed hs hm (t := t) h
  | .inr j :: .inl c :: t, h => by
    simp only [followed, Bool.and_eq_true, decide_eq_true_eq] at h
    obtain ⟨hj, rfl, h⟩ := h
    have hj := Nat.eq_of_beq_eq_true hj
    subst hj
    refine ⟨fun x y e _ => ?_, sealed_of_followed hs hm (t := t) h⟩
    rw [fill_inl]
    exact dropPrefix_stop hs fun h => hm (h.trans (by rw [e]; exact (List.suffix_append _ _).isInfix))
  | [.inr _], h => by cases h
  | .inr _ :: .inr _ :: _, h => by cases h

/-- One replacement, when what has been filled in before does not have it. -/
theorem Fits.guarded {ρ : Nat → List Char} {ls : List String} {ts : List Template} (h : Fits ρ ls ts) {old new : String}
    (i : Nat) (s : Char) {o : List Char} (ho : old.toList = o) (hn : new.toList = ρ i) (hm : ¬ o <:+: ρ 0)
    (ht : (!o.isEmpty && ts.all (certain o) && (ts.all (Template.followed s) && o.all fun c => !decide (c = s))) = true) :
    Fits ρ (Text.substitute ls (old, .text new)) (ts.map (cut o i 0)) := by
  simp only [Bool.and_eq_true] at ht
  refine h.substitute i ho hn (fun t h => ?_) (by simpa using ht.1) rfl
  refine sealed_of_followed (s := s) (fun hc => ?_) hm (List.all_eq_true.1 ht.2.1 t h)
  have := List.all_eq_true.1 ht.2.2 s hc
  simp at this

/-- What is filled in. -/
def holes (vs : List String) (i : Nat) : List Char := (vs.getD i "").toList

theorem chars_nil : ([] : List String).map String.toList = [] := rfl
theorem chars_cons {l : String} {ls : List String} {c : List Char} {cs : List (List Char)} (h : l.toList = c)
    (hs : ls.map String.toList = cs) : (l :: ls).map String.toList = c :: cs := by rw [List.map_cons, h, hs]

open Lean Meta in
/-- The characters of lines that are written out, with a proof. -/
partial def lineChars (e : Expr) : MetaM (Expr × Expr) := do
  let e ← withTransparency .all (whnf e)
  match e.getAppFnArgs with
  | (``List.nil, _) => return (← mkListLit (← mkAppM ``List #[mkConst ``Char]) [], mkConst ``chars_nil)
  | (``List.cons, #[_, l, ls]) =>
    let .lit (.strVal s) := l | throwError "not written out: {l}"
    let c := toExpr s.toList
    let (cs, p) ← lineChars ls
    return (← mkAppM ``List.cons #[c, cs], ← mkAppM ``chars_cons #[mkApp (mkConst ``String.toList_ofList) c, p])
  | _ => throwError "not a list that is written out: {e}"

open Lean Meta Elab Tactic in
/-- Closes `ls.map String.toList = ?_`. -/
elab "line_chars" : tactic => withMainContext do
  let g ← getMainGoal
  let some (_, lhs, rhs) := (← instantiateMVars (← g.getType)).consumeMData.eq? | throwError "not an equation"
  let (cs, p) ← lineChars lhs.appArg!
  unless (← isDefEq rhs cs) do throwError "other characters"
  g.assign p
  replaceMainGoal []

open Lean Meta Elab Tactic in
/-- Both sides compute to the same; left to the kernel. -/
elab "computes" : tactic => withMainContext do
  let g ← getMainGoal
  let some (_, lhs, _) := (← instantiateMVars (← g.getType)).consumeMData.eq? | throwError "not an equation"
  g.assign (← mkEqRefl lhs)
  replaceMainGoal []

set_option hygiene false in
/-- The characters of lines that are written out by definitions. -/
macro "row_chars" "[" ds:Lean.Parser.Tactic.simpLemma,* "]" : tactic => `(tactic|
  (set_option linter.unusedSimpArgs false in
    simp only [$ds,*, List.map_cons, List.map_nil, List.all_cons, rowChars, String.toList_append, litChars, str_toString]))

/-- The characters of a line. -/
def rowChars (tab : List Char) (r : Row) : List Char :=
  match r.text.toList with
  | [] => []
  | c :: cs => (List.replicate r.depth tab).flatten ++ c :: cs

theorem rowChars_ne {tab : List Char} {d : Nat} {t : String} (h : t.toList ≠ []) :
    rowChars tab ⟨d, t⟩ = (List.replicate d tab).flatten ++ t.toList := by
  unfold rowChars
  cases hl : t.toList with
  | nil => exact absurd hl h
  | cons c cs => rfl

theorem toList_shown (tab : String) (r : Row) : (r.shown tab).toList = rowChars tab.toList r := by
  unfold Row.shown rowChars
  by_cases h : r.text = ""
  · simp [h]
  · rw [if_neg h]
    cases hl : r.text.toList with
    | nil => exact absurd (String.toList_injective hl) h
    | cons c cs => rw [String.toList_append, toList_repeated, hl]

/-- The characters of a line, after those of its indentation. -/
def lead (x : List Char) : List Char → List Char
  | [] => []
  | c :: cs => x ++ c :: cs

theorem rowChars_lead (tab : List Char) (d : Nat) (t : String) :
    rowChars tab ⟨d, t⟩ = lead (List.replicate d tab).flatten t.toList := by
  unfold rowChars lead
  cases t.toList <;> rfl

theorem lead_under (x a r : List Char) : lead x (a ++ (['_'] ++ r)) = x ++ (a ++ (['_'] ++ r)) := by
  cases a <;> rfl

/-- The characters of lines that may start with a prefix. -/
macro "pre_chars" "[" ds:Lean.Parser.Tactic.simpLemma,* "]" : tactic => `(tactic|
  (set_option linter.unusedSimpArgs false in
    simp only [$ds,*, List.map_cons, List.map_nil, rowChars_lead, String.toList_append, litChars, str_toString, List.append_assoc,
      lead_under]))

/-- The text is empty or has no space in front. -/
def tidyChars : List Char → Bool
  | [] => true
  | c :: _ => c != ' ' && c != '\t'

theorem tidy_of_chars {rs : List Row} (h : rs.all (fun r => tidyChars r.text.toList) = true) : ∀ r ∈ rs, tidy r.text = true := by
  intro r hr
  have := List.all_eq_true.1 h r hr
  unfold tidy inked
  cases hl : r.text.toList with
  | nil =>
    have : r.text = "" := String.toList_injective hl
    simp [this]
  | cons c cs => rw [hl] at this; simpa [tidyChars] using Or.inr this

theorem Fits.rows {ρ : Nat → List Char} {ls : List String} {ts : List Template} (h : Fits ρ ls ts) {tab : String} {rs : List Row}
    (hr : rs.map (rowChars tab.toList) = ts.map (fill ρ)) : ls = rs.map (Row.shown tab) := by
  have e : ls.map String.toList = (rs.map (Row.shown tab)).map String.toList := by
    rw [h, ← hr, List.map_map]
    exact List.map_congr_left fun r _ => (toList_shown tab r).symm
  exact List.map_injective_iff.2 (fun _ _ h => String.toList_injective h) e

theorem substitute_append (a b : List String) (s : String × Sub) : substitute (a ++ b) s = substitute a s ++ substitute b s := by
  obtain ⟨old, s⟩ := s
  cases s with
  | text new => simp [substitute]
  | lines new => simp [substitute]

theorem substitutes_append (a b : List String) (subs : List (String × Sub)) :
    subs.foldl substitute (a ++ b) = subs.foldl substitute a ++ subs.foldl substitute b := by
  induction subs generalizing a b with
  | nil => rfl
  | cons s subs ih => rw [List.foldl_cons, List.foldl_cons, List.foldl_cons, substitute_append, ih]

/-- Replacements of texts that occur nowhere. -/
theorem substitutes_absent {ls : List String} {css : List (List Char)} (hl : ls.map String.toList = css)
    {olds : List (List Char)} (hne : ∀ o ∈ olds, (!o.isEmpty) = true)
    (h : (css.all fun cs => olds.all fun o => Template.nowhere o 0 (Template.plain cs)) = true)
    {subs : List (String × Sub)} (ht : ∀ s ∈ subs, ∃ o ∈ olds, ∃ t, s = (String.ofList o, .text t)) :
    subs.foldl substitute ls = ls := by
  induction subs with
  | nil => rfl
  | cons s subs ih =>
    have e : substitute ls s = ls := by
      obtain ⟨o, ho, t, rfl⟩ := ht s (by simp)
      have hf := (Fits.plain hl fun _ => t.toList).skip (old := String.ofList o) (new := t) 0 0 String.toList_ofList rfl
        (fun j hj => absurd hj (Nat.not_lt_zero j)) (by
          simp only [List.all_eq_true, Bool.and_eq_true] at h ⊢
          refine ⟨hne o ho, fun x hx => ?_⟩
          obtain ⟨y, hy, rfl⟩ := List.mem_map.1 hx
          exact h y hy o ho)
      refine List.map_injective_iff.2 (fun _ _ h => String.toList_injective h) ?_
      rw [hf, hl, List.map_map]
      conv_rhs => rw [← List.map_id css]
      exact List.map_congr_left fun cs _ => Template.fill_plain _ cs
    rw [List.foldl_cons, e]
    exact ih fun s hs => ht s (List.mem_cons_of_mem _ hs)

theorem replaceChars_self {o : List Char} (ho : o ≠ []) : ∀ (cs : List Char) (skip : Nat), replaceChars o o skip cs = cs.drop skip
  | [], skip => by cases skip <;> rfl
  | _ :: cs, skip + 1 => replaceChars_self ho cs skip
  | c :: cs, 0 => by
    rw [replaceChars]
    cases hd : dropPrefix o (c :: cs) with
    | none => simp only [replaceChars_self ho cs 0, List.drop_zero]
    | some r =>
      have e := scan_dropPrefix hd
      simp only [replaceChars_self ho cs]
      cases o with
      | nil => exact absurd rfl ho
      | cons a as =>
        injection e with e1 e2
        rw [e1, e2]
        simp

/-- A text is replaced by itself. -/
theorem substitute_self {o : String} (ho : o.toList ≠ []) (ls : List String) : substitute ls (o, .text o) = ls := by
  have h : ∀ l : String, replace l o o = l := fun l => by
    unfold replace
    rw [replaceChars_self ho, List.drop_zero, String.ofList_toList]
  show ls.map (replace · o o) = ls
  conv_rhs => rw [← List.map_id ls]
  exact List.map_congr_left fun l _ => h l

/-- The part of a boilerplate text is in it. -/
theorem part_infix {α : Type} (l : List α) (i n : Nat) : (l.drop i).take n <:+: l :=
  (List.take_prefix n (l.drop i)).isInfix.trans (List.drop_suffix i l).isInfix

/-- The lines of a part of a boilerplate file, after the replacements. -/
theorem Puts.library {w : Writer} {subs : List (String × Sub)} {n k : Nat} {rs : List Row} {part : List String}
    (hb : part <:+: w.boilerplate n) (hn : blankTab w.nativeTab = true) (hi : ∀ r ∈ rs, tidy r.text = true)
    (h : subs.foldl substitute part = rs.map (Row.shown w.nativeTab)) :
    Puts w.tab (w.addBoilerplate subs n) k (inside k rs) := by
  refine Puts.boilerplate hn hi ?_
  obtain ⟨a, b, e⟩ := hb
  rw [← e, ← h, substitutes_append, substitutes_append]
  exact ⟨_, _, rfl⟩

end Beschi.Text
