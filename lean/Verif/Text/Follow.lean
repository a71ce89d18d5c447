import Verif.Text.Has
/-
Tactics that follow a writing function, line by line.
-/
namespace Beschi.Text
open Lean Meta Elab Tactic

/-- Lines, at least one, that leave the brackets as they are. -/
def Texts (b : Bool) (ls : List String) : Prop := ls ≠ [] ∧ ClosedLines b ls

/-- A text that may be missing. -/
def OptClosed (b : Bool) (x : Option String) : Prop := ∀ s, x = some s → Closed b s

theorem optClosed_none {b : Bool} : OptClosed b none := fun _ h => by cases h
theorem optClosed_some {b : Bool} {s : String} (h : Closed b s) : OptClosed b (some s) := fun _ e => by cases e; exact h
theorem OptClosed.getD {b : Bool} {x : Option String} {d : String} (h : OptClosed b x) (hd : Closed b d) :
    Closed b (x.getD d) := by
  cases x with
  | none => exact hd
  | some s => exact h s rfl

theorem runs_if_pos {α : Type} {b : Bool} {c : Int} {i j : Nat} {S T : List Char} {Q : α → Prop} {p : Prop}
    [Decidable p] {x y : Emit α} (h : p) (hx : Runs b c i S j T Q x) : Runs b c i S j T Q (if p then x else y) := by
  rw [if_pos h]; exact hx

theorem runs_if_neg {α : Type} {b : Bool} {c : Int} {i j : Nat} {S T : List Char} {Q : α → Prop} {p : Prop}
    [Decidable p] {x y : Emit α} (h : ¬ p) (hy : Runs b c i S j T Q y) : Runs b c i S j T Q (if p then x else y) := by
  rw [if_neg h]; exact hy

theorem runs_of_eq {α : Type} {b : Bool} {c : Int} {i j : Nat} {S T : List Char} {Q : α → Prop} {x y : Emit α}
    (h : x = y) (hy : Runs b c i S j T Q y) : Runs b c i S j T Q x := h ▸ hy

theorem bind_of_eq {α β : Type} {x y : Emit α} {f : α → Emit β} (h : x = y) : (x >>= f) = (y >>= f) := by rw [h]

theorem bind_of_pure {α β : Type} {x : Emit α} {f : α → Emit β} {a : α} (h : x = pure a) : (x >>= f) = f a := by
  rw [h]; rfl

/-- There is a hypothesis that says so. -/
macro "here%" : term => `((by with_reducible assumption))

/-- The text may be missing: not taken apart. -/
syntax "opt_leaf" : tactic
/-- The text is closed: not taken apart. -/
syntax "closed_leaf" : tactic
/-- The lines are closed: not taken apart. -/
syntax "lines_leaf" : tactic
/-- The lookup succeeds. -/
syntax "look" : tactic
/-- The call of another writing function. -/
syntax "call" : tactic

theorem closed_nat {b : Bool} (n : Nat) : Closed b (toString n) := closed_of_noBrackets fun _ c hc => by
  have : c.isDigit = true := by
    have h : (toString n).toList = Nat.toDigits 10 n := by
      show (Nat.repr n).toList = _
      simp [Nat.repr]
    rw [h] at hc
    exact Nat.isDigit_of_mem_toDigits (by decide) (by decide) hc
  intro hb
  simp only [Spec.brackets, List.mem_cons, List.not_mem_nil, or_false] at hb
  rcases hb with rfl | rfl | rfl | rfl | rfl | rfl <;> exact absurd this (by decide)

theorem closed_int {b : Bool} (n : Int) : Closed b (toString n) := by
  cases n with
  | ofNat n => exact closed_nat n
  | negSucc n =>
    show Closed b ("-" ++ toString (n + 1))
    exact closed_append (closed_of_matched (matched_of_scan (by decide))) (closed_nat _)

theorem closed_num {b : Bool} (n : NumTy) : Closed b n.name := by
  cases n <;> exact closed_of_matched (matched_of_scan (by decide))

/-- Letters are not brackets. -/
theorem scan_map {f : Char → Char} (hb : ∀ c ∈ Spec.brackets, f c = c) (hf : ∀ c, c ∉ Spec.brackets → f c ∉ Spec.brackets)
    (cs S : List Char) : scan S (cs.map f) = scan S cs := by
  induction cs generalizing S with
  | nil => rfl
  | cons c cs ih =>
    by_cases h : c ∈ Spec.brackets
    · rw [List.map_cons, hb c h, scan_cons, scan_cons]
      simp only [ih]
    · rw [List.map_cons, scan_plain (hf c h), scan_plain h]
      exact ih S

theorem toNat_upper (c : Char) : c.toUpper = c ∨ (65 ≤ c.toUpper.toNat ∧ c.toUpper.toNat ≤ 90) := by
  unfold Char.toUpper
  split
  · rename_i h
    right
    have h1 : 97 ≤ c.toNat := by simpa [UInt32.le_iff_toNat_le] using h.1
    have h2 : c.toNat ≤ 122 := by simpa [UInt32.le_iff_toNat_le] using h.2
    have h3 : (c.val + ('A'.val - 'a'.val)).toNat = c.toNat - 32 := by
      rw [UInt32.toNat_add]
      have : ('A'.val - 'a'.val).toNat = 4294967264 := by decide
      rw [this]
      have e : c.val.toNat = c.toNat := rfl
      omega
    show 65 ≤ (c.val + ('A'.val - 'a'.val)).toNat ∧ (c.val + ('A'.val - 'a'.val)).toNat ≤ 90
    rw [h3]
    omega
  · exact .inl rfl

theorem bracket_codes {c : Char} (h : c ∈ Spec.brackets) :
    c.toNat < 65 ∨ (90 < c.toNat ∧ c.toNat < 97) ∨ 122 < c.toNat := by
  simp only [Spec.brackets, List.mem_cons, List.not_mem_nil, or_false] at h
  rcases h with rfl | rfl | rfl | rfl | rfl | rfl <;> decide

theorem closed_upper {b : Bool} {s : String} (h : Closed b s) : Closed b (upper s) := fun e S => by
  unfold upper
  rw [String.toList_ofList, scan_map (by decide)]
  · exact h e S
  · intro c hc hu
    rcases toNat_upper c with h1 | h1
    · rw [h1] at hu; exact hc hu
    · have := bracket_codes hu; omega

theorem toNat_lower (c : Char) : c.toLower = c ∨ (97 ≤ c.toLower.toNat ∧ c.toLower.toNat ≤ 122) := by
  unfold Char.toLower
  split
  · rename_i h
    right
    have h1 : 65 ≤ c.toNat := by simpa [UInt32.le_iff_toNat_le] using h.1
    have h2 : c.toNat ≤ 90 := by simpa [UInt32.le_iff_toNat_le] using h.2
    have h3 : (c.val + ('a'.val - 'A'.val)).toNat = c.toNat + 32 := by
      rw [UInt32.toNat_add]
      have : ('a'.val - 'A'.val).toNat = 32 := by decide
      rw [this]
      have e : c.val.toNat = c.toNat := rfl
      omega
    show 97 ≤ (c.val + ('a'.val - 'A'.val)).toNat ∧ (c.val + ('a'.val - 'A'.val)).toNat ≤ 122
    rw [h3]
    omega
  · exact .inl rfl

theorem closed_lower {b : Bool} {s : String} (h : Closed b s) : Closed b (lower s) := fun e S => by
  unfold lower
  rw [String.toList_ofList, scan_map (by decide)]
  · exact h e S
  · intro c hc hu
    rcases toNat_lower c with h1 | h1
    · rw [h1] at hu; exact hc hu
    · have := bracket_codes hu; omega

/-- Replacing a character. -/
theorem replaceChars_char (a d : Char) (cs : List Char) :
    replaceChars [a] [d] 0 cs = cs.map fun c => if a = c then d else c := by
  induction cs with
  | nil => rfl
  | cons c cs ih =>
    by_cases h : a = c
    · subst h; simp [replaceChars, dropPrefix, ih]
    · simp [replaceChars, dropPrefix, h, ih]

open Spec in
/-- Without one kind of brackets the others still match. -/
theorem matched_without {f : Char → Char} (h1 : f '[' ∉ brackets) (h2 : f ']' ∉ brackets)
    (h3 : f '(' = '(') (h4 : f ')' = ')') (h5 : f '{' = '{') (h6 : f '}' = '}')
    (hf : ∀ c, c ∉ brackets → f c ∉ brackets) {cs : List Char} (h : Matched cs) : Matched (cs.map f) := by
  induction h with
  | nil => exact .nil
  | char hc _ ih => exact .char (hf _ hc) ih
  | @pair a d inner rest hp _ _ ih1 ih2 =>
    rw [List.map_cons, List.map_append, List.map_cons]
    cases hp with
    | round => rw [h3, h4]; exact .pair .round ih1 ih2
    | curly => rw [h5, h6]; exact .pair .curly ih1 ih2
    | square =>
      refine .char h1 (matched_of_scan ?_)
      rw [scan_append, scan_of_matched ih1]
      show scan [] (f ']' :: _) = _
      rw [scan_plain h2]
      exact scan_of_matched ih2 []

theorem closed_clean {b : Bool} {s : String} (h : Closed b s) : Closed b (replaceAll s [("[", "_"), ("]", "_")]) := by
  intro e
  subst e
  have hm := h.matched
  unfold replaceAll replace
  simp only [List.foldl_cons, List.foldl_nil, String.toList_ofList]
  show ∀ S, scan S (replaceChars [']'] ['_'] 0 (replaceChars ['['] ['_'] 0 _)) = some S
  rw [replaceChars_char, replaceChars_char, List.map_map]
  refine scan_of_matched (matched_without (by decide) (by decide) (by decide) (by decide) (by decide) (by decide) ?_ hm)
  intro c hc
  simp only [Function.comp]
  split
  · decide
  · split
    · decide
    · exact hc

theorem closed_clean' {b : Bool} {s : String} (h : Closed b s) :
    Closed b (replaceAll s [("[", "_"), ("]", "_"), (" ", "_")]) := by
  have h1 := closed_clean h
  have h2 : replaceAll s [("[", "_"), ("]", "_"), (" ", "_")] =
    replace (replaceAll s [("[", "_"), ("]", "_")]) " " "_" := rfl
  rw [h2]
  exact closed_replace (by decide) (closed_of_matched (matched_of_scan (by decide)))
    (closed_of_matched (matched_of_scan (by decide))) h1

theorem closed_intercalate {b : Bool} {sep : String} {ls : List String} (hs : Closed b sep)
    (h : ∀ l ∈ ls, Closed b l) : Closed b (sep.intercalate ls) := by
  induction ls with
  | nil => exact closed_empty
  | cons x xs ih =>
    have hxs := ih fun l hl => h l (by simp [hl])
    cases xs with
    | nil => simpa using h x (by simp)
    | cons z zs =>
      rw [String.intercalate_cons_cons]
      exact closed_append (closed_append (h x (by simp)) hs) hxs

theorem bumpLines_tab {b : Bool} {S T : List Char} {w : Writer} {ls : List String} (ht : Closed b w.tab)
    (h : BumpLines b S T ls) : BumpLines b S T (ls.map fun l => s!"{w.tab}{l}") :=
  bumpLines_map (fun e _ S => scan_closed_left (ht e) S) h

/-- The text in brackets. -/
partial def chars (e : Expr) : MetaM (List Char) := do
  let e ← whnfR (← instantiateMVars e)
  match_expr e with
  | List.nil _ => return []
  | List.cons _ c cs =>
    let c ← whnfR c
    match c with
    | .app (.const ``Char.ofNat _) n =>
      let some n ← (evalNat n).run | throwError "not a character: {c}"
      return Char.ofNat n :: (← chars cs)
    | _ => throwError "not a character: {c}"
  | _ => throwError "not a list of characters: {e}"

/-- Read the brackets of a text. -/
def scanChars : List Char → List Char → Option (List Char)
  | S, [] => some S
  | S, c :: cs =>
    match c with
    | '(' => scanChars (')' :: S) cs
    | '[' => scanChars (']' :: S) cs
    | '{' => scanChars ('}' :: S) cs
    | _ => if c = ')' ∨ c = ']' ∨ c = '}' then
        match S with
        | [] => none
        | d :: S => if d = c then scanChars S cs else none
      else scanChars S cs

/-- Prove a proposition with a tactic. -/
def solve (p : Expr) (tac : TSyntax `tactic) : TacticM Expr := do
  let m ← mkFreshExprSyntheticOpaqueMVar p
  let saved ← getGoals
  setGoals [m.mvarId!]
  try withoutRecover (withReducible (evalTactic tac)) catch _ => throwError "not solved: {p}\n{m.mvarId!}"
  unless (← getUnsolvedGoals).isEmpty do throwError "not solved: {p}"
  setGoals saved
  instantiateMVars m

/-- What a text does to the brackets due, and why. -/
partial def bumpText (b S t : Expr) : TacticM (Expr × Expr) := do
  let t ← instantiateMVars t
  let t := t.consumeMData.headBeta
  if t.getAppFn.isMVar then throwError "not known"
  match_expr t with
  | HAppend.hAppend _ _ _ _ x y =>
    let (T, hx) ← bumpText b S x
    let (U, hy) ← bumpText b T y
    return (U, mkAppN (mkConst ``bump_append) #[b, S, T, U, x, y, hx, hy])
  | ToString.toString α _ x =>
    if α.isConstOf ``String then
      let (T, h) ← bumpText b S x
      return (T, ← mkExpectedTypeHint h (mkAppN (mkConst ``Bump) #[b, S, T, t]))
    else leaf t
  | _ =>
    match t with
    | .lit (.strVal s) =>
      let some T := scanChars (← chars S) s.toList | throwError "brackets do not match: {s}"
      let T := if s.toList.all (fun c => !("()[]{}".toList.contains c)) then S else toExpr T
      let cs := toExpr s.toList
      let h1 ← mkEqRefl t
      let h1 ← mkExpectedTypeHint h1 (← mkEq t (mkApp (mkConst ``String.ofList) cs))
      let some' ← mkAppM ``Option.some #[T]
      let h2 ← mkEqRefl some'
      let h2 ← mkExpectedTypeHint h2 (← mkEq (mkAppN (mkConst ``scan) #[S, cs]) some')
      return (T, mkAppN (mkConst ``bump_lit) #[b, S, T, t, cs, h1, h2])
    | _ => leaf t
where
  leaf (t : Expr) : TacticM (Expr × Expr) := do
    match_expr t with
    | ite _ c i x y =>
      let e := toExpr ([] : List Char)
      let (_, h1) ← bumpText b e x
      let (_, h2) ← bumpText b e y
      let h1 := mkAppN (mkConst ``Bump.closed) #[b, x, h1]
      let h2 := mkAppN (mkConst ``Bump.closed) #[b, y, h2]
      let h := mkAppN (mkConst ``closed_ite) #[b, c, i, x, y, h1, h2]
      return (S, mkAppN (mkConst ``Closed.bump) #[b, t, h, S])
    | _ =>
      let h ← solve (mkAppN (mkConst ``Closed) #[b, t]) (← `(tactic| closed_leaf))
      return (S, mkAppN (mkConst ``Closed.bump) #[b, t, h, S])

/-- What lines do to the brackets due, and why. -/
partial def bumpLines (b S ls : Expr) : TacticM (Expr × Expr) := do
  let ls ← instantiateMVars ls
  let ls := ls.consumeMData.headBeta
  match_expr ls with
  | HAppend.hAppend _ _ _ _ x y =>
    let (T, hx) ← bumpLines b S x
    let (U, hy) ← bumpLines b T y
    return (U, mkAppN (mkConst ``bumpLines_append) #[b, S, T, U, x, y, hx, hy])
  | List.nil _ => return (S, mkAppN (mkConst ``bumpLines_nil) #[b, S])
  | List.cons _ x y =>
    let (T, hx) ← bumpText b S x
    let (U, hy) ← bumpLines b T y
    return (U, mkAppN (mkConst ``bumpLines_cons) #[b, S, T, U, x, y, hx, hy])
  | List.map _ _ _ x =>
    let (T, hx) ← bumpLines b S x
    let h ← solve (mkAppN (mkConst ``BumpLines) #[b, S, T, ls])
      (← `(tactic| exact bumpLines_tab (Good.tab here%) $(← Term.exprToSyntax hx)))
    return (T, h)
  | _ =>
    let h ← solve (mkAppN (mkConst ``ClosedLines) #[b, ls]) (← `(tactic| lines_leaf))
    return (S, mkAppN (mkConst ``ClosedLines.bump) #[b, ls, h, S])

/-- `Bump` -/
elab "bump" : tactic => withMainContext do
  let g ← getMainGoal
  let_expr Bump b S _ t := (← instantiateMVars (← g.getType)) | throwError "not Bump"
  let (_, h) ← bumpText b S t
  unless ← isDefEq (← g.getType) (← inferType h) do throwError "brackets: {← inferType h}"
  g.assign h

/-- `Closed` -/
macro "closed" : tactic => `(tactic| exact Bump.closed (by bump))

/-- `ClosedLines` -/
elab "closed_lines" : tactic => withMainContext do
  let g ← getMainGoal
  let_expr ClosedLines b ls := (← instantiateMVars (← g.getType)) | throwError "not ClosedLines"
  let (T, h) ← bumpLines b (toExpr ([] : List Char)) ls
  unless (← chars T).isEmpty do throwError "brackets left: {T}"
  g.assign (mkAppN (mkConst ``BumpLines.closed) #[b, ls, h])

/-- All substitutions. -/
def SubsClosed (b : Bool) (xs : List (String × Sub)) : Prop := ∀ x ∈ xs, SubClosed b x

theorem subs_nil {b : Bool} : SubsClosed b [] := fun _ h => by cases h

theorem subs_cons {b : Bool} {x : String × Sub} {xs : List (String × Sub)} (h1 : SubClosed b x)
    (h2 : SubsClosed b xs) : SubsClosed b (x :: xs) := fun y hy => by
  rcases List.mem_cons.1 hy with rfl | hy
  · exact h1
  · exact h2 y hy

theorem subs_append {b : Bool} {xs ys : List (String × Sub)} (h1 : SubsClosed b xs)
    (h2 : SubsClosed b ys) : SubsClosed b (xs ++ ys) := fun y hy => by
  rcases List.mem_append.1 hy with hy | hy
  · exact h1 y hy
  · exact h2 y hy

theorem subClosed_text {b : Bool} {old new : String} (h0 : old ≠ "") (ho : Closed b old) (hn : Closed b new) :
    SubClosed b (old, .text new) := ⟨h0, ho, hn⟩

theorem subClosed_lines {b : Bool} {old : String} {new : List String} (h0 : old ≠ "") (ho : Closed b old)
    (hn : ClosedLines b new) : SubClosed b (old, .lines new) := ⟨h0, ho, hn⟩

/-- The substitutions change no brackets. -/
macro "subs" : tactic => `(tactic| repeat' first
  | assumption
  | exact subs_nil
  | refine subs_cons (subClosed_text (by decide) (by closed) (by closed)) ?_
  | refine subs_cons (subClosed_lines (by decide) (by closed) (by closed_lines)) ?_
  | refine subs_append ?_ ?_)

/-- What a writing function returns: closed texts, lines. -/
partial def resultPred (b α : Expr) : MetaM Expr := do
  let α ← instantiateMVars α
  if α.isConstOf ``String then return mkApp (mkConst ``Closed) b
  if α.isAppOfArity ``List 1 && α.appArg!.isConstOf ``String then return mkApp (mkConst ``Texts) b
  if α.isAppOfArity ``List 1 && α.appArg!.isAppOfArity ``Prod 2 then return mkApp (mkConst ``SubsClosed) b
  if α.isAppOfArity ``Option 1 && α.appArg!.isConstOf ``String then return mkApp (mkConst ``OptClosed) b
  if α.isAppOfArity ``Prod 2 then
    let P ← resultPred b α.appFn!.appArg!
    let Q ← resultPred b α.appArg!
    return ← withLocalDeclD `x α fun x => do
      mkLambdaFVars #[x] (← mkAppM ``And #[(mkApp P (← mkAppM ``Prod.fst #[x])).headBeta,
        (mkApp Q (← mkAppM ``Prod.snd #[x])).headBeta])
  return mkApp (mkConst ``Any) α

/-- `ls ≠ []` -/
partial def nonempty (ls : Expr) : TacticM Expr := do
  match_expr ls with
  | List.cons _ x xs => mkAppM ``List.cons_ne_nil #[x, xs]
  | HAppend.hAppend _ _ _ _ x y =>
    try mkAppM ``List.append_ne_nil_of_left_ne_nil #[← nonempty x, y]
    catch _ => mkAppM ``List.append_ne_nil_of_right_ne_nil #[x, ← nonempty y]
  | _ => solve (← mkAppM ``Ne #[ls, mkApp (mkConst ``List.nil [0]) (mkConst ``String)]) (← `(tactic| assumption))

/-- What is returned is as it should be. -/
partial def result (g : MVarId) : TacticM Unit := g.withContext do
  let t ← instantiateMVars (← g.getType)
  let t := t.headBeta
  match_expr t with
  | And p q =>
    let m1 ← mkFreshExprSyntheticOpaqueMVar p
    let m2 ← mkFreshExprSyntheticOpaqueMVar q
    result m1.mvarId!
    result m2.mvarId!
    g.assign (mkAppN (mkConst ``And.intro) #[p, q, m1, m2])
  | Texts b ls =>
    let ls ← whnfProj ls
    let h1 ← nonempty ls
    let (_, h2) ← bumpLines b (toExpr ([] : List Char)) ls
    let h := mkAppN (mkConst ``And.intro) #[← inferType h1, mkAppN (mkConst ``ClosedLines) #[b, ls], h1, h2]
    unless ← isDefEq (← g.getType) (← inferType h) do throwError "brackets left in {ls}"
    g.assign h
  | Closed b x =>
    let x ← whnfProj x
    let (_, h) ← bumpText b (toExpr ([] : List Char)) x
    g.assign (mkAppN (mkConst ``Bump.closed) #[b, x, h])
  | ClosedLines b ls =>
    let ls ← whnfProj ls
    let (T, h) ← bumpLines b (toExpr ([] : List Char)) ls
    unless (← chars T).isEmpty do throwError "brackets left in {ls}"
    g.assign (mkAppN (mkConst ``BumpLines.closed) #[b, ls, h])
  | SubsClosed _ _ => g.assign (← solve t (← `(tactic| subs)))
  | OptClosed b x =>
    let x ← whnfProj x
    match_expr x with
    | Option.none _ => g.assign (mkAppN (mkConst ``optClosed_none) #[b])
    | Option.some _ s =>
      let (_, h) ← bumpText b (toExpr ([] : List Char)) s
      g.assign (mkAppN (mkConst ``optClosed_some) #[b, s, mkAppN (mkConst ``Bump.closed) #[b, s, h]])
    | _ => g.assign (← solve (mkAppN (mkConst ``OptClosed) #[b, x]) (← `(tactic| opt_leaf)))
  | Any _ _ => g.assign (mkConst ``True.intro)
  | _ => throwError "what about {t}"
where
  /-- `(a, b).1` -/
  whnfProj (e : Expr) : MetaM Expr := do
    let e ← instantiateMVars e
    match_expr e with
    | Prod.fst _ _ p => let p ← whnfCore p; if p.isAppOfArity ``Prod.mk 4 then return p.appFn!.appArg! else return e
    | Prod.snd _ _ p => let p ← whnfCore p; if p.isAppOfArity ``Prod.mk 4 then return p.appArg! else return e
    | _ => return e

/-- Take a value that is known to satisfy something apart. -/
partial def taken (g : MVarId) (h : FVarId) : MetaM MVarId := g.withContext do
  let t ← whnfR (← instantiateMVars (← h.getType)).headBeta
  let t := t.headBeta
  match_expr t with
  | And _ _ => both
  | Texts _ _ => both
  | Eq _ a b =>
    if a.isFVar || b.isFVar then
      match ← observing? (subst g h) with
      | some g => return g
      | none => return g
    else return g
  | Any _ _ => g.clear h
  | _ => g.changeLocalDecl h t
where
  /-- Both parts of a conjunction. -/
  both : MetaM MVarId := do
    let #[s] ← g.cases h | throwError "cases"
    let fs := s.fields.map Expr.fvarId!
    let g ← taken s.mvarId fs[1]!
    let g ← taken g fs[0]!
    return g

/-- Evaluate `(a, b).1` and `(a, b).2`. -/
def projections (e : Expr) : MetaM Expr :=
  Meta.transform e.headBeta (post := fun e =>
    match_expr e with
    | Prod.fst _ _ p => return .done (if p.isAppOfArity ``Prod.mk 4 then p.appFn!.appArg! else e)
    | Prod.snd _ _ p => return .done (if p.isAppOfArity ``Prod.mk 4 then p.appArg! else e)
    | _ => return .done e)

/-- Introduce a value, and what is known of it. -/
def take (g : MVarId) : MetaM MVarId := do
  let (a, g) ← g.intro1
  let (h, g) ← g.intro1
  g.withContext do
    let α ← whnfR (← a.getType)
    if α.isAppOfArity ``Prod 2 then
      let (_, g) ← g.revert #[h]
      let #[s] ← g.cases a | throwError "cases"
      let g ← s.mvarId.withContext do
        let t ← instantiateMVars (← s.mvarId.getType)
        let .forallE n p q i := t | throwError "take"
        s.mvarId.replaceTargetDefEq (.forallE n (← projections p) q i)
      let (h, g) ← g.intro1
      taken g h
    else if α.isConstOf ``Unit then
      let g ← taken g h
      g.tryClear a
    else taken g h

/-- `g` is proved by `h`. -/
def byProof (g : MVarId) (h : Expr) : MetaM Unit := g.withContext do
  let t ← g.getType
  unless ← withTransparency .instances <| isDefEq t (← inferType h) do
    throwError "not as expected{indentExpr t}\n{indentExpr (← inferType h)}"
  g.assign h

/-- Follow a writing function; what cannot be followed is left. -/
def known? (x : Expr) : TacticM (Option (Expr × Expr)) := do
  let_expr ite γ p dec y z := x | return none
  if let some h ← withReducible <| findLocalDeclWithType? p then
    return some (← whnfCore y, ← mkExpectedTypeHint (mkAppN (mkConst ``if_pos [1]) #[p, dec, .fvar h, γ, y, z]) (← mkEq x (← whnfCore y)))
  if let some h ← withReducible <| findLocalDeclWithType? (mkNot p) then
    return some (← whnfCore z, ← mkExpectedTypeHint (mkAppN (mkConst ``if_neg [1]) #[p, dec, .fvar h, γ, y, z]) (← mkEq x (← whnfCore z)))
  return none

/-- Follow what is written. -/
partial def follow (ts : Array (TSyntax `term)) (g : MVarId) : TacticM (List MVarId) := g.withContext do
  let tgt ← instantiateMVars (← g.getType)
  let_expr Runs α b c i S j T Q x := tgt | return [g]
  let x ← whnfCore x
  let tgt := mkAppN (mkConst ``Runs) #[α, b, c, i, S, j, T, Q, x]
  let g ← g.replaceTargetDefEq tgt
  let nat := mkConst ``Nat
  let charList := mkApp (mkConst ``List [0]) (mkConst ``Char)
  g.withContext do
  match x.getAppFn with
  | .const n _ =>
    let args := x.getAppArgs
    if n == ``Bind.bind then
      let #[_, _, β, _, y, f] := args | throwError "bind"
      if (β.find? (·.isConstOf ``Writer)).isSome then return [g]
      if let some (z, h) ← (if β.isAppOf ``List then known? y else return none) then
        let (z', h') ←
          if z.isAppOf ``Pure.pure then
            pure ((mkApp f z.appArg!).headBeta, mkAppN (mkConst ``bind_of_pure) #[β, α, y, f, z.appArg!, h])
          else pure (mkAppN x.getAppFn (args.set! 4 z), mkAppN (mkConst ``bind_of_eq) #[β, α, y, z, f, h])
        let g1 ← mkFreshExprSyntheticOpaqueMVar (mkAppN (mkConst ``Runs) #[α, b, c, i, S, j, T, Q, z'])
        g.assign (mkAppN (mkConst ``runs_of_eq) #[α, b, c, i, j, S, T, Q, x, z', h', g1])
        return ← follow ts g1.mvarId!
      let j' ← mkFreshExprMVar nat
      let T' ← mkFreshExprMVar charList
      let yf := y.getAppFn
      let P ← if yf.isConstOf ``Bind.bind || yf.isConstOf ``ite || yf.isConstOf ``Pure.pure then resultPred b β
        else mkFreshExprMVar (← mkArrow β (mkSort 0))
      let g1 ← mkFreshExprSyntheticOpaqueMVar (mkAppN (mkConst ``Runs) #[β, b, c, i, S, j', T', P, y])
      let rest ← follow ts g1.mvarId!
      let j' ← instantiateMVars j'
      let T' ← instantiateMVars T'
      let P ← instantiateMVars P
      let t2 ← withLocalDeclD `a β fun a => do
        let body ← mkArrow (mkApp P a).headBeta (mkAppN (mkConst ``Runs) #[α, b, c, j', T', j, T, Q, (mkApp f a).headBeta])
        mkForallFVars #[a] body
      let g2 ← mkFreshExprSyntheticOpaqueMVar t2
      g.assign (mkAppN (mkConst ``runs_bind) #[β, α, b, c, i, j', j, S, T', T, P, Q, y, f, g1, g2])
      unless rest.isEmpty do return rest ++ [g2.mvarId!]
      let g2 ← take g2.mvarId!
      follow ts g2
    else if n == ``ite then
      let #[_, p, dec, y, z] := args | throwError "ite"
      let R := fun x => mkAppN (mkConst ``Runs) #[α, b, c, i, S, j, T, Q, x]
      if let some h ← withReducible <| findLocalDeclWithType? p then
        let g1 ← mkFreshExprSyntheticOpaqueMVar (R y)
        g.assign (mkAppN (mkConst ``runs_if_pos) #[α, b, c, i, j, S, T, Q, p, dec, y, z, .fvar h, g1])
        return ← follow ts g1.mvarId!
      if let some h ← withReducible <| findLocalDeclWithType? (mkNot p) then
        let g1 ← mkFreshExprSyntheticOpaqueMVar (R z)
        g.assign (mkAppN (mkConst ``runs_if_neg) #[α, b, c, i, j, S, T, Q, p, dec, y, z, .fvar h, g1])
        return ← follow ts g1.mvarId!
      let g1 ← mkFreshExprSyntheticOpaqueMVar (← mkArrow p (R y))
      let g2 ← mkFreshExprSyntheticOpaqueMVar (← mkArrow (mkNot p) (R z))
      g.assign (mkAppN (mkConst ``runs_ite) #[α, b, c, i, j, S, T, Q, p, dec, y, z, g1, g2])
      let (_, h1) ← g1.mvarId!.intro1
      let r1 ← follow ts h1
      let (_, h2) ← g2.mvarId!.intro1
      let r2 ← follow ts h2
      return r1 ++ r2
    else if n == ``Pure.pure then
      let a := args.back!
      let goal ← mkFreshExprSyntheticOpaqueMVar (mkApp Q a).headBeta
      result goal.mvarId!
      byProof g (mkAppN (mkConst ``runs_pure) #[α, b, c, i, S, a, Q, goal])
      return []
    else if n == ``Writer.line then
      let #[w, t] := args | throwError "line"
      let (T', h) ← bumpText b S t
      let ht ← tab b w
      byProof g (mkAppN (mkConst ``runs_line) #[b, c, i, S, T', w, ht, t, h])
      return []
    else if n == ``Writer.blank then
      let ht ← tab b args[0]!
      byProof g (mkAppN (mkConst ``runs_blank) #[b, c, i, S, args[0]!, ht])
      return []
    else if n == ``level then
      byProof g (mkAppN (mkConst ``runs_level) #[b, c, i, S])
      return []
    else if n == ``assertBalanced then
      byProof g (mkAppN (mkConst ``runs_balanced) #[b, S])
      return []
    else if n == ``shift then
      if args[0]!.isAppOf ``Neg.neg then
        let_expr HAdd.hAdd _ _ _ _ i _ := i | throwError "level below {i}"
        byProof g (mkAppN (mkConst ``runs_down) #[b, c, i, S])
      else
        byProof g (mkAppN (mkConst ``runs_up) #[b, c, i, S])
      return []
    else if n == ``each then
      let #[γ, xs, f] := args | throwError "each"
      let saved ← getGoals
      setGoals [g]
      let ok ← ts.anyM fun t => do
        if !(← isAbout x.getAppFn t) then return false
        try withoutRecover (withReducible (evalTactic (← `(tactic| exact Runs.anywhere $t)))); pure true catch _ => pure false
      setGoals saved
      if ok then return []
      if isLine f then
        let w := f.bindingBody!.appFn!.appArg!
        let (T', h) ← bumpLines b S xs
        let ht ← tab b w
        let pf := mkAppN (mkConst ``runs_lines) #[b, c, i, S, T', w, ht, xs, h]
        byProof g (← mkExpectedTypeHint pf (mkAppN (mkConst ``Runs) #[α, b, c, i, S, i, T', mkApp (mkConst ``Any) α, x]))
        return []
      let idx := xs.isAppOf ``List.zipIdx
      let γ' := if idx then γ.appFn!.appArg! else γ
      let xs' := if idx then xs.appFn!.appArg! else xs
      let t ← withLocalDeclD `x γ fun y => do
        let z ← if idx then mkAppM ``Prod.fst #[y] else pure y
        let hm ← mkAppM ``Membership.mem #[xs', z]
        mkForallFVars #[y] (← mkArrow hm
          (mkAppN (mkConst ``Runs) #[mkConst ``Unit, b, c, i, S, i, S, mkApp (mkConst ``Any) (mkConst ``Unit), (mkApp f y).headBeta]))
      let g1 ← mkFreshExprSyntheticOpaqueMVar t
      byProof g (mkAppN (mkConst (if idx then ``runs_each_idx else ``runs_each)) #[γ', b, c, i, S, xs', f, g1])
      let (_, g1) ← g1.mvarId!.introN 2
      follow ts g1
    else if n == ``eachWith then
      let #[γ, β, xs, y, f] := args | throwError "eachWith"
      let P ← if y.isAppOf ``List.nil then pure (mkApp (mkConst ``ClosedLines) b) else resultPred b β
      let g0 ← mkFreshExprSyntheticOpaqueMVar (mkApp P y).headBeta
      result g0.mvarId!
      let t ← withLocalDeclD `y β fun y => withLocalDeclD `x γ fun x => do
        let hm ← mkAppM ``Membership.mem #[xs, x]
        let t ← mkArrow hm (mkAppN (mkConst ``Runs) #[β, b, c, i, S, i, S, P, (mkAppN f #[y, x]).headBeta])
        let t ← mkForallFVars #[x] t
        mkForallFVars #[y] (← mkArrow (mkApp P y).headBeta t)
      let g1 ← mkFreshExprSyntheticOpaqueMVar t
      byProof g (mkAppN (mkConst ``runs_eachWith) #[γ, β, b, c, i, S, xs, f, P, y, g0, g1])
      let g1 ← take g1.mvarId!
      let (_, g1) ← g1.introN 2
      follow ts g1
    else if n == ``liftM || n == ``MonadLiftT.monadLift || n == ``MonadLift.monadLift then
      let y := args.back!
      let h ← solve (mkAppN (mkConst ``Has) #[α, Q, y]) (← `(tactic| look))
      let Q ← instantiateMVars Q
      let pf := mkAppN (mkConst ``runs_lift) #[α, b, c, i, S, Q, y, h]
      unless ← isDefEq (← g.getType) (← inferType pf) do throwError "lift"
      g.assign pf
      return []
    else
      if ← isMatcherApp x then
        match ← splitTarget? g with
        | some gs => return (← gs.mapM (follow ts)).flatten
        | none => return [g]
      let saved ← getGoals
      setGoals [g]
      let ok ← ts.anyM fun t => do
        if !(← isAbout x.getAppFn t) then return false
        try withoutRecover (withReducible (evalTactic (← `(tactic| exact Runs.anywhere $t)))); pure true catch _ => pure false
      let ok ← if ok then pure true else
        try withoutRecover (withReducible (evalTactic (← `(tactic| call)))); pure true catch _ => pure false
      if ok then
        let gs ← getUnsolvedGoals
        setGoals saved
        return gs
      else
        setGoals saved
        return [g]
  | _ => return [g]
where
  /-- Is the term about this function? -/
  isAbout (f : Expr) (t : TSyntax `term) : TacticM Bool := do
    let `($h:ident $_*) := t | return false
    let h ← Term.elabTerm h none
    let (_, _, t) ← forallMetaTelescope (← inferType h)
    let_expr Runs _ _ _ _ _ _ _ _ x := t | return false
    return x.getAppFn == f
  /-- The tab of the writer is closed. -/
  tab (b w : Expr) : TacticM Expr := do
    solve (mkAppN (mkConst ``Closed) #[b, mkApp (mkConst ``Writer.tab) w]) (← `(tactic| exact Good.tab here%))
  /-- `fun l => w.line l` -/
  isLine (f : Expr) : Bool :=
    f.isLambda && f.bindingBody!.isAppOfArity ``Writer.line 2 &&
      let t := f.bindingBody!.appArg!
      (t == .bvar 0 || (t.isAppOf ``ToString.toString && t.appArg! == .bvar 0) ||
        t.isAppOf ``HAppend.hAppend && false)

/-- Follow a writing function; the terms are about functions that it calls. -/
syntax "follow" (" [" term,* "]")? : tactic

elab_rules : tactic
  | `(tactic| follow) => do
    let g ← getMainGoal
    let others := (← getGoals).drop 1
    let rest ← follow #[] g
    setGoals (rest ++ others)
  | `(tactic| follow [$ts,*]) => do
    let g ← getMainGoal
    let others := (← getGoals).drop 1
    let rest ← follow ts.getElems g
    setGoals (rest ++ others)

end Beschi.Text
