import Lean
import Verif.Text.Scan
/-
Rules to show that a writing function does not raise, by how much it changes the indentation level, and
which brackets it opens and closes.
-/
namespace Beschi.Text
open Spec

/-- The closing brackets due after some lines. -/
def Due (b : Bool) (lines : List String) (S : List Char) : Prop :=
  b = true → scan [] (lines.flatMap (·.toList)) = some S

/-- The function ends without an exception, takes the level from `c + i` to `c + j` and the brackets due
from `S` to `T` (before those due when it starts), and returns something in `Q`. -/
def Runs {α : Type} (b : Bool) (c : Int) (i : Nat) (S : List Char) (j : Nat) (T : List Char) (Q : α → Prop)
    (x : Emit α) : Prop :=
  ∀ o (R : List Char), o.indent = c + i → Due b o.lines (S ++ R) →
    ∃ a o', x o = .ok (a, o') ∧ o'.indent = c + j ∧ Due b o'.lines (T ++ R) ∧ Q a

/-- Nothing is known of what is returned. -/
def Any {α : Type} : α → Prop := fun _ => True

/-- A lookup succeeds. -/
def Has {α : Type} (Q : α → Prop) (x : Except Exn α) : Prop := ∃ a, x = .ok a ∧ Q a

theorem Has.weaken {α : Type} {P Q : α → Prop} {x : Except Exn α} (h : Has P x) (hpq : ∀ a, P a → Q a) : Has Q x := by
  obtain ⟨a, h, hp⟩ := h
  exact ⟨a, h, hpq a hp⟩

variable {α β : Type} {b : Bool} {c : Int} {i j k : Nat} {S T U : List Char} {w : Writer}

theorem Runs.weaken {P Q : α → Prop} {x : Emit α} (h : Runs b c i S j T P x) (hpq : ∀ a, P a → Q a) :
    Runs b c i S j T Q x := fun o R h1 h2 => by
  obtain ⟨a, o', h1, h2, h3, h4⟩ := h o R h1 h2
  exact ⟨a, o', h1, h2, h3, hpq a h4⟩

/-- Where it starts does not matter. -/
theorem Runs.frame {Q : α → Prop} {x : Emit α} (h : ∀ c, Runs b c i S j T Q x) (n : Nat) (R : List Char) :
    Runs b c (n + i) (S ++ R) (n + j) (T ++ R) Q x := fun o R' h1 h2 => by
  obtain ⟨a, o', h1, h2, h3, h4⟩ := h (c + n) o (R ++ R') (by push_cast at h1; omega) (by simpa using h2)
  exact ⟨a, o', h1, by push_cast; omega, by simpa using h3, h4⟩

theorem Runs.anywhere {Q : α → Prop} {x : Emit α} (h : ∀ c, Runs b c 0 [] 0 [] Q x) : Runs b c i S i S Q x :=
  Runs.frame h i S

theorem runs_pure {a : α} {Q : α → Prop} (h : Q a) : Runs b c i S i S Q (pure a : Emit α) :=
  fun o _ h1 h2 => ⟨a, o, rfl, h1, h2, h⟩

theorem runs_bind {P : α → Prop} {Q : β → Prop} {x : Emit α} {f : α → Emit β}
    (hx : Runs b c i S j T P x) (hf : ∀ a, P a → Runs b c j T k U Q (f a)) : Runs b c i S k U Q (x >>= f) :=
  fun o R h1 h2 => by
    obtain ⟨a, o1, h3, h4, h5, h6⟩ := hx o R h1 h2
    obtain ⟨a', o2, h7, h8, h9, h10⟩ := hf a h6 o1 R h4 h5
    refine ⟨a', o2, ?_, h8, h9, h10⟩
    show Emit.bind x f o = _
    simp only [Emit.bind, h3, h7]

theorem closed_times {n : Int} {s : String} (h : Closed b s) : Closed b (times n s) := by
  unfold times
  generalize n.toNat = m
  intro e S
  induction m with
  | zero => rfl
  | succ m ih =>
    rw [List.replicate_succ, String.join_cons, scan_closed_left (h e)]
    exact ih

/-- What `write_line` adds. -/
def Writer.shown (w : Writer) (lvl : Int) (t : String) : String := if t.length = 0 then "" else w.indentString lvl t

theorem shown_scan (ht : Closed b w.tab) (lvl : Int) (e : b = true) (t : String) (S : List Char) :
    scan S (w.shown lvl t).toList = scan S t.toList := by
  unfold Writer.shown
  split
  · rename_i hl
    have : t = "" := by rwa [← String.length_eq_zero_iff]
    subst this; rfl
  · exact scan_closed_left (closed_times ht e) S

theorem runs_line (ht : Closed b w.tab) {t : String} (h : Bump b S T t) : Runs b c i S i T Any (w.line t) :=
  fun o R h1 h2 => by
    refine ⟨(), _, rfl, h1, fun e => ?_, trivial⟩
    simp only [List.flatMap_append, List.flatMap_cons, List.flatMap_nil, List.append_nil]
    rw [scan_append, h2 e]
    exact (shown_scan ht _ e t _).trans (h e R)

theorem runs_blank (ht : Closed b w.tab) : Runs b c i S i S Any w.blank := runs_line ht (closed_empty.bump S)

theorem runs_up : Runs b c i S (i + 1) S Any (shift 1) :=
  fun _ _ h1 h2 => ⟨(), _, rfl, by simp [h1]; omega, h2, trivial⟩

theorem runs_down : Runs b c (i + 1) S i S Any (shift (-1)) :=
  fun _ _ h1 h2 => ⟨(), _, rfl, by simp [h1]; omega, h2, trivial⟩

theorem runs_level : Runs b c i S i S Any level := fun o _ h1 h2 => ⟨o.indent, o, rfl, h1, h2, trivial⟩

theorem runs_balanced : Runs b 0 0 S 0 S Any assertBalanced :=
  fun o _ h1 h2 => ⟨(), o, by simp [assertBalanced, h1], h1, h2, trivial⟩

theorem runs_lift {Q : α → Prop} {x : Except Exn α} (h : Has Q x) : Runs b c i S i S Q (liftM x : Emit α) :=
  fun o _ h1 h2 => by
    obtain ⟨a, h, hq⟩ := h
    exact ⟨a, o, by subst h; rfl, h1, h2, hq⟩

theorem runs_ite {Q : α → Prop} {p : Prop} [Decidable p] {x y : Emit α}
    (hx : p → Runs b c i S j T Q x) (hy : ¬ p → Runs b c i S j T Q y) : Runs b c i S j T Q (if p then x else y) := by
  split
  · exact hx ‹_›
  · exact hy ‹_›

theorem runs_each {xs : List α} {f : α → Emit Unit} (h : ∀ x ∈ xs, Runs b c i S i S Any (f x)) :
    Runs b c i S i S Any (each xs f) := by
  induction xs with
  | nil => exact runs_pure trivial
  | cons x xs ih => exact runs_bind (h x (by simp)) fun _ _ => ih fun y hy => h y (by simp [hy])

theorem runs_each_idx {xs : List α} {f : α × Nat → Emit Unit} (h : ∀ x, x.1 ∈ xs → Runs b c i S i S Any (f x)) :
    Runs b c i S i S Any (each xs.zipIdx f) :=
  runs_each fun x hx => h x (List.fst_mem_of_mem_zipIdx hx)

theorem runs_eachWith {xs : List α} {f : β → α → Emit β} {Q : β → Prop} {y : β} (hy : Q y)
    (h : ∀ y, Q y → ∀ x ∈ xs, Runs b c i S i S Q (f y x)) : Runs b c i S i S Q (eachWith xs y f) := by
  induction xs generalizing y with
  | nil => exact runs_pure hy
  | cons x xs ih =>
    exact runs_bind (h y hy x (by simp)) fun y' hy' => ih hy' fun c hc z hz => h c hc z (by simp [hz])

theorem each_line (ls : List String) (o : Out) : each ls (fun s => w.line s) o =
    .ok ((), { o with lines := o.lines ++ ls.map (w.shown o.indent) }) := by
  induction ls generalizing o with
  | nil => show Except.ok _ = _; simp
  | cons l ls ih =>
    show Emit.bind (w.line l) (fun _ => each ls fun s => w.line s) o = _
    simp only [Emit.bind, Writer.line]
    rw [ih]
    simp [Writer.shown]

theorem runs_lines (ht : Closed b w.tab) {ls : List String} (h : BumpLines b S T ls) :
    Runs b c i S i T Any (each ls fun s => w.line s) := fun o R h1 h2 => by
  refine ⟨(), _, each_line ls o, h1, fun e => ?_, trivial⟩
  simp only [List.flatMap_append]
  rw [scan_append, h2 e]
  exact bumpLines_map (fun e l S => shown_scan ht _ e l S) h e R

/-! Boilerplate -/

theorem scan_dropPrefix {old cs rest : List Char} (h : dropPrefix old cs = some rest) : cs = old ++ rest := by
  induction old generalizing cs with
  | nil => cases h; rfl
  | cons a as ih =>
    cases cs with
    | nil => cases h
    | cons c cs =>
      unfold dropPrefix at h
      split at h
      · subst c; rw [ih h]; rfl
      · cases h

theorem replaceChars_skip (old new : List Char) (n : Nat) (cs : List Char) :
    replaceChars old new n cs = replaceChars old new 0 (cs.drop n) := by
  induction n generalizing cs with
  | zero => rfl
  | succ n ih =>
    cases cs with
    | nil => simp [replaceChars]
    | cons c cs => simp only [replaceChars, List.drop_succ_cons]; exact ih cs

theorem scan_replaceChars {old new : List Char} (h0 : old ≠ []) (ho : ∀ S, scan S old = some S)
    (hn : ∀ S, scan S new = some S) (cs : List Char) (S : List Char) :
    scan S (replaceChars old new 0 cs) = scan S cs := by
  obtain ⟨n, hl⟩ : ∃ n, cs.length = n := ⟨_, rfl⟩
  induction n using Nat.strongRecOn generalizing cs S with
  | _ n ih =>
    cases cs with
    | nil => simp [replaceChars]
    | cons c cs =>
      simp only [replaceChars]
      split
      · rename_i rest hp
        have hr := scan_dropPrefix hp
        rw [replaceChars_skip, scan_append, hn]
        show scan S (replaceChars old new 0 _) = _
        rw [ih _ (by simp at hl ⊢; omega) _ _ rfl]
        cases old with
        | nil => exact absurd rfl h0
        | cons a as =>
          obtain ⟨rfl, h2⟩ := List.cons.inj (hr.trans (List.cons_append ..))
          subst h2
          simp only [List.length_cons, Nat.add_sub_cancel]
          rw [List.drop_left]
          have := scan_append S (c :: as) rest
          rw [ho] at this
          exact this.symm
      · have : ∀ S, scan S (replaceChars old new 0 cs) = scan S cs := fun S => ih _ (by simp at hl; omega) _ _ rfl
        rw [scan_cons, scan_cons]
        simp only [this]

theorem scan_replace {s old new : String} (h0 : old ≠ "") (ho : ∀ S, scan S old.toList = some S)
    (hn : ∀ S, scan S new.toList = some S) (S : List Char) : scan S (replace s old new).toList = scan S s.toList := by
  unfold replace
  rw [String.toList_ofList]
  exact scan_replaceChars (by simpa using h0) ho hn _ _

theorem closed_replace {s old new : String} (h0 : old ≠ "") (ho : Closed b old) (hn : Closed b new)
    (h : Closed b s) : Closed b (replace s old new) := fun e S => by
  rw [scan_replace h0 (ho e) (hn e)]; exact h e S

theorem stripIndent_eq (old : List Char) (fuel : Nat) (cs : List Char) :
    cs = (List.replicate (stripIndent old fuel cs).1 old).flatten ++ (stripIndent old fuel cs).2 := by
  induction fuel generalizing cs with
  | zero => simp [stripIndent]
  | succ fuel ih =>
    unfold stripIndent
    split
    · simp
    · rename_i rest hp
      have := ih rest
      simp only [List.replicate_succ, List.flatten_cons, List.append_assoc]
      rw [← this]
      exact scan_dropPrefix hp

theorem scan_replaceIndent {old new : String} (ho : ∀ S, scan S old.toList = some S)
    (hn : ∀ S, scan S new.toList = some S) (l : String) (S : List Char) :
    scan S (replaceIndent l old new).toList = scan S l.toList := by
  unfold replaceIndent
  simp only
  rw [scan_closed_left (fun S => closed_times (b := true) (fun _ => hn) rfl S), String.toList_ofList]
  have hl := stripIndent_eq old.toList l.length l.toList
  generalize stripIndent old.toList l.length l.toList = r at hl
  rw [hl, scan_append]
  have : ∀ n, scan S (List.replicate n old.toList).flatten = some S := fun n => by
    induction n with
    | zero => rfl
    | succ n ih => rw [List.replicate_succ, List.flatten_cons, scan_append, ho]; exact ih
  rw [this]
  rfl

/-- The substitution changes no brackets. -/
def SubClosed (b : Bool) (x : String × Sub) : Prop :=
  x.1 ≠ "" ∧ Closed b x.1 ∧ match x.2 with
    | .text new => Closed b new
    | .lines ls => ClosedLines b ls

theorem bumpLines_substitute {ls : List String} {x : String × Sub} (hx : SubClosed b x) (h : BumpLines b S T ls) :
    BumpLines b S T (substitute ls x) := by
  obtain ⟨old, new⟩ := x
  obtain ⟨h0, ho, hn⟩ := hx
  cases new with
  | text new => exact bumpLines_map (fun e l S => scan_replace h0 (ho e) (hn e) S) h
  | lines new =>
    intro e R
    rw [← h e R]
    generalize S ++ R = X
    clear h
    unfold substitute
    induction ls generalizing X with
    | nil => rfl
    | cons l ls ih =>
      simp only [List.flatMap_cons, List.flatMap_append, scan_append]
      have : scan X ((if l = old then new else [l]).flatMap (·.toList)) = scan X l.toList := by
        split
        · subst l
          rw [ho e]
          simpa using hn e X
        · simp
      rw [this]
      cases scan X l.toList with
      | none => rfl
      | some Y => exact ih Y

theorem bumpLines_substitutes {subs : List (String × Sub)} {ls : List String} (hs : ∀ x ∈ subs, SubClosed b x)
    (h : BumpLines b S T ls) : BumpLines b S T (subs.foldl substitute ls) := by
  induction subs generalizing ls with
  | nil => exact h
  | cons x xs ih => exact ih (fun y hy => hs y (by simp [hy])) (bumpLines_substitute (hs x (by simp)) h)

theorem runs_boilerplate {n : Nat} {subs : List (String × Sub)} (ht : Closed b w.tab) (hn : Closed b w.nativeTab)
    (hs : ∀ x ∈ subs, SubClosed b x) (h : BumpLines b S T (w.boilerplate n)) :
    Runs b c i S i T Any (w.addBoilerplate subs n) :=
  runs_lines ht (bumpLines_map (fun e l S => scan_replaceIndent (hn e) (ht e) l S) (bumpLines_substitutes hs h))

end Beschi.Text
