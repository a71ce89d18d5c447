import Verif.Text.Writer
import Verif.Spec.Brackets
/-
Reading brackets from left to right.
-/
namespace Beschi.Text
open Spec

/-- The closing brackets that are still due, the next one first; nothing if a wrong one comes. -/
def scan : List Char → List Char → Option (List Char)
  | S, [] => some S
  | S, c :: cs =>
    if c = '(' then scan (')' :: S) cs
    else if c = '[' then scan (']' :: S) cs
    else if c = '{' then scan ('}' :: S) cs
    else if c = ')' ∨ c = ']' ∨ c = '}' then
      match S with
      | [] => none
      | d :: S => if d = c then scan S cs else none
    else scan S cs

theorem scan_cons (S : List Char) (c : Char) (cs : List Char) : scan S (c :: cs) =
    if c = '(' then scan (')' :: S) cs
    else if c = '[' then scan (']' :: S) cs
    else if c = '{' then scan ('}' :: S) cs
    else if c = ')' ∨ c = ']' ∨ c = '}' then
      match S with
      | [] => none
      | d :: S => if d = c then scan S cs else none
    else scan S cs := by rfl

theorem scan_append (S a b : List Char) : scan S (a ++ b) = (scan S a).bind fun T => scan T b := by
  induction a generalizing S with
  | nil => rfl
  | cons c a ih =>
    rw [List.cons_append, scan_cons, scan_cons S c a]
    split
    · exact ih _
    split
    · exact ih _
    split
    · exact ih _
    split
    · cases S with
      | nil => rfl
      | cons d S =>
        simp only
        split
        · exact ih _
        · rfl
    · exact ih _

theorem scan_frame {S T cs : List Char} (h : scan S cs = some T) (R : List Char) :
    scan (S ++ R) cs = some (T ++ R) := by
  induction cs generalizing S with
  | nil => unfold scan at h ⊢; cases h; rfl
  | cons c cs ih =>
    unfold scan at h ⊢
    split
    · rw [if_pos ‹_›] at h; exact ih h
    rw [if_neg ‹_›] at h
    split
    · rw [if_pos ‹_›] at h; exact ih h
    rw [if_neg ‹_›] at h
    split
    · rw [if_pos ‹_›] at h; exact ih h
    rw [if_neg ‹_›] at h
    split
    · rw [if_pos ‹_›] at h
      cases S with
      | nil => cases h
      | cons d S =>
        simp only [List.cons_append] at h ⊢
        split
        · rw [if_pos ‹_›] at h; exact ih h
        · rw [if_neg ‹_›] at h; cases h
    · rw [if_neg ‹_›] at h; exact ih h

theorem scan_plain {c : Char} (h : c ∉ brackets) (S cs : List Char) : scan S (c :: cs) = scan S cs := by
  simp only [brackets, List.mem_cons, List.not_mem_nil, or_false, not_or] at h
  rw [scan_cons, if_neg h.1, if_neg h.2.2.1, if_neg h.2.2.2.2.1, if_neg (by simp [h])]

theorem scan_noBrackets {cs : List Char} (h : ∀ c ∈ cs, c ∉ brackets) (S : List Char) : scan S cs = some S := by
  induction cs with
  | nil => rfl
  | cons c cs ih => rw [scan_plain (h c (by simp))]; exact ih fun d hd => h d (by simp [hd])

/-- What has been read when a bracket is closed: a matched text up to it. -/
theorem matched_split {S : List Char} {d : Char} {cs T : List Char} (hd : d = ')' ∨ d = ']' ∨ d = '}')
    (h : scan (d :: S) cs = some T) (hT : T.length ≤ S.length) :
    ∃ inner rest, cs = inner ++ d :: rest ∧ Matched inner ∧ scan S rest = some T := by
  obtain ⟨n, hn⟩ : ∃ n, cs.length = n := ⟨_, rfl⟩
  induction n using Nat.strongRecOn generalizing S d cs T with
  | _ n ih =>
    cases cs with
    | nil => unfold scan at h; cases h; simp at hT; omega
    | cons c cs =>
      have key : ∀ e, (e = ')' ∨ e = ']' ∨ e = '}') → Pair c e → scan (e :: d :: S) cs = some T →
          ∃ inner rest, c :: cs = inner ++ d :: rest ∧ Matched inner ∧ scan S rest = some T := by
        intro e he hp hs
        obtain ⟨i1, r1, h1, h2, h3⟩ := ih cs.length (by simp at hn; omega) he hs (by simp; omega) rfl
        obtain ⟨i2, r2, h4, h5, h6⟩ := ih r1.length (by
          have := congrArg List.length h1
          simp at this hn
          omega) hd h3 hT rfl
        refine ⟨c :: (i1 ++ e :: i2), r2, by rw [h1, h4]; simp, .pair hp h2 h5, h6⟩
      unfold scan at h
      split at h
      · subst c; exact key _ (by decide) .round h
      split at h
      · subst c; exact key _ (by decide) .square h
      split at h
      · subst c; exact key _ (by decide) .curly h
      split at h
      · simp only at h
        split at h
        · subst d; exact ⟨[], cs, rfl, .nil, h⟩
        · cases h
      · obtain ⟨i, r, h1, h2, h3⟩ := ih cs.length (by simp at hn; omega) hd h hT rfl
        refine ⟨c :: i, r, by rw [h1]; rfl, .char ?_ h2, h3⟩
        simp only [brackets, List.mem_cons, List.not_mem_nil, or_false, not_or]
        simp_all

/-- A text read from nothing due to nothing due is matched. -/
theorem matched_of_scan {cs : List Char} (h : scan [] cs = some []) : Matched cs := by
  obtain ⟨n, hn⟩ : ∃ n, cs.length = n := ⟨_, rfl⟩
  induction n using Nat.strongRecOn generalizing cs with
  | _ n ih =>
    cases cs with
    | nil => exact .nil
    | cons c cs =>
      have key : ∀ e, (e = ')' ∨ e = ']' ∨ e = '}') → Pair c e → scan [e] cs = some [] → Matched (c :: cs) := by
        intro e he hp hs
        obtain ⟨i1, r1, h1, h2, h3⟩ := matched_split he hs (by simp)
        rw [h1]
        refine .pair hp h2 (ih r1.length ?_ h3 rfl)
        have := congrArg List.length h1
        simp at this hn
        omega
      unfold scan at h
      split at h
      · subst c; exact key _ (by decide) .round h
      split at h
      · subst c; exact key _ (by decide) .square h
      split at h
      · subst c; exact key _ (by decide) .curly h
      split at h
      · cases h
      · refine .char ?_ (ih cs.length (by simp at hn; omega) h rfl)
        simp only [brackets, List.mem_cons, List.not_mem_nil, or_false, not_or]
        simp_all

theorem scan_of_matched {cs : List Char} (h : Matched cs) (S : List Char) : scan S cs = some S := by
  induction h generalizing S with
  | nil => rfl
  | char hc _ ih => rw [scan_plain hc]; exact ih S
  | pair hp _ _ ih1 ih2 =>
    cases hp <;> (simp [scan]; rw [scan_append, ih1]; simp [scan, ih2])

/-! Texts: `b` tells whether brackets are looked at. -/

/-- The text leaves the brackets due as they are. -/
def Closed (b : Bool) (t : String) : Prop := b = true → ∀ S, scan S t.toList = some S

/-- The text takes the brackets due from `S` to `T`. -/
def Bump (b : Bool) (S T : List Char) (t : String) : Prop :=
  b = true → ∀ R, scan (S ++ R) t.toList = some (T ++ R)

/-- The same for lines. -/
def BumpLines (b : Bool) (S T : List Char) (ls : List String) : Prop :=
  b = true → ∀ R, scan (S ++ R) (ls.flatMap (·.toList)) = some (T ++ R)

def ClosedLines (b : Bool) (ls : List String) : Prop := BumpLines b [] [] ls

theorem Closed.bump {b : Bool} {t : String} (h : Closed b t) (S : List Char) : Bump b S S t := fun e _ => h e _

theorem Closed.off {t : String} : Closed false t := fun e => by cases e

theorem Closed.matched {t : String} (h : Closed true t) : Matched t.toList := matched_of_scan (h rfl [])

theorem closed_of_matched {b : Bool} {t : String} (h : Matched t.toList) : Closed b t := fun _ S => scan_of_matched h S

theorem closed_of_noBrackets {b : Bool} {t : String} (h : b = true → NoBrackets t) : Closed b t :=
  fun e => scan_noBrackets (h e)

theorem bump_append {b : Bool} {S T U : List Char} {s t : String} (h1 : Bump b S T s) (h2 : Bump b T U t) :
    Bump b S U (s ++ t) := fun e R => by
  rw [String.toList_append, scan_append, h1 e R]
  exact h2 e R

theorem bump_lit {b : Bool} {S T : List Char} {t : String} (cs : List Char) (ht : t = String.ofList cs)
    (h : scan S cs = some T) : Bump b S T t := fun _ R => by
  rw [ht, String.toList_ofList]
  exact scan_frame h R

theorem Bump.closed {b : Bool} {t : String} (h : Bump b [] [] t) : Closed b t := fun e S => by
  simpa using h e S

theorem closed_append {b : Bool} {s t : String} (h1 : Closed b s) (h2 : Closed b t) : Closed b (s ++ t) :=
  (bump_append (h1.bump []) (h2.bump [])).closed

theorem closed_ite {b : Bool} {c : Prop} [Decidable c] {s t : String} (h1 : Closed b s) (h2 : Closed b t) :
    Closed b (if c then s else t) := by split <;> assumption

theorem closed_empty {b : Bool} : Closed b "" := fun _ _ => rfl

theorem bumpLines_nil {b : Bool} {S : List Char} : BumpLines b S S [] := fun _ _ => rfl

theorem bumpLines_append {b : Bool} {S T U : List Char} {s t : List String} (h1 : BumpLines b S T s)
    (h2 : BumpLines b T U t) : BumpLines b S U (s ++ t) := fun e R => by
  rw [List.flatMap_append, scan_append, h1 e R]
  exact h2 e R

theorem bumpLines_one {b : Bool} {S T : List Char} {t : String} (h : Bump b S T t) : BumpLines b S T [t] :=
  fun e R => by simpa using h e R

theorem bumpLines_cons {b : Bool} {S T U : List Char} {t : String} {ts : List String} (h1 : Bump b S T t)
    (h2 : BumpLines b T U ts) : BumpLines b S U (t :: ts) := bumpLines_append (bumpLines_one h1) h2

theorem ClosedLines.bump {b : Bool} {ls : List String} (h : ClosedLines b ls) (S : List Char) : BumpLines b S S ls :=
  fun e R => by simpa using h e (S ++ R)

theorem BumpLines.closed {b : Bool} {ls : List String} (h : BumpLines b [] [] ls) : ClosedLines b ls := h

/-- Prefixing every line with a closed text changes nothing. -/
theorem bumpLines_map {b : Bool} {S T : List Char} {ls : List String} {f : String → String}
    (hf : b = true → ∀ l S, scan S (f l).toList = scan S l.toList) (h : BumpLines b S T ls) :
    BumpLines b S T (ls.map f) := fun e R => by
  rw [← h e R]
  generalize S ++ R = X
  clear h
  induction ls generalizing X with
  | nil => rfl
  | cons l ls ih =>
    simp only [List.map_cons, List.flatMap_cons, scan_append, hf e l]
    cases scan X l.toList with
    | none => rfl
    | some Y => exact ih Y

theorem closedLines_map {b : Bool} {ls : List String} {f : String → String}
    (hf : b = true → ∀ l S, scan S (f l).toList = scan S l.toList) (h : ClosedLines b ls) :
    ClosedLines b (ls.map f) := bumpLines_map hf h

theorem scan_closed_left {s t : String} (hs : ∀ S, scan S s.toList = some S) (S : List Char) :
    scan S (s ++ t).toList = scan S t.toList := by
  rw [String.toList_append, scan_append, hs]; rfl

theorem closedLines_tail {b : Bool} {l : String} {ls : List String} (hl : Closed b l) (h : ClosedLines b (l :: ls)) :
    ClosedLines b ls := fun e R => by
  have := h e R
  rw [List.flatMap_cons, scan_append, hl e] at this
  exact this

end Beschi.Text
