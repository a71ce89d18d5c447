import Verif.Lang.Names
import Verif.Spec.Names
/-
Renaming of members: helper lemmas.
-/
namespace Beschi.Lang
open Spec

theorem isUpperAZ_iff (c : Char) : isUpperAZ c = true ↔ Capital c := by
  simp [isUpperAZ, Capital]
theorem isLowerAZ_iff (c : Char) : isLowerAZ c = true ↔ Small c := by
  simp [isLowerAZ, Small]
theorem isLowerAZ09_iff (c : Char) : isLowerAZ09 c = true ↔ Small c ∨ Digit c := by
  simp [isLowerAZ09, isLowerAZ, Small, Digit]

theorem not_small_of_capital {c : Char} (h : Capital c) : ¬ (Small c ∨ Digit c) := by
  unfold Capital Small Digit at *
  simp only [Char.le_def, UInt32.le_iff_toNat_le] at *
  have e1 : 'A'.val.toNat = 65 := rfl
  have e2 : 'Z'.val.toNat = 90 := rfl
  have e3 : 'a'.val.toNat = 97 := rfl
  have e4 : '9'.val.toNat = 57 := rfl
  have e5 : 'z'.val.toNat = 122 := rfl
  have e6 : '0'.val.toNat = 48 := rfl
  omega

/-- The second substitution, looking backwards. -/
def humps (before : Option Char) : List Char → List Char
  | [] => []
  | c :: cs => (if before.any isLowerAZ09 && isUpperAZ c then ['_', c] else [c]) ++ humps (some c) cs

theorem splitHumps_cons (c : Char) (cs : List Char) : splitHumps false (c :: cs) = c :: humps (some c) cs := by
  induction cs generalizing c with
  | nil => simp [splitHumps, humps]
  | cons d ds ih =>
    have hd : splitHumps false (d :: ds) = d :: humps (some d) ds := ih d
    rw [splitHumps, humps]
    simp only [Bool.not_false, Bool.true_and, List.head?_cons, Option.any_some]
    by_cases h : (isLowerAZ09 c && isUpperAZ d) = true
    · rw [if_pos h, if_pos h]
      have hu : Capital d := (isUpperAZ_iff d).1 (by simp at h; exact h.2)
      have hn : isLowerAZ09 d = false := by
        cases e : isLowerAZ09 d
        · rfl
        · exact absurd ((isLowerAZ09_iff d).1 e) (not_small_of_capital hu)
      have : splitHumps true (d :: ds) = splitHumps false (d :: ds) := by
        rw [splitHumps, splitHumps, hn]; simp
      rw [this, hd]
      rfl
    · rw [if_neg h, if_neg h, hd]
      rfl

theorem splitHumps_eq (cs : List Char) : splitHumps false cs = humps none cs := by
  cases cs with
  | nil => rfl
  | cons c cs => rw [splitHumps_cons]; simp [humps]

theorem startsWord_cons {c : Char} {cs : List Char} :
    startsWord (c :: cs) = true ↔ Capital c ∧ ∃ d ∈ cs.head?, Small d := by
  cases cs with
  | nil => simp [startsWord]
  | cons d ds => simp [startsWord, isUpperAZ_iff, isLowerAZ_iff]

theorem not_capital_of_small {c : Char} (h : Small c) : ¬ Capital c :=
  fun hc => not_small_of_capital hc (.inl h)

/-- What holds while scanning, with `q` before the rest `cs`. -/
def Scan.Inv (q : Char) (cs : List Char) : Scan → Prop
  | .between => startsWord cs = false
  | .lowers => Small q ∨ startsWord cs = false
  | .upper => startsWord cs = true

theorem humps_underscore (q : Char) (cs : List Char) :
    humps (some q) ('_' :: cs) = '_' :: humps (some '_') cs := by
  simp [humps, isUpperAZ]

theorem splitWords_snake (q : Char) (cs : List Char) (hn : ∀ c ∈ cs, c ≠ '\n') (st : Scan)
    (h : st.Inv q cs) :
    (match st with
      | .upper => '_' :: (humps (some '_') (splitWords .upper cs)).map Char.toLower
      | st => (humps (some q) (splitWords st cs)).map Char.toLower) = snakeCase (some q) cs := by
  induction cs generalizing q st with
  | nil =>
    cases st with
    | upper => exact nomatch (h : startsWord [] = true)
    | between => rfl
    | lowers => rfl
  | cons c cs ih =>
    have hn' : ∀ c ∈ cs, c ≠ '\n' := fun d hd => hn d (List.mem_cons_of_mem _ hd)
    have hc : c ≠ '\n' := hn c List.mem_cons_self
    cases st with
    | upper =>
      obtain ⟨h1, h2⟩ := startsWord_cons.1 (h : startsWord (c :: cs) = true)
      have hi : Scan.Inv c cs .lowers := by
        right
        cases cs with
        | nil => rfl
        | cons d ds =>
          obtain ⟨d', e, hs⟩ := h2
          cases e
          cases e : startsWord (d :: ds)
          · rfl
          · exact absurd (startsWord_cons.1 e).1 (not_capital_of_small hs)
      have := ih c hn' .lowers hi
      simp only at this ⊢
      rw [snakeCase, if_pos ⟨h1, q, rfl, .inr h2⟩, splitWords, humps, ← this]
      simp [isLowerAZ09, isLowerAZ]
    | between | lowers =>
      have key : (before : Bool) → before = (isLowerAZ09 q && isUpperAZ c) →
          (before = true ↔ WordBegins (some q) c cs.head?) := by
        rintro _ rfl
        rw [Bool.and_eq_true, isLowerAZ09_iff, isUpperAZ_iff]
        refine ⟨fun ⟨a, b⟩ => ⟨b, q, rfl, .inl a⟩, ?_⟩
        rintro ⟨a, q', e, b⟩
        cases e
        refine ⟨b.elim id fun b => ?_, a⟩
        have hw : startsWord (c :: cs) = true := startsWord_cons.2 ⟨a, b⟩
        first
        | exact absurd hw (by rw [show startsWord (c :: cs) = false from h]; simp)
        | exact .inl ((h : Small q ∨ _).resolve_right (by rw [hw]; simp))
      have step : ∀ st', (match st' with
            | Scan.upper => '_' :: (humps (some '_') (splitWords .upper cs)).map Char.toLower
            | st' => (humps (some c) (splitWords st' cs)).map Char.toLower) = snakeCase (some c) cs →
          (humps (some q) (c :: (match st' with
            | Scan.upper => '_' :: splitWords .upper cs
            | st' => splitWords st' cs))).map Char.toLower = snakeCase (some q) (c :: cs) := by
        intro st' e
        rw [humps, snakeCase, ← e]
        have k := key _ rfl
        simp only [Option.any_some]
        cases st' with
        | upper =>
          simp only [humps_underscore]
          by_cases hb : (isLowerAZ09 q && isUpperAZ c) = true
          · rw [if_pos hb, if_pos (k.1 hb)]; simp
          · rw [if_neg hb, if_neg (fun x => hb (k.2 x))]; simp
        | between | lowers =>
          by_cases hb : (isLowerAZ09 q && isUpperAZ c) = true
          · rw [if_pos hb, if_pos (k.1 hb)]; simp
          · rw [if_neg hb, if_neg (fun x => hb (k.2 x))]; simp
      simp only [splitWords]
      by_cases hw : startsWord cs = true
      · have su := step .upper (ih c hn' .upper hw)
        first
        | rw [if_pos ⟨hc, hw⟩]; exact su
        | by_cases hl : isLowerAZ c = true
          · rw [if_pos hl]
            exact step .lowers (ih c hn' .lowers (.inl ((isLowerAZ_iff c).1 hl)))
          · rw [if_neg hl, if_pos ⟨hc, hw⟩]; exact su
      · have hw' : startsWord cs = false := by simpa using hw
        have sb := step .between (ih c hn' .between hw')
        first
        | rw [if_neg (fun x => hw x.2)]; exact sb
        | by_cases hl : isLowerAZ c = true
          · rw [if_pos hl]
            exact step .lowers (ih c hn' .lowers (.inl ((isLowerAZ_iff c).1 hl)))
          · rw [if_neg hl, if_neg (fun x => hw x.2)]; exact sb

theorem snake_eq (s : String) (hn : ∀ c ∈ s.toList, c ≠ '\n') :
    (snake s).toList = snakeCase none s.toList := by
  rw [snake, String.toList_ofList, splitHumps_eq]
  generalize s.toList = cs at hn
  cases cs with
  | nil => rfl
  | cons c cs =>
    have hn' : ∀ c ∈ cs, c ≠ '\n' := fun d hd => hn d (List.mem_cons_of_mem _ hd)
    have hc : c ≠ '\n' := hn c List.mem_cons_self
    have h0 : ¬ WordBegins none c cs.head? := fun ⟨_, q, h, _⟩ => nomatch h
    rw [snakeCase, if_neg h0, splitWords]
    by_cases hw : startsWord cs = true
    · rw [if_pos ⟨hc, hw⟩, ← splitWords_snake c cs hn' .upper hw, humps]
      simp only [humps_underscore]
      simp
    · rw [if_neg (fun x => hw x.2), ← splitWords_snake c cs hn' .between (show startsWord cs = false by simpa using hw), humps]
      simp

/-! ### Distinct names -/

theorem toLower_underscore : ('_' : Char).toLower = '_' := by decide

theorem snakeCase_folded (before : Option Char) (cs : List Char) :
    (snakeCase before cs).filter (· ≠ '_') = (cs.map Char.toLower).filter (· ≠ '_') := by
  induction cs generalizing before with
  | nil => rfl
  | cons c cs ih =>
    rw [snakeCase, List.filter_append, ih]
    split <;> (by_cases h : c.toLower = '_' <;> simp [h])

theorem snakeCase_small (before : Option Char) (cs : List Char) (h : ∀ c ∈ cs, ¬ Capital c) :
    snakeCase before cs = cs := by
  induction cs generalizing before with
  | nil => rfl
  | cons c cs ih =>
    have hc := h c List.mem_cons_self
    rw [snakeCase, ih _ fun d hd => h d (List.mem_cons_of_mem _ hd), if_neg fun x => hc x.1]
    have : c.toLower = c := by
      unfold Char.toLower
      split
      · next hx =>
        refine absurd ?_ hc
        unfold Capital
        simpa [Char.le_def] using hx
      · rfl
    rw [this]
    rfl

theorem snakeCase_no_capital (before : Option Char) (cs : List Char) :
    ∀ c ∈ snakeCase before cs, ¬ Capital c := by
  have hl : ∀ c : Char, ¬ Capital c.toLower := by
    intro c
    unfold Char.toLower Capital
    split
    · next hx =>
      simp only [Char.le_def, UInt32.le_iff_toNat_le] at hx ⊢
      intro h
      have := hx.2
      have h2 := h.2
      simp only [UInt32.toNat_add] at h2
      have e1 : 'A'.val.toNat = 65 := rfl
      have e2 : 'Z'.val.toNat = 90 := rfl
      have e3 : ('a'.val - 'A'.val).toNat = 32 := rfl
      have e4 := hx.1
      simp only [e3, e2] at h2
      omega
    · next hx => simpa [Char.le_def] using hx
  induction cs generalizing before with
  | nil => intro c hc; cases hc
  | cons d ds ih =>
    intro c hc
    rw [snakeCase, List.mem_append] at hc
    rcases hc with hc | hc
    · split at hc
      · simp only [List.mem_cons, List.not_mem_nil, or_false] at hc
        rcases hc with rfl | rfl
        · decide
        · exact hl d
      · simp only [List.mem_cons, List.not_mem_nil, or_false] at hc
        subst hc
        exact hl d
    · exact ih _ c hc

theorem toUpper_inj {a b : Char} (h : Small a ↔ Small b) (e : a.toUpper = b.toUpper) : a = b := by
  unfold Char.toUpper at e
  unfold Small at h
  simp only [Char.le_def] at h
  split at e <;> split at e
  · next h1 h2 =>
    simp only [Char.mk.injEq] at e
    exact Char.ext ((UInt32.add_left_inj _).1 e)
  · next h1 h2 => exact absurd (by simpa using h1) (fun x => h2 (by simpa using h.1 x))
  · next h1 h2 => exact absurd (by simpa using h2) (fun x => h1 (by simpa using h.2 x))
  · exact e

theorem capitalCase_inj {a b : List Char} (h : ∀ c ∈ a.head?, ∀ d ∈ b.head?, (Small c ↔ Small d))
    (e : capitalCase a = capitalCase b) : a = b := by
  cases a with
  | nil => cases b with
    | nil => rfl
    | cons => exact nomatch e
  | cons c cs => cases b with
    | nil => exact nomatch e
    | cons d ds =>
      simp only [capitalCase, List.cons.injEq] at e
      rw [toUpper_inj (h c rfl d rfl) e.1, e.2]

theorem capitalize_eq (s : String) : (capitalize s).toList = capitalCase s.toList := by
  unfold capitalize
  split
  · next h => rw [h]; rfl
  · next h => rw [String.toList_ofList, h]; rfl

end Beschi.Lang
