import Verif.Text.SizeLink
import Verif.Syntax.Initial
/-
What the tables of the writers give.
-/
namespace Beschi.Text
open Beschi.Spec

/-- What is known of the table of types: the entries for numbers and text, and nothing for other names. -/
structure Table (w : Writer) (native : NumTy → String) (text : String) : Prop where
  usable : Usable w.p
  num : ∀ n : NumTy, w.mapping.lookup n.name = some (native n)
  str : w.types.lookup "string" = some text
  own : ∀ t, NumTy.ofName? t = none → t ≠ "string" → w.mapping.lookup t = none

theorem own_of {d : List (String × String)} (h : ∀ x ∈ d, (NumTy.ofName? x.1).isSome = true ∨ x.1 = "string") {t : String}
    (h1 : NumTy.ofName? t = none) (h2 : t ≠ "string") : d.lookup t = none := by
  cases hl : d.lookup t with
  | none => rfl
  | some v =>
    rcases h _ (mem_of_lookup hl) with k | k
    · simp only [h1] at k; cases k
    · exact absurd k h2

theorem lookup_self {α} {xs : List α} {f : α → String} {t : String} :
    (xs.map fun y => (f y, f y)).lookup t = none ∨ (xs.map fun y => (f y, f y)).lookup t = some t := by
  induction xs with
  | nil => exact .inl rfl
  | cons y ys ih =>
    simp only [List.map_cons, List.lookup_cons]
    split
    · rename_i h; right; simp only [beq_iff_eq] at h; rw [h]
    · exact ih

theorem enc_cases {e : Enum} (h : GoodEnum e) : e.encoding = .byte ∨ e.encoding = .int16 ∨ e.encoding = .int32 := by
  obtain ⟨x, hx⟩ := List.exists_mem_of_ne_nil _ h.nonempty
  have := h.inRange x.2 (List.mem_map.2 ⟨x, hx, rfl⟩)
  cases he : e.encoding <;> simp [he, EnumRange] at this ⊢

/-- Where the mapping says nothing of strings, they are called `string`. -/
theorem lookup_string {w : Writer} (h : w.mapping.lookup "string" = none) : w.types.lookup "string" = some "string" := by
  unfold Writer.types
  simp only [List.append_assoc, List.lookup_append, h, Option.none_or]
  rcases lookup_self (xs := w.p.enums) (f := fun e => e.name) (t := "string") with he | he <;>
  rcases lookup_self (xs := w.p.messages) (f := fun e => e.name) (t := "string") with hm | hm <;>
  rcases lookup_self (xs := w.p.structs) (f := fun e => e.name) (t := "string") with hs | hs <;>
  simp [he, hm, hs]

/-- The first value of an enum. -/
theorem default_pair {p : Protocol} (hu : Usable p) {e : Enum} (he : e ∈ p.enums) :
    ∃ x, Writer.defaultPair e = .ok x ∧ e.values.take 1 = [x] ∧ e.values.head? = some x := by
  unfold Writer.defaultPair
  cases hv : e.values with
  | nil => exact absurd hv (hu.enums e he).nonempty
  | cons x xs => exact ⟨x, rfl, rfl, rfl⟩

/-- The name of the entry that is the default. -/
theorem entryName_default {p : Protocol} {t : String} {e : Enum} (he : p.enum? t = some e) {x : String × Int}
    (hx : e.values.head? = some x) : Syntax.entryName p t x.2 = x.1 := by
  unfold Syntax.entryName
  rw [he]
  cases hv : e.values with
  | nil => rw [hv] at hx; cases hx
  | cons y ys => rw [hv] at hx; cases hx; simp [hv]

/-- The position of a message. -/
theorem message_number {p : Protocol} (hu : Usable p) {s : Struct} (h : s ∈ p.structs ++ p.messages)
    (hm : s.isMessage = true) : ∃ i, p.messages.findIdx? (·.name == s.name) = some i := by
  have h : s ∈ p.messages := by
    rcases List.mem_append.1 h with h | h
    · rw [hu.structFlag s h] at hm; cases hm
    · exact h
  cases hf : p.messages.findIdx? (·.name == s.name) with
  | some i => exact ⟨i, rfl⟩
  | none => rw [List.findIdx?_eq_none_iff] at hf; simpa using hf s h

/-- The type of a member in the target language. -/
def nativeType (native : NumTy → String) (text : String) (t : String) : String :=
  match NumTy.ofName? t with
  | some n => native n
  | none => if t = "string" then text else t

namespace Table
variable {w : Writer} {native : NumTy → String} {text : String} (T : Table w native text)
include T

theorem lookup_num (n : NumTy) : w.types.lookup n.name = some (native n) := by
  unfold Writer.types
  simp only [List.append_assoc, List.lookup_append, T.num n, Option.some_or]

theorem type_num (n : NumTy) : w.type n.name = .ok (native n) := by
  unfold Writer.type Writer.look; rw [T.lookup_num]

theorem type_text : w.type "string" = .ok text := by
  unfold Writer.type Writer.look; rw [T.str]

theorem listSize : w.listSize = .ok (native w.p.listSize) := T.type_num _
theorem stringSize : w.stringSize = .ok (native w.p.stringSize) := T.type_num _

theorem lookup_own {t : String} (h : t ∈ structNames w.p ++ messageNames w.p ++ enumNames w.p) :
    w.types.lookup t = some t := by
  obtain ⟨h1, h2⟩ := T.usable.notBuiltin t h
  have h3 := ofName?_none h1
  have h4 : (w.types.lookup t).isSome = true := by
    unfold Writer.types
    rcases List.mem_append.1 h with h | h
    · rcases List.mem_append.1 h with h | h
      · obtain ⟨s, hs, rfl⟩ := List.mem_map.1 h
        exact lookup_append_left (lookup_append_right (lookup_map hs))
      · obtain ⟨s, hs, rfl⟩ := List.mem_map.1 h
        exact lookup_append_left (lookup_append_left (lookup_append_right (lookup_map hs)))
    · obtain ⟨s, hs, rfl⟩ := List.mem_map.1 h
      exact lookup_append_left (lookup_append_left (lookup_append_left (lookup_append_right (lookup_map hs))))
  unfold Writer.types at h4 ⊢
  have hst : ([("string", "string")] : List (String × String)).lookup t = none := by
    have : (t == "string") = false := by simpa using h2
    rw [List.lookup_cons, this]; rfl
  simp only [List.append_assoc, List.lookup_append, T.own t h3 h2, Option.none_or, hst, Option.or_none] at h4 ⊢
  rcases lookup_self (xs := w.p.enums) (f := fun e => e.name) (t := t) with he | he <;>
  rcases lookup_self (xs := w.p.messages) (f := fun e => e.name) (t := t) with hm | hm <;>
  rcases lookup_self (xs := w.p.structs) (f := fun e => e.name) (t := t) with hs | hs <;>
  simp [he, hm, hs] at h4 ⊢

theorem type_own {t : String} (h : t ∈ structNames w.p ++ messageNames w.p ++ enumNames w.p) : w.type t = .ok t := by
  unfold Writer.type Writer.look; rw [T.lookup_own h]

theorem type_enum {e : Enum} (h : e ∈ w.p.enums) : w.type e.name = .ok e.name :=
  T.type_own (List.mem_append_right _ (List.mem_map.2 ⟨e, h, rfl⟩))
theorem type_struct {s : Struct} (h : s ∈ w.p.structs) : w.type s.name = .ok s.name :=
  T.type_own (List.mem_append_left _ (List.mem_append_left _ (List.mem_map.2 ⟨s, h, rfl⟩)))
theorem type_message {s : Struct} (h : s ∈ w.p.messages) : w.type s.name = .ok s.name :=
  T.type_own (List.mem_append_left _ (List.mem_append_right _ (List.mem_map.2 ⟨s, h, rfl⟩)))

/-- The type of any member. -/
theorem lookup_known {t : String} (h : KnownType w.p t) :
    w.types.lookup t = some (nativeType native text t) := by
  unfold nativeType
  cases T.usable.kind h with
  | num n e ne num => subst e; rw [num]; exact T.lookup_num n
  | text e num => subst e; rw [num]; exact T.str
  | enum e mem name ne num =>
    rw [num]; simp only [if_neg ne]
    exact T.lookup_own (List.mem_append_right _ (List.mem_map.2 ⟨e, mem, name⟩))
  | struct s mem name ne num =>
    rw [num]; simp only [if_neg ne]
    exact T.lookup_own (List.mem_append_left _ (List.mem_append_left _ (List.mem_map.2 ⟨s, mem, name⟩)))

theorem type_known {t : String} (h : KnownType w.p t) : w.type t = .ok (nativeType native text t) := by
  unfold Writer.type Writer.look; rw [T.lookup_known h]

omit T in
theorem enum_eq {t : String} {e : Enum} (h : w.p.enum? t = some e) : w.enum t = .ok e := by
  unfold Writer.enum; rw [h]

end Table

end Beschi.Text
