import Verif.Syntax.CLibrary
import Verif.Text.Library
import Verif.Text.Boilerplate
/-
The library in the text written for C.
-/
namespace Beschi.Text.C.Link
open Beschi.Spec Beschi.Lang

/-- What is filled into the declarations (c.py L57-61, L412-416). -/
abbrev fillings0 (a b : String) (n : NumTy) : List (String × Sub) :=
  [("beschi", .text a), ("BESCHI", .text b), ("{# STRING_SIZE_TYPE #}", .text (Lang.C.suffix n)),
    ("{# STRING_SIZE_TYPE_LOWER #}", .text (lower (Lang.C.suffix n))), ("{# STRING_SIZE_TYPE_NATIVE #}", .text (Syntax.C.native n))]

/-- What is filled into the definitions (c.py L57-61, L447-450). -/
abbrev fillings1 (a b : String) (n : NumTy) : List (String × Sub) :=
  [("beschi", .text a), ("BESCHI", .text b), ("{# STRING_SIZE_TYPE #}", .text (Lang.C.suffix n)),
    ("{# STRING_SIZE_TYPE_LOWER #}", .text (lower (Lang.C.suffix n)))]

/-- Letters, digits and underscores. -/
def nameLike (c : Char) : Bool := c.isAlphanum || c == '_'

abbrev values (a b : String) (n : NumTy) : List String :=
  [a, b, Lang.C.suffix n, lower (Lang.C.suffix n), Syntax.C.native n]

section
variable {a b : String} (n : NumTy) (ha : ∀ c ∈ a.toList, nameLike c = true) (hb : ∀ c ∈ b.toList, nameLike c = true)
  (hm : ¬ ['B', 'E', 'S', 'C', 'H', 'I'] <:+: a.toList)

theorem not_brace {s : String} (h : ∀ c ∈ s.toList, nameLike c = true) : ∀ c ∈ s.toList, some '{' ≠ some c := by
  rintro c hc ⟨⟩
  exact absurd (h _ hc) (by decide)

theorem suffix_chars (n : NumTy) : ∀ c ∈ (Lang.C.suffix n).toList, some '{' ≠ some c := by cases n <;> decide
theorem lower_chars (n : NumTy) : ∀ c ∈ (lower (Lang.C.suffix n)).toList, some '{' ≠ some c := by cases n <;> decide
theorem native_chars (n : NumTy) : ∀ c ∈ (Syntax.C.native n).toList, some '{' ≠ some c := by cases n <;> decide

include ha hb in
theorem holes_chars : ∀ j < 5, ∀ c ∈ holes (values a b n) j, some '{' ≠ some c
  | 0, _ => not_brace ha
  | 1, _ => not_brace hb
  | 2, _ => suffix_chars n
  | 3, _ => lower_chars n
  | 4, _ => native_chars n

include ha in
theorem tidy_pre (r : List Char) : tidyChars (a.toList ++ (['_'] ++ r)) = true := by
  cases h : a.toList with
  | nil => rfl
  | cons c cs =>
    have := ha c (by rw [h]; simp)
    show (c != ' ' && c != '\t') = true
    cases hs : decide (c = ' ') with
    | true => rw [decide_eq_true_eq] at hs; subst hs; exact absurd this (by decide)
    | false =>
      cases ht : decide (c = '\t') with
      | true => rw [decide_eq_true_eq] at ht; subst ht; exact absurd this (by decide)
      | false => simp only [decide_eq_false_iff_not] at hs ht; simp [hs, ht]

include ha hb hm

theorem errors_part : (fillings0 a b n).foldl substitute ((Boilerplate.c0.drop 13).take 5) =
    (Syntax.C.errors (a ++ "_") (b ++ "_")).map (Row.shown "    ") := by
  have hv := holes_chars n ha hb
  refine Fits.rows ((((((Fits.plain (by line_chars) (holes (values a b n))).next (old := "beschi") 0 0 String.toList_ofList rfl
    (fun j hj => absurd hj (Nat.not_lt_zero j)) (by computes)).guarded (old := "BESCHI") 1 '_' String.toList_ofList rfl hm
    (by computes)).next (old := "{# STRING_SIZE_TYPE #}") 2 5 String.toList_ofList rfl hv (by computes)).next
    (old := "{# STRING_SIZE_TYPE_LOWER #}") 3 5 String.toList_ofList rfl hv (by computes)).next
    (old := "{# STRING_SIZE_TYPE_NATIVE #}") 4 5 String.toList_ofList rfl hv (by computes)) ?_
  pre_chars [Syntax.C.errors]
  computes

theorem access_part : (fillings0 a b n).foldl substitute ((Boilerplate.c0.drop 26).take 5) =
    (Syntax.C.access (a ++ "_")).map (Row.shown "    ") := by
  have hv := holes_chars n ha hb
  refine Fits.rows ((((((Fits.plain (by line_chars) (holes (values a b n))).next (old := "beschi") 0 0 String.toList_ofList rfl
    (fun j hj => absurd hj (Nat.not_lt_zero j)) (by computes)).guarded (old := "BESCHI") 1 '_' String.toList_ofList rfl hm
    (by computes)).next (old := "{# STRING_SIZE_TYPE #}") 2 5 String.toList_ofList rfl hv (by computes)).next
    (old := "{# STRING_SIZE_TYPE_LOWER #}") 3 5 String.toList_ofList rfl hv (by computes)).next
    (old := "{# STRING_SIZE_TYPE_NATIVE #}") 4 5 String.toList_ofList rfl hv (by computes)) ?_
  pre_chars [Syntax.C.access]
  computes

theorem declarations_part : (fillings0 a b n).foldl substitute ((Boilerplate.c0.drop 32).take 24) =
    (Syntax.C.declarations (a ++ "_") (Syntax.C.native n)).map (Row.shown "    ") := by
  have hv := holes_chars n ha hb
  refine Fits.rows ((((((Fits.plain (by line_chars) (holes (values a b n))).next (old := "beschi") 0 0 String.toList_ofList rfl
    (fun j hj => absurd hj (Nat.not_lt_zero j)) (by computes)).guarded (old := "BESCHI") 1 '_' String.toList_ofList rfl hm
    (by computes)).next (old := "{# STRING_SIZE_TYPE #}") 2 5 String.toList_ofList rfl hv (by computes)).next
    (old := "{# STRING_SIZE_TYPE_LOWER #}") 3 5 String.toList_ofList rfl hv (by computes)).next
    (old := "{# STRING_SIZE_TYPE_NATIVE #}") 4 5 String.toList_ofList rfl hv (by computes)) ?_
  pre_chars [Syntax.C.declarations]
  computes

theorem allocation_part : (fillings1 a b n).foldl substitute ((Boilerplate.c1.drop 19).take 5) =
    (Syntax.C.allocation (b ++ "_")).map (Row.shown "    ") := by
  have hv := holes_chars n ha hb
  refine Fits.rows (((((Fits.plain (by line_chars) (holes (values a b n))).next (old := "beschi") 0 0 String.toList_ofList rfl
    (fun j hj => absurd hj (Nat.not_lt_zero j)) (by computes)).guarded (old := "BESCHI") 1 '_' String.toList_ofList rfl hm
    (by computes)).next (old := "{# STRING_SIZE_TYPE #}") 2 5 String.toList_ofList rfl hv (by computes)).next
    (old := "{# STRING_SIZE_TYPE_LOWER #}") 3 5 String.toList_ofList rfl hv (by computes)) ?_
  pre_chars [Syntax.C.allocation]
  computes

theorem isFinished_part : (fillings1 a b n).foldl substitute ((Boilerplate.c1.drop 29).take 3) =
    (Syntax.C.isFinished (a ++ "_")).map (Row.shown "    ") := by
  have hv := holes_chars n ha hb
  refine Fits.rows (((((Fits.plain (by line_chars) (holes (values a b n))).next (old := "beschi") 0 0 String.toList_ofList rfl
    (fun j hj => absurd hj (Nat.not_lt_zero j)) (by computes)).guarded (old := "BESCHI") 1 '_' String.toList_ofList rfl hm
    (by computes)).next (old := "{# STRING_SIZE_TYPE #}") 2 5 String.toList_ofList rfl hv (by computes)).next
    (old := "{# STRING_SIZE_TYPE_LOWER #}") 3 5 String.toList_ofList rfl hv (by computes)) ?_
  pre_chars [Syntax.C.isFinished]
  computes

theorem readBool_part : (fillings1 a b n).foldl substitute ((Boilerplate.c1.drop 42).take 9) =
    (Syntax.C.readBool (a ++ "_") (b ++ "_")).map (Row.shown "    ") := by
  have hv := holes_chars n ha hb
  refine Fits.rows (((((Fits.plain (by line_chars) (holes (values a b n))).next (old := "beschi") 0 0 String.toList_ofList rfl
    (fun j hj => absurd hj (Nat.not_lt_zero j)) (by computes)).guarded (old := "BESCHI") 1 '_' String.toList_ofList rfl hm
    (by computes)).next (old := "{# STRING_SIZE_TYPE #}") 2 5 String.toList_ofList rfl hv (by computes)).next
    (old := "{# STRING_SIZE_TYPE_LOWER #}") 3 5 String.toList_ofList rfl hv (by computes)) ?_
  pre_chars [Syntax.C.readBool]
  computes

theorem readString_part : (fillings1 a b n).foldl substitute ((Boilerplate.c1.drop 124).take 16) =
    (Syntax.C.readString (a ++ "_") (b ++ "_") (Lang.C.suffix n) (lower (Lang.C.suffix n) ++ "_t")).map (Row.shown "    ") := by
  have hv := holes_chars n ha hb
  refine Fits.rows (((((Fits.plain (by line_chars) (holes (values a b n))).next (old := "beschi") 0 0 String.toList_ofList rfl
    (fun j hj => absurd hj (Nat.not_lt_zero j)) (by computes)).guarded (old := "BESCHI") 1 '_' String.toList_ofList rfl hm
    (by computes)).next (old := "{# STRING_SIZE_TYPE #}") 2 5 String.toList_ofList rfl hv (by computes)).next
    (old := "{# STRING_SIZE_TYPE_LOWER #}") 3 5 String.toList_ofList rfl hv (by computes)) ?_
  pre_chars [Syntax.C.readString]
  computes

theorem writeByte_part : (fillings1 a b n).foldl substitute ((Boilerplate.c1.drop 143).take 8) =
    (Syntax.C.writeByte (a ++ "_") (b ++ "_")).map (Row.shown "    ") := by
  have hv := holes_chars n ha hb
  refine Fits.rows (((((Fits.plain (by line_chars) (holes (values a b n))).next (old := "beschi") 0 0 String.toList_ofList rfl
    (fun j hj => absurd hj (Nat.not_lt_zero j)) (by computes)).guarded (old := "BESCHI") 1 '_' String.toList_ofList rfl hm
    (by computes)).next (old := "{# STRING_SIZE_TYPE #}") 2 5 String.toList_ofList rfl hv (by computes)).next
    (old := "{# STRING_SIZE_TYPE_LOWER #}") 3 5 String.toList_ofList rfl hv (by computes)) ?_
  pre_chars [Syntax.C.writeByte]
  computes

theorem writeBool_part : (fillings1 a b n).foldl substitute ((Boilerplate.c1.drop 152).take 8) =
    (Syntax.C.writeBool (a ++ "_") (b ++ "_")).map (Row.shown "    ") := by
  have hv := holes_chars n ha hb
  refine Fits.rows (((((Fits.plain (by line_chars) (holes (values a b n))).next (old := "beschi") 0 0 String.toList_ofList rfl
    (fun j hj => absurd hj (Nat.not_lt_zero j)) (by computes)).guarded (old := "BESCHI") 1 '_' String.toList_ofList rfl hm
    (by computes)).next (old := "{# STRING_SIZE_TYPE #}") 2 5 String.toList_ofList rfl hv (by computes)).next
    (old := "{# STRING_SIZE_TYPE_LOWER #}") 3 5 String.toList_ofList rfl hv (by computes)) ?_
  pre_chars [Syntax.C.writeBool]
  computes

theorem writeString_part : (fillings1 a b n).foldl substitute ((Boilerplate.c1.drop 233).take 13) =
    (Syntax.C.writeString (a ++ "_") (b ++ "_") (Lang.C.suffix n) (lower (Lang.C.suffix n) ++ "_t")).map (Row.shown "    ") := by
  have hv := holes_chars n ha hb
  refine Fits.rows (((((Fits.plain (by line_chars) (holes (values a b n))).next (old := "beschi") 0 0 String.toList_ofList rfl
    (fun j hj => absurd hj (Nat.not_lt_zero j)) (by computes)).guarded (old := "BESCHI") 1 '_' String.toList_ofList rfl hm
    (by computes)).next (old := "{# STRING_SIZE_TYPE #}") 2 5 String.toList_ofList rfl hv (by computes)).next
    (old := "{# STRING_SIZE_TYPE_LOWER #}") 3 5 String.toList_ofList rfl hv (by computes)) ?_
  pre_chars [Syntax.C.writeString]
  computes

theorem readNumber_byte_part : (fillings1 a b n).foldl substitute ((Boilerplate.c1.drop 33).take 8) =
    (Syntax.C.readNumber (a ++ "_") (b ++ "_") .byte).map (Row.shown "    ") := by
  have hv := holes_chars n ha hb
  refine Fits.rows (((((Fits.plain (by line_chars) (holes (values a b n))).next (old := "beschi") 0 0 String.toList_ofList rfl
    (fun j hj => absurd hj (Nat.not_lt_zero j)) (by computes)).guarded (old := "BESCHI") 1 '_' String.toList_ofList rfl hm
    (by computes)).next (old := "{# STRING_SIZE_TYPE #}") 2 5 String.toList_ofList rfl hv (by computes)).next
    (old := "{# STRING_SIZE_TYPE_LOWER #}") 3 5 String.toList_ofList rfl hv (by computes)) ?_
  pre_chars [Syntax.C.readNumber, Syntax.C.native, Syntax.C.short, Lang.C.suffix]
  computes

theorem readNumber_int16_part : (fillings1 a b n).foldl substitute ((Boilerplate.c1.drop 52).take 8) =
    (Syntax.C.readNumber (a ++ "_") (b ++ "_") .int16).map (Row.shown "    ") := by
  have hv := holes_chars n ha hb
  refine Fits.rows (((((Fits.plain (by line_chars) (holes (values a b n))).next (old := "beschi") 0 0 String.toList_ofList rfl
    (fun j hj => absurd hj (Nat.not_lt_zero j)) (by computes)).guarded (old := "BESCHI") 1 '_' String.toList_ofList rfl hm
    (by computes)).next (old := "{# STRING_SIZE_TYPE #}") 2 5 String.toList_ofList rfl hv (by computes)).next
    (old := "{# STRING_SIZE_TYPE_LOWER #}") 3 5 String.toList_ofList rfl hv (by computes)) ?_
  pre_chars [Syntax.C.readNumber, Syntax.C.native, Syntax.C.short, Lang.C.suffix]
  computes

theorem readNumber_uint16_part : (fillings1 a b n).foldl substitute ((Boilerplate.c1.drop 61).take 8) =
    (Syntax.C.readNumber (a ++ "_") (b ++ "_") .uint16).map (Row.shown "    ") := by
  have hv := holes_chars n ha hb
  refine Fits.rows (((((Fits.plain (by line_chars) (holes (values a b n))).next (old := "beschi") 0 0 String.toList_ofList rfl
    (fun j hj => absurd hj (Nat.not_lt_zero j)) (by computes)).guarded (old := "BESCHI") 1 '_' String.toList_ofList rfl hm
    (by computes)).next (old := "{# STRING_SIZE_TYPE #}") 2 5 String.toList_ofList rfl hv (by computes)).next
    (old := "{# STRING_SIZE_TYPE_LOWER #}") 3 5 String.toList_ofList rfl hv (by computes)) ?_
  pre_chars [Syntax.C.readNumber, Syntax.C.native, Syntax.C.short, Lang.C.suffix]
  computes

theorem readNumber_int32_part : (fillings1 a b n).foldl substitute ((Boilerplate.c1.drop 70).take 8) =
    (Syntax.C.readNumber (a ++ "_") (b ++ "_") .int32).map (Row.shown "    ") := by
  have hv := holes_chars n ha hb
  refine Fits.rows (((((Fits.plain (by line_chars) (holes (values a b n))).next (old := "beschi") 0 0 String.toList_ofList rfl
    (fun j hj => absurd hj (Nat.not_lt_zero j)) (by computes)).guarded (old := "BESCHI") 1 '_' String.toList_ofList rfl hm
    (by computes)).next (old := "{# STRING_SIZE_TYPE #}") 2 5 String.toList_ofList rfl hv (by computes)).next
    (old := "{# STRING_SIZE_TYPE_LOWER #}") 3 5 String.toList_ofList rfl hv (by computes)) ?_
  pre_chars [Syntax.C.readNumber, Syntax.C.native, Syntax.C.short, Lang.C.suffix]
  computes

theorem readNumber_uint32_part : (fillings1 a b n).foldl substitute ((Boilerplate.c1.drop 79).take 8) =
    (Syntax.C.readNumber (a ++ "_") (b ++ "_") .uint32).map (Row.shown "    ") := by
  have hv := holes_chars n ha hb
  refine Fits.rows (((((Fits.plain (by line_chars) (holes (values a b n))).next (old := "beschi") 0 0 String.toList_ofList rfl
    (fun j hj => absurd hj (Nat.not_lt_zero j)) (by computes)).guarded (old := "BESCHI") 1 '_' String.toList_ofList rfl hm
    (by computes)).next (old := "{# STRING_SIZE_TYPE #}") 2 5 String.toList_ofList rfl hv (by computes)).next
    (old := "{# STRING_SIZE_TYPE_LOWER #}") 3 5 String.toList_ofList rfl hv (by computes)) ?_
  pre_chars [Syntax.C.readNumber, Syntax.C.native, Syntax.C.short, Lang.C.suffix]
  computes

theorem readNumber_int64_part : (fillings1 a b n).foldl substitute ((Boilerplate.c1.drop 88).take 8) =
    (Syntax.C.readNumber (a ++ "_") (b ++ "_") .int64).map (Row.shown "    ") := by
  have hv := holes_chars n ha hb
  refine Fits.rows (((((Fits.plain (by line_chars) (holes (values a b n))).next (old := "beschi") 0 0 String.toList_ofList rfl
    (fun j hj => absurd hj (Nat.not_lt_zero j)) (by computes)).guarded (old := "BESCHI") 1 '_' String.toList_ofList rfl hm
    (by computes)).next (old := "{# STRING_SIZE_TYPE #}") 2 5 String.toList_ofList rfl hv (by computes)).next
    (old := "{# STRING_SIZE_TYPE_LOWER #}") 3 5 String.toList_ofList rfl hv (by computes)) ?_
  pre_chars [Syntax.C.readNumber, Syntax.C.native, Syntax.C.short, Lang.C.suffix]
  computes

theorem readNumber_uint64_part : (fillings1 a b n).foldl substitute ((Boilerplate.c1.drop 97).take 8) =
    (Syntax.C.readNumber (a ++ "_") (b ++ "_") .uint64).map (Row.shown "    ") := by
  have hv := holes_chars n ha hb
  refine Fits.rows (((((Fits.plain (by line_chars) (holes (values a b n))).next (old := "beschi") 0 0 String.toList_ofList rfl
    (fun j hj => absurd hj (Nat.not_lt_zero j)) (by computes)).guarded (old := "BESCHI") 1 '_' String.toList_ofList rfl hm
    (by computes)).next (old := "{# STRING_SIZE_TYPE #}") 2 5 String.toList_ofList rfl hv (by computes)).next
    (old := "{# STRING_SIZE_TYPE_LOWER #}") 3 5 String.toList_ofList rfl hv (by computes)) ?_
  pre_chars [Syntax.C.readNumber, Syntax.C.native, Syntax.C.short, Lang.C.suffix]
  computes

theorem readNumber_float_part : (fillings1 a b n).foldl substitute ((Boilerplate.c1.drop 106).take 8) =
    (Syntax.C.readNumber (a ++ "_") (b ++ "_") .float).map (Row.shown "    ") := by
  have hv := holes_chars n ha hb
  refine Fits.rows (((((Fits.plain (by line_chars) (holes (values a b n))).next (old := "beschi") 0 0 String.toList_ofList rfl
    (fun j hj => absurd hj (Nat.not_lt_zero j)) (by computes)).guarded (old := "BESCHI") 1 '_' String.toList_ofList rfl hm
    (by computes)).next (old := "{# STRING_SIZE_TYPE #}") 2 5 String.toList_ofList rfl hv (by computes)).next
    (old := "{# STRING_SIZE_TYPE_LOWER #}") 3 5 String.toList_ofList rfl hv (by computes)) ?_
  pre_chars [Syntax.C.readNumber, Syntax.C.native, Syntax.C.short, Lang.C.suffix]
  computes

theorem readNumber_double_part : (fillings1 a b n).foldl substitute ((Boilerplate.c1.drop 115).take 8) =
    (Syntax.C.readNumber (a ++ "_") (b ++ "_") .double).map (Row.shown "    ") := by
  have hv := holes_chars n ha hb
  refine Fits.rows (((((Fits.plain (by line_chars) (holes (values a b n))).next (old := "beschi") 0 0 String.toList_ofList rfl
    (fun j hj => absurd hj (Nat.not_lt_zero j)) (by computes)).guarded (old := "BESCHI") 1 '_' String.toList_ofList rfl hm
    (by computes)).next (old := "{# STRING_SIZE_TYPE #}") 2 5 String.toList_ofList rfl hv (by computes)).next
    (old := "{# STRING_SIZE_TYPE_LOWER #}") 3 5 String.toList_ofList rfl hv (by computes)) ?_
  pre_chars [Syntax.C.readNumber, Syntax.C.native, Syntax.C.short, Lang.C.suffix]
  computes

theorem writeNumber_int16_part : (fillings1 a b n).foldl substitute ((Boilerplate.c1.drop 161).take 8) =
    (Syntax.C.writeNumber (a ++ "_") (b ++ "_") .int16).map (Row.shown "    ") := by
  have hv := holes_chars n ha hb
  refine Fits.rows (((((Fits.plain (by line_chars) (holes (values a b n))).next (old := "beschi") 0 0 String.toList_ofList rfl
    (fun j hj => absurd hj (Nat.not_lt_zero j)) (by computes)).guarded (old := "BESCHI") 1 '_' String.toList_ofList rfl hm
    (by computes)).next (old := "{# STRING_SIZE_TYPE #}") 2 5 String.toList_ofList rfl hv (by computes)).next
    (old := "{# STRING_SIZE_TYPE_LOWER #}") 3 5 String.toList_ofList rfl hv (by computes)) ?_
  pre_chars [Syntax.C.writeNumber, Syntax.C.native, Syntax.C.short, Lang.C.suffix]
  computes

theorem writeNumber_uint16_part : (fillings1 a b n).foldl substitute ((Boilerplate.c1.drop 170).take 8) =
    (Syntax.C.writeNumber (a ++ "_") (b ++ "_") .uint16).map (Row.shown "    ") := by
  have hv := holes_chars n ha hb
  refine Fits.rows (((((Fits.plain (by line_chars) (holes (values a b n))).next (old := "beschi") 0 0 String.toList_ofList rfl
    (fun j hj => absurd hj (Nat.not_lt_zero j)) (by computes)).guarded (old := "BESCHI") 1 '_' String.toList_ofList rfl hm
    (by computes)).next (old := "{# STRING_SIZE_TYPE #}") 2 5 String.toList_ofList rfl hv (by computes)).next
    (old := "{# STRING_SIZE_TYPE_LOWER #}") 3 5 String.toList_ofList rfl hv (by computes)) ?_
  pre_chars [Syntax.C.writeNumber, Syntax.C.native, Syntax.C.short, Lang.C.suffix]
  computes

theorem writeNumber_int32_part : (fillings1 a b n).foldl substitute ((Boilerplate.c1.drop 179).take 8) =
    (Syntax.C.writeNumber (a ++ "_") (b ++ "_") .int32).map (Row.shown "    ") := by
  have hv := holes_chars n ha hb
  refine Fits.rows (((((Fits.plain (by line_chars) (holes (values a b n))).next (old := "beschi") 0 0 String.toList_ofList rfl
    (fun j hj => absurd hj (Nat.not_lt_zero j)) (by computes)).guarded (old := "BESCHI") 1 '_' String.toList_ofList rfl hm
    (by computes)).next (old := "{# STRING_SIZE_TYPE #}") 2 5 String.toList_ofList rfl hv (by computes)).next
    (old := "{# STRING_SIZE_TYPE_LOWER #}") 3 5 String.toList_ofList rfl hv (by computes)) ?_
  pre_chars [Syntax.C.writeNumber, Syntax.C.native, Syntax.C.short, Lang.C.suffix]
  computes

theorem writeNumber_uint32_part : (fillings1 a b n).foldl substitute ((Boilerplate.c1.drop 188).take 8) =
    (Syntax.C.writeNumber (a ++ "_") (b ++ "_") .uint32).map (Row.shown "    ") := by
  have hv := holes_chars n ha hb
  refine Fits.rows (((((Fits.plain (by line_chars) (holes (values a b n))).next (old := "beschi") 0 0 String.toList_ofList rfl
    (fun j hj => absurd hj (Nat.not_lt_zero j)) (by computes)).guarded (old := "BESCHI") 1 '_' String.toList_ofList rfl hm
    (by computes)).next (old := "{# STRING_SIZE_TYPE #}") 2 5 String.toList_ofList rfl hv (by computes)).next
    (old := "{# STRING_SIZE_TYPE_LOWER #}") 3 5 String.toList_ofList rfl hv (by computes)) ?_
  pre_chars [Syntax.C.writeNumber, Syntax.C.native, Syntax.C.short, Lang.C.suffix]
  computes

theorem writeNumber_int64_part : (fillings1 a b n).foldl substitute ((Boilerplate.c1.drop 197).take 8) =
    (Syntax.C.writeNumber (a ++ "_") (b ++ "_") .int64).map (Row.shown "    ") := by
  have hv := holes_chars n ha hb
  refine Fits.rows (((((Fits.plain (by line_chars) (holes (values a b n))).next (old := "beschi") 0 0 String.toList_ofList rfl
    (fun j hj => absurd hj (Nat.not_lt_zero j)) (by computes)).guarded (old := "BESCHI") 1 '_' String.toList_ofList rfl hm
    (by computes)).next (old := "{# STRING_SIZE_TYPE #}") 2 5 String.toList_ofList rfl hv (by computes)).next
    (old := "{# STRING_SIZE_TYPE_LOWER #}") 3 5 String.toList_ofList rfl hv (by computes)) ?_
  pre_chars [Syntax.C.writeNumber, Syntax.C.native, Syntax.C.short, Lang.C.suffix]
  computes

theorem writeNumber_uint64_part : (fillings1 a b n).foldl substitute ((Boilerplate.c1.drop 206).take 8) =
    (Syntax.C.writeNumber (a ++ "_") (b ++ "_") .uint64).map (Row.shown "    ") := by
  have hv := holes_chars n ha hb
  refine Fits.rows (((((Fits.plain (by line_chars) (holes (values a b n))).next (old := "beschi") 0 0 String.toList_ofList rfl
    (fun j hj => absurd hj (Nat.not_lt_zero j)) (by computes)).guarded (old := "BESCHI") 1 '_' String.toList_ofList rfl hm
    (by computes)).next (old := "{# STRING_SIZE_TYPE #}") 2 5 String.toList_ofList rfl hv (by computes)).next
    (old := "{# STRING_SIZE_TYPE_LOWER #}") 3 5 String.toList_ofList rfl hv (by computes)) ?_
  pre_chars [Syntax.C.writeNumber, Syntax.C.native, Syntax.C.short, Lang.C.suffix]
  computes

theorem writeNumber_float_part : (fillings1 a b n).foldl substitute ((Boilerplate.c1.drop 215).take 8) =
    (Syntax.C.writeNumber (a ++ "_") (b ++ "_") .float).map (Row.shown "    ") := by
  have hv := holes_chars n ha hb
  refine Fits.rows (((((Fits.plain (by line_chars) (holes (values a b n))).next (old := "beschi") 0 0 String.toList_ofList rfl
    (fun j hj => absurd hj (Nat.not_lt_zero j)) (by computes)).guarded (old := "BESCHI") 1 '_' String.toList_ofList rfl hm
    (by computes)).next (old := "{# STRING_SIZE_TYPE #}") 2 5 String.toList_ofList rfl hv (by computes)).next
    (old := "{# STRING_SIZE_TYPE_LOWER #}") 3 5 String.toList_ofList rfl hv (by computes)) ?_
  pre_chars [Syntax.C.writeNumber, Syntax.C.native, Syntax.C.short, Lang.C.suffix]
  computes

theorem writeNumber_double_part : (fillings1 a b n).foldl substitute ((Boilerplate.c1.drop 224).take 8) =
    (Syntax.C.writeNumber (a ++ "_") (b ++ "_") .double).map (Row.shown "    ") := by
  have hv := holes_chars n ha hb
  refine Fits.rows (((((Fits.plain (by line_chars) (holes (values a b n))).next (old := "beschi") 0 0 String.toList_ofList rfl
    (fun j hj => absurd hj (Nat.not_lt_zero j)) (by computes)).guarded (old := "BESCHI") 1 '_' String.toList_ofList rfl hm
    (by computes)).next (old := "{# STRING_SIZE_TYPE #}") 2 5 String.toList_ofList rfl hv (by computes)).next
    (old := "{# STRING_SIZE_TYPE_LOWER #}") 3 5 String.toList_ofList rfl hv (by computes)) ?_
  pre_chars [Syntax.C.writeNumber, Syntax.C.native, Syntax.C.short, Lang.C.suffix]
  computes

end

/-- The lines of the library. -/
inductive Library0 (a b : String) (n : NumTy) : List Row → Prop
  | errors : Library0 a b n (Syntax.C.errors (a ++ "_") (b ++ "_"))
  | access : Library0 a b n (Syntax.C.access (a ++ "_"))
  | declarations : Library0 a b n (Syntax.C.declarations (a ++ "_") (Syntax.C.native n))

/-- The lines of the library. -/
inductive Library1 (a b : String) (n : NumTy) : List Row → Prop
  | allocation : Library1 a b n (Syntax.C.allocation (b ++ "_"))
  | isFinished : Library1 a b n (Syntax.C.isFinished (a ++ "_"))
  | readBool : Library1 a b n (Syntax.C.readBool (a ++ "_") (b ++ "_"))
  | readString : Library1 a b n (Syntax.C.readString (a ++ "_") (b ++ "_") (Lang.C.suffix n) (lower (Lang.C.suffix n) ++ "_t"))
  | writeByte : Library1 a b n (Syntax.C.writeByte (a ++ "_") (b ++ "_"))
  | writeBool : Library1 a b n (Syntax.C.writeBool (a ++ "_") (b ++ "_"))
  | writeString : Library1 a b n (Syntax.C.writeString (a ++ "_") (b ++ "_") (Lang.C.suffix n) (lower (Lang.C.suffix n) ++ "_t"))
  | readNumber_byte : Library1 a b n (Syntax.C.readNumber (a ++ "_") (b ++ "_") .byte)
  | readNumber_int16 : Library1 a b n (Syntax.C.readNumber (a ++ "_") (b ++ "_") .int16)
  | readNumber_uint16 : Library1 a b n (Syntax.C.readNumber (a ++ "_") (b ++ "_") .uint16)
  | readNumber_int32 : Library1 a b n (Syntax.C.readNumber (a ++ "_") (b ++ "_") .int32)
  | readNumber_uint32 : Library1 a b n (Syntax.C.readNumber (a ++ "_") (b ++ "_") .uint32)
  | readNumber_int64 : Library1 a b n (Syntax.C.readNumber (a ++ "_") (b ++ "_") .int64)
  | readNumber_uint64 : Library1 a b n (Syntax.C.readNumber (a ++ "_") (b ++ "_") .uint64)
  | readNumber_float : Library1 a b n (Syntax.C.readNumber (a ++ "_") (b ++ "_") .float)
  | readNumber_double : Library1 a b n (Syntax.C.readNumber (a ++ "_") (b ++ "_") .double)
  | writeNumber_int16 : Library1 a b n (Syntax.C.writeNumber (a ++ "_") (b ++ "_") .int16)
  | writeNumber_uint16 : Library1 a b n (Syntax.C.writeNumber (a ++ "_") (b ++ "_") .uint16)
  | writeNumber_int32 : Library1 a b n (Syntax.C.writeNumber (a ++ "_") (b ++ "_") .int32)
  | writeNumber_uint32 : Library1 a b n (Syntax.C.writeNumber (a ++ "_") (b ++ "_") .uint32)
  | writeNumber_int64 : Library1 a b n (Syntax.C.writeNumber (a ++ "_") (b ++ "_") .int64)
  | writeNumber_uint64 : Library1 a b n (Syntax.C.writeNumber (a ++ "_") (b ++ "_") .uint64)
  | writeNumber_float : Library1 a b n (Syntax.C.writeNumber (a ++ "_") (b ++ "_") .float)
  | writeNumber_double : Library1 a b n (Syntax.C.writeNumber (a ++ "_") (b ++ "_") .double)

theorem library0_puts {w : Writer} {rs : List Row} {a b : String} {n : NumTy} (ha : ∀ c ∈ a.toList, nameLike c = true)
    (hb : ∀ c ∈ b.toList, nameLike c = true) (hm : ¬ ['B', 'E', 'S', 'C', 'H', 'I'] <:+: a.toList)
    (hl : w.boilerplate 0 = Boilerplate.c0) (hn : w.nativeTab = "    ")
    (h : Library0 a b n rs) (k : Nat) : Puts w.tab (w.addBoilerplate (fillings0 a b n) 0) k (inside k rs) := by
  have hz : blankTab w.nativeTab = true := by rw [hn]; decide
  have part : ∀ i n, ((Boilerplate.c0.drop i).take n) <:+: w.boilerplate 0 := fun i n => hl ▸ part_infix _ i n
  have hta := tidy_pre ha
  have htb := tidy_pre hb
  cases h
  case errors =>
    refine Puts.library (part 13 5) hz (tidy_of_chars ?_) (by rw [hn]; exact errors_part n ha hb hm)
    row_chars [Syntax.C.errors, List.append_assoc, hta, htb]
    rfl
  case access =>
    refine Puts.library (part 26 5) hz (tidy_of_chars ?_) (by rw [hn]; exact access_part n ha hb hm)
    row_chars [Syntax.C.access, List.append_assoc, hta, htb]
    rfl
  case declarations =>
    refine Puts.library (part 32 24) hz (tidy_of_chars ?_) (by rw [hn]; exact declarations_part n ha hb hm)
    row_chars [Syntax.C.declarations, List.append_assoc, hta, htb]
    rfl

theorem library1_puts {w : Writer} {rs : List Row} {a b : String} {n : NumTy} (ha : ∀ c ∈ a.toList, nameLike c = true)
    (hb : ∀ c ∈ b.toList, nameLike c = true) (hm : ¬ ['B', 'E', 'S', 'C', 'H', 'I'] <:+: a.toList)
    (hl : w.boilerplate 1 = Boilerplate.c1) (hn : w.nativeTab = "    ")
    (h : Library1 a b n rs) (k : Nat) : Puts w.tab (w.addBoilerplate (fillings1 a b n) 1) k (inside k rs) := by
  have hz : blankTab w.nativeTab = true := by rw [hn]; decide
  have part : ∀ i n, ((Boilerplate.c1.drop i).take n) <:+: w.boilerplate 1 := fun i n => hl ▸ part_infix _ i n
  have hta := tidy_pre ha
  have htb := tidy_pre hb
  cases h
  case allocation =>
    refine Puts.library (part 19 5) hz (tidy_of_chars ?_) (by rw [hn]; exact allocation_part n ha hb hm)
    row_chars [Syntax.C.allocation, List.append_assoc, hta, htb]
    rfl
  case isFinished =>
    refine Puts.library (part 29 3) hz (tidy_of_chars ?_) (by rw [hn]; exact isFinished_part n ha hb hm)
    row_chars [Syntax.C.isFinished, List.append_assoc, hta, htb]
    rfl
  case readBool =>
    refine Puts.library (part 42 9) hz (tidy_of_chars ?_) (by rw [hn]; exact readBool_part n ha hb hm)
    row_chars [Syntax.C.readBool, List.append_assoc, hta, htb]
    rfl
  case readString =>
    refine Puts.library (part 124 16) hz (tidy_of_chars ?_) (by rw [hn]; exact readString_part n ha hb hm)
    row_chars [Syntax.C.readString, List.append_assoc, hta, htb]
    rfl
  case writeByte =>
    refine Puts.library (part 143 8) hz (tidy_of_chars ?_) (by rw [hn]; exact writeByte_part n ha hb hm)
    row_chars [Syntax.C.writeByte, List.append_assoc, hta, htb]
    rfl
  case writeBool =>
    refine Puts.library (part 152 8) hz (tidy_of_chars ?_) (by rw [hn]; exact writeBool_part n ha hb hm)
    row_chars [Syntax.C.writeBool, List.append_assoc, hta, htb]
    rfl
  case writeString =>
    refine Puts.library (part 233 13) hz (tidy_of_chars ?_) (by rw [hn]; exact writeString_part n ha hb hm)
    row_chars [Syntax.C.writeString, List.append_assoc, hta, htb]
    rfl
  case readNumber_byte =>
    refine Puts.library (part 33 8) hz (tidy_of_chars ?_) (by rw [hn]; exact readNumber_byte_part n ha hb hm)
    row_chars [Syntax.C.readNumber, Syntax.C.native, Syntax.C.short, Lang.C.suffix, List.append_assoc, hta, htb]
    rfl
  case readNumber_int16 =>
    refine Puts.library (part 52 8) hz (tidy_of_chars ?_) (by rw [hn]; exact readNumber_int16_part n ha hb hm)
    row_chars [Syntax.C.readNumber, Syntax.C.native, Syntax.C.short, Lang.C.suffix, List.append_assoc, hta, htb]
    rfl
  case readNumber_uint16 =>
    refine Puts.library (part 61 8) hz (tidy_of_chars ?_) (by rw [hn]; exact readNumber_uint16_part n ha hb hm)
    row_chars [Syntax.C.readNumber, Syntax.C.native, Syntax.C.short, Lang.C.suffix, List.append_assoc, hta, htb]
    rfl
  case readNumber_int32 =>
    refine Puts.library (part 70 8) hz (tidy_of_chars ?_) (by rw [hn]; exact readNumber_int32_part n ha hb hm)
    row_chars [Syntax.C.readNumber, Syntax.C.native, Syntax.C.short, Lang.C.suffix, List.append_assoc, hta, htb]
    rfl
  case readNumber_uint32 =>
    refine Puts.library (part 79 8) hz (tidy_of_chars ?_) (by rw [hn]; exact readNumber_uint32_part n ha hb hm)
    row_chars [Syntax.C.readNumber, Syntax.C.native, Syntax.C.short, Lang.C.suffix, List.append_assoc, hta, htb]
    rfl
  case readNumber_int64 =>
    refine Puts.library (part 88 8) hz (tidy_of_chars ?_) (by rw [hn]; exact readNumber_int64_part n ha hb hm)
    row_chars [Syntax.C.readNumber, Syntax.C.native, Syntax.C.short, Lang.C.suffix, List.append_assoc, hta, htb]
    rfl
  case readNumber_uint64 =>
    refine Puts.library (part 97 8) hz (tidy_of_chars ?_) (by rw [hn]; exact readNumber_uint64_part n ha hb hm)
    row_chars [Syntax.C.readNumber, Syntax.C.native, Syntax.C.short, Lang.C.suffix, List.append_assoc, hta, htb]
    rfl
  case readNumber_float =>
    refine Puts.library (part 106 8) hz (tidy_of_chars ?_) (by rw [hn]; exact readNumber_float_part n ha hb hm)
    row_chars [Syntax.C.readNumber, Syntax.C.native, Syntax.C.short, Lang.C.suffix, List.append_assoc, hta, htb]
    rfl
  case readNumber_double =>
    refine Puts.library (part 115 8) hz (tidy_of_chars ?_) (by rw [hn]; exact readNumber_double_part n ha hb hm)
    row_chars [Syntax.C.readNumber, Syntax.C.native, Syntax.C.short, Lang.C.suffix, List.append_assoc, hta, htb]
    rfl
  case writeNumber_int16 =>
    refine Puts.library (part 161 8) hz (tidy_of_chars ?_) (by rw [hn]; exact writeNumber_int16_part n ha hb hm)
    row_chars [Syntax.C.writeNumber, Syntax.C.native, Syntax.C.short, Lang.C.suffix, List.append_assoc, hta, htb]
    rfl
  case writeNumber_uint16 =>
    refine Puts.library (part 170 8) hz (tidy_of_chars ?_) (by rw [hn]; exact writeNumber_uint16_part n ha hb hm)
    row_chars [Syntax.C.writeNumber, Syntax.C.native, Syntax.C.short, Lang.C.suffix, List.append_assoc, hta, htb]
    rfl
  case writeNumber_int32 =>
    refine Puts.library (part 179 8) hz (tidy_of_chars ?_) (by rw [hn]; exact writeNumber_int32_part n ha hb hm)
    row_chars [Syntax.C.writeNumber, Syntax.C.native, Syntax.C.short, Lang.C.suffix, List.append_assoc, hta, htb]
    rfl
  case writeNumber_uint32 =>
    refine Puts.library (part 188 8) hz (tidy_of_chars ?_) (by rw [hn]; exact writeNumber_uint32_part n ha hb hm)
    row_chars [Syntax.C.writeNumber, Syntax.C.native, Syntax.C.short, Lang.C.suffix, List.append_assoc, hta, htb]
    rfl
  case writeNumber_int64 =>
    refine Puts.library (part 197 8) hz (tidy_of_chars ?_) (by rw [hn]; exact writeNumber_int64_part n ha hb hm)
    row_chars [Syntax.C.writeNumber, Syntax.C.native, Syntax.C.short, Lang.C.suffix, List.append_assoc, hta, htb]
    rfl
  case writeNumber_uint64 =>
    refine Puts.library (part 206 8) hz (tidy_of_chars ?_) (by rw [hn]; exact writeNumber_uint64_part n ha hb hm)
    row_chars [Syntax.C.writeNumber, Syntax.C.native, Syntax.C.short, Lang.C.suffix, List.append_assoc, hta, htb]
    rfl
  case writeNumber_float =>
    refine Puts.library (part 215 8) hz (tidy_of_chars ?_) (by rw [hn]; exact writeNumber_float_part n ha hb hm)
    row_chars [Syntax.C.writeNumber, Syntax.C.native, Syntax.C.short, Lang.C.suffix, List.append_assoc, hta, htb]
    rfl
  case writeNumber_double =>
    refine Puts.library (part 224 8) hz (tidy_of_chars ?_) (by rw [hn]; exact writeNumber_double_part n ha hb hm)
    row_chars [Syntax.C.writeNumber, Syntax.C.native, Syntax.C.short, Lang.C.suffix, List.append_assoc, hta, htb]
    rfl

end Beschi.Text.C.Link
