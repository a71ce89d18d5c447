import Verif.Syntax.CSharpLibrary
import Verif.Text.Library
import Verif.Text.SizeLink
import Verif.Text.Boilerplate
/-
The library in the text written for C#.
-/
namespace Beschi.Text.CSharp.Link
open Beschi.Spec Beschi.Lang

theorem part_of {ls : List String} {i k : Nat} {rs : List Row} {css : List (List Char)}
    (hl : ((Boilerplate.cSharp1.drop i).take k).map String.toList = css)
    (hm : css.all (fun c => decide (c ≠ "{# MESSAGE_TYPE_CASES #}".toList)) = true)
    (hr : rs.map (rowChars [' ', ' ', ' ', ' ']) = css) :
    [("{# MESSAGE_TYPE_CASES #}", Sub.lines ls)].foldl substitute ((Boilerplate.cSharp1.drop i).take k) =
      rs.map (Row.shown "    ") := by
  have h1 : "{# MESSAGE_TYPE_CASES #}" ∉ (Boilerplate.cSharp1.drop i).take k := fun h => by
    have := List.all_eq_true.1 hm _ (hl ▸ List.mem_map_of_mem h)
    simp at this
  rw [List.foldl_cons, List.foldl_nil]
  have h2 : ∀ l : List String, "{# MESSAGE_TYPE_CASES #}" ∉ l → substitute l ("{# MESSAGE_TYPE_CASES #}", Sub.lines ls) = l := by
    intro l hl
    show l.flatMap _ = l
    induction l with
    | nil => rfl
    | cons x xs ih =>
      rw [List.mem_cons, not_or] at hl
      rw [List.flatMap_cons, ih hl.2, if_neg (Ne.symm hl.1)]; rfl
  rw [h2 _ h1]
  apply List.map_injective_iff.2 (fun a b h => String.toList_injective h)
  rw [hl, ← hr, List.map_map]
  exact List.map_congr_left fun r _ => (toList_shown "    " r).symm

section
variable {ls : List String}

theorem readError_part : [("{# MESSAGE_TYPE_CASES #}", Sub.lines ls)].foldl substitute ((Boilerplate.cSharp1.drop 0).take 10) =
    Syntax.CSharp.readError.map (Row.shown "    ") := by
  refine part_of (by line_chars) (by simp only [litChars]; computes) ?_
  row_chars [Syntax.CSharp.readError]
  computes

theorem unknownError_part : [("{# MESSAGE_TYPE_CASES #}", Sub.lines ls)].foldl substitute ((Boilerplate.cSharp1.drop 11).take 10) =
    Syntax.CSharp.unknownError.map (Row.shown "    ") := by
  refine part_of (by line_chars) (by simp only [litChars]; computes) ?_
  row_chars [Syntax.CSharp.unknownError]
  computes

theorem base_part : [("{# MESSAGE_TYPE_CASES #}", Sub.lines ls)].foldl substitute ((Boilerplate.cSharp1.drop 22).take 5) =
    Syntax.CSharp.base.map (Row.shown "    ") := by
  refine part_of (by line_chars) (by simp only [litChars]; computes) ?_
  row_chars [Syntax.CSharp.base]
  computes

theorem packedSize_part : [("{# MESSAGE_TYPE_CASES #}", Sub.lines ls)].foldl substitute ((Boilerplate.cSharp1.drop 50).take 10) =
    (inside 1 Syntax.CSharp.packedSize).map (Row.shown "    ") := by
  refine part_of (by line_chars) (by simp only [litChars]; computes) ?_
  row_chars [Syntax.CSharp.packedSize, inside]
  computes

theorem pack_part : [("{# MESSAGE_TYPE_CASES #}", Sub.lines ls)].foldl substitute ((Boilerplate.cSharp1.drop 61).take 12) =
    (inside 1 Syntax.CSharp.pack).map (Row.shown "    ") := by
  refine part_of (by line_chars) (by simp only [litChars]; computes) ?_
  row_chars [Syntax.CSharp.pack, inside]
  computes

theorem unpack_part : [("{# MESSAGE_TYPE_CASES #}", Sub.lines ls)].foldl substitute ((Boilerplate.cSharp1.drop 74).take 22) =
    (inside 1 Syntax.CSharp.unpack).map (Row.shown "    ") := by
  refine part_of (by line_chars) (by simp only [litChars]; computes) ?_
  row_chars [Syntax.CSharp.unpack, inside]
  computes

end

/-- The lines of the library. -/
inductive Library : List Row → Prop
  | readError : Library Syntax.CSharp.readError
  | unknownError : Library Syntax.CSharp.unknownError
  | base : Library Syntax.CSharp.base
  | packedSize : Library (inside 1 Syntax.CSharp.packedSize)
  | pack : Library (inside 1 Syntax.CSharp.pack)
  | unpack : Library (inside 1 Syntax.CSharp.unpack)

theorem library_puts {w : Writer} {rs : List Row} {k : Nat} {ls : List String} (hb : w.boilerplate 1 = Boilerplate.cSharp1)
    (hn : w.nativeTab = "    ") (h : Library rs) :
    Puts w.tab (w.addBoilerplate [("{# MESSAGE_TYPE_CASES #}", .lines ls)] 1) k (inside k rs) := by
  have hz : blankTab w.nativeTab = true := by rw [hn]; decide
  have part : ∀ i n, ((Boilerplate.cSharp1.drop i).take n) <:+: w.boilerplate 1 := fun i n => hb ▸ part_infix _ i n
  cases h
  · refine Puts.library (part 0 10) hz (tidy_of_chars ?_) (by rw [hn]; exact readError_part)
    row_chars [Syntax.CSharp.readError]
    rfl
  · refine Puts.library (part 11 10) hz (tidy_of_chars ?_) (by rw [hn]; exact unknownError_part)
    row_chars [Syntax.CSharp.unknownError]
    rfl
  · refine Puts.library (part 22 5) hz (tidy_of_chars ?_) (by rw [hn]; exact base_part)
    row_chars [Syntax.CSharp.base]
    rfl
  · refine Puts.library (part 50 10) hz (tidy_of_chars ?_) (by rw [hn]; exact packedSize_part)
    row_chars [Syntax.CSharp.packedSize, inside]
    rfl
  · refine Puts.library (part 61 12) hz (tidy_of_chars ?_) (by rw [hn]; exact pack_part)
    row_chars [Syntax.CSharp.pack, inside]
    rfl
  · refine Puts.library (part 74 22) hz (tidy_of_chars ?_) (by rw [hn]; exact unpack_part)
    row_chars [Syntax.CSharp.unpack, inside]
    rfl

end Beschi.Text.CSharp.Link
