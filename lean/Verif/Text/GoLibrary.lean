import Verif.Syntax.GoLibrary
import Verif.Lang.Go
import Verif.Text.Library
import Verif.Text.Boilerplate
/-
The library in the text written for Go.
-/
namespace Beschi.Text.Go.Link
open Beschi.Spec Beschi.Lang

/-- The name of the library, which is replaced by the namespace. -/
abbrev names : List (List Char) := [['B', 'e', 's', 'c', 'h', 'i'], ['b', 'e', 's', 'c', 'h', 'i']]

/-- What is filled into the boilerplate (go.py L319-324): the namespace may be filled in, too. -/
def Fillings (n : NumTy) (subs : List (String × Sub)) : Prop :=
  ∃ more, subs = ("{# STRING_SIZE_TYPE #}", .text (Lang.Go.native n)) :: more ∧
    ∀ s ∈ more, ∃ o ∈ names, ∃ t, s = (String.ofList o, .text t)

section
variable {n : NumTy} {subs : List (String × Sub)} (hs : Fillings n subs)
include hs

theorem part_of {i k : Nat} {ts : List Template} {rs : List Row}
    (h : Fits (holes [Lang.Go.native n]) (substitute ((Boilerplate.go.drop i).take k) ("{# STRING_SIZE_TYPE #}", .text (Lang.Go.native n))) ts)
    (ha : ((ts.map (Template.fill (holes [Lang.Go.native n]))).all fun cs => names.all fun o =>
      Template.nowhere o 0 (Template.plain cs)) = true)
    (hr : rs.map (rowChars ['\t']) = ts.map (Template.fill (holes [Lang.Go.native n]))) :
    subs.foldl substitute ((Boilerplate.go.drop i).take k) = rs.map (Row.shown "\t") := by
  obtain ⟨more, rfl, hm⟩ := hs
  rw [List.foldl_cons, substitutes_absent h (by decide) ha hm]
  exact h.rows hr

theorem readString_part : subs.foldl substitute ((Boilerplate.go.drop 8).take 11) =
    (Syntax.Go.readString (Lang.Go.native n)).map (Row.shown "\t") := by
  refine part_of hs ((Fits.plain (by line_chars) _).next 0 0 String.toList_ofList rfl (fun j hj => absurd hj (Nat.not_lt_zero j))
    (by computes)) ?_ ?_
  · cases n <;> computes
  · row_chars [Syntax.Go.readString]
    cases n <;> computes

theorem writeString_part : subs.foldl substitute ((Boilerplate.go.drop 20).take 5) =
    (Syntax.Go.writeString (Lang.Go.native n)).map (Row.shown "\t") := by
  refine part_of hs ((Fits.plain (by line_chars) _).next 0 0 String.toList_ofList rfl (fun j hj => absurd hj (Nat.not_lt_zero j))
    (by computes)) ?_ ?_
  · cases n <;> computes
  · row_chars [Syntax.Go.writeString]
    cases n <;> computes

theorem packedSize_part : subs.foldl substitute ((Boilerplate.go.drop 34).take 9) =
    Syntax.Go.packedSize.map (Row.shown "\t") := by
  refine part_of hs ((Fits.plain (by line_chars) _).next 0 0 String.toList_ofList rfl (fun j hj => absurd hj (Nat.not_lt_zero j))
    (by computes)) ?_ ?_
  · computes
  · row_chars [Syntax.Go.packedSize]
    computes

theorem pack_part : subs.foldl substitute ((Boilerplate.go.drop 44).take 8) =
    Syntax.Go.pack.map (Row.shown "\t") := by
  refine part_of hs ((Fits.plain (by line_chars) _).next 0 0 String.toList_ofList rfl (fun j hj => absurd hj (Nat.not_lt_zero j))
    (by computes)) ?_ ?_
  · computes
  · row_chars [Syntax.Go.pack]
    computes

theorem unpack_part : subs.foldl substitute ((Boilerplate.go.drop 53).take 28) =
    Syntax.Go.unpack.map (Row.shown "\t") := by
  refine part_of hs ((Fits.plain (by line_chars) _).next 0 0 String.toList_ofList rfl (fun j hj => absurd hj (Nat.not_lt_zero j))
    (by computes)) ?_ ?_
  · computes
  · row_chars [Syntax.Go.unpack]
    computes

end

/-- The lines of the library. -/
def Library (p : Protocol) (rs : List Row) : Prop :=
  rs = Syntax.Go.readString (Lang.Go.native p.stringSize) ∨ rs = Syntax.Go.writeString (Lang.Go.native p.stringSize) ∨
  rs = Syntax.Go.packedSize ∨ rs = Syntax.Go.pack ∨ rs = Syntax.Go.unpack

theorem library_puts {w : Writer} {rs : List Row} (hb : w.boilerplate 0 = Boilerplate.go) (hn : w.nativeTab = "\t")
    {subs : List (String × Sub)} (hs : Fillings w.p.stringSize subs) (h : Library w.p rs) :
    Puts w.tab (w.addBoilerplate subs 0) 0 rs := by
  have hz : blankTab w.nativeTab = true := by rw [hn]; decide
  have part : ∀ i n, ((Boilerplate.go.drop i).take n) <:+: w.boilerplate 0 := fun i n => hb ▸ part_infix _ i n
  rw [← inside_zero rs]
  rcases h with rfl | rfl | rfl | rfl | rfl
  · refine Puts.library (part 8 11) hz (tidy_of_chars ?_) (by rw [hn]; exact readString_part hs)
    row_chars [Syntax.Go.readString]
    rfl
  · refine Puts.library (part 20 5) hz (tidy_of_chars ?_) (by rw [hn]; exact writeString_part hs)
    row_chars [Syntax.Go.writeString]
    rfl
  · refine Puts.library (part 34 9) hz (tidy_of_chars ?_) (by rw [hn]; exact packedSize_part hs)
    row_chars [Syntax.Go.packedSize]
    rfl
  · refine Puts.library (part 44 8) hz (tidy_of_chars ?_) (by rw [hn]; exact pack_part hs)
    row_chars [Syntax.Go.pack]
    rfl
  · refine Puts.library (part 53 28) hz (tidy_of_chars ?_) (by rw [hn]; exact unpack_part hs)
    row_chars [Syntax.Go.unpack]
    rfl

end Beschi.Text.Go.Link
