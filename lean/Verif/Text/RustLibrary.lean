import Verif.Syntax.RustLibrary
import Verif.Text.Library
import Verif.Text.Boilerplate
/-
The library in the text written for Rust.
-/
namespace Beschi.Text.Rust.Link
open Beschi.Spec Beschi.Lang

/-- What is filled into the boilerplate (rust.py L273-279): the namespace, if there is one, takes the place of
the library's name. -/
def Fillings (n : NumTy) (name : String) (subs : List (String × Sub)) : Prop :=
  name = "Beschi" ∧ subs = [("{# STRING_SIZE_TYPE #}", .text (Lang.Rust.native n))] ∨
  subs = [("{# STRING_SIZE_TYPE #}", .text (Lang.Rust.native n)), ("Beschi", .text name)]

theorem native_chars (n : NumTy) : ∀ c ∈ (Lang.Rust.native n).toList, some 'B' ≠ some c := by
  cases n <;> decide

section
variable {n : NumTy} {name : String} {subs : List (String × Sub)} (hs : Fillings n name subs)
include hs

theorem part_of {i k : Nat} {ts : List Template} {rs : List Row}
    (h : Fits (holes [Lang.Rust.native n, name]) (substitute ((Boilerplate.rust.drop i).take k)
      ("{# STRING_SIZE_TYPE #}", .text (Lang.Rust.native n))) ts)
    (hc : (!"Beschi".toList.isEmpty && ts.all (Template.certain "Beschi".toList) && ts.all (Template.below 1)) = true)
    (he : ts.map (Template.fill (holes [Lang.Rust.native n, "Beschi"])) =
      (ts.map (Template.cut "Beschi".toList 1 0)).map (Template.fill (holes [Lang.Rust.native n, "Beschi"])))
    (hr : rs.map (rowChars "    ".toList) = (ts.map (Template.cut "Beschi".toList 1 0)).map
      (Template.fill (holes [Lang.Rust.native n, name]))) :
    subs.foldl substitute ((Boilerplate.rust.drop i).take k) = rs.map (Row.shown "    ") := by
  rcases hs with ⟨rfl, rfl⟩ | rfl
  · exact Fits.rows h (hr.trans he.symm)
  · refine Fits.rows (h.next 1 1 rfl rfl (fun j hj => ?_) hc) hr
    obtain rfl : j = 0 := by omega
    exact native_chars n

theorem errors_part : subs.foldl substitute ((Boilerplate.rust.drop 5).take 6) =
    (Syntax.Rust.errors (name ++ "Error")).map (Row.shown "    ") := by
  refine part_of hs ((Fits.plain (by line_chars) _).next 0 0 String.toList_ofList rfl (fun j hj => absurd hj (Nat.not_lt_zero j))
    (by computes)) (by simp only [litChars]; computes) (by simp only [litChars]; computes) ?_
  row_chars [Syntax.Rust.errors, inside, List.append_assoc]
  computes

theorem isFinished_part : subs.foldl substitute ((Boilerplate.rust.drop 42).take 3) =
    (inside 1 Syntax.Rust.isFinished).map (Row.shown "    ") := by
  refine part_of hs ((Fits.plain (by line_chars) _).next 0 0 String.toList_ofList rfl (fun j hj => absurd hj (Nat.not_lt_zero j))
    (by computes)) (by simp only [litChars]; computes) (by simp only [litChars]; computes) ?_
  row_chars [Syntax.Rust.isFinished, inside, List.append_assoc]
  computes

theorem hasRemaining_part : subs.foldl substitute ((Boilerplate.rust.drop 46).take 3) =
    (inside 1 Syntax.Rust.hasRemaining).map (Row.shown "    ") := by
  refine part_of hs ((Fits.plain (by line_chars) _).next 0 0 String.toList_ofList rfl (fun j hj => absurd hj (Nat.not_lt_zero j))
    (by computes)) (by simp only [litChars]; computes) (by simp only [litChars]; computes) ?_
  row_chars [Syntax.Rust.hasRemaining, inside, List.append_assoc]
  computes

theorem takeByte_part : subs.foldl substitute ((Boilerplate.rust.drop 50).take 7) =
    (inside 1 (Syntax.Rust.takeByte (name ++ "Error"))).map (Row.shown "    ") := by
  refine part_of hs ((Fits.plain (by line_chars) _).next 0 0 String.toList_ofList rfl (fun j hj => absurd hj (Nat.not_lt_zero j))
    (by computes)) (by simp only [litChars]; computes) (by simp only [litChars]; computes) ?_
  row_chars [Syntax.Rust.takeByte, inside, List.append_assoc]
  computes

theorem take_part : subs.foldl substitute ((Boilerplate.rust.drop 58).take 9) =
    (inside 1 (Syntax.Rust.take (name ++ "Error"))).map (Row.shown "    ") := by
  refine part_of hs ((Fits.plain (by line_chars) _).next 0 0 String.toList_ofList rfl (fun j hj => absurd hj (Nat.not_lt_zero j))
    (by computes)) (by simp only [litChars]; computes) (by simp only [litChars]; computes) ?_
  row_chars [Syntax.Rust.take, inside, List.append_assoc]
  computes

theorem readString_part : subs.foldl substitute ((Boilerplate.rust.drop 68).take 8) =
    (inside 1 (Syntax.Rust.readString (name ++ "Error") (Lang.Rust.native n))).map (Row.shown "    ") := by
  refine part_of hs ((Fits.plain (by line_chars) _).next 0 0 String.toList_ofList rfl (fun j hj => absurd hj (Nat.not_lt_zero j))
    (by computes)) (by simp only [litChars]; computes) (by simp only [litChars]; computes) ?_
  row_chars [Syntax.Rust.readString, inside, List.append_assoc]
  computes

theorem readByte_part : subs.foldl substitute ((Boilerplate.rust.drop 77).take 4) =
    (inside 1 (Syntax.Rust.readByte (name ++ "Error"))).map (Row.shown "    ") := by
  refine part_of hs ((Fits.plain (by line_chars) _).next 0 0 String.toList_ofList rfl (fun j hj => absurd hj (Nat.not_lt_zero j))
    (by computes)) (by simp only [litChars]; computes) (by simp only [litChars]; computes) ?_
  row_chars [Syntax.Rust.readByte, inside, List.append_assoc]
  computes

theorem packedSize_part : subs.foldl substitute ((Boilerplate.rust.drop 132).take 11) =
    Syntax.Rust.packedSize.map (Row.shown "    ") := by
  refine part_of hs ((Fits.plain (by line_chars) _).next 0 0 String.toList_ofList rfl (fun j hj => absurd hj (Nat.not_lt_zero j))
    (by computes)) (by simp only [litChars]; computes) (by simp only [litChars]; computes) ?_
  row_chars [Syntax.Rust.packedSize, inside, List.append_assoc]
  computes

theorem pack_part : subs.foldl substitute ((Boilerplate.rust.drop 144).take 11) =
    Syntax.Rust.pack.map (Row.shown "    ") := by
  refine part_of hs ((Fits.plain (by line_chars) _).next 0 0 String.toList_ofList rfl (fun j hj => absurd hj (Nat.not_lt_zero j))
    (by computes)) (by simp only [litChars]; computes) (by simp only [litChars]; computes) ?_
  row_chars [Syntax.Rust.pack, inside, List.append_assoc]
  computes

theorem unpack_part : subs.foldl substitute ((Boilerplate.rust.drop 156).take 22) =
    (Syntax.Rust.unpack (name ++ "Error")).map (Row.shown "    ") := by
  refine part_of hs ((Fits.plain (by line_chars) _).next 0 0 String.toList_ofList rfl (fun j hj => absurd hj (Nat.not_lt_zero j))
    (by computes)) (by simp only [litChars]; computes) (by simp only [litChars]; computes) ?_
  row_chars [Syntax.Rust.unpack, inside, List.append_assoc]
  computes

/-- Where the functions are that read numbers. -/
def numberAt : NumTy → Nat
  | .int16 => 82
  | .uint16 => 87
  | .int32 => 92
  | .uint32 => 97
  | .int64 => 102
  | .uint64 => 107
  | .float => 112
  | .double => 117
  | _ => 0

theorem readNumber_part {m : NumTy} (hb : m ≠ .byte) (hz : m ≠ .bool) :
    subs.foldl substitute ((Boilerplate.rust.drop (numberAt m)).take 4) =
      (inside 1 (Syntax.Rust.readNumber (name ++ "Error") m)).map (Row.shown "    ") := by
  cases m <;> first | exact absurd rfl hb | exact absurd rfl hz | (
    refine part_of hs ((Fits.plain (by line_chars) _).next 0 0 String.toList_ofList rfl (fun j hj => absurd hj (Nat.not_lt_zero j))
      (by computes)) (by simp only [litChars]; computes) (by simp only [litChars]; computes) ?_
    row_chars [Syntax.Rust.readNumber, inside, List.append_assoc, Lang.Rust.native]
    computes)

end

/-- The lines of the library; `err` is the type of errors. -/
inductive Library (p : Protocol) (err : String) : List Row → Prop
  | errors : Library p err (Syntax.Rust.errors err)
  | isFinished : Library p err (inside 1 Syntax.Rust.isFinished)
  | hasRemaining : Library p err (inside 1 Syntax.Rust.hasRemaining)
  | takeByte : Library p err (inside 1 (Syntax.Rust.takeByte err))
  | take : Library p err (inside 1 (Syntax.Rust.take err))
  | readString : Library p err (inside 1 (Syntax.Rust.readString err (Lang.Rust.native p.stringSize)))
  | readByte : Library p err (inside 1 (Syntax.Rust.readByte err))
  | packedSize : Library p err Syntax.Rust.packedSize
  | pack : Library p err Syntax.Rust.pack
  | unpack : Library p err (Syntax.Rust.unpack err)
  | readNumber {n : NumTy} (hb : n ≠ .byte) (hz : n ≠ .bool) : Library p err (inside 1 (Syntax.Rust.readNumber err n))

theorem library_puts {w : Writer} {rs : List Row} (hb : w.boilerplate 0 = Boilerplate.rust) (hn : w.nativeTab = "    ")
    {subs : List (String × Sub)} {name : String} (hs : Fillings w.p.stringSize name subs) (h : Library w.p (name ++ "Error") rs) :
    Puts w.tab (w.addBoilerplate subs 0) 0 rs := by
  have hz : blankTab w.nativeTab = true := by rw [hn]; decide
  have part : ∀ i n, ((Boilerplate.rust.drop i).take n) <:+: w.boilerplate 0 := fun i n => hb ▸ part_infix _ i n
  rw [← inside_zero rs]
  cases h with
  | errors =>
    refine Puts.library (part 5 6) hz (tidy_of_chars ?_) (by rw [hn]; exact errors_part hs)
    row_chars [Syntax.Rust.errors, inside]
    rfl
  | isFinished =>
    refine Puts.library (part 42 3) hz (tidy_of_chars ?_) (by rw [hn]; exact isFinished_part hs)
    row_chars [Syntax.Rust.isFinished, inside]
    rfl
  | hasRemaining =>
    refine Puts.library (part 46 3) hz (tidy_of_chars ?_) (by rw [hn]; exact hasRemaining_part hs)
    row_chars [Syntax.Rust.hasRemaining, inside]
    rfl
  | takeByte =>
    refine Puts.library (part 50 7) hz (tidy_of_chars ?_) (by rw [hn]; exact takeByte_part hs)
    row_chars [Syntax.Rust.takeByte, inside]
    rfl
  | take =>
    refine Puts.library (part 58 9) hz (tidy_of_chars ?_) (by rw [hn]; exact take_part hs)
    row_chars [Syntax.Rust.take, inside]
    rfl
  | readString =>
    refine Puts.library (part 68 8) hz (tidy_of_chars ?_) (by rw [hn]; exact readString_part hs)
    row_chars [Syntax.Rust.readString, inside]
    rfl
  | readByte =>
    refine Puts.library (part 77 4) hz (tidy_of_chars ?_) (by rw [hn]; exact readByte_part hs)
    row_chars [Syntax.Rust.readByte, inside]
    rfl
  | packedSize =>
    refine Puts.library (part 132 11) hz (tidy_of_chars ?_) (by rw [hn]; exact packedSize_part hs)
    row_chars [Syntax.Rust.packedSize, inside]
    rfl
  | pack =>
    refine Puts.library (part 144 11) hz (tidy_of_chars ?_) (by rw [hn]; exact pack_part hs)
    row_chars [Syntax.Rust.pack, inside]
    rfl
  | unpack =>
    refine Puts.library (part 156 22) hz (tidy_of_chars ?_) (by rw [hn]; exact unpack_part hs)
    row_chars [Syntax.Rust.unpack, inside]
    rfl
  | readNumber h1 h2 =>
    refine Puts.library (part _ 4) hz (tidy_of_chars ?_) (by rw [hn]; exact readNumber_part hs h1 h2)
    row_chars [Syntax.Rust.readNumber, inside]
    rfl

end Beschi.Text.Rust.Link
