import Verif.Syntax.SwiftLibrary
import Verif.Text.Library
import Verif.Text.Boilerplate
/-
The library in the text written for Swift.
-/
namespace Beschi.Text.Swift.Link
open Beschi.Spec Beschi.Lang

/-- What is filled into the boilerplate (swift.py L258-261). -/
abbrev fillings (n : NumTy) : List (String × Sub) :=
  [("{# STRING_SIZE_TYPE #}", .text (Lang.Swift.native n)), ("{# STRING_SIZE_TYPE_LOWER #}", .text (Lang.Swift.label n))]

theorem holes_chars (n : NumTy) : ∀ j < 2, ∀ c ∈ holes [Lang.Swift.native n, Lang.Swift.label n] j, some '{' ≠ some c
  | 0, _ => by cases n <;> decide
  | 1, _ => by cases n <;> decide

section
variable (n : NumTy)

theorem errors_part : (fillings n).foldl substitute ((Boilerplate.swift0.drop 0).take 4) =
    Syntax.Swift.errors.map (Row.shown "    ") := by
  refine Fits.rows (((Fits.plain (by line_chars) _).next 0 2 String.toList_ofList rfl (holes_chars n) (by computes)).next
    1 2 String.toList_ofList rfl (holes_chars n) (by computes)) ?_
  row_chars [Syntax.Swift.errors, inside, List.append_assoc]
  computes

theorem isFinished_part : (fillings n).foldl substitute ((Boilerplate.swift0.drop 12).take 3) =
    (inside 1 Syntax.Swift.isFinished).map (Row.shown "    ") := by
  refine Fits.rows (((Fits.plain (by line_chars) _).next 0 2 String.toList_ofList rfl (holes_chars n) (by computes)).next
    1 2 String.toList_ofList rfl (holes_chars n) (by computes)) ?_
  row_chars [Syntax.Swift.isFinished, inside, List.append_assoc]
  computes

theorem readBool_part : (fillings n).foldl substitute ((Boilerplate.swift0.drop 29).take 3) =
    (inside 1 Syntax.Swift.readBool).map (Row.shown "    ") := by
  refine Fits.rows (((Fits.plain (by line_chars) _).next 0 2 String.toList_ofList rfl (holes_chars n) (by computes)).next
    1 2 String.toList_ofList rfl (holes_chars n) (by computes)) ?_
  row_chars [Syntax.Swift.readBool, inside, List.append_assoc]
  computes

theorem readString_part : (fillings n).foldl substitute ((Boilerplate.swift0.drop 137).take 14) =
    (inside 1 (Syntax.Swift.readString (Lang.Swift.native n))).map (Row.shown "    ") := by
  refine Fits.rows (((Fits.plain (by line_chars) _).next 0 2 String.toList_ofList rfl (holes_chars n) (by computes)).next
    1 2 String.toList_ofList rfl (holes_chars n) (by computes)) ?_
  row_chars [Syntax.Swift.readString, inside, List.append_assoc]
  computes

theorem writeBool_part : (fillings n).foldl substitute ((Boilerplate.swift0.drop 173).take 3) =
    (inside 1 Syntax.Swift.writeBool).map (Row.shown "    ") := by
  refine Fits.rows (((Fits.plain (by line_chars) _).next 0 2 String.toList_ofList rfl (holes_chars n) (by computes)).next
    1 2 String.toList_ofList rfl (holes_chars n) (by computes)) ?_
  row_chars [Syntax.Swift.writeBool, inside, List.append_assoc]
  computes

theorem writeString_part : (fillings n).foldl substitute ((Boilerplate.swift0.drop 223).take 5) =
    (inside 1 (Syntax.Swift.writeString (Lang.Swift.label n) (Lang.Swift.native n))).map (Row.shown "    ") := by
  refine Fits.rows (((Fits.plain (by line_chars) _).next 0 2 String.toList_ofList rfl (holes_chars n) (by computes)).next
    1 2 String.toList_ofList rfl (holes_chars n) (by computes)) ?_
  row_chars [Syntax.Swift.writeString, inside, List.append_assoc]
  computes

theorem unpack_part : (fillings n).foldl substitute ((Boilerplate.swift0.drop 248).take 26) =
    (inside 1 Syntax.Swift.unpack).map (Row.shown "    ") := by
  refine Fits.rows (((Fits.plain (by line_chars) _).next 0 2 String.toList_ofList rfl (holes_chars n) (by computes)).next
    1 2 String.toList_ofList rfl (holes_chars n) (by computes)) ?_
  row_chars [Syntax.Swift.unpack, inside, List.append_assoc]
  computes

theorem readNumber_byte_part : (fillings n).foldl substitute ((Boilerplate.swift0.drop 16).take 12) =
    (inside 1 (Syntax.Swift.readNumber .byte)).map (Row.shown "    ") := by
  refine Fits.rows (((Fits.plain (by line_chars) _).next 0 2 String.toList_ofList rfl (holes_chars n) (by computes)).next
    1 2 String.toList_ofList rfl (holes_chars n) (by computes)) ?_
  row_chars [Syntax.Swift.readNumber, Lang.Swift.native, inside, List.append_assoc]
  computes

theorem readNumber_int16_part : (fillings n).foldl substitute ((Boilerplate.swift0.drop 33).take 12) =
    (inside 1 (Syntax.Swift.readNumber .int16)).map (Row.shown "    ") := by
  refine Fits.rows (((Fits.plain (by line_chars) _).next 0 2 String.toList_ofList rfl (holes_chars n) (by computes)).next
    1 2 String.toList_ofList rfl (holes_chars n) (by computes)) ?_
  row_chars [Syntax.Swift.readNumber, Lang.Swift.native, inside, List.append_assoc]
  computes

theorem readNumber_uint16_part : (fillings n).foldl substitute ((Boilerplate.swift0.drop 46).take 12) =
    (inside 1 (Syntax.Swift.readNumber .uint16)).map (Row.shown "    ") := by
  refine Fits.rows (((Fits.plain (by line_chars) _).next 0 2 String.toList_ofList rfl (holes_chars n) (by computes)).next
    1 2 String.toList_ofList rfl (holes_chars n) (by computes)) ?_
  row_chars [Syntax.Swift.readNumber, Lang.Swift.native, inside, List.append_assoc]
  computes

theorem readNumber_int32_part : (fillings n).foldl substitute ((Boilerplate.swift0.drop 59).take 12) =
    (inside 1 (Syntax.Swift.readNumber .int32)).map (Row.shown "    ") := by
  refine Fits.rows (((Fits.plain (by line_chars) _).next 0 2 String.toList_ofList rfl (holes_chars n) (by computes)).next
    1 2 String.toList_ofList rfl (holes_chars n) (by computes)) ?_
  row_chars [Syntax.Swift.readNumber, Lang.Swift.native, inside, List.append_assoc]
  computes

theorem readNumber_uint32_part : (fillings n).foldl substitute ((Boilerplate.swift0.drop 72).take 12) =
    (inside 1 (Syntax.Swift.readNumber .uint32)).map (Row.shown "    ") := by
  refine Fits.rows (((Fits.plain (by line_chars) _).next 0 2 String.toList_ofList rfl (holes_chars n) (by computes)).next
    1 2 String.toList_ofList rfl (holes_chars n) (by computes)) ?_
  row_chars [Syntax.Swift.readNumber, Lang.Swift.native, inside, List.append_assoc]
  computes

theorem readNumber_int64_part : (fillings n).foldl substitute ((Boilerplate.swift0.drop 85).take 12) =
    (inside 1 (Syntax.Swift.readNumber .int64)).map (Row.shown "    ") := by
  refine Fits.rows (((Fits.plain (by line_chars) _).next 0 2 String.toList_ofList rfl (holes_chars n) (by computes)).next
    1 2 String.toList_ofList rfl (holes_chars n) (by computes)) ?_
  row_chars [Syntax.Swift.readNumber, Lang.Swift.native, inside, List.append_assoc]
  computes

theorem readNumber_uint64_part : (fillings n).foldl substitute ((Boilerplate.swift0.drop 98).take 12) =
    (inside 1 (Syntax.Swift.readNumber .uint64)).map (Row.shown "    ") := by
  refine Fits.rows (((Fits.plain (by line_chars) _).next 0 2 String.toList_ofList rfl (holes_chars n) (by computes)).next
    1 2 String.toList_ofList rfl (holes_chars n) (by computes)) ?_
  row_chars [Syntax.Swift.readNumber, Lang.Swift.native, inside, List.append_assoc]
  computes

theorem readFloat_float_part : (fillings n).foldl substitute ((Boilerplate.swift0.drop 111).take 12) =
    (inside 1 (Syntax.Swift.readFloat .float .uint32)).map (Row.shown "    ") := by
  refine Fits.rows (((Fits.plain (by line_chars) _).next 0 2 String.toList_ofList rfl (holes_chars n) (by computes)).next
    1 2 String.toList_ofList rfl (holes_chars n) (by computes)) ?_
  row_chars [Syntax.Swift.readFloat, Lang.Swift.native, inside, List.append_assoc]
  computes

theorem readFloat_double_part : (fillings n).foldl substitute ((Boilerplate.swift0.drop 124).take 12) =
    (inside 1 (Syntax.Swift.readFloat .double .uint64)).map (Row.shown "    ") := by
  refine Fits.rows (((Fits.plain (by line_chars) _).next 0 2 String.toList_ofList rfl (holes_chars n) (by computes)).next
    1 2 String.toList_ofList rfl (holes_chars n) (by computes)) ?_
  row_chars [Syntax.Swift.readFloat, Lang.Swift.native, inside, List.append_assoc]
  computes

theorem writeNumber_byte_part : (fillings n).foldl substitute ((Boilerplate.swift0.drop 168).take 4) =
    (inside 1 (Syntax.Swift.writeNumber .byte)).map (Row.shown "    ") := by
  refine Fits.rows (((Fits.plain (by line_chars) _).next 0 2 String.toList_ofList rfl (holes_chars n) (by computes)).next
    1 2 String.toList_ofList rfl (holes_chars n) (by computes)) ?_
  row_chars [Syntax.Swift.writeNumber, Lang.Swift.native, Lang.Swift.label, inside, List.append_assoc]
  computes

theorem writeNumber_int16_part : (fillings n).foldl substitute ((Boilerplate.swift0.drop 177).take 4) =
    (inside 1 (Syntax.Swift.writeNumber .int16)).map (Row.shown "    ") := by
  refine Fits.rows (((Fits.plain (by line_chars) _).next 0 2 String.toList_ofList rfl (holes_chars n) (by computes)).next
    1 2 String.toList_ofList rfl (holes_chars n) (by computes)) ?_
  row_chars [Syntax.Swift.writeNumber, Lang.Swift.native, Lang.Swift.label, inside, List.append_assoc]
  computes

theorem writeNumber_uint16_part : (fillings n).foldl substitute ((Boilerplate.swift0.drop 182).take 4) =
    (inside 1 (Syntax.Swift.writeNumber .uint16)).map (Row.shown "    ") := by
  refine Fits.rows (((Fits.plain (by line_chars) _).next 0 2 String.toList_ofList rfl (holes_chars n) (by computes)).next
    1 2 String.toList_ofList rfl (holes_chars n) (by computes)) ?_
  row_chars [Syntax.Swift.writeNumber, Lang.Swift.native, Lang.Swift.label, inside, List.append_assoc]
  computes

theorem writeNumber_int32_part : (fillings n).foldl substitute ((Boilerplate.swift0.drop 187).take 4) =
    (inside 1 (Syntax.Swift.writeNumber .int32)).map (Row.shown "    ") := by
  refine Fits.rows (((Fits.plain (by line_chars) _).next 0 2 String.toList_ofList rfl (holes_chars n) (by computes)).next
    1 2 String.toList_ofList rfl (holes_chars n) (by computes)) ?_
  row_chars [Syntax.Swift.writeNumber, Lang.Swift.native, Lang.Swift.label, inside, List.append_assoc]
  computes

theorem writeNumber_uint32_part : (fillings n).foldl substitute ((Boilerplate.swift0.drop 192).take 4) =
    (inside 1 (Syntax.Swift.writeNumber .uint32)).map (Row.shown "    ") := by
  refine Fits.rows (((Fits.plain (by line_chars) _).next 0 2 String.toList_ofList rfl (holes_chars n) (by computes)).next
    1 2 String.toList_ofList rfl (holes_chars n) (by computes)) ?_
  row_chars [Syntax.Swift.writeNumber, Lang.Swift.native, Lang.Swift.label, inside, List.append_assoc]
  computes

theorem writeNumber_int64_part : (fillings n).foldl substitute ((Boilerplate.swift0.drop 197).take 4) =
    (inside 1 (Syntax.Swift.writeNumber .int64)).map (Row.shown "    ") := by
  refine Fits.rows (((Fits.plain (by line_chars) _).next 0 2 String.toList_ofList rfl (holes_chars n) (by computes)).next
    1 2 String.toList_ofList rfl (holes_chars n) (by computes)) ?_
  row_chars [Syntax.Swift.writeNumber, Lang.Swift.native, Lang.Swift.label, inside, List.append_assoc]
  computes

theorem writeNumber_uint64_part : (fillings n).foldl substitute ((Boilerplate.swift0.drop 202).take 4) =
    (inside 1 (Syntax.Swift.writeNumber .uint64)).map (Row.shown "    ") := by
  refine Fits.rows (((Fits.plain (by line_chars) _).next 0 2 String.toList_ofList rfl (holes_chars n) (by computes)).next
    1 2 String.toList_ofList rfl (holes_chars n) (by computes)) ?_
  row_chars [Syntax.Swift.writeNumber, Lang.Swift.native, Lang.Swift.label, inside, List.append_assoc]
  computes

theorem writeFloat_float_part : (fillings n).foldl substitute ((Boilerplate.swift0.drop 207).take 7) =
    (inside 1 (Syntax.Swift.writeFloat .float .uint32)).map (Row.shown "    ") := by
  refine Fits.rows (((Fits.plain (by line_chars) _).next 0 2 String.toList_ofList rfl (holes_chars n) (by computes)).next
    1 2 String.toList_ofList rfl (holes_chars n) (by computes)) ?_
  row_chars [Syntax.Swift.writeFloat, Lang.Swift.native, Lang.Swift.label, inside, List.append_assoc]
  computes

theorem writeFloat_double_part : (fillings n).foldl substitute ((Boilerplate.swift0.drop 215).take 7) =
    (inside 1 (Syntax.Swift.writeFloat .double .uint64)).map (Row.shown "    ") := by
  refine Fits.rows (((Fits.plain (by line_chars) _).next 0 2 String.toList_ofList rfl (holes_chars n) (by computes)).next
    1 2 String.toList_ofList rfl (holes_chars n) (by computes)) ?_
  row_chars [Syntax.Swift.writeFloat, Lang.Swift.native, Lang.Swift.label, inside, List.append_assoc]
  computes

end

/-- The lines of the library. -/
inductive Library (p : Protocol) : List Row → Prop
  | errors : Library p Syntax.Swift.errors
  | isFinished : Library p (inside 1 Syntax.Swift.isFinished)
  | readBool : Library p (inside 1 Syntax.Swift.readBool)
  | readString : Library p (inside 1 (Syntax.Swift.readString (Lang.Swift.native p.stringSize)))
  | writeBool : Library p (inside 1 Syntax.Swift.writeBool)
  | writeString : Library p (inside 1 (Syntax.Swift.writeString (Lang.Swift.label p.stringSize) (Lang.Swift.native p.stringSize)))
  | unpack : Library p (inside 1 Syntax.Swift.unpack)
  | readNumber_byte : Library p (inside 1 (Syntax.Swift.readNumber .byte))
  | readNumber_int16 : Library p (inside 1 (Syntax.Swift.readNumber .int16))
  | readNumber_uint16 : Library p (inside 1 (Syntax.Swift.readNumber .uint16))
  | readNumber_int32 : Library p (inside 1 (Syntax.Swift.readNumber .int32))
  | readNumber_uint32 : Library p (inside 1 (Syntax.Swift.readNumber .uint32))
  | readNumber_int64 : Library p (inside 1 (Syntax.Swift.readNumber .int64))
  | readNumber_uint64 : Library p (inside 1 (Syntax.Swift.readNumber .uint64))
  | readFloat_float : Library p (inside 1 (Syntax.Swift.readFloat .float .uint32))
  | readFloat_double : Library p (inside 1 (Syntax.Swift.readFloat .double .uint64))
  | writeNumber_byte : Library p (inside 1 (Syntax.Swift.writeNumber .byte))
  | writeNumber_int16 : Library p (inside 1 (Syntax.Swift.writeNumber .int16))
  | writeNumber_uint16 : Library p (inside 1 (Syntax.Swift.writeNumber .uint16))
  | writeNumber_int32 : Library p (inside 1 (Syntax.Swift.writeNumber .int32))
  | writeNumber_uint32 : Library p (inside 1 (Syntax.Swift.writeNumber .uint32))
  | writeNumber_int64 : Library p (inside 1 (Syntax.Swift.writeNumber .int64))
  | writeNumber_uint64 : Library p (inside 1 (Syntax.Swift.writeNumber .uint64))
  | writeFloat_float : Library p (inside 1 (Syntax.Swift.writeFloat .float .uint32))
  | writeFloat_double : Library p (inside 1 (Syntax.Swift.writeFloat .double .uint64))

theorem library_puts {w : Writer} {rs : List Row} (hb : w.boilerplate 0 = Boilerplate.swift0) (hn : w.nativeTab = "    ")
    (h : Library w.p rs) (k : Nat) : Puts w.tab (w.addBoilerplate (fillings w.p.stringSize) 0) k (inside k rs) := by
  have hz : blankTab w.nativeTab = true := by rw [hn]; decide
  have part : ∀ i n, ((Boilerplate.swift0.drop i).take n) <:+: w.boilerplate 0 := fun i n => hb ▸ part_infix _ i n
  cases h
  case errors =>
    refine Puts.library (part 0 4) hz (tidy_of_chars ?_) (by rw [hn]; exact errors_part _)
    row_chars [Syntax.Swift.errors, inside]
    rfl
  case isFinished =>
    refine Puts.library (part 12 3) hz (tidy_of_chars ?_) (by rw [hn]; exact isFinished_part _)
    row_chars [Syntax.Swift.isFinished, inside]
    rfl
  case readBool =>
    refine Puts.library (part 29 3) hz (tidy_of_chars ?_) (by rw [hn]; exact readBool_part _)
    row_chars [Syntax.Swift.readBool, inside]
    rfl
  case readString =>
    refine Puts.library (part 137 14) hz (tidy_of_chars ?_) (by rw [hn]; exact readString_part _)
    row_chars [Syntax.Swift.readString, inside]
    rfl
  case writeBool =>
    refine Puts.library (part 173 3) hz (tidy_of_chars ?_) (by rw [hn]; exact writeBool_part _)
    row_chars [Syntax.Swift.writeBool, inside]
    rfl
  case writeString =>
    refine Puts.library (part 223 5) hz (tidy_of_chars ?_) (by rw [hn]; exact writeString_part _)
    row_chars [Syntax.Swift.writeString, inside]
    rfl
  case unpack =>
    refine Puts.library (part 248 26) hz (tidy_of_chars ?_) (by rw [hn]; exact unpack_part _)
    row_chars [Syntax.Swift.unpack, inside]
    rfl
  case readNumber_byte =>
    refine Puts.library (part 16 12) hz (tidy_of_chars ?_) (by rw [hn]; exact readNumber_byte_part _)
    row_chars [Syntax.Swift.readNumber, Lang.Swift.native, inside]
    rfl
  case readNumber_int16 =>
    refine Puts.library (part 33 12) hz (tidy_of_chars ?_) (by rw [hn]; exact readNumber_int16_part _)
    row_chars [Syntax.Swift.readNumber, Lang.Swift.native, inside]
    rfl
  case readNumber_uint16 =>
    refine Puts.library (part 46 12) hz (tidy_of_chars ?_) (by rw [hn]; exact readNumber_uint16_part _)
    row_chars [Syntax.Swift.readNumber, Lang.Swift.native, inside]
    rfl
  case readNumber_int32 =>
    refine Puts.library (part 59 12) hz (tidy_of_chars ?_) (by rw [hn]; exact readNumber_int32_part _)
    row_chars [Syntax.Swift.readNumber, Lang.Swift.native, inside]
    rfl
  case readNumber_uint32 =>
    refine Puts.library (part 72 12) hz (tidy_of_chars ?_) (by rw [hn]; exact readNumber_uint32_part _)
    row_chars [Syntax.Swift.readNumber, Lang.Swift.native, inside]
    rfl
  case readNumber_int64 =>
    refine Puts.library (part 85 12) hz (tidy_of_chars ?_) (by rw [hn]; exact readNumber_int64_part _)
    row_chars [Syntax.Swift.readNumber, Lang.Swift.native, inside]
    rfl
  case readNumber_uint64 =>
    refine Puts.library (part 98 12) hz (tidy_of_chars ?_) (by rw [hn]; exact readNumber_uint64_part _)
    row_chars [Syntax.Swift.readNumber, Lang.Swift.native, inside]
    rfl
  case readFloat_float =>
    refine Puts.library (part 111 12) hz (tidy_of_chars ?_) (by rw [hn]; exact readFloat_float_part _)
    row_chars [Syntax.Swift.readFloat, Lang.Swift.native, inside]
    rfl
  case readFloat_double =>
    refine Puts.library (part 124 12) hz (tidy_of_chars ?_) (by rw [hn]; exact readFloat_double_part _)
    row_chars [Syntax.Swift.readFloat, Lang.Swift.native, inside]
    rfl
  case writeNumber_byte =>
    refine Puts.library (part 168 4) hz (tidy_of_chars ?_) (by rw [hn]; exact writeNumber_byte_part _)
    row_chars [Syntax.Swift.writeNumber, Lang.Swift.native, Lang.Swift.label, inside]
    rfl
  case writeNumber_int16 =>
    refine Puts.library (part 177 4) hz (tidy_of_chars ?_) (by rw [hn]; exact writeNumber_int16_part _)
    row_chars [Syntax.Swift.writeNumber, Lang.Swift.native, Lang.Swift.label, inside]
    rfl
  case writeNumber_uint16 =>
    refine Puts.library (part 182 4) hz (tidy_of_chars ?_) (by rw [hn]; exact writeNumber_uint16_part _)
    row_chars [Syntax.Swift.writeNumber, Lang.Swift.native, Lang.Swift.label, inside]
    rfl
  case writeNumber_int32 =>
    refine Puts.library (part 187 4) hz (tidy_of_chars ?_) (by rw [hn]; exact writeNumber_int32_part _)
    row_chars [Syntax.Swift.writeNumber, Lang.Swift.native, Lang.Swift.label, inside]
    rfl
  case writeNumber_uint32 =>
    refine Puts.library (part 192 4) hz (tidy_of_chars ?_) (by rw [hn]; exact writeNumber_uint32_part _)
    row_chars [Syntax.Swift.writeNumber, Lang.Swift.native, Lang.Swift.label, inside]
    rfl
  case writeNumber_int64 =>
    refine Puts.library (part 197 4) hz (tidy_of_chars ?_) (by rw [hn]; exact writeNumber_int64_part _)
    row_chars [Syntax.Swift.writeNumber, Lang.Swift.native, Lang.Swift.label, inside]
    rfl
  case writeNumber_uint64 =>
    refine Puts.library (part 202 4) hz (tidy_of_chars ?_) (by rw [hn]; exact writeNumber_uint64_part _)
    row_chars [Syntax.Swift.writeNumber, Lang.Swift.native, Lang.Swift.label, inside]
    rfl
  case writeFloat_float =>
    refine Puts.library (part 207 7) hz (tidy_of_chars ?_) (by rw [hn]; exact writeFloat_float_part _)
    row_chars [Syntax.Swift.writeFloat, Lang.Swift.native, Lang.Swift.label, inside]
    rfl
  case writeFloat_double =>
    refine Puts.library (part 215 7) hz (tidy_of_chars ?_) (by rw [hn]; exact writeFloat_double_part _)
    row_chars [Syntax.Swift.writeFloat, Lang.Swift.native, Lang.Swift.label, inside]
    rfl

/-- What is filled into the second boilerplate (swift.py L327-329). -/
abbrev dots (dot : String) : List (String × Sub) := [("{# NAMESPACE_PREFIX_DOT #}", .text dot)]

theorem packedSize_part (dot : String) : (dots dot).foldl substitute ((Boilerplate.swift1.drop 1).take 9) =
    (inside 1 Syntax.Swift.packedSize).map (Row.shown "    ") := by
  refine Fits.rows ((Fits.plain (by line_chars) (holes [dot])).next 0 0 String.toList_ofList rfl
    (fun j hj => absurd hj (Nat.not_lt_zero j)) (by computes)) ?_
  row_chars [Syntax.Swift.packedSize, inside, List.append_assoc]
  computes

theorem pack_part (dot : String) : (dots dot).foldl substitute ((Boilerplate.swift1.drop 11).take 11) =
    (inside 1 (Syntax.Swift.pack dot)).map (Row.shown "    ") := by
  refine Fits.rows ((Fits.plain (by line_chars) (holes [dot])).next 0 0 String.toList_ofList rfl
    (fun j hj => absurd hj (Nat.not_lt_zero j)) (by computes)) ?_
  row_chars [Syntax.Swift.pack, inside, List.append_assoc]
  computes

/-- The lines of the second part of the library. -/
inductive Packing (dot : String) : List Row → Prop
  | packedSize : Packing dot (inside 1 Syntax.Swift.packedSize)
  | pack : Packing dot (inside 1 (Syntax.Swift.pack dot))

theorem packing_puts {w : Writer} {rs : List Row} (hb : w.boilerplate 1 = Boilerplate.swift1) (hn : w.nativeTab = "    ")
    {dot : String} (h : Packing dot rs) : Puts w.tab (w.addBoilerplate (dots dot) 1) 0 rs := by
  have hz : blankTab w.nativeTab = true := by rw [hn]; decide
  have part : ∀ i n, ((Boilerplate.swift1.drop i).take n) <:+: w.boilerplate 1 := fun i n => hb ▸ part_infix _ i n
  rw [← inside_zero rs]
  cases h
  case packedSize =>
    refine Puts.library (part 1 9) hz (tidy_of_chars ?_) (by rw [hn]; exact packedSize_part _)
    row_chars [Syntax.Swift.packedSize, inside]
    rfl
  case pack =>
    refine Puts.library (part 11 11) hz (tidy_of_chars ?_) (by rw [hn]; exact pack_part _)
    row_chars [Syntax.Swift.pack, inside]
    rfl

end Beschi.Text.Swift.Link
