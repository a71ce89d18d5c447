import Verif.Syntax.TypeScriptLibrary
import Verif.Text.Library
import Verif.Text.Boilerplate
/-
The library in the text written for TypeScript.
-/
namespace Beschi.Text.TypeScript.Link
open Beschi.Spec Beschi.Lang

/-- What is filled into the boilerplate (typescript.py L403-406). -/
abbrev fillings (n : NumTy) : List (String × Sub) :=
  [("{# STRING_SIZE_TYPE #}", .text (Lang.TypeScript.base n)), ("{# NATIVE_STRING_SIZE_TYPE #}", .text (Lang.TypeScript.native n.name))]

theorem holes_chars (n : NumTy) : ∀ j < 2, ∀ c ∈ holes [Lang.TypeScript.base n, Lang.TypeScript.native n.name] j, some '{' ≠ some c
  | 0, _ => by cases n <;> decide
  | 1, _ => by cases n <;> decide

section
variable (n : NumTy)

theorem readByte_part : (fillings n).foldl substitute ((Boilerplate.typeScript.drop 22).take 5) =
    (inside 1 Syntax.TypeScript.readByte).map (Row.shown "  ") := by
  refine Fits.rows (((Fits.plain (by line_chars) _).next 0 2 String.toList_ofList rfl (holes_chars n) (by computes)).next
    1 2 String.toList_ofList rfl (holes_chars n) (by computes)) ?_
  row_chars [Syntax.TypeScript.readByte, inside, List.append_assoc]
  computes

theorem isFinished_part : (fillings n).foldl substitute ((Boilerplate.typeScript.drop 18).take 3) =
    (inside 1 Syntax.TypeScript.isFinished).map (Row.shown "  ") := by
  refine Fits.rows (((Fits.plain (by line_chars) _).next 0 2 String.toList_ofList rfl (holes_chars n) (by computes)).next
    1 2 String.toList_ofList rfl (holes_chars n) (by computes)) ?_
  row_chars [Syntax.TypeScript.isFinished, inside, List.append_assoc]
  computes

theorem readBool_part : (fillings n).foldl substitute ((Boilerplate.typeScript.drop 28).take 3) =
    (inside 1 Syntax.TypeScript.readBool).map (Row.shown "  ") := by
  refine Fits.rows (((Fits.plain (by line_chars) _).next 0 2 String.toList_ofList rfl (holes_chars n) (by computes)).next
    1 2 String.toList_ofList rfl (holes_chars n) (by computes)) ?_
  row_chars [Syntax.TypeScript.readBool, inside, List.append_assoc]
  computes

theorem readFloat32_part : (fillings n).foldl substitute ((Boilerplate.typeScript.drop 68).take 5) =
    (inside 1 Syntax.TypeScript.readFloat32).map (Row.shown "  ") := by
  refine Fits.rows (((Fits.plain (by line_chars) _).next 0 2 String.toList_ofList rfl (holes_chars n) (by computes)).next
    1 2 String.toList_ofList rfl (holes_chars n) (by computes)) ?_
  row_chars [Syntax.TypeScript.readFloat32, inside, List.append_assoc]
  computes

theorem readString_part : (fillings n).foldl substitute ((Boilerplate.typeScript.drop 80).take 6) =
    (inside 1 (Syntax.TypeScript.readString (Lang.TypeScript.base n))).map (Row.shown "  ") := by
  refine Fits.rows (((Fits.plain (by line_chars) _).next 0 2 String.toList_ofList rfl (holes_chars n) (by computes)).next
    1 2 String.toList_ofList rfl (holes_chars n) (by computes)) ?_
  row_chars [Syntax.TypeScript.readString, inside, List.append_assoc]
  computes

theorem writeByte_part : (fillings n).foldl substitute ((Boilerplate.typeScript.drop 88).take 4) =
    (inside 1 Syntax.TypeScript.writeByte).map (Row.shown "  ") := by
  refine Fits.rows (((Fits.plain (by line_chars) _).next 0 2 String.toList_ofList rfl (holes_chars n) (by computes)).next
    1 2 String.toList_ofList rfl (holes_chars n) (by computes)) ?_
  row_chars [Syntax.TypeScript.writeByte, inside, List.append_assoc]
  computes

theorem writeBool_part : (fillings n).foldl substitute ((Boilerplate.typeScript.drop 93).take 3) =
    (inside 1 Syntax.TypeScript.writeBool).map (Row.shown "  ") := by
  refine Fits.rows (((Fits.plain (by line_chars) _).next 0 2 String.toList_ofList rfl (holes_chars n) (by computes)).next
    1 2 String.toList_ofList rfl (holes_chars n) (by computes)) ?_
  row_chars [Syntax.TypeScript.writeBool, inside, List.append_assoc]
  computes

theorem writeString_part : (fillings n).foldl substitute ((Boilerplate.typeScript.drop 137).take 7) =
    (inside 1 (Syntax.TypeScript.writeString (Lang.TypeScript.base n))).map (Row.shown "  ") := by
  refine Fits.rows (((Fits.plain (by line_chars) _).next 0 2 String.toList_ofList rfl (holes_chars n) (by computes)).next
    1 2 String.toList_ofList rfl (holes_chars n) (by computes)) ?_
  row_chars [Syntax.TypeScript.writeString, inside, List.append_assoc]
  computes

theorem packedSize_part : (fillings n).foldl substitute ((Boilerplate.typeScript.drop 156).take 9) =
    Syntax.TypeScript.packedSize.map (Row.shown "  ") := by
  refine Fits.rows (((Fits.plain (by line_chars) _).next 0 2 String.toList_ofList rfl (holes_chars n) (by computes)).next
    1 2 String.toList_ofList rfl (holes_chars n) (by computes)) ?_
  row_chars [Syntax.TypeScript.packedSize, inside, List.append_assoc]
  computes

theorem pack_part : (fillings n).foldl substitute ((Boilerplate.typeScript.drop 166).take 18) =
    Syntax.TypeScript.pack.map (Row.shown "  ") := by
  refine Fits.rows (((Fits.plain (by line_chars) _).next 0 2 String.toList_ofList rfl (holes_chars n) (by computes)).next
    1 2 String.toList_ofList rfl (holes_chars n) (by computes)) ?_
  row_chars [Syntax.TypeScript.pack, inside, List.append_assoc]
  computes

theorem unpack_part : (fillings n).foldl substitute ((Boilerplate.typeScript.drop 185).take 27) =
    Syntax.TypeScript.unpack.map (Row.shown "  ") := by
  refine Fits.rows (((Fits.plain (by line_chars) _).next 0 2 String.toList_ofList rfl (holes_chars n) (by computes)).next
    1 2 String.toList_ofList rfl (holes_chars n) (by computes)) ?_
  row_chars [Syntax.TypeScript.unpack, inside, List.append_assoc]
  computes

theorem readNumber_int16_part : (fillings n).foldl substitute ((Boilerplate.typeScript.drop 32).take 5) =
    (inside 1 (Syntax.TypeScript.readNumber .int16)).map (Row.shown "  ") := by
  refine Fits.rows (((Fits.plain (by line_chars) _).next 0 2 String.toList_ofList rfl (holes_chars n) (by computes)).next
    1 2 String.toList_ofList rfl (holes_chars n) (by computes)) ?_
  row_chars [Syntax.TypeScript.readNumber, Syntax.TypeScript.big, Lang.TypeScript.base, inside, List.append_assoc]
  computes

theorem readNumber_uint16_part : (fillings n).foldl substitute ((Boilerplate.typeScript.drop 38).take 5) =
    (inside 1 (Syntax.TypeScript.readNumber .uint16)).map (Row.shown "  ") := by
  refine Fits.rows (((Fits.plain (by line_chars) _).next 0 2 String.toList_ofList rfl (holes_chars n) (by computes)).next
    1 2 String.toList_ofList rfl (holes_chars n) (by computes)) ?_
  row_chars [Syntax.TypeScript.readNumber, Syntax.TypeScript.big, Lang.TypeScript.base, inside, List.append_assoc]
  computes

theorem readNumber_int32_part : (fillings n).foldl substitute ((Boilerplate.typeScript.drop 44).take 5) =
    (inside 1 (Syntax.TypeScript.readNumber .int32)).map (Row.shown "  ") := by
  refine Fits.rows (((Fits.plain (by line_chars) _).next 0 2 String.toList_ofList rfl (holes_chars n) (by computes)).next
    1 2 String.toList_ofList rfl (holes_chars n) (by computes)) ?_
  row_chars [Syntax.TypeScript.readNumber, Syntax.TypeScript.big, Lang.TypeScript.base, inside, List.append_assoc]
  computes

theorem readNumber_uint32_part : (fillings n).foldl substitute ((Boilerplate.typeScript.drop 50).take 5) =
    (inside 1 (Syntax.TypeScript.readNumber .uint32)).map (Row.shown "  ") := by
  refine Fits.rows (((Fits.plain (by line_chars) _).next 0 2 String.toList_ofList rfl (holes_chars n) (by computes)).next
    1 2 String.toList_ofList rfl (holes_chars n) (by computes)) ?_
  row_chars [Syntax.TypeScript.readNumber, Syntax.TypeScript.big, Lang.TypeScript.base, inside, List.append_assoc]
  computes

theorem readNumber_int64_part : (fillings n).foldl substitute ((Boilerplate.typeScript.drop 56).take 5) =
    (inside 1 (Syntax.TypeScript.readNumber .int64)).map (Row.shown "  ") := by
  refine Fits.rows (((Fits.plain (by line_chars) _).next 0 2 String.toList_ofList rfl (holes_chars n) (by computes)).next
    1 2 String.toList_ofList rfl (holes_chars n) (by computes)) ?_
  row_chars [Syntax.TypeScript.readNumber, Syntax.TypeScript.big, Lang.TypeScript.base, inside, List.append_assoc]
  computes

theorem readNumber_uint64_part : (fillings n).foldl substitute ((Boilerplate.typeScript.drop 62).take 5) =
    (inside 1 (Syntax.TypeScript.readNumber .uint64)).map (Row.shown "  ") := by
  refine Fits.rows (((Fits.plain (by line_chars) _).next 0 2 String.toList_ofList rfl (holes_chars n) (by computes)).next
    1 2 String.toList_ofList rfl (holes_chars n) (by computes)) ?_
  row_chars [Syntax.TypeScript.readNumber, Syntax.TypeScript.big, Lang.TypeScript.base, inside, List.append_assoc]
  computes

theorem readNumber_double_part : (fillings n).foldl substitute ((Boilerplate.typeScript.drop 74).take 5) =
    (inside 1 (Syntax.TypeScript.readNumber .double)).map (Row.shown "  ") := by
  refine Fits.rows (((Fits.plain (by line_chars) _).next 0 2 String.toList_ofList rfl (holes_chars n) (by computes)).next
    1 2 String.toList_ofList rfl (holes_chars n) (by computes)) ?_
  row_chars [Syntax.TypeScript.readNumber, Syntax.TypeScript.big, Lang.TypeScript.base, inside, List.append_assoc]
  computes

theorem writeNumber_int16_part : (fillings n).foldl substitute ((Boilerplate.typeScript.drop 97).take 4) =
    (inside 1 (Syntax.TypeScript.writeNumber .int16)).map (Row.shown "  ") := by
  refine Fits.rows (((Fits.plain (by line_chars) _).next 0 2 String.toList_ofList rfl (holes_chars n) (by computes)).next
    1 2 String.toList_ofList rfl (holes_chars n) (by computes)) ?_
  row_chars [Syntax.TypeScript.writeNumber, Syntax.TypeScript.big, Lang.TypeScript.base, inside, List.append_assoc]
  computes

theorem writeNumber_uint16_part : (fillings n).foldl substitute ((Boilerplate.typeScript.drop 102).take 4) =
    (inside 1 (Syntax.TypeScript.writeNumber .uint16)).map (Row.shown "  ") := by
  refine Fits.rows (((Fits.plain (by line_chars) _).next 0 2 String.toList_ofList rfl (holes_chars n) (by computes)).next
    1 2 String.toList_ofList rfl (holes_chars n) (by computes)) ?_
  row_chars [Syntax.TypeScript.writeNumber, Syntax.TypeScript.big, Lang.TypeScript.base, inside, List.append_assoc]
  computes

theorem writeNumber_int32_part : (fillings n).foldl substitute ((Boilerplate.typeScript.drop 107).take 4) =
    (inside 1 (Syntax.TypeScript.writeNumber .int32)).map (Row.shown "  ") := by
  refine Fits.rows (((Fits.plain (by line_chars) _).next 0 2 String.toList_ofList rfl (holes_chars n) (by computes)).next
    1 2 String.toList_ofList rfl (holes_chars n) (by computes)) ?_
  row_chars [Syntax.TypeScript.writeNumber, Syntax.TypeScript.big, Lang.TypeScript.base, inside, List.append_assoc]
  computes

theorem writeNumber_uint32_part : (fillings n).foldl substitute ((Boilerplate.typeScript.drop 112).take 4) =
    (inside 1 (Syntax.TypeScript.writeNumber .uint32)).map (Row.shown "  ") := by
  refine Fits.rows (((Fits.plain (by line_chars) _).next 0 2 String.toList_ofList rfl (holes_chars n) (by computes)).next
    1 2 String.toList_ofList rfl (holes_chars n) (by computes)) ?_
  row_chars [Syntax.TypeScript.writeNumber, Syntax.TypeScript.big, Lang.TypeScript.base, inside, List.append_assoc]
  computes

theorem writeNumber_int64_part : (fillings n).foldl substitute ((Boilerplate.typeScript.drop 117).take 4) =
    (inside 1 (Syntax.TypeScript.writeNumber .int64)).map (Row.shown "  ") := by
  refine Fits.rows (((Fits.plain (by line_chars) _).next 0 2 String.toList_ofList rfl (holes_chars n) (by computes)).next
    1 2 String.toList_ofList rfl (holes_chars n) (by computes)) ?_
  row_chars [Syntax.TypeScript.writeNumber, Syntax.TypeScript.big, Lang.TypeScript.base, inside, List.append_assoc]
  computes

theorem writeNumber_uint64_part : (fillings n).foldl substitute ((Boilerplate.typeScript.drop 122).take 4) =
    (inside 1 (Syntax.TypeScript.writeNumber .uint64)).map (Row.shown "  ") := by
  refine Fits.rows (((Fits.plain (by line_chars) _).next 0 2 String.toList_ofList rfl (holes_chars n) (by computes)).next
    1 2 String.toList_ofList rfl (holes_chars n) (by computes)) ?_
  row_chars [Syntax.TypeScript.writeNumber, Syntax.TypeScript.big, Lang.TypeScript.base, inside, List.append_assoc]
  computes

theorem writeNumber_float_part : (fillings n).foldl substitute ((Boilerplate.typeScript.drop 127).take 4) =
    (inside 1 (Syntax.TypeScript.writeNumber .float)).map (Row.shown "  ") := by
  refine Fits.rows (((Fits.plain (by line_chars) _).next 0 2 String.toList_ofList rfl (holes_chars n) (by computes)).next
    1 2 String.toList_ofList rfl (holes_chars n) (by computes)) ?_
  row_chars [Syntax.TypeScript.writeNumber, Syntax.TypeScript.big, Lang.TypeScript.base, inside, List.append_assoc]
  computes

theorem writeNumber_double_part : (fillings n).foldl substitute ((Boilerplate.typeScript.drop 132).take 4) =
    (inside 1 (Syntax.TypeScript.writeNumber .double)).map (Row.shown "  ") := by
  refine Fits.rows (((Fits.plain (by line_chars) _).next 0 2 String.toList_ofList rfl (holes_chars n) (by computes)).next
    1 2 String.toList_ofList rfl (holes_chars n) (by computes)) ?_
  row_chars [Syntax.TypeScript.writeNumber, Syntax.TypeScript.big, Lang.TypeScript.base, inside, List.append_assoc]
  computes

end

/-- The lines of the library. -/
inductive Library (p : Protocol) : List Row → Prop
  | readByte : Library p (inside 1 Syntax.TypeScript.readByte)
  | isFinished : Library p (inside 1 Syntax.TypeScript.isFinished)
  | readBool : Library p (inside 1 Syntax.TypeScript.readBool)
  | readFloat32 : Library p (inside 1 Syntax.TypeScript.readFloat32)
  | readString : Library p (inside 1 (Syntax.TypeScript.readString (Lang.TypeScript.base p.stringSize)))
  | writeByte : Library p (inside 1 Syntax.TypeScript.writeByte)
  | writeBool : Library p (inside 1 Syntax.TypeScript.writeBool)
  | writeString : Library p (inside 1 (Syntax.TypeScript.writeString (Lang.TypeScript.base p.stringSize)))
  | packedSize : Library p Syntax.TypeScript.packedSize
  | pack : Library p Syntax.TypeScript.pack
  | unpack : Library p Syntax.TypeScript.unpack
  | readNumber_int16 : Library p (inside 1 (Syntax.TypeScript.readNumber .int16))
  | readNumber_uint16 : Library p (inside 1 (Syntax.TypeScript.readNumber .uint16))
  | readNumber_int32 : Library p (inside 1 (Syntax.TypeScript.readNumber .int32))
  | readNumber_uint32 : Library p (inside 1 (Syntax.TypeScript.readNumber .uint32))
  | readNumber_int64 : Library p (inside 1 (Syntax.TypeScript.readNumber .int64))
  | readNumber_uint64 : Library p (inside 1 (Syntax.TypeScript.readNumber .uint64))
  | readNumber_double : Library p (inside 1 (Syntax.TypeScript.readNumber .double))
  | writeNumber_int16 : Library p (inside 1 (Syntax.TypeScript.writeNumber .int16))
  | writeNumber_uint16 : Library p (inside 1 (Syntax.TypeScript.writeNumber .uint16))
  | writeNumber_int32 : Library p (inside 1 (Syntax.TypeScript.writeNumber .int32))
  | writeNumber_uint32 : Library p (inside 1 (Syntax.TypeScript.writeNumber .uint32))
  | writeNumber_int64 : Library p (inside 1 (Syntax.TypeScript.writeNumber .int64))
  | writeNumber_uint64 : Library p (inside 1 (Syntax.TypeScript.writeNumber .uint64))
  | writeNumber_float : Library p (inside 1 (Syntax.TypeScript.writeNumber .float))
  | writeNumber_double : Library p (inside 1 (Syntax.TypeScript.writeNumber .double))

theorem library_puts {w : Writer} {rs : List Row} (hb : w.boilerplate 0 = Boilerplate.typeScript) (hn : w.nativeTab = "  ")
    (h : Library w.p rs) (k : Nat) : Puts w.tab (w.addBoilerplate (fillings w.p.stringSize) 0) k (inside k rs) := by
  have hz : blankTab w.nativeTab = true := by rw [hn]; decide
  have part : ∀ i n, ((Boilerplate.typeScript.drop i).take n) <:+: w.boilerplate 0 := fun i n => hb ▸ part_infix _ i n
  cases h
  case readByte =>
    refine Puts.library (part 22 5) hz (tidy_of_chars ?_) (by rw [hn]; exact readByte_part _)
    row_chars [Syntax.TypeScript.readByte, inside]
    rfl
  case isFinished =>
    refine Puts.library (part 18 3) hz (tidy_of_chars ?_) (by rw [hn]; exact isFinished_part _)
    row_chars [Syntax.TypeScript.isFinished, inside]
    rfl
  case readBool =>
    refine Puts.library (part 28 3) hz (tidy_of_chars ?_) (by rw [hn]; exact readBool_part _)
    row_chars [Syntax.TypeScript.readBool, inside]
    rfl
  case readFloat32 =>
    refine Puts.library (part 68 5) hz (tidy_of_chars ?_) (by rw [hn]; exact readFloat32_part _)
    row_chars [Syntax.TypeScript.readFloat32, inside]
    rfl
  case readString =>
    refine Puts.library (part 80 6) hz (tidy_of_chars ?_) (by rw [hn]; exact readString_part _)
    row_chars [Syntax.TypeScript.readString, inside]
    rfl
  case writeByte =>
    refine Puts.library (part 88 4) hz (tidy_of_chars ?_) (by rw [hn]; exact writeByte_part _)
    row_chars [Syntax.TypeScript.writeByte, inside]
    rfl
  case writeBool =>
    refine Puts.library (part 93 3) hz (tidy_of_chars ?_) (by rw [hn]; exact writeBool_part _)
    row_chars [Syntax.TypeScript.writeBool, inside]
    rfl
  case writeString =>
    refine Puts.library (part 137 7) hz (tidy_of_chars ?_) (by rw [hn]; exact writeString_part _)
    row_chars [Syntax.TypeScript.writeString, inside]
    rfl
  case packedSize =>
    refine Puts.library (part 156 9) hz (tidy_of_chars ?_) (by rw [hn]; exact packedSize_part _)
    row_chars [Syntax.TypeScript.packedSize, inside]
    rfl
  case pack =>
    refine Puts.library (part 166 18) hz (tidy_of_chars ?_) (by rw [hn]; exact pack_part _)
    row_chars [Syntax.TypeScript.pack, inside]
    rfl
  case unpack =>
    refine Puts.library (part 185 27) hz (tidy_of_chars ?_) (by rw [hn]; exact unpack_part _)
    row_chars [Syntax.TypeScript.unpack, inside]
    rfl
  case readNumber_int16 =>
    refine Puts.library (part 32 5) hz (tidy_of_chars ?_) (by rw [hn]; exact readNumber_int16_part _)
    row_chars [Syntax.TypeScript.readNumber, Syntax.TypeScript.big, Lang.TypeScript.base, inside]
    rfl
  case readNumber_uint16 =>
    refine Puts.library (part 38 5) hz (tidy_of_chars ?_) (by rw [hn]; exact readNumber_uint16_part _)
    row_chars [Syntax.TypeScript.readNumber, Syntax.TypeScript.big, Lang.TypeScript.base, inside]
    rfl
  case readNumber_int32 =>
    refine Puts.library (part 44 5) hz (tidy_of_chars ?_) (by rw [hn]; exact readNumber_int32_part _)
    row_chars [Syntax.TypeScript.readNumber, Syntax.TypeScript.big, Lang.TypeScript.base, inside]
    rfl
  case readNumber_uint32 =>
    refine Puts.library (part 50 5) hz (tidy_of_chars ?_) (by rw [hn]; exact readNumber_uint32_part _)
    row_chars [Syntax.TypeScript.readNumber, Syntax.TypeScript.big, Lang.TypeScript.base, inside]
    rfl
  case readNumber_int64 =>
    refine Puts.library (part 56 5) hz (tidy_of_chars ?_) (by rw [hn]; exact readNumber_int64_part _)
    row_chars [Syntax.TypeScript.readNumber, Syntax.TypeScript.big, Lang.TypeScript.base, inside]
    rfl
  case readNumber_uint64 =>
    refine Puts.library (part 62 5) hz (tidy_of_chars ?_) (by rw [hn]; exact readNumber_uint64_part _)
    row_chars [Syntax.TypeScript.readNumber, Syntax.TypeScript.big, Lang.TypeScript.base, inside]
    rfl
  case readNumber_double =>
    refine Puts.library (part 74 5) hz (tidy_of_chars ?_) (by rw [hn]; exact readNumber_double_part _)
    row_chars [Syntax.TypeScript.readNumber, Syntax.TypeScript.big, Lang.TypeScript.base, inside]
    rfl
  case writeNumber_int16 =>
    refine Puts.library (part 97 4) hz (tidy_of_chars ?_) (by rw [hn]; exact writeNumber_int16_part _)
    row_chars [Syntax.TypeScript.writeNumber, Syntax.TypeScript.big, Lang.TypeScript.base, inside]
    rfl
  case writeNumber_uint16 =>
    refine Puts.library (part 102 4) hz (tidy_of_chars ?_) (by rw [hn]; exact writeNumber_uint16_part _)
    row_chars [Syntax.TypeScript.writeNumber, Syntax.TypeScript.big, Lang.TypeScript.base, inside]
    rfl
  case writeNumber_int32 =>
    refine Puts.library (part 107 4) hz (tidy_of_chars ?_) (by rw [hn]; exact writeNumber_int32_part _)
    row_chars [Syntax.TypeScript.writeNumber, Syntax.TypeScript.big, Lang.TypeScript.base, inside]
    rfl
  case writeNumber_uint32 =>
    refine Puts.library (part 112 4) hz (tidy_of_chars ?_) (by rw [hn]; exact writeNumber_uint32_part _)
    row_chars [Syntax.TypeScript.writeNumber, Syntax.TypeScript.big, Lang.TypeScript.base, inside]
    rfl
  case writeNumber_int64 =>
    refine Puts.library (part 117 4) hz (tidy_of_chars ?_) (by rw [hn]; exact writeNumber_int64_part _)
    row_chars [Syntax.TypeScript.writeNumber, Syntax.TypeScript.big, Lang.TypeScript.base, inside]
    rfl
  case writeNumber_uint64 =>
    refine Puts.library (part 122 4) hz (tidy_of_chars ?_) (by rw [hn]; exact writeNumber_uint64_part _)
    row_chars [Syntax.TypeScript.writeNumber, Syntax.TypeScript.big, Lang.TypeScript.base, inside]
    rfl
  case writeNumber_float =>
    refine Puts.library (part 127 4) hz (tidy_of_chars ?_) (by rw [hn]; exact writeNumber_float_part _)
    row_chars [Syntax.TypeScript.writeNumber, Syntax.TypeScript.big, Lang.TypeScript.base, inside]
    rfl
  case writeNumber_double =>
    refine Puts.library (part 132 4) hz (tidy_of_chars ?_) (by rw [hn]; exact writeNumber_double_part _)
    row_chars [Syntax.TypeScript.writeNumber, Syntax.TypeScript.big, Lang.TypeScript.base, inside]
    rfl

end Beschi.Text.TypeScript.Link
