import Verif.Syntax.TypeScriptLibrary
import Verif.Text.Library
import Verif.Text.Boilerplate
/-
The library in the text written for AssemblyScript.
-/
namespace Beschi.Text.AssemblyScript.Link
open Beschi.Spec Beschi.Lang

/-- What is filled into the boilerplate (typescript.py L403-406). -/
abbrev fillings (n : NumTy) : List (String × Sub) :=
  [("{# STRING_SIZE_TYPE #}", .text (Lang.TypeScript.base n)), ("{# NATIVE_STRING_SIZE_TYPE #}", .text (Lang.AssemblyScript.native n.name))]

theorem holes_chars (n : NumTy) : ∀ j < 2, ∀ c ∈ holes [Lang.TypeScript.base n, Lang.AssemblyScript.native n.name] j, some '{' ≠ some c
  | 0, _ => by cases n <;> decide
  | 1, _ => by cases n <;> decide

section
variable (n : NumTy)

theorem readByte_part : (fillings n).foldl substitute ((Boilerplate.assemblyScript.drop 16).take 9) =
    (inside 1 Syntax.AssemblyScript.readByte).map (Row.shown "  ") := by
  refine Fits.rows (((Fits.plain (by line_chars) _).next 0 2 String.toList_ofList rfl (holes_chars n) (by computes)).next
    1 2 String.toList_ofList rfl (holes_chars n) (by computes)) ?_
  row_chars [Syntax.AssemblyScript.readByte, inside, List.append_assoc]
  computes

theorem isFinished_part : (fillings n).foldl substitute ((Boilerplate.assemblyScript.drop 12).take 3) =
    (inside 1 Syntax.AssemblyScript.isFinished).map (Row.shown "  ") := by
  refine Fits.rows (((Fits.plain (by line_chars) _).next 0 2 String.toList_ofList rfl (holes_chars n) (by computes)).next
    1 2 String.toList_ofList rfl (holes_chars n) (by computes)) ?_
  row_chars [Syntax.AssemblyScript.isFinished, inside, List.append_assoc]
  computes

theorem readBool_part : (fillings n).foldl substitute ((Boilerplate.assemblyScript.drop 26).take 3) =
    (inside 1 Syntax.AssemblyScript.readBool).map (Row.shown "  ") := by
  refine Fits.rows (((Fits.plain (by line_chars) _).next 0 2 String.toList_ofList rfl (holes_chars n) (by computes)).next
    1 2 String.toList_ofList rfl (holes_chars n) (by computes)) ?_
  row_chars [Syntax.AssemblyScript.readBool, inside, List.append_assoc]
  computes

theorem readString_part : (fillings n).foldl substitute ((Boilerplate.assemblyScript.drop 110).take 15) =
    (inside 1 (Syntax.AssemblyScript.readString (Lang.TypeScript.base n))).map (Row.shown "  ") := by
  refine Fits.rows (((Fits.plain (by line_chars) _).next 0 2 String.toList_ofList rfl (holes_chars n) (by computes)).next
    1 2 String.toList_ofList rfl (holes_chars n) (by computes)) ?_
  row_chars [Syntax.AssemblyScript.readString, inside, List.append_assoc]
  computes

theorem writeByte_part : (fillings n).foldl substitute ((Boilerplate.assemblyScript.drop 127).take 8) =
    (inside 1 Syntax.AssemblyScript.writeByte).map (Row.shown "  ") := by
  refine Fits.rows (((Fits.plain (by line_chars) _).next 0 2 String.toList_ofList rfl (holes_chars n) (by computes)).next
    1 2 String.toList_ofList rfl (holes_chars n) (by computes)) ?_
  row_chars [Syntax.AssemblyScript.writeByte, inside, List.append_assoc]
  computes

theorem writeBool_part : (fillings n).foldl substitute ((Boilerplate.assemblyScript.drop 136).take 3) =
    (inside 1 Syntax.AssemblyScript.writeBool).map (Row.shown "  ") := by
  refine Fits.rows (((Fits.plain (by line_chars) _).next 0 2 String.toList_ofList rfl (holes_chars n) (by computes)).next
    1 2 String.toList_ofList rfl (holes_chars n) (by computes)) ?_
  row_chars [Syntax.AssemblyScript.writeBool, inside, List.append_assoc]
  computes

theorem writeString_part : (fillings n).foldl substitute ((Boilerplate.assemblyScript.drop 212).take 15) =
    (inside 1 (Syntax.AssemblyScript.writeString (Lang.TypeScript.base n) (Lang.AssemblyScript.native n.name))).map (Row.shown "  ") := by
  refine Fits.rows (((Fits.plain (by line_chars) _).next 0 2 String.toList_ofList rfl (holes_chars n) (by computes)).next
    1 2 String.toList_ofList rfl (holes_chars n) (by computes)) ?_
  row_chars [Syntax.AssemblyScript.writeString, inside, List.append_assoc]
  computes

theorem packedSize_part : (fillings n).foldl substitute ((Boilerplate.assemblyScript.drop 249).take 9) =
    Syntax.AssemblyScript.packedSize.map (Row.shown "  ") := by
  refine Fits.rows (((Fits.plain (by line_chars) _).next 0 2 String.toList_ofList rfl (holes_chars n) (by computes)).next
    1 2 String.toList_ofList rfl (holes_chars n) (by computes)) ?_
  row_chars [Syntax.AssemblyScript.packedSize, inside, List.append_assoc]
  computes

theorem pack_part : (fillings n).foldl substitute ((Boilerplate.assemblyScript.drop 259).take 16) =
    Syntax.AssemblyScript.pack.map (Row.shown "  ") := by
  refine Fits.rows (((Fits.plain (by line_chars) _).next 0 2 String.toList_ofList rfl (holes_chars n) (by computes)).next
    1 2 String.toList_ofList rfl (holes_chars n) (by computes)) ?_
  row_chars [Syntax.AssemblyScript.pack, inside, List.append_assoc]
  computes

theorem unpack_part : (fillings n).foldl substitute ((Boilerplate.assemblyScript.drop 276).take 27) =
    Syntax.AssemblyScript.unpack.map (Row.shown "  ") := by
  refine Fits.rows (((Fits.plain (by line_chars) _).next 0 2 String.toList_ofList rfl (holes_chars n) (by computes)).next
    1 2 String.toList_ofList rfl (holes_chars n) (by computes)) ?_
  row_chars [Syntax.AssemblyScript.unpack, inside, List.append_assoc]
  computes

theorem readNumber_int16_part : (fillings n).foldl substitute ((Boilerplate.assemblyScript.drop 30).take 9) =
    (inside 1 (Syntax.AssemblyScript.readNumber .int16)).map (Row.shown "  ") := by
  refine Fits.rows (((Fits.plain (by line_chars) _).next 0 2 String.toList_ofList rfl (holes_chars n) (by computes)).next
    1 2 String.toList_ofList rfl (holes_chars n) (by computes)) ?_
  row_chars [Syntax.AssemblyScript.readNumber, Lang.TypeScript.base, inside, List.append_assoc]
  computes

theorem readNumber_uint16_part : (fillings n).foldl substitute ((Boilerplate.assemblyScript.drop 40).take 9) =
    (inside 1 (Syntax.AssemblyScript.readNumber .uint16)).map (Row.shown "  ") := by
  refine Fits.rows (((Fits.plain (by line_chars) _).next 0 2 String.toList_ofList rfl (holes_chars n) (by computes)).next
    1 2 String.toList_ofList rfl (holes_chars n) (by computes)) ?_
  row_chars [Syntax.AssemblyScript.readNumber, Lang.TypeScript.base, inside, List.append_assoc]
  computes

theorem readNumber_int32_part : (fillings n).foldl substitute ((Boilerplate.assemblyScript.drop 50).take 9) =
    (inside 1 (Syntax.AssemblyScript.readNumber .int32)).map (Row.shown "  ") := by
  refine Fits.rows (((Fits.plain (by line_chars) _).next 0 2 String.toList_ofList rfl (holes_chars n) (by computes)).next
    1 2 String.toList_ofList rfl (holes_chars n) (by computes)) ?_
  row_chars [Syntax.AssemblyScript.readNumber, Lang.TypeScript.base, inside, List.append_assoc]
  computes

theorem readNumber_uint32_part : (fillings n).foldl substitute ((Boilerplate.assemblyScript.drop 60).take 9) =
    (inside 1 (Syntax.AssemblyScript.readNumber .uint32)).map (Row.shown "  ") := by
  refine Fits.rows (((Fits.plain (by line_chars) _).next 0 2 String.toList_ofList rfl (holes_chars n) (by computes)).next
    1 2 String.toList_ofList rfl (holes_chars n) (by computes)) ?_
  row_chars [Syntax.AssemblyScript.readNumber, Lang.TypeScript.base, inside, List.append_assoc]
  computes

theorem readNumber_int64_part : (fillings n).foldl substitute ((Boilerplate.assemblyScript.drop 70).take 9) =
    (inside 1 (Syntax.AssemblyScript.readNumber .int64)).map (Row.shown "  ") := by
  refine Fits.rows (((Fits.plain (by line_chars) _).next 0 2 String.toList_ofList rfl (holes_chars n) (by computes)).next
    1 2 String.toList_ofList rfl (holes_chars n) (by computes)) ?_
  row_chars [Syntax.AssemblyScript.readNumber, Lang.TypeScript.base, inside, List.append_assoc]
  computes

theorem readNumber_uint64_part : (fillings n).foldl substitute ((Boilerplate.assemblyScript.drop 80).take 9) =
    (inside 1 (Syntax.AssemblyScript.readNumber .uint64)).map (Row.shown "  ") := by
  refine Fits.rows (((Fits.plain (by line_chars) _).next 0 2 String.toList_ofList rfl (holes_chars n) (by computes)).next
    1 2 String.toList_ofList rfl (holes_chars n) (by computes)) ?_
  row_chars [Syntax.AssemblyScript.readNumber, Lang.TypeScript.base, inside, List.append_assoc]
  computes

theorem readNumber_float_part : (fillings n).foldl substitute ((Boilerplate.assemblyScript.drop 90).take 9) =
    (inside 1 (Syntax.AssemblyScript.readNumber .float)).map (Row.shown "  ") := by
  refine Fits.rows (((Fits.plain (by line_chars) _).next 0 2 String.toList_ofList rfl (holes_chars n) (by computes)).next
    1 2 String.toList_ofList rfl (holes_chars n) (by computes)) ?_
  row_chars [Syntax.AssemblyScript.readNumber, Lang.TypeScript.base, inside, List.append_assoc]
  computes

theorem readNumber_double_part : (fillings n).foldl substitute ((Boilerplate.assemblyScript.drop 100).take 9) =
    (inside 1 (Syntax.AssemblyScript.readNumber .double)).map (Row.shown "  ") := by
  refine Fits.rows (((Fits.plain (by line_chars) _).next 0 2 String.toList_ofList rfl (holes_chars n) (by computes)).next
    1 2 String.toList_ofList rfl (holes_chars n) (by computes)) ?_
  row_chars [Syntax.AssemblyScript.readNumber, Lang.TypeScript.base, inside, List.append_assoc]
  computes

theorem writeNumber_int16_part : (fillings n).foldl substitute ((Boilerplate.assemblyScript.drop 140).take 8) =
    (inside 1 (Syntax.AssemblyScript.writeNumber .int16)).map (Row.shown "  ") := by
  refine Fits.rows (((Fits.plain (by line_chars) _).next 0 2 String.toList_ofList rfl (holes_chars n) (by computes)).next
    1 2 String.toList_ofList rfl (holes_chars n) (by computes)) ?_
  row_chars [Syntax.AssemblyScript.writeNumber, Lang.TypeScript.base, inside, List.append_assoc]
  computes

theorem writeNumber_uint16_part : (fillings n).foldl substitute ((Boilerplate.assemblyScript.drop 149).take 8) =
    (inside 1 (Syntax.AssemblyScript.writeNumber .uint16)).map (Row.shown "  ") := by
  refine Fits.rows (((Fits.plain (by line_chars) _).next 0 2 String.toList_ofList rfl (holes_chars n) (by computes)).next
    1 2 String.toList_ofList rfl (holes_chars n) (by computes)) ?_
  row_chars [Syntax.AssemblyScript.writeNumber, Lang.TypeScript.base, inside, List.append_assoc]
  computes

theorem writeNumber_int32_part : (fillings n).foldl substitute ((Boilerplate.assemblyScript.drop 158).take 8) =
    (inside 1 (Syntax.AssemblyScript.writeNumber .int32)).map (Row.shown "  ") := by
  refine Fits.rows (((Fits.plain (by line_chars) _).next 0 2 String.toList_ofList rfl (holes_chars n) (by computes)).next
    1 2 String.toList_ofList rfl (holes_chars n) (by computes)) ?_
  row_chars [Syntax.AssemblyScript.writeNumber, Lang.TypeScript.base, inside, List.append_assoc]
  computes

theorem writeNumber_uint32_part : (fillings n).foldl substitute ((Boilerplate.assemblyScript.drop 167).take 8) =
    (inside 1 (Syntax.AssemblyScript.writeNumber .uint32)).map (Row.shown "  ") := by
  refine Fits.rows (((Fits.plain (by line_chars) _).next 0 2 String.toList_ofList rfl (holes_chars n) (by computes)).next
    1 2 String.toList_ofList rfl (holes_chars n) (by computes)) ?_
  row_chars [Syntax.AssemblyScript.writeNumber, Lang.TypeScript.base, inside, List.append_assoc]
  computes

theorem writeNumber_int64_part : (fillings n).foldl substitute ((Boilerplate.assemblyScript.drop 176).take 8) =
    (inside 1 (Syntax.AssemblyScript.writeNumber .int64)).map (Row.shown "  ") := by
  refine Fits.rows (((Fits.plain (by line_chars) _).next 0 2 String.toList_ofList rfl (holes_chars n) (by computes)).next
    1 2 String.toList_ofList rfl (holes_chars n) (by computes)) ?_
  row_chars [Syntax.AssemblyScript.writeNumber, Lang.TypeScript.base, inside, List.append_assoc]
  computes

theorem writeNumber_uint64_part : (fillings n).foldl substitute ((Boilerplate.assemblyScript.drop 185).take 8) =
    (inside 1 (Syntax.AssemblyScript.writeNumber .uint64)).map (Row.shown "  ") := by
  refine Fits.rows (((Fits.plain (by line_chars) _).next 0 2 String.toList_ofList rfl (holes_chars n) (by computes)).next
    1 2 String.toList_ofList rfl (holes_chars n) (by computes)) ?_
  row_chars [Syntax.AssemblyScript.writeNumber, Lang.TypeScript.base, inside, List.append_assoc]
  computes

theorem writeNumber_float_part : (fillings n).foldl substitute ((Boilerplate.assemblyScript.drop 194).take 8) =
    (inside 1 (Syntax.AssemblyScript.writeNumber .float)).map (Row.shown "  ") := by
  refine Fits.rows (((Fits.plain (by line_chars) _).next 0 2 String.toList_ofList rfl (holes_chars n) (by computes)).next
    1 2 String.toList_ofList rfl (holes_chars n) (by computes)) ?_
  row_chars [Syntax.AssemblyScript.writeNumber, Lang.TypeScript.base, inside, List.append_assoc]
  computes

theorem writeNumber_double_part : (fillings n).foldl substitute ((Boilerplate.assemblyScript.drop 203).take 8) =
    (inside 1 (Syntax.AssemblyScript.writeNumber .double)).map (Row.shown "  ") := by
  refine Fits.rows (((Fits.plain (by line_chars) _).next 0 2 String.toList_ofList rfl (holes_chars n) (by computes)).next
    1 2 String.toList_ofList rfl (holes_chars n) (by computes)) ?_
  row_chars [Syntax.AssemblyScript.writeNumber, Lang.TypeScript.base, inside, List.append_assoc]
  computes

end

/-- The lines of the library. -/
inductive Library (p : Protocol) : List Row → Prop
  | readByte : Library p (inside 1 Syntax.AssemblyScript.readByte)
  | isFinished : Library p (inside 1 Syntax.AssemblyScript.isFinished)
  | readBool : Library p (inside 1 Syntax.AssemblyScript.readBool)
  | readString : Library p (inside 1 (Syntax.AssemblyScript.readString (Lang.TypeScript.base p.stringSize)))
  | writeByte : Library p (inside 1 Syntax.AssemblyScript.writeByte)
  | writeBool : Library p (inside 1 Syntax.AssemblyScript.writeBool)
  | writeString : Library p (inside 1 (Syntax.AssemblyScript.writeString (Lang.TypeScript.base p.stringSize) (Lang.AssemblyScript.native p.stringSize.name)))
  | packedSize : Library p Syntax.AssemblyScript.packedSize
  | pack : Library p Syntax.AssemblyScript.pack
  | unpack : Library p Syntax.AssemblyScript.unpack
  | readNumber_int16 : Library p (inside 1 (Syntax.AssemblyScript.readNumber .int16))
  | readNumber_uint16 : Library p (inside 1 (Syntax.AssemblyScript.readNumber .uint16))
  | readNumber_int32 : Library p (inside 1 (Syntax.AssemblyScript.readNumber .int32))
  | readNumber_uint32 : Library p (inside 1 (Syntax.AssemblyScript.readNumber .uint32))
  | readNumber_int64 : Library p (inside 1 (Syntax.AssemblyScript.readNumber .int64))
  | readNumber_uint64 : Library p (inside 1 (Syntax.AssemblyScript.readNumber .uint64))
  | readNumber_float : Library p (inside 1 (Syntax.AssemblyScript.readNumber .float))
  | readNumber_double : Library p (inside 1 (Syntax.AssemblyScript.readNumber .double))
  | writeNumber_int16 : Library p (inside 1 (Syntax.AssemblyScript.writeNumber .int16))
  | writeNumber_uint16 : Library p (inside 1 (Syntax.AssemblyScript.writeNumber .uint16))
  | writeNumber_int32 : Library p (inside 1 (Syntax.AssemblyScript.writeNumber .int32))
  | writeNumber_uint32 : Library p (inside 1 (Syntax.AssemblyScript.writeNumber .uint32))
  | writeNumber_int64 : Library p (inside 1 (Syntax.AssemblyScript.writeNumber .int64))
  | writeNumber_uint64 : Library p (inside 1 (Syntax.AssemblyScript.writeNumber .uint64))
  | writeNumber_float : Library p (inside 1 (Syntax.AssemblyScript.writeNumber .float))
  | writeNumber_double : Library p (inside 1 (Syntax.AssemblyScript.writeNumber .double))

theorem library_puts {w : Writer} {rs : List Row} (hb : w.boilerplate 0 = Boilerplate.assemblyScript) (hn : w.nativeTab = "  ")
    (h : Library w.p rs) (k : Nat) : Puts w.tab (w.addBoilerplate (fillings w.p.stringSize) 0) k (inside k rs) := by
  have hz : blankTab w.nativeTab = true := by rw [hn]; decide
  have part : ∀ i n, ((Boilerplate.assemblyScript.drop i).take n) <:+: w.boilerplate 0 := fun i n => hb ▸ part_infix _ i n
  cases h
  case readByte =>
    refine Puts.library (part 16 9) hz (tidy_of_chars ?_) (by rw [hn]; exact readByte_part _)
    row_chars [Syntax.AssemblyScript.readByte, inside]
    rfl
  case isFinished =>
    refine Puts.library (part 12 3) hz (tidy_of_chars ?_) (by rw [hn]; exact isFinished_part _)
    row_chars [Syntax.AssemblyScript.isFinished, inside]
    rfl
  case readBool =>
    refine Puts.library (part 26 3) hz (tidy_of_chars ?_) (by rw [hn]; exact readBool_part _)
    row_chars [Syntax.AssemblyScript.readBool, inside]
    rfl
  case readString =>
    refine Puts.library (part 110 15) hz (tidy_of_chars ?_) (by rw [hn]; exact readString_part _)
    row_chars [Syntax.AssemblyScript.readString, inside]
    rfl
  case writeByte =>
    refine Puts.library (part 127 8) hz (tidy_of_chars ?_) (by rw [hn]; exact writeByte_part _)
    row_chars [Syntax.AssemblyScript.writeByte, inside]
    rfl
  case writeBool =>
    refine Puts.library (part 136 3) hz (tidy_of_chars ?_) (by rw [hn]; exact writeBool_part _)
    row_chars [Syntax.AssemblyScript.writeBool, inside]
    rfl
  case writeString =>
    refine Puts.library (part 212 15) hz (tidy_of_chars ?_) (by rw [hn]; exact writeString_part _)
    row_chars [Syntax.AssemblyScript.writeString, inside]
    rfl
  case packedSize =>
    refine Puts.library (part 249 9) hz (tidy_of_chars ?_) (by rw [hn]; exact packedSize_part _)
    row_chars [Syntax.AssemblyScript.packedSize, inside]
    rfl
  case pack =>
    refine Puts.library (part 259 16) hz (tidy_of_chars ?_) (by rw [hn]; exact pack_part _)
    row_chars [Syntax.AssemblyScript.pack, inside]
    rfl
  case unpack =>
    refine Puts.library (part 276 27) hz (tidy_of_chars ?_) (by rw [hn]; exact unpack_part _)
    row_chars [Syntax.AssemblyScript.unpack, inside]
    rfl
  case readNumber_int16 =>
    refine Puts.library (part 30 9) hz (tidy_of_chars ?_) (by rw [hn]; exact readNumber_int16_part _)
    row_chars [Syntax.AssemblyScript.readNumber, Lang.TypeScript.base, inside]
    rfl
  case readNumber_uint16 =>
    refine Puts.library (part 40 9) hz (tidy_of_chars ?_) (by rw [hn]; exact readNumber_uint16_part _)
    row_chars [Syntax.AssemblyScript.readNumber, Lang.TypeScript.base, inside]
    rfl
  case readNumber_int32 =>
    refine Puts.library (part 50 9) hz (tidy_of_chars ?_) (by rw [hn]; exact readNumber_int32_part _)
    row_chars [Syntax.AssemblyScript.readNumber, Lang.TypeScript.base, inside]
    rfl
  case readNumber_uint32 =>
    refine Puts.library (part 60 9) hz (tidy_of_chars ?_) (by rw [hn]; exact readNumber_uint32_part _)
    row_chars [Syntax.AssemblyScript.readNumber, Lang.TypeScript.base, inside]
    rfl
  case readNumber_int64 =>
    refine Puts.library (part 70 9) hz (tidy_of_chars ?_) (by rw [hn]; exact readNumber_int64_part _)
    row_chars [Syntax.AssemblyScript.readNumber, Lang.TypeScript.base, inside]
    rfl
  case readNumber_uint64 =>
    refine Puts.library (part 80 9) hz (tidy_of_chars ?_) (by rw [hn]; exact readNumber_uint64_part _)
    row_chars [Syntax.AssemblyScript.readNumber, Lang.TypeScript.base, inside]
    rfl
  case readNumber_float =>
    refine Puts.library (part 90 9) hz (tidy_of_chars ?_) (by rw [hn]; exact readNumber_float_part _)
    row_chars [Syntax.AssemblyScript.readNumber, Lang.TypeScript.base, inside]
    rfl
  case readNumber_double =>
    refine Puts.library (part 100 9) hz (tidy_of_chars ?_) (by rw [hn]; exact readNumber_double_part _)
    row_chars [Syntax.AssemblyScript.readNumber, Lang.TypeScript.base, inside]
    rfl
  case writeNumber_int16 =>
    refine Puts.library (part 140 8) hz (tidy_of_chars ?_) (by rw [hn]; exact writeNumber_int16_part _)
    row_chars [Syntax.AssemblyScript.writeNumber, Lang.TypeScript.base, inside]
    rfl
  case writeNumber_uint16 =>
    refine Puts.library (part 149 8) hz (tidy_of_chars ?_) (by rw [hn]; exact writeNumber_uint16_part _)
    row_chars [Syntax.AssemblyScript.writeNumber, Lang.TypeScript.base, inside]
    rfl
  case writeNumber_int32 =>
    refine Puts.library (part 158 8) hz (tidy_of_chars ?_) (by rw [hn]; exact writeNumber_int32_part _)
    row_chars [Syntax.AssemblyScript.writeNumber, Lang.TypeScript.base, inside]
    rfl
  case writeNumber_uint32 =>
    refine Puts.library (part 167 8) hz (tidy_of_chars ?_) (by rw [hn]; exact writeNumber_uint32_part _)
    row_chars [Syntax.AssemblyScript.writeNumber, Lang.TypeScript.base, inside]
    rfl
  case writeNumber_int64 =>
    refine Puts.library (part 176 8) hz (tidy_of_chars ?_) (by rw [hn]; exact writeNumber_int64_part _)
    row_chars [Syntax.AssemblyScript.writeNumber, Lang.TypeScript.base, inside]
    rfl
  case writeNumber_uint64 =>
    refine Puts.library (part 185 8) hz (tidy_of_chars ?_) (by rw [hn]; exact writeNumber_uint64_part _)
    row_chars [Syntax.AssemblyScript.writeNumber, Lang.TypeScript.base, inside]
    rfl
  case writeNumber_float =>
    refine Puts.library (part 194 8) hz (tidy_of_chars ?_) (by rw [hn]; exact writeNumber_float_part _)
    row_chars [Syntax.AssemblyScript.writeNumber, Lang.TypeScript.base, inside]
    rfl
  case writeNumber_double =>
    refine Puts.library (part 203 8) hz (tidy_of_chars ?_) (by rw [hn]; exact writeNumber_double_part _)
    row_chars [Syntax.AssemblyScript.writeNumber, Lang.TypeScript.base, inside]
    rfl

end Beschi.Text.AssemblyScript.Link
