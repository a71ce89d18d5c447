import Verif.Syntax.Zig
import Verif.Syntax.ZigLibrary
import Verif.Text.Library
import Verif.Text.Boilerplate
/-
The library in the text written for Zig: the functions, the types of lengths and the tables of types.
-/
namespace Beschi.Text.Zig.Link
open Beschi.Spec Beschi.Lang

/-- What is filled into the boilerplate (zig.py L305-311). -/
abbrev fillings (a b : NumTy) (x y : String) : List (String × Sub) :=
  [("{# STRING_SIZE_TYPE #}", .text (Lang.Zig.native a)), ("{# LIST_SIZE_TYPE #}", .text (Lang.Zig.native b)),
    ("{# SIMPLE_TYPES #}", .text x), ("{# ENUM_TYPES #}", .text y)]

theorem native_chars (n : NumTy) : ∀ c ∈ (Lang.Zig.native n).toList, some '{' ≠ some c := by
  cases n <;> decide

section
variable (a b : NumTy) (x y : String)

theorem holes_chars : ∀ j < 2, ∀ c ∈ holes [Lang.Zig.native a, Lang.Zig.native b, x, y] j, some '{' ≠ some c
  | 0, _ => native_chars _
  | 1, _ => native_chars _

theorem readString_part : (fillings a b x y).foldl substitute ((Boilerplate.zig.drop 100).take 14) =
    (Syntax.Zig.readString (Lang.Zig.native a)).map (Row.shown "    ") := by
  have hv := holes_chars a b x y
  refine Fits.rows (((((Fits.plain (by line_chars) _).next 0 2 String.toList_ofList rfl hv (by computes)).skip
    1 2 String.toList_ofList rfl hv (by computes)).skip 2 2 String.toList_ofList rfl hv (by computes)).skip
    3 2 String.toList_ofList rfl hv (by computes)) ?_
  row_chars [Syntax.Zig.readString]
  computes

theorem readList_part : (fillings a b x y).foldl substitute ((Boilerplate.zig.drop 115).take 62) =
    (Syntax.Zig.readList (Lang.Zig.native b)).map (Row.shown "    ") := by
  have hv := holes_chars a b x y
  refine Fits.rows (((((Fits.plain (by line_chars) _).skip 0 2 String.toList_ofList rfl hv (by computes)).next
    1 2 String.toList_ofList rfl hv (by computes)).skip 2 2 String.toList_ofList rfl hv (by computes)).skip
    3 2 String.toList_ofList rfl hv (by computes)) ?_
  row_chars [Syntax.Zig.readList]
  computes

theorem writeString_part : (fillings a b x y).foldl substitute ((Boilerplate.zig.drop 203).take 5) =
    (Syntax.Zig.writeString (Lang.Zig.native b)).map (Row.shown "    ") := by
  have hv := holes_chars a b x y
  refine Fits.rows (((((Fits.plain (by line_chars) _).skip 0 2 String.toList_ofList rfl hv (by computes)).next
    1 2 String.toList_ofList rfl hv (by computes)).skip 2 2 String.toList_ofList rfl hv (by computes)).skip
    3 2 String.toList_ofList rfl hv (by computes)) ?_
  row_chars [Syntax.Zig.writeString]
  computes

theorem writeList_part : (fillings a b x y).foldl substitute ((Boilerplate.zig.drop 209).take 21) =
    (Syntax.Zig.writeList (Lang.Zig.native b)).map (Row.shown "    ") := by
  have hv := holes_chars a b x y
  refine Fits.rows (((((Fits.plain (by line_chars) _).skip 0 2 String.toList_ofList rfl hv (by computes)).next
    1 2 String.toList_ofList rfl hv (by computes)).skip 2 2 String.toList_ofList rfl hv (by computes)).skip
    3 2 String.toList_ofList rfl hv (by computes)) ?_
  row_chars [Syntax.Zig.writeList]
  computes

theorem errors_part : (fillings a b x y).foldl substitute ((Boilerplate.zig.drop 0).take 4) =
    Syntax.Zig.errors.map (Row.shown "    ") := by
  have hv := holes_chars a b x y
  refine Fits.rows (((((Fits.plain (by line_chars) _).skip 0 2 String.toList_ofList rfl hv (by computes)).skip
    1 2 String.toList_ofList rfl hv (by computes)).skip 2 2 String.toList_ofList rfl hv (by computes)).skip
    3 2 String.toList_ofList rfl hv (by computes)) ?_
  row_chars [Syntax.Zig.errors]
  computes

theorem numberTypeIsValid_part : (fillings a b x y).foldl substitute ((Boilerplate.zig.drop 5).take 16) =
    Syntax.Zig.numberTypeIsValid.map (Row.shown "    ") := by
  have hv := holes_chars a b x y
  refine Fits.rows (((((Fits.plain (by line_chars) _).skip 0 2 String.toList_ofList rfl hv (by computes)).skip
    1 2 String.toList_ofList rfl hv (by computes)).skip 2 2 String.toList_ofList rfl hv (by computes)).skip
    3 2 String.toList_ofList rfl hv (by computes)) ?_
  row_chars [Syntax.Zig.numberTypeIsValid]
  computes

theorem typeIsSimple_part : (fillings a b x y).foldl substitute ((Boilerplate.zig.drop 30).take 14) =
    Syntax.Zig.typeIsSimple.map (Row.shown "    ") := by
  have hv := holes_chars a b x y
  refine Fits.rows (((((Fits.plain (by line_chars) _).skip 0 2 String.toList_ofList rfl hv (by computes)).skip
    1 2 String.toList_ofList rfl hv (by computes)).skip 2 2 String.toList_ofList rfl hv (by computes)).skip
    3 2 String.toList_ofList rfl hv (by computes)) ?_
  row_chars [Syntax.Zig.typeIsSimple]
  computes

theorem typeIsEnum_part : (fillings a b x y).foldl substitute ((Boilerplate.zig.drop 45).take 8) =
    Syntax.Zig.typeIsEnum.map (Row.shown "    ") := by
  have hv := holes_chars a b x y
  refine Fits.rows (((((Fits.plain (by line_chars) _).skip 0 2 String.toList_ofList rfl hv (by computes)).skip
    1 2 String.toList_ofList rfl hv (by computes)).skip 2 2 String.toList_ofList rfl hv (by computes)).skip
    3 2 String.toList_ofList rfl hv (by computes)) ?_
  row_chars [Syntax.Zig.typeIsEnum]
  computes

theorem isValidEnum_part : (fillings a b x y).foldl substitute ((Boilerplate.zig.drop 54).take 8) =
    Syntax.Zig.isValidEnum.map (Row.shown "    ") := by
  have hv := holes_chars a b x y
  refine Fits.rows (((((Fits.plain (by line_chars) _).skip 0 2 String.toList_ofList rfl hv (by computes)).skip
    1 2 String.toList_ofList rfl hv (by computes)).skip 2 2 String.toList_ofList rfl hv (by computes)).skip
    3 2 String.toList_ofList rfl hv (by computes)) ?_
  row_chars [Syntax.Zig.isValidEnum]
  computes

theorem readNumber_part : (fillings a b x y).foldl substitute ((Boilerplate.zig.drop 63).take 36) =
    Syntax.Zig.readNumber.map (Row.shown "    ") := by
  have hv := holes_chars a b x y
  refine Fits.rows (((((Fits.plain (by line_chars) _).skip 0 2 String.toList_ofList rfl hv (by computes)).skip
    1 2 String.toList_ofList rfl hv (by computes)).skip 2 2 String.toList_ofList rfl hv (by computes)).skip
    3 2 String.toList_ofList rfl hv (by computes)) ?_
  row_chars [Syntax.Zig.readNumber]
  computes

theorem writeNumber_part : (fillings a b x y).foldl substitute ((Boilerplate.zig.drop 178).take 24) =
    Syntax.Zig.writeNumber.map (Row.shown "    ") := by
  have hv := holes_chars a b x y
  refine Fits.rows (((((Fits.plain (by line_chars) _).skip 0 2 String.toList_ofList rfl hv (by computes)).skip
    1 2 String.toList_ofList rfl hv (by computes)).skip 2 2 String.toList_ofList rfl hv (by computes)).skip
    3 2 String.toList_ofList rfl hv (by computes)) ?_
  row_chars [Syntax.Zig.writeNumber]
  computes

theorem writeBytes_part : (fillings a b x y).foldl substitute ((Boilerplate.zig.drop 231).take 5) =
    Syntax.Zig.writeBytes.map (Row.shown "    ") := by
  have hv := holes_chars a b x y
  refine Fits.rows (((((Fits.plain (by line_chars) _).skip 0 2 String.toList_ofList rfl hv (by computes)).skip
    1 2 String.toList_ofList rfl hv (by computes)).skip 2 2 String.toList_ofList rfl hv (by computes)).skip
    3 2 String.toList_ofList rfl hv (by computes)) ?_
  row_chars [Syntax.Zig.writeBytes]
  computes

theorem packedSize_part : (fillings a b x y).foldl substitute ((Boilerplate.zig.drop 237).take 9) =
    Syntax.Zig.packedSize.map (Row.shown "    ") := by
  have hv := holes_chars a b x y
  refine Fits.rows (((((Fits.plain (by line_chars) _).skip 0 2 String.toList_ofList rfl hv (by computes)).skip
    1 2 String.toList_ofList rfl hv (by computes)).skip 2 2 String.toList_ofList rfl hv (by computes)).skip
    3 2 String.toList_ofList rfl hv (by computes)) ?_
  row_chars [Syntax.Zig.packedSize]
  computes

theorem pack_part : (fillings a b x y).foldl substitute ((Boilerplate.zig.drop 247).take 15) =
    Syntax.Zig.pack.map (Row.shown "    ") := by
  have hv := holes_chars a b x y
  refine Fits.rows (((((Fits.plain (by line_chars) _).skip 0 2 String.toList_ofList rfl hv (by computes)).skip
    1 2 String.toList_ofList rfl hv (by computes)).skip 2 2 String.toList_ofList rfl hv (by computes)).skip
    3 2 String.toList_ofList rfl hv (by computes)) ?_
  row_chars [Syntax.Zig.pack]
  computes

theorem unpack_part : (fillings a b x y).foldl substitute ((Boilerplate.zig.drop 263).take 23) =
    Syntax.Zig.unpack.map (Row.shown "    ") := by
  have hv := holes_chars a b x y
  refine Fits.rows (((((Fits.plain (by line_chars) _).skip 0 2 String.toList_ofList rfl hv (by computes)).skip
    1 2 String.toList_ofList rfl hv (by computes)).skip 2 2 String.toList_ofList rfl hv (by computes)).skip
    3 2 String.toList_ofList rfl hv (by computes)) ?_
  row_chars [Syntax.Zig.unpack]
  computes

end

/-- The lines of the library that do not depend on the protocol. -/
inductive Fixed : List Row → Prop
  | errors : Fixed Syntax.Zig.errors
  | numberTypeIsValid : Fixed Syntax.Zig.numberTypeIsValid
  | typeIsSimple : Fixed Syntax.Zig.typeIsSimple
  | typeIsEnum : Fixed Syntax.Zig.typeIsEnum
  | isValidEnum : Fixed Syntax.Zig.isValidEnum
  | readNumber : Fixed Syntax.Zig.readNumber
  | writeNumber : Fixed Syntax.Zig.writeNumber
  | writeBytes : Fixed Syntax.Zig.writeBytes
  | packedSize : Fixed Syntax.Zig.packedSize
  | pack : Fixed Syntax.Zig.pack
  | unpack : Fixed Syntax.Zig.unpack

theorem fixed_puts {w : Writer} {rs : List Row} {a b : NumTy} {x y : String} (hb : w.boilerplate 0 = Boilerplate.zig)
    (hn : w.nativeTab = "    ") (h : Fixed rs) : Puts w.tab (w.addBoilerplate (fillings a b x y) 0) 0 rs := by
  have hz : blankTab w.nativeTab = true := by rw [hn]; decide
  have part : ∀ i n, ((Boilerplate.zig.drop i).take n) <:+: w.boilerplate 0 := fun i n => hb ▸ part_infix _ i n
  rw [← inside_zero rs]
  cases h
  · refine Puts.library (part 0 4) hz (tidy_of_chars ?_) (by rw [hn]; exact errors_part _ _ _ _)
    row_chars [Syntax.Zig.errors]
    rfl
  · refine Puts.library (part 5 16) hz (tidy_of_chars ?_) (by rw [hn]; exact numberTypeIsValid_part _ _ _ _)
    row_chars [Syntax.Zig.numberTypeIsValid]
    rfl
  · refine Puts.library (part 30 14) hz (tidy_of_chars ?_) (by rw [hn]; exact typeIsSimple_part _ _ _ _)
    row_chars [Syntax.Zig.typeIsSimple]
    rfl
  · refine Puts.library (part 45 8) hz (tidy_of_chars ?_) (by rw [hn]; exact typeIsEnum_part _ _ _ _)
    row_chars [Syntax.Zig.typeIsEnum]
    rfl
  · refine Puts.library (part 54 8) hz (tidy_of_chars ?_) (by rw [hn]; exact isValidEnum_part _ _ _ _)
    row_chars [Syntax.Zig.isValidEnum]
    rfl
  · refine Puts.library (part 63 36) hz (tidy_of_chars ?_) (by rw [hn]; exact readNumber_part _ _ _ _)
    row_chars [Syntax.Zig.readNumber]
    rfl
  · refine Puts.library (part 178 24) hz (tidy_of_chars ?_) (by rw [hn]; exact writeNumber_part _ _ _ _)
    row_chars [Syntax.Zig.writeNumber]
    rfl
  · refine Puts.library (part 231 5) hz (tidy_of_chars ?_) (by rw [hn]; exact writeBytes_part _ _ _ _)
    row_chars [Syntax.Zig.writeBytes]
    rfl
  · refine Puts.library (part 237 9) hz (tidy_of_chars ?_) (by rw [hn]; exact packedSize_part _ _ _ _)
    row_chars [Syntax.Zig.packedSize]
    rfl
  · refine Puts.library (part 247 15) hz (tidy_of_chars ?_) (by rw [hn]; exact pack_part _ _ _ _)
    row_chars [Syntax.Zig.pack]
    rfl
  · refine Puts.library (part 263 23) hz (tidy_of_chars ?_) (by rw [hn]; exact unpack_part _ _ _ _)
    row_chars [Syntax.Zig.unpack]
    rfl

/-- Each space follows a comma. -/
def Spaced : Char → List Char → Prop
  | _, [] => True
  | a, c :: cs => (c = ' ' → a = ',') ∧ Spaced c cs

theorem spaced_append {a : Char} {cs ds : List Char} (h : ∀ c ∈ cs, c ≠ ' ') (hd : ∀ b, Spaced b ds) : Spaced a (cs ++ ds) := by
  induction cs generalizing a with
  | nil => exact hd a
  | cons c cs ih => exact ⟨fun e => absurd e (h c (by simp)), ih fun x hx => h x (by simp [hx])⟩

theorem spaced_names {names : List String} (h : ∀ n ∈ names, NoSpace n) (a : Char) :
    Spaced a ((", ".intercalate names ++ ",").toList) := by
  have hs : ∀ n ∈ names, ∀ c ∈ n.toList, c ≠ ' ' := fun n hn c hc e => h n hn c hc (by rw [e]; decide)
  clear h
  induction names generalizing a with
  | nil => exact ⟨fun h => (by cases h), trivial⟩
  | cons n names ih =>
    cases names with
    | nil =>
      rw [String.intercalate_singleton, String.toList_append]
      exact spaced_append (hs n (by simp)) fun b => ⟨fun h => (by cases h), trivial⟩
    | cons m names =>
      rw [String.intercalate_cons_cons, String.append_assoc, String.append_assoc, String.toList_append]
      refine spaced_append (hs n (by simp)) fun b => ?_
      rw [String.toList_append]
      exact ⟨fun h => (by cases h), fun _ => rfl, ih ' ' fun k hk => hs k (List.mem_cons_of_mem _ hk)⟩

theorem not_spaced {a : Char} : ∀ {x y : List Char}, ¬ Spaced a (x ++ '#' :: ' ' :: y)
  | [], y => fun h => by cases h.2.1 rfl
  | c :: x, y => fun h => not_spaced h.2

/-- Nothing that has a space after a number sign is in it. -/
theorem spaced_none {x y o : List Char} (h : ∀ a, Spaced a (x ++ y)) : dropPrefix ('{' :: '#' :: ' ' :: o) y = none := by
  cases hd : dropPrefix ('{' :: '#' :: ' ' :: o) y with
  | none => rfl
  | some r =>
    have := h ' '
    rw [scan_dropPrefix hd] at this
    exact absurd (by simpa using this) (not_spaced (a := ' ') (x := x ++ ['{']) (y := o ++ r))

section
variable (a b : NumTy) {names : List String} (h : ∀ n ∈ names, NoSpace n)
include h

/-- What is filled in for the types has no other place to be filled in. -/
theorem sealed_names {o : List Char} {vs : List String} {i : Nat} (hi : vs.getD i "" = ", ".intercalate names ++ ",") :
    Template.Sealed ('{' :: '#' :: ' ' :: o) (holes vs) [.inl ' ', .inl ' ', .inl ' ', .inl ' ', .inr i] := by
  refine ⟨fun x z e _ => ?_, trivial⟩
  have e' : (", ".intercalate names ++ ",").toList = x ++ z := by rw [← e, holes, hi]
  show dropPrefix _ (z ++ []) = none
  rw [List.append_nil]
  exact spaced_none (x := x) fun a => e' ▸ spaced_names h a

theorem simpleTypes_part (y : String) :
    (fillings a b (", ".intercalate names ++ ",") y).foldl substitute ((Boilerplate.zig.drop 22).take 3) =
      (Syntax.Zig.simpleTypes names).map (Row.shown "    ") := by
  have hv := holes_chars a b (", ".intercalate names ++ ",") y
  have h1 := ((((Fits.plain (ls := (Boilerplate.zig.drop 22).take 3) (by line_chars) _).skip (old := "{# STRING_SIZE_TYPE #}") 0 2
    String.toList_ofList rfl hv (by computes)).skip (old := "{# LIST_SIZE_TYPE #}") 1 2 String.toList_ofList rfl hv
    (by computes)).next (old := "{# SIMPLE_TYPES #}") 2 2 String.toList_ofList rfl hv (by computes)).of_eq
    (ts' := [Template.plain "const simpleTypes = [_]type{".toList, [.inl ' ', .inl ' ', .inl ' ', .inl ' ', .inr 2],
      Template.plain "};".toList]) (by simp only [litChars]; computes)
  have h2 := h1.substitute (old := "{# ENUM_TYPES #}") (new := y) 3 String.toList_ofList rfl (by
    intro t ht
    simp only [List.mem_cons, List.not_mem_nil, or_false] at ht
    rcases ht with rfl | rfl | rfl
    · exact Template.sealed_plain _ _ _
    · exact sealed_names h rfl
    · exact Template.sealed_plain _ _ _) (by simp only [litChars]; computes) rfl
  refine h2.rows ?_
  have hn : (", ".intercalate names ++ ",").toList ≠ [] := by rw [String.toList_append]; simp
  rw [Syntax.Zig.simpleTypes, List.map_cons, List.map_cons, rowChars_ne hn,
    ← List.append_nil (", ".intercalate names ++ ",").toList]
  simp only [List.map_nil, List.map_cons, rowChars, litChars]
  computes

omit h in
theorem enumTypes_part (x : String) :
    (fillings a b x (", ".intercalate names ++ ",")).foldl substitute ((Boilerplate.zig.drop 26).take 3) =
      (Syntax.Zig.enumTypes names).map (Row.shown "    ") := by
  have hv := holes_chars a b x (", ".intercalate names ++ ",")
  have h1 := ((((Fits.plain (ls := (Boilerplate.zig.drop 26).take 3) (by line_chars) _).skip (old := "{# STRING_SIZE_TYPE #}") 0 2
    String.toList_ofList rfl hv (by computes)).skip (old := "{# LIST_SIZE_TYPE #}") 1 2 String.toList_ofList rfl hv
    (by computes)).skip (old := "{# SIMPLE_TYPES #}") 2 2 String.toList_ofList rfl hv (by computes)).next
    (old := "{# ENUM_TYPES #}") 3 2 String.toList_ofList rfl hv (by computes)
  refine h1.rows ?_
  have hn : (", ".intercalate names ++ ",").toList ≠ [] := by rw [String.toList_append]; simp
  rw [Syntax.Zig.enumTypes, List.map_cons, List.map_cons, rowChars_ne hn,
    ← List.append_nil (", ".intercalate names ++ ",").toList]
  simp only [List.map_nil, List.map_cons, rowChars, litChars]
  computes

end

/-- The lines of the library. -/
def Library (p : Protocol) (rs : List Row) : Prop :=
  rs = Syntax.Zig.readString (Lang.Zig.native p.stringSize) ∨
  rs = Syntax.Zig.readList (Lang.Zig.native p.listSize) ∨
  rs = Syntax.Zig.writeString (Lang.Zig.native p.listSize) ∨
  rs = Syntax.Zig.writeList (Lang.Zig.native p.listSize) ∨
  (∃ names, names = ((p.structs.filter p.simpleStruct).map (·.name) ++ (p.messages.filter p.simpleStruct).map (·.name)) ∧
    names ≠ [] ∧ (∀ n ∈ names, NoSpace n) ∧ rs = Syntax.Zig.simpleTypes names) ∨
  (∃ names, names = p.enums.map (·.name) ∧ names ≠ [] ∧ (∀ n ∈ names, NoSpace n) ∧ rs = Syntax.Zig.enumTypes names) ∨
  Fixed rs

/-- A table with a comma at the end. -/
abbrev listed (names : List String) : String :=
  s!"{(", ".intercalate names)}{(if decide (names.length > 0) then "," else "")}"

theorem listed_eq {names : List String} (h : names ≠ []) : listed names = ", ".intercalate names ++ "," := by
  have : 0 < names.length := List.length_pos_iff.2 h
  simp [listed, this, str_toString]

theorem tidy_names {names : List String} (hn : names ≠ []) (h : ∀ n ∈ names, NoSpace n) :
    tidy (", ".intercalate names ++ ",") = true := by
  refine tidy_of_inked ?_
  unfold inked
  cases hl : (", ".intercalate names ++ ",").toList with
  | nil => rw [String.toList_append] at hl; simp at hl
  | cons c cs =>
    have : c ∉ spaces := by
      cases names with
      | nil => exact absurd rfl hn
      | cons n names =>
        have hc : n.toList = [] ∧ c = ',' ∨ c ∈ n.toList := by
          cases names with
          | nil =>
            rw [String.intercalate_singleton, String.toList_append] at hl
            cases hx : n.toList with
            | nil => rw [hx] at hl; injection hl with hl _; exact .inl ⟨rfl, hl.symm⟩
            | cons d ds => rw [hx] at hl; injection hl with hl _; exact .inr (by simp [hl])
          | cons m names =>
            rw [String.intercalate_cons_cons, String.append_assoc, String.append_assoc, String.toList_append] at hl
            cases hx : n.toList with
            | nil =>
              rw [hx, String.toList_append] at hl
              simp only [litChars, List.nil_append, List.cons_append] at hl
              injection hl with hl _; exact .inl ⟨rfl, hl.symm⟩
            | cons d ds => rw [hx] at hl; injection hl with hl _; exact .inr (by simp [hl])
        rcases hc with ⟨_, rfl⟩ | hc
        · decide
        · exact h n (by simp) c hc
    simp only [Bool.and_eq_true, bne_iff_ne]
    exact ⟨fun e => this (by rw [e]; decide), fun e => this (by rw [e]; decide)⟩

theorem library_puts {w : Writer} {rs : List Row} (hb : w.boilerplate 0 = Boilerplate.zig) (hn : w.nativeTab = "    ")
    (h : Library w.p rs) : Puts w.tab (w.addBoilerplate (fillings w.p.stringSize w.p.listSize
      (listed ((w.p.structs.filter w.p.simpleStruct).map (·.name) ++ (w.p.messages.filter w.p.simpleStruct).map (·.name)))
      (listed (w.p.enums.map (·.name)))) 0) 0 rs := by
  have hz : blankTab w.nativeTab = true := by rw [hn]; decide
  have part : ∀ i n, ((Boilerplate.zig.drop i).take n) <:+: w.boilerplate 0 := fun i n => hb ▸ part_infix _ i n
  rw [← inside_zero rs]
  rcases h with rfl | rfl | rfl | rfl | ⟨names, e, h1, h2, rfl⟩ | ⟨names, e, h1, h2, rfl⟩ | h
  · refine Puts.library (part 100 14) hz (tidy_of_chars ?_) (by rw [hn]; exact readString_part _ _ _ _)
    row_chars [Syntax.Zig.readString]
    rfl
  · refine Puts.library (part 115 62) hz (tidy_of_chars ?_) (by rw [hn]; exact readList_part _ _ _ _)
    row_chars [Syntax.Zig.readList]
    rfl
  · refine Puts.library (part 203 5) hz (tidy_of_chars ?_) (by rw [hn]; exact writeString_part _ _ _ _)
    row_chars [Syntax.Zig.writeString]
    rfl
  · refine Puts.library (part 209 21) hz (tidy_of_chars ?_) (by rw [hn]; exact writeList_part _ _ _ _)
    row_chars [Syntax.Zig.writeList]
    rfl
  · rw [← e, listed_eq h1]
    refine Puts.library (part 22 3) hz ?_ (by rw [hn]; exact simpleTypes_part _ _ h2 _)
    intro r hr
    simp only [Syntax.Zig.simpleTypes, List.mem_cons, List.not_mem_nil, or_false] at hr
    rcases hr with rfl | rfl | rfl
    · decide
    · exact tidy_names h1 h2
    · decide
  · rw [← e, listed_eq h1]
    refine Puts.library (part 26 3) hz ?_ (by rw [hn]; exact enumTypes_part _ _ _)
    intro r hr
    simp only [Syntax.Zig.enumTypes, List.mem_cons, List.not_mem_nil, or_false] at hr
    rcases hr with rfl | rfl | rfl
    · decide
    · exact tidy_names h1 h2
    · decide
  · rw [inside_zero]
    exact fixed_puts hb hn h

end Beschi.Text.Zig.Link
