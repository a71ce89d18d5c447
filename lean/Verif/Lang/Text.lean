import Verif.Spec.Wire
/-
UTF-8 as checked by the target languages' runtimes (Rust `String::from_utf8`, Swift
`String(bytes:encoding:)`): both accept exactly well-formed UTF-8.  These runtimes are assumed to
behave as defined here.
-/
namespace Beschi.Lang
open Spec

/-- Check that bytes are well-formed UTF-8 (`String::from_utf8`, boilerplate/Rust.rs L72;
`String(bytes:encoding:)`, boilerplate/Swift.0.swift). -/
def isUtf8 (bs : List UInt8) : Bool := (ByteArray.mk bs.toArray).validateUTF8

/-- The byte order mark in UTF-8. -/
def bom : List UInt8 := [0xEF, 0xBB, 0xBF]

theorem utf8Encode_toList (cs : List Char) :
    cs.utf8Encode.data.toList = cs.flatMap String.utf8EncodeChar := by
  simp [List.utf8Encode]

theorem isUtf8_iff {bs : List UInt8} : isUtf8 bs = true ↔ ValidUtf8 bs := by
  unfold isUtf8
  rw [ByteArray.validateUTF8_eq_true_iff]
  constructor
  · rintro ⟨cs, h⟩
    refine ⟨cs, ?_⟩
    rw [← utf8Encode_toList, ← h]
  · rintro ⟨cs, rfl⟩
    refine ⟨cs, ?_⟩
    rw [← utf8Encode_toList]

end Beschi.Lang
