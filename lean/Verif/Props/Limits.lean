import Verif.Props.Languages
import Verif.Props.Arbitrary
/-
Where the properties fail.  The theorems in Verif/Props/Languages.lean and Verif/Props/Arbitrary.lean
have conditions; here the unconditional claims, one definition each, are refuted: for every language
and every kind of condition there is an accepted protocol for which the claim is false.

The claims are about data shorter than 2^31 bytes, which is within the limits of all languages.
-/
namespace Beschi.Props
open Beschi Beschi.Spec Beschi.Lang

/-! ### The claims -/

/-- C10: the bytes written for a message are the specified ones. -/
def Writes (l : Language) (p : Protocol) : Prop :=
  ∀ m v bs, EncMsg p m v bs → bytes ((l.library p).write m false (seen l v)) = .ok bs

/-- C11, C12: a message is read from the bytes specified for it. -/
def Reads (l : Language) (p : Protocol) : Prop :=
  ∀ m v bs, EncMsg p m v bs → bs.length < 2 ^ 31 →
    (l.library p).read m bs 0 = .ok (seen l v, bs.length)

/-- C13: the size reported for a message is the specified one. -/
def Measures (l : Language) (p : Protocol) : Prop :=
  ∀ m v bs, EncMsg p m v bs → (l.library p).size m (seen l v) = .ok bs.length

/-- C15: cutting off a message is noticed. -/
def NoticesAllCuts (l : Language) (p : Protocol) : Prop :=
  ∀ m v bs cut, EncMsg p m v (bs ++ cut) → cut ≠ [] → bs.length < 2 ^ 31 →
    ∃ e, (l.library p).read m bs 0 = .error e

/-- C16: reading does not crash. -/
def ReadsSafely (l : Language) (p : Protocol) : Prop :=
  ∀ m b pos, pos ≤ b.length → b.length < 2 ^ 31 → (l.library p).read m b pos ≠ .error .crash

/-- C17: bytes laid out like a message, but with an undeclared enum value, are refused. -/
def RefusesUndeclared (l : Language) (p : Protocol) : Prop :=
  ∀ m w bs, DecMsg readableRaw p m w bs → ¬ MessageShape p m w → bs.length < 2 ^ 31 →
    ∃ e, (l.library p).read m bs 0 = .error e

/-- C21: a byte that identifies no message makes the processing of a stream fail. -/
def ReportsUnknown (l : Language) (p : Protocol) : Prop :=
  ∀ (t : UInt8) rest, t ≠ 0 → p.messages.length < t.toNat → (t :: rest).length < 2 ^ 31 →
    ∃ e, (l.library p).process (t :: rest) 0 (-1) = .error e

/-- C22: what is packed is unpacked as the same messages. -/
def Unpacks (l : Language) (p : Protocol) : Prop :=
  ∀ ms, (∀ x ∈ ms, IsMessage p x.1 x.2) → ∃ bs, bytes ((l.library p).pack (seenAll l ms)) = .ok bs ∧
    (bs.length < 2 ^ 31 → (l.library p).unpack bs 0 = .ok (seenAll l ms))

/-- C24: unpacking does not crash. -/
def UnpacksSafely (l : Language) (p : Protocol) : Prop :=
  ∀ b pos, pos ≤ b.length → b.length < 2 ^ 31 → (l.library p).unpack b pos ≠ .error .crash

/-- C25: messages can be created. -/
def Creates (l : Language) (p : Protocol) : Prop :=
  ∀ d ∈ p.messages, ∃ fs, IsDefaultFields p d.members fs ∧
    (l.library p).create d.name = .ok (seen l (.record fs))

section
variable {l : Language} {p : Protocol} {m : String} {v : Val} {bs : List UInt8}

theorem not_writes {r : Except Fail (List UInt8)} (he : EncMsg p m v bs)
    (hw : bytes ((l.library p).write m false (seen l v)) = r) (hr : r ≠ .ok bs) : ¬ Writes l p :=
  fun h => hr (hw ▸ h m v bs he)

theorem not_reads {r : Except Fail (Val × Nat)} (he : EncMsg p m v bs) (hl : bs.length < 2 ^ 31)
    (hw : (l.library p).read m bs 0 = r) (hr : r ≠ .ok (seen l v, bs.length)) : ¬ Reads l p :=
  fun h => hr (hw ▸ h m v bs he hl)

theorem not_measures {r : Except Fail Nat} (he : EncMsg p m v bs)
    (hw : (l.library p).size m (seen l v) = r) (hr : r ≠ .ok bs.length) : ¬ Measures l p :=
  fun h => hr (hw ▸ h m v bs he)

theorem not_notices {cut : List UInt8} {r : Val × Nat} (he : EncMsg p m v (bs ++ cut)) (hc : cut ≠ [])
    (hl : bs.length < 2 ^ 31) (hw : (l.library p).read m bs 0 = .ok r) : ¬ NoticesAllCuts l p := by
  intro h
  obtain ⟨e, he⟩ := h m v bs cut he hc hl
  rw [hw] at he
  cases he

end

/-! ### Protocols -/

/-- How a protocol is described in a file. -/
def description (p : Protocol) : Toml := .table [
  ("meta", .table [("namespace", .str "W"), ("list_size_type", .str p.listSize.name),
    ("string_size_type", .str p.stringSize.name)]),
  ("structs", .arr (p.structs.map body)),
  ("messages", .arr (p.messages.map body)),
  ("enums", .arr (p.enums.map fun e => .table [("_name", .str e.name),
    ("_values", .arr (e.values.map fun v => .table [("_name", .str v.1), ("_value", .int v.2)]))]))]
where
  body (s : Struct) : Toml := .table (("_name", .str s.name) :: s.members.map fun m =>
    (m.name, .str (if m.isList then "[" ++ m.vartype ++ "]" else m.vartype)))

/-- The protocol is what its description loads to. -/
def Accepted (p : Protocol) : Prop := Loads (description p) (.ok p)

/-- A protocol with one message `M`. -/
def single (members : List Variable) (structs : List Struct := []) (enums : List Enum := [])
    (listSize : NumTy := .uint16) (stringSize : NumTy := .uint16) : Protocol where
  ns := some (.str "W")
  listSize := listSize
  stringSize := stringSize
  structs := structs
  messages := [⟨"M", members, true⟩]
  enums := enums

/-- One number. -/
def wByte : Protocol := single [⟨"x", "byte", false⟩]

/-! ### Rust -/

/-- A member called like the parameter of the generated function. -/
def wReader : Protocol := single [⟨"reader", "byte", false⟩, ⟨"x", "byte", false⟩]

theorem C11_fails_rust_reader (noRename : Bool) :
    Accepted wReader ∧ ¬ Reads (.rust noRename) wReader :=
  ⟨⟨10, rfl⟩, not_reads (m := "M") (v := .record [("reader", .int 1), ("x", .int 2)]) (bs := [1, 2])
    (r := .error .illTyped)
    (encMsg_of_encode (by decide)) (by decide) (by cases noRename <;> rfl) nofun⟩

/-- A member called like the variable for the length of a list. -/
def wLength : Protocol := single [⟨"x_len", "uint16", false⟩, ⟨"x", "uint16", true⟩]

/-- C30: the value 7 of the member `x_len` is read as 2, the length of the other member. -/
theorem C30_fails_rust_length (noRename : Bool) : Accepted wLength ∧
    EncMsg wLength "M" (.record [("x_len", .int 7), ("x", .list [.int 2, .int 3])]) [7, 0, 2, 0, 2, 0, 3, 0] ∧
    ((Language.rust noRename).library wLength).read "M" [7, 0, 2, 0, 2, 0, 3, 0] 0 =
      .ok (.record [("x_len", .int 2), ("x", .list [.int 2, .int 3])], 8) :=
  ⟨⟨10, rfl⟩, encMsg_of_encode (by decide), by cases noRename <;> rfl⟩

/-- Lists of bytes and of booleans. -/
def wBytes : Protocol := single [⟨"x", "byte", true⟩]
def wBools : Protocol := single [⟨"x", "bool", true⟩]

theorem C10_fails_rust_bytes (noRename : Bool) : Accepted wBytes ∧ ¬ Writes (.rust noRename) wBytes :=
  ⟨⟨10, rfl⟩, not_writes (m := "M") (v := .record [("x", .list [.int 2])]) (bs := [1, 0, 2])
    (r := .error .illTyped) (encMsg_of_encode (by decide)) (by cases noRename <;> rfl) nofun⟩

theorem C10_fails_rust_bools (noRename : Bool) : Accepted wBools ∧ ¬ Writes (.rust noRename) wBools :=
  ⟨⟨10, rfl⟩, not_writes (m := "M") (v := .record [("x", .list [.bool true])]) (bs := [1, 0, 1])
    (r := .error .illTyped) (encMsg_of_encode (by decide)) (by cases noRename <;> rfl) nofun⟩

/-- Members that are the same in snake case. -/
def wSnake : Protocol := single [⟨"aB", "byte", false⟩, ⟨"a_b", "byte", false⟩]

theorem C29_fails_rust : Accepted wSnake ∧ "aB" ≠ "a_b" ∧
    (Language.rust false).rename "aB" = (Language.rust false).rename "a_b" ∧
    ¬ Writes (.rust false) wSnake ∧ ¬ Reads (.rust false) wSnake :=
  ⟨⟨10, rfl⟩, by decide, by decide,
    not_writes (m := "M") (v := .record [("aB", .int 1), ("a_b", .int 2)]) (bs := [1, 2])
      (r := .error .illTyped) (encMsg_of_encode (by decide)) rfl nofun,
    not_reads (m := "M") (v := .record [("aB", .int 1), ("a_b", .int 2)]) (bs := [1, 2])
      (r := .error .illTyped) (encMsg_of_encode (by decide)) (by decide) rfl nofun⟩

/-! ### C# -/

/-- A member called like a method of the generated class. -/
def wFromBytes : Protocol := single [⟨"FromBytes", "byte", false⟩]

theorem C10_fails_csharp_method (lossy : List UInt8 → List UInt8) :
    Accepted wFromBytes ∧ ¬ Writes (.csharp lossy) wFromBytes :=
  ⟨⟨10, rfl⟩, not_writes (m := "M") (v := .record [("FromBytes", .int 1)]) (bs := [1])
    (r := .error .illTyped) (encMsg_of_encode (by decide)) rfl nofun⟩

/-- A member called like its message. -/
def wClass : Protocol := single [⟨"M", "byte", false⟩]

theorem C10_fails_csharp_class (lossy : List UInt8 → List UInt8) :
    Accepted wClass ∧ ¬ Writes (.csharp lossy) wClass :=
  ⟨⟨10, rfl⟩, not_writes (m := "M") (v := .record [("M", .int 1)]) (bs := [1])
    (r := .error .illTyped) (encMsg_of_encode (by decide)) rfl nofun⟩

/-- A text called `el` beside a list of texts. -/
def wElement : Protocol := single [⟨"el", "string", false⟩, ⟨"x", "string", true⟩]

theorem C10_fails_csharp_element (lossy : List UInt8 → List UInt8) :
    Accepted wElement ∧ ¬ Writes (.csharp lossy) wElement :=
  ⟨⟨10, rfl⟩, not_writes (m := "M") (v := .record [("el", .str [65]), ("x", .list [.str [66]])])
    (bs := [1, 0, 65, 1, 0, 1, 0, 66]) (r := .error .illTyped) (encMsg_of_encode (by decide)) rfl nofun⟩

/-- An enum, whose variable is called like that for the message. -/
def wLocals : Protocol := single [⟨"nM", "E", false⟩] (enums := [⟨"E", [("A", 0), ("B", 1)], .byte⟩])

theorem C11_fails_csharp_locals (lossy : List UInt8 → List UInt8) :
    Accepted wLocals ∧ ¬ Reads (.csharp lossy) wLocals :=
  ⟨⟨10, rfl⟩, not_reads (m := "M") (v := .record [("nM", .int 1)]) (bs := [1])
    (r := .error .illTyped) (encMsg_of_encode (by decide)) (by decide) rfl nofun⟩

/-- An enum, whose variable is called like a loop variable. -/
def wInner : Protocol := single [⟨"el", "E", false⟩, ⟨"x", "uint16", true⟩]
  (enums := [⟨"E", [("A", 0), ("B", 1)], .byte⟩])

theorem C11_fails_csharp_inner (lossy : List UInt8 → List UInt8) :
    Accepted wInner ∧ ¬ Reads (.csharp lossy) wInner :=
  ⟨⟨10, rfl⟩, not_reads (m := "M") (v := .record [("el", .int 1), ("x", .list [])]) (bs := [1, 0, 0])
    (r := .error .illTyped) (encMsg_of_encode (by decide)) (by decide) rfl nofun⟩

/-- List lengths of 64 bits. -/
def wLong : Protocol := single [⟨"x", "uint16", true⟩] (listSize := .uint64)

theorem C32_fails_csharp (lossy : List UInt8 → List UInt8) :
    Accepted wLong ∧ ¬ Reads (.csharp lossy) wLong :=
  ⟨⟨10, rfl⟩, not_reads (m := "M") (v := .record [("x", .list [.int 1])])
    (bs := [1, 0, 0, 0, 0, 0, 0, 0, 1, 0]) (r := .error .illTyped)
    (encMsg_of_encode (by decide)) (by decide) rfl nofun⟩

/-- One text. -/
def wText : Protocol := single [⟨"x", "string", false⟩]

theorem wText_enc {bs : List UInt8} (hl : bs.length ≤ 65535) (hv : ValidUtf8 bs) :
    EncMsg wText "M" (.record [("x", .str bs)]) (littleEndian 2 bs.length ++ bs) := by
  have h1 : Layout written wText "string" (.str bs) (littleEndian 2 bs.length ++ bs) :=
    .text (.int (n := .uint16) (by constructor <;> omega)) ⟨rfl, hv⟩
  have := LayoutFields.one (m := ⟨"x", "string", false⟩) rfl h1 .nil
  rw [List.append_nil] at this
  exact ⟨_, _, List.mem_cons_self .., rfl, rfl, this⟩

/-- The letter é takes two bytes and one UTF-16 unit. -/
theorem C13_fails_csharp (lossy : List UInt8 → List UInt8) :
    Accepted wText ∧ ¬ Measures (.csharp lossy) wText :=
  ⟨⟨10, rfl⟩, not_measures (r := .ok 3) (wText_enc (bs := [0xC3, 0xA9]) (by decide) ⟨['é'], by decide⟩)
    rfl nofun⟩

theorem C15_fails_csharp (lossy : List UInt8 → List UInt8) :
    Accepted wText ∧ ¬ NoticesAllCuts (.csharp lossy) wText := by
  refine ⟨⟨10, rfl⟩, not_notices (m := "M") (v := .record [("x", .str [65, 66])]) (bs := [2, 0, 65])
    (cut := [66]) (r := (.record [("x", .str [65])], 3)) (encMsg_of_encode (by decide)) nofun (by decide) ?_⟩
  rfl

/-! ### Go -/

theorem C15_fails_go (noRename : Bool) : Accepted wText ∧ ¬ NoticesAllCuts (.go noRename) wText := by
  refine ⟨⟨10, rfl⟩, ?_⟩
  cases noRename
  · exact not_notices (m := "M") (v := .record [("x", .str [])]) (bs := [])
      (cut := [0, 0]) (r := (.record [("X", .str [])], 0)) (encMsg_of_encode (by decide)) nofun (by decide) rfl
  · exact not_notices (m := "M") (v := .record [("x", .str [])]) (bs := [])
      (cut := [0, 0]) (r := (.record [("x", .str [])], 0)) (encMsg_of_encode (by decide)) nofun (by decide) rfl

theorem C16_fails_go (noRename : Bool) : Accepted wText ∧ ¬ ReadsSafely (.go noRename) wText :=
  ⟨⟨10, rfl⟩, fun h => h "M" [1, 0] 0 (by decide) (by decide) (by cases noRename <;> rfl)⟩

/-- Members that are the same when capitalised. -/
def wCapital : Protocol := single [⟨"aB", "byte", false⟩, ⟨"AB", "byte", false⟩]

theorem C29_fails_go : Accepted wCapital ∧ "aB" ≠ "AB" ∧
    (Language.go false).rename "aB" = (Language.go false).rename "AB" ∧
    ¬ Writes (.go false) wCapital ∧ ¬ Reads (.go false) wCapital :=
  ⟨⟨10, rfl⟩, by decide, by decide,
    not_writes (m := "M") (v := .record [("aB", .int 1), ("AB", .int 2)]) (bs := [1, 2])
      (r := .error .illTyped) (encMsg_of_encode (by decide)) rfl nofun,
    not_reads (m := "M") (v := .record [("aB", .int 1), ("AB", .int 2)]) (bs := [1, 2])
      (r := .error .illTyped) (encMsg_of_encode (by decide)) (by decide) rfl nofun⟩

/-- A member that is called like a method when capitalised. -/
def wWriteBytes : Protocol := single [⟨"writeBytes", "byte", false⟩]

theorem C10_fails_go_method : Accepted wWriteBytes ∧ ¬ Writes (.go false) wWriteBytes :=
  ⟨⟨10, rfl⟩, not_writes (m := "M") (v := .record [("writeBytes", .int 1)]) (bs := [1])
    (r := .error .illTyped) (encMsg_of_encode (by decide)) rfl nofun⟩

/-- A struct called like a type of the generated package. -/
def wMessage : Protocol := single [⟨"x", "byte", false⟩] (structs := [⟨"Message", [⟨"a", "byte", false⟩], false⟩])

theorem C10_fails_go_package (noRename : Bool) : Accepted wMessage ∧ ¬ Writes (.go noRename) wMessage :=
  ⟨⟨10, rfl⟩, not_writes (m := "M") (v := .record [("x", .int 1)]) (bs := [1])
    (r := .error .illTyped) (encMsg_of_encode (by decide)) (by cases noRename <;> rfl) nofun⟩

/-- A struct of fixed size. -/
def wFixed : Protocol := single [⟨"x", "S", false⟩, ⟨"y", "byte", false⟩]
  (structs := [⟨"S", [⟨"a", "byte", false⟩, ⟨"b", "byte", false⟩], false⟩])

/-- Without renaming, the members of a struct of fixed size are not exported. -/
theorem C11_fails_go_unexported : Accepted wFixed ∧ ¬ Reads (.go true) wFixed :=
  ⟨⟨10, rfl⟩, not_reads (m := "M")
    (v := .record [("x", .record [("a", .int 1), ("b", .int 2)]), ("y", .int 3)]) (bs := [1, 2, 3])
    (r := .error .crash) (encMsg_of_encode (by decide)) (by decide) rfl nofun⟩

/-- An enum inside a struct. -/
def wEnum : Protocol := single [⟨"x", "S", false⟩] (structs := [⟨"S", [⟨"a", "E", false⟩], false⟩])
  (enums := [⟨"E", [("A", 0), ("B", 1)], .byte⟩])

theorem wEnum_dec : DecMsg readableRaw wEnum "M" (.record [("x", .record [("a", .int 7)])]) [7] :=
  ⟨wEnum.messages[0], _, by decide, rfl, rfl,
    .one (A := readableRaw) (a := [7]) (b := []) rfl
      (.struct (A := readableRaw) (s := wEnum.structs[0]) (by decide)
        (.one (A := readableRaw) (a := [7]) (b := []) rfl
          (.enum (A := readableRaw) (e := wEnum.enums[0]) (by decide) (i := 7) rfl
            (.written (.int (n := .byte) (i := 7) (by decide)))) .nil)) .nil⟩

theorem wEnum_undeclared : ¬ MessageShape wEnum "M" (.record [("x", .record [("a", .int 7)])]) := by
  rintro ⟨d, fs, hd, -, hv, hf⟩
  cases List.mem_singleton.1 hd
  cases hv
  cases hf with
  | one _ hx _ =>
    generalize ht : (⟨"x", "S", false⟩ : Variable).vartype = t at hx
    cases hx with
    | num hn => cases hn
    | struct hs hf =>
      cases List.mem_singleton.1 hs
      cases hf with
      | one _ hx _ =>
        generalize ht : (⟨"a", "E", false⟩ : Variable).vartype = t at hx
        cases hx with
        | @num n _ _ => cases n <;> revert ht <;> decide
        | enum he hi =>
          cases List.mem_singleton.1 he
          revert hi
          simp

theorem C17_fails_go : Accepted wEnum ∧ ¬ RefusesUndeclared (.go false) wEnum := by
  refine ⟨⟨10, rfl⟩, fun h => ?_⟩
  obtain ⟨e, he⟩ := h "M" _ _ wEnum_dec wEnum_undeclared (by decide)
  exact nomatch (he : Except.ok (Val.record [("X", .record [("A", .int 7)])], 1) = _)

/-! ### Swift -/

theorem C10_fails_swift_method (mark : List UInt8 → List UInt8) :
    Accepted wFromBytes ∧ ¬ Writes (.swift mark) wFromBytes :=
  ⟨⟨10, rfl⟩, not_writes (m := "M") (v := .record [("FromBytes", .int 1)]) (bs := [1])
    (r := .error .illTyped) (encMsg_of_encode (by decide)) rfl nofun⟩

/-- Two enums, whose variables are called the same. -/
def wRead : Protocol := single [⟨"x", "E", false⟩, ⟨"xRead", "E", false⟩]
  (enums := [⟨"E", [("A", 0), ("B", 1)], .byte⟩])

theorem C11_fails_swift_locals (mark : List UInt8 → List UInt8) :
    Accepted wRead ∧ ¬ Reads (.swift mark) wRead :=
  ⟨⟨10, rfl⟩, not_reads (m := "M") (v := .record [("x", .int 1), ("xRead", .int 0)]) (bs := [1, 0])
    (r := .error .illTyped) (encMsg_of_encode (by decide)) (by decide) rfl nofun⟩

theorem bom_valid : ValidUtf8 [0xEF, 0xBB, 0xBF, 65] := ⟨['\uFEFF', 'A'], by decide⟩

/-- If the runtime drops a byte order mark, then text beginning with one is not read back. -/
theorem C11_fails_swift_mark : Accepted wText ∧ ¬ Reads (.swift (List.drop 3)) wText :=
  ⟨⟨10, rfl⟩, not_reads (r := .ok (.record [("x", .str [65])], 6)) (wText_enc (by decide) bom_valid) (by decide)
    rfl nofun⟩

/-- Lengths of text that can be negative. -/
def wSignedText : Protocol := single [⟨"x", "string", false⟩] (stringSize := .int16)
/-- Lengths of lists that can be negative. -/
def wSignedList : Protocol := single [⟨"x", "uint16", true⟩] (listSize := .int16)

theorem C16_fails_signed_text (l : Language) (hl : match l with | .typescript _ | .zig => False | _ => True) :
    Accepted wSignedText ∧ ¬ ReadsSafely l wSignedText := by
  refine ⟨⟨10, rfl⟩, fun h => h "M" [255, 255] 0 (by decide) (by decide) ?_⟩
  cases l with
  | typescript _ => exact hl.elim
  | zig => exact hl.elim
  | go b => cases b <;> rfl
  | rust b => cases b <;> rfl
  | _ => rfl

theorem C16_fails_signed_list (l : Language)
    (hl : match l with | .swift _ | .assemblyscript _ | .go _ => True | _ => False) :
    Accepted wSignedList ∧ ¬ ReadsSafely l wSignedList := by
  refine ⟨⟨10, rfl⟩, fun h => h "M" [255, 255] 0 (by decide) (by decide) ?_⟩
  cases l with
  | swift _ => rfl
  | assemblyscript _ => rfl
  | go b => cases b <;> rfl
  | _ => exact hl.elim

/-- A negative list length is an empty list in C# and Rust. -/
theorem C16_negative_length_accepted (l : Language)
    (hl : match l with | .csharp _ | .rust _ => True | _ => False) :
    Accepted wSignedList ∧
    (l.library wSignedList).read "M" [255, 255] 0 = .ok (.record [("x", .list [])], 2) := by
  refine ⟨⟨10, rfl⟩, ?_⟩
  cases l with
  | csharp _ => rfl
  | rust b => cases b <;> rfl
  | _ => exact hl.elim

/-- Unpacking crashes if the data is too short for a header: in all languages but Rust, TypeScript,
and C#, where it crashes if the header is not followed by a count. -/
theorem C24_fails_short (l : Language) (hl : match l with | .rust _ | .typescript _ => False | _ => True) :
    Accepted wByte ∧ ¬ UnpacksSafely l wByte := by
  refine ⟨⟨10, rfl⟩, fun h => ?_⟩
  have h0 := h [] 0 (by decide) (by decide)
  cases l with
  | rust _ => exact hl.elim
  | typescript _ => exact hl.elim
  | csharp _ => exact h [66, 83, 67, 73] 0 (by decide) (by decide) rfl
  | go b => exact h0 (by cases b <;> rfl)
  | _ => exact h0 rfl

/-! ### TypeScript -/

theorem C10_fails_typescript_method (lossy : List UInt8 → List UInt8) :
    Accepted wWriteBytes ∧ ¬ Writes (.typescript lossy) wWriteBytes :=
  ⟨⟨10, rfl⟩, not_writes (m := "M") (v := .record [("writeBytes", .int 1)]) (bs := [1])
    (r := .error .illTyped) (encMsg_of_encode (by decide)) rfl nofun⟩

/-- A message and a list whose variables are called the same. -/
def wList : Protocol := { single [] with
  messages := [⟨"X_Length", [⟨"nX", "uint16", true⟩], true⟩] }

theorem C11_fails_typescript_locals (lossy : List UInt8 → List UInt8) :
    Accepted wList ∧ ¬ Reads (.typescript lossy) wList :=
  ⟨⟨10, rfl⟩, not_reads (m := "X_Length") (v := .record [("nX", .list [])]) (bs := [0, 0])
    (r := .error .illTyped) (encMsg_of_encode (by decide)) (by decide) rfl nofun⟩

/-- Lists called the same inside one another. -/
def wNested : Protocol := single [⟨"x", "S", true⟩] (structs := [⟨"S", [⟨"x", "string", true⟩], false⟩])

theorem C13_fails_typescript (lossy : List UInt8 → List UInt8) :
    Accepted wNested ∧ ¬ Measures (.typescript lossy) wNested :=
  ⟨⟨10, rfl⟩, not_measures (m := "M") (v := .record [("x", .list [.record [("x", .list [.str [65]])]])])
    (bs := [1, 0, 1, 0, 1, 0, 65]) (r := .error .crash) (encMsg_of_encode (by decide)) rfl nofun⟩

theorem C32_fails_typescript (lossy : List UInt8 → List UInt8) :
    Accepted wLong ∧ ¬ Writes (.typescript lossy) wLong ∧ ¬ Reads (.typescript lossy) wLong :=
  ⟨⟨10, rfl⟩,
    not_writes (m := "M") (v := .record [("x", .list [.int 1])])
      (bs := [1, 0, 0, 0, 0, 0, 0, 0, 1, 0]) (r := .error .illTyped)
      (encMsg_of_encode (by decide)) rfl nofun,
    not_reads (m := "M") (v := .record [("x", .list [.int 1])])
      (bs := [1, 0, 0, 0, 0, 0, 0, 0, 1, 0]) (r := .error .illTyped)
      (encMsg_of_encode (by decide)) (by decide) rfl nofun⟩

/-- A struct called like a type of the language. -/
def wBigint : Protocol := single [⟨"x", "bigint", false⟩]
  (structs := [⟨"bigint", [⟨"a", "byte", false⟩], false⟩])

theorem C25_fails_typescript (lossy : List UInt8 → List UInt8) :
    Accepted wBigint ∧ ¬ Creates (.typescript lossy) wBigint := by
  refine ⟨⟨10, rfl⟩, fun h => ?_⟩
  obtain ⟨fs, -, hf⟩ := h wBigint.messages[0] (by decide)
  exact nomatch (hf : Except.error Fail.illTyped = _)

/-- A byte order mark is dropped. -/
theorem C11_fails_typescript_mark (lossy : List UInt8 → List UInt8) :
    Accepted wText ∧ ¬ Reads (.typescript lossy) wText :=
  ⟨⟨10, rfl⟩, not_reads (r := .ok (.record [("x", .str [65])], 6)) (wText_enc (by decide) bom_valid) (by decide)
    rfl nofun⟩

/-! ### AssemblyScript -/

theorem C10_fails_assemblyscript_method (lossy : List UInt8 → List UInt8) :
    Accepted wWriteBytes ∧ ¬ Writes (.assemblyscript lossy) wWriteBytes :=
  ⟨⟨10, rfl⟩, not_writes (m := "M") (v := .record [("writeBytes", .int 1)]) (bs := [1])
    (r := .error .illTyped) (encMsg_of_encode (by decide)) rfl nofun⟩

theorem C11_fails_assemblyscript_locals (lossy : List UInt8 → List UInt8) :
    Accepted wList ∧ ¬ Reads (.assemblyscript lossy) wList :=
  ⟨⟨10, rfl⟩, not_reads (m := "X_Length") (v := .record [("nX", .list [])]) (bs := [0, 0])
    (r := .error .illTyped) (encMsg_of_encode (by decide)) (by decide) rfl nofun⟩

theorem C13_fails_assemblyscript (lossy : List UInt8 → List UInt8) :
    Accepted wNested ∧ ¬ Measures (.assemblyscript lossy) wNested :=
  ⟨⟨10, rfl⟩, not_measures (m := "M") (v := .record [("x", .list [.record [("x", .list [.str [65]])]])])
    (bs := [1, 0, 1, 0, 1, 0, 65]) (r := .error .crash) (encMsg_of_encode (by decide)) rfl nofun⟩

theorem C32_fails_assemblyscript (lossy : List UInt8 → List UInt8) :
    Accepted wLong ∧ ¬ Reads (.assemblyscript lossy) wLong :=
  ⟨⟨10, rfl⟩, not_reads (m := "M") (v := .record [("x", .list [.int 1])])
      (bs := [1, 0, 0, 0, 0, 0, 0, 0, 1, 0]) (r := .error .illTyped)
      (encMsg_of_encode (by decide)) (by decide) rfl nofun⟩

theorem C25_fails_assemblyscript (lossy : List UInt8 → List UInt8) :
    Accepted wBigint ∧ ¬ Creates (.assemblyscript lossy) wBigint := by
  refine ⟨⟨10, rfl⟩, fun h => ?_⟩
  obtain ⟨fs, -, hf⟩ := h wBigint.messages[0] (by decide)
  exact nomatch (hf : Except.error Fail.illTyped = _)

/-- An enum whose last value is not the largest. -/
def wUnsorted : Protocol := single [⟨"x", "E", false⟩] (enums := [⟨"E", [("A", 5), ("B", 1)], .byte⟩])

/-- The declared value 5 is read as 2, which is not declared. -/
theorem C18_fails_assemblyscript_unsorted (lossy : List UInt8 → List UInt8) :
    Accepted wUnsorted ∧ EncMsg wUnsorted "M" (.record [("x", .int 5)]) [5] ∧
    ((Language.assemblyscript lossy).library wUnsorted).read "M" [5] 0 = .ok (.record [("x", .int 2)], 1) :=
  ⟨⟨10, rfl⟩, encMsg_of_encode (by decide), rfl⟩

/-- An enum with the largest value possible. -/
def wLargest : Protocol := single [⟨"x", "E", false⟩] (enums := [⟨"E", [("A", 0), ("B", 255)], .byte⟩])

/-- The declared value 255 is read as 0. -/
theorem C18_fails_assemblyscript_largest (lossy : List UInt8 → List UInt8) :
    Accepted wLargest ∧ EncMsg wLargest "M" (.record [("x", .int 255)]) [255] ∧
    ((Language.assemblyscript lossy).library wLargest).read "M" [255] 0 = .ok (.record [("x", .int 0)], 1) :=
  ⟨⟨10, rfl⟩, encMsg_of_encode (by decide), rfl⟩

/-- An enum value called like the generated one. -/
def wUnknown : Protocol := single [⟨"x", "E", false⟩] (enums := [⟨"E", [("_Unknown", 0), ("B", 1)], .byte⟩])

theorem C11_fails_assemblyscript_unknown (lossy : List UInt8 → List UInt8) :
    Accepted wUnknown ∧ ¬ Reads (.assemblyscript lossy) wUnknown :=
  ⟨⟨10, rfl⟩, not_reads (m := "M") (v := .record [("x", .int 1)]) (bs := [1])
      (r := .error .illTyped) (encMsg_of_encode (by decide)) (by decide) rfl nofun⟩

theorem C17_fails_assemblyscript (lossy : List UInt8 → List UInt8) :
    Accepted wEnum ∧ ¬ RefusesUndeclared (.assemblyscript lossy) wEnum := by
  refine ⟨⟨10, rfl⟩, fun h => ?_⟩
  obtain ⟨e, he⟩ := h "M" _ _ wEnum_dec wEnum_undeclared (by decide)
  exact nomatch (he : Except.ok (Val.record [("x", .record [("a", .int 2)])], 1) = _)

/-- A stream of an unknown message is an empty stream. -/
theorem C21_fails_assemblyscript (lossy : List UInt8 → List UInt8) :
    Accepted wByte ∧ ¬ ReportsUnknown (.assemblyscript lossy) wByte := by
  refine ⟨⟨10, rfl⟩, fun h => ?_⟩
  obtain ⟨e, he⟩ := h 2 [] (by decide) (by decide) (by decide)
  exact nomatch (he : Except.ok ([], 0) = _)

/-- The packed form of one small message, 11 bytes, is too short. -/
theorem C22_fails_assemblyscript (lossy : List UInt8 → List UInt8) :
    Accepted wByte ∧ ¬ Unpacks (.assemblyscript lossy) wByte := by
  have ha : Accepted wByte := ⟨10, rfl⟩
  refine ⟨ha, fun h => ?_⟩
  obtain ⟨bs, h1, h2⟩ := h [("M", .record [("x", .int 5)])] (by
    intro x hx
    cases List.mem_singleton.1 hx
    exact (isMessage_iff (usable_of_loads ha)).2 ⟨_, encMsg_of_encode (bs := [5]) (by decide)⟩)
  have h3 : bytes (((Language.assemblyscript lossy).library wByte).pack
      (seenAll (.assemblyscript lossy) [("M", .record [("x", .int 5)])])) =
      .ok [66, 83, 67, 73, 1, 0, 0, 0, 1, 5, 0] := by with_unfolding_all rfl
  cases h3.symm.trans h1
  exact nomatch (h2 (by decide) : Except.error Fail.crash = _)

/-! ### Zig -/

/-- No message. -/
def wNone : Protocol := { single [] with messages := [] }

/-- Without messages even the empty stream is not processed: the generated code does not compile. -/
theorem C20_fails_zig : Accepted wNone ∧ (Language.zig.library wNone).process [] 0 (-1) = .error .illTyped :=
  ⟨⟨10, rfl⟩, rfl⟩

/-- A member called like a function. -/
theorem C10_fails_zig_method : Accepted wWriteBytes ∧ ¬ Writes .zig wWriteBytes :=
  ⟨⟨10, rfl⟩, not_writes (m := "M") (v := .record [("writeBytes", .int 1)]) (bs := [1])
    (r := .error .illTyped) (encMsg_of_encode (by decide)) rfl nofun⟩

/-- A message called like a local variable. -/
def wValue : Protocol := { single [] with messages := [⟨"value", [⟨"x", "byte", false⟩], true⟩] }

theorem C10_fails_zig_file : Accepted wValue ∧ ¬ Writes .zig wValue :=
  ⟨⟨10, rfl⟩, not_writes (m := "value") (v := .record [("x", .int 1)]) (bs := [1])
    (r := .error .illTyped) (encMsg_of_encode (by decide)) rfl nofun⟩

/-- A message called like a function of the union of all messages. -/
def wUnion : Protocol := { single [] with messages := [⟨"getSizeInBytes", [⟨"x", "byte", false⟩], true⟩] }

theorem C10_fails_zig_union : Accepted wUnion ∧ ¬ Writes .zig wUnion :=
  ⟨⟨10, rfl⟩, not_writes (m := "getSizeInBytes") (v := .record [("x", .int 1)]) (bs := [1])
    (r := .error .illTyped) (encMsg_of_encode (by decide)) rfl nofun⟩

/-- A member whose variable is called like another one's. -/
def wVariables : Protocol := single [⟨"x", "string", false⟩, ⟨"x_read", "string", false⟩]

theorem C11_fails_zig_locals : Accepted wVariables ∧ ¬ Reads .zig wVariables :=
  ⟨⟨10, rfl⟩, not_reads (m := "M") (v := .record [("x", .str [65]), ("x_read", .str [66])]) (bs := [1, 0, 65, 1, 0, 66])
    (r := .error .illTyped) (encMsg_of_encode (by decide)) (by decide) rfl nofun⟩

/-- A struct in a message of fixed size. -/
theorem C11_fails_zig_flat : Accepted wFixed ∧ ¬ Reads .zig wFixed :=
  ⟨⟨10, rfl⟩, not_reads (m := "M") (v := .record [("x", .record [("a", .int 1), ("b", .int 2)]), ("y", .int 3)]) (bs := [1, 2, 3])
    (r := .error .illTyped) (encMsg_of_encode (by decide)) (by decide) rfl nofun⟩

/-- An enum in a struct of fixed size. -/
def wFixedEnum : Protocol := single [⟨"x", "S", false⟩, ⟨"y", "string", false⟩]
  (structs := [⟨"S", [⟨"a", "byte", false⟩, ⟨"b", "E", false⟩], false⟩])
  (enums := [⟨"E", [("A", 0), ("B", 1)], .byte⟩])

/-- The enum is written as zero. -/
theorem C10_fails_zig_enum : Accepted wFixedEnum ∧ ¬ Writes .zig wFixedEnum :=
  ⟨⟨10, rfl⟩, not_writes (m := "M")
    (v := .record [("x", .record [("a", .int 1), ("b", .int 1)]), ("y", .str [])]) (bs := [1, 1, 0, 0])
    (r := .ok [1, 0, 0, 0]) (encMsg_of_encode (by decide)) rfl nofun⟩

/-- A struct in a struct of fixed size. -/
def wFixedStruct : Protocol := single [⟨"x", "T", false⟩, ⟨"y", "string", false⟩]
  (structs := [⟨"S", [⟨"a", "byte", false⟩], false⟩, ⟨"T", [⟨"s", "S", false⟩], false⟩])

theorem C10_fails_zig_struct : Accepted wFixedStruct ∧ ¬ Writes .zig wFixedStruct :=
  ⟨⟨10, rfl⟩, not_writes (m := "M") (v := .record [("x", .record [("s", .record [("a", .int 1)])]), ("y", .str [])]) (bs := [1, 0, 0])
    (r := .error .illTyped) (encMsg_of_encode (by decide)) rfl nofun⟩

/-- A struct without members. -/
def wEmpty : Protocol := single [⟨"x", "S", false⟩, ⟨"y", "string", false⟩] (structs := [⟨"S", [], false⟩])

theorem C10_fails_zig_empty : Accepted wEmpty ∧ ¬ Writes .zig wEmpty :=
  ⟨⟨10, rfl⟩, not_writes (m := "M") (v := .record [("x", .record []), ("y", .str [])]) (bs := [0, 0])
    (r := .error .illTyped) (encMsg_of_encode (by decide)) rfl nofun⟩

/-- Lengths of lists and texts that differ. -/
def wMixed : Protocol := single [⟨"x", "string", false⟩] (listSize := .byte) (stringSize := .uint16)

/-- Lengths of texts are written like lengths of lists. -/
theorem C32_fails_zig_mixed : Accepted wMixed ∧ ¬ Writes .zig wMixed :=
  ⟨⟨10, rfl⟩, not_writes (m := "M") (v := .record [("x", .str [65])]) (bs := [1, 0, 65])
    (r := .ok [1, 65]) (encMsg_of_encode (by decide)) rfl nofun⟩

/-- Lengths that can be negative. -/
def wSigned : Protocol := single [⟨"x", "string", false⟩] (listSize := .int16) (stringSize := .int16)

theorem C32_fails_zig_signed : Accepted wSigned ∧ ¬ Reads .zig wSigned :=
  ⟨⟨10, rfl⟩, not_reads (m := "M") (v := .record [("x", .str [65])]) (bs := [1, 0, 65])
    (r := .error .illTyped) (encMsg_of_encode (by decide)) (by decide) rfl nofun⟩

/-- Lengths of one byte. -/
def wShort : Protocol := single [⟨"x", "string", false⟩] (listSize := .byte) (stringSize := .byte)

set_option maxRecDepth 20000 in
theorem wShort_enc : EncMsg wShort "M" (.record [("x", .str (List.replicate 255 65))])
    (255 :: List.replicate 255 65) :=
  encMsg_of_encode (by decide)

set_option maxRecDepth 20000 in
/-- Reading a text of maximal length crashes. -/
theorem C11_fails_zig_long : Accepted wShort ∧ ¬ Reads .zig wShort :=
  ⟨⟨10, rfl⟩, not_reads wShort_enc (by decide) (r := .error .crash) rfl nofun⟩

set_option maxRecDepth 20000 in
theorem C16_fails_zig : Accepted wShort ∧ ¬ ReadsSafely .zig wShort :=
  ⟨⟨10, rfl⟩, fun h => h "M" (255 :: List.replicate 255 65) 0 (by decide) (by decide) rfl⟩

/-! ### C -/

/-- A message called like a function of another one. -/
def wCreate : Protocol := { single [] with messages :=
  [⟨"M", [⟨"x", "byte", false⟩], true⟩, ⟨"M_Create", [⟨"x", "byte", false⟩], true⟩] }

theorem C10_fails_c_file : Accepted wCreate ∧ ¬ Writes .c wCreate :=
  ⟨⟨10, rfl⟩, not_writes (m := "M") (v := .record [("x", .int 1)]) (bs := [1])
    (r := .error .illTyped) (encMsg_of_encode (by decide)) rfl nofun⟩

/-- A member called like the length of another one. -/
theorem C10_fails_c_fields : Accepted wLength ∧ ¬ Writes .c wLength :=
  ⟨⟨10, rfl⟩, not_writes (m := "M") (v := .record [("x_len", .int 7), ("x", .list [.int 2, .int 3])]) (bs := [7, 0, 2, 0, 2, 0, 3, 0])
    (r := .error .illTyped) (encMsg_of_encode (by decide)) rfl nofun⟩

/-- A struct that is used before it is declared. -/
def wOrder : Protocol := single [⟨"x", "T", false⟩]
  (structs := [⟨"T", [⟨"s", "S", false⟩], false⟩, ⟨"S", [⟨"a", "byte", false⟩], false⟩])

theorem C10_fails_c_order : Accepted wOrder ∧ ¬ Writes .c wOrder :=
  ⟨⟨10, rfl⟩, not_writes (m := "M") (v := .record [("x", .record [("s", .record [("a", .int 1)])])]) (bs := [1])
    (r := .error .illTyped) (encMsg_of_encode (by decide)) rfl nofun⟩

/-- A list of texts, with lengths of lists and texts that differ. -/
def wMixedList : Protocol := single [⟨"x", "string", true⟩] (listSize := .byte) (stringSize := .uint16)

theorem C32_fails_c : Accepted wMixedList ∧ ¬ Writes .c wMixedList :=
  ⟨⟨10, rfl⟩, not_writes (m := "M") (v := .record [("x", .list [.str [65]])]) (bs := [1, 1, 0, 65])
    (r := .error .illTyped) (encMsg_of_encode (by decide)) rfl nofun⟩

end Beschi.Props
