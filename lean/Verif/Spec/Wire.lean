import Verif.Spec.WellFormed
/-
Specification of the wire format (docs/protocols.md, docs/dev_notes and the observable behaviour
described in the README).  Nothing here mentions a generator, a backend or a loader function.
-/
namespace Beschi.Spec

/-- A value of some protocol type.  Floating point numbers are given by their IEEE bit pattern,
text by its UTF-8 bytes, structs and messages by their members in order. -/
inductive Val where
  | int (i : Int)
  | bool (b : Bool)
  | bits (w : Nat)
  | str (bytes : List UInt8)
  | list (items : List Val)
  | record (fields : List (String × Val))
  deriving Inhabited

/-- Range of the integer types; `False` for the other number types. -/
def IntRange : NumTy → Int → Prop
  | .byte, i => 0 ≤ i ∧ i ≤ 255
  | .uint16, i => 0 ≤ i ∧ i ≤ 65535
  | .int16, i => -32768 ≤ i ∧ i ≤ 32767
  | .uint32, i => 0 ≤ i ∧ i ≤ 4294967295
  | .int32, i => -2147483648 ≤ i ∧ i ≤ 2147483647
  | .uint64, i => 0 ≤ i ∧ i ≤ 18446744073709551615
  | .int64, i => -9223372036854775808 ≤ i ∧ i ≤ 9223372036854775807
  | .bool, _ => False
  | .float, _ => False
  | .double, _ => False

/-- The `k` low bytes of `i` in two's complement, lowest byte first: byte `j` is
`floor(i / 256^j) mod 256`. -/
def littleEndian (k : Nat) (i : Int) : List UInt8 :=
  (List.range k).map fun j => UInt8.ofNat ((i / 256 ^ j) % 256).toNat

/-- A number and its bytes, as written. -/
inductive EncNum : NumTy → Val → List UInt8 → Prop
  | int {n i} : IntRange n i → EncNum n (.int i) (littleEndian (width n) i)
  | true : EncNum .bool (.bool true) [1]
  | false : EncNum .bool (.bool false) [0]
  | float {w : Nat} : w < 2 ^ 32 → EncNum .float (.bits w) (littleEndian 4 w)
  | double {w : Nat} : w < 2 ^ 64 → EncNum .double (.bits w) (littleEndian 8 w)

/-- A number and bytes it is read from: as written, except that any non-zero byte is `true`. -/
inductive DecNum : NumTy → Val → List UInt8 → Prop
  | written {n v bs} : EncNum n v bs → DecNum n v bs
  | truthy {b : UInt8} : b ≠ 0 → DecNum .bool (.bool true) [b]

/-- Well-formed UTF-8. -/
def ValidUtf8 (bs : List UInt8) : Prop := ∃ cs : List Char, cs.flatMap String.utf8EncodeChar = bs

/-- What numbers, text and enums look like on the wire: `num n v bs` - the number `v` of type `n` is
laid out as `bs`; `text bs s` - the bytes `bs` after a text's length prefix stand for the text `s`;
`enum e i j` - the number `i` on the wire stands for the value `j` of the enum `e`. -/
structure Atoms where
  num : NumTy → Val → List UInt8 → Prop
  text : List UInt8 → List UInt8 → Prop
  enum : Enum → Int → Int → Prop

/-- An enum's value stands for itself, and must be one of those declared. -/
def Declared (e : Enum) (i j : Int) : Prop := j = i ∧ ∃ x, (x, i) ∈ e.values

mutual
/-- `Layout A p t v bs`: the bytes `bs` are a value `v` of the (non-list) type named `t`. -/
inductive Layout (A : Atoms) (p : Protocol) : String → Val → List UInt8 → Prop
  | num {n v bs} : A.num n v bs → Layout A p n.name v bs
  | text {s len bs} : A.num p.stringSize (.int bs.length) len → A.text bs s →
      Layout A p "string" (.str s) (len ++ bs)
  | enum {e i j bs} : e ∈ p.enums → A.enum e i j → A.num e.encoding (.int i) bs →
      Layout A p e.name (.int j) bs
  | struct {s fs bs} : s ∈ p.structs → LayoutFields A p s.members fs bs →
      Layout A p s.name (.record fs) bs

/-- The elements of a list, one after the other. -/
inductive LayoutItems (A : Atoms) (p : Protocol) : String → List Val → List UInt8 → Prop
  | nil {t} : LayoutItems A p t [] []
  | cons {t v vs a b} : Layout A p t v a → LayoutItems A p t vs b →
      LayoutItems A p t (v :: vs) (a ++ b)

/-- The members of a struct or message in declaration order; a list member is its length followed
by its elements. -/
inductive LayoutFields (A : Atoms) (p : Protocol) :
    List Variable → List (String × Val) → List UInt8 → Prop
  | nil : LayoutFields A p [] [] []
  | one {m ms v fs a b} : m.isList = false → Layout A p m.vartype v a → LayoutFields A p ms fs b →
      LayoutFields A p (m :: ms) ((m.name, v) :: fs) (a ++ b)
  | list {m ms vs fs len a b} : m.isList = true → A.num p.listSize (.int vs.length) len →
      LayoutItems A p m.vartype vs a → LayoutFields A p ms fs b →
      LayoutFields A p (m :: ms) ((m.name, .list vs) :: fs) (len ++ a ++ b)
end

/-- As written: exact numbers, valid text, declared enum values. -/
def written : Atoms where
  num := EncNum
  text bs s := bs = s ∧ ValidUtf8 bs
  enum := Declared

/-- As accepted by a reader whose treatment of text is `R`: any non-zero byte is `true`. -/
def readableBy (R : List UInt8 → List UInt8 → Prop) : Atoms where
  num := DecNum
  text := R
  enum := Declared

/-- As accepted by a reader that looks neither at text nor at enums. -/
def readableRaw : Atoms where
  num := DecNum
  text bs s := bs = s
  enum _ i j := j = i

/-- The bytes of a value of the type named `t`. -/
abbrev Enc (p : Protocol) : String → Val → List UInt8 → Prop := Layout written p

/-- The bytes of (the body of) a message named `m`. -/
def EncMsg (p : Protocol) (m : String) (v : Val) (bs : List UInt8) : Prop :=
  ∃ d fs, d ∈ p.messages ∧ d.name = m ∧ v = .record fs ∧ LayoutFields written p d.members fs bs

/-- Bytes from which (the body of) a message named `m` can be read. -/
def DecMsg (A : Atoms) (p : Protocol) (m : String) (v : Val) (bs : List UInt8) : Prop :=
  ∃ d fs, d ∈ p.messages ∧ d.name = m ∧ v = .record fs ∧ LayoutFields A p d.members fs bs

/-- A stream of tagged messages: for each message its number (1 for the first declared one) as one
byte, then its bytes. -/
inductive Stream (p : Protocol) : List (String × Val) → List UInt8 → Prop
  | nil : Stream p [] []
  | cons {pre post d v bs ms rest} : p.messages = pre ++ d :: post → EncMsg p d.name v bs →
      Stream p ms rest → Stream p ((d.name, v) :: ms) (UInt8.ofNat (pre.length + 1) :: bs ++ rest)

end Beschi.Spec
