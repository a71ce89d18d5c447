import Verif.Spec.Wire
import Mathlib.Tactic.Ring
import Mathlib.Tactic.NormNum
import Mathlib.Tactic.Positivity
import Mathlib.Tactic.Linarith
/-
Fixed-width little-endian numbers as the runtimes of the target languages write and read them
(`to_le_bytes`/`from_le_bytes`, `DataView.setInt16(.., true)`, `binary.Write(.., LittleEndian, ..)`,
`BinaryWriter.Write`, `std.mem.writeInt(.., .little)`, `memcpy` on a little-endian machine).
These runtimes are assumed to behave as defined here.
-/
namespace Beschi.Lang
open Spec

/-- Is the type a signed integer type? -/
def signed : NumTy → Bool
  | .int16 | .int32 | .int64 => true
  | _ => false

/-- Is the type an integer type (signed or not)? -/
def integral : NumTy → Bool
  | .bool | .float | .double => false
  | _ => true

/-- The `k` low bytes of an integer, lowest first, as obtained by repeated division by 256;
negative numbers give their two's complement form, larger numbers are truncated. -/
def leBytes : Nat → Int → List UInt8
  | 0, _ => []
  | k + 1, i => UInt8.ofNat (i % 256).toNat :: leBytes k (i / 256)

/-- The natural number with the given little-endian bytes. -/
def leNat : List UInt8 → Nat
  | [] => 0
  | b :: bs => b.toNat + 256 * leNat bs

/-- Two's complement reading of a `k`-byte pattern. -/
def toSigned (k : Nat) (n : Nat) : Int := if 2 ^ (8 * k - 1) ≤ n then (n : Int) - 2 ^ (8 * k) else n

/-- Bytes written for a value by the number type's native write; `none` if the value is not of
that kind (such code would not compile).  Integers out of range wrap around. -/
def toLE (n : NumTy) (v : Val) : Option (List UInt8) :=
  match v with
  | .int i => if integral n then some (leBytes n.size i) else none
  | .bool b => if n = .bool then some [if b then 1 else 0] else none
  | .bits w => if n = .float ∨ n = .double then some (leBytes n.size w) else none
  | _ => none

/-- Value read from the bytes by the number type's native read. -/
def fromLE (n : NumTy) (bs : List UInt8) : Val :=
  match n with
  | .bool => .bool (leNat bs != 0)
  | .float | .double => .bits (leNat bs)
  | _ => if signed n then .int (toSigned n.size (leNat bs)) else .int (leNat bs)

/-- Does the integer lie in the range of the type? -/
def inRange (n : NumTy) (i : Int) : Bool :=
  match n with
  | .bool | .float | .double => false
  | _ => if signed n then decide (-2 ^ (8 * n.size - 1) ≤ i) && decide (i < 2 ^ (8 * n.size - 1))
    else decide (0 ≤ i) && decide (i < 2 ^ (8 * n.size))

/-! ### Lemmas -/

theorem inRange_iff {n : NumTy} {i : Int} : inRange n i = true ↔ IntRange n i := by
  cases n <;> simp only [inRange, signed, if_true, if_false, Bool.false_eq_true, Bool.and_eq_true,
    decide_eq_true_eq, IntRange] <;> simp only [NumTy.size] <;> norm_num <;> omega

theorem leBytes_length (k : Nat) (i : Int) : (leBytes k i).length = k := by
  induction k generalizing i with
  | zero => rfl
  | succ k ih => simp [leBytes, ih]

theorem littleEndian_length (k : Nat) (i : Int) : (littleEndian k i).length = k := by
  simp [littleEndian]

theorem leBytes_eq (k : Nat) (i : Int) : leBytes k i = littleEndian k i := by
  induction k generalizing i with
  | zero => rfl
  | succ k ih =>
    simp only [leBytes, littleEndian, List.range_succ_eq_map, List.map_cons, List.map_map]
    rw [ih]
    congr 1
    · simp
    · unfold littleEndian
      apply List.map_congr_left
      intro j _
      simp only [Function.comp, Nat.succ_eq_add_one]
      rw [Int.ediv_ediv_of_nonneg (by omega), pow_succ']

theorem leNat_lt (bs : List UInt8) : leNat bs < 256 ^ bs.length := by
  induction bs with
  | nil => simp [leNat]
  | cons b bs ih =>
    simp only [leNat, List.length_cons, pow_succ]
    have := b.toNat_lt
    omega

theorem leNat_leBytes (k : Nat) (i : Int) : (leNat (leBytes k i) : Int) = i % 256 ^ k := by
  induction k generalizing i with
  | zero => simp [leBytes, leNat, Int.emod_one]
  | succ k ih =>
    simp only [leBytes, leNat]
    push_cast
    rw [ih]
    have h1 : 0 ≤ i % 256 := Int.emod_nonneg _ (by omega)
    have h2 : i % 256 < 256 := Int.emod_lt_of_pos _ (by omega)
    have : ((UInt8.ofNat (i % 256).toNat).toNat : Int) = i % 256 := by
      rw [UInt8.toNat_ofNat']
      have : (i % 256).toNat % 2 ^ 8 = (i % 256).toNat := Nat.mod_eq_of_lt (by omega)
      rw [this]; omega
    rw [this, pow_succ']
    have hM : (0 : Int) < 256 ^ k := by positivity
    have hb1 := Int.emod_nonneg (i / 256) (ne_of_gt hM)
    have hb2 := Int.emod_lt_of_pos (i / 256) hM
    have e : i = (i % 256 + 256 * (i / 256 % 256 ^ k)) + (256 * 256 ^ k) * (i / 256 / 256 ^ k) := by
      have e1 := Int.emod_add_mul_ediv i 256
      have e2 := Int.emod_add_mul_ediv (i / 256) (256 ^ k)
      calc i = i % 256 + 256 * (i / 256) := e1.symm
        _ = i % 256 + 256 * (i / 256 % 256 ^ k + 256 ^ k * (i / 256 / 256 ^ k)) := by rw [e2]
        _ = _ := by ring
    generalize hx : i % 256 + 256 * (i / 256 % 256 ^ k) = x at e
    rw [e, Int.add_mul_emod_self_left, Int.emod_eq_of_lt]
    · omega
    · have : 256 * (i / 256 % 256 ^ k) + 256 ≤ 256 * 256 ^ k := by
        have : i / 256 % 256 ^ k + 1 ≤ 256 ^ k := hb2
        nlinarith
      omega

theorem leBytes_leNat (bs : List UInt8) : leBytes bs.length (leNat bs) = bs := by
  induction bs with
  | nil => rfl
  | cons b bs ih =>
    simp only [List.length_cons, leBytes, leNat]
    have hb := b.toNat_lt
    have h1 : (((b.toNat + 256 * leNat bs : Nat) : Int) % 256).toNat = b.toNat := by omega
    have h2 : ((b.toNat + 256 * leNat bs : Nat) : Int) / 256 = (leNat bs : Int) := by omega
    rw [h1, h2, ih]
    simp

theorem leBytes_emod (k : Nat) (i j : Int) (h : i % 256 ^ k = j % 256 ^ k) :
    leBytes k i = leBytes k j := by
  have h1 := leNat_leBytes k i
  have h2 := leNat_leBytes k j
  rw [h] at h1
  have : leNat (leBytes k i) = leNat (leBytes k j) := by omega
  have a := leBytes_leNat (leBytes k i)
  have b := leBytes_leNat (leBytes k j)
  rw [leBytes_length] at a b
  rw [← a, ← b, this]

/-- The sizes the code uses are those of the documentation. -/
theorem width_eq (n : NumTy) : width n = n.size := by cases n <;> rfl

theorem encNum_length {n : NumTy} {v : Val} {bs : List UInt8} (h : EncNum n v bs) :
    bs.length = n.size := by
  cases h <;> simp [littleEndian_length, NumTy.size, width_eq]

theorem decNum_length {n : NumTy} {v : Val} {bs : List UInt8} (h : DecNum n v bs) :
    bs.length = n.size := by
  cases h with
  | written h => exact encNum_length h
  | truthy => rfl

/-- Writing a number of the right kind gives its specified bytes. -/
theorem toLE_of_enc {n : NumTy} {v : Val} {bs : List UInt8} (h : EncNum n v bs) :
    toLE n v = some bs := by
  cases h with
  | int hr =>
    simp only [toLE]
    rw [if_pos, leBytes_eq, width_eq]
    cases n <;> simp_all [IntRange, integral]
  | true => rfl
  | false => rfl
  | float => simp [toLE, leBytes_eq, NumTy.size]
  | double => simp [toLE, leBytes_eq, NumTy.size]

theorem leNat_of_range {k : Nat} {i : Int} (h1 : 0 ≤ i) (h2 : i < 256 ^ k) :
    (leNat (littleEndian k i) : Int) = i := by
  rw [← leBytes_eq, leNat_leBytes, Int.emod_eq_of_lt h1 h2]

theorem toSigned_of_range {k : Nat} {i : Int} (hk : 0 < k) (h1 : -2 ^ (8 * k - 1) ≤ i)
    (h2 : i < 2 ^ (8 * k - 1)) : toSigned k (leNat (littleEndian k i)) = i := by
  have e : (256 : Int) ^ k = 2 ^ (8 * k) := by
    rw [show (256 : Int) = 2 ^ 8 by norm_num, ← pow_mul]
  have e2 : (2 : Int) ^ (8 * k) = 2 * 2 ^ (8 * k - 1) := by
    rw [← pow_succ']; congr 1; omega
  have hpos : (0 : Int) < 2 ^ (8 * k - 1) := by positivity
  have hn := leNat_leBytes k i
  rw [leBytes_eq, e] at hn
  unfold toSigned
  by_cases hi : 0 ≤ i
  · rw [Int.emod_eq_of_lt hi (by omega)] at hn
    rw [if_neg, hn]
    intro hc
    have : ((2 ^ (8 * k - 1) : Nat) : Int) ≤ (leNat (littleEndian k i) : Int) := by exact_mod_cast hc
    push_cast at this
    omega
  · have : i % 2 ^ (8 * k) = i + 2 ^ (8 * k) := by
      rw [← Int.add_emod_right, Int.emod_eq_of_lt (by omega) (by omega)]
    rw [this] at hn
    rw [if_pos, hn]
    · omega
    · have : ((2 ^ (8 * k - 1) : Nat) : Int) ≤ (leNat (littleEndian k i) : Int) := by
        push_cast; omega
      exact_mod_cast this

/-- Reading the specified bytes of a number gives it back. -/
theorem fromLE_of_dec {n : NumTy} {v : Val} {bs : List UInt8} (h : DecNum n v bs) :
    fromLE n bs = v := by
  cases h with
  | truthy hb =>
    rename_i b
    have : b.toNat ≠ 0 := fun h => hb (by rw [← UInt8.toNat_inj]; simpa using h)
    simp only [fromLE, leNat, Nat.mul_zero, Nat.add_zero]
    rw [show (b.toNat != 0) = true from by simpa using this]
  | written h =>
    cases h with
    | int hr =>
      rename_i i
      cases n
      case byte => exact congrArg Val.int (leNat_of_range hr.1 (Int.lt_of_le_of_lt hr.2 (by norm_num [width])))
      case uint16 => exact congrArg Val.int (leNat_of_range hr.1 (Int.lt_of_le_of_lt hr.2 (by norm_num [width])))
      case uint32 => exact congrArg Val.int (leNat_of_range hr.1 (Int.lt_of_le_of_lt hr.2 (by norm_num [width])))
      case uint64 => exact congrArg Val.int (leNat_of_range hr.1 (Int.lt_of_le_of_lt hr.2 (by norm_num [width])))
      case int16 =>
        exact congrArg Val.int (toSigned_of_range (by decide) (Int.le_trans (by norm_num [NumTy.size]) hr.1)
          (Int.lt_of_le_of_lt hr.2 (by norm_num [NumTy.size])))
      case int32 =>
        exact congrArg Val.int (toSigned_of_range (by decide) (Int.le_trans (by norm_num [NumTy.size]) hr.1)
          (Int.lt_of_le_of_lt hr.2 (by norm_num [NumTy.size])))
      case int64 =>
        exact congrArg Val.int (toSigned_of_range (by decide) (Int.le_trans (by norm_num [NumTy.size]) hr.1)
          (Int.lt_of_le_of_lt hr.2 (by norm_num [NumTy.size])))
      all_goals exact absurd hr id
    | true => rfl
    | false => rfl
    | float hw =>
      rename_i w
      simp only [fromLE]
      congr 1
      have := leNat_of_range (k := 4) (i := (w : Int)) (by omega) (by norm_num at hw ⊢; omega)
      exact_mod_cast this
    | double hw =>
      rename_i w
      simp only [fromLE]
      congr 1
      have := leNat_of_range (k := 8) (i := (w : Int)) (by omega) (by norm_num at hw ⊢; omega)
      exact_mod_cast this

/-- Every byte pattern of the right width is read as a number of the type. -/
theorem dec_fromLE {n : NumTy} {bs : List UInt8} (h : bs.length = n.size) :
    DecNum n (fromLE n bs) bs := by
  have hlt := leNat_lt bs
  rw [h] at hlt
  have hb := leBytes_leNat bs
  rw [leBytes_eq, h] at hb
  have key : ∀ i : Int, fromLE n bs = .int i → IntRange n i → littleEndian n.size i = bs →
      DecNum n (fromLE n bs) bs := by
    intro i h1 h2 h3
    rw [h1]
    have := EncNum.int h2
    rw [width_eq, h3] at this
    exact .written this
  have hs : ∀ k, n.size = k → 0 < k → littleEndian k (toSigned k (leNat bs)) = bs := by
    intro k hk _
    rw [← hk]
    refine Eq.trans ?_ hb
    rw [← leBytes_eq, ← leBytes_eq]
    apply leBytes_emod
    unfold toSigned
    have e : (256 : Int) ^ n.size = 2 ^ (8 * n.size) := by
      rw [show (256 : Int) = 2 ^ 8 by norm_num, ← pow_mul]
    split
    · rw [e, Int.sub_emod_right]
    · rfl
  cases n <;> simp only [NumTy.size] at hlt h hb hs <;> norm_num at hlt
  case bool =>
    match bs, h with
    | [b], _ =>
      by_cases hb0 : b = 0
      · subst hb0; exact .written .false
      · have : b.toNat ≠ 0 := fun h => hb0 (by rw [← UInt8.toNat_inj]; simpa using h)
        have : fromLE .bool [b] = .bool true := by
          simp only [fromLE, leNat, Nat.mul_zero, Nat.add_zero]
          rw [show (b.toNat != 0) = true from by simpa using this]
        rw [this]
        exact .truthy hb0
  case float =>
    have := EncNum.float (w := leNat bs) (by norm_num; exact hlt)
    rw [hb] at this
    exact .written this
  case double =>
    have := EncNum.double (w := leNat bs) (by norm_num; exact hlt)
    rw [hb] at this
    exact .written this
  all_goals first
    | exact key _ rfl (by simp only [IntRange]; omega) hb
    | refine key _ rfl ?_ (hs _ rfl (by decide))
      simp only [IntRange, toSigned, NumTy.size]
      norm_num
      constructor <;> split <;> omega

theorem decNum_functional {n : NumTy} {v v' : Val} {bs : List UInt8} (h : DecNum n v bs)
    (h' : DecNum n v' bs) : v = v' := by rw [← fromLE_of_dec h, fromLE_of_dec h']

end Beschi.Lang
