import Mathlib.Data.Int.Bitwise
import Mathlib.Data.Nat.Bitwise
import Verif.Model.Ctypes

/-! Helper lemmas: Python `&` with an all-ones mask is reduction modulo a power of two. -/

namespace PT

theorem ldiff_mask (k m : Nat) : Nat.ldiff (2 ^ k - 1) m = 2 ^ k - (m % 2 ^ k + 1) := by
  apply Nat.eq_of_testBit_eq
  intro i
  have hm : m % 2 ^ k < 2 ^ k := Nat.mod_lt _ (Nat.two_pow_pos k)
  rw [Nat.testBit_ldiff, Nat.testBit_two_pow_sub_succ hm, Nat.testBit_two_pow_sub_one,
    Nat.testBit_mod_two_pow]
  by_cases h : i < k <;> simp [h]

theorem land_mask (v : Int) (k : Nat) : Int.land v ((2 ^ k - 1 : Nat) : Int) = v % (2 ^ k : Int) := by
  have hpow : ((2 ^ k : Nat) : Int) = (2 ^ k : Int) := by push_cast; rfl
  have hpos := Nat.two_pow_pos k
  cases v with
  | ofNat a =>
    show Int.ofNat (a &&& (2 ^ k - 1)) = _
    rw [Nat.and_two_pow_sub_one_eq_mod, ← hpow]
    simp
  | negSucc m =>
    show Int.ofNat (Nat.ldiff (2 ^ k - 1) m) = _
    rw [ldiff_mask, ← hpow]
    have hm : m % 2 ^ k < 2 ^ k := Nat.mod_lt _ hpos
    rw [Int.emod_negSucc]
    simp only [Int.natAbs_natCast, Int.ofNat_eq_natCast, Int.subNatNat_eq_coe]
    omega

theorem land_ofNat (a b : Nat) : Int.land (a : Int) (b : Int) = ((a &&& b : Nat) : Int) := rfl

/-- Testing the sign bit of a value that fits `k+1` bits. -/
theorem land_top_bit (v : Int) (k : Nat) (h0 : 0 ≤ v) (h1 : v < 2 ^ (k + 1)) :
    Int.land v ((2 ^ k : Nat) : Int) ≠ 0 ↔ 2 ^ k ≤ v := by
  obtain ⟨a, rfl⟩ := Int.eq_ofNat_of_zero_le h0
  rw [land_ofNat, Nat.and_two_pow]
  have ha : a < 2 ^ (k + 1) := by exact_mod_cast h1
  have hpos := Nat.two_pow_pos k
  have : a.testBit k = decide (2 ^ k ≤ a) := by
    rw [Nat.testBit_eq_decide_div_mod_eq]
    congr 1
    rw [Nat.pow_succ] at ha
    apply propext
    constructor
    · intro h
      by_contra hc
      have : a / 2 ^ k = 0 := Nat.div_eq_of_lt (by omega)
      omega
    · intro h
      have h1 : 1 ≤ a / 2 ^ k := (Nat.le_div_iff_mul_le hpos).2 (by omega)
      have h2 : a / 2 ^ k < 2 := (Nat.div_lt_iff_lt_mul hpos).2 (by omega)
      omega
  rw [this]
  have h2 : ((2:Int) ^ k ≤ (a : Int)) ↔ 2 ^ k ≤ a := by exact_mod_cast Iff.rfl
  rw [h2]
  by_cases h : 2 ^ k ≤ a <;> simp [h]

theorem int2uint64_eq (v : Int) : int2uint64 v = v % 2 ^ 64 := land_mask v 64
theorem int2uint32_eq (v : Int) : int2uint32 v = v % 2 ^ 32 := land_mask v 32
theorem truncateWord64_eq (v : Int) : truncateWord64 v = v % 2 ^ 64 := land_mask v 64
theorem truncateWord32_eq (v : Int) : truncateWord32 v = v % 2 ^ 32 := land_mask v 32

theorem uint2int64_eq (v : Int) :
    uint2int64 v = if 2 ^ 63 ≤ v % 2 ^ 64 then v % 2 ^ 64 - 2 ^ 64 else v % 2 ^ 64 := by
  have h : Int.land v 18446744073709551615 = v % 2 ^ 64 := land_mask v 64
  have hb : Int.land (v % 2 ^ 64) 9223372036854775808 ≠ 0 ↔ 2 ^ 63 ≤ v % 2 ^ 64 :=
    land_top_bit (v % 2 ^ 64) 63 (by omega) (by omega)
  simp only [uint2int64, h, hb]
  rfl

theorem uint2int32_eq (v : Int) :
    uint2int32 v = if 2 ^ 31 ≤ v % 2 ^ 32 then v % 2 ^ 32 - 2 ^ 32 else v % 2 ^ 32 := by
  have h : Int.land v 4294967295 = v % 2 ^ 32 := land_mask v 32
  have hb : Int.land (v % 2 ^ 32) 2147483648 ≠ 0 ↔ 2 ^ 31 ≤ v % 2 ^ 32 :=
    land_top_bit (v % 2 ^ 32) 31 (by omega) (by omega)
  simp only [uint2int32, h, hb]
  rfl

end PT
