import Verif.Model.Ctypes
import Verif.Spec.Ints

/-! Helper lemmas on little/big endian digits and hexadecimal text. -/

namespace PT

@[simp] theorem leBytes_length (n v : Nat) : (leBytes n v).length = n := by
  induction n generalizing v with
  | zero => rfl
  | succ n ih => simp [leBytes, ih]

theorem leValue_lt (b : Bytes) : leValue b < 256 ^ b.length := by
  induction b with
  | nil => simp [leValue]
  | cons x xs ih =>
    simp only [leValue, List.length_cons, Nat.pow_succ]
    have := x.isLt
    omega

theorem leValue_leBytes (n v : Nat) (h : v < 256 ^ n) : leValue (leBytes n v) = v := by
  induction n generalizing v with
  | zero => simp at h; simp [leBytes, leValue, h]
  | succ n ih =>
    simp only [leBytes, leValue]
    rw [ih]
    · omega
    · rw [Nat.pow_succ] at h; omega

theorem leBytes_leValue (b : Bytes) : leBytes b.length (leValue b) = b := by
  induction b with
  | nil => rfl
  | cons x xs ih =>
    simp only [leBytes, leValue, List.length_cons]
    have := x.isLt
    congr 1
    · apply Fin.ext; simp only []; omega
    · have : (x.val + 256 * leValue xs) / 256 = leValue xs := by omega
      rw [this, ih]

theorem leBytes_getElem (n v i : Nat) (h : i < (leBytes n v).length) :
    ((leBytes n v)[i]).val = v / 256 ^ i % 256 := by
  induction n generalizing v i with
  | zero => simp [leBytes] at h
  | succ n ih =>
    cases i with
    | zero => simp [leBytes]
    | succ i =>
      simp only [leBytes, List.getElem_cons_succ]
      rw [ih]
      rw [Nat.div_div_eq_div_mul, Nat.pow_succ, Nat.mul_comm]

theorem W_pos (a : Arch) : 0 < a.W := by unfold Arch.W; split <;> decide

theorem packUint_ok {big : Bool} {n : Nat} {v : Nat} (h : v < 256 ^ n) :
    packUint big n v = .ok (if big then (leBytes n v).reverse else leBytes n v) := by
  unfold packUint
  rw [if_pos]
  · simp
  · constructor
    · exact Int.natCast_nonneg v
    · exact_mod_cast h

theorem packUint_length {big : Bool} {n : Nat} {v : Int} {b : Bytes} (h : packUint big n v = .ok b) :
    b.length = n := by
  unfold packUint at h
  split at h
  · injection h with h; subst h; split <;> simp
  · cases h

theorem unpack_pack {big : Bool} {n : Nat} {v : Int} {b : Bytes} (h : packUint big n v = .ok b) :
    unpackUint big n b = .ok v.toNat := by
  have hl := packUint_length h
  unfold packUint at h
  split at h
  · rename_i hv
    have hv2 : v.toNat < 256 ^ n := by
      have : ((256 ^ n : Nat) : Int) = 256 ^ n := by push_cast; rfl
      omega
    injection h with h; subst h
    unfold unpackUint
    rw [if_pos hl]
    cases big <;> simp [leValue_leBytes _ _ hv2]
  · cases h

theorem pack_unpack {big : Bool} {n v : Nat} {b : Bytes} (h : unpackUint big n b = .ok v) :
    packUint big n v = .ok b := by
  unfold unpackUint at h
  split at h
  · rename_i hl
    injection h with h; subst h
    have hlt : leValue (if big = true then b.reverse else b) < 256 ^ n := by
      have := leValue_lt (if big = true then b.reverse else b)
      have hl2 : (if big = true then b.reverse else b).length = n := by split <;> simp [hl]
      rwa [hl2] at this
    rw [packUint_ok hlt]
    cases big
    · simp [← hl, leBytes_leValue]
    · simp only [if_true]
      have : n = b.reverse.length := by simp [hl]
      rw [this, leBytes_leValue]; simp
  · cases h

theorem packBig_leValue (b : Bytes) (n : Nat) (h : b.length = n) :
    packUint true n (leValue b : Nat) = .ok b.reverse := by
  subst h
  rw [packUint_ok (leValue_lt b), leBytes_leValue, if_pos rfl]

theorem unpackLittle_eq (b : Bytes) (n : Nat) (h : b.length = n) :
    unpackUint false n b = .ok (leValue b) := by
  unfold unpackUint; rw [if_pos h]; rfl

/-! ### hexadecimal text -/

theorem hexVal_hexDigit (d : Nat) (h : d < 16) : Spec.hexVal (hexDigit d) = some d := by
  have : ∀ d : Fin 16, Spec.hexVal (hexDigit d.val) = some d.val := by decide
  exact this ⟨d, h⟩

/-- Horner step used by `Spec.hexNumber`. -/
abbrev hexStep (acc : Option Nat) (c : Char) : Option Nat :=
  match acc, Spec.hexVal c with
  | some a, some d => some (16 * a + d)
  | _, _ => none

theorem hexDigits_ne_nil (n : Nat) (acc : Str) : hexDigits n acc ≠ [] := by
  induction n, acc using hexDigits.induct with
  | case1 n acc h => rw [hexDigits]; simp [h]
  | case2 n acc h ih => rw [hexDigits]; simpa [h] using ih

theorem hexDigits_append (n : Nat) (acc : Str) : hexDigits n acc = hexDigits n [] ++ acc := by
  induction n using Nat.strongRecOn generalizing acc with
  | _ n ih =>
    rw [hexDigits]
    conv => rhs; rw [hexDigits]
    by_cases h : n < 16
    · simp [h]
    · simp only [h, dite_false]
      rw [ih (n / 16) (by omega), ih (n / 16) (by omega) [hexDigit (n % 16)]]
      simp

theorem foldl_hexDigits (n : Nat) : (hexDigits n []).foldl hexStep (some 0) = some n := by
  induction n using Nat.strongRecOn with
  | _ n ih =>
    rw [hexDigits]
    by_cases h : n < 16
    · simp [h, hexStep, hexVal_hexDigit n h]
    · simp only [h, dite_false]
      rw [hexDigits_append, List.foldl_append, ih (n / 16) (by omega)]
      simp only [List.foldl_cons, List.foldl_nil, hexStep, hexVal_hexDigit (n % 16) (by omega)]
      congr 1; omega

theorem foldl_zeros (k : Nat) : (List.replicate k '0').foldl hexStep (some 0) = some 0 := by
  induction k with
  | zero => rfl
  | succ k ih =>
    rw [List.replicate_succ, List.foldl_cons]
    have : hexStep (some 0) '0' = some 0 := by decide
    rw [this, ih]

theorem hexNumber_pyHexPad (w n : Nat) : Spec.hexNumber (pyHexPad w n) = some n := by
  unfold Spec.hexNumber
  rw [if_neg]
  · show (pyHexPad w n).foldl hexStep (some 0) = some n
    unfold pyHexPad pyHex
    simp only [List.foldl_append, foldl_zeros, foldl_hexDigits]
  · unfold pyHexPad pyHex
    simp [hexDigits_ne_nil]

theorem hexDigits_length (n k : Nat) (hk : 0 < k) (h : n < 16 ^ k) : (hexDigits n []).length ≤ k := by
  induction k generalizing n with
  | zero => omega
  | succ k ih =>
    rw [hexDigits]
    by_cases h16 : n < 16
    · simp [h16]
    · simp only [h16, dite_false]
      rw [hexDigits_append]
      simp only [List.length_append, List.length_cons, List.length_nil]
      have hk0 : 0 < k := by
        rcases Nat.eq_zero_or_pos k with h0 | h0
        · subst h0; simp at h; omega
        · exact h0
      have := ih (n / 16) hk0 (by rw [Nat.pow_succ] at h; omega)
      omega

theorem pyHexPad_length (w n : Nat) (hw : 0 < w) (h : n < 16 ^ w) : (pyHexPad w n).length = w := by
  unfold pyHexPad pyHex
  have := hexDigits_length n w hw h
  simp only [List.length_append, List.length_replicate]
  omega

end PT
