import Verif.Model.Text
import Verif.Spec.Text
import Mathlib.Data.Int.Bitwise

/-! Lemmas on decimal text. -/

namespace PT

theorem decVal_decDigit (d : Nat) (h : d < 10) : Spec.decVal (decDigit d) = some d := by
  have : ∀ d : Fin 10, Spec.decVal (decDigit d.val) = some d.val := by decide
  exact this ⟨d, h⟩

/-- Horner step used by `Spec.decNumber`. -/
abbrev decStep (acc : Option Nat) (c : Char) : Option Nat :=
  match acc, Spec.decVal c with
  | some a, some d => some (10 * a + d)
  | _, _ => none

theorem decDigits_ne_nil (n : Nat) (acc : Str) : decDigits n acc ≠ [] := by
  induction n, acc using decDigits.induct with
  | case1 n acc h => rw [decDigits]; simp [h]
  | case2 n acc h ih => rw [decDigits]; simpa [h] using ih

theorem decDigits_append (n : Nat) (acc : Str) : decDigits n acc = decDigits n [] ++ acc := by
  induction n using Nat.strongRecOn generalizing acc with
  | _ n ih =>
    rw [decDigits]
    conv => rhs; rw [decDigits]
    by_cases h : n < 10
    · simp [h]
    · simp only [h, dite_false]
      rw [ih (n / 10) (by omega), ih (n / 10) (by omega) [decDigit (n % 10)]]
      simp

theorem foldl_decDigits (n : Nat) : (decDigits n []).foldl decStep (some 0) = some n := by
  induction n using Nat.strongRecOn with
  | _ n ih =>
    rw [decDigits]
    by_cases h : n < 10
    · simp [h, decStep, decVal_decDigit n h]
    · simp only [h, dite_false]
      rw [decDigits_append, List.foldl_append, ih (n / 10) (by omega)]
      simp only [List.foldl_cons, List.foldl_nil, decStep, decVal_decDigit (n % 10) (by omega)]
      congr 1; omega

theorem decNumber_pyDec (n : Nat) : Spec.decNumber (pyDec n) = some n := by
  unfold Spec.decNumber pyDec
  rw [if_neg (decDigits_ne_nil _ _)]
  exact foldl_decDigits n

theorem pyDec_inj {a b : Nat} (h : pyDec a = pyDec b) : a = b := by
  have := decNumber_pyDec a
  rw [h, decNumber_pyDec] at this
  exact (Option.some.inj this).symm

theorem decDigits_isDigit (n : Nat) : ∀ c ∈ decDigits n [], '0' ≤ c ∧ c ≤ '9' := by
  induction n using Nat.strongRecOn with
  | _ n ih =>
    have dig : ∀ d : Fin 10, '0' ≤ decDigit d.val ∧ decDigit d.val ≤ '9' := by decide
    rw [decDigits]
    by_cases h : n < 10
    · simp only [h, dite_true]
      intro c hc
      simp at hc
      subst hc
      exact dig ⟨n, h⟩
    · simp only [h, dite_false]
      rw [decDigits_append]
      intro c hc
      rcases List.mem_append.1 hc with hc | hc
      · exact ih (n / 10) (by omega) c hc
      · simp at hc
        subst hc
        exact dig ⟨n % 10, by omega⟩

theorem pyDec_isDigit (n : Nat) : ∀ c ∈ pyDec n, '0' ≤ c ∧ c ≤ '9' := decDigits_isDigit n

theorem pyDec_ne_nil (n : Nat) : pyDec n ≠ [] := decDigits_ne_nil n []

theorem pyDecInt_inj {a b : Int} (h : pyDecInt a = pyDecInt b) : a = b := by
  have aux : ∀ m n : Nat, pyDec m ≠ '-' :: pyDec n := by
    intro m n e
    have := pyDec_isDigit m '-' (by rw [e]; simp)
    exact absurd this (by decide)
  cases a with
  | ofNat a =>
    cases b with
    | ofNat b => rw [pyDec_inj h]
    | negSucc b => exact absurd h (aux _ _)
  | negSucc a =>
    cases b with
    | ofNat b => exact absurd h.symm (aux _ _)
    | negSucc b =>
      unfold pyDecInt at h
      injection h with _ h
      have := pyDec_inj h
      rw [Nat.succ.inj this]

end PT
