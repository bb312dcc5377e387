import Verif.Model.Py
/-! Independent specification of searching a byte pattern in memory. -/

namespace PT.Spec

/-- The pattern occurs at address `p`. -/
def Occurs (mem : Nat → Byte) (pat : Bytes) (p : Nat) : Prop :=
  ∀ i (h : i < pat.length), mem (p + i) = pat[i]

/-- `l` is what a left-to-right scan of `[lo, hi)` reports: the first occurrence, then the scan of the rest
behind it; nothing when there is no occurrence. -/
def IsScan (mem : Nat → Byte) (pat : Bytes) (hi : Nat) : Nat → List Nat → Prop
  | lo, [] => ∀ q, lo ≤ q → q + pat.length ≤ hi → ¬ Occurs mem pat q
  | lo, p :: rest => lo ≤ p ∧ p + pat.length ≤ hi ∧ Occurs mem pat p ∧
      (∀ q, lo ≤ q → q < p → ¬ Occurs mem pat q) ∧ IsScan mem pat hi (p + pat.length) rest

/-- `l` lists occurrences inside `[lo, hi)` from left to right without overlap (maybe not all). -/
def AreOccurrences (mem : Nat → Byte) (pat : Bytes) (hi : Nat) : Nat → List Nat → Prop
  | _, [] => True
  | lo, p :: rest => lo ≤ p ∧ p + pat.length ≤ hi ∧ Occurs mem pat p ∧
      AreOccurrences mem pat hi (p + pat.length) rest

end PT.Spec
