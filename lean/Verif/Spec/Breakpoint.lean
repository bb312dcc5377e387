import Verif.Model.Py
/-! Independent specification of patched code. -/

namespace PT.Spec

/-- `mem` is `orig` with the trap instruction (bytes `trap 0`, `trap 1`, ...) exactly at the given places
(address, size). -/
def Patched (orig : Nat → Byte) (trap : Nat → Byte) (places : List (Nat × Nat)) (mem : Nat → Byte) : Prop :=
  (∀ p ∈ places, ∀ i, i < p.2 → mem (p.1 + i) = trap i) ∧
  ∀ x, (∀ p ∈ places, x < p.1 ∨ p.1 + p.2 ≤ x) → mem x = orig x

end PT.Spec
