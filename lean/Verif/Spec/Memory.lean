import Verif.Model.Py
/-! Independent specification of memory ranges and writes. Nothing here refers to the modelled functions. -/

namespace PT.Spec

/-- `d` is exactly the content of the `n` bytes at `a`. -/
def IsRange (mem : Nat → Byte) (a n : Nat) (d : Bytes) : Prop :=
  d.length = n ∧ ∀ i (h : i < d.length), d[i] = mem (a + i)

/-- `mem'` is `mem` with `d` written at `a`: the range holds `d`, every other byte is unchanged. -/
def Written (mem : Nat → Byte) (a : Nat) (d : Bytes) (mem' : Nat → Byte) : Prop :=
  (∀ i (h : i < d.length), mem' (a + i) = d[i]) ∧
  ∀ x, x < a ∨ a + d.length ≤ x → mem' x = mem x

/-- `s` is the NUL terminated string that starts at `a`. -/
def IsCString (mem : Nat → Byte) (a : Nat) (s : Bytes) : Prop :=
  (∀ i (h : i < s.length), s[i] = mem (a + i) ∧ mem (a + i) ≠ 0) ∧ mem (a + s.length) = 0

end PT.Spec
