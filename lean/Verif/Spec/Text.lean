/-! Independent specification of decimal text, of splitting and of stripping. -/

namespace PT.Spec

/-- Value of a decimal digit. -/
def decVal (c : Char) : Option Nat :=
  if '0' ≤ c ∧ c ≤ '9' then some (c.toNat - '0'.toNat) else none

/-- Value of a non-empty string of decimal digits (Horner's rule). -/
def decNumber (s : List Char) : Option Nat :=
  if s = [] then none
  else s.foldl (fun acc c => match acc, decVal c with
    | some a, some d => some (10 * a + d)
    | _, _ => none) (some 0)

/-- `t` is the pieces `ps` with `sep` between them, and no piece contains `sep`. -/
def Pieces (sep : Char) (t : List Char) (ps : List (List Char)) : Prop :=
  ps ≠ [] ∧ (∀ p ∈ ps, sep ∉ p) ∧ [sep].intercalate ps = t

/-- `y` is `t` without white space at both ends. -/
def Stripped (space : Char → Bool) (t y : List Char) : Prop :=
  (∃ a b, t = a ++ y ++ b ∧ (∀ c ∈ a, space c = true) ∧ (∀ c ∈ b, space c = true)) ∧
  (∀ c, y.head? = some c → space c = false) ∧ (∀ c, y.getLast? = some c → space c = false)

/-- The texts differ at most in the white space around them. -/
def SameText (space : Char → Bool) (a b : List Char) : Prop := ∃ y, Stripped space a y ∧ Stripped space b y

end PT.Spec
