/-! Independent specifications for integer, byte string and address text conversions.
Nothing here refers to the model. -/

namespace PT.Spec

/-- `r` is the unsigned `n`-bit representation of the integer `v`. -/
def IsUnsigned (n : Nat) (v r : Int) : Prop :=
  0 ≤ r ∧ r < 2 ^ n ∧ ∃ k : Int, v = r + k * 2 ^ n

/-- `r` is the two's complement signed `n+1`-bit reading of the integer `v`. -/
def IsSigned (n : Nat) (v r : Int) : Prop :=
  -2 ^ n ≤ r ∧ r < 2 ^ n ∧ ∃ k : Int, v = r + k * 2 ^ (n + 1)

/-- The byte a CPU of the given byte order stores at offset `i` of an `n`-byte unsigned word `w`. -/
def byteAt (big : Bool) (n w i : Nat) : Nat :=
  if big then w / 256 ^ (n - 1 - i) % 256 else w / 256 ^ i % 256

/-- Value of one lower case hexadecimal digit. -/
def hexVal (c : Char) : Option Nat :=
  if '0' ≤ c ∧ c ≤ '9' then some (c.toNat - '0'.toNat)
  else if 'a' ≤ c ∧ c ≤ 'f' then some (10 + (c.toNat - 'a'.toNat))
  else none

/-- Value of a non-empty string of hexadecimal digits (Horner's rule). -/
def hexNumber (s : List Char) : Option Nat :=
  if s = [] then none
  else s.foldl (fun acc c => match acc, hexVal c with
    | some a, some d => some (16 * a + d)
    | _, _ => none) (some 0)

/-- Value of a literal `0x...`. -/
def hexLiteral : List Char → Option Nat
  | '0' :: 'x' :: rest => hexNumber rest
  | _ => none

end PT.Spec
