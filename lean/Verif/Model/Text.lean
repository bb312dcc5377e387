import Verif.Model.Py

/-
Python text primitives (runtime, not repository code).
-/

namespace PT

/-- One decimal digit. -/
def decDigit (d : Nat) : Char := Char.ofNat (48 + d)

/-- Digits of Python's `'%d' % n`, most significant first, in front of `acc`. -/
def decDigits (n : Nat) (acc : Str) : Str :=
  if h : n < 10 then decDigit n :: acc
  else decDigits (n / 10) (decDigit (n % 10) :: acc)
termination_by n
decreasing_by omega

/-- Python's `str(n)` for a natural number. -/
def pyDec (n : Nat) : Str := decDigits n []

/-- Python's `str(n)` for an integer. -/
def pyDecInt (n : Int) : Str :=
  match n with
  | .ofNat n => pyDec n
  | .negSucc n => '-' :: pyDec (n + 1)

/-- Python's `text.split(sep)` for one character. -/
def splitOn (sep : Char) : Str → List Str
  | [] => [[]]
  | c :: cs =>
    if c = sep then [] :: splitOn sep cs
    else match splitOn sep cs with
      | [] => [[c]]
      | w :: ws => (c :: w) :: ws

/-- Python's `text.strip()` for a given set of white space characters. -/
def strip (space : Char → Bool) (t : Str) : Str :=
  ((t.dropWhile space).reverse.dropWhile space).reverse

end PT
