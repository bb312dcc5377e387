import Verif.Model.Py
import Verif.Spec.Ints

/-
Reading string literals (Python reference, "Lexical analysis") and UTF-8 with surrogate escapes (RFC 3629, PEP 383).
-/

namespace PT.Spec

/-- The body of a literal up to its closing quote: the code points and what follows the quote. -/
def literalBody (quote : Char) : Nat → Str → Option (List Nat × Str)
  | 0, _ => none
  | _ + 1, [] => none
  | n + 1, c :: rest =>
    let put (p : Nat) (rest : Str) := (literalBody quote n rest).map fun r => (p :: r.1, r.2)
    let hex (k : Nat) (rest : Str) :=
      if rest.length < k then none else (hexNumber (rest.take k)).bind fun p => put p (rest.drop k)
    if c = quote then some ([], rest)
    else if c = '\\' then
      match rest with
      | '\\' :: rest => put 92 rest
      | '\'' :: rest => put 39 rest
      | '"' :: rest => put 34 rest
      | 't' :: rest => put 9 rest
      | 'n' :: rest => put 10 rest
      | 'r' :: rest => put 13 rest
      | 'x' :: rest => hex 2 rest
      | 'u' :: rest => hex 4 rest
      | 'U' :: rest => hex 8 rest
      | _ => none
    else put c.toNat rest

/-- A string literal at the start of a text: its code points and what follows it. -/
def literal : Str → Option (List Nat × Str)
  | c :: rest => if c = '\'' ∨ c = '"' then literalBody c (rest.length + 1) rest else none
  | [] => none

/-- The bytes of one code point: UTF-8, except that `U+DC80`–`U+DCFF` stand for the bytes 128–255. -/
def encodePoint (p : Nat) : List Nat :=
  if p < 0x80 then [p]
  else if p < 0x800 then [0xC0 + p / 64, 0x80 + p % 64]
  else if 0xDC80 ≤ p ∧ p < 0xDD00 then [p - 0xDC00]
  else if p < 0x10000 then [0xE0 + p / 4096, 0x80 + p / 64 % 64, 0x80 + p % 64]
  else [0xF0 + p / 262144, 0x80 + p / 4096 % 64, 0x80 + p / 64 % 64, 0x80 + p % 64]

/-- The bytes a displayed text stands for, and what follows the literal. -/
def literalBytes (text : Str) : Option (List Nat × Str) := (literal text).map fun r => (r.1.flatMap encodePoint, r.2)

end PT.Spec
