import Verif.Model.Expr
import Verif.Spec.Ints
import Verif.Spec.Text

/-! Expressions a user may type, and the arithmetic text that may be evaluated. -/

namespace PT.Spec

/-- The characters that may be evaluated. -/
def arithmetic : List Char := "0123456789()<>+*/&-".toList

/-- An item of an expression; `n` is the value of a hexadecimal number. -/
inductive Tok where
  | dec (digits : Str)
  | hex (digits : Str) (n : Nat)
  | bare (digits : Str) (n : Nat)
  | reg (name : Str)
  | op (c : Char)

/-- How it is typed (in lower case). -/
def Tok.text : Tok → Str
  | .dec ds => ds
  | .hex hs _ => '0' :: 'x' :: hs
  | .bare hs _ => hs
  | .reg name => '$' :: name
  | .op c => [c]

/-- Well formed items: decimal digits, hexadecimal digits after `0x`, hexadecimal digits with at least one letter,
register names of two or more characters, operators. -/
def Tok.Ok : Tok → Prop
  | .dec ds => ∃ n, decNumber ds = some n
  | .hex hs n => hexNumber hs = some n
  | .bare hs n => hexNumber hs = some n ∧ decNumber hs = none
  | .reg name => ∃ c rest, name = c :: rest ∧ rest ≠ [] ∧ c ∈ "abcdefghijklmnopqrstuvwxyz".toList ∧
      ∀ x ∈ rest, x ∈ "abcdefghijklmnopqrstuvwxyz0123456789_".toList
  | .op c => c ∈ "()<>+*/&-".toList

/-- What is evaluated in its place: numbers in decimal, values of registers, integer division. -/
def Tok.decimal (r : Str → Nat) : Tok → Str
  | .dec ds => ds
  | .hex _ n => pyDec n
  | .bare _ n => pyDec n
  | .reg name => pyDec (r name)
  | .op c => if c = '/' then "//".toList else [c]

def Tok.isOp : Tok → Bool
  | .op _ => true
  | _ => false

/-- No two numbers or registers without an operator between them. -/
def Separated : List Tok → Prop
  | [] => True
  | [_] => True
  | x :: y :: rest => (x.isOp = true ∨ y.isOp = true) ∧ Separated (y :: rest)

/-- The registers named by an expression, in order. -/
def registers (toks : List Tok) : List Str :=
  toks.filterMap fun x => match x with
    | .reg name => some name
    | _ => none

/-- Reading registers one after the other gives the values `r`. -/
inductive Reads {σ : Type} (getreg : Str → Py σ Nat) (r : Str → Nat) : List Str → σ → σ → Prop where
  | nil (s : σ) : Reads getreg r [] s s
  | cons {name : Str} {names : List Str} {s t u : σ} (h : getreg name s = (.ok (r name), t)) (rest : Reads getreg r names t u) :
      Reads getreg r (name :: names) s u

/-- `eval` on decimal numbers. -/
def EvalNumbers (ev : Str → Except EvalErr PyVal) : Prop :=
  ∀ n : Nat, ev (pyDec n) = .ok (.int n)

end PT.Spec
