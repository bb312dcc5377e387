import Verif.Spec.Expr

/-
The grammar of arithmetic expressions, as in the reference of Python ("Expressions", section "Operator precedence"), and the values of expressions.
-/

namespace PT.Spec

/-- Operators with two operands. -/
inductive BinOp where
  | pow | mul | div | add | sub | shl | shr | and
  deriving DecidableEq, Repr

/-- An expression. -/
inductive Ast where
  | num (n : Nat)
  | pos (e : Ast)
  | neg (e : Ast)
  | bin (op : BinOp) (a b : Ast)
  deriving DecidableEq, Repr

/-- How tightly an operator binds; signs have level 4, numbers and parentheses level 6. -/
def BinOp.level : BinOp → Nat
  | .and => 0
  | .shl => 1
  | .shr => 1
  | .add => 2
  | .sub => 2
  | .mul => 3
  | .div => 3
  | .pow => 5

/-- A text of the language at a level. Operators of one level are read from left to right; a power takes an operand with a sign on its right and
none on its left. The alphabet is arbitrary: `number` are the texts of numbers, `op` the texts of operators, `sym` the parentheses and signs. -/
inductive Phrase {α : Type} (number : List α → Nat → Prop) (op : BinOp → List α) (sym : Char → α) : Nat → List α → Ast → Prop where
  | number {t n} : number t n → Phrase number op sym 6 t (.num n)
  | paren {t e} : Phrase number op sym 0 t e → Phrase number op sym 6 (sym '(' :: t ++ [sym ')']) e
  | pow {t u a b} : Phrase number op sym 6 t a → Phrase number op sym 4 u b → Phrase number op sym 5 (t ++ op .pow ++ u) (.bin .pow a b)
  | pos {t e} : Phrase number op sym 4 t e → Phrase number op sym 4 (sym '+' :: t) (.pos e)
  | neg {t e} : Phrase number op sym 4 t e → Phrase number op sym 4 (sym '-' :: t) (.neg e)
  | bin {o t u a b} : o ≠ .pow → Phrase number op sym o.level t a → Phrase number op sym (o.level + 1) u b →
      Phrase number op sym o.level (t ++ op o ++ u) (.bin o a b)
  | up {l t e} : l < 6 → Phrase number op sym (l + 1) t e → Phrase number op sym l t e

/-- The operators of Python; integer division. -/
def pyOp : BinOp → Str
  | .pow => "**".toList
  | .mul => "*".toList
  | .div => "//".toList
  | .add => "+".toList
  | .sub => "-".toList
  | .shl => "<<".toList
  | .shr => ">>".toList
  | .and => "&".toList

/-- Decimal numbers of Python: a number other than zero does not begin with zero. -/
def PyNumber (t : Str) (n : Nat) : Prop := decNumber t = some n ∧ (n ≠ 0 → t.head? ≠ some '0')

/-- An arithmetic expression of Python. -/
def PyArith : Str → Ast → Prop := Phrase PyNumber pyOp id 0

/-- The operators as they are typed in gdb.py. -/
def gdbOp : BinOp → List Tok
  | .pow => [.op '*', .op '*']
  | .mul => [.op '*']
  | .div => [.op '/']
  | .add => [.op '+']
  | .sub => [.op '-']
  | .shl => [.op '<', .op '<']
  | .shr => [.op '>', .op '>']
  | .and => [.op '&']

/-- Numbers as they are typed in gdb.py: decimal, hexadecimal, or a register. -/
inductive GdbNumber (r : Str → Nat) : List Tok → Nat → Prop where
  | dec {ds n} : PyNumber ds n → GdbNumber r [.dec ds] n
  | hex {hs n} : GdbNumber r [.hex hs n] n
  | bare {hs n} : GdbNumber r [.bare hs n] n
  | reg {name} : GdbNumber r [.reg name] (r name)

/-- How an item is typed where names of values have no `$`. -/
def Tok.named : Tok → Str
  | .reg name => name
  | x => x.text

/-- Items of such texts: no hexadecimal number without `0x`, no name with `0x` inside. -/
def Tok.Plain : Tok → Prop
  | .bare _ _ => False
  | .reg name => ¬ "0x".toList <:+: name
  | _ => True

/-- An arithmetic expression as it is typed in gdb.py. -/
def GdbArith (r : Str → Nat) : List Tok → Ast → Prop := Phrase (GdbNumber r) gdbOp Tok.op 0

/-- One operation on integers. `none` if the result is no integer. -/
def apply (o : BinOp) (x y : Int) : Option (Except Exc Int) :=
  match o with
  | .mul => some (.ok (x * y))
  | .add => some (.ok (x + y))
  | .sub => some (.ok (x - y))
  | .div => some (if y = 0 then .error .zeroDivision else .ok (x.fdiv y))
  | .shl => some (if y < 0 then .error .value else .ok (x * 2 ^ y.toNat))
  | .shr => some (if y < 0 then .error .value else .ok (x.fdiv (2 ^ y.toNat)))
  | .and => some (.ok (Int.land x y))
  | .pow => if y < 0 then (if x = 0 then some (.error .zeroDivision) else none) else some (.ok (x ^ y.toNat))

/-- The value of an expression: an integer, an exception, or `none` if some part is no integer. -/
def value : Ast → Option (Except Exc Int)
  | .num n => some (.ok n)
  | .pos e => value e
  | .neg e => match value e with
    | some (.ok x) => some (.ok (-x))
    | r => r
  | .bin o a b => match value a with
    | some (.ok x) => match value b with
      | some (.ok y) => apply o x y
      | r => r
    | r => r

/-- `eval` computes arithmetic expressions. -/
def EvalArith (ev : Str → Except EvalErr PyVal) : Prop :=
  ∀ t e, PyArith t e → (∀ v, value e = some (.ok v) → ev t = .ok (.int v)) ∧ (∀ x, value e = some (.error x) → ev t = .error (.raised x))

/-- `eval` refuses numbers that begin with a superfluous zero. -/
def EvalZeros (ev : Str → Except EvalErr PyVal) : Prop :=
  ∀ t n, decNumber t = some n → n ≠ 0 → t.head? = some '0' → ev t = .error .syntaxError

end PT.Spec
