import Verif.Model.Memory
import Verif.Model.Text

/-
Model of `Gdb.parseInteger` (`gdb.py:207-252`) and of `parseExpression`
(`ptrace/debugger/parse_expr.py`). `eval`, `str.lower` and the set of white space characters are parameters.
-/

namespace PT

/-- Python's white space characters and `str.lower`. -/
structure PyStr where
  space : Char → Bool
  lower : Str → Str

/-- Result of `eval` as far as `truncateWord` looks at it: an integer (a boolean is one), or a value for which
`&` raises `TypeError` (float, tuple). -/
inductive PyVal where
  | int (v : Int)
  | other
  deriving DecidableEq, Repr

/-- Exception of `eval`. -/
inductive EvalErr where
  | syntaxError
  | raised (e : Exc)
  deriving DecidableEq, Repr

/-- `[a-z]` -/
def isLetter (c : Char) : Bool := decide ('a' ≤ c ∧ c ≤ 'z')

/-- `[0-9]` -/
def isDec (c : Char) : Bool := decide ('0' ≤ c ∧ c ≤ '9')

/-- `[a-z0-9_]` -/
def isName (c : Char) : Bool := isLetter c || isDec c || c == '_'

/-- `[0-9a-f]` -/
def isHex (c : Char) : Bool := isDec c || decide ('a' ≤ c ∧ c ≤ 'f')

/-- `[()<>+*/&0-9-]` -/
def isExprChar (c : Char) : Bool := isDec c || "()<>+*/&-".toList.contains c

/-- Length of the longest run of such characters. -/
def runLen (p : Char → Bool) (t : Str) : Nat := (t.takeWhile p).length

/-- Length of the match of `[a-z]+[a-z0-9_]+` at the start of the text, 0 if there is none: a run of name
characters that starts with a letter and has at least two characters (`parse_expr.py:4`). -/
def nameLen (t : Str) : Nat :=
  match t with
  | c :: _ => if isLetter c && decide (2 ≤ runLen isName t) then runLen isName t else 0
  | [] => 0

/-- Length of the match of `\$[a-z]+[a-z0-9_]+` (`gdb.py:44`). -/
def dollarLen (t : Str) : Nat :=
  match t with
  | '$' :: rest => if nameLen rest = 0 then 0 else 1 + nameLen rest
  | _ => 0

/-- Length of the match of `0x[0-9a-f]+` (`parse_expr.py:7`). -/
def hexLen (t : Str) : Nat :=
  match t with
  | '0' :: 'x' :: rest => if runLen isHex rest = 0 then 0 else 2 + runLen isHex rest
  | _ => 0

/-- Length of the match of `(?:0x)?[0-9a-f]+` (`gdb.py:233`). -/
def optHexLen (t : Str) : Nat := if hexLen t = 0 then runLen isHex t else hexLen t

/-- `regex.sub(f, text)`: leftmost matches, one after the other. `len` is the length of the match at the start of
a text. The fuel is the length of the text. -/
def reSub {σ : Type} (len : Str → Nat) (f : Str → Py σ Str) : Nat → Str → Py σ Str
  | 0, t => Py.pure t
  | _ + 1, [] => Py.pure []
  | fuel + 1, c :: cs =>
    if len (c :: cs) = 0 then Py.bind (reSub len f fuel cs) fun rest => Py.pure (c :: rest)
    else
      Py.bind (f ((c :: cs).take (len (c :: cs)))) fun r =>
      Py.bind (reSub len f fuel ((c :: cs).drop (len (c :: cs)))) fun rest => Py.pure (r ++ rest)

/-- Value of a hexadecimal digit, as in `int(c, 16)` for the characters of `[0-9a-f]`. -/
def hexDigitVal (c : Char) : Nat := if isDec c then c.toNat - 48 else c.toNat - 87

/-- `int(text, 16)` for a text of hexadecimal digits. -/
def intOfHex (t : Str) : Nat := t.foldl (fun acc c => acc * 16 + hexDigitVal c) 0

/-- `readHexadecimal` (`gdb.py:225-232`) and `replaceHexadecimal` (`parse_expr.py:16-27`). -/
def replaceHex (t : Str) : Str :=
  match t with
  | '0' :: 'x' :: rest => pyDec (intOfHex rest)
  | _ => if t.any (fun c => decide ('a' ≤ c ∧ c ≤ 'f')) then pyDec (intOfHex t) else t

/-- `re.match(r"^[()<>+*/&0-9-]+$", text)`: the anchor `$` also matches before a final newline. -/
def exprMatch (t : Str) : Bool :=
  let body := if t.getLast? = some '\n' then t.dropLast else t
  decide (body ≠ []) && body.all isExprChar

/-- `text.replace("/", "//")` -/
def doubleSlash (t : Str) : Str := t.flatMap fun c => if c = '/' then ['/', '/'] else [c]

/-- `truncateWord` on the result of `eval`; the result is not negative. -/
def truncateVal (a : Arch) : PyVal → Except Exc Nat
  | .int v => .ok (truncateWord a v).toNat
  | .other => .error .type

/-- `Gdb.parseInteger` (`gdb.py:212-252`), with `readRegister` (`gdb.py:207-210`). -/
def parseInteger {σ : Type} (a : Arch) (ps : PyStr) (ev : Str → Except EvalErr PyVal)
    (getreg : Str → Py σ Nat) (readWord : Nat → Py σ Nat) (text : Str) : Py σ Nat :=
  let text := strip ps.space text
  if ' ' ∈ text then Py.raise .value
  else
    let text := ps.lower text
    Py.bind (reSub dollarLen (fun m => Py.bind (getreg (m.drop 1)) fun v => Py.pure (pyDec v)) text.length text) fun text =>
    Py.bind (reSub optHexLen (fun m => Py.pure (replaceHex m)) text.length text) fun text =>
    if !exprMatch text then Py.raise .value
    else
      let text := doubleSlash text
      let isPointer := text.head? == some '*'
      let text := if isPointer then text.drop 1 else text
      match ev text with
      | .error .syntaxError => Py.raise .value
      | .error (.raised e) => Py.raise e
      | .ok v =>
        Py.bind (liftE (truncateVal a v)) fun value =>
        if isPointer then readWord value else Py.pure value

/-- `parseExpression` (`parse_expr.py:30-76`). -/
def parseExpression {σ : Type} (ps : PyStr) (ev : Str → Except EvalErr PyVal)
    (getreg : Str → Py σ Nat) (text : Str) : Py σ PyVal :=
  let text := strip ps.space text
  if ' ' ∈ text then Py.raise .value
  else
    let text := ps.lower text
    Py.bind (reSub hexLen (fun m => Py.pure (replaceHex m)) text.length text) fun text =>
    Py.bind (reSub nameLen (fun m => Py.bind (getreg m) fun v => Py.pure (pyDec v)) text.length text) fun text =>
    if !exprMatch text then Py.raise .value
    else
      let text := doubleSlash text
      match ev text with
      | .error .syntaxError => Py.raise .value
      | .error (.raised e) => Py.raise e
      | .ok v => Py.pure v

end PT
