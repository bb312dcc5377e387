import Verif.Model.Ctypes

/-
Python text of byte strings (runtime, not repository code): `os.fsdecode` with the file system encoding UTF-8 and the error handler
`surrogateescape` (PEP 383), `repr` of `str` and `repr` of `bytes`. They are called by `SyscallArgument.readCString` and `readString`
(`/repo/ptrace/syscall/syscall_argument.py:198-224`) and by `FunctionArgument.readStruct` (`/repo/ptrace/func_arg.py:69-89`).
A `str` is a list of code points, since it may hold surrogates.
-/

namespace PT

/-- A continuation byte of UTF-8. -/
def isCont (b : Nat) : Bool := decide (0x80 ≤ b ∧ b < 0xC0)

/-- The code point at the start of a byte string and the number of its bytes, when well-formed UTF-8 starts there. -/
def utf8First : List Nat → Option (Nat × Nat)
  | b0 :: rest =>
    if b0 < 0x80 then some (b0, 1)
    else match rest with
      | b1 :: rest =>
        if 0xC2 ≤ b0 ∧ b0 < 0xE0 then
          if isCont b1 then some ((b0 - 0xC0) * 64 + (b1 - 0x80), 2) else none
        else match rest with
          | b2 :: rest =>
            if 0xE0 ≤ b0 ∧ b0 < 0xF0 then
              if isCont b1 ∧ isCont b2 ∧ (b0 = 0xE0 → 0xA0 ≤ b1) ∧ (b0 = 0xED → b1 < 0xA0) then
                some ((b0 - 0xE0) * 4096 + (b1 - 0x80) * 64 + (b2 - 0x80), 3)
              else none
            else match rest with
              | b3 :: _ =>
                if 0xF0 ≤ b0 ∧ b0 < 0xF5 ∧ isCont b1 ∧ isCont b2 ∧ isCont b3 ∧ (b0 = 0xF0 → 0x90 ≤ b1) ∧ (b0 = 0xF4 → b1 < 0x90) then
                  some ((b0 - 0xF0) * 262144 + (b1 - 0x80) * 4096 + (b2 - 0x80) * 64 + (b3 - 0x80), 4)
                else none
              | [] => none
          | [] => none
      | [] => none
  | [] => none

/-- `os.fsdecode`: the decoder, given the values of the bytes. A byte that starts no well-formed sequence becomes the surrogate
`U+DC00 + byte`. -/
def fsdecodeVals : List Nat → List Nat
  | [] => []
  | b :: rest =>
    match utf8First (b :: rest) with
    | some (cp, n) => cp :: fsdecodeVals (rest.drop (n - 1))
    | none => (0xDC00 + b) :: fsdecodeVals rest
termination_by bs => bs.length
decreasing_by all_goals (simp only [List.length_drop, List.length_cons]; omega)

/-- `os.fsdecode(data)`. -/
def fsdecode (data : Bytes) : List Nat := fsdecodeVals (data.map (·.val))

/-- The quote chosen by `repr`: `"` when the text has `'` but no `"`. -/
def reprQuote (text : List Nat) : Nat := if 39 ∈ text ∧ 34 ∉ text then 34 else 39

/-- `\x`, `\u` or `\U` followed by a fixed number of digits. -/
def hexEscape (letter : Char) (width n : Nat) : Str := '\\' :: letter :: pyHexPad width n

/-- One character of `repr(text)`. `printable` is `str.isprintable` of characters outside ASCII. -/
def reprChar (printable : Nat → Bool) (quote c : Nat) : Str :=
  if c = quote ∨ c = 92 then ['\\', Char.ofNat c]
  else if c = 9 then ['\\', 't']
  else if c = 10 then ['\\', 'n']
  else if c = 13 then ['\\', 'r']
  else if c < 32 ∨ c = 127 then hexEscape 'x' 2 c
  else if c < 127 then [Char.ofNat c]
  else if printable c then [Char.ofNat c]
  else if c < 0x100 then hexEscape 'x' 2 c
  else if c < 0x10000 then hexEscape 'u' 4 c
  else hexEscape 'U' 8 c

/-- `repr(text)` of a `str`. -/
def reprStr (printable : Nat → Bool) (text : List Nat) : Str :=
  let quote := reprQuote text
  Char.ofNat quote :: text.flatMap (reprChar printable quote) ++ [Char.ofNat quote]

/-- `repr(data)` of a `bytes` object. -/
def reprBytes (data : Bytes) : Str := 'b' :: reprStr (fun _ => false) (data.map (·.val))

end PT
