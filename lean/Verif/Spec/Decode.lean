import Verif.Model.Decode

/-! The instructions of a piece of code, and decoders that find them. -/

namespace PT.Spec

/-- Instruction after instruction from the start of `code` at `offset`; `one offset code` is the size, the text and the hexadecimal text of the
first instruction of `code`, if there is one. `rest` is the code behind. -/
inductive Sweep (one : Nat → Bytes → Option (Nat × Str × Str)) : Nat → Bytes → List DecodedInst → Bytes → Prop where
  | stop {offset : Nat} {code : Bytes} : Sweep one offset code [] code
  | next {offset : Nat} {code : Bytes} {n : Nat} {text hex : Str} {insts : List DecodedInst} {rest : Bytes}
      (first : one (offset % 2 ^ 64) code = some (n, text, hex)) (some : 0 < n) (fits : n ≤ code.length)
      (h : Sweep one (offset + n) (code.drop n) insts rest) : Sweep one offset code (⟨offset % 2 ^ 64, n, text, hex⟩ :: insts) rest

/-- All instructions: nothing can be decoded behind them. -/
def FullSweep (one : Nat → Bytes → Option (Nat × Str × Str)) (offset : Nat) (code : Bytes) (insts : List DecodedInst) : Prop :=
  ∃ rest, Sweep one offset code insts rest ∧
    (rest = [] ∨ one ((offset + (code.length - rest.length)) % 2 ^ 64) rest = none)

/-- The C function does its work: it writes some of the next instructions, at most as many as there are slots, at least one unless there is none,
and does not complain. -/
def FaithfulDecoder (one : Nat → Bytes → Option (Nat × Str × Str)) (slots : Nat) (D : InternalDecode) : Prop :=
  ∀ offset code dt, code ≠ [] → (D (offset % 2 ^ 64) code code.length dt).1 ≠ 3 ∧ (D (offset % 2 ^ 64) code code.length dt).2.length ≤ slots ∧
    (∃ rest, Sweep one offset code (D (offset % 2 ^ 64) code code.length dt).2 rest) ∧
    ((D (offset % 2 ^ 64) code code.length dt).2 = [] → (D (offset % 2 ^ 64) code code.length dt).1 ≠ 2 ∧ one (offset % 2 ^ 64) code = none)

/-- The calls of the C function: the first one for offset, code and length as they are, each further one behind the instructions the last call found,
as long as it found some and did not refuse its input. -/
inductive Asked (D : InternalDecode) (dt : Nat) : Nat → Bytes → Int → Nat → Bytes → Int → Prop where
  | first {offset : Nat} {code : Bytes} {len : Int} (h : len ≠ 0) : Asked D dt offset code len offset code len
  | next {offset o : Nat} {code c : Bytes} {len l : Int} (h : len ≠ 0) (ok : (D (offset % 2 ^ 64) code len dt).1 ≠ 3)
      (some : (D (offset % 2 ^ 64) code len dt).2 ≠ [])
      (rest : Asked D dt (offset + ((D (offset % 2 ^ 64) code len dt).2.map DecodedInst.size).sum)
        (code.drop ((D (offset % 2 ^ 64) code len dt).2.map DecodedInst.size).sum)
        (len - ((D (offset % 2 ^ 64) code len dt).2.map DecodedInst.size).sum) o c l) : Asked D dt offset code len o c l

end PT.Spec
