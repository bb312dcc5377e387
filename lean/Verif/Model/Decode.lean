import Verif.Model.Disasm

/-
Model of the generator `Decode` of `/repo/ptrace/pydistorm.py`, the binding of diStorm64.

* `internal_decode`, the C function, is a parameter: from an offset and the code left it makes a result code and a list of instructions, which
  it writes into the buffer, one instruction per slot.
* What the generator yields are views of slots (`instr_array[index]`), not copies: a yield is the number of the slot together with the
  instruction in it at that moment; the buffer left at the end is what the views show then.
* The generator is run to its end; nothing is done between the yields that would change the buffer. The checks of the arguments
  (`pydistorm.py:83-92`) are also run by the first `next`.
* `codeLen` is passed as a C integer: code is shorter than 2^31 bytes.
-/

namespace PT

/-- `_DecodedInst` (`pydistorm.py:61-73`); `mnemonic` and `operands` are in `text`. -/
structure DecodedInst where
  offset : Nat
  size : Nat
  text : Str
  hex : Str
  deriving DecidableEq, Repr

/-- What `internal_decode` returns and writes: the result code (`pydistorm.py:42-45`) and the instructions of the first slots. -/
abbrev InternalDecode := Nat → Bytes → Int → Nat → Nat × List DecodedInst

/-- How the generator ends. -/
inductive DecodeEnd where
  /-- no more code or no more instruction -/
  | done
  /-- `ValueError` -/
  | value
  /-- `MemoryError` -/
  | memory
  /-- `IndexError` -/
  | index
  | diverge
  deriving DecidableEq, Repr

/-- A run of the generator. -/
structure DecodeRun where
  /-- number of the slot and instruction in it, for each yield -/
  yields : List (Nat × DecodedInst)
  result : DecodeEnd
  /-- the slots at the end -/
  buffer : List DecodedInst
  deriving DecidableEq, Repr

/-- Writing to the first slots. -/
def overwrite (new old : List DecodedInst) : List DecodedInst := new ++ old.drop new.length

/-- The loop (`pydistorm.py:102-129`). `offset` is Python's integer, the argument `_OffsetType` has 64 bits. -/
def decodeLoop (D : InternalDecode) (dt : Nat) : Nat → Nat → Bytes → Int → List DecodedInst → DecodeRun
  | 0, _, _, _, buffer => ⟨[], .diverge, buffer⟩
  | fuel + 1, offset, code, codeLen, buffer =>
    if codeLen = 0 then ⟨[], .done, buffer⟩
    else
      let (res, insts) := D (offset % 2 ^ 64) code codeLen dt
      let buffer := overwrite insts buffer
      if res = 3 then ⟨[], .value, buffer⟩
      else if res = 2 ∧ insts.length = 0 then ⟨[], .memory, buffer⟩
      else if insts.length = 0 then ⟨[], .done, buffer⟩
      else
        let size := (insts.map DecodedInst.size).sum
        let rest := decodeLoop D dt fuel (offset + size) (code.drop size) (codeLen - size) buffer
        { rest with yields := (insts.mapIdx fun index inst => (index, inst)) ++ rest.yields }

/-- `Decode` (`pydistorm.py:79-129`); `codeOffset` is an integer and `code` are bytes. -/
def decodeRun (D : InternalDecode) (fuel : Nat) (codeOffset : Nat) (code : Bytes) (dt : Nat) : DecodeRun :=
  if dt ∉ [0, 1, 2] then ⟨[], .index, []⟩
  else decodeLoop D dt fuel codeOffset code code.length []

/-- `[use(instr) for instr in Decode(...)]`: each instruction is used before the next is asked for. -/
def readNow (r : DecodeRun) : List DecodedInst := r.yields.map Prod.snd

/-- `list(Decode(...))`: the instructions are used when the generator has ended. -/
def readLater (r : DecodeRun) : List (Option DecodedInst) := r.yields.map fun y => r.buffer[y.1]?

end PT
