import Verif.Model.Proc

/-! Intel syntax of memory operands, words of a text, bytes of mappings. -/

namespace PT.Spec

/-- `d` is a memory operand with the expression `e`; the size in bytes is given by its name, if it has one. -/
def IsDeref (d : Str) (size : Option Nat) (e : Str) : Prop :=
  ∃ p, d = p ++ '[' :: (e ++ [']']) ∧ e ≠ [] ∧ ']' ∉ e ∧
    (p = [] ∧ size = none ∨ p = "BYTE ".toList ∧ size = some 1 ∨ p = "WORD ".toList ∧ size = some 2 ∨ p = "DWORD ".toList ∧ size = some 4)

/-- A mnemonic: capital letters. -/
def IsMnemonic (op : Str) : Prop := ∀ c ∈ op, 'A'.toNat ≤ c.toNat ∧ c.toNat ≤ 'Z'.toNat

/-- Letters, digits and the underscore make words. -/
def InWord (c : Char) : Prop := c.isAlphanum = true ∨ c = '_'

/-- `w` is a whole word of `s`. -/
def WholeWord (w s : Str) : Prop :=
  w ≠ [] ∧ (∀ c ∈ w, InWord c) ∧ ∃ pre post, s = pre ++ w ++ post ∧ (∀ c, pre.getLast? = some c → ¬ InWord c) ∧ (∀ c, post.head? = some c → ¬ InWord c)

/-- The byte at `x` belongs to the mapping. -/
def InMapping (m : Mapping) (x : Int) : Prop := (m.start : Int) ≤ x ∧ x < m.stop

/-- The registers of x86_64 with a name of three capital letters, the segment registers, and the low bytes. -/
def plainRegisters : List Str := ["RAX", "RBX", "RCX", "RDX", "RSI", "RDI", "RBP", "RSP", "RIP", "EAX", "EBX", "ECX", "EDX", "ESI", "EDI", "EBP", "ESP",
  "CS", "DS", "ES", "FS", "GS", "SS", "AL", "BL", "CL", "DL"].map String.toList

end PT.Spec
