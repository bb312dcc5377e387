import Verif.Model.Disasm
/-! Independent specification of code listings. -/

namespace PT.Spec

/-- An instruction of a listing: address, size, text. -/
abbrev CodeItem := Nat × Nat × Str

/-- The bytes of memory from `a`. -/
def codeAt (mem : Nat → Byte) (a n : Nat) : Bytes := (List.range n).map fun i => mem (a + i)

/-- The `n` bytes at `a` are one instruction with text `t`, whatever bytes follow. -/
def IsInstr (one : Nat → Bytes → Option (Nat × Str)) (mem : Nat → Byte) (a n : Nat) (t : Str) : Prop :=
  0 < n ∧ ∀ rest, one a (codeAt mem a n ++ rest) = some (n, t)

/-- The memory from `a` holds the instructions `l`, one after the other. -/
def Code (one : Nat → Bytes → Option (Nat × Str)) (mem : Nat → Byte) : Nat → List CodeItem → Prop
  | _, [] => True
  | a, x :: l => x.1 = a ∧ IsInstr one mem a x.2.1 x.2.2 ∧ Code one mem (a + x.2.1) l

/-- Every breakpoint place is exactly one of the instructions or touches none of them. -/
def OnInstrs (places : List (Nat × Nat)) (l : List CodeItem) : Prop :=
  ∀ p ∈ places, ∀ x ∈ l, (p.1 = x.1 ∧ p.2 = x.2.1) ∨ p.1 + p.2 ≤ x.1 ∨ x.1 + x.2.1 ≤ p.1

/-- The part of a listing that is to be shown: at most `n` instructions, up to and including the first one
that ends at `stop` or later. -/
def shown (stop : Option Nat) : Nat → List CodeItem → List CodeItem
  | 0, _ => []
  | _, [] => []
  | n + 1, x :: l => x :: if stop.any (fun st => st ≤ x.1 + x.2.1) then [] else shown stop n l

/-- Consecutive instructions that hold the bytes of memory. -/
def Consecutive (mem : Nat → Byte) : Nat → List Instr → Prop
  | _, [] => True
  | a, i :: l => i.address = a ∧ 0 < i.size ∧ i.code = codeAt mem a i.size ∧ Consecutive mem (a + i.size) l

/-- The size of a listing. -/
def total : List CodeItem → Nat
  | [] => 0
  | x :: l => x.2.1 + total l

end PT.Spec
