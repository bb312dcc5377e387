import Verif.Model.Py

/-! A processor that runs a program without a debugger, and what it does when code is replaced by trap
instructions. Written without the model of the debugger. -/

namespace PT.Spec

/-- Memory and registers of a program. -/
abbrev Prog := (Nat → Byte) × (String → Nat)

/-- A processor: what one instruction does to memory and registers, and the bytes it is made of, reads or writes. -/
structure Machine where
  step : (Nat → Byte) → (String → Nat) → Prog
  uses : (Nat → Byte) → (String → Nat) → Nat → Prop

/-- An instruction depends on nothing but the registers and the bytes it uses, and changes no other bytes. -/
def Machine.Local (M : Machine) : Prop :=
  ∀ m m' r, (∀ x, M.uses m r x → m' x = m x) →
    (∀ x, M.uses m' r x ↔ M.uses m r x) ∧ (M.step m' r).2 = (M.step m r).2 ∧
    ∀ x, (M.uses m r x → (M.step m' r).1 x = (M.step m r).1 x) ∧
      (¬ M.uses m r x → (M.step m r).1 x = m x ∧ (M.step m' r).1 x = m' x)

/-- The program counter stays a number of `w` bits. -/
def Machine.Wide (M : Machine) (pc : String) (w : Nat) : Prop := ∀ m r, r pc < 2 ^ w → (M.step m r).2 pc < 2 ^ w

/-- The program after `n` instructions, with nobody interfering. -/
def Machine.after (M : Machine) : Nat → Prog → Prog
  | 0, p => p
  | n + 1, p => M.after n (M.step p.1 p.2)

/-- The instruction executed next uses no byte of the places (address, size). -/
def Machine.Avoids (M : Machine) (places : List (Nat × Nat)) (m : Nat → Byte) (r : String → Nat) : Prop :=
  ∀ p ∈ places, ∀ i, i < p.2 → ¬ M.uses m r (p.1 + i)

/-- A program is continued on a processor with a trap instruction of one byte, and stops at the first one: `pc` is then behind
it. On the way no instruction uses a byte of the places. -/
inductive Machine.Stops (M : Machine) (pc : String) (trap : Byte) (places : List (Nat × Nat)) :
    (Nat → Byte) → (String → Nat) → (Nat → Byte) → (String → Nat) → Prop
  | trap {m : Nat → Byte} {r : String → Nat} : m (r pc) = trap →
      M.Stops pc trap places m r m (fun n => if n = pc then r pc + 1 else r n)
  | go {m m' : Nat → Byte} {r r' : String → Nat} : m (r pc) ≠ trap → M.Avoids places m r →
      M.Stops pc trap places (M.step m r).1 (M.step m r).2 m' r' → M.Stops pc trap places m r m' r'

end PT.Spec
