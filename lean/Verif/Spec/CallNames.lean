import Verif.Spec.Lines
import Verif.Spec.CallText
import Verif.Spec.KernelTables

/-! The names of the system calls in the lines of strace.py, against the headers of the kernel. -/

namespace PT.Spec

/-- The calls of the header whose numbers have another name in the table of the CPU (`misnamed`) and those whose numbers are not in it (`unknown`). -/
structure Names where
  kernel : List (Nat × String)
  misnamed : List Nat
  unknown : Nat → Bool

/-- x86-64: `timerfd_create`; calls after 5.10. -/
def namesX86_64 : Names := ⟨kernelX86_64, [283], fun n => Nat.ble 441 n⟩

/-- i386: names of functions for calls with numbers of another width; calls that are no longer made, and those after 2.6.22. -/
def namesI386 : Names :=
  ⟨kernelI386, i386Renamed, fun n => [17, 31, 32, 35, 44, 53, 56, 58, 98, 112, 127, 130, 137, 167, 188, 189, 273].any (Nat.beq n) ||
    (Nat.ble 320 n && Nat.ble n 386) || Nat.ble 393 n && !Nat.beq n 415⟩

/-- aarch64: calls for machines of 32 bits; calls after 5.8. -/
def namesAarch64 : Names := ⟨kernelGeneric, [], fun n => Nat.ble 440 n || (Nat.ble 403 n && Nat.ble n 423)⟩

/-- riscv64: calls for machines of 32 bits; calls after 5.17. -/
def namesRiscv64 : Names := ⟨kernelGeneric, [], fun n => Nat.ble 451 n || (Nat.ble 403 n && Nat.ble n 423)⟩

/-- riscv32: calls with times of 32 bits, which it never had; calls after 5.17. -/
def namesRiscv32 : Names :=
  ⟨kernelGeneric32, [], fun n => [4, 38, 72, 73, 79, 80, 86, 87, 88, 98, 101, 108, 110, 112, 113, 114, 115, 127, 137, 163, 164, 169, 170, 171, 182, 183,
    192, 243, 260, 266, 292].any (Nat.beq n) || Nat.ble 451 n⟩

/-- The name under which call `n` is shown, which the kernel calls `name`. -/
def Names.Shown (N : Names) (n : Nat) (name shown : String) : Prop :=
  (n ∉ N.misnamed → N.unknown n = false → shown = name) ∧ (n ∈ N.misnamed → shown ≠ name) ∧
  (N.unknown n = true → ∃ num, decNumber num = some n ∧ shown.toList = "syscall<".toList ++ num ++ ['>'])

/-- A line about a call: number of the process and address if asked for, the type of the result if asked for, and the name before the parenthesis. -/
def LineNamed (types showPid showIp : Bool) (pid ip : Nat) (name : String) (line : Str) : Prop :=
  ∃ num addr type rest, decNumber num = some pid ∧ AddressText ip addr ∧
    line = (if showPid then '[' :: num ++ "]".toList else []) ++ (if showIp then '[' :: addr ++ "]".toList else []) ++
      (if showPid || showIp then " ".toList else []) ++ ((if types then type ++ [' '] else []) ++ name.toList ++ '(' :: rest)

end PT.Spec
