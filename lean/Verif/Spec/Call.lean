import Verif.Model.Py

/-! The system call conventions of Linux (syscall(2)), with the names that the register structures of the kernel give to the registers.
At a system call stop the number is in `orig_rax`/`orig_eax` on Intel. On PowerPC `result` is the result with the sign of errors. -/

namespace PT.Spec

/-- Where a machine keeps the number, the result and the first six arguments. -/
structure Convention where
  number : String
  result : String
  arguments : List String

def conventionX86_64 : Convention := ⟨"orig_rax", "rax", ["rdi", "rsi", "rdx", "r10", "r8", "r9"]⟩
def conventionI386 : Convention := ⟨"orig_eax", "eax", ["ebx", "ecx", "edx", "esi", "edi", "ebp"]⟩
def conventionArm : Convention := ⟨"r7", "r0", ["r0", "r1", "r2", "r3", "r4", "r5"]⟩
def conventionArm64 : Convention := ⟨"r8", "r0", ["r0", "r1", "r2", "r3", "r4", "r5"]⟩
def conventionRiscv : Convention := ⟨"a7", "a0", ["a0", "a1", "a2", "a3", "a4", "a5"]⟩
def conventionPowerpc : Convention := ⟨"gpr0", "result", ["gpr3", "gpr4", "gpr5", "gpr6", "gpr7", "gpr8"]⟩

/-- Number of arguments of the sub-calls of `socketcall` (`nargs` of the kernel's `net/socket.c`). -/
def socketcallCount : List (Nat × Nat) := [(1, 3), (2, 3), (3, 3), (4, 2), (5, 3), (6, 3), (7, 3), (8, 4), (9, 4), (10, 4), (11, 6), (12, 6),
  (13, 2), (14, 5), (15, 5), (16, 3), (17, 3), (18, 4), (19, 5), (20, 4)]

/-- The words of an array. -/
def wordsAt (mem : Nat → Nat) (W address n : Nat) : List Nat := (List.range n).map fun i => mem (address + i * W)

/-- Numbers that `asm/unistd_32.h` names otherwise than the i386 table, which takes the names of functions of the kernel
(`sys_lchown16`, `sys_newstat`, ...). -/
def i386Renamed : List Nat := [16, 18, 22, 23, 24, 28, 46, 47, 49, 50, 52, 70, 71, 76, 80, 81, 82, 84, 89, 90, 95, 106, 107, 108, 138, 139,
  140, 142, 149, 164, 165, 170, 171, 182, 191, 198, 199, 200, 201, 202, 203, 204, 205, 206, 207, 208, 209, 210, 211, 212, 213, 214, 215, 216]

end PT.Spec
