import Verif.Model.Py

/-
The machines Linux runs on, written from the kernel and the processor manuals and not from the program: names
that `uname -m` prints (`UTS_MACHINE` and `arch/*/kernel/setup.c`), size of a pointer of a native process, and
the registers that hold the program counter, the stack pointer and (by the calling convention) the frame
pointer, in the names of the kernel's `struct pt_regs`/`user_regs_struct`.
-/

namespace PT.Spec

/-- Families of processors the program has a register table for. -/
inductive Family | ppc32 | ppc64 | x86 | x64 | arm | arm64 | riscv32 | riscv64
  deriving DecidableEq, Repr

/-- What `uname -m` prints on Linux. ARM prints `armv4l`, `armv5tel`, `armv6l`, `armv7l`, `armv7b`, `armv8l` and
others, all beginning with "arm". -/
inductive LinuxName : Family → Str → Prop
  | ppc : LinuxName .ppc32 "ppc".toList
  | ppc64 : LinuxName .ppc64 "ppc64".toList
  | ppc64le : LinuxName .ppc64 "ppc64le".toList
  | i386 : LinuxName .x86 "i386".toList
  | i486 : LinuxName .x86 "i486".toList
  | i586 : LinuxName .x86 "i586".toList
  | i686 : LinuxName .x86 "i686".toList
  | x86_64 : LinuxName .x64 "x86_64".toList
  | arm (v : Str) : LinuxName .arm ("armv".toList ++ v)
  | aarch64 : LinuxName .arm64 "aarch64".toList
  | aarch64be : LinuxName .arm64 "aarch64_be".toList
  | riscv32 : LinuxName .riscv32 "riscv32".toList
  | riscv64 : LinuxName .riscv64 "riscv64".toList

/-- Bytes of a pointer in a native process. -/
def Family.pointer : Family → Nat
  | .ppc32 | .x86 | .arm | .riscv32 => 4
  | _ => 8

/-- The program counter in the kernel's register structure. -/
def Family.programCounter : Family → String
  | .ppc32 | .ppc64 => "nip"
  | .x86 => "eip"
  | .x64 => "rip"
  | .arm => "r15"
  | _ => "pc"

/-- The stack pointer. On ARM it is r13; r14 is the link register. -/
def Family.stackPointer : Family → String
  | .ppc32 | .ppc64 => "gpr1"
  | .x86 => "esp"
  | .x64 => "rsp"
  | .arm => "r13"
  | _ => "sp"

/-- The frame pointer of the calling convention, where there is one in common use. -/
def Family.framePointer : Family → Option String
  | .ppc32 | .ppc64 => none
  | .x86 => some "ebp"
  | .x64 => some "rbp"
  | .arm => some "r11"
  | .arm64 => some "r29"
  | .riscv32 | .riscv64 => some "s0"

end PT.Spec
