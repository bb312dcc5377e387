import Verif.Spec.BsdWrap

/-
System calls of the BSD kernels on Intel CPUs (`sys/i386/i386/trap.c`, `sys/amd64/amd64/trap.c`: `cpu_fetch_syscall_args`,
`cpu_set_syscall_retval`; `sys/kern/syscalls.master`).
-/

namespace PT.Spec

/-- Some numbers of system calls of FreeBSD. -/
def freebsdCalls : List (Nat × String) := [
  (1, "exit"), (2, "fork"), (3, "read"), (4, "write"), (5, "open"), (6, "close"), (7, "wait4"), (12, "chdir"), (20, "getpid"),
  (26, "ptrace"), (37, "kill"), (42, "pipe"), (54, "ioctl"), (59, "execve"), (66, "vfork"), (73, "munmap"), (90, "dup2"), (92, "fcntl"),
  (93, "select"), (97, "socket"), (98, "connect"), (116, "gettimeofday"), (188, "stat"), (189, "fstat"), (416, "sigaction"), (477, "mmap"),
  (478, "lseek")]

/-- How a call ended. -/
inductive BsdOutcome where
  /-- it returned this value -/
  | value (v : Nat)
  /-- it failed with this error number -/
  | error (errno : Nat)
  deriving DecidableEq, Repr

/-- The carry flag tells how to read the accumulator. -/
def bsdOutcome (x86_64 : Bool) (regs : String → Nat) : BsdOutcome :=
  let flags := regs (if x86_64 then "rflags" else "eflags")
  let a := regs (if x86_64 then "rax" else "eax")
  if flags % 2 = 1 then .error a else .value a

/-- Where the kernel finds argument number `i` (from 0) of a call whose arguments are words: in a register on amd64, above the return address
on the stack on i386. -/
def bsdArgument (x86_64 : Bool) (regs : String → Nat) (word : Nat → Nat) (i : Nat) : Nat :=
  if x86_64 then
    match i with
    | 0 => regs "rdi"
    | 1 => regs "rsi"
    | 2 => regs "rdx"
    | 3 => regs "r10"
    | 4 => regs "r8"
    | _ => regs "r9"
  else word (regs "esp" + 4 + 4 * i)

end PT.Spec
