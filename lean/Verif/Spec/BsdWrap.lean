import Verif.Spec.Wrappers

/-
What the BSD kernels do with `ptrace` requests (`sys/sys/ptrace.h`, `sys/amd64/include/reg.h`, `sys/x86/include/reg.h` of FreeBSD;
`sys/sys/ptrace.h`, `sys/arch/i386/include/{ptrace,reg}.h`, `sys/arch/amd64/include/reg.h` of OpenBSD).
-/

namespace PT.Spec

/-- Numbers of requests: FreeBSD and OpenBSD. -/
def bsdRequests : List (String × Nat × Nat) := [
  ("PT_TRACE_ME", 0, 0), ("PT_READ_I", 1, 1), ("PT_READ_D", 2, 2), ("PT_WRITE_I", 4, 4), ("PT_WRITE_D", 5, 5), ("PT_CONTINUE", 7, 7),
  ("PT_KILL", 8, 8), ("PT_ATTACH", 10, 9), ("PT_DETACH", 11, 10), ("PT_IO", 12, 11), ("PT_STEP", 9, 32), ("PT_GETREGS", 33, 33),
  ("PT_SETREGS", 34, 34)]

/-- `req` is the request `name` about `pid`. -/
def IsBsdRequest (openbsd : Bool) (name : String) (pid arg1 arg2 : Nat) (req : PtraceReq) : Prop :=
  (∃ c ∈ bsdRequests, c.1 = name ∧ req.command = if openbsd then c.2.2 else c.2.1) ∧ req.pid = pid ∧ req.arg1 = arg1 ∧ req.arg2 = arg2

/-- Kernels with their `struct reg`. -/
inductive BsdIsa where
  | freebsdAmd64 | freebsdI386 | openbsdI386 | openbsdAmd64
  deriving DecidableEq, Repr

/-- Registers one after another, `n` bytes each. -/
def evenly (off n : Nat) (names : List String) : List (String × Nat × Nat) := names.zipIdx.map fun p => (p.1, off + n * p.2, n)

/-- Name, offset and size of the registers. -/
def BsdIsa.regs : BsdIsa → List (String × Nat × Nat)
  | .freebsdAmd64 => evenly 0 8 ["r15", "r14", "r13", "r12", "r11", "r10", "r9", "r8", "rdi", "rsi", "rbp", "rbx", "rdx", "rcx", "rax"] ++
      [("trapno", 120, 4), ("fs", 124, 2), ("gs", 126, 2), ("err", 128, 4), ("es", 132, 2), ("ds", 134, 2)] ++
      evenly 136 8 ["rip", "cs", "rflags", "rsp", "ss"]
  | .freebsdI386 => evenly 0 4 ["fs", "es", "ds", "edi", "esi", "ebp", "isp", "ebx", "edx", "ecx", "eax", "trapno", "err", "eip", "cs",
      "eflags", "esp", "ss", "gs"]
  | .openbsdI386 => evenly 0 4 ["eax", "ecx", "edx", "ebx", "esp", "ebp", "esi", "edi", "eip", "eflags", "cs", "ss", "ds", "es", "fs", "gs"]
  | .openbsdAmd64 => evenly 0 8 ["rdi", "rsi", "rdx", "rcx", "r8", "r9", "r10", "r11", "r12", "r13", "r14", "r15", "rbp", "rbx", "rax", "rsp",
      "rip", "rflags", "cs", "ss", "ds", "es", "fs", "gs"]

/-- Number of bytes. -/
def BsdIsa.size : BsdIsa → Nat
  | .freebsdAmd64 => 176
  | .freebsdI386 => 76
  | .openbsdI386 => 64
  | .openbsdAmd64 => 192

/-- The word size and byte order of the machine. -/
def BsdIsa.arch : BsdIsa → Arch
  | .freebsdAmd64 | .openbsdAmd64 => ⟨true, false⟩
  | .freebsdI386 | .openbsdI386 => ⟨false, false⟩

/-- The registers `R` are in memory at `p`. -/
def BsdRegsAt (isa : BsdIsa) (mem : Nat → Byte) (p : Nat) (R : String → Nat) : Prop :=
  ∀ r ∈ isa.regs, IsUint false mem (p + r.2.1) r.2.2 (R r.1)

/-- The kernel copies the registers of a stopped tracee to the address in the third argument. -/
def BsdCopies (m : WrapEnv) (isa : BsdIsa) (R : List PtraceReq → Nat → String → Nat) : Prop := ∀ before req mem, req.command = 33 →
  BsdRegsAt isa (m.effect before req mem) req.arg1 (R before req.pid) ∧ Only mem (m.effect before req mem) req.arg1 isa.size

end PT.Spec
