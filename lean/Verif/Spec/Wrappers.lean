import Verif.Model.Wrappers
import Verif.Props.Binding
import Verif.Spec.ArgText

/-
What the kernel does with `ptrace` requests: request numbers, registers, signal information and event messages as Linux lays them out
(`include/uapi/linux/ptrace.h`, `arch/*/include/uapi/asm/ptrace.h`, `arch/x86/include/asm/user_64.h`, `user_32.h`,
`include/uapi/asm-generic/siginfo.h`). Only the environment `WrapEnv` is taken from the model.
-/

namespace PT.Spec

/-- Numbers of requests. -/
def requests : List (String × Nat) := [
  ("PTRACE_TRACEME", 0), ("PTRACE_PEEKTEXT", 1), ("PTRACE_PEEKDATA", 2), ("PTRACE_PEEKUSR", 3), ("PTRACE_POKETEXT", 4),
  ("PTRACE_POKEDATA", 5), ("PTRACE_POKEUSR", 6), ("PTRACE_CONT", 7), ("PTRACE_KILL", 8), ("PTRACE_SINGLESTEP", 9),
  ("PTRACE_GETREGS", 12), ("PTRACE_SETREGS", 13), ("PTRACE_GETFPREGS", 14), ("PTRACE_SETFPREGS", 15), ("PTRACE_ATTACH", 16),
  ("PTRACE_DETACH", 17), ("PTRACE_GETFPXREGS", 18), ("PTRACE_SETFPXREGS", 19), ("PTRACE_SYSCALL", 24), ("PTRACE_SETOPTIONS", 0x4200),
  ("PTRACE_GETEVENTMSG", 0x4201), ("PTRACE_GETSIGINFO", 0x4202), ("PTRACE_SETSIGINFO", 0x4203), ("PTRACE_GETREGSET", 0x4204),
  ("PTRACE_SETREGSET", 0x4205)]

/-- `req` is the request `name` about `pid`. -/
def IsRequest (name : String) (pid arg1 arg2 : Nat) (req : PtraceReq) : Prop :=
  (name, req.command) ∈ requests ∧ req.pid = pid ∧ req.arg1 = arg1 ∧ req.arg2 = arg2

/-- Instruction sets. -/
inductive Isa where
  | x86_64 | i386 | powerpc | powerpc64 | arm | aarch64 | riscv32 | riscv64
  deriving DecidableEq, Repr

/-- The machines that run programs of an instruction set: `uname -m`, word size and byte order. -/
def Isa.Runs : Isa → String → Arch → Prop
  | .x86_64, m, a => m ∈ ["x86_64", "amd64"] ∧ a = ⟨true, false⟩
  | .i386, m, a => m ∈ ["i386", "i486", "i586", "i686", "x86_64"] ∧ a = ⟨false, false⟩
  | .powerpc, m, a => m = "ppc" ∧ a = ⟨false, true⟩
  | .powerpc64, m, a => (m = "ppc64" ∧ a = ⟨true, true⟩) ∨ (m = "ppc64le" ∧ a = ⟨true, false⟩)
  | .arm, m, a => m ∈ ["armv5tel", "armv6l", "armv7l", "armv8l"] ∧ a = ⟨false, false⟩
  | .aarch64, m, a => m = "aarch64" ∧ a = ⟨true, false⟩
  | .riscv32, m, a => m = "riscv32" ∧ a = ⟨false, false⟩
  | .riscv64, m, a => m = "riscv64" ∧ a = ⟨true, false⟩

/-- `n` registers with numbered names. -/
def numbered (name : String) (n : Nat) : List String := (List.range n).map fun i => name ++ toString i

/-- The registers in the order in which the kernel copies them, one word each. -/
def Isa.regs : Isa → List String
  | .x86_64 => ["r15", "r14", "r13", "r12", "rbp", "rbx", "r11", "r10", "r9", "r8", "rax", "rcx", "rdx", "rsi", "rdi", "orig_rax", "rip",
      "cs", "eflags", "rsp", "ss", "fs_base", "gs_base", "ds", "es", "fs", "gs"]
  | .i386 => ["ebx", "ecx", "edx", "esi", "edi", "ebp", "eax", "ds", "es", "fs", "gs", "orig_eax", "eip", "cs", "eflags", "esp", "ss"]
  | .powerpc => numbered "gpr" 32 ++ ["nip", "msr", "orig_gpr3", "ctr", "link", "xer", "ccr", "mq", "trap", "dar", "dsisr", "result"]
  | .powerpc64 => numbered "gpr" 32 ++ ["nip", "msr", "orig_gpr3", "ctr", "link", "xer", "ccr", "softe", "trap", "dar", "dsisr", "result"]
  | .arm => numbered "r" 18
  | .aarch64 => numbered "r" 31 ++ ["sp", "pc", "pstate"]
  | .riscv32 | .riscv64 => ["pc", "ra", "sp", "gp", "tp", "t0", "t1", "t2", "s0", "s1", "a0", "a1", "a2", "a3", "a4", "a5", "a6", "a7",
      "s2", "s3", "s4", "s5", "s6", "s7", "s8", "s9", "s10", "s11", "t3", "t4", "t5", "t6"]

/-- Number of bits of a register: the segment registers of i386 have 16, all others fill a word. -/
def Isa.bits (isa : Isa) (a : Arch) (name : String) : Nat :=
  if isa = .i386 ∧ name ∈ ["ds", "es", "fs", "gs", "cs", "ss"] then 16 else 8 * a.W

/-- The kernels that know `PTRACE_GETREGS` and `PTRACE_SETREGS`; the others know `PTRACE_GETREGSET` and `PTRACE_SETREGSET` only. -/
def Isa.direct : Isa → Bool
  | .aarch64 | .riscv32 | .riscv64 => false
  | _ => true

/-- The registers `R` are in memory at `p`. -/
def RegsAt (isa : Isa) (a : Arch) (mem : Nat → Byte) (p : Nat) (R : String → Nat) : Prop :=
  ∀ (i : Nat) (h : i < isa.regs.length), IsUint a.big mem (p + i * a.W) a.W (R isa.regs[i])

/-- Nothing changes outside the `n` bytes at `p`. -/
def Only (mem mem' : Nat → Byte) (p n : Nat) : Prop := ∀ x, x < p ∨ p + n ≤ x → mem' x = mem x

/-- The kernel copies the registers of a stopped tracee to the tracer; `R before pid` are the registers of the tracee after the requests
`before`. With `PTRACE_GETREGSET` and `NT_PRSTATUS` (1) the place and its size are taken from a `struct iovec`, whose length is set. -/
structure CopiesRegs (m : WrapEnv) (isa : Isa) (R : List PtraceReq → Nat → String → Nat) : Prop where
  direct : isa.direct = true → ∀ before req mem, ("PTRACE_GETREGS", req.command) ∈ requests →
    RegsAt isa m.bind.arch (m.effect before req mem) req.arg2 (R before req.pid) ∧
    Only mem (m.effect before req mem) req.arg2 (isa.regs.length * m.bind.arch.W)
  regset : ∀ before req mem base, ("PTRACE_GETREGSET", req.command) ∈ requests → req.arg1 = 1 →
    IsUint m.bind.arch.big mem req.arg2 m.bind.arch.W base →
    IsUint m.bind.arch.big mem (req.arg2 + m.bind.arch.W) m.bind.arch.W (isa.regs.length * m.bind.arch.W) →
    base + isa.regs.length * m.bind.arch.W ≤ req.arg2 ∨ req.arg2 + 2 * m.bind.arch.W ≤ base →
    RegsAt isa m.bind.arch (m.effect before req mem) base (R before req.pid) ∧
    ∀ x, ¬ (base ≤ x ∧ x < base + isa.regs.length * m.bind.arch.W) → ¬ (req.arg2 ≤ x ∧ x < req.arg2 + 2 * m.bind.arch.W) →
      m.effect before req mem x = mem x

/-- What the kernel takes from the memory of the tracer for a request to set registers. -/
def Takes (m : WrapEnv) (isa : Isa) (mem : Nat → Byte) (req : PtraceReq) (R : String → Nat) : Prop :=
  (("PTRACE_SETREGS", req.command) ∈ requests ∧ isa.direct = true ∧ RegsAt isa m.bind.arch mem req.arg2 R) ∨
  (("PTRACE_SETREGSET", req.command) ∈ requests ∧ req.arg1 = 1 ∧
    ∃ base, IsUint m.bind.arch.big mem req.arg2 m.bind.arch.W base ∧
      IsUint m.bind.arch.big mem (req.arg2 + m.bind.arch.W) m.bind.arch.W (isa.regs.length * m.bind.arch.W) ∧
      RegsAt isa m.bind.arch mem base R)

/-- The tracer can call `ptrace` with these addresses: they are addresses, and the C extension, if it is used, can pass them. -/
def Passes (m : WrapEnv) (v : Nat) : Prop :=
  v < 2 ^ (8 * m.bind.arch.W) ∧ (m.hasCptrace = true → m.bind.arch.is64 = true ∧ v < 2 ^ 63)

/-- The kernel gives possible answers: errors are positive and a request other than a peek does not return -1. -/
def Sane (m : WrapEnv) : Prop := ∀ before req, Possible m.bind.arch req.command (m.bind.kernel before req)

/-- A function makes exactly the request `req`; it fails with an exception of `ptrace` if the kernel refuses the request, and ends normally
if the kernel carries it out. -/
def Asks {α : Type} (m : WrapEnv) (f : Py WrapSt α) (req : PtraceReq) : Prop := ∀ s,
  (f s).2.bind.calls = req :: s.bind.calls ∧
  (∀ e, m.bind.kernel s.bind.calls req = .error e → ∃ n, (f s).1 = .error (.ptrace n) ∧ (m.hasCptrace = false → n = some e)) ∧
  (∀ v, m.bind.kernel s.bind.calls req = .ok v → ∃ r, (f s).1 = .ok r)

/-- What the kernel tells about a signal. -/
structure KInfo where
  signo : Nat
  errno : Nat
  code : Nat
  /-- memory faults: `si_addr` -/
  addr : Nat
  /-- children: `si_pid`, `si_uid`, `si_status`, `si_utime`, `si_stime` -/
  pid : Nat
  uid : Nat
  status : Nat
  utime : Nat
  stime : Nat

/-- The signals with `si_addr` (SIGILL, SIGTRAP, SIGBUS, SIGFPE, SIGSEGV) and SIGCHLD. -/
def faultSignals : List Nat := [4, 5, 7, 8, 11]

/-- Offset of the part of `siginfo_t` that depends on the signal. -/
def infoUnion (a : Arch) : Nat := if a.is64 then 16 else 12

/-- The kernel's `siginfo_t` is at `p`. -/
def InfoAt (a : Arch) (mem : Nat → Byte) (p : Nat) (k : KInfo) : Prop :=
  IsUint a.big mem p 4 k.signo ∧ IsUint a.big mem (p + 4) 4 k.errno ∧ IsUint a.big mem (p + 8) 4 k.code ∧
  (k.signo ∈ faultSignals → IsUint a.big mem (p + infoUnion a) a.W k.addr) ∧
  (k.signo = 17 → IsUint a.big mem (p + infoUnion a) 4 k.pid ∧ IsUint a.big mem (p + infoUnion a + 4) 4 k.uid ∧
    IsUint a.big mem (p + infoUnion a + 8) 4 k.status ∧
    IsUint a.big mem (p + infoUnion a + (if a.is64 then 16 else 12)) a.W k.utime ∧
    IsUint a.big mem (p + infoUnion a + (if a.is64 then 24 else 16)) a.W k.stime)

/-- The kernel copies 128 bytes of signal information. -/
def CopiesInfo (m : WrapEnv) (K : List PtraceReq → Nat → KInfo) : Prop := ∀ before req mem,
  ("PTRACE_GETSIGINFO", req.command) ∈ requests →
  InfoAt m.bind.arch (m.effect before req mem) req.arg2 (K before req.pid) ∧ Only mem (m.effect before req mem) req.arg2 128

/-- The kernel stores the message of an event as an `unsigned long`. -/
def CopiesMessage (m : WrapEnv) (msg : List PtraceReq → Nat → Nat) : Prop := ∀ before req mem,
  ("PTRACE_GETEVENTMSG", req.command) ∈ requests →
  IsUint m.bind.arch.big (m.effect before req mem) req.arg2 m.bind.arch.W (msg before req.pid) ∧
  Only mem (m.effect before req mem) req.arg2 m.bind.arch.W

/-- Part of a structure: name, offset, size of an item, number of items. -/
structure Part where
  name : String
  off : Nat
  size : Nat
  items : Nat

/-- `struct user_i387_struct` of x86-64 (`arch/x86/include/asm/user_64.h`), the image that FXSAVE writes: 512 bytes. -/
def fpX86_64 : List Part := [⟨"cwd", 0, 2, 1⟩, ⟨"swd", 2, 2, 1⟩, ⟨"ftw", 4, 2, 1⟩, ⟨"fop", 6, 2, 1⟩, ⟨"rip", 8, 8, 1⟩, ⟨"rdp", 16, 8, 1⟩,
  ⟨"mxcsr", 24, 4, 1⟩, ⟨"mxcr_mask", 28, 4, 1⟩, ⟨"st_space", 32, 4, 32⟩, ⟨"xmm_space", 160, 4, 64⟩]

/-- `struct user_i387_struct` of i386 (`user_32.h`), the image that FSAVE writes: 108 bytes. -/
def fpI386 : List Part := [⟨"cwd", 0, 4, 1⟩, ⟨"swd", 4, 4, 1⟩, ⟨"twd", 8, 4, 1⟩, ⟨"fip", 12, 4, 1⟩, ⟨"fcs", 16, 4, 1⟩, ⟨"foo", 20, 4, 1⟩,
  ⟨"fos", 24, 4, 1⟩, ⟨"st_space", 28, 4, 20⟩]

/-- `struct user_fxsr_struct` of i386 (`user_32.h`): 512 bytes. -/
def fpxI386 : List Part := [⟨"cwd", 0, 2, 1⟩, ⟨"swd", 2, 2, 1⟩, ⟨"twd", 4, 2, 1⟩, ⟨"fop", 6, 2, 1⟩, ⟨"fip", 8, 4, 1⟩, ⟨"fcs", 12, 4, 1⟩,
  ⟨"foo", 16, 4, 1⟩, ⟨"fos", 20, 4, 1⟩, ⟨"mxcsr", 24, 4, 1⟩, ⟨"reserved", 28, 4, 1⟩, ⟨"st_space", 32, 4, 32⟩, ⟨"xmm_space", 160, 4, 32⟩]

/-- What the kernel copies for `PTRACE_GETFPREGS` and `PTRACE_GETFPXREGS`: so many bytes, and where the parts are. -/
def Isa.fp : Isa → String → Option (Nat × List Part)
  | .x86_64, "PTRACE_GETFPREGS" => some (512, fpX86_64)
  | .i386, "PTRACE_GETFPREGS" => some (108, fpI386)
  | .i386, "PTRACE_GETFPXREGS" => some (512, fpxI386)
  | _, _ => none

/-- The items `F name i` of the parts are at `p`. -/
def PartsAt (a : Arch) (mem : Nat → Byte) (p : Nat) (parts : List Part) (F : String → Nat → Nat) : Prop :=
  ∀ part ∈ parts, ∀ i < part.items, IsUint a.big mem (p + part.off + i * part.size) part.size (F part.name i)

/-- The kernel copies floating point registers. -/
def CopiesFp (m : WrapEnv) (isa : Isa) (name : String) (F : List PtraceReq → Nat → String → Nat → Nat) : Prop :=
  ∀ size parts, isa.fp name = some (size, parts) → ∀ before req mem, (name, req.command) ∈ requests →
    PartsAt m.bind.arch (m.effect before req mem) req.arg2 parts (F before req.pid) ∧ Only mem (m.effect before req mem) req.arg2 size

end PT.Spec
