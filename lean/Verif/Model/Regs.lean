import Mathlib.Data.Int.Bitwise
import Verif.Model.Py

/-
Model of register access: `/repo/ptrace/debugger/process.py:429-459`, `/repo/ptrace/binding/cpu.py`,
`/repo/ptrace/binding/linux_struct.py:23-216` (`user_regs_struct`).
-/

namespace PT

/-- One value of `CPU_SUB_REGISTERS` (`ptrace/binding/cpu.py:30`): full register, shift, mask. -/
structure SubReg where
  full : String
  shift : Nat
  mask : Option Nat
  deriving DecidableEq, Repr

/-- The register description of one CPU: fields of `user_regs_struct` with their width in bits
(`c_ulong` 32 or 64, `c_ushort` 16) and the dictionary `CPU_SUB_REGISTERS`. -/
structure RegTable where
  fields : List (String × Nat)
  subs : List (String × SubReg)
  instrPointer : Option String
  stackPointer : Option String
  framePointer : Option String

/-- `REGISTER_NAMES` (`ptrace/binding/func.py:25`). -/
def RegTable.names (t : RegTable) : List String := t.fields.map Prod.fst

/-- Width of a register, in bits (its ctypes field). -/
def RegTable.width (t : RegTable) (name : String) : Nat := (t.fields.lookup name).getD 0

/-- The registers of a tracee; `regErr n` is the errno of the n-th register request (0: success). -/
structure RegSt where
  regs : String → Nat
  count : Nat := 0

/-- Kernel decisions about PTRACE_GETREGS/PTRACE_SETREGS. -/
abbrev RegKernel := Nat → Nat

/-- `PtraceProcess.getregs` (`process.py:415-417`), `ptrace_getregs` (`func.py:272-285`). -/
def getregs (k : RegKernel) : Py RegSt (String → Nat) := fun s =>
  let s' := { s with count := s.count + 1 }
  if k s.count ≠ 0 then (.error (.ptrace (some (k s.count))), s') else (.ok s.regs, s')

/-- `PtraceProcess.setregs` (`process.py:444-445`), `ptrace_setregs` (`func.py:287-296`). -/
def setregs (k : RegKernel) (regs : String → Nat) : Py RegSt Unit := fun s =>
  let s' := { s with count := s.count + 1 }
  if k s.count ≠ 0 then (.error (.ptrace (some (k s.count))), s') else (.ok (), { s' with regs := regs })

/-- `PtraceProcess.getreg` (`process.py:429-442`). -/
def getreg (t : RegTable) (k : RegKernel) (name : String) : Py RegSt Nat :=
  let (name, shift, mask) := match t.subs.lookup name with
    | some r => (r.full, r.shift, r.mask)
    | none => (name, 0, none)
  if name ∉ t.names then Py.raise (.ptrace none)
  else Py.bind (getregs k) fun regs =>
    let value := regs name >>> shift
    match mask with
    | some m => if m ≠ 0 then Py.pure (value &&& m) else Py.pure value
    | none => Py.pure value

/-- `setattr(regs, name, value)` on a ctypes structure with unsigned fields: the value is reduced to
the width of the field (ctypes makes no overflow check). -/
def setField (t : RegTable) (regs : String → Nat) (name : String) (value : Int) : String → Nat :=
  fun n => if n = name then (value % 2 ^ t.width name).toNat else regs n

/-- `PtraceProcess.setreg` (`process.py:447-459`). `~None` raises `TypeError`; `getattr` of a field the
structure does not have raises `AttributeError`. -/
def setreg (t : RegTable) (k : RegKernel) (name : String) (value : Int) : Py RegSt Unit :=
  Py.bind (getregs k) fun regs =>
  match t.subs.lookup name with
  | some r =>
    if r.full ∉ t.names then Py.raise .attribute
    else match r.mask with
      | none => Py.raise .type
      | some mask =>
        let full_value := Int.land (regs r.full) (Int.not mask)
        let full_value := Int.lor full_value (Int.land value mask * 2 ^ r.shift)
        setregs k (setField t regs r.full full_value)
  | none =>
    if name ∉ t.names then Py.raise (.ptrace none)
    else setregs k (setField t regs name value)

/-- `setInstrPointer` (`process.py:478-483`). -/
def setInstrPointer (t : RegTable) (k : RegKernel) (ip : Int) : Py RegSt Unit :=
  match t.instrPointer with
  | some name => setreg t k name ip
  | none => Py.raise (.ptrace none)

/-- `getInstrPointer` (`process.py:485-490`). -/
def getInstrPointer (t : RegTable) (k : RegKernel) : Py RegSt Nat :=
  match t.instrPointer with
  | some name => getreg t k name
  | none => Py.raise (.ptrace none)

/-- `getStackPointer` (`process.py:492-496`). -/
def getStackPointer (t : RegTable) (k : RegKernel) : Py RegSt Nat :=
  match t.stackPointer with
  | some name => getreg t k name
  | none => Py.raise (.ptrace none)

/-- `getFramePointer` (`process.py:498-502`). -/
def getFramePointer (t : RegTable) (k : RegKernel) : Py RegSt Nat :=
  match t.framePointer with
  | some name => getreg t k name
  | none => Py.raise (.ptrace none)

/-! ### The tables -/

/-- The flag entries added for Intel CPUs (`cpu.py:67-79`). -/
def intelFlags : List (String × SubReg) := [
  ("cf", ⟨"eflags", 0, some 1⟩), ("pf", ⟨"eflags", 2, some 1⟩), ("af", ⟨"eflags", 4, some 1⟩),
  ("zf", ⟨"eflags", 6, some 1⟩), ("sf", ⟨"eflags", 7, some 1⟩), ("tf", ⟨"eflags", 8, some 1⟩),
  ("if", ⟨"eflags", 9, some 1⟩), ("df", ⟨"eflags", 10, some 1⟩), ("of", ⟨"eflags", 11, some 1⟩),
  ("iopl", ⟨"eflags", 12, some 2⟩)]

/-- x86_64 (`cpu.py:25-47,67-79`, `linux_struct.py:161-190`). -/
def regsX86_64 : RegTable where
  fields := (["r15", "r14", "r13", "r12", "rbp", "rbx", "r11", "r10", "r9", "r8", "rax", "rcx", "rdx", "rsi",
    "rdi", "orig_rax", "rip", "cs", "eflags", "rsp", "ss", "fs_base", "gs_base", "ds", "es", "fs", "gs"]).map
    fun n => (n, 64)
  subs := [
    ("al", ⟨"rax", 0, some 0xff⟩), ("bl", ⟨"rbx", 0, some 0xff⟩), ("cl", ⟨"rcx", 0, some 0xff⟩),
    ("dl", ⟨"rdx", 0, some 0xff⟩), ("ah", ⟨"rax", 8, some 0xff⟩), ("bh", ⟨"rbx", 8, some 0xff⟩),
    ("ch", ⟨"rcx", 8, some 0xff⟩), ("dh", ⟨"rdx", 8, some 0xff⟩), ("ax", ⟨"rax", 0, some 0xffff⟩),
    ("bx", ⟨"rbx", 0, some 0xffff⟩), ("cx", ⟨"rcx", 0, some 0xffff⟩), ("dx", ⟨"rdx", 0, some 0xffff⟩),
    ("eax", ⟨"rax", 32, none⟩), ("ebx", ⟨"rbx", 32, none⟩), ("ecx", ⟨"rcx", 32, none⟩),
    ("edx", ⟨"rdx", 32, none⟩)] ++ intelFlags
  instrPointer := some "rip"
  stackPointer := some "rsp"
  framePointer := some "rbp"

/-- i386 (`cpu.py:48-79`, `linux_struct.py:191-216`). -/
def regsI386 : RegTable where
  fields := [("ebx", 32), ("ecx", 32), ("edx", 32), ("esi", 32), ("edi", 32), ("ebp", 32), ("eax", 32),
    ("ds", 16), ("__ds", 16), ("es", 16), ("__es", 16), ("fs", 16), ("__fs", 16), ("gs", 16), ("__gs", 16),
    ("orig_eax", 32), ("eip", 32), ("cs", 16), ("__cs", 16), ("eflags", 32), ("esp", 32), ("ss", 16),
    ("__ss", 16)]
  subs := [
    ("al", ⟨"eax", 0, some 0xff⟩), ("bl", ⟨"ebx", 0, some 0xff⟩), ("cl", ⟨"ecx", 0, some 0xff⟩),
    ("dl", ⟨"edx", 0, some 0xff⟩), ("ah", ⟨"eax", 8, some 0xff⟩), ("bh", ⟨"ebx", 8, some 0xff⟩),
    ("ch", ⟨"ecx", 8, some 0xff⟩), ("dh", ⟨"edx", 8, some 0xff⟩), ("ax", ⟨"eax", 0, some 0xffff⟩),
    ("bx", ⟨"ebx", 0, some 0xffff⟩), ("cx", ⟨"ecx", 0, some 0xffff⟩), ("dx", ⟨"edx", 0, some 0xffff⟩)]
    ++ intelFlags
  instrPointer := some "eip"
  stackPointer := some "esp"
  framePointer := some "ebp"

/-- ARM 32 bit (`cpu.py:13-16`, `linux_struct.py:118-119`). -/
def regsArm32 : RegTable where
  fields := ["r0", "r1", "r2", "r3", "r4", "r5", "r6", "r7", "r8", "r9", "r10", "r11", "r12", "r13", "r14",
    "r15", "r16", "r17"].map fun n => (n, 32)
  subs := []
  instrPointer := some "r15"
  stackPointer := some "r14"
  framePointer := some "r11"

/-- AArch64 (`cpu.py:17-20`, `linux_struct.py:120-125`). -/
def regsAarch64 : RegTable where
  fields := ["r0", "r1", "r2", "r3", "r4", "r5", "r6", "r7", "r8", "r9", "r10", "r11", "r12", "r13", "r14",
    "r15", "r16", "r17", "r18", "r19", "r20", "r21", "r22", "r23", "r24", "r25", "r26", "r27", "r28", "r29",
    "r30", "sp", "pc", "pstate"].map fun n => (n, 64)
  subs := []
  instrPointer := some "pc"
  stackPointer := some "sp"
  framePointer := some "r29"

/-- RISC-V (`cpu.py:21-24`, `linux_struct.py:126-160`), word size `bits`. -/
def regsRiscv (bits : Nat) : RegTable where
  fields := ["pc", "ra", "sp", "gp", "tp", "t0", "t1", "t2", "s0", "s1", "a0", "a1", "a2", "a3", "a4", "a5",
    "a6", "a7", "s2", "s3", "s4", "s5", "s6", "s7", "s8", "s9", "s10", "s11", "t3", "t4", "t5", "t6"].map
    fun n => (n, bits)
  subs := []
  instrPointer := some "pc"
  stackPointer := some "sp"
  framePointer := some "s0"

/-- PowerPC (`cpu.py:9-12`, `linux_struct.py:24-117`): the two structures differ in one field name. -/
def regsPowerpc (is64 : Bool) : RegTable where
  fields := (["gpr0", "gpr1", "gpr2", "gpr3", "gpr4", "gpr5", "gpr6", "gpr7", "gpr8", "gpr9", "gpr10", "gpr11",
    "gpr12", "gpr13", "gpr14", "gpr15", "gpr16", "gpr17", "gpr18", "gpr19", "gpr20", "gpr21", "gpr22", "gpr23",
    "gpr24", "gpr25", "gpr26", "gpr27", "gpr28", "gpr29", "gpr30", "gpr31", "nip", "msr", "orig_gpr3", "ctr",
    "link", "xer", "ccr"] ++ [if is64 then "softe" else "mq"] ++ ["trap", "dar", "dsisr", "result"]).map
    fun n => (n, if is64 then 64 else 32)
  subs := []
  instrPointer := some "nip"
  stackPointer := some "gpr1"
  framePointer := none

/-- All tables. -/
def regTables : List RegTable := [regsX86_64, regsI386, regsArm32, regsAarch64, regsRiscv 32, regsRiscv 64,
  regsPowerpc false, regsPowerpc true]

end PT
