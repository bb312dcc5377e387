import Verif.Model.Regs
import Verif.Model.Text

/-
Model of the constants about the CPU and the operating system, computed once when the package is imported:
`/repo/ptrace/cpu_info.py`, `/repo/ptrace/binding/cpu.py`, `/repo/ptrace/os_tools.py`, and the choice of the
register structure on Linux (`/repo/ptrace/binding/linux_struct.py:23-216`).

Simplified: strings are lists of characters; `sys.version` and `sys.version_info` (`RUNNING_PYPY`,
`RUNNING_PYTHON3`) are left out, nothing else reads them.
-/

namespace PT

/-- What the interpreter says about the machine: `os.uname()[4]` (`none`: `os` has no `uname`),
`platform.architecture()[0]`, `sizeof(c_void_p)` and `byteorder == 'big'` (`cpu_info.py:16-27`). -/
structure CpuHost where
  uname : Option Str
  bits : Str
  pointer : Nat
  big : Bool

/-- The constants of `cpu_info.py:26-67`. -/
structure CpuInfo where
  bigEndian : Bool
  is64 : Bool
  wordSize : Nat
  maxUint : Nat
  ppc32 : Bool := false
  ppc64 : Bool := false
  i386 : Bool := false
  x86_64 : Bool := false
  arm32 : Bool := false
  aarch64 : Bool := false
  riscv32 : Bool := false
  riscv64 : Bool := false
  deriving DecidableEq, Repr

/-- `cpu_info.py:29-34` with nothing known about the machine. -/
def cpuWord (h : CpuHost) : CpuInfo :=
  if h.pointer = 8 then { bigEndian := h.big, is64 := true, wordSize := 8, maxUint := 0xffffffffffffffff }
  else { bigEndian := h.big, is64 := false, wordSize := 4, maxUint := 0xffffffff }

/-- The body of `cpu_info.py` (`cpu_info.py:26-62`). -/
def cpuInfo (h : CpuHost) : Except Exc CpuInfo :=
  match h.uname with
  | some machine => .ok { cpuWord h with
      ppc32 := machine == "ppc".toList
      ppc64 := machine == "ppc64".toList || machine == "ppc64le".toList
      i386 := machine == "i386".toList || machine == "i686".toList
      x86_64 := machine == "x86_64".toList || machine == "amd64".toList
      arm32 := "arm".toList.isPrefixOf machine
      aarch64 := machine == "aarch64".toList
      riscv32 := machine == "riscv32".toList
      riscv64 := machine == "riscv64".toList }
  | none =>
    if h.bits = "32bit".toList then .ok { cpuWord h with i386 := true }
    else if h.bits = "64bit".toList then .ok { cpuWord h with x86_64 := true }
    else .error .value

/-- `CPU_INTEL`, `CPU_POWERPC`, `CPU_ARM`, `CPU_RISCV` (`cpu_info.py:64-67`). -/
def CpuInfo.intel (c : CpuInfo) : Bool := c.i386 || c.x86_64
def CpuInfo.powerpc (c : CpuInfo) : Bool := c.ppc32 || c.ppc64
def CpuInfo.arm (c : CpuInfo) : Bool := c.arm32 || c.aarch64
def CpuInfo.riscv (c : CpuInfo) : Bool := c.riscv32 || c.riscv64

/-- `CPU_INSTR_POINTER`, `CPU_STACK_POINTER`, `CPU_FRAME_POINTER` (`binding/cpu.py:4-59`). -/
def CpuInfo.pointers (c : CpuInfo) : Option String × Option String × Option String :=
  if c.powerpc then (some "nip", some "gpr1", none)
  else if c.arm32 then (some "r15", some "r14", some "r11")
  else if c.aarch64 then (some "pc", some "sp", some "r29")
  else if c.riscv then (some "pc", some "sp", some "s0")
  else if c.x86_64 then (some "rip", some "rsp", some "rbp")
  else if c.i386 then (some "eip", some "esp", some "ebp")
  else (none, none, none)

/-- `CPU_SUB_REGISTERS` (`binding/cpu.py:7,30-87`), the flags last. -/
def CpuInfo.subRegisters (c : CpuInfo) : List (String × SubReg) :=
  if c.powerpc || c.arm32 || c.aarch64 || c.riscv then []
  else if c.x86_64 then regsX86_64.subs
  else if c.i386 then regsI386.subs
  else []

/-- The fields of `user_regs_struct` with their width in bits (`linux_struct.py:23-216`): `c_ulong` has the
size of a pointer on Linux. -/
def CpuInfo.regFields (c : CpuInfo) : List (String × Nat) :=
  let ulong := 8 * c.wordSize
  if c.ppc32 then (regsPowerpc false).names.map fun n => (n, ulong)
  else if c.ppc64 then (regsPowerpc true).names.map fun n => (n, ulong)
  else if c.arm32 then regsArm32.names.map fun n => (n, ulong)
  else if c.aarch64 then regsAarch64.names.map fun n => (n, ulong)
  else if c.riscv then (regsRiscv 0).names.map fun n => (n, ulong)
  else if c.is64 then regsX86_64.names.map fun n => (n, ulong)
  else regsI386.fields.map fun f => (f.1, if f.2 = 16 then 16 else ulong)

/-- What `process.py` works with on this machine. -/
def CpuInfo.table (c : CpuInfo) : RegTable where
  fields := c.regFields
  subs := c.subRegisters
  instrPointer := c.pointers.1
  stackPointer := c.pointers.2.1
  framePointer := c.pointers.2.2

/-- The constants of `os_tools.py:18-28` for `sys.platform`. -/
structure OsInfo where
  linux : Bool
  freebsd : Bool
  openbsd : Bool
  macosx : Bool
  deriving DecidableEq, Repr

def osInfo (platform : Str) : OsInfo where
  linux := "linux".toList.isPrefixOf platform
  freebsd := "freebsd".toList.isPrefixOf platform || "gnukfreebsd".toList.isPrefixOf platform
  openbsd := "openbsd".toList.isPrefixOf platform
  macosx := platform == "darwin".toList

def OsInfo.bsd (o : OsInfo) : Bool := o.freebsd || o.macosx || o.openbsd
def OsInfo.hasProc (o : OsInfo) : Bool := o.linux
def OsInfo.hasPtrace (o : OsInfo) : Bool := o.bsd || o.linux

end PT
