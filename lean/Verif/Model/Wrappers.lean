import Verif.Model.Binding
import Verif.Model.Memory
import Verif.Model.Regs

/-
Model of the `ptrace_*` functions of `ptrace/binding/func.py:172-300` on Linux, of the ctypes structures they fill
(`ptrace/binding/linux_struct.py`) and of the memory of the tracer that the kernel reads and writes.

A ctypes object is the address of its buffer in the memory of the tracer. The environment says where new objects are placed and what the
kernel does to the memory of the tracer when it carries out a request. The BSD branches (`func.py:302-324`) are in `Model/BsdWrap`.
-/

namespace PT

/-! ### Layout of ctypes structures (Python runtime: native alignment) -/

/-- Size and alignment of a C type, and the number of items if it is an array. -/
structure CT where
  size : Nat
  align : Nat
  items : Nat
  deriving DecidableEq, Repr

/-- An integer of `n` bytes. -/
def CT.prim (n : Nat) : CT := ⟨n, n, 1⟩

/-- `t * n` -/
def CT.array (t : CT) (n : Nat) : CT := ⟨n * t.size, t.align, n⟩

/-- Next multiple of `align`. -/
def alignUp (off align : Nat) : Nat := (off + align - 1) / align * align

/-- Name, offset and type of the fields of a `Structure`, the first one at or after `off`. -/
def placeFields (off : Nat) : List (String × CT) → List (String × Nat × CT)
  | [] => []
  | (name, t) :: rest => (name, alignUp off t.align, t) :: placeFields (alignUp off t.align + t.size) rest

/-- First byte after the last field. -/
def placeEnd (off : Nat) : List (String × CT) → Nat
  | [] => off
  | (_, t) :: rest => placeEnd (alignUp off t.align + t.size) rest

/-- Largest alignment of the fields. -/
def maxAlign (fields : List (String × CT)) : Nat := fields.foldl (fun a f => max a f.2.align) 1

/-- A `Structure`. -/
def CT.struct (fields : List (String × CT)) : CT := ⟨alignUp (placeEnd 0 fields) (maxAlign fields), maxAlign fields, 1⟩

/-- A `Union`: every field at offset 0. -/
def CT.union (fields : List (String × CT)) : CT :=
  ⟨alignUp (fields.foldl (fun a f => max a f.2.size) 0) (maxAlign fields), maxAlign fields, 1⟩

/-- Offset and type of a field of a `Structure`. -/
def fieldOf (fields : List (String × CT)) (name : String) : Option (Nat × CT) := (placeFields 0 fields).lookup name

/-! ### The machine -/

/-- The machine and the run time below the functions: `uname()[4]`, the binding, what the kernel does to the memory of the tracer when it
carries out a request (after the earlier requests, last first), and where ctypes puts the n-th object created since the last request. -/
structure WrapEnv where
  machine : String
  bind : BindEnv
  hasCptrace : Bool
  effect : List PtraceReq → PtraceReq → (Nat → Byte) → (Nat → Byte)
  place : List PtraceReq → Nat → Nat

/-- State: the binding and the memory of the tracer. -/
structure WrapSt where
  bind : BindSt
  mem : Nat → Byte

/-- `CPU_PPC32`, `CPU_PPC64`, `CPU_ARM32`, `CPU_AARCH64`, `CPU_RISCV` (`cpu_info.py:36-45,67`). -/
def WrapEnv.ppc32 (m : WrapEnv) : Bool := m.machine == "ppc"
def WrapEnv.ppc64 (m : WrapEnv) : Bool := m.machine == "ppc64" || m.machine == "ppc64le"
def WrapEnv.arm32 (m : WrapEnv) : Bool := "arm".toList.isPrefixOf m.machine.toList
def WrapEnv.aarch64 (m : WrapEnv) : Bool := m.machine == "aarch64"
def WrapEnv.riscv (m : WrapEnv) : Bool := m.machine == "riscv32" || m.machine == "riscv64"

/-- `c_ulong` and `c_void_p`, `c_size_t`. -/
def WrapEnv.ulong (m : WrapEnv) : CT := CT.prim m.bind.arch.W

/-- `user_regs_struct._fields_` (`linux_struct.py:23-216`); the names are those of the tables in `Model/Regs.lean`. -/
def WrapEnv.regFields (m : WrapEnv) : List (String × CT) :=
  if m.ppc32 then (regsPowerpc false).names.map fun n => (n, m.ulong)
  else if m.ppc64 then (regsPowerpc true).names.map fun n => (n, m.ulong)
  else if m.arm32 then regsArm32.names.map fun n => (n, m.ulong)
  else if m.aarch64 then regsAarch64.names.map fun n => (n, m.ulong)
  else if m.riscv then (regsRiscv 0).names.map fun n => (n, m.ulong)
  else if m.bind.arch.is64 then regsX86_64.names.map fun n => (n, m.ulong)
  else regsI386.fields.map fun f => (f.1, if f.2 = 16 then CT.prim 2 else m.ulong)

/-- `user_fpregs_struct._fields_` (`linux_struct.py:219-244`). -/
def WrapEnv.fpregFields (m : WrapEnv) : List (String × CT) :=
  if m.bind.arch.is64 then
    [("cwd", CT.prim 2), ("swd", CT.prim 2), ("ftw", CT.prim 2), ("fop", CT.prim 2), ("rip", CT.prim 8), ("rdp", CT.prim 8),
     ("mxcsr", CT.prim 4), ("mxcr_mask", CT.prim 4), ("st_space", CT.array (CT.prim 4) 32), ("xmm_space", CT.array (CT.prim 4) 64),
     ("padding", CT.array (CT.prim 4) 24)]
  else
    [("cwd", m.ulong), ("swd", m.ulong), ("twd", m.ulong), ("fip", m.ulong), ("fcs", m.ulong), ("foo", m.ulong), ("fos", m.ulong),
     ("st_space", CT.array m.ulong 20)]

/-- `user_fpxregs_struct._fields_` (`linux_struct.py:247-264`). -/
def WrapEnv.fpxregFields (m : WrapEnv) : List (String × CT) :=
  [("cwd", CT.prim 2), ("swd", CT.prim 2), ("twd", CT.prim 2), ("fop", CT.prim 2), ("fip", m.ulong), ("fcs", m.ulong),
   ("foo", m.ulong), ("fos", m.ulong), ("mxcsr", m.ulong), ("reserved", m.ulong), ("st_space", CT.array m.ulong 32),
   ("xmm_space", CT.array m.ulong 32), ("padding", CT.array m.ulong 56)]

/-- `_sifields_sigchld_t._fields_` (`linux_struct.py:275-282`, types `linux_struct.py:6-8`). -/
def sigchldFields : List (String × CT) :=
  [("pid", CT.prim 4), ("uid", CT.prim 2), ("status", CT.prim 4), ("utime", CT.prim 4), ("stime", CT.prim 4)]

/-- `_sifields_t._fields_` (`linux_struct.py:285-294`, `_sifields_sigfault_t` `linux_struct.py:269-272`). -/
def WrapEnv.sifields (m : WrapEnv) : List (String × CT) :=
  [("pad", CT.array (CT.prim 1) (128 - 3 * 4)), ("_sigchld", CT.struct sigchldFields), ("_sigfault", CT.union [("_addr", m.ulong)])]

/-- `siginfo._fields_` (`linux_struct.py:297-304`). -/
def WrapEnv.siginfoFields (m : WrapEnv) : List (String × CT) :=
  [("si_signo", CT.prim 4), ("si_errno", CT.prim 4), ("si_code", CT.prim 4), ("_sifields", CT.union m.sifields)]

/-- `iovec_struct._fields_` (`linux_struct.py:307-311`). -/
def WrapEnv.iovecFields (m : WrapEnv) : List (String × CT) := [("buf", m.ulong), ("len", m.ulong)]

/-! ### Objects -/

/-- An unsigned integer of `n` bytes in memory, as ctypes reads it. -/
def readUint (big : Bool) (mem : Nat → Byte) (address n : Nat) : Nat :=
  leValue (if big then (bytesAt mem address n).reverse else bytesAt mem address n)

/-- Bytes of an unsigned integer of `n` bytes, as ctypes writes it. -/
def uintBytes (big : Bool) (n value : Nat) : Bytes := if big then (leBytes n value).reverse else leBytes n value

/-- A new ctypes object of a type, filled with zeros: its address. -/
def newObject (m : WrapEnv) (n size : Nat) : Py WrapSt Nat := fun s =>
  (.ok (m.place s.bind.calls n), { s with mem := storeBytes s.mem (m.place s.bind.calls n) (List.replicate size 0) })

/-- `getattr(object, name)` of an unsigned integer field. -/
def getField (m : WrapEnv) (fields : List (String × CT)) (object : Nat) (name : String) (s : WrapSt) : Except Exc Nat :=
  match fieldOf fields name with
  | some (off, t) => .ok (readUint m.bind.arch.big s.mem (object + off) t.size)
  | none => .error .attribute

/-- `getattr(object, name)[i]` of an array of unsigned integers. -/
def getItem (m : WrapEnv) (fields : List (String × CT)) (object : Nat) (name : String) (i : Nat) (s : WrapSt) : Except Exc Nat :=
  match fieldOf fields name with
  | some (off, t) =>
    if i < t.items then .ok (readUint m.bind.arch.big s.mem (object + off + i * (t.size / t.items)) (t.size / t.items)) else .error .index
  | none => .error .attribute

/-- `setattr(object, name, value)` of an unsigned integer field: the value is reduced to the width of the field. -/
def setAttr (m : WrapEnv) (fields : List (String × CT)) (object : Nat) (name : String) (value : Nat) : Py WrapSt Unit := fun s =>
  match fieldOf fields name with
  | some (off, t) => (.ok (), { s with mem := storeBytes s.mem (object + off) (uintBytes m.bind.arch.big t.size (value % 256 ^ t.size)) })
  | none => (.error .attribute, s)

/-- The memory of the tracer after the calls of `ptrace` that lead from `before` to `after`: the kernel carries out a request that it does
not refuse. -/
def memAfter (m : WrapEnv) (before after : List PtraceReq) (mem : Nat → Byte) : Nat → Byte :=
  match after with
  | [] => mem
  | req :: rest =>
    if rest = before then
      match m.bind.kernel rest req with
      | .ok _ => m.effect rest req mem
      | .error _ => mem
    else mem

/-- `ptrace` (`func.py:147-169`) with what the kernel does to the memory of the tracer. -/
def ptraceM (m : WrapEnv) (command pid : Nat) (arg1 arg2 : Int) (checkErrno : Bool) : Py WrapSt Nat := fun s =>
  let r := ptrace m.bind m.hasCptrace command pid arg1 arg2 checkErrno s.bind
  (r.1, ⟨r.2, memAfter m s.bind.calls r.2.calls s.mem⟩)

/-- A call of `ptrace` whose result is not used. -/
def doPtrace (m : WrapEnv) (command pid : Nat) (arg1 arg2 : Int) : Py WrapSt Unit :=
  Py.bind (ptraceM m command pid arg1 arg2 false) fun _ => Py.pure ()

/-! ### The functions -/

/-- `ptrace_traceme` (`func.py:172-173`; `PTRACE_TRACEME` `func.py:44`). -/
def ptrace_traceme (m : WrapEnv) : Py WrapSt Unit := doPtrace m 0 0 0 0

/-- `ptrace_attach` (`func.py:176-177`; `func.py:97`). -/
def ptrace_attach (m : WrapEnv) (pid : Nat) : Py WrapSt Unit := doPtrace m 16 pid 0 0

/-- `ptrace_detach` (`func.py:180-181`; `func.py:98`). -/
def ptrace_detach (m : WrapEnv) (pid signal : Nat) : Py WrapSt Unit := doPtrace m 17 pid 0 signal

/-- `_peek` (`func.py:184-189`). -/
def peekM (m : WrapEnv) (command pid address : Nat) : Py WrapSt Nat :=
  if address % m.bind.arch.W ≠ 0 then Py.raise (.ptrace none) else ptraceM m command pid address 0 true

/-- `_poke` (`func.py:192-197`). -/
def pokeM (m : WrapEnv) (command pid address word : Nat) : Py WrapSt Unit :=
  if address % m.bind.arch.W ≠ 0 then Py.raise (.ptrace none) else doPtrace m command pid address word

/-- `ptrace_peektext` (`func.py:200-201`; `func.py:45`). -/
def ptrace_peektext (m : WrapEnv) (pid address : Nat) : Py WrapSt Nat := peekM m 1 pid address

/-- `ptrace_peekdata` (`func.py:204-205`; `func.py:46`). -/
def ptrace_peekdata (m : WrapEnv) (pid address : Nat) : Py WrapSt Nat := peekM m 2 pid address

/-- `ptrace_peekuser` (`func.py:208-209`; `func.py:47`). -/
def ptrace_peekuser (m : WrapEnv) (pid address : Nat) : Py WrapSt Nat := peekM m 3 pid address

/-- `ptrace_poketext` (`func.py:212-213`; `func.py:48`). -/
def ptrace_poketext (m : WrapEnv) (pid address word : Nat) : Py WrapSt Unit := pokeM m 4 pid address word

/-- `ptrace_pokedata` (`func.py:216-217`; `func.py:49`). -/
def ptrace_pokedata (m : WrapEnv) (pid address word : Nat) : Py WrapSt Unit := pokeM m 5 pid address word

/-- `ptrace_pokeuser` (`func.py:220-221`; `func.py:50`). -/
def ptrace_pokeuser (m : WrapEnv) (pid address word : Nat) : Py WrapSt Unit := pokeM m 6 pid address word

/-- `ptrace_kill` (`func.py:224-225`; `func.py:52`). -/
def ptrace_kill (m : WrapEnv) (pid : Nat) : Py WrapSt Unit := doPtrace m 8 pid 0 0

/-- `ptrace_setoptions` (`func.py:232-233`; `func.py:111`). -/
def ptrace_setoptions (m : WrapEnv) (pid options : Nat) : Py WrapSt Unit := doPtrace m 0x4200 pid 0 options

/-- `new_pid.value` of a `pid_t` (`c_int`, `func.py:40`): 32 bits, signed. -/
def intValue (m : WrapEnv) (object : Nat) (s : WrapSt) : Int := uint2int32 (readUint m.bind.arch.big s.mem object 4)

/-- `ptrace_geteventmsg` (`func.py:235-238`; `func.py:112`). -/
def ptrace_geteventmsg (m : WrapEnv) (pid : Nat) : Py WrapSt Int :=
  Py.bind (newObject m 0 4) fun new_pid =>
  Py.bind (doPtrace m 0x4201 pid 0 new_pid) fun _ s => (.ok (intValue m new_pid s), s)

/-- `ptrace_syscall` (`func.py:241-242`; `func.py:99`). -/
def ptrace_syscall (m : WrapEnv) (pid signum : Nat) : Py WrapSt Unit := doPtrace m 24 pid 0 signum

/-- `ptrace_cont` (`func.py:244-245`; `func.py:51`). -/
def ptrace_cont (m : WrapEnv) (pid signum : Nat) : Py WrapSt Unit := doPtrace m 7 pid 0 signum

/-- `ptrace_getsiginfo` (`func.py:247-250`; `func.py:107`). -/
def ptrace_getsiginfo (m : WrapEnv) (pid : Nat) : Py WrapSt Nat :=
  Py.bind (newObject m 0 (CT.struct m.siginfoFields).size) fun info =>
  Py.bind (doPtrace m 0x4202 pid 0 info) fun _ => Py.pure info

/-- `ptrace_setsiginfo` (`func.py:252-253`; `func.py:108`). -/
def ptrace_setsiginfo (m : WrapEnv) (pid info : Nat) : Py WrapSt Unit := doPtrace m 0x4203 pid 0 info

/-- `ptrace_getfpregs` (`func.py:255-258`; `func.py:101`). -/
def ptrace_getfpregs (m : WrapEnv) (pid : Nat) : Py WrapSt Nat :=
  Py.bind (newObject m 0 (CT.struct m.fpregFields).size) fun fpregs =>
  Py.bind (doPtrace m 14 pid 0 fpregs) fun _ => Py.pure fpregs

/-- `ptrace_setfpregs` (`func.py:260-261`; `func.py:102`). -/
def ptrace_setfpregs (m : WrapEnv) (pid fpregs : Nat) : Py WrapSt Unit := doPtrace m 15 pid 0 fpregs

/-- `ptrace_getfpxregs` (`func.py:264-267`; `func.py:104`), 32-bit machines only. -/
def ptrace_getfpxregs (m : WrapEnv) (pid : Nat) : Py WrapSt Nat :=
  Py.bind (newObject m 0 (CT.struct m.fpxregFields).size) fun fpxregs =>
  Py.bind (doPtrace m 18 pid 0 fpxregs) fun _ => Py.pure fpxregs

/-- `ptrace_setfpxregs` (`func.py:269-270`; `func.py:105`). -/
def ptrace_setfpxregs (m : WrapEnv) (pid fpxregs : Nat) : Py WrapSt Unit := doPtrace m 19 pid 0 fpxregs

/-- `HAS_PTRACE_GETREGS`, `HAS_PTRACE_SETREGS` (`func.py:85-87`). -/
def WrapEnv.hasGetregs (m : WrapEnv) : Bool := !(m.aarch64 || m.riscv)

/-- `sizeof(regs)`. -/
def WrapEnv.regsSize (m : WrapEnv) : Nat := (CT.struct m.regFields).size

/-- `ptrace_getregs` (`func.py:272-285`; `func.py:88-95`). -/
def ptrace_getregs (m : WrapEnv) (pid : Nat) : Py WrapSt Nat :=
  if m.hasGetregs then
    Py.bind (newObject m 0 m.regsSize) fun regs =>
    Py.bind (doPtrace m 12 pid 0 regs) fun _ => Py.pure regs
  else
    Py.bind (newObject m 0 m.regsSize) fun regs =>
    Py.bind (newObject m 1 (CT.struct m.iovecFields).size) fun iov =>
    Py.bind (setAttr m m.iovecFields iov "buf" regs) fun _ =>
    Py.bind (setAttr m m.iovecFields iov "len" m.regsSize) fun _ =>
    Py.bind (doPtrace m 0x4204 pid 1 iov) fun _ => Py.pure regs

/-- `ptrace_setregs` (`func.py:287-296`). -/
def ptrace_setregs (m : WrapEnv) (pid regs : Nat) : Py WrapSt Unit :=
  if m.hasGetregs then doPtrace m 13 pid 0 regs
  else
    Py.bind (newObject m 0 (CT.struct m.iovecFields).size) fun iov =>
    Py.bind (setAttr m m.iovecFields iov "buf" regs) fun _ =>
    Py.bind (setAttr m m.iovecFields iov "len" m.regsSize) fun _ =>
    doPtrace m 0x4205 pid 1 iov

/-- `ptrace_singlestep` (`func.py:299-300`; `func.py:54`). -/
def ptrace_singlestep (m : WrapEnv) (pid : Nat) : Py WrapSt Unit := doPtrace m 9 pid 0 0

end PT
