import Verif.Model.Wrappers

/-
Model of the `ptrace_*` functions of `ptrace/binding/func.py` on FreeBSD and OpenBSD (`func.py:8-15,56-83,302-324`), of the structures of
registers there (`freebsd_struct.py`, `openbsd_struct.py`) and of `PtraceProcess.getregs` (`process.py:415-427`). The binding and the memory of
the tracer are those of `Model/Wrappers`. A `NameError` is written `.attribute`.
-/

namespace PT

/-- `RUNNING_OPENBSD` (otherwise FreeBSD), `CPU_X86_64` and `CPU_POWERPC`. -/
structure BsdHost where
  openbsd : Bool
  x86_64 : Bool
  powerpc : Bool
  deriving DecidableEq, Repr

/-- `reg._fields_` (`freebsd_struct.py:12-66`, `openbsd_struct.py:14-32`); `ulong` is `c_ulong`. -/
def BsdHost.regFields (h : BsdHost) (ulong : CT) : List (String × CT) :=
  if h.openbsd then
    (["eax", "ecx", "edx", "ebx", "esp", "ebp", "esi", "edi", "eip", "eflags", "cs", "ss", "ds", "es", "fs", "gs"]).map fun n => (n, CT.prim 4)
  else if h.x86_64 then
    (["r15", "r14", "r13", "r12", "r11", "r10", "r9", "r8", "rdi", "rsi", "rbp", "rbx", "rdx", "rcx", "rax"]).map (fun n => (n, ulong)) ++
    [("trapno", CT.prim 4), ("fs", CT.prim 2), ("gs", CT.prim 2), ("err", CT.prim 4), ("es", CT.prim 2), ("ds", CT.prim 2),
     ("rip", ulong), ("cs", ulong), ("rflags", ulong), ("rsp", ulong), ("ss", ulong)]
  else
    (["fs", "es", "ds", "edi", "esi", "ebp", "isp", "ebx", "edx", "ecx", "eax", "trapno", "err", "eip", "cs", "eflags", "esp", "ss",
      "gs"]).map fun n => (n, CT.prim 4)

/-- `sizeof(regs)` -/
def BsdHost.regsSize (h : BsdHost) (m : WrapEnv) : Nat := (CT.struct (h.regFields m.ulong)).size

/-- `ptrace_attach` (`func.py:176-177`; `func.py:58,74`). -/
def bsd_attach (h : BsdHost) (m : WrapEnv) (pid : Nat) : Py WrapSt Unit := doPtrace m (if h.openbsd then 9 else 10) pid 0 0

/-- `ptrace_detach` (`func.py:180-181`; `func.py:59,75`). -/
def bsd_detach (h : BsdHost) (m : WrapEnv) (pid signal : Nat) : Py WrapSt Unit := doPtrace m (if h.openbsd then 10 else 11) pid 0 signal

/-- `ptrace_syscall` (`func.py:303-304`; `func.py:76`): OpenBSD has no `PTRACE_SYSCALL`. -/
def bsd_syscall (h : BsdHost) (m : WrapEnv) (pid signum : Nat) : Py WrapSt Unit :=
  if h.openbsd then Py.raise .attribute else doPtrace m 22 pid 1 signum

/-- `ptrace_cont` (`func.py:306-307`; `func.py:51`). -/
def bsd_cont (m : WrapEnv) (pid signum : Nat) : Py WrapSt Unit := doPtrace m 7 pid 1 signum

/-- `ptrace_singlestep` (`func.py:318-320`; `func.py:54,67`). -/
def bsd_singlestep (h : BsdHost) (m : WrapEnv) (pid : Nat) : Py WrapSt Unit := doPtrace m (if h.openbsd then 32 else 9) pid 1 0

/-- `ptrace_getregs` (`func.py:309-313`; `func.py:61,79`). -/
def bsd_getregs (h : BsdHost) (m : WrapEnv) (pid : Nat) : Py WrapSt Nat :=
  Py.bind (newObject m 0 (h.regsSize m)) fun regs =>
  Py.bind (doPtrace m 33 pid regs 0) fun _ => Py.pure regs

/-- `ptrace_setregs` (`func.py:315-316`; `func.py:62,80`). -/
def bsd_setregs (m : WrapEnv) (pid regs : Nat) : Py WrapSt Unit := doPtrace m 34 pid regs 0

/-- `ptrace_io` (`func.py:322-324`; `func.py:66,82`). -/
def bsd_io (h : BsdHost) (m : WrapEnv) (pid io_desc : Nat) : Py WrapSt Unit := doPtrace m (if h.openbsd then 11 else 12) pid io_desc 0

/-- The loop of `getregs` without `PTRACE_GETREGS` (`process.py:420-425`): the words from the offset on. -/
def bsdPeekRegs (m : WrapEnv) (pid : Nat) : Nat → Nat → Py WrapSt (List Nat)
  | 0, _ => Py.pure []
  | n + 1, offset =>
    Py.bind (ptrace_peekuser m pid (offset * m.bind.arch.W)) fun word =>
    Py.bind (bsdPeekRegs m pid n (offset + 1)) fun words => Py.pure (word :: words)

/-- `PtraceProcess.getregs` (`process.py:415-427`; `HAS_PTRACE_GETREGS`: `func.py:60,77-78`): joining byte strings with an empty text is a
`TypeError`, unless there are none. -/
def bsdProcGetregs (h : BsdHost) (m : WrapEnv) (pid : Nat) : Py WrapSt Nat :=
  if h.openbsd || !h.powerpc then bsd_getregs h m pid
  else
    Py.bind (bsdPeekRegs m pid (h.regsSize m / m.bind.arch.W) 0) fun words =>
    match words with
    | [] => newObject m 0 (h.regsSize m)
    | _ :: _ => Py.raise .type

end PT
