import Verif.Model.BsdWrap
import Verif.Model.Call
import Verif.Model.Format
import Verif.Model.FreebsdTable

/-
Model of `PtraceSyscall` (`ptrace/syscall/ptrace_syscall.py`) on FreeBSD and OpenBSD with Intel CPUs: the system call, its arguments and its
result. The registers are a function of their name; the stack is read by `readWord`.
-/

namespace PT

/-- `SYSCALL_NAMES` (`names.py:21-25`). -/
def BsdHost.names (h : BsdHost) : List (Nat × String) := if h.openbsd then [] else Tables.freebsd

/-- `SYSCALL_REGISTER` (`ptrace_syscall.py:26-30`) and `RETURN_VALUE_REGISTER` (36-39). -/
def BsdHost.accumulator (h : BsdHost) : String := if h.x86_64 then "rax" else "eax"

/-- `CPU_WORD_SIZE` (`cpu_info.py:27-32`). -/
def BsdHost.arch (h : BsdHost) : Arch := ⟨h.x86_64, false⟩

/-- `readSyscall` (`ptrace_syscall.py:85-90`). -/
def bsdReadSyscall (h : BsdHost) (regs : String → Nat) : String :=
  match h.names.lookup (regs h.accumulator) with
  | some name => name
  | none => "syscall<" ++ toString (regs h.accumulator) ++ ">"

/-- The words of the stack (`ptrace_syscall.py:102-104`): `n` of them, the first at `address`. -/
def bsdStackWords {σ : Type} (W : Nat) (readWord : Nat → Py σ Nat) : Nat → Nat → Py σ (List Nat)
  | 0, _ => Py.pure []
  | n + 1, address =>
    Py.bind (readWord address) fun value =>
    Py.bind (bsdStackWords W readWord n (address + W)) fun rest => Py.pure (value :: rest)

/-- `readArgumentValues` (`ptrace_syscall.py:92-104`). -/
def bsdArgumentValues {σ : Type} (h : BsdHost) (readWord : Nat → Py σ Nat) (regs : String → Nat) : Py σ (List Nat) :=
  if h.x86_64 then Py.pure (["rdi", "rsi", "rdx", "r10", "r8", "r9"].map regs)
  else bsdStackWords h.arch.W readWord 6 (regs "esp" + h.arch.W)

/-- `enter` (`ptrace_syscall.py:67-80`). -/
def bsdEnter {σ : Type} (h : BsdHost) (replace : Bool) (readWord : Nat → Py σ Nat) (create : String → SysArg → Str)
    (regs : String → Nat) : Py σ SysCall :=
  Py.bind (bsdArgumentValues h readWord regs) fun values =>
  let c := readArguments prototypes { name := bsdReadSyscall h regs } values
  if c.name = "socketcall" ∧ replace then
    match c.arguments with
    | a :: b :: _ => Py.bind (setupSocketCall h.arch.W readWord a.value b.value) fun c => preformat create c
    | _ => Py.raise .index
  else preformat create c

/-- The text of the result (`exit`, `ptrace_syscall.py:137-155`). -/
def bsdExit (h : BsdHost) (errorcode : Nat → Option Str) (strerror : Nat → Str) (c : SysCall) (regs : String → Nat) : Str :=
  resultText h.arch errorcode strerror (isPointer c.restype) (regs h.accumulator)

end PT
