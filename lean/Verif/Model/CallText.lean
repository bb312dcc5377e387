import Verif.Model.ArgText
import Verif.Model.Lines

/-
Model of the texts that `strace.py` prints for a system call, from the registers and the memory of the process: the objects of `Model/Call` with the
texts of `Model/ArgText` and `Model/Format`, as a `LineView` for the loop of `Model/Lines`.

* A stop is known to `Model/Syscall` by the value of the reply to the `inspect` request; here it stands for registers and memory.
* Every text is made from the state of the memory at the stop: the requests made for one text do not change the replies for the next.
* Interrupts while a text is made are left out.
-/

namespace PT

/-- The registers and the memory of a stopped process. -/
structure Snap where
  regs : String → Nat
  mem : MemSt

/-- What the texts depend on besides the process: the CPU, the options of `strace.py` (`strace.py:225-241`), `errno.errorcode` and `os.strerror`. -/
structure CallHost where
  cpu : CallCpu
  env : ArgEnv MemSt
  /-- `replace_socketcall`: no `--raw-socketcall` -/
  replace : Bool
  /-- `--enter` -/
  enter : Bool
  errorcode : Nat → Option Str
  strerror : Nat → Str

/-- The text that `createText` gives for an argument of the call `c`; the text that the argument has plays no part in it. -/
def CallHost.text (T : CallHost) (m : MemSt) (c : SysCall) (a : SysArg) : Str :=
  match (argText T.env c { a with text := none } m).1 with
  | .ok t => t
  | .error _ => []

/-- `PtraceSyscall(...)` and `enter` (`ptrace_syscall.py:56-80`): the call as read, and with the arguments that are formatted now. -/
def CallHost.begun (T : CallHost) (w : Snap) : Except Exc (SysCall × SysCall) :=
  (Py.bind (argsRead T.cpu T.env.arch.W T.replace T.env.readWord w.regs) (fun c =>
    Py.bind (preformat (fun _ => T.text w.mem c) c) fun d => Py.pure (c, d)) w.mem).1

/-- `FunctionCall.format` (`func_call.py:63-77`) on arguments that have their texts. -/
def CallHost.format (T : CallHost) (c : SysCall) : Str :=
  callFormat ⟨T.env.writeTypes, T.env.writeArgname⟩ c.restype.toList c.name.toList
    (c.arguments.map fun a => ⟨(a.type.getD "").toList, (a.name.getD "").toList, a.text.getD []⟩)

/-- `syscall.format()` of a call that has no result, begun in `w`, with the memory `m`. -/
def CallHost.startText (T : CallHost) (w : Snap) (m : MemSt) : Str :=
  match T.begun w with
  | .ok (c, d) => T.format (argsFormat (fun _ => T.text m c) d)
  | .error _ => []

/-- `syscall.format()` of a call begun in `w` and ended in `w'`; with `--enter` it was formatted when it began (`strace.py:191-197`). -/
def CallHost.endText (T : CallHost) (w w' : Snap) : Str :=
  match T.begun w with
  | .ok (c, d) => T.format (argsFormat (fun _ => T.text w'.mem c) (argsExit (if T.enter then argsFormat (fun _ => T.text w.mem c) d else d)))
  | .error _ => []

/-- `result_text` (`ptrace_syscall.py:137-155`). -/
def CallHost.resultAt (T : CallHost) (w w' : Snap) : Str :=
  match T.begun w with
  | .ok (c, _) => resultText T.env.arch T.errorcode T.strerror (isPointer c.restype) (w'.regs T.cpu.result)
  | .error _ => []

/-- The texts of the calls for the loop of `strace.py`: `world` gives the stops, `gone` the memory of a process that has ended. -/
def CallHost.view (T : CallHost) (world : Nat → Snap) (gone : MemSt) (base : LineView) : LineView :=
  { base with
    arch := T.env.arch
    call := fun c => match c.result with
      | some v => T.endText (world c.entry) (world v)
      | none => T.startText (world c.entry) (if T.enter then (world c.entry).mem else gone)
    result := fun c => T.resultAt (world c.entry) (world (c.result.getD 0))
    ip := fun c => match T.cpu.regs.instrPointer with
      | some r => (world c.entry).regs r
      | none => 0 }

end PT
