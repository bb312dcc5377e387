import Verif.Spec.Syscall
import Verif.Spec.Debugger
import Verif.Spec.Text
import Verif.Model.Strace

/-! What `strace.py` must do, stated on the log of system calls and on the events of a run. -/

namespace PT.Spec

/-- The requests of a log that resume, signal, attach or detach a process, in order. -/
def acting (g : List Entry) : List Call := (g.map Entry.call).filter fun c => (target c).isSome

/-- The signal passed on: all but `SIGTRAP`. -/
def passed (signum : Nat) : Nat := if signum = 5 then 0 else signum

/-- At this stop the end of `execve` is reported and the trap that follows it is awaited. -/
def ExecTrap (s : DSt) (o : Nat) : Prop :=
  (s.heap o).ss.nextExit = true ∧ (s.heap o).ss.name = some ['e', 'x', 'e', 'c', 'v', 'e'] ∧ s.traceExec = false

instance (s : DSt) (o : Nat) : Decidable (ExecTrap s o) := by unfold ExecTrap; infer_instance

/-- Requests that answer what `waitSyscall` returned or raised in state `s`. The stop after an
`execve` is answered by a second request. -/
def answers (s : DSt) : Except Exc Event → List Call
  | .ok ev =>
    if ExecTrap s ev.proc then
      [.syscall ev.proc (s.heap ev.proc).pid 0, .syscall ev.proc (s.heap ev.proc).pid 0]
    else [.syscall ev.proc (s.heap ev.proc).pid 0]
  | .error (.event (.exit _ _ _)) => []
  | .error (.event (.signal o signum)) => [.syscall o (s.heap o).pid (passed signum)]
  | .error (.event (.newProcess q)) =>
    .syscall q (s.heap q).pid 0 :: match (s.heap q).parent with
      | some p => [.syscall p (s.heap p).pid 0]
      | none => []
  | .error (.event (.execution o)) => [.syscall o (s.heap o).pid 0]
  | .error _ => []

/-- Turns of the loop from `s` with exit code `code`: for each turn what `waitSyscall` returned or
raised and the state it left. -/
inductive Turns (K : Kern) (fuel : Nat) (C : StraceCfg) (s : DSt) (code : Nat) :
    List (Except Exc Event × DSt) → DSt → Nat → Prop where
  | nil : Turns K fuel C s code [] s code
  | snoc {es : List (Except Exc Event × DSt)} {t v w : DSt} {c c' : Nat} {r : Except Exc Event}
      (h : Turns K fuel C s code es t c) (some : iterate t ≠ []) (wait : waitSyscall K fuel none t = (r, v))
      (handle : straceHandle K fuel C r c v = (.ok c', w)) : Turns K fuel C s code (es ++ [(r, v)]) w c'

/-- A state in which the loop starts a turn. -/
def AtLoop (K : Kern) (fuel : Nat) (C : StraceCfg) (t : DSt) : Prop :=
  ∃ s o u es c, Reach K s ∧ o ∈ iterate s ∧ prepareProcess K o s = (.ok (), u) ∧ Turns K fuel C u 0 es t c

/-- Processes that are stopped when the event of process `o` is reported. -/
def leftStopped (o : Nat) : Event → List Nat
  | .exit _ _ _ => []
  | .signal _ _ => [o]
  | .newProcess q => [q, o]
  | .execution _ => [o]

/-- The signal to pass on: none for the stop of a system call. -/
def passedOn (sysgood : Bool) : Event → Nat
  | .signal _ signum => if signum = (if sysgood then 0x85 else 5) then 0 else passed signum
  | _ => 0

/-- One `PTRACE_SYSCALL` with signal `n` for each process. -/
def resumed (s : DSt) (n : Nat) (ps : List Nat) : List Call := ps.map fun p => .syscall p (s.heap p).pid n

/-- Exit code after an event: the code of a process that exited, 128 plus the signal that was passed
on, otherwise as before. -/
def codeAfter (code : Nat) : Except Exc Event → Nat
  | .error (.event (.exit _ _ (some c))) => c
  | .error (.event (.signal _ signum)) => 128 + signum
  | _ => code

/-- Names among the items of a comma separated list: the items without surrounding white space, if any
text is left. -/
def Named (space : Char → Bool) (items : List Str) (name : Str) : Prop :=
  name ≠ [] ∧ ∃ item ∈ items, Stripped space item name

/-- The calls selected by the options. -/
def Selected (T : SysTables) (space : Char → Bool) (sel : Selection) (name : Str) : Prop :=
  (∃ text items, sel.syscalls = some text ∧ Pieces ',' text items ∧ Named space items name) ∨
  (sel.filename = true ∧ ∃ args, (name, args) ∈ T.prototypes ∧ ∃ a ∈ args, a ∈ T.filenameArguments) ∨
  (sel.socket = true ∧ name ∈ T.socketNames)

end PT.Spec
