import Verif.Spec.Ends
import Verif.Spec.Debugger
import Verif.Spec.Asks

/-! No signal after the end of a process. -/

namespace PT.Spec

/-- By this reply to a wait the kernel tells that the process with this number is over: it was waited for it or for any process and the result is its end, or it was
waited for it and there is no such child (`ECHILD`). -/
def WaitTells (p : Nat) (e : Entry) : Prop :=
  p ≠ 0 ∧ ((∃ w nohang wall st, e.call = .waitpid w nohang wall ∧ (w = some p ∨ w = none) ∧ e.reply = .ok p st ∧ OverStatus st) ∨
    ∃ nohang wall, e.call = .waitpid (some p) nohang wall ∧ e.reply = .err 10)

/-- None of these signals is sent by kill(2) on behalf of an object when the kernel told the end of its process before, while the object was registered. -/
def SparesEnded (signals : Nat → Prop) (log : List Entry) : Prop :=
  ∀ before e after, log = before ++ e :: after → ∀ o p n, e.call = .kill o p n → signals n → ∀ x ∈ before, ∀ q, WaitTells q x → (q, o) ∉ x.dict

/-- PTRACE_DETACH is not requested for an object when the kernel told the end of its process before, while the object was registered. -/
def DetachesLiving (log : List Entry) : Prop :=
  ∀ before e after, log = before ++ e :: after → ∀ o p, e.call = .detach o p → ∀ x ∈ before, ∀ q, WaitTells q x → (q, o) ∉ x.dict

/-- The kernel answers for the process that is asked for, and the first stop of a process that it tells is by a signal: a fork, a clone, an exec or another event is told only
of a process that was stopped before. -/
def PlainLog (log : List Entry) : Prop :=
  TruthfulLog log ∧ ∀ before e after, log = before ++ e :: after → ∀ w nohang wall v st n, e.call = .waitpid w nohang wall → e.reply = .ok v st → v ≠ 0 →
    waitMeaning st = .event n → ∃ o, (v, o) ∈ e.dict ∧ ∃ x ∈ before, StopTold o x

/-- Any sequence of calls, going on after exceptions; `kill` is called for processes that are running as far as the debugger knows. -/
inductive ReachSpare (K : Kern) : DSt → Prop where
  | new : ReachSpare K newDebugger
  | call {s : DSt} (h : ReachSpare K s) (fuel : Nat) (op : Op) (hop : ∀ o n, op = .kill o n → (s.heap o).running = true) : ReachSpare K (runOp K fuel op s).2

end PT.Spec
