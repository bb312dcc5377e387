import Verif.Spec.Wait
import Verif.Model.Debugger

/-! Requests are made to stopped processes: independent statement. -/

namespace PT.Spec

/-- By this reply the kernel tells that the process of object `o` has stopped, by a signal or for an event. -/
def StopTold (o : Nat) (e : Entry) : Prop :=
  ∃ w nohang wall p st, e.call = .waitpid w nohang wall ∧ e.reply = .ok p st ∧ p ≠ 0 ∧ (p, o) ∈ e.dict ∧
    ((∃ n, waitMeaning st = .signal n) ∨ ∃ n, waitMeaning st = .event n)

/-- By this reply the kernel tells that it has stopped by a signal. -/
def SignalTold (o : Nat) (e : Entry) : Prop :=
  ∃ w nohang wall p st, e.call = .waitpid w nohang wall ∧ e.reply = .ok p st ∧ p ≠ 0 ∧ (p, o) ∈ e.dict ∧ ∃ n, waitMeaning st = .signal n

/-- By this reply the kernel tells that it is over. -/
def OverTold (o : Nat) (e : Entry) : Prop :=
  ∃ w nohang wall p st, e.call = .waitpid w nohang wall ∧ e.reply = .ok p st ∧ p ≠ 0 ∧ (p, o) ∈ e.dict ∧
    ((∃ n, waitMeaning st = .exited n) ∨ ∃ n, waitMeaning st = .killed n)

/-- This request, which the kernel accepted, lets it go on. -/
def LetGo (o : Nat) (e : Entry) : Prop :=
  (∃ v st, e.reply = .ok v st) ∧
    ((∃ p n, e.call = .cont o p n) ∨ (∃ p n, e.call = .syscall o p n) ∨ (∃ p, e.call = .singlestep o p) ∨ ∃ p, e.call = .detach o p)

/-- The process of object `o` is stopped: its stop was told, and since then it was not let go, nor was its end told. -/
def AtRest (o : Nat) (log : List Entry) : Prop :=
  ∃ before e after, log = before ++ e :: after ∧ StopTold o e ∧ ∀ e' ∈ after, ¬ LetGo o e' ∧ ¬ OverTold o e'

/-- It is stopped by a signal. -/
def AtSignal (o : Nat) (log : List Entry) : Prop :=
  ∃ before e after, log = before ++ e :: after ∧ SignalTold o e ∧ ∀ e' ∈ after, ¬ LetGo o e' ∧ ¬ OverTold o e'

/-- The object a request is made for that the kernel grants for a stopped process only. -/
def asks : Call → Option Nat
  | .cont o _ _ => some o
  | .syscall o _ _ => some o
  | .singlestep o _ => some o
  | .setoptions o _ _ => some o
  | .geteventmsg o _ => some o
  | .inspect o _ => some o
  | _ => none

/-- Whenever such a request is made, the process is stopped. -/
def AsksStopped (log : List Entry) : Prop :=
  ∀ before e after, log = before ++ e :: after → ∀ o, asks e.call = some o → AtRest o before

/-- What the kernel tells when asked for news of a process: news of this process, nothing yet (if not to wait for it), or that there is no such child. Nobody
asks for news of any process. -/
def TruthfulEntry (e : Entry) : Prop :=
  match e.call, e.reply with
  | .waitpid none _ _, _ => False
  | .waitpid (some p) nohang _, .ok v st => v = p ∧ waitMeaning st ≠ .unknown ∨ nohang = true ∧ v = 0
  | .waitpid (some _) _ _, .err n => n = 10
  | _, _ => True

def TruthfulLog (log : List Entry) : Prop := ∀ e ∈ log, TruthfulEntry e

/-- The user does not interrupt the wait for the first stop of a process. -/
def PatientAt (before : List Entry) (e : Entry) : Prop :=
  match e.call, e.reply with
  | .waitpid (some p) nohang _, .interrupt => nohang = true ∨ ∃ m ∈ e.dict, m.1 = p ∧ ∃ e' ∈ before, StopTold m.2 e'
  | _, _ => True

def PatientLog (log : List Entry) : Prop := ∀ before e after, log = before ++ e :: after → PatientAt before e

/-- A process is detached while it is stopped. -/
def DetachesStopped (log : List Entry) : Prop := ∀ before e after, log = before ++ e :: after → ∀ o p, e.call = .detach o p → AtRest o before

end PT.Spec
