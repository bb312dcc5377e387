import Verif.Spec.Debugger

/-! Leaving the processes: what a debugger that quits asks of the kernel, process by process. -/

namespace PT.Spec

/-- What becomes of a process that is sent `SIGKILL`. -/
inductive Fate where
  /-- it stops with these signals, which were on their way, and then it ends -/
  | ends (pending : List Nat) (last : StatusKind)
  /-- there is no such process any more -/
  | absent

/-- How often the status of process `pid` was asked for. -/
def waits (pid : Nat) (cs : List Call) : Nat := cs.countP fun c => match c with
  | .waitpid (some p) _ _ => decide (p = pid)
  | _ => false

/-- The end of a process, by itself or killed. -/
def Final : StatusKind → Prop
  | .exited _ => True
  | .killed _ => True
  | _ => False

/-- From the requests `log` on, the kernel lets process `pid` (object `o`) stop with the signals `pending`, one each time it is waited for, and then
end as `last` says. It refuses nothing. -/
structure Ends (K : Kern) (log : List Entry) (o pid : Nat) (thread : Bool) (pending : List Nat) (last : StatusKind) : Prop where
  final : Final last
  wait : ∀ g k, (pending.map StatusKind.signal ++ [last])[waits pid (g.map Entry.call)]? = some k →
    ∃ st, K (log ++ g) (.waitpid (some pid) false thread) = .ok pid st ∧ waitMeaning st = k
  accepts : ∀ g n, (∃ v st, K (log ++ g) (.cont o pid n) = .ok v st) ∧ ∃ v st, K (log ++ g) (.kill o pid n) = .ok v st

/-- The kernel keeps to the fate of process `p`, which is object `o`. A process that is not traced any more by itself needs nothing; one that was
attached can be released; one that was created ends when it is killed, or was stopped and is gone already. -/
def Keeps (K : Kern) (log : List Entry) (o : Nat) (p : Proc) : Fate → Prop
  | .ends pending last => p.running = true →
    if p.wasAttached then Ends K log o p.pid p.isThread pending last
    else ∀ g, ∃ v st, K (log ++ g) (.detach o p.pid) = .ok v st
  | .absent => p.running = true → p.wasAttached = true ∧ p.isStopped = true ∧ ∀ g, K (log ++ g) (.cont o p.pid 9) = .err 3

/-- The requests to leave a process. One that the debugger created is killed; signals that were on their way are passed on, except 5 and 19 which are
those of the debugger; it is waited for until it ends. One that was attached is detached and lives on. -/
def farewell (o : Nat) (p : Proc) (f : Fate) : List Call :=
  if p.running then
    if p.wasAttached then
      (if p.isStopped then .cont o p.pid 9 else .kill o p.pid 9) :: match f with
        | .ends pending _ =>
          pending.flatMap (fun n => [.waitpid (some p.pid) false p.isThread, .cont o p.pid (if n = 5 ∨ n = 19 then 0 else n)]) ++
            [.waitpid (some p.pid) false p.isThread]
        | .absent => []
    else [.detach o p.pid]
  else []

/-- How many stops there are before the end. -/
def Fate.length : Fate → Nat
  | .ends pending _ => pending.length
  | .absent => 0

end PT.Spec
