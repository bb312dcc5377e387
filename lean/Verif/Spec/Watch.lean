import Verif.Spec.Follow

/-! A session of a user who watches a program of one process in gdb.py: which requests it makes, and which signals the program gets. -/

namespace PT.Spec

/-- What the user does at the prompt. -/
inductive Move where
  /-- `cont` -/
  | cont
  /-- a command that tells something, or is not known -/
  | idle
  /-- an empty line -/
  | again
  /-- Control-C -/
  | interrupt
  deriving DecidableEq, Repr

/-- Does it let the process go on? `prev` tells that the command before was `cont`: an empty line repeats it. -/
def Move.resumes (prev : Bool) : Move → Bool
  | .cont => true
  | .again => prev
  | _ => false

/-- Is it `cont` that an empty line would repeat now, if the process was not let go on? -/
def Move.after (prev : Bool) : Move → Bool
  | .interrupt => prev
  | _ => false

/-- Signal 5 is made by the tracing itself: it is not for the program. -/
def handedOn (signum : Nat) : Nat := if signum = 5 then 0 else signum

/-- Let the process go on until something happens, with a signal. -/
def letGo (pid signum : Nat) : Call := .cont 0 pid signum

/-- The requests of a session and, once the program has ended, what the user has still typed. The program will get these signals and then end;
`pending` is the signal it was stopped by. Each `cont` passes it on and waits; a new signal is shown (with signal 5 the tracer looks for a
breakpoint). Nothing else asks anything of the kernel. -/
def session (pid : Nat) : Bool → Nat → List Nat → List Move → List Call × Option (List Move)
  | _, _, _, [] => ([], none)
  | prev, pending, signals, m :: ms =>
    if m.resumes prev then
      match signals with
      | [] => ([letGo pid pending, await pid], some ms)
      | n :: ns =>
        (letGo pid pending :: await pid :: (if n = 5 then look pid else print pid) :: (session pid true (handedOn n) ns ms).1,
          (session pid true (handedOn n) ns ms).2)
    else session pid (m.after prev) pending signals ms

/-- How often the process was let go on. -/
def resumes (log : List Entry) : Nat := log.countP fun e => match e.call with
  | .cont _ _ _ => true
  | _ => false

/-- The kernel lets process `pid` make these stops, one after each request to go on, and refuses nothing. -/
structure RunsOn (K : Kern) (pid : Nat) (stops : List StatusKind) : Prop where
  wait : ∀ log kind, stops[resumes log]? = some kind → ∃ st, K log (await pid) = .ok pid st ∧ waitMeaning st = kind
  accepts : ∀ log o n, (∃ v st, K log (.cont o pid n) = .ok v st) ∧ (∃ v st, K log (.display o pid) = .ok v st) ∧
    (∃ v st, K log (.setoptions o pid n) = .ok v st) ∧ (∃ v st, K log (.attach o pid) = .ok v st) ∧ ∃ v st, K log (.inspect o pid) = .ok v st

/-- The stops of such a program. -/
def sessionStops (first : Nat) (signals : List Nat) (ending : StatusKind) : List StatusKind :=
  .signal first :: (signals.map .signal ++ [ending])

/-- The signals with which a process is let go on. -/
def delivered : List Call → List Nat
  | [] => []
  | .cont _ _ n :: cs => n :: delivered cs
  | _ :: cs => delivered cs

/-- The first requests: the process is attached unless it is a child, its first stop awaited, the options are set. -/
def sessionStart (pid : Nat) (attached : Bool) (options : Nat) : List Call :=
  (if attached then [] else [.attach 0 pid]) ++ [await pid, .setoptions 0 pid options]

end PT.Spec
