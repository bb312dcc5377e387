import Verif.Model.Debugger
import Verif.Spec.Wait

/-! A program of one process as strace.py meets it, and what a tracer asks of the kernel to follow it from start to end. -/

namespace PT.Spec

/-- What the program does. `regs` are the registers with which a system call is made, `result` is what they hold when it is over. -/
inductive Deed where
  /-- a system call that leaves the process in its program -/
  | call (regs result : Nat)
  /-- `execve` that succeeds -/
  | exec (regs result : Nat)
  /-- the process receives a signal -/
  | signal (signum regs : Nat)

/-- How it ends: in a system call (`exit`) or not, by itself or killed. -/
structure Ending where
  inside : Option Nat
  kind : StatusKind

/-- The stops of a traced process, with its registers (`ptrace(2)`). With `PTRACE_O_TRACESYSGOOD` a system call stops it with signal 5 and bit 7
at its start and at its end; a successful `execve` stops it a third time: for an event before its end with `PTRACE_O_TRACEEXEC` (`events`),
with signal 5 after its end without. -/
def Deed.stops (events : Bool) : Deed → List (StatusKind × Nat)
  | .call regs result => [(.signal 133, regs), (.signal 133, result)]
  | .exec regs result =>
    if events then [(.signal 133, regs), (.event 4, regs), (.signal 133, result)]
    else [(.signal 133, regs), (.signal 133, result), (.signal 5, result)]
  | .signal signum regs => [(.signal signum, regs)]

/-- The last stops: a call that never returns, and the end. -/
def Ending.stops (e : Ending) : List (StatusKind × Nat) := (e.inside.map fun regs => (.signal 133, regs)).toList ++ [(e.kind, 0)]

/-- All stops of a process: the first one was there before, or is made by attaching. -/
def allStops (events : Bool) (first : StatusKind × Nat) (deeds : List Deed) (e : Ending) : List (StatusKind × Nat) :=
  first :: (deeds.flatMap (Deed.stops events) ++ e.stops)

/-- How often the process was told to go on until the next stop. -/
def goes (log : List Entry) : Nat := log.countP fun e => match e.call with
  | .syscall _ _ _ => true
  | _ => false

/-- The kernel lets process `pid` make these stops, one after each request to go on, shows its registers, and refuses nothing. -/
structure Follows (K : Kern) (pid : Nat) (stops : List (StatusKind × Nat)) : Prop where
  wait : ∀ log kind regs, stops[goes log]? = some (kind, regs) →
    ∃ st, K log (.waitpid (some pid) false false) = .ok pid st ∧ waitMeaning st = kind
  look : ∀ log kind regs o, stops[goes log]? = some (kind, regs) → ∃ st, K log (.inspect o pid) = .ok regs st
  accepts : ∀ log o n, (∃ v st, K log (.syscall o pid n) = .ok v st) ∧ (∃ v st, K log (.display o pid) = .ok v st) ∧
    (∃ v st, K log (.setoptions o pid n) = .ok v st) ∧ ∃ v st, K log (.attach o pid) = .ok v st

/-- What the user asked for: with which registers calls are shown, and whether they are shown at their start as well. -/
structure View where
  shown : Nat → Bool
  enter : Bool

section
variable (V : View) (pid : Nat)

/-- Wait for the process. -/
def await : Call := .waitpid (some pid) false false
/-- Read its registers. -/
def look : Call := .inspect 0 pid
/-- Print something about it. -/
def print : Call := .display 0 pid
/-- Let it go on, with a signal. -/
def go (signum : Nat) : Call := .syscall 0 pid signum

/-- At the start of a call: the number is read, and the arguments if the call is shown. -/
def atStart (regs : Nat) : List Call :=
  [await pid, look pid] ++ (if V.shown regs then look pid :: (if V.enter then [print pid] else []) else []) ++ [go pid 0]

/-- The requests for a deed: wait, look and print when the call is shown, go on. A signal is passed on, except signal 5. -/
def Deed.requests (events : Bool) : Deed → List Call
  | .call regs _ => atStart V pid regs ++ await pid :: (if V.shown regs then [look pid, print pid] else []) ++ [go pid 0]
  | .exec regs _ =>
    if events then
      atStart V pid regs ++ [await pid, go pid 0] ++ await pid :: (if V.shown regs then [look pid, print pid] else []) ++ [go pid 0]
    else
      atStart V pid regs ++ await pid :: (if V.shown regs then [look pid] else []) ++ [go pid 0, await pid] ++
        (if V.shown regs then [print pid] else []) ++ [go pid 0]
  | .signal signum _ => [await pid, print pid, go pid (if signum = 5 then 0 else signum)]

/-- The requests for the end: a call that did not return is printed now, if it was not at its start. -/
def Ending.requests (e : Ending) : List Call :=
  match e.inside with
  | some regs => atStart V pid regs ++ await pid :: (if V.shown regs && !V.enter then [print pid] else [])
  | none => [await pid]

/-- All requests. -/
def allRequests (events attached : Bool) (options : Nat) (deeds : List Deed) (e : Ending) : List Call :=
  (if attached then [] else [.attach 0 pid]) ++ [await pid, .setoptions 0 pid options, go pid 0] ++
    deeds.flatMap (Deed.requests V pid events) ++ e.requests V pid
end

/-- The exit code of the tracer: that of the program, or 128 plus the last signal seen (0 if there was none) when the program was killed. -/
def exitCode (deeds : List Deed) (e : Ending) : Nat :=
  match e.kind with
  | .exited c => c
  | _ => deeds.foldl (fun code d => match d with
    | .signal n _ => 128 + n
    | _ => code) 0

end PT.Spec
