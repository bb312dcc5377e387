import Verif.Spec.Watch

/-! Everything a user can type at the prompt of gdb.py about a program of one process: which requests each command makes, what it leaves, and how
it ends when the program is stopped by something else. -/

namespace PT.Spec

/-- What a wait finds. -/
inductive Stop where
  | signal (signum : Nat)
  | exited (code : Nat)
  | killed (signum : Nat)
  /-- the user interrupts the wait, the process goes on -/
  | ctrlC
  deriving DecidableEq, Repr

/-- What happens in a session: what a wait finds, and the answer to a look at the process (0: all is well), after the requests so far. So the
program may react to everything it is given. -/
structure Story where
  stops : List Call → Option Stop
  answer : List Call → Nat

/-- A command. -/
inductive Cmd where
  | cont
  /-- go on with this signal (0: like `cont`) -/
  | signal (signum : Nat)
  /-- one instruction -/
  | stepi
  /-- up to a place in the program -/
  | step
  /-- up to the start or the end of a system call -/
  | sys
  /-- look at the process -/
  | show
  /-- tell something -/
  | tell
  /-- a mistake -/
  | wrong
  deriving DecidableEq, Repr

/-- What is known at the prompt. -/
structure Table where
  /-- the requests so far -/
  made : List Call
  /-- the signal for the next `cont` (0: none) -/
  pending : Nat
  /-- the registers at the start of the system call whose end is awaited -/
  inside : Option Nat
  /-- the process is thought to be stopped -/
  stopped : Bool
  deriving DecidableEq, Repr

/-- A request. -/
def Table.ask (T : Table) (c : Call) : Table := { T with made := T.made ++ [c] }

/-- How a command ends. -/
inductive Result where
  /-- done; false for an error message -/
  | ready (ok : Bool) (T : Table)
  /-- the process was stopped by another signal -/
  | signal (signum : Nat) (T : Table)
  /-- the user has interrupted the wait -/
  | ctrlC (T : Table)
  /-- the program is over -/
  | ended (T : Table)
  /-- the story does not tell -/
  | unknown
  deriving DecidableEq, Repr

def Result.map (f : Table → Table) : Result → Result
  | .ready ok T => .ready ok (f T)
  | .signal n T => .signal n (f T)
  | .ctrlC T => .ctrlC (f T)
  | .ended T => .ended (f T)
  | .unknown => .unknown

section
variable (P : Story) (pid : Nat)

/-- Wait for one of some signals, then go on with `next`. -/
def attend (wanted : Nat → Bool) (T : Table) (next : Nat → Table → Result) : Result :=
  match P.stops T.made with
  | none => .unknown
  | some .ctrlC => .ctrlC (T.ask (await pid))
  | some (.exited _) => .ended (T.ask (await pid))
  | some (.killed _) => .ended (T.ask (await pid))
  | some (.signal n) =>
    if wanted n then next n { T.ask (await pid) with stopped := true } else .signal n { T.ask (await pid) with stopped := true }

/-- The answer to the next look. -/
def Table.answer (T : Table) : Nat := P.answer T.made

/-- Let the process go on with a signal, until a signal stops it. After signal 5 a breakpoint is looked for; any other is shown and kept. -/
def goOn (signum : Nat) (T : Table) : Result :=
  attend P pid (fun _ => true) { T.ask (letGo pid (handedOn signum)) with pending := 0, inside := none, stopped := false } fun n T =>
    if n = 5 then .ready true (T.ask (look pid)) else .ready true { T.ask (print pid) with pending := n }

/-- Let the process go on to a trap set there, without a signal; the trap is removed in any case. -/
def goTo (T : Table) : Result :=
  match attend P pid (· = 5) { T.ask (letGo pid 0) with stopped := false } fun _ T => .ready true T with
  | .ended T => .ended T
  | r => r.map (·.ask (look pid))

/-- The start or the end of a system call. After the end of `execve` there is one more stop, unless it is told as an event. -/
def callStop (isExec : Nat → Bool) (events : Bool) (T : Table) : Result :=
  match T.inside with
  | none => .ready true { (T.ask (look pid)).ask (look pid) with inside := some (T.answer P) }
  | some regs =>
    if isExec regs && !events then
      attend P pid (fun n => n = 5 || n = 133) { (T.ask (look pid)).ask (go pid 0) with stopped := false } fun _ T =>
        .ready true { T with inside := none }
    else .ready true { T.ask (look pid) with inside := none }

/-- One command. -/
def act (isExec : Nat → Bool) (events : Bool) : Cmd → Table → Result
  | .cont, T => goOn P pid T.pending T
  | .signal n, T => (goOn P pid (if n = 0 then T.pending else n) T).map ({ · with pending := 0 })
  | .stepi, T => attend P pid (· = 5) (T.ask (.singlestep 0 pid)) fun _ T => .ready true T
  | .step, T => if T.answer P ≠ 0 then .ready false (T.ask (look pid)) else goTo P pid (T.ask (look pid))
  | .sys, T => attend P pid (· = 133) { T.ask (go pid 0) with stopped := false } fun _ T => callStop P pid isExec events T
  | .show, T => .ready (T.answer P == 0) (T.ask (look pid))
  | .tell, T => .ready true T
  | .wrong, T => .ready false T

/-- The commands of a line, up to the first that does not succeed. -/
def acts (isExec : Nat → Bool) (events : Bool) : List Cmd → Table → Result
  | [], T => .ready true T
  | a :: as, T =>
    match act P pid isExec events a T with
    | .ready true T => acts isExec events as T
    | r => r

/-- Stop the process, unless it is thought to be stopped: send signal 2 and wait for it. Another signal is shown only. -/
def interrupt (T : Table) : Result :=
  if T.stopped then .ready true T
  else if T.answer P ≠ 0 then .ready true (T.ask (look pid))
  else
    match attend P pid (· = 2) ((T.ask (look pid)).ask (.kill 0 pid 2)) fun _ T => .ready true T with
    | .signal _ T => .ready true (T.ask (print pid))
    | .ctrlC T => .ready true T
    | r => r

/-- Where a line leads to. -/
inductive Turn where
  /-- back to the prompt; `prev` is what an empty line repeats -/
  | prompt (prev : Option (List Cmd)) (T : Table)
  /-- the program is over -/
  | over (T : Table)
  /-- the program was over while it was being stopped: gdb.py fails -/
  | failed (T : Table)
  | unknown

/-- A line. A signal that was not awaited is shown and kept. -/
def line (isExec : Nat → Bool) (events : Bool) (as : List Cmd) (T : Table) : Turn :=
  match acts P pid isExec events as T with
  | .ready ok T => .prompt (if ok then some as else none) T
  | .signal n T => .prompt none { T.ask (print pid) with pending := n }
  | .ended T => .over T
  | .unknown => .unknown
  | .ctrlC T =>
    match interrupt P pid T with
    | .ready _ T => .prompt none T
    | .ended T => .failed T
    | _ => .unknown

/-- What the user types. -/
inductive Typed where
  | line (as : List Cmd)
  | again
  | interrupt
  | quit
  deriving DecidableEq, Repr

/-- How a session goes on. -/
inductive Course where
  /-- the user is asked for more -/
  | asking (prev : Option (List Cmd)) (T : Table)
  /-- over: the program is, or the user has quit; what is not read -/
  | over (rest : List Typed) (T : Table) (quit : Bool)
  | failed (T : Table)
  | unknown

/-- One thing typed. -/
def typed (isExec : Nat → Bool) (events : Bool) (prev : Option (List Cmd)) (T : Table) : Typed → Turn
  | .line as => line P pid isExec events as T
  | .again =>
    match prev with
    | some as => line P pid isExec events as T
    | none => .prompt none T
  | .interrupt =>
    match interrupt P pid T with
    | .ready _ T => .prompt prev T
    | .ended T => .failed T
    | _ => .unknown
  | .quit => .prompt none T

/-- A session. -/
def talk (isExec : Nat → Bool) (events : Bool) : Option (List Cmd) → Table → List Typed → Course
  | prev, T, [] => .asking prev T
  | prev, T, x :: xs =>
    if x = .quit then .over xs T true
    else
      match typed P pid isExec events prev T x with
      | .prompt prev T => talk isExec events prev T xs
      | .over T => .over xs T false
      | .failed T => .failed T
      | .unknown => .unknown
end

/-- The kernel tells this story about process `pid`, and refuses nothing. -/
structure Plays (K : Kern) (pid : Nat) (P : Story) : Prop where
  signal : ∀ log n, P.stops (log.map Entry.call) = some (.signal n) → ∃ st, K log (await pid) = .ok pid st ∧ waitMeaning st = .signal n
  exited : ∀ log c, P.stops (log.map Entry.call) = some (.exited c) → ∃ st, K log (await pid) = .ok pid st ∧ waitMeaning st = .exited c
  killed : ∀ log n, P.stops (log.map Entry.call) = some (.killed n) → ∃ st, K log (await pid) = .ok pid st ∧ waitMeaning st = .killed n
  ctrlC : ∀ log, P.stops (log.map Entry.call) = some .ctrlC → K log (await pid) = .interrupt
  look : ∀ log o, ∃ st, K log (.inspect o pid) = .ok (P.answer (log.map Entry.call)) st
  accepts : ∀ log o n, (∃ v st, K log (.cont o pid n) = .ok v st) ∧ (∃ v st, K log (.display o pid) = .ok v st) ∧
    (∃ v st, K log (.setoptions o pid n) = .ok v st) ∧ (∃ v st, K log (.attach o pid) = .ok v st) ∧
    (∃ v st, K log (.singlestep o pid) = .ok v st) ∧ (∃ v st, K log (.syscall o pid n) = .ok v st) ∧ ∃ v st, K log (.kill o pid n) = .ok v st

/-- The signals that were reported by the waits among these requests. -/
def reportedBy (P : Story) (made : List Call) : List Nat := (List.range made.length).filterMap fun i =>
  match (made[i]? : Option Call), P.stops (made.take i) with
  | some (.waitpid _ _ _), some (.signal n) => some n
  | _, _ => none

/-- Signals that are meant for the program: 0 is none, 5 is made by the tracing itself. -/
def genuine (signum : Nat) : Bool := signum != 0 && signum != 5

/-- The signals the program was given. -/
def given (log : List Call) : List Nat := (delivered log).filter (· != 0)

/-- The user gives no signal. -/
def Typed.givesNone : Typed → Bool
  | .line as => as.all fun a => match a with
    | .signal _ => false
    | _ => true
  | _ => true

/-- The user neither gives a signal nor goes on to a system call. -/
def Typed.plain : Typed → Bool
  | .line as => as.all fun a => match a with
    | .signal _ => false
    | .sys => false
    | _ => true
  | _ => true

/-- A command that came to its end, or to that of the program. -/
def Result.calm : Result → Bool
  | .ready _ _ => true
  | .ended _ => true
  | _ => false

/-- The commands of what is typed come to their end. -/
def calmTyped (P : Story) (pid : Nat) (isExec : Nat → Bool) (events : Bool) (prev : Option (List Cmd)) (T : Table) : Typed → Bool
  | .line as => (acts P pid isExec events as T).calm
  | .again =>
    match prev with
    | some as => (acts P pid isExec events as T).calm
    | none => true
  | _ => true

/-- Nothing disturbs the session: `step` and `stepi` end with the trap they wait for, and no wait is interrupted. -/
def calm (P : Story) (pid : Nat) (isExec : Nat → Bool) (events : Bool) : Option (List Cmd) → Table → List Typed → Bool
  | _, _, [] => true
  | prev, T, x :: xs =>
    calmTyped P pid isExec events prev T x &&
    match typed P pid isExec events prev T x with
    | .prompt prev T => calm P pid isExec events prev T xs
    | _ => true

/-- What a session has asked for, if the story tells. -/
def Course.made : Course → Option (List Call)
  | .asking _ T => some T.made
  | .over _ T _ => some T.made
  | .failed T => some T.made
  | .unknown => none

/-- The signal kept for the next `cont`. -/
def Course.pending : Course → Nat
  | .asking _ T => T.pending
  | .over _ T _ => T.pending
  | .failed T => T.pending
  | .unknown => 0

end PT.Spec
