import Verif.Spec.Follow

/-! A tree of processes as `strace.py -f` meets it, and what a tracer asks of the kernel for each of them. -/

namespace PT.Spec

/-- A stop of a process: what it is, and a number. The number stands for the registers, or it is the new process if the stop is an event. -/
abbrev Report := StatusKind × Nat

/-- What a tracer does for a process. -/
inductive Care where
  | attach
  | await (wall : Bool)
  | options (n : Nat)
  | message
  | look
  | print
  | go (signum : Nat)
  /-- anything else -/
  | other
  deriving DecidableEq

/-- Is this an act for process `p`? A process that was asked for its status in vain has not been dealt with. Waiting for no process in particular
is an act for every process. -/
def care (p : Nat) (e : Entry) : Option Care :=
  match e.call, e.reply with
  | .waitpid (some _) _ _, .ok 0 _ => none
  | .waitpid (some q) _ wall, _ => if q = p then some (.await wall) else none
  | .waitpid none _ _, _ => some .other
  | .attach _ q, _ => if q = p then some .attach else none
  | .setoptions _ q n, _ => if q = p then some (.options n) else none
  | .geteventmsg _ q, _ => if q = p then some .message else none
  | .inspect _ q, _ => if q = p then some .look else none
  | .display _ q, _ => if q = p then some .print else none
  | .syscall _ q n, _ => if q = p then some (.go n) else none
  | .detach _ q, _ => if q = p then some .other else none
  | .cont _ q _, _ => if q = p then some .other else none
  | .singlestep _ q, _ => if q = p then some .other else none
  | .kill _ q _, _ => if q = p then some .other else none
  | .sleep, _ => none

/-- What was done for process `p`. -/
def cares (p : Nat) (log : List Entry) : List Care := log.filterMap (care p)

/-- How often process `p` was told to go on. -/
def goesTo (p : Nat) (log : List Entry) : Nat := (cares p log).countP fun a => match a with
  | .go _ => true
  | _ => false

/-- Where a process is. -/
inductive Place where
  /-- it has not been seen -/
  | unborn
  /-- in its program -/
  | outside
  /-- in a system call that was made with these registers -/
  | inside (regs : Nat)
  /-- `execve` is over, the trap that follows it is not -/
  | trap (regs : Nat)
  /-- it has ended -/
  | over

/-- What the user asked for, and what the registers mean. -/
structure Wish where
  view : View
  /-- do these registers call `execve`? -/
  exec : Nat → Bool
  /-- are there events for `execve`? -/
  events : Bool
  /-- the options of the debugger -/
  options : Nat

/-- Where a process is after a stop, and what the tracer does at that stop. -/
def oneStop (W : Wish) (wall : Bool) : Place → Report → Place × List Care
  | .unborn, _ => (.outside, [.await wall, .options W.options, .go 0])
  | .trap regs, _ => (.outside, .await wall :: (if W.view.shown regs then [.print] else []) ++ [.go 0])
  | .over, _ => (.over, [])
  | .outside, (.signal n, regs) =>
    if n = 133 then
      (.inside regs,
        [.await wall, .look] ++ (if W.view.shown regs then .look :: (if W.view.enter then [.print] else []) else []) ++ [.go 0])
    else (.outside, [.await wall, .print, .go (if n = 5 then 0 else n)])
  | .inside regs, (.signal n, _) =>
    if n = 133 then
      if W.exec regs && !W.events then (.trap regs, .await wall :: (if W.view.shown regs then [.look] else []) ++ [.go 0])
      else (.outside, .await wall :: (if W.view.shown regs then [.look, .print] else []) ++ [.go 0])
    else (.inside regs, [.await wall, .print, .go (if n = 5 then 0 else n)])
  | place, (.event n, _) => (place, if n = 4 then [.await wall, .go 0] else [.await wall, .message, .go 0])
  | .inside regs, _ => (.over, .await wall :: if W.view.shown regs && !W.view.enter then [.print] else [])
  | .outside, _ => (.over, [.await wall])

/-- Stops that can happen there: a new process stops with signal 5 or 19, the trap is signal 5, and `ptrace(2)` knows four events. -/
def CanStop : Place → Report → Prop
  | .unborn, (.signal n, _) => n = 5 ∨ n = 19
  | .unborn, _ => False
  | .trap _, (.signal n, _) => n = 5
  | .trap _, _ => False
  | .over, _ => False
  | _, (.event n, _) => n = 1 ∨ n = 2 ∨ n = 3 ∨ n = 4
  | _, (.unknown, _) => False
  | _, _ => True

/-- All stops one after the other. -/
def history (W : Wish) (wall : Bool) (stops : List Report) : Place × List Care :=
  stops.foldl (fun x stop => ((oneStop W wall x.1 stop).1, x.2 ++ (oneStop W wall x.1 stop).2)) (.unborn, [])

/-- A tree of processes: the stops of each one, and which are threads. -/
structure Tree where
  root : Nat
  stops : Nat → List Report
  thread : Nat → Bool

/-- Report `i` of process `p` tells that process `c` is new. -/
def Tree.Forks (T : Tree) (p i c : Nat) : Prop := ∃ n, (T.stops p)[i]? = some (.event n, c) ∧ n ≠ 4

/-- Processes of the tree. -/
inductive Tree.Born (T : Tree) : Nat → Prop where
  | root : T.Born T.root
  | child {p i c : Nat} (h : T.Born p) (hf : T.Forks p i c) : T.Born c

/-- The tree is one that can happen: every process has fine stops and ends, it is new once, and it is a thread exactly if it was cloned. -/
structure Tree.Good (T : Tree) (W : Wish) : Prop where
  fine : ∀ p, T.Born p → ∀ i x, (T.stops p)[i]? = some x → CanStop (history W (T.thread p) ((T.stops p).take i)).1 x
  ends : ∀ p, T.Born p → (history W (T.thread p) (T.stops p)).1 = .over
  real : T.root ≠ 0 ∧ ∀ p i c, T.Forks p i c → c ≠ 0 ∧ c ≠ T.root
  once : ∀ p i q j c, T.Forks p i c → T.Forks q j c → p = q ∧ i = j
  main : T.thread T.root = false
  kind : ∀ (p i c : Nat) (n : Int), (T.stops p)[i]? = some (StatusKind.event n, c) → n ≠ 4 → (T.thread c = true ↔ n = 3)

/-- The kernel lets every process of the tree make its stops, one after each request to go on. It answers at once, or, if it is asked not to wait,
says that there is nothing yet. It shows the registers, tells the new process, and refuses nothing. -/
structure Grows (K : Kern) (T : Tree) : Prop where
  wait : ∀ log p kind v nohang, (T.stops p)[goesTo p log]? = some (kind, v) →
    (nohang = true ∧ ∃ st, K log (.waitpid (some p) nohang (T.thread p)) = .ok 0 st) ∨
      ∃ st, K log (.waitpid (some p) nohang (T.thread p)) = .ok p st ∧ waitMeaning st = kind
  look : ∀ log p kind v o, (T.stops p)[goesTo p log]? = some (kind, v) →
    (∃ st, K log (.inspect o p) = .ok v st) ∧ ∃ st, K log (.geteventmsg o p) = .ok v st
  accepts : ∀ log o p n, (∃ v st, K log (.syscall o p n) = .ok v st) ∧ (∃ v st, K log (.display o p) = .ok v st) ∧
    (∃ v st, K log (.setoptions o p n) = .ok v st) ∧ (∃ v st, K log (.attach o p) = .ok v st) ∧ ∃ v st, K log .sleep = .ok v st

/-- Nothing happened: a process was asked in vain, or the tracer slept. -/
def idle (e : Entry) : Bool :=
  match e.call, e.reply with
  | .waitpid (some _) _ _, .ok 0 _ => true
  | .sleep, _ => true
  | _, _ => false

/-- How many stops of process `p` the tracer was told. -/
def awaits (p : Nat) (log : List Entry) : Nat := (cares p log).countP fun a => match a with
  | .await _ => true
  | _ => false

/-- When nothing has happened `patience` times in a row and a process is left, then some process that is left has stopped, and it stays so while
nothing else happens. -/
def Lively (K : Kern) (T : Tree) (patience : Nat) : Prop :=
  ∀ log, patience ≤ (log.reverse.takeWhile idle).length → (∃ p, 0 < awaits p log ∧ awaits p log < (T.stops p).length) →
    ∃ p, 0 < awaits p log ∧ awaits p log < (T.stops p).length ∧
      ∀ g, (∀ e ∈ g, idle e = true) → ∀ wall st, K (log ++ g) (.waitpid (some p) true wall) ≠ .ok 0 st

/-- What is done for process `p` altogether. -/
def Tree.cares (T : Tree) (W : Wish) (attached : Bool) (p : Nat) : List Care :=
  (if p = T.root ∧ attached = false then [.attach] else []) ++ (history W (T.thread p) (T.stops p)).2

end PT.Spec
