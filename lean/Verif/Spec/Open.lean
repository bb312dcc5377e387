import Verif.Spec.Tree

/-! Processes whose next stops are not known in advance: they may react to all that happened, to each other, and they need not end. -/

namespace PT.Spec

/-- The stop a process is in after these requests, if it has stopped. -/
abbrev World := List Entry → Nat → Option Report

/-- The stops of process `p` that were told so far. -/
def stopsMade (N : World) (p : Nat) (log : List Entry) : List Report :=
  (List.range log.length).filterMap fun i => match log[i]?.bind (care p) with
    | some (.await _) => N (log.take (i + 1)) p
    | _ => none

/-- The tree as far as it is known. -/
def soFar (N : World) (root : Nat) (thread : Nat → Bool) (log : List Entry) : Tree := ⟨root, fun p => stopsMade N p log, thread⟩

/-- For every process, the tracer has done in order what is to be done at the stops told so far, and all of it at all stops but the last. -/
def Attends (N : World) (W : Wish) (root : Nat) (thread : Nat → Bool) (attached : Bool) (log : List Entry) : Prop :=
  ∀ p, cares p log <+: (soFar N root thread log).cares W attached p

/-- The process was there from the beginning, or it was told that it is new. -/
def Announced (N : World) (root : Nat) (log : List Entry) (p : Nat) : Prop :=
  p = root ∨ ∃ q n, (StatusKind.event n, p) ∈ stopsMade N q log ∧ n ≠ 4

/-- Where process `p` is. -/
def whereIs (N : World) (W : Wish) (thread : Nat → Bool) (log : List Entry) (p : Nat) : Place := (history W (thread p) (stopsMade N p log)).1

/-- If this stop tells of a new process, then it is new. -/
def TellsNew (N : World) (root : Nat) (thread : Nat → Bool) (log : List Entry) (x : Report) : Prop :=
  ∀ n c, x = (.event n, c) → n ≠ 4 → c ≠ 0 ∧ ¬Announced N root log c ∧ (thread c = true ↔ n = 3)

/-- The process has stopped, but it has not ended. -/
def Halted (N : World) (log : List Entry) (p : Nat) : Prop := ∃ n v, N log p = some (.signal n, v) ∨ ∃ m, N log p = some (.event m, v)

/-- What `ptrace(2)` promises to a tracer that did what it should so far was kept in this run: a process that stopped stays so until it is told to go
on, shows its registers or the new process, and obeys; a process that was told to go on makes a stop that is possible where it is, and if the tracer
does not want to wait it may be told that there is nothing yet. -/
structure Kept (run : List Entry) (N : World) (W : Wish) (root : Nat) (thread : Nat → Bool) (attached : Bool) : Prop where
  main : root ≠ 0 ∧ thread root = false
  begins : ∀ log e o, log ++ [e] <+: run → e.call = .attach o root → cares root log = [] → ∃ v st, e.reply = .ok v st
  tells : ∀ log e p nohang, log ++ [e] <+: run → e.call = .waitpid (some p) nohang (thread p) → Attends N W root thread attached log →
    Announced N root log p → goesTo p log = awaits p log → whereIs N W thread log p ≠ .over →
    (nohang = true ∧ ∃ st, e.reply = .ok 0 st) ∨
      ∃ st v, e.reply = .ok p st ∧ N (log ++ [e]) p = some (waitMeaning st, v) ∧
        CanStop (whereIs N W thread log p) (waitMeaning st, v) ∧ TellsNew N root thread log (waitMeaning st, v)
  stays : ∀ log e p x, log ++ [e] <+: run → N log p = some x → (∀ n, care p e ≠ some (.go n)) → N (log ++ [e]) p = some x
  looks : ∀ log e p n v o, log ++ [e] <+: run → e.call = .inspect o p → N log p = some (.signal n, v) → ∃ st, e.reply = .ok v st
  message : ∀ log e p n v o, log ++ [e] <+: run → e.call = .geteventmsg o p → N log p = some (.event n, v) → ∃ st, e.reply = .ok v st
  obeys : ∀ log e p o n, log ++ [e] <+: run → e.call = .syscall o p n ∨ e.call = .setoptions o p n → Halted N log p → ∃ v st, e.reply = .ok v st
  prints : ∀ log e o p, log ++ [e] <+: run → e.call = .display o p ∨ e.call = .sleep → ∃ v st, e.reply = .ok v st

/-- When nothing has happened `patience` times in a row in this run and a process that was seen is left, then one of those has stopped, and the tracer
is told so when it asks while nothing else happens. -/
def Wakes (run : List Entry) (N : World) (W : Wish) (thread : Nat → Bool) (patience : Nat) : Prop :=
  ∀ log, log <+: run → patience ≤ (log.reverse.takeWhile idle).length → (∃ p, 0 < awaits p log ∧ whereIs N W thread log p ≠ .over) →
    ∃ p, 0 < awaits p log ∧ whereIs N W thread log p ≠ .over ∧
      ∀ g, (∀ e ∈ g, idle e = true) → ∀ e wall st, log ++ g ++ [e] <+: run → e.call = .waitpid (some p) true wall → e.reply ≠ .ok 0 st

end PT.Spec
