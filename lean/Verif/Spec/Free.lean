import Verif.Spec.Open

/-! Processes that nobody traces: what they can do, as a system that goes from act to act. -/

namespace PT.Spec

/-- A process goes on, and is given a signal; 0 is none. -/
abbrev Going := Nat × Nat

/-- Processes that react to each other: after these acts, what process `p` has come to and goes on from: it makes a call or returns from it, a signal
arrives, there is a new process, a new program or an end. `none` if it is still on its way. -/
abbrev Nature := List Going → Nat → Option Report

/-- What process `p` has gone on from. -/
def wentFrom (M : Nature) (p : Nat) (acts : List Going) : List Report :=
  (List.range acts.length).filterMap fun i => match acts[i]? with
    | some (q, _) => if q = p then M (acts.take i) p else none
    | none => none

/-- What a process is given if nobody interferes: the signal that arrives. The first stop and the trap after `execve` are no signals, they exist for a
tracer only. -/
def Place.gets : Place → Report → Nat
  | .unborn, _ => 0
  | .trap _, _ => 0
  | _, (.signal n, _) => if n = 133 then 0 else n
  | _, _ => 0

/-- This is not the end of the process. -/
def GoesOn (x : Report) : Prop := (∃ n, x.1 = .signal n) ∨ ∃ n, x.1 = .event n

/-- What the processes can do if nobody interferes: one that has come to something goes on and is given what it should get. Which one goes on when is
left open. -/
inductive Free (M : Nature) (W : Wish) (thread : Nat → Bool) : List Going → Prop where
  | nil : Free M W thread []
  | snoc {acts : List Going} {p : Nat} {x : Report} (h : Free M W thread acts) (hx : M acts p = some x) (hg : GoesOn x) :
      Free M W thread (acts ++ [(p, (history W (thread p) (wentFrom M p acts)).1.gets x)])

/-- The acts in a run: each time a process was told to go on, with what it was given. -/
def actsIn (log : List Entry) : List Going := log.filterMap fun e => match e.call with
  | .syscall _ p n => some (p, n)
  | _ => none

/-- This request does not send a signal, does not end anything, and lets no process go on. -/
def Looks : Call → Prop
  | .waitpid _ _ _ | .attach _ _ | .setoptions _ _ _ | .geteventmsg _ _ | .inspect _ _ | .display _ _ | .sleep => True
  | _ => False

end PT.Spec
