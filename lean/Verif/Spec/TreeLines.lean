import Verif.Spec.Printed
import Verif.Spec.Tree

/-! What strace.py prints while it follows a tree of processes (`Spec/Tree`): stated on the stops of each process. -/

namespace PT.Spec

/-- What comes of a stop: its process, the lines printed, and the exit code of strace.py if the stop sets it. -/
structure Block where
  pid : Nat
  lines : List Str
  code : Option Nat

/-- The processes whose stops the kernel told, in this order. -/
def reported (log : List Entry) : List Nat := log.filterMap fun e => match e.call, e.reply with
  | .waitpid (some _) _ _, .ok 0 _ => none
  | .waitpid (some q) _ _, _ => some q
  | _, _ => none

/-- After `now` requests stop `i` of process `p` was told, and the process has not been told to go on. -/
def StoppedAt (log : List Entry) (p i now : Nat) : Prop :=
  now ≤ log.length ∧ awaits p (log.take now) = i + 1 ∧ goesTo p (log.take now) = i

/-- The lines at a stop of process `p`. `started` is when the call the process is in was seen to start, `now` is when this stop was told.
A new process is announced, unless it is the first. A call has its line when it ends, with the registers of its start and the result; the line of an
`execve` is printed after the trap that follows. With `--enter` a call has a line when it starts; without, also if the process ends in it. -/
def StopLines (F : LineView) (W : Wish) (root : Nat) (log : List Entry) (p : Nat) (started now : Nat) : Place → Report → List Str → Prop
  | .unborn, _, lines =>
    if p = root then lines = [] else ∃ num, decNumber num = some p ∧ lines = ["*** New process ".toList ++ num ++ " ***".toList]
  | .trap _, _, lines => lines = []
  | .over, _, _ => False
  | _, (.unknown, _), _ => False
  | _, (.event n, _), lines => if n = 4 then ExecLines p lines else lines = []
  | .outside, (.signal n, regs), lines =>
    if n = 133 then
      if W.view.shown regs && W.view.enter then ∃ line, lines = [line] ∧ CallLine F p ⟨now, regs, none⟩ line else lines = []
    else ∃ v o, v.log = log.take now ∧ (v.heap o).pid = p ∧ lines = F.signal v o n
  | .inside regs, (.signal n, result), lines =>
    if n = 133 then if W.view.shown regs then ∃ line, lines = [line] ∧ CallLine F p ⟨started, regs, some result⟩ line else lines = []
    else ∃ v o, v.log = log.take now ∧ (v.heap o).pid = p ∧ lines = F.signal v o n
  | .outside, (.exited c, _), lines => ∃ last, lines = [last] ∧ EndText F.signames p none (some c) last
  | .outside, (.killed n, _), lines => ∃ last, lines = [last] ∧ EndText F.signames p (some n) none last
  | .inside regs, (.exited c, _), lines => ∃ cut last, lines = cut ++ [last] ∧ EndText F.signames p none (some c) last ∧
      if W.view.shown regs && !W.view.enter then ∃ line, cut = [line] ∧ CallLine F p ⟨started, regs, none⟩ line else cut = []
  | .inside regs, (.killed n, _), lines => ∃ cut last, lines = cut ++ [last] ∧ EndText F.signames p (some n) none last ∧
      if W.view.shown regs && !W.view.enter then ∃ line, cut = [line] ∧ CallLine F p ⟨started, regs, none⟩ line else cut = []

/-- The exit code of strace.py after a stop: that of a process that exits, or 128 and the signal. -/
def stopCode : Place → StatusKind → Option Nat
  | .outside, .signal n => if n = 133 then none else some (128 + n)
  | .inside _, .signal n => if n = 133 then none else some (128 + n)
  | .outside, .exited c => some c
  | .inside _, .exited c => some c
  | _, _ => none

/-- What comes of the stops of a process, in their order. The arguments of a call are those at the stop it starts with. -/
inductive ProcBlocks (F : LineView) (W : Wish) (root : Nat) (log : List Entry) (p : Nat) (wall : Bool) : List Report → Nat → List Block → Prop where
  | nil : ProcBlocks F W root log p wall [] 0 []
  | snoc {stops : List Report} {started now : Nat} {bs : List Block} {x : Report} {lines : List Str}
      (h : ProcBlocks F W root log p wall stops started bs) (hn : StoppedAt log p stops.length now)
      (hl : StopLines F W root log p started now (history W wall stops).1 x lines) :
      ProcBlocks F W root log p wall (stops ++ [x]) (match (history W wall stops).1 with
        | .outside => now
        | _ => started) (bs ++ [⟨p, lines, stopCode (history W wall stops).1 x.1⟩])

/-- What is printed for a tree: blocks in the order in which the kernel told the stops; those of each process are as they have to be. -/
structure TreeBlocks (F : LineView) (W : Wish) (T : Tree) (log : List Entry) (blocks : List Block) : Prop where
  order : blocks.map Block.pid = reported log
  each : ∀ p, T.Born p → ∃ started, ProcBlocks F W T.root log p (T.thread p) (T.stops p) started (blocks.filter fun b => b.pid == p)
  known : ∀ b ∈ blocks, T.Born b.pid

/-- How many lines a stop has, if it is not one of a signal. -/
def stopCount (W : Wish) (root p : Nat) : Place → Report → Nat
  | .unborn, _ => if p = root then 0 else 1
  | .trap _, _ => 0
  | .over, _ => 0
  | _, (.unknown, _) => 0
  | _, (.event n, _) => if n = 4 then 1 else 0
  | .outside, (.signal _, regs) => if W.view.shown regs && W.view.enter then 1 else 0
  | .inside regs, (.signal _, _) => if W.view.shown regs then 1 else 0
  | .outside, _ => 1
  | .inside regs, _ => if W.view.shown regs && !W.view.enter then 2 else 1

/-- How many lines the first `n` stops of a process have. -/
def procCount (W : Wish) (root p : Nat) (wall : Bool) (stops : List Report) : Nat :=
  ((List.range stops.length).map fun i => match stops[i]? with
    | some x => stopCount W root p (history W wall (stops.take i)).1 x
    | none => 0).sum

end PT.Spec
