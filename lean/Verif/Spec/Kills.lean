import Verif.Spec.Debugger

/-! Signals sent by kill(2). -/

namespace PT.Spec

/-- Each signal sent by kill(2) is one of these, and it goes to a process that the debugger has at this moment, under its number. -/
def KillsOwn (signals : Nat → Prop) (log : List Entry) : Prop :=
  ∀ e ∈ log, ∀ o p n, e.call = .kill o p n → (p, o) ∈ e.dict ∧ signals n

/-- A call as in C25, and the methods `kill` and `terminate` are called for processes that the debugger has. -/
def ProperKill (s : DSt) (op : Op) : Prop :=
  Proper s op ∧ match op with
    | .kill o _ => o ∈ iterate s
    | .terminate o _ => o ∈ iterate s
    | _ => True

/-- Any sequence of such calls, going on after exceptions. -/
inductive ReachKill (K : Kern) : DSt → Prop where
  | new : ReachKill K newDebugger
  | call {s : DSt} (h : ReachKill K s) (fuel : Nat) (op : Op) (hop : ProperKill s op) : ReachKill K (runOp K fuel op s).2

end PT.Spec
