import Verif.Spec.Asks
import Verif.Spec.Debugger

/-! The attribute `is_stopped`: independent statement. -/

namespace PT.Spec

/-- The object whose method is called. -/
def methodOf : Op → Option Nat
  | .attach o => some o
  | .detach o => some o
  | .cont o _ => some o
  | .syscall o _ => some o
  | .singleStep o => some o
  | .kill o _ => some o
  | .setoptions o _ => some o
  | .terminate o _ => some o
  | .waitExit o => some o
  | .waitSyscall (some o) => some o
  | _ => none

/-- Calls that do not bypass the library, of methods of registered processes, and no single step. -/
def Regular (s : DSt) (op : Op) : Prop := Proper s op ∧ (∀ o, methodOf op = some o → o ∈ iterate s) ∧ ∀ o, op ≠ .singleStep o

/-- States reached by any sequence of such calls from a new debugger, each of which came to an end, be it by an exception. -/
inductive Regularly (K : Kern) : DSt → Prop where
  | new : Regularly K newDebugger
  | call {s : DSt} (h : Regularly K s) (fuel : Nat) (op : Op) (hop : Regular s op) (hd : (runOp K fuel op s).1 ≠ .error .diverge) :
      Regularly K (runOp K fuel op s).2

/-- A registered process that counts as running and as stopped is stopped. -/
def FlagTrue (s : DSt) : Prop := ∀ o ∈ iterate s, (s.heap o).running = true → (s.heap o).isStopped = true → AtRest o s.log

/-- A registered process that counts as running and is stopped counts as stopped. -/
def FlagFull (s : DSt) : Prop := ∀ o ∈ iterate s, (s.heap o).running = true → AtRest o s.log → (s.heap o).isStopped = true

/-- A registered process that counts as running and is stopped by a signal counts as stopped. -/
def FlagSignal (s : DSt) : Prop := ∀ o ∈ iterate s, (s.heap o).running = true → AtSignal o s.log → (s.heap o).isStopped = true

/-- From the call number `n` on, requests are made to stopped processes. -/
def AsksStoppedFrom (n : Nat) (log : List Entry) : Prop :=
  ∀ before e after, log = before ++ e :: after → n ≤ before.length → ∀ o, asks e.call = some o → AtRest o before

end PT.Spec
