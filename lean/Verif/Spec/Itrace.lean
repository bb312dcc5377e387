import Verif.Spec.Strace
import Verif.Spec.Ints

/-! What `examples/itrace.py` must do, stated on the log of requests and on the lines printed. -/

namespace PT.Spec

/-- The addresses read successfully, in order. -/
def ipsRead (g : List Entry) : List Nat :=
  g.filterMap fun e => match e.call, e.reply with
    | .inspect _ _, .ok ip _ => some ip
    | _, _ => none

/-- A single step comes directly after a successful read of the instruction pointer of the same process. -/
def Paired (g : List Entry) : Prop :=
  ∀ g1 e g2 o pid, g = g1 ++ e :: g2 → e.call = .singlestep o pid →
    ∃ g0 e' ip st, g1 = g0 ++ [e'] ∧ e'.call = .inspect o pid ∧ e'.reply = .ok ip st

/-- The line about one instruction: its number, the number of the process and the address in hexadecimal, at least eight digits. -/
def StepLine (i pid ip : Nat) (line : Str) : Prop :=
  ∃ num p addr : Str, decNumber num = some i ∧ decNumber p = some pid ∧ hexNumber addr = some ip ∧ 8 ≤ addr.length ∧
    line = num ++ ' ' :: p ++ " [".toList ++ addr ++ "]".toList

/-- Lines about instructions at these addresses, numbered from `i`. -/
def StepLines (pid : Nat) : Nat → List Nat → List Str → Prop
  | _, [], lines => lines = []
  | i, ip :: ips, lines => ∃ line rest, lines = line :: rest ∧ StepLine i pid ip line ∧ StepLines pid (i + 1) ips rest

/-- The lines count from `i`. -/
def Counting : Nat → List Str → Prop
  | _, [] => True
  | i, line :: lines => decNumber line = some i ∧ Counting (i + 1) lines

/-- How a trace ends. -/
inductive TraceEnd : List Str → Prop
  | empty : TraceEnd []
  | exit : TraceEnd ["process exit".toList]
  | signal (n : Nat) (num : Str) (h : decNumber num = some n) (hn : n ≠ 5 ∧ n ≠ 0x85) : TraceEnd ["died with signal ".toList ++ num]

end PT.Spec
