import Verif.Spec.Lines
import Verif.Spec.Follow

/-! What strace.py prints while it follows a program of one process (`Spec/Follow`): stated on the deeds of the program. -/

namespace PT.Spec

section
variable (F : LineView) (V : View) (pid : Nat)

/-- At the start of a call: a line without result if the call is shown and `--enter` was given. `before` are the requests made so far: the
arguments are those of the stop in which the call starts, one request later. -/
def StartLines (before : List Call) (regs : Nat) (lines : List Str) : Prop :=
  if V.shown regs && V.enter then ∃ line, lines = [line] ∧ CallLine F pid ⟨before.length + 1, regs, none⟩ line else lines = []

/-- At the end of a call: one line with its arguments and its result, if the call is shown. -/
def EndLines (before : List Call) (regs result : Nat) (lines : List Str) : Prop :=
  if V.shown regs then ∃ line, lines = [line] ∧ CallLine F pid ⟨before.length + 1, regs, some result⟩ line else lines = []

/-- The line about a new program. -/
def ExecLines (lines : List Str) : Prop :=
  ∃ num, decNumber num = some pid ∧ lines = ["*** Process ".toList ++ num ++ " execution ***".toList]

/-- The lines about a signal: those made of the process while it is stopped by it. -/
def SignalLines (before : List Call) (signum : Nat) (lines : List Str) : Prop :=
  ∃ v : DSt, (v.heap 0).pid = pid ∧ v.log.map Entry.call = before ++ [await pid] ∧ lines = F.signal v 0 signum

/-- The lines about a deed. -/
def DeedLines (events : Bool) (before : List Call) : Deed → List Str → Prop
  | .call regs result, lines => ∃ a b, lines = a ++ b ∧ StartLines F V pid before regs a ∧ EndLines F V pid before regs result b
  | .exec regs result, lines =>
    ∃ a m b, lines = a ++ m ++ b ∧ StartLines F V pid before regs a ∧ (if events then ExecLines pid m else m = []) ∧
      EndLines F V pid before regs result b
  | .signal signum _, lines => SignalLines F pid before signum lines

/-- The lines about the end: the call the process ended in, if it is shown, and how the process ended. -/
def EndingLines (before : List Call) (e : Ending) (lines : List Str) : Prop :=
  ∃ cut last, lines = cut ++ [last] ∧
    (match e.inside with
      | some regs => if V.shown regs then ∃ line, cut = [line] ∧ CallLine F pid ⟨before.length + 1, regs, none⟩ line else cut = []
      | none => cut = []) ∧
    (∀ c, e.kind = .exited c → EndText F.signames pid none (some c) last) ∧ (∀ n, e.kind = .killed n → EndText F.signames pid (some n) none last)

/-- The lines about a program: those of its deeds in their order, and those of its end. -/
def ProgramLines (events : Bool) : List Call → List Deed → Ending → List Str → Prop
  | before, [], e, lines => EndingLines F V pid before e lines
  | before, d :: ds, e, lines => ∃ a b, lines = a ++ b ∧ DeedLines F V pid events before d a ∧
      ProgramLines events (before ++ d.requests V pid events) ds e b

end

/-- The line about the process that is traced. The size of the environment is always said to be 40 (C107). -/
def FirstLine (program0 args : Str) (pid : Nat) (attached : Bool) (line : Str) : Prop :=
  if attached then ∃ vars, vars.length = 40 ∧ ProgramLine program0 args vars pid line
  else ∃ num, decNumber num = some pid ∧ line = "Attach process ".toList ++ num

/-- How many lines a deed makes; those of signals are not counted. -/
def Deed.lineCount (V : View) (events : Bool) : Deed → Nat
  | .call regs _ => if V.shown regs then (if V.enter then 2 else 1) else 0
  | .exec regs _ => (if V.shown regs then (if V.enter then 2 else 1) else 0) + if events then 1 else 0
  | .signal _ _ => 0

/-- How many lines a program makes. -/
def lineCount (V : View) (events : Bool) (deeds : List Deed) (e : Ending) : Nat :=
  (deeds.map (Deed.lineCount V events)).sum + (match e.inside with
    | some regs => if V.shown regs then 1 else 0
    | none => 0) + 1

end PT.Spec
