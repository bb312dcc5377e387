import Verif.Spec.GdbCmd
import Verif.Spec.Strace
import Verif.Model.Lines

/-! What `strace.py` prints, stated on the reports of system calls and on the events of a run. -/

namespace PT.Spec

/-- `text` with blanks behind up to 40 characters. -/
def Column (text column : Str) : Prop :=
  ∃ blanks : Str, column = text ++ blanks ∧ (∀ c ∈ blanks, c = ' ') ∧ (text.length ≤ 40 → column.length = 40) ∧ (40 ≤ text.length → blanks = [])

/-- The line of a call: number of the process and address of the call if asked for, the call, and the result if there is one. -/
def CallLine (F : LineView) (pid : Nat) (c : SysObj) (line : Str) : Prop :=
  ∃ num addr call, decNumber num = some pid ∧ AddressText (F.ip c) addr ∧
    (c.result = none → call = F.call c) ∧
    (c.result ≠ none → ∃ column, Column (F.call c) column ∧ call = column ++ " = ".toList ++ F.result c) ∧
    line = (if F.showPid then '[' :: num ++ "]".toList else []) ++ (if F.showIp then '[' :: addr ++ "]".toList else []) ++
      (if F.showPid || F.showIp then " ".toList else []) ++ call

/-- How a process ended. -/
def EndText (signames : List (Nat × Str)) (pid : Nat) (signum exitcode : Option Nat) (line : Str) : Prop :=
  ∃ num what, decNumber num = some pid ∧ line = "*** Process ".toList ++ num ++ ' ' :: what ++ " ***".toList ∧
    (∀ n, n ≠ 0 → signum = some n → what = "killed by signal ".toList ++ signalName signames n) ∧
    (signum = none → exitcode = some 0 → what = "exited normally".toList) ∧
    (∀ n, n ≠ 0 → signum = none → exitcode = some n → ∃ t, decNumber t = some n ∧ what = "exited with code ".toList ++ t) ∧
    (signum = none → exitcode = none → what = "terminated abnormally".toList)

/-- What is printed after `waitSyscall` returned or raised `r` in state `v`. A call is printed when it ends, with its result; with `--enter`
also when it starts; without, also when the process ends in it. The arguments are those read when the call starts: the object is identified by
the number of requests before. -/
def TurnLines (K : Kern) (C : StraceCfg) (F : LineView) (v : DSt) : Except Exc Event → List Str → Prop
  | .ok ev, lines =>
    if (v.heap ev.proc).ss.nextExit = true then
      match (v.heap ev.proc).ss.syscall with
      | some c => ∃ x line, (∃ st, K v.log (.inspect ev.proc (v.heap ev.proc).pid) = .ok x st) ∧ lines = [line] ∧
          CallLine F (v.heap ev.proc).pid ⟨c.ident, c.entry, some x⟩ line
      | none => lines = []
    else
      ∃ regs, (∃ st, K v.log (.inspect ev.proc (v.heap ev.proc).pid) = .ok regs st) ∧
        ((C.enter = false ∨ ((v.heap ev.proc).ss.hasCallback = true ∧ C.sys.ignore (C.sys.name regs) = true)) → lines = []) ∧
        (C.enter = true → ((v.heap ev.proc).ss.hasCallback = false ∨ C.sys.ignore (C.sys.name regs) = false) →
          ∃ line, lines = [line] ∧ CallLine F (v.heap ev.proc).pid ⟨v.log.length, regs, none⟩ line)
  | .error (.event (.exit o signum exitcode)), lines =>
    ∃ cut last, lines = cut ++ [last] ∧ EndText F.signames (v.heap o).pid signum exitcode last ∧
      (∀ c, C.enter = false → (v.heap o).ss.nextExit = true → (v.heap o).ss.syscall = some c → ∃ line, cut = [line] ∧ CallLine F (v.heap o).pid c line) ∧
      (C.enter = true ∨ (v.heap o).ss.nextExit = false ∨ (v.heap o).ss.syscall = none → cut = [])
  | .error (.event (.signal o signum)), lines => lines = F.signal v o signum
  | .error (.event (.newProcess q)), lines =>
    ∃ num, decNumber num = some (v.heap q).pid ∧ lines = ["*** New process ".toList ++ num ++ " ***".toList]
  | .error (.event (.execution o)), lines =>
    ∃ num, decNumber num = some (v.heap o).pid ∧ lines = ["*** Process ".toList ++ num ++ " execution ***".toList]
  | .error _, _ => False

/-- What is printed in the turns of a run. -/
inductive RunLines (K : Kern) (C : StraceCfg) (F : LineView) : List (Except Exc Event × DSt) → List Str → Prop where
  | nil : RunLines K C F [] []
  | snoc {es : List (Except Exc Event × DSt)} {r : Except Exc Event} {v : DSt} {lines more : List Str} (h : RunLines K C F es lines)
      (ht : TurnLines K C F v r more) : RunLines K C F (es ++ [(r, v)]) (lines ++ more)

/-- Turns of the loop in which processes are registered only by the events that report them. -/
inductive ReportedTurns (K : Kern) (fuel : Nat) (C : StraceCfg) (s : DSt) (code : Nat) :
    List (Except Exc Event × DSt) → DSt → Nat → Prop where
  | nil : ReportedTurns K fuel C s code [] s code
  | snoc {es : List (Except Exc Event × DSt)} {t v w : DSt} {c c' : Nat} {r : Except Exc Event}
      (h : ReportedTurns K fuel C s code es t c) (some : iterate t ≠ []) (wait : waitSyscall K fuel none t = (r, v))
      (reported : ∀ o ∈ iterate v, o ∈ iterate t ∨ r = .error (.event (.newProcess o)))
      (handle : straceHandle K fuel C r c v = (.ok c', w)) : ReportedTurns K fuel C s code (es ++ [(r, v)]) w c'

/-- The line of an entry of the table of system calls. -/
def EntryLine (e : Nat × Str) (line : Str) : Prop :=
  ∃ num blanks : Str, decNumber num = some e.1 ∧ line = blanks ++ num ++ ": ".toList ++ e.2 ∧ (∀ c ∈ blanks, c = ' ') ∧
    (num.length ≤ 3 → (blanks ++ num).length = 3) ∧ (3 ≤ num.length → blanks = [])

/-- The line about a new program: the program, its arguments, the size of its environment and the number of its process. -/
def ProgramLine (program0 args : Str) (vars : List Str) (pid : Nat) (line : Str) : Prop :=
  ∃ count num, decNumber count = some vars.length ∧ decNumber num = some pid ∧
    line = "execve(".toList ++ program0 ++ ", ".toList ++ args ++ ", [/* ".toList ++ (count ++ " vars */]) = ".toList ++ num)

end PT.Spec
