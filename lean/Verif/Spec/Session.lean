import Verif.Model.GdbCmd
import Verif.Spec.Text

/-! What a session of gdb.py at a stop may do to the program, in terms of its memory, its registers and the breakpoints. -/

namespace PT.Spec

/-- Commands that only show something. -/
def showing : List Handler := [.procInfo, .dumpRegs, .dumpStack, .backtrace, .whereTrue, .whereOriginal, .dumpMaps, .displayBreakpoints,
  .displaySignals, .hexdump, .print]

/-- Commands that work on the process without letting it run. -/
def standing : List Handler := [.set, .breakpoint, .delete] ++ showing

/-- Only reading requests were made for the memory. -/
def OnlyReads (s t : MemSt) : Prop := t.mem = s.mem ∧ ∃ g, t.log = g ++ s.log ∧ ∀ x ∈ g, ∀ a w, x ≠ .poke a w

/-- Code and breakpoints are as before, and no request was made to change memory. -/
structure SameCode (s t : BpSt) : Prop where
  memory : OnlyReads s.m t.m
  listed : t.dict = s.dict
  objects : t.objs = s.objs
  running : t.running = s.running

/-- Nothing of the program changed. -/
def Untouched (s t : BpSt) : Prop := SameCode s t ∧ t.r.regs = s.r.regs

/-- The commands of a line: separated by semicolons, without white space around them. -/
def CommandOf (space : Char → Bool) (line command : Str) : Prop :=
  ∃ items, Pieces ';' line items ∧ ∃ item ∈ items, Stripped space item command

/-- Every known command of the lines is one of these. -/
def OnlyCommands (space : Char → Bool) (handlers : List Handler) (lines : List Str) : Prop :=
  ∀ line ∈ lines, ∀ command, CommandOf space line command → ∀ handler text, dispatch command = some (handler, text) → handler ∈ handlers

end PT.Spec
