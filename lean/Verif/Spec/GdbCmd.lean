import Verif.Model.GdbCmd
import Verif.Spec.Search
import Verif.Spec.Ints
import Verif.Spec.Text

/-
What the commands of `gdb.py` mean, after their descriptions in `help` (`gdb.py:50-93`).
-/

namespace PT.Spec

/-- Whether a command takes an argument. -/
inductive Form where
  | alone | argument | optional
  deriving DecidableEq, Repr

/-- The commands, whether they take an argument, and what they do. -/
def manual : List (String × Form × Handler) := [
  ("cont", .alone, .cont), ("step", .alone, .stepOver), ("stepi", .alone, .stepInto), ("until", .argument, .until), ("set", .argument, .set),
  ("sys", .alone, .syscallTrace), ("signal", .argument, .signal), ("signals", .alone, .displaySignals), ("regs", .alone, .dumpRegs),
  ("where", .optional, .whereTrue), ("print", .argument, .print), ("hexdump", .argument, .hexdump), ("gcore", .alone, .gcore),
  ("where2", .optional, .whereOriginal), ("stack", .alone, .dumpStack), ("backtrace", .alone, .backtrace), ("proc", .alone, .procInfo),
  ("maps", .alone, .dumpMaps), ("break", .argument, .breakpoint), ("breakpoints", .alone, .displayBreakpoints),
  ("delete", .argument, .delete), ("attach", .argument, .attachProcess), ("proclist", .alone, .procList), ("switch", .optional, .switch),
  ("follow", .argument, .addFollowTerm), ("showfollow", .alone, .showFollowTerms), ("resetfollow", .alone, .resetFollowTerms),
  ("xray", .alone, .xray), ("dbginfo", .alone, .debuggerInfo), ("help", .alone, .help)]

/-- `c` is a use of the command that reaches `h` with the argument `a`, empty if there is none. White space around an argument does not
count. -/
def Use (space : Char → Bool) (c : Str) (h : Handler) (a : Str) : Prop :=
  ∃ name form, (name, form, h) ∈ manual ∧
    ((form ≠ .argument ∧ c = name.toList ∧ a = []) ∨
     (form ≠ .alone ∧ ∃ arg, c = name.toList ++ ' ' :: arg ∧ SameText space a arg))

/-- The words of a text. -/
inductive Words (space : Char → Bool) : Str → List Str → Prop where
  | nil {blank : Str} (hb : ∀ c ∈ blank, space c = true) : Words space blank []
  | cons {blank w rest : Str} {ws : List Str} (hb : ∀ c ∈ blank, space c = true) (hne : w ≠ []) (hw : ∀ c ∈ w, space c = false)
      (hr : ∀ c, rest.head? = some c → space c = true) (h : Words space rest ws) : Words space (blank ++ w ++ rest) (w :: ws)

/-- Evaluating texts one after another. -/
inductive Evaluates {σ : Type} (parse : Str → Py σ Nat) : List Str → List Nat → σ → σ → Prop where
  | nil (s : σ) : Evaluates parse [] [] s s
  | cons {w : Str} {ws : List Str} {v : Nat} {vs : List Nat} {s t u : σ} (h : parse w s = (.ok v, t)) (hr : Evaluates parse ws vs t u) :
      Evaluates parse (w :: ws) (v :: vs) s u

/-- The text of an address. -/
def AddressText (n : Nat) (t : Str) : Prop := (n = 0 → t = "NULL".toList) ∧ (n ≠ 0 → hexLiteral t = some n)

/-- The text of a mapping: its bounds, its file, if any, and its permissions. -/
def MappingText (m : Mapping) (t : Str) : Prop :=
  ∃ first behind file, AddressText m.start first ∧ AddressText m.stop behind ∧
    ((m.pathname = none ∨ m.pathname = some []) → file = []) ∧
    (∀ p, m.pathname = some p → p ≠ [] → file = " => ".toList ++ p) ∧
    t = first ++ ['-'] ++ behind ++ file ++ " (".toList ++ m.permissions ++ [')']

/-- What `print` shows of a value: the value as decimal and as hexadecimal number, and every mapping that contains it. -/
def Printed (maps : List Mapping) (v : Nat) (lines : List Str) : Prop :=
  ∃ dec hex rest, lines = ("Decimal: ".toList ++ dec) :: ("Hexadecimal: ".toList ++ hex) :: rest ∧ decNumber dec = some v ∧ hexLiteral hex = some v ∧
    List.Forall₂ (fun m line => ∃ t, MappingText m t ∧ line = "Address is part of mapping: ".toList ++ t)
      (maps.filter fun m => decide (m.start ≤ v) && decide (v < m.stop)) rest

/-- The text of a process. -/
def ProcessText (pid : Nat) (t : Str) : Prop := ∃ num, decNumber num = some pid ∧ t = "<PtraceProcess #".toList ++ num ++ ['>']

/-- The line of `proclist` about a process. -/
def ProcLine (pid : Nat) (active : Bool) (line : Str) : Prop :=
  ∃ t, ProcessText pid t ∧ line = if active then t ++ " (active)".toList else t

/-- The line of `breakpoints` about a breakpoint on `size` bytes. -/
def BreakpointLine (pid address size : Nat) (line : Str) : Prop :=
  ∃ t first last, ProcessText pid t ∧ AddressText address first ∧ AddressText (address + size - 1) last ∧
    line = t ++ ":<Breakpoint ".toList ++ first ++ "..".toList ++ last ++ ['>']

/-- The line of `signals` about a signal. -/
def SignalLine (signum : Nat) (name line : Str) : Prop :=
  ∃ pad num, decNumber num = some signum ∧ (∀ c ∈ pad, c = ' ') ∧ (pad.length + num.length = 2 ∨ pad = []) ∧ line = pad ++ num ++ ": ".toList ++ name

end PT.Spec
