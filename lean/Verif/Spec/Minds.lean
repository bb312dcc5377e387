import Verif.Model.Gdb

/-! Which processes a debugger may touch: independent statement. -/

namespace PT.Spec

/-- The number of the process a call is about; waiting for any child is waiting for 0. -/
def named : Call → Option Nat
  | .attach _ p => some p
  | .detach _ p => some p
  | .cont _ p _ => some p
  | .syscall _ p _ => some p
  | .singlestep _ p => some p
  | .kill _ p _ => some p
  | .setoptions _ p _ => some p
  | .geteventmsg _ p => some p
  | .waitpid (some p) _ _ => some p
  | .waitpid none _ _ => some 0
  | .sleep => none
  | .display _ p => some p
  | .inspect _ p => some p

/-- The number of the new process the kernel tells of. -/
def born (e : Entry) : Option Nat :=
  match e.call, e.reply with
  | .geteventmsg _ _, .ok p _ => some p
  | _, _ => none

/-- A request to attach. -/
def attaches : Call → Bool
  | .attach _ _ => true
  | _ => false

/-- Each call is about a process the user asked for (`A`) or about one that the kernel told of before, as a child of such a process; only a process
the user asked for is attached (or any of them, if `R`). -/
def Minds (A : Nat → Prop) (R : Prop) (log : List Entry) : Prop :=
  ∀ before e after, log = before ++ e :: after → ∀ p, named e.call = some p →
    A p ∨ (attaches e.call = true → R) ∧ ∃ e' ∈ before, born e' = some p

/-- A number some command `attach` of the line stands for. -/
def AttachTyped (G : GdbCfg) (line : Str) (p : Nat) : Prop :=
  ∃ c ∈ splitOn ';' (strip G.space line), ∃ arg, strip G.space c = "attach ".toList ++ arg ∧ ∃ s, G.parse s arg = .ok p

/-- A number the user named to a method of the debugger. -/
def UserNames (p : Nat) : Op → Prop
  | .addProcess q _ _ _ => q = p
  | .waitProcessEvent q _ => q = some p
  | .waitSignals _ q => q = some p
  | _ => False

end PT.Spec
