import Verif.Spec.Gdb
import Verif.Spec.Errors

/-! The errors a user of gdb.py can provoke. -/

namespace PT.Spec

/-- A command of a typed line begins with `attach `. -/
def TypedAttach (space : Char → Bool) (inputs : List Input) : Prop :=
  ∃ text line cs c, .line text ∈ inputs ∧ Stripped space text line ∧ Commands space line cs ∧ c ∈ cs ∧ "attach ".toList <+: c

/-- An argument of a command is the number of a process that is registered. -/
def NumberTaken (G : GdbCfg) (s : DSt) : Prop := ∃ text pid o, G.parse s text = .ok pid ∧ (pid, o) ∈ s.dict

end PT.Spec
