import Verif.Spec.Text
import Verif.Spec.Proc
import Verif.Spec.Ints
import Verif.Model.Log

/-
Specifications about logs and terminals. They use the data types of the models, not their functions.
-/

namespace PT.Spec

/-- The levels that have a name between DEBUG and ERROR. -/
def namedLevels : List Int := [10, 20, 30, 40]

/-- The lines of a text, without white space at their ends and without empty lines at the end of the text. -/
def LinesOf (space : Char → Bool) (text : Str) (lines : List Str) : Prop :=
  ∃ body pieces, RStripped space text body ∧ Pieces '\n' body pieces ∧ List.Forall₂ (RStripped space) pieces lines

/-- The exceptions that end the program: a class, or one derived from it. -/
inductive IsExit : ErrClass → Prop where
  | systemExit : IsExit .systemExit
  | interrupt : IsExit .keyboardInterrupt
  | derived {name base} : IsExit base → IsExit (.derived name base)

/-- The name of a class that does not end the program: its own, not that of the class it is derived from. -/
inductive ClassNamed : ErrClass → Str → Prop where
  | exception (name) : ClassNamed (.exception name) name
  | derived (name base) : ClassNamed (.derived name base) name

/-- `u` has the same bits as `t`, except that bit `k` is set. -/
def BitSet (k t u : Nat) : Prop := ∀ i, u.testBit i = (decide (i = k) || t.testBit i)

/-- The bit of an option of `PTRACE_SETOPTIONS` (`linux/ptrace.h`: bits 1 to 4), and what asks for it. -/
def wantedBits (o : TraceOptions) : List (Nat × Bool) := [(1, o.fork), (2, o.fork), (3, o.clone), (4, o.exec)]

end PT.Spec
