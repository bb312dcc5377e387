import Verif.Spec.Strace
import Verif.Model.Gdb

/-! What the command line debugger must do, stated on its states and on the log of system calls. -/

namespace PT.Spec

/-! ### command lines (C46) -/

/-- The commands `cs` were executed in order from `s`, all but the last with success; the result is that
of the last one, `.ok true` if there is none. -/
inductive Runs {σ : Type} (execute : Str → Py σ Bool) : σ → List Str → Except Exc Bool → σ → Prop where
  | nil (s : σ) : Runs execute s [] (.ok true) s
  | fail {c : Str} {s t : σ} (h : execute c s = (.ok false, t)) : Runs execute s [c] (.ok false) t
  | raised {c : Str} {s t : σ} {e : Exc} (h : execute c s = (.error e, t)) : Runs execute s [c] (.error e) t
  | step {c : Str} {cs : List Str} {s t u : σ} {r : Except Exc Bool} (h : execute c s = (.ok true, t))
      (rest : Runs execute t cs r u) : Runs execute s (c :: cs) r u

/-- The commands of a line: its parts between `;` without surrounding white space. -/
def Commands (space : Char → Bool) (line : Str) (cs : List Str) : Prop :=
  ∃ ps, Pieces ';' line ps ∧ cs.length = ps.length ∧
    ∀ (i : Nat) (h1 : i < ps.length) (h2 : i < cs.length), Stripped space ps[i] cs[i]

/-- The line the debugger works on: the typed one, or the previous one for a blank line. -/
inductive Entered (space : Char → Bool) (previous : Option Str) : Input → Str → Prop where
  | typed {text line : Str} (h : Stripped space text line) (ne : line ≠ []) : Entered space previous (.line text) line
  | again {text line : Str} (h : Stripped space text []) (hp : previous = some line) (ne : line ≠ []) :
      Entered space previous (.line text) line

/-! ### signals (C43) -/

/-- The signal `cont` has to send to process `o`: the given one to the current process, if any,
otherwise the one that interrupted the process; 0 for none. -/
def owed (g : GSt) (given o : Nat) : Nat :=
  if o = g.process ∧ given ≠ 0 then given else (g.last o).getD 0

/-- The request `cont` has to make for process `o`. -/
def resume (g : GSt) (given o : Nat) : Call := .cont o (g.dbg.heap o).pid (passed (owed g given o))

/-- The kernel accepted the request. -/
def Accepted (e : Entry) : Prop := ∃ v st, e.reply = .ok v st

/-- The last thing the kernel told the debugger, apart from the successful display of it: the process was
stopped by signal `n`. -/
def Reported (log : List Entry) (pid n : Nat) : Prop :=
  ∃ g1 e g2, log = g1 ++ e :: g2 ∧
    (∃ nohang wall st, e.call = .waitpid (some pid) nohang wall ∧ e.reply = .ok pid st ∧ waitMeaning st = .signal n) ∧
    ∀ e' ∈ g2, (∃ i p, e'.call = .display i p) ∧ Accepted e'

/-- The commands of the line neither continue the processes nor send a signal. -/
def Quiet (space : Char → Bool) (line : Str) : Prop :=
  ∀ cs, Commands space line cs → ∀ c ∈ cs, c ≠ "cont".toList ∧ ¬ ("signal ".toList <+: c)

/-- A signal was delivered to `o`: a successful request to continue it with a signal. -/
def Delivered (o : Nat) (e : Entry) : Prop :=
  ∃ pid n v st, e.call = .cont o pid n ∧ n ≠ 0 ∧ e.reply = .ok v st

/-- Process `o` was stopped by signal `n`, and no signal was delivered to it since. -/
def Waiting (log : List Entry) (pid o n : Nat) : Prop :=
  ∃ g1 e g2, log = g1 ++ e :: g2 ∧
    (∃ nohang wall st, e.call = .waitpid (some pid) nohang wall ∧ e.reply = .ok pid st ∧ waitMeaning st = .signal n) ∧
    ∀ e' ∈ g2, ¬ Delivered o e'

/-- States of the debugger at the prompt: any input line by line, from a process of a debugger in any
state. -/
inductive GReach (K : Kern) (fuel : Nat) (G : GdbCfg) : GSt → Prop where
  | start {s : DSt} {o : Nat} (h : Reach K s) (ho : o ∈ iterate s) : GReach K fuel G ⟨s, o, fun _ => none⟩
  | turn {g g' : GSt} {p p' : Option Str} {input : Input} {quit : Bool} (h : GReach K fuel G g)
      (some : iterate g.dbg ≠ []) (run : gdbLoop K fuel G input (p, g) = (.ok quit, (p', g'))) : GReach K fuel G g'

/-- No process has the number 0: nothing can be attached under it. -/
def NoAttachZero (K : Kern) : Prop := ∀ log o v st, K log (.attach o 0) ≠ .ok v st

/-! ### switching (C44) -/

/-- The command `switch` without argument, `n` times, from `g`: all current processes on the way. -/
inductive Switches : GSt → List Nat → GSt → Prop where
  | nil (g : GSt) : Switches g [] g
  | step {g u t : GSt} {ps : List Nat} {ok : Bool} (h : gdbSwitchNext g = (.ok ok, u)) (rest : Switches u ps t) :
      Switches g (u.process :: ps) t

end PT.Spec
