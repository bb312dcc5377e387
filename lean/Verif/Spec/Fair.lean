import Verif.Spec.Debugger

/-! What waiting for any of several processes asks the kernel, stated on the log of system calls. -/

namespace PT.Spec

/-- The processes of `es` were polled, one after the other, and none had anything to report. -/
def Silent (s : DSt) (es : List (Nat × Nat)) (g : List Entry) : Prop :=
  g.map (fun e => e.call) = es.map (fun e => .waitpid (some e.1) true (s.heap e.2).isThread) ∧
  ∀ e ∈ g, ∃ st, e.reply = .ok 0 st

/-- Any number of times: every registered process was polled in vain, then a pause was made. -/
inductive Rounds (s : DSt) : List Entry → Prop where
  | nil : Rounds s []
  | round {g h : List Entry} {e : Entry} (hs : Silent s s.dict h) (he : e.call = .sleep) (hg : Rounds s g) :
      Rounds s (h ++ e :: g)

/-- The kernel has something to report about this pid, however often it is asked. -/
def Pending (K : Kern) (pid : Nat) : Prop := ∀ log wall st, K log (.waitpid (some pid) true wall) ≠ .ok 0 st

/-- The kernel has nothing to report about this pid. -/
def NothingFor (K : Kern) (pid : Nat) : Prop := ∀ log wall, ∃ st, K log (.waitpid (some pid) true wall) = .ok 0 st

end PT.Spec
