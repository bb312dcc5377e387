/-! Independent specification of the signal table. -/

namespace PT.Spec

/-- `(name, n)` is a signal of the platform: an attribute `SIG...` with a non-zero value. -/
def IsSignal (dir : List (List Char × Nat)) (name : List Char) (n : Nat) : Prop :=
  (name, n) ∈ dir ∧ (∃ rest, name = "SIG".toList ++ rest) ∧ n ≠ 0

/-- The names preferred when a signal has several. -/
def preferred : List (List Char) := ["SIGABRT", "SIGHUP", "SIGCHLD", "SIGPOLL"].map String.toList

end PT.Spec
