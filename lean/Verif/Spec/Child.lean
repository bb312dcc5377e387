import Verif.Model.Py

/-! Independent specification of retrying. -/

namespace PT.Spec

/-- Calling until the outcome is not "interrupted" (4): `r` is that outcome. -/
inductive Retried {σ α : Type} (call : Py σ α) : σ → Except Exc α → σ → Prop where
  | done {s s' : σ} {r : Except Exc α} : call s = (r, s') → r ≠ .error (.os 4) → Retried call s r s'
  | again {s s1 s' : σ} {r : Except Exc α} : call s = (.error (.os 4), s1) → Retried call s1 r s' → Retried call s r s'

end PT.Spec
