import Verif.Spec.Spares

/-! Ends that are told are heeded. -/

namespace PT.Spec

/-- Every object whose end was told by a wait while it was registered counts as not running. -/
def HeedsEnds (s : DSt) : Prop := ∀ x ∈ s.log, ∀ q o, WaitTells q x → (q, o) ∈ x.dict → (s.heap o).running = false

end PT.Spec
