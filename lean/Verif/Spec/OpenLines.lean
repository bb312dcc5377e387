import Verif.Spec.Open
import Verif.Spec.TreeLines

/-! What strace.py has printed while it follows processes whose next stops are not known in advance (`Spec/Open`). -/

namespace PT.Spec

/-- What has been printed up to now: blocks in the order in which the kernel told the stops; those of each process are as they have to be for the stops
it made. -/
structure OpenBlocks (F : LineView) (W : Wish) (N : World) (root : Nat) (thread : Nat → Bool) (log : List Entry) (blocks : List Block) : Prop where
  order : blocks.map Block.pid = reported log
  each : ∀ p, ∃ started, ProcBlocks F W root log p (thread p) (stopsMade N p log) started (blocks.filter fun b => b.pid == p)
  known : ∀ b ∈ blocks, Announced N root log b.pid

end PT.Spec
