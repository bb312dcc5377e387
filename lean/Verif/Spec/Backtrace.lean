import Verif.Model.Ctypes

/-! Independent specification of a chain of frames. `view` is what reading a word of the stack gives; `w` is the size of a word. -/

namespace PT.Spec

/-- The frame of the caller: the saved frame pointer is at the frame pointer, the return address one word above. The chain ends at a saved
frame pointer that is zero or cannot be read, and at the return address -1. -/
def caller (w maxWord : Nat) (view : Nat → Except Exc Nat) (f : Nat × Nat) : Option (Nat × Nat) :=
  match view f.2, view (f.2 + w) with
  | .ok fp, .ok ip => if fp ≠ 0 ∧ ip ≠ maxWord then some (ip, fp) else none
  | _, _ => none

/-- The `n`-th frame (instruction pointer, frame pointer) of the chain. -/
def frameAt (w maxWord : Nat) (view : Nat → Except Exc Nat) (ip fp : Nat) : Nat → Option (Nat × Nat)
  | 0 => some (ip, fp)
  | n + 1 => (frameAt w maxWord view ip fp n).bind (caller w maxWord view)

/-- The arguments shown for a frame: words two and more above the frame pointer, below the frame of the caller, at most `max`, all that can
be read without a gap. -/
structure ArgsOf (w : Nat) (view : Nat → Except Exc Nat) (max : Int) (fp : Nat) (args : List Nat) : Prop where
  value : ∀ i v, args[i]? = some v → view (fp + (2 + i) * w) = .ok v
  most : args ≠ [] → (args.length : Int) ≤ max
  inside : args ≠ [] → ∃ next, view fp = .ok next ∧ fp + (2 + args.length) * w ≤ next
  complete : ∀ next, fp ≠ 0 → view fp = .ok next → fp + (2 + args.length) * w + w ≤ next → (args.length : Int) < max →
    ∃ e, view (fp + (2 + args.length) * w) = .error e

end PT.Spec
