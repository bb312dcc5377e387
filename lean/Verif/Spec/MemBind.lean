import Verif.Model.Binding
import Verif.Spec.ArgText

/-! The memory of a traced process as the kernel keeps it: it changes by the requests that are granted. -/

namespace PT.Spec

/-- The request was granted. -/
def Granted : PtraceReply → Bool
  | .ok _ => true
  | .error _ => false

/-- The memory of `pid` after some requests (last one first); `mem` is the memory at the beginning. -/
def traceeMem (m : BindEnv) (pid : Nat) (mem : Nat → Byte) : List PtraceReq → (Nat → Byte)
  | [] => mem
  | req :: before => fun x =>
    if req.command = 4 ∧ req.pid = pid ∧ Granted (m.kernel before req) ∧ req.arg1 ≤ x ∧ x < req.arg1 + m.arch.W then
      Fin.ofNat 256 (byteAt m.arch.big m.arch.W req.arg2 (x - req.arg1))
    else traceeMem m pid mem before x

/-- A kernel that answers as it should: a word is that of the memory, errors have a number, a request that sets a word is refused or not
whatever the word is, and its value is not -1. -/
structure Honest (m : BindEnv) (pid : Nat) (mem : Nat → Byte) : Prop where
  peek : ∀ before address v, address % m.arch.W = 0 → m.kernel before ⟨1, pid, address, 0⟩ = .ok v →
    IsUint m.arch.big (traceeMem m pid mem before) address m.arch.W v
  error : ∀ before req e, m.kernel before req = .error e → e ≠ 0
  poke : ∀ before address w w' e, m.kernel before ⟨4, pid, address, w⟩ = .error e → m.kernel before ⟨4, pid, address, w'⟩ = .error e
  value : ∀ before address w v, m.kernel before ⟨4, pid, address, w⟩ = .ok v → v + 1 < 2 ^ (8 * m.arch.W)

end PT.Spec
