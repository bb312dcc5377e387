import Verif.Spec.Wait

/-! The model decodes statuses as the kernel means them. -/

namespace PT

theorem classify_kind (st : Int) : classify true st = Spec.waitMeaning st := by
  unfold classify Spec.waitMeaning wIfExited wIfSignaled wIfStopped wStopSig wPtraceEvent wTermSig wExitStatus
  by_cases h0 : st % 128 = 0
  · simp [h0]
  · have h1 : ¬ (st % 128).toNat = 0 := by omega
    by_cases h2 : st % 128 = 127
    · by_cases h3 : st / 128 % 2 = 1
      · have : ¬ st % 256 = 127 := by omega
        simp [h2, h3, this]
      · have : st % 256 = 127 := by omega
        by_cases h4 : st / 65536 = 0 <;> simp [h2, h3, this, h4]
    · have h5 : 0 < (st % 128).toNat ∧ (st % 128).toNat < 127 := by omega
      simp [h0, h1, h2, h5]

end PT
