import Verif.Model.Regs
import Verif.Spec.Regs
import Verif.Lemmas.Ints
import Verif.Lemmas.Memory

namespace PT

theorem land_not_nat (a m : Nat) : Int.land (a : Int) (Int.not (m : Int)) = ((Nat.ldiff a m : Nat) : Int) := rfl

theorem lor_nat (a b : Nat) : Int.lor (a : Int) (b : Int) = ((a ||| b : Nat) : Int) := rfl

/-- The value computed by `setreg` for a sub-register with mask `2^w - 1`. -/
theorem setreg_value (old : Nat) (v : Int) (w shift : Nat) :
    Int.lor (Int.land (old : Int) (Int.not ((2 ^ w - 1 : Nat) : Int)))
      (Int.land v ((2 ^ w - 1 : Nat) : Int) * 2 ^ shift) =
    ((Nat.ldiff old (2 ^ w - 1) ||| ((v % 2 ^ w).toNat <<< shift) : Nat) : Int) := by
  rw [land_not_nat, land_mask]
  have h0 : 0 ≤ v % 2 ^ w := Int.emod_nonneg _ (by
    have : (0 : Int) < 2 ^ w := by exact_mod_cast Nat.two_pow_pos w
    omega)
  obtain ⟨r, hr⟩ := Int.eq_ofNat_of_zero_le h0
  rw [hr]
  have : ((r : Int) * 2 ^ shift) = ((r <<< shift : Nat) : Int) := by
    rw [Nat.shiftLeft_eq]; push_cast; rfl
  rw [this, lor_nat]
  rfl

/-- Bits of that value. -/
theorem setreg_bits (old r w shift i : Nat) (hr : r < 2 ^ w) :
    (Nat.ldiff old (2 ^ w - 1) ||| (r <<< shift)).testBit i =
      if shift ≤ i ∧ i < shift + w then (old.testBit i && decide (w ≤ i)) || r.testBit (i - shift)
      else old.testBit i && decide (w ≤ i) := by
  rw [Nat.testBit_or, Nat.testBit_ldiff, Nat.testBit_two_pow_sub_one, Nat.testBit_shiftLeft]
  have hd : (!decide (i < w)) = decide (w ≤ i) := by
    by_cases h : i < w
    · simp [h]
    · simp [h]; omega
  rw [hd]
  by_cases h1 : shift ≤ i
  · by_cases h2 : i < shift + w
    · rw [if_pos ⟨h1, h2⟩]; simp [h1]
    · rw [if_neg (by omega)]
      have : r.testBit (i - shift) = false := by
        apply Nat.testBit_lt_two_pow
        exact Nat.lt_of_lt_of_le hr (Nat.pow_le_pow_right (by decide) (by omega))
      simp [this]
  · rw [if_neg (by omega)]; simp [h1]

theorem setreg_value_lt (old r w shift W : Nat) (hr : r < 2 ^ w) (ho : old < 2 ^ W) (hs : shift + w ≤ W) :
    (Nat.ldiff old (2 ^ w - 1) ||| (r <<< shift)) < 2 ^ W := by
  apply Nat.lt_pow_two_of_testBit
  intro i hi
  rw [setreg_bits _ _ _ _ _ hr, if_neg (by omega)]
  have : old.testBit i = false :=
    Nat.testBit_lt_two_pow (Nat.lt_of_lt_of_le ho (Nat.pow_le_pow_right (by decide) hi))
  simp [this]

theorem getregs_cases (k : RegKernel) (s : RegSt) :
    (k s.count = 0 ∧ getregs k s = (.ok s.regs, { s with count := s.count + 1 })) ∨
    (k s.count ≠ 0 ∧ getregs k s = (.error (.ptrace (some (k s.count))), { s with count := s.count + 1 })) := by
  unfold getregs
  by_cases h : k s.count = 0
  · exact Or.inl ⟨h, by simp [h]⟩
  · exact Or.inr ⟨h, by simp [h]⟩

theorem setregs_cases (k : RegKernel) (r : String → Nat) (s : RegSt) :
    (k s.count = 0 ∧ setregs k r s = (.ok (), { s with count := s.count + 1, regs := r })) ∨
    (k s.count ≠ 0 ∧ setregs k r s =
      (.error (.ptrace (some (k s.count))), { s with count := s.count + 1 })) := by
  unfold setregs
  by_cases h : k s.count = 0
  · exact Or.inl ⟨h, by simp [h]⟩
  · exact Or.inr ⟨h, by simp [h]⟩

/-- `getreg` of a known name, full or sub. -/
theorem getreg_known {t : RegTable} {k : RegKernel} {name : String} {s : RegSt} {x : Nat} (r : SubReg)
    (hr : (t.subs.lookup name).getD ⟨name, 0, none⟩ = r)
    (h : (getreg t k name s).1 = .ok x) :
    r.full ∈ t.names ∧ x = match r.mask with
      | some m => if m ≠ 0 then (s.regs r.full >>> r.shift) &&& m else s.regs r.full >>> r.shift
      | none => s.regs r.full >>> r.shift := by
  unfold getreg at h
  have key : ∀ (r : SubReg), ((if r.full ∉ t.names then Py.raise (.ptrace none)
      else Py.bind (getregs k) fun regs =>
        match r.mask with
        | some m => if m ≠ 0 then Py.pure ((regs r.full >>> r.shift) &&& m) else Py.pure (regs r.full >>> r.shift)
        | none => Py.pure (regs r.full >>> r.shift)) s).1 = Except.ok x →
      r.full ∈ t.names ∧ x = match r.mask with
      | some m => if m ≠ 0 then (s.regs r.full >>> r.shift) &&& m else s.regs r.full >>> r.shift
      | none => s.regs r.full >>> r.shift := by
    intro r h
    by_cases hn : r.full ∉ t.names
    · rw [if_pos hn] at h; cases h
    · rw [if_neg hn] at h
      refine ⟨by simpa using hn, ?_⟩
      rcases getregs_cases k s with ⟨_, h1⟩ | ⟨_, h1⟩
      · rw [Py.bind_eq_ok h1] at h
        obtain ⟨full, shift, mask⟩ := r
        cases mask with
        | none => exact (Except.ok.inj h).symm
        | some m =>
          by_cases hm : m ≠ 0
          · simp only [if_pos hm] at h ⊢; exact (Except.ok.inj h).symm
          · simp only [if_neg hm] at h ⊢; exact (Except.ok.inj h).symm
      · rw [Py.bind_eq_error h1] at h; cases h
  cases hl : t.subs.lookup name with
  | none =>
    rw [hl] at h hr
    have hr : (⟨name, 0, none⟩ : SubReg) = r := hr
    subst hr
    exact key ⟨name, 0, none⟩ h
  | some r' =>
    rw [hl] at h hr
    have hr : r' = r := hr
    subst hr
    exact key r' h

end PT
