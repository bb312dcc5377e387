import Verif.Lemmas.Regs

/-! Property theorems C16–C18: registers. -/

namespace PT.Props
open PT

/-! ## C16 — full registers -/

/-- A register file for the examples: rax = 0x1234, eflags = 0x3000 (iopl 3), rest 0. -/
def exRegs : RegSt := { regs := fun n => if n = "rax" then 0x1234 else if n = "eflags" then 0x3000 else 0 }

/-- A successful write of a full register stores the value reduced to the register's width, every other
register keeps its value, and a later read returns it. -/
theorem C16_read_after_write (t : RegTable) (k : RegKernel) (name : String) (v : Int) (s : RegSt)
    (hsub : t.subs.lookup name = none) (h : (setreg t k name v s).1 = .ok ()) :
    let s' := (setreg t k name v s).2
    (s'.regs name : Int) = v % 2 ^ t.width name ∧ (∀ n, n ≠ name → s'.regs n = s.regs n) ∧
    (∀ s'' x, s''.regs = s'.regs → (getreg t k name s'').1 = .ok x → (x : Int) = v % 2 ^ t.width name) ∧
    (k s'.count = 0 → ∃ x, (getreg t k name s').1 = .ok x) := by
  have hpos : (0 : Int) ≤ v % 2 ^ t.width name := Int.emod_nonneg _ (by
    have : (0 : Int) < 2 ^ t.width name := by exact_mod_cast Nat.two_pow_pos _
    omega)
  intro s'
  have hs' : setreg t k name v s = (.ok (), s') := by rw [← h]
  unfold setreg at hs'
  rcases getregs_cases k s with ⟨_, h1⟩ | ⟨_, h1⟩
  · rw [Py.bind_eq_ok h1, hsub] at hs'
    dsimp only at hs'
    by_cases hn : name ∉ t.names
    · rw [if_pos hn] at hs'; injection hs' with hs' _; cases hs'
    · rw [if_neg hn] at hs'
      rcases setregs_cases k (setField t s.regs name v) { s with count := s.count + 1 } with ⟨_, h2⟩ | ⟨_, h2⟩
      · rw [h2] at hs'
        injection hs' with _ hs'
        have hregs : s'.regs = setField t s.regs name v := by rw [← hs']
        have hval : (s'.regs name : Int) = v % 2 ^ t.width name := by
          rw [hregs]; unfold setField; rw [if_pos rfl]; omega
        refine ⟨hval, ?_, ?_, ?_⟩
        · intro n hne; rw [hregs]; unfold setField; rw [if_neg hne]
        · intro s'' x hs'' hx
          obtain ⟨_, h4⟩ := getreg_known ⟨name, 0, none⟩ (by rw [hsub]; rfl) hx
          dsimp only at h4
          rw [h4, hs'']; simpa using hval
        · intro hk
          unfold getreg
          rw [hsub]
          dsimp only
          rw [if_neg hn]
          rcases getregs_cases k s' with ⟨_, h5⟩ | ⟨h5, _⟩
          · rw [Py.bind_eq_ok h5]; exact ⟨_, rfl⟩
          · exact absurd hk h5
      · rw [h2] at hs'; injection hs' with hs' _; cases hs'
  · rw [Py.bind_eq_error h1] at hs'; injection hs' with hs' _; cases hs'

example := C16_read_after_write regsX86_64 (fun _ => 0) "rax" (-1) exRegs (by decide +kernel) (by decide +kernel)

/-- A `setreg` that raises leaves every register untouched. -/
theorem C16_failure_untouched (t : RegTable) (k : RegKernel) (name : String) (v : Int) (s : RegSt) (e : Exc)
    (h : (setreg t k name v s).1 = .error e) : (setreg t k name v s).2.regs = s.regs := by
  unfold setreg at h ⊢
  rcases getregs_cases k s with ⟨_, h1⟩ | ⟨_, h1⟩
  · rw [Py.bind_eq_ok h1] at h ⊢
    have key : ∀ r, (setregs k r { s with count := s.count + 1 }).1 = .error e →
        (setregs k r { s with count := s.count + 1 }).2.regs = s.regs := by
      intro r hr
      rcases setregs_cases k r { s with count := s.count + 1 } with ⟨_, h2⟩ | ⟨_, h2⟩
      · rw [h2] at hr; cases hr
      · rw [h2]
    cases hl : t.subs.lookup name with
    | none =>
      rw [hl] at h
      dsimp only at h ⊢
      by_cases hn : name ∉ t.names
      · rw [if_pos hn]; rfl
      · rw [if_neg hn] at h ⊢; exact key _ h
    | some r =>
      rw [hl] at h
      dsimp only at h ⊢
      by_cases hn : r.full ∉ t.names
      · rw [if_pos hn]; rfl
      · rw [if_neg hn] at h ⊢
        cases hm : r.mask with
        | none => rfl
        | some m => rw [hm] at h; exact key _ h
  · rw [Py.bind_eq_error h1]

-- the second request is refused: the registers were read, but not written
example := C16_failure_untouched regsX86_64 (fun n => if n = 1 then 3 else 0) "rax" (-1) exRegs (.ptrace (some 3))
  (by decide +kernel)

/-- An unknown name raises `ProcessError` from both functions. -/
theorem C16_unknown (t : RegTable) (k : RegKernel) (name : String) (v : Int) (s : RegSt)
    (hsub : t.subs.lookup name = none) (hn : name ∉ t.names) :
    (∃ x, (getreg t k name s).1 = .error (.ptrace x)) ∧ (∃ x, (setreg t k name v s).1 = .error (.ptrace x)) ∧
    (getreg t k name s).2.regs = s.regs ∧ (setreg t k name v s).2.regs = s.regs := by
  have h1 : getreg t k name s = (.error (.ptrace none), s) := by
    unfold getreg; rw [hsub]; dsimp only; rw [if_pos hn]; rfl
  have h2 : ∃ x, (setreg t k name v s).1 = .error (.ptrace x) := by
    unfold setreg
    rcases getregs_cases k s with ⟨_, h1⟩ | ⟨_, h1⟩
    · rw [Py.bind_eq_ok h1, hsub]; dsimp only; rw [if_pos hn]; exact ⟨_, rfl⟩
    · rw [Py.bind_eq_error h1]; exact ⟨_, rfl⟩
  obtain ⟨x, h2⟩ := h2
  exact ⟨⟨_, by rw [h1]⟩, ⟨x, h2⟩, by rw [h1], C16_failure_untouched t k name v s _ h2⟩

example := C16_unknown regsX86_64 (fun _ => 0) "xmm0" 1 exRegs (by decide +kernel) (by decide +kernel)

/-- The tables of all architectures: register names are distinct, of positive width, never also sub-register
names; sub-registers refer to existing registers; instruction, stack and frame pointers exist. -/
theorem C16_tables : ∀ t ∈ regTables, t.names.Nodup ∧ (∀ n ∈ t.names, 0 < t.width n ∧ t.subs.lookup n = none) ∧
    (∀ e ∈ t.subs, e.2.full ∈ t.names) ∧ (t.subs.map Prod.fst).Nodup ∧
    (∀ n ∈ t.instrPointer.toList ++ t.stackPointer.toList ++ t.framePointer.toList, n ∈ t.names) ∧
    t.instrPointer.isSome ∧ t.stackPointer.isSome := by
  decide +kernel

/-- When the kernel grants both requests, writing a known register succeeds. -/
theorem C16_succeeds (t : RegTable) (k : RegKernel) (name : String) (v : Int) (s : RegSt)
    (hsub : t.subs.lookup name = none) (hn : name ∈ t.names) (h0 : k s.count = 0) (h1 : k (s.count + 1) = 0) :
    (setreg t k name v s).1 = .ok () := by
  unfold setreg
  rcases getregs_cases k s with ⟨_, e1⟩ | ⟨e1, _⟩
  · rw [Py.bind_eq_ok e1, hsub]
    dsimp only
    rw [if_neg (by simpa using hn)]
    rcases setregs_cases k (setField t s.regs name v) { s with count := s.count + 1 } with ⟨_, h2⟩ | ⟨h2, _⟩
    · rw [h2]
    · exact absurd h1 h2
  · exact absurd h0 e1

example : (setreg regsX86_64 (fun _ => 0) "rax" (-1) exRegs).1 = .ok () := by decide +kernel
example : (setreg regsX86_64 (fun _ => 0) "rax" (-1) exRegs).2.regs "rax" = 2 ^ 64 - 1 := by decide +kernel
example : regsX86_64.subs.lookup "rax" = none := by decide +kernel

/-! ## C17 — reading sub-registers -/

/-- A table entry for a bit field: shift to the lowest bit, mask of the width. -/
def goodEntry (t : RegTable) (name : String) (f : Spec.Field) : Prop :=
  t.subs.lookup name = some ⟨f.full, f.low, some (2 ^ f.width - 1)⟩ ∧ 0 < f.width ∧
    f.low + f.width ≤ t.width f.full ∧ f.full ∈ t.names

theorem getreg_good {t : RegTable} {name : String} {f : Spec.Field} (hg : goodEntry t name f) (k : RegKernel)
    (s : RegSt) (x : Nat) (h : (getreg t k name s).1 = .ok x) : x = f.get (s.regs f.full) := by
  obtain ⟨h1, h2, _, _⟩ := hg
  obtain ⟨_, h4⟩ := getreg_known (t := t) ⟨f.full, f.low, some (2 ^ f.width - 1)⟩ (by rw [h1]; rfl) h
  dsimp only at h4
  have hne : 2 ^ f.width - 1 ≠ 0 := by
    have : 2 ^ 1 ≤ 2 ^ f.width := Nat.pow_le_pow_right (by decide) h2
    omega
  rw [if_pos hne] at h4
  rw [h4, Nat.and_two_pow_sub_one_eq_mod, Nat.shiftRight_eq_div_pow]
  rfl

theorem good64 : ∀ e ∈ Spec.intel64, e.1 ∉ ["eax", "ebx", "ecx", "edx", "iopl"] →
    goodEntry regsX86_64 e.1 e.2 := by
  unfold goodEntry; decide +kernel

theorem good32 : ∀ e ∈ Spec.intel32, e.1 ∉ ["iopl"] → goodEntry regsI386 e.1 e.2 := by
  unfold goodEntry; decide +kernel

/-- Reading any sub-register of any table succeeds when the kernel grants the request. -/
theorem C17_succeeds (t : RegTable) (ht : t ∈ regTables) (e : String × SubReg) (he : e ∈ t.subs)
    (k : RegKernel) (s : RegSt) (h0 : k s.count = 0) : ∃ x, (getreg t k e.1 s).1 = .ok x := by
  have hl : ∀ t ∈ regTables, ∀ e ∈ t.subs, t.subs.lookup e.1 = some e.2 ∧ e.2.full ∈ t.names := by decide +kernel
  obtain ⟨h1, h2⟩ := hl t ht e he
  obtain ⟨n, full, shift, mask⟩ := e
  unfold getreg
  rw [h1]
  dsimp only
  rw [if_neg (by simpa using h2)]
  rcases getregs_cases k s with ⟨_, e1⟩ | ⟨e1, _⟩
  · rw [Py.bind_eq_ok e1]
    cases mask with
    | none => exact ⟨_, rfl⟩
    | some m =>
      by_cases hm : m ≠ 0
      · simp only [if_pos hm]; exact ⟨_, rfl⟩
      · simp only [if_neg hm]; exact ⟨_, rfl⟩
  · exact absurd h0 e1

example := C17_succeeds regsX86_64 (by simp [regTables]) ("ah", ⟨"rax", 8, some 0xff⟩) (by decide +kernel) (fun _ => 0) exRegs rfl

/-- The specification covers every sub-register of the two tables. -/
theorem C17_spec_complete : (∀ e ∈ regsX86_64.subs, e.1 ∈ Spec.intel64.map Prod.fst) ∧
    (∀ e ∈ regsI386.subs, e.1 ∈ Spec.intel32.map Prod.fst) := by decide +kernel

/-- On x86_64 all sub-registers but eax, ebx, ecx, edx and iopl read the architectural bits. -/
theorem C17_x86_64_partial (name : String) (f : Spec.Field) (hf : (name, f) ∈ Spec.intel64)
    (hn : name ∉ ["eax", "ebx", "ecx", "edx", "iopl"]) (k : RegKernel) (s : RegSt) (x : Nat)
    (h : (getreg regsX86_64 k name s).1 = .ok x) : x = f.get (s.regs f.full) :=
  getreg_good (good64 (name, f) hf hn) k s x h

example := C17_x86_64_partial "ah" ⟨"rax", 8, 8⟩ (by decide +kernel) (by decide +kernel) (fun _ => 0) exRegs 0x12
  (by decide +kernel)

/-- On i386 all sub-registers but iopl read the architectural bits. -/
theorem C17_i386_partial (name : String) (f : Spec.Field) (hf : (name, f) ∈ Spec.intel32) (hn : name ≠ "iopl")
    (k : RegKernel) (s : RegSt) (x : Nat)
    (h : (getreg regsI386 k name s).1 = .ok x) : x = f.get (s.regs f.full) :=
  getreg_good (good32 (name, f) hf (by simpa using hn)) k s x h

example := C17_i386_partial "al" ⟨"eax", 0, 8⟩ (by decide +kernel) (by decide +kernel) (fun _ => 0)
  { regs := fun n => if n = "eax" then 0x1234 else 0 } 0x34 (by decide +kernel)

/-- x86_64 `eax` reads the upper half of rax (0 instead of 0x1234), and iopl 3 is read as 2. -/
theorem C17_refuted : ¬ (∀ (name : String) (f : Spec.Field) (s : RegSt) (x : Nat), (name, f) ∈ Spec.intel64 →
      name ≠ "iopl" → (getreg regsX86_64 (fun _ => 0) name s).1 = .ok x → x = f.get (s.regs f.full)) ∧
    ¬ (∀ (f : Spec.Field) (s : RegSt) (x : Nat), ("iopl", f) ∈ Spec.intel64 →
      (getreg regsX86_64 (fun _ => 0) "iopl" s).1 = .ok x → x = f.get (s.regs f.full)) := by
  constructor
  · intro h
    have := h "eax" ⟨"rax", 0, 32⟩ exRegs 0 (by decide +kernel) (by decide +kernel) (by decide +kernel)
    exact absurd this (by decide +kernel)
  · intro h
    have := h ⟨"eflags", 12, 2⟩ exRegs 2 (by decide +kernel) (by decide +kernel)
    exact absurd this (by decide +kernel)

example : (getreg regsX86_64 (fun _ => 0) "ah" exRegs).1 = .ok 0x12 := by decide +kernel

/-! ## C18 — writing sub-registers -/

/-- Exact effect of writing a sub-register whose entry is a proper bit field: bit `i` of the full register. -/
theorem setreg_good {t : RegTable} {name : String} {f : Spec.Field} (hg : goodEntry t name f) (k : RegKernel)
    (v : Int) (s : RegSt) (hold : s.regs f.full < 2 ^ t.width f.full)
    (h : (setreg t k name v s).1 = .ok ()) :
    (∀ n, n ≠ f.full → (setreg t k name v s).2.regs n = s.regs n) ∧
    ∀ i, ((setreg t k name v s).2.regs f.full).testBit i =
      if f.low ≤ i ∧ i < f.low + f.width then
        ((s.regs f.full).testBit i && decide (f.width ≤ i)) || (v % 2 ^ f.width).toNat.testBit (i - f.low)
      else (s.regs f.full).testBit i && decide (f.width ≤ i) := by
  obtain ⟨h1, h2, h3, h4⟩ := hg
  have hlt : (v % 2 ^ f.width).toNat < 2 ^ f.width := by
    have hp : (0 : Int) < 2 ^ f.width := by exact_mod_cast Nat.two_pow_pos _
    have h5 := Int.emod_nonneg v (Int.ne_of_gt hp)
    have h6 := Int.emod_lt_of_pos v hp
    have h7 : ((2 ^ f.width : Nat) : Int) = 2 ^ f.width := by push_cast; rfl
    omega
  generalize hs' : setreg t k name v s = res at h ⊢
  unfold setreg at hs'
  rcases getregs_cases k s with ⟨_, e1⟩ | ⟨_, e1⟩
  · rw [Py.bind_eq_ok e1, h1] at hs'
    dsimp only at hs'
    rw [if_neg (by simpa using h4), setreg_value] at hs'
    rcases setregs_cases k (setField t s.regs f.full
      ((Nat.ldiff (s.regs f.full) (2 ^ f.width - 1) ||| ((v % 2 ^ f.width).toNat <<< f.low) : Nat) : Int))
      { s with count := s.count + 1 } with ⟨_, e2⟩ | ⟨_, e2⟩
    · rw [e2] at hs'
      rw [← hs']
      constructor
      · intro n hn; dsimp only; unfold setField; rw [if_neg hn]
      · intro i
        dsimp only
        unfold setField
        rw [if_pos rfl]
        have hb := setreg_value_lt (s.regs f.full) _ f.width f.low (t.width f.full) hlt hold h3
        have : (((Nat.ldiff (s.regs f.full) (2 ^ f.width - 1) ||| ((v % 2 ^ f.width).toNat <<< f.low) : Nat) : Int)
            % 2 ^ t.width f.full).toNat =
            (Nat.ldiff (s.regs f.full) (2 ^ f.width - 1) ||| ((v % 2 ^ f.width).toNat <<< f.low)) := by
          have h7 : ((2 ^ t.width f.full : Nat) : Int) = 2 ^ t.width f.full := by push_cast; rfl
          rw [← h7, ← Int.natCast_mod, Int.toNat_natCast, Nat.mod_eq_of_lt hb]
        rw [this]
        exact setreg_bits _ _ _ _ _ hlt
    · rw [e2] at hs'; rw [← hs'] at h; cases h
  · rw [Py.bind_eq_error e1] at hs'; rw [← hs'] at h; cases h

/-- The new full register has the field replaced by `v` and every other bit unchanged. -/
def FieldWritten (f : Spec.Field) (v : Int) (old new : Nat) : Prop :=
  (f.get new : Int) = v % 2 ^ f.width ∧ ∀ i, ¬ (f.low ≤ i ∧ i < f.low + f.width) → new.testBit i = old.testBit i

theorem fieldWritten_of_low {t : RegTable} {name : String} {f : Spec.Field} (hg : goodEntry t name f)
    (hlow : f.low = 0) (k : RegKernel) (v : Int) (s : RegSt) (hold : s.regs f.full < 2 ^ t.width f.full)
    (h : (setreg t k name v s).1 = .ok ()) :
    FieldWritten f v (s.regs f.full) ((setreg t k name v s).2.regs f.full) ∧
    ∀ n, n ≠ f.full → (setreg t k name v s).2.regs n = s.regs n := by
  obtain ⟨h1, h2⟩ := setreg_good hg k v s hold h
  rw [hlow] at h2
  have hp : (0 : Int) < 2 ^ f.width := by exact_mod_cast Nat.two_pow_pos _
  have h5 := Int.emod_nonneg v (Int.ne_of_gt hp)
  refine ⟨⟨?_, ?_⟩, h1⟩
  · have : f.get ((setreg t k name v s).2.regs f.full) = (v % 2 ^ f.width).toNat := by
      unfold Spec.Field.get
      rw [hlow, Nat.pow_zero, Nat.div_one]
      apply Nat.eq_of_testBit_eq
      intro i
      rw [Nat.testBit_mod_two_pow, h2]
      have hlt : (v % 2 ^ f.width).toNat < 2 ^ f.width := by
        have h6 := Int.emod_lt_of_pos v hp
        have h7 : ((2 ^ f.width : Nat) : Int) = 2 ^ f.width := by push_cast; rfl
        omega
      by_cases hi : i < f.width
      · simp [hi]
      · have : (v % 2 ^ f.width).toNat.testBit i = false :=
          Nat.testBit_lt_two_pow (Nat.lt_of_lt_of_le hlt (Nat.pow_le_pow_right (by decide) (by omega)))
        simp [hi, this]
    rw [this]; omega
  · intro i hi
    rw [hlow] at hi
    rw [h2, if_neg hi]
    have : f.width ≤ i := by omega
    simp [this]

/-- x86_64: the unshifted sub-registers al, bl, cl, dl, ax, bx, cx, dx, cf are written correctly. -/
theorem C18_x86_64_partial (name : String) (f : Spec.Field) (hf : (name, f) ∈ Spec.intel64) (hlow : f.low = 0)
    (hn : name ∉ ["eax", "ebx", "ecx", "edx"]) (k : RegKernel) (v : Int) (s : RegSt)
    (hold : s.regs f.full < 2 ^ 64) (h : (setreg regsX86_64 k name v s).1 = .ok ()) :
    FieldWritten f v (s.regs f.full) ((setreg regsX86_64 k name v s).2.regs f.full) ∧
    ∀ n, n ≠ f.full → (setreg regsX86_64 k name v s).2.regs n = s.regs n := by
  have hw : ∀ e ∈ Spec.intel64, regsX86_64.width e.2.full = 64 := by decide +kernel
  have hi : ∀ e ∈ Spec.intel64, e.1 = "iopl" → e.2.low ≠ 0 := by decide +kernel
  have hg := good64 (name, f) hf (by
    intro hc
    simp at hc hn
    rcases hc with h | h | h | h | h
    · exact hn.1 h
    · exact hn.2.1 h
    · exact hn.2.2.1 h
    · exact hn.2.2.2 h
    · exact hi _ hf h hlow)
  exact fieldWritten_of_low hg hlow k v s (by rw [hw _ hf]; exact hold) h

example := C18_x86_64_partial "al" ⟨"rax", 0, 8⟩ (by decide +kernel) rfl (by decide +kernel) (fun _ => 0) 0x1ff exRegs
  (by decide +kernel) (by decide +kernel)

/-- i386: the same. -/
theorem C18_i386_partial (name : String) (f : Spec.Field) (hf : (name, f) ∈ Spec.intel32) (hlow : f.low = 0)
    (k : RegKernel) (v : Int) (s : RegSt)
    (hold : s.regs f.full < 2 ^ 32) (h : (setreg regsI386 k name v s).1 = .ok ()) :
    FieldWritten f v (s.regs f.full) ((setreg regsI386 k name v s).2.regs f.full) ∧
    ∀ n, n ≠ f.full → (setreg regsI386 k name v s).2.regs n = s.regs n := by
  have hw : ∀ e ∈ Spec.intel32, regsI386.width e.2.full = 32 := by decide +kernel
  have hi : ∀ e ∈ Spec.intel32, e.1 = "iopl" → e.2.low ≠ 0 := by decide +kernel
  have hg := good32 (name, f) hf (by
    intro hc
    simp at hc
    exact hi _ hf hc hlow)
  exact fieldWritten_of_low hg hlow k v s (by rw [hw _ hf]; exact hold) h

example := C18_i386_partial "ax" ⟨"eax", 0, 16⟩ (by decide +kernel) rfl (fun _ => 0) 0x1ffff
  { regs := fun n => if n = "eax" then 0x12345678 else 0 } (by decide +kernel) (by decide +kernel)

/-- For the shifted entries (ah, ..., the flags but cf) what is still true: only the field itself and the lowest
`width` bits of the full register can change, bits of the value are set in the field, and the field never
loses bits (on both tables, iopl excepted). Missing: clearing the field, keeping the low bits. -/
theorem C18_shifted_partial (name : String) (f : Spec.Field)
    (t : RegTable) (hg : goodEntry t name f) (hlow : f.width ≤ f.low) (k : RegKernel) (v : Int) (s : RegSt)
    (hold : s.regs f.full < 2 ^ t.width f.full) (h : (setreg t k name v s).1 = .ok ()) :
    (∀ n, n ≠ f.full → (setreg t k name v s).2.regs n = s.regs n) ∧
    (∀ i, f.width ≤ i → ¬ (f.low ≤ i ∧ i < f.low + f.width) →
      ((setreg t k name v s).2.regs f.full).testBit i = (s.regs f.full).testBit i) ∧
    (∀ j, j < f.width → ((setreg t k name v s).2.regs f.full).testBit (f.low + j) =
      ((s.regs f.full).testBit (f.low + j) || (v % 2 ^ f.width).toNat.testBit j)) := by
  obtain ⟨h1, h2⟩ := setreg_good hg k v s hold h
  refine ⟨h1, ?_, ?_⟩
  · intro i hi hni
    rw [h2, if_neg hni]; simp [hi]
  · intro j hj
    rw [h2, if_pos ⟨by omega, by omega⟩]
    have : f.width ≤ f.low + j := by omega
    simp [this]

example := C18_shifted_partial "ah" ⟨"rax", 8, 8⟩ regsX86_64
  (good64 ("ah", ⟨"rax", 8, 8⟩) (by decide +kernel) (by decide +kernel)) (by decide +kernel) (fun _ => 0) 0x40 exRegs
  (by decide +kernel) (by decide +kernel)

/-- The full statement is false for every shifted entry: writing 0 to `ah` leaves ah as it was and clears al;
clearing `zf` clears cf; and `eax` on x86_64 raises `TypeError`. -/
theorem C18_refuted :
    (¬ ∀ (name : String) (f : Spec.Field) (v : Int) (s : RegSt), (name, f) ∈ Spec.intel64 →
      s.regs f.full < 2 ^ 64 → (setreg regsX86_64 (fun _ => 0) name v s).1 = .ok () →
      f.get ((setreg regsX86_64 (fun _ => 0) name v s).2.regs f.full) = (v % 2 ^ f.width).toNat) ∧
    (setreg regsX86_64 (fun _ => 0) "ah" 0 exRegs).2.regs "rax" = 0x1200 ∧
    (setreg regsX86_64 (fun _ => 0) "zf" 0 { regs := fun _ => 0x41 }).2.regs "eflags" = 0x40 ∧
    (setreg regsX86_64 (fun _ => 0) "eax" 0 exRegs).1 = .error .type := by
  refine ⟨?_, by decide +kernel, by decide +kernel, by decide +kernel⟩
  intro h
  have := h "ah" ⟨"rax", 8, 8⟩ 0 exRegs (by decide +kernel) (by decide +kernel) (by decide +kernel)
  exact absurd this (by decide +kernel)

example : goodEntry regsX86_64 "ah" ⟨"rax", 8, 8⟩ := good64 ("ah", ⟨"rax", 8, 8⟩) (by decide +kernel) (by decide +kernel)
example : (setreg regsX86_64 (fun _ => 0) "al" 0x1ff exRegs).2.regs "rax" = 0x12ff := by decide +kernel

end PT.Props
