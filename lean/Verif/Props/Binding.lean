import Verif.Model.Binding

/-! C59: errors of `ptrace()`. -/

namespace PT

/-- What a caller has to see for a reply of the kernel: the error with its number, or the value. -/
def Spec.Faithful (reply : PtraceReply) (r : Except Exc Nat) : Prop :=
  (∀ e, reply = .error e → r = .error (.ptrace (some e))) ∧ (∀ v, reply = .ok v → r = .ok v)

/-- A reply that the kernel can give: errors are positive; a value fits a word and is -1 only for a peek. -/
def Spec.Possible (a : Arch) (command : Nat) (reply : PtraceReply) : Prop :=
  (∀ e, reply = .error e → e ≠ 0) ∧
  (∀ v, reply = .ok v → v < 2 ^ (8 * a.W) ∧ (¬ (command = 1 ∨ command = 2 ∨ command = 3) → v + 1 ≠ 2 ^ (8 * a.W)))

private theorem isPeek_iff {c : Nat} : isPeek c = true ↔ c = 1 ∨ c = 2 ∨ c = 3 := by
  unfold isPeek
  simp only [Bool.or_eq_true, beq_iff_eq, or_assoc]

private theorem minus_ne {m : BindEnv} {v : Nat} (h : v + 1 ≠ 2 ^ (8 * m.arch.W)) : v ≠ m.minusOne := by
  unfold BindEnv.minusOne
  have : 0 < 2 ^ (8 * m.arch.W) := Nat.two_pow_pos _
  omega

private theorem libc_error {m : BindEnv} {req : PtraceReq} {s : BindSt} {e : Nat} (h : m.kernel s.calls req = .error e) :
    libcPtrace m req s = (m.minusOne, { s with errno := e, calls := req :: s.calls }) := by
  unfold libcPtrace; rw [h]

private theorem libc_ok {m : BindEnv} {req : PtraceReq} {s : BindSt} {v : Nat} (h : m.kernel s.calls req = .ok v) :
    libcPtrace m req s = (v, { s with errno := if isPeek req.command && m.resets then 0 else s.errno, calls := req :: s.calls }) := by
  unfold libcPtrace; rw [h]

private theorem libc_calls (m : BindEnv) (req : PtraceReq) (s : BindSt) : (libcPtrace m req s).2.calls = req :: s.calls := by
  cases h : m.kernel s.calls req with
  | error e => rw [libc_error h]
  | ok v => rw [libc_ok h]

private theorem ite_calls (c : Prop) [Decidable c] (x y : Except Exc Nat × BindSt) (l : List PtraceReq) (hx : x.2.calls = l)
    (hy : y.2.calls = l) : (if c then x else y).2.calls = l := by
  by_cases h : c
  · rw [if_pos h]; exact hx
  · rw [if_neg h]; exact hy

/-- A kernel that answers everything with `reply`. -/
def always (reply : PtraceReply) (resets : Bool) : BindEnv := ⟨⟨true, false⟩, resets, fun _ _ => reply⟩

/-- ctypes with glibc: every reply is seen, whatever happened before; the kernel is asked once. `check_errno` is set for peeks only. -/
theorem C59_ctypes (m : BindEnv) (hr : m.resets = true) (command pid : Nat) (arg1 arg2 : Int) (check : Bool)
    (hc : check = true ↔ command = 1 ∨ command = 2 ∨ command = 3) (s : BindSt) :
    ∃ req, (ptrace m false command pid arg1 arg2 check s).2.calls = req :: s.calls ∧ req.command = command ∧ req.pid = pid ∧
      (req.arg1 : Int) = arg1 % 2 ^ (8 * m.arch.W) ∧ (req.arg2 : Int) = arg2 % 2 ^ (8 * m.arch.W) ∧
      (Spec.Possible m.arch command (m.kernel s.calls req) →
        Spec.Faithful (m.kernel s.calls req) (ptrace m false command pid arg1 arg2 check s).1) := by
  have hpos : (0 : Int) < 2 ^ (8 * m.arch.W) := Int.pow_pos (by omega)
  generalize hq : (⟨command, pid, (arg1 % 2 ^ (8 * m.arch.W)).toNat, (arg2 % 2 ^ (8 * m.arch.W)).toNat⟩ : PtraceReq) = req
  have hcmd : req.command = command := by rw [← hq]
  have hrun : ptrace m false command pid arg1 arg2 check s =
      (let r := libcPtrace m req { s with errno := s.copy, copy := s.errno }
       if r.1 = m.minusOne ∧ (check = false ∨ r.2.errno ≠ 0) then
         (.error (.ptrace (some r.2.errno)), { r.2 with errno := r.2.copy, copy := r.2.errno })
       else (.ok r.1, { r.2 with errno := r.2.copy, copy := r.2.errno })) := by
    rw [← hq]; rfl
  refine ⟨req, ?_, hcmd, by rw [← hq], by rw [← hq]; exact Int.toNat_of_nonneg (Int.emod_nonneg _ (by omega)),
    by rw [← hq]; exact Int.toNat_of_nonneg (Int.emod_nonneg _ (by omega)), ?_⟩
  · rw [hrun]
    exact ite_calls _ _ _ _ (libc_calls ..) (libc_calls ..)
  · rintro ⟨h1, h2⟩
    rw [hrun]
    cases hk : m.kernel s.calls req with
    | error e =>
      have he := h1 e hk
      rw [libc_error (s := { s with errno := s.copy, copy := s.errno }) hk]
      refine ⟨?_, (fun v hv => by cases hv)⟩
      intro e' he'
      injection he' with he'
      have hc : m.minusOne = m.minusOne ∧ (check = false ∨ e ≠ 0) := ⟨rfl, Or.inr he⟩
      show (if m.minusOne = m.minusOne ∧ (check = false ∨ e ≠ 0) then _ else _ : Except Exc Nat × BindSt).1 = _
      rw [if_pos hc, he']
    | ok v =>
      rw [libc_ok (s := { s with errno := s.copy, copy := s.errno }) hk]
      refine ⟨(fun e he => by cases he), ?_⟩
      intro v' hv'
      injection hv' with hv'
      show (if v = m.minusOne ∧ (check = false ∨ (if (isPeek req.command && m.resets) = true then 0 else s.copy) ≠ 0) then _ else _ :
        Except Exc Nat × BindSt).1 = _
      rw [if_neg]
      · rw [hv']
      · rintro ⟨h, h' | h'⟩
        · by_cases hp : command = 1 ∨ command = 2 ∨ command = 3
          · rw [hc.2 hp] at h'; cases h'
          · exact minus_ne ((h2 v hk).2 hp) h
        · by_cases hp : command = 1 ∨ command = 2 ∨ command = 3
          · rw [hcmd, isPeek_iff.2 hp, hr] at h'; exact h' rfl
          · exact minus_ne ((h2 v hk).2 hp) h

-- PTRACE_CONT fails with ESRCH; a word of all ones is read
example := C59_ctypes (always (.error 3) true) rfl 7 100 0 0 false (by decide) ⟨0, 11, []⟩
example := C59_ctypes (always (.ok (2 ^ 64 - 1)) true) rfl 1 100 4096 0 true (by decide) ⟨0, 11, []⟩

/-- The C extension: an error is raised exactly for an error of the kernel, and the value is right, when the arguments fit a signed
word. Missing: the number of the error (see `C59_cptrace_refuted`). -/
theorem C59_cptrace_partial (m : BindEnv) (h64 : m.arch.is64 = true) (command pid : Nat) (arg1 arg2 : Int) (check : Bool)
    (hc : check = true ↔ command = 1 ∨ command = 2 ∨ command = 3) (s : BindSt)
    (h1 : -2 ^ 63 ≤ arg1 ∧ arg1 < 2 ^ 63) (h2 : -2 ^ 63 ≤ arg2 ∧ arg2 < 2 ^ 63) :
    ∃ req, (ptrace m true command pid arg1 arg2 check s).2.calls = req :: s.calls ∧ req.command = command ∧ req.pid = pid ∧
      (req.arg1 : Int) = arg1 % 2 ^ (8 * m.arch.W) ∧ (req.arg2 : Int) = arg2 % 2 ^ (8 * m.arch.W) ∧
      (Spec.Possible m.arch command (m.kernel s.calls req) →
        (∀ e, m.kernel s.calls req = .error e → ∃ n, (ptrace m true command pid arg1 arg2 check s).1 = .error (.ptrace n)) ∧
        (∀ v, m.kernel s.calls req = .ok v → (ptrace m true command pid arg1 arg2 check s).1 = .ok v)) := by
  have hW : (2 : Int) ^ (8 * m.arch.W) = 2 ^ 64 := by unfold Arch.W; rw [h64]; rfl
  rw [hW]
  generalize hq : (⟨command, pid, (arg1 % 2 ^ 64).toNat, (arg2 % 2 ^ 64).toNat⟩ : PtraceReq) = req
  have hrun : ptrace m true command pid arg1 arg2 check s =
      (let r := libcPtrace m req { s with errno := 0, copy := 0 }
       if r.1 = m.minusOne ∧ (check = false ∨ r.2.errno ≠ 0) then (.error (.ptrace (some r.2.copy)), r.2) else (.ok r.1, r.2)) := by
    unfold ptrace cptracePtrace
    simp only [if_true]
    rw [if_neg (fun h => h ⟨h1.1, h1.2, h2.1, h2.2⟩), hq]
    by_cases h : (libcPtrace m req { s with errno := 0, copy := 0 }).1 = m.minusOne ∧
        (check = false ∨ (libcPtrace m req { s with errno := 0, copy := 0 }).2.errno ≠ 0)
    · rw [if_pos h, if_pos h]
    · rw [if_neg h, if_neg h]
  refine ⟨req, ?_, by rw [← hq], by rw [← hq], by rw [← hq]; exact Int.toNat_of_nonneg (Int.emod_nonneg _ (by omega)),
    by rw [← hq]; exact Int.toNat_of_nonneg (Int.emod_nonneg _ (by omega)), ?_⟩
  · rw [hrun]
    exact ite_calls _ _ _ _ (libc_calls ..) (libc_calls ..)
  · rintro ⟨g1, g2⟩
    rw [hrun]
    cases hk : m.kernel s.calls req with
    | error e =>
      have he := g1 e hk
      rw [libc_error (s := { s with errno := 0, copy := 0 }) hk]
      refine ⟨fun e' _ => ⟨some 0, ?_⟩, (fun v hv => by cases hv)⟩
      show (if m.minusOne = m.minusOne ∧ (check = false ∨ e ≠ 0) then _ else _ : Except Exc Nat × BindSt).1 = _
      rw [if_pos ⟨rfl, Or.inr he⟩]
    | ok v =>
      rw [libc_ok (s := { s with errno := 0, copy := 0 }) hk]
      refine ⟨(fun e he => by cases he), ?_⟩
      intro v' hv'
      injection hv' with hv'
      show (if v = m.minusOne ∧ (check = false ∨ (if (isPeek req.command && m.resets) = true then 0 else 0) ≠ 0) then _ else _ :
        Except Exc Nat × BindSt).1 = _
      rw [if_neg]
      · rw [hv']
      · rintro ⟨h, h' | h'⟩
        · by_cases hp : command = 1 ∨ command = 2 ∨ command = 3
          · rw [hc.2 hp] at h'; cases h'
          · exact minus_ne ((g2 v hk).2 hp) h
        · apply h'; split <;> rfl

example := C59_cptrace_partial (always (.ok (2 ^ 64 - 1)) true) rfl 1 100 4096 0 true (by decide) ⟨0, 11, []⟩ (by decide) (by decide)

/-- The C extension loses the number of the error: `get_errno()` reads ctypes' copy, which was set to 0 and which the C code does not
touch. -/
theorem C59_cptrace_refuted : Spec.Possible ⟨true, false⟩ 7 (.error 3) ∧
    ∃ s, (ptrace (always (.error 3) true) true 7 100 0 0 false s).1 = .error (.ptrace (some 0)) :=
  ⟨⟨(fun e h => by cases h; decide), (fun v h => by cases h)⟩, ⟨0, 0, []⟩, rfl⟩

/-- The C extension cannot poke a word with the high bit set: `OverflowError`, and the kernel is not asked. -/
theorem C59_poke_refuted : ∃ s, pokeWord (always (.ok 0) true) true 4 100 4096 (2 ^ 63) s = (.error .overflow, { s with copy := 0 }) ∧
    (∃ t, pokeWord (always (.ok 0) true) false 4 100 4096 (2 ^ 63) s = (.ok (), t)) :=
  ⟨⟨0, 0, []⟩, by decide +kernel, ⟨⟨0, 0, [⟨4, 100, 4096, 2 ^ 63⟩]⟩, by decide +kernel⟩⟩

/-- ctypes with a C library that leaves `errno` alone: after an error, peeking a word of all ones fails with the old error. -/
theorem C59_stale_refuted : ∃ s, Spec.Possible ⟨true, false⟩ 1 (.ok (2 ^ 64 - 1)) ∧
    peekWord (always (.ok (2 ^ 64 - 1)) false) false 1 100 4096 s = (.error (.ptrace (some 3)), { s with calls := ⟨1, 100, 4096, 0⟩ :: s.calls }) := by
  refine ⟨⟨0, 3, []⟩, ⟨(fun e h => by cases h), ?_⟩, by decide +kernel⟩
  intro v h
  cases h
  exact ⟨by decide, fun h => absurd (Or.inl rfl) h⟩

/-- Peeking: a word of all ones is returned like any other; an unaligned address is refused without asking the kernel. -/
theorem C59_peek (m : BindEnv) (hr : m.resets = true) (command pid address : Nat) (hp : command = 1 ∨ command = 2 ∨ command = 3)
    (ha : address < 2 ^ (8 * m.arch.W)) (s : BindSt) :
    (address % m.arch.W = 0 → (peekWord m false command pid address s).2.calls = ⟨command, pid, address, 0⟩ :: s.calls ∧
      (Spec.Possible m.arch command (m.kernel s.calls ⟨command, pid, address, 0⟩) →
        Spec.Faithful (m.kernel s.calls ⟨command, pid, address, 0⟩) (peekWord m false command pid address s).1)) ∧
    (address % m.arch.W ≠ 0 → peekWord m false command pid address s = (.error (.ptrace none), s)) := by
  constructor
  · intro h
    have hpw : peekWord m false command pid address s = ptrace m false command pid address 0 true s := by
      unfold peekWord
      rw [if_neg (by omega)]
    rw [hpw]
    obtain ⟨⟨c, p, a1, a2⟩, e1, e2, e3, e4, e5, e6⟩ := C59_ctypes m hr command pid address 0 true (by simp [hp]) s
    simp only at e2 e3 e4 e5
    have ha' : (address : Int) < 2 ^ (8 * m.arch.W) := by exact_mod_cast ha
    rw [Int.emod_eq_of_lt (by omega) ha'] at e4
    rw [Int.zero_emod] at e5
    have h4 : a1 = address := by omega
    have h5 : a2 = 0 := by omega
    subst e2 e3 h4 h5
    exact ⟨e1, e6⟩
  · intro h
    unfold peekWord
    rw [if_pos h]
    rfl

example := C59_peek (always (.ok (2 ^ 64 - 1)) true) rfl 1 100 4096 (.inl rfl) (by decide) ⟨0, 11, []⟩

/-- Poking: one request with the word; an error of the kernel is raised; an unaligned address is refused without asking the kernel. -/
theorem C59_poke (m : BindEnv) (hr : m.resets = true) (command pid address word : Nat) (hp : ¬ (command = 1 ∨ command = 2 ∨ command = 3))
    (ha : address < 2 ^ (8 * m.arch.W)) (hw : word < 2 ^ (8 * m.arch.W)) (s : BindSt) :
    (address % m.arch.W = 0 → (pokeWord m false command pid address word s).2.calls = ⟨command, pid, address, word⟩ :: s.calls ∧
      (Spec.Possible m.arch command (m.kernel s.calls ⟨command, pid, address, word⟩) →
        (∀ e, m.kernel s.calls ⟨command, pid, address, word⟩ = .error e →
          (pokeWord m false command pid address word s).1 = .error (.ptrace (some e))) ∧
        (∀ v, m.kernel s.calls ⟨command, pid, address, word⟩ = .ok v → (pokeWord m false command pid address word s).1 = .ok ()))) ∧
    (address % m.arch.W ≠ 0 → pokeWord m false command pid address word s = (.error (.ptrace none), s)) := by
  constructor
  · intro h
    obtain ⟨⟨c, p, a1, a2⟩, e1, e2, e3, e4, e5, e6⟩ := C59_ctypes m hr command pid address word false (by simp [hp]) s
    simp only at e2 e3 e4 e5
    have ha' : (address : Int) < 2 ^ (8 * m.arch.W) := by exact_mod_cast ha
    have hw' : (word : Int) < 2 ^ (8 * m.arch.W) := by exact_mod_cast hw
    rw [Int.emod_eq_of_lt (by omega) ha'] at e4
    rw [Int.emod_eq_of_lt (by omega) hw'] at e5
    have h4 : a1 = address := by omega
    have h5 : a2 = word := by omega
    subst e2 e3 h4 h5
    unfold pokeWord
    rw [if_neg (by omega)]
    cases hk : ptrace m false c p a1 a2 false s with
    | mk r s' =>
      rw [hk] at e1 e6
      cases r with
      | ok v =>
        have : (Py.bind (ptrace m false c p a1 a2 false) fun _ => Py.pure ()) s = (.ok (), s') := by unfold Py.bind; rw [hk]; rfl
        rw [this]
        refine ⟨e1, fun hpos => ⟨fun e he => ?_, fun _ _ => rfl⟩⟩
        have := (e6 hpos).1 e he
        cases this
      | error x =>
        have : (Py.bind (ptrace m false c p a1 a2 false) fun _ => Py.pure ()) s = (.error x, s') := by unfold Py.bind; rw [hk]
        rw [this]
        refine ⟨e1, fun hpos => ⟨fun e he => ?_, fun v hv => ?_⟩⟩
        · have := (e6 hpos).1 e he
          injection this with this
          rw [this]
        · have := (e6 hpos).2 v hv
          cases this
  · intro h
    unfold pokeWord
    rw [if_pos h]
    rfl

example : pokeWord (always (.error 14) true) false 4 100 4096 7 ⟨0, 3, []⟩ = (.error (.ptrace (some 14)), ⟨0, 14, [⟨4, 100, 4096, 7⟩]⟩) := by
  decide +kernel

example : peekWord (always (.ok (2 ^ 64 - 1)) true) false 1 100 4096 ⟨0, 3, []⟩ = (.ok (2 ^ 64 - 1), ⟨0, 0, [⟨1, 100, 4096, 0⟩]⟩) := by
  decide +kernel
example : (ptrace (always (.error 3) true) false 7 100 0 0 false ⟨0, 11, []⟩).1 = .error (.ptrace (some 3)) := by decide +kernel

end PT
