import Verif.Lemmas.Wrappers

/-! C90–C93: the `ptrace_*` functions: registers, signal information, messages of events, requests. -/

namespace PT
open Spec

theorem zero_passes {m : WrapEnv} {v : Nat} (h : Passes m v) : Passes m 0 :=
  ⟨Nat.two_pow_pos _, fun hb => ⟨(h.2 hb).1, by decide⟩⟩

theorem one_passes {m : WrapEnv} {v : Nat} (h : Passes m v) : Passes m 1 :=
  ⟨Nat.one_lt_two_pow (by have := W_pos m.bind.arch; omega), fun hb => ⟨(h.2 hb).1, by decide⟩⟩

theorem passes_lt {m : WrapEnv} {v : Nat} (h : Passes m v) : v < 256 ^ m.bind.arch.W := by rw [pow_256]; exact h.1

theorem regs_fit {isa : Isa} {machine : String} {a : Arch} (h : isa.Runs machine a) : isa.regs.length * a.W < 256 ^ a.W := by
  cases isa <;> unfold Isa.Runs at h
  case powerpc64 => obtain ⟨-, rfl⟩ | ⟨-, rfl⟩ := h <;> decide +kernel
  all_goals (obtain ⟨-, rfl⟩ := h; decide +kernel)

theorem regs_nodup (isa : Isa) : isa.regs.Nodup := by cases isa <;> decide +kernel

theorem iovec_size (m : WrapEnv) : (CT.struct m.iovecFields).size = 2 * m.bind.arch.W := by
  have key : ∀ w ∈ [4, 8], (CT.struct [("buf", CT.prim w), ("len", CT.prim w)]).size = 2 * w := by decide
  exact key m.bind.arch.W (by unfold Arch.W; split <;> decide)

theorem iovec_buf (m : WrapEnv) : fieldOf m.iovecFields "buf" = some (0, CT.prim m.bind.arch.W) := by
  have key : ∀ w ∈ [4, 8], fieldOf [("buf", CT.prim w), ("len", CT.prim w)] "buf" = some (0, CT.prim w) := by decide
  exact key m.bind.arch.W (by unfold Arch.W; split <;> decide)

theorem iovec_len (m : WrapEnv) : fieldOf m.iovecFields "len" = some (m.bind.arch.W, CT.prim m.bind.arch.W) := by
  have key : ∀ w ∈ [4, 8], fieldOf [("buf", CT.prim w), ("len", CT.prim w)] "len" = some (w, CT.prim w) := by decide
  exact key m.bind.arch.W (by unfold Arch.W; split <;> decide)

theorem setAttr_run {m : WrapEnv} {fields : List (String × CT)} {object off value : Nat} {name : String} {t : CT} {s : WrapSt}
    (hf : fieldOf fields name = some (off, t)) (hv : value < 256 ^ t.size) :
    setAttr m fields object name value s =
      (.ok (), { s with mem := storeBytes s.mem (object + off) (uintBytes m.bind.arch.big t.size value) }) := by
  unfold setAttr; rw [hf]; simp only []; rw [Nat.mod_eq_of_lt hv]

/-- The memory after an `iovec` was filled in. -/
def iovMem (m : WrapEnv) (mem : Nat → Byte) (iov buf len : Nat) : Nat → Byte :=
  storeBytes (storeBytes (storeBytes mem iov (List.replicate (2 * m.bind.arch.W) 0)) (iov + 0) (uintBytes m.bind.arch.big m.bind.arch.W buf))
    (iov + m.bind.arch.W) (uintBytes m.bind.arch.big m.bind.arch.W len)

theorem iovMem_buf {m : WrapEnv} {mem : Nat → Byte} {iov buf len : Nat} (hb : buf < 256 ^ m.bind.arch.W) :
    IsUint m.bind.arch.big (iovMem m mem iov buf len) iov m.bind.arch.W buf := by
  apply isUint_congr (isUint_store m.bind.arch.big (storeBytes mem iov (List.replicate (2 * m.bind.arch.W) 0)) iov m.bind.arch.W buf hb)
  intro i hi
  unfold iovMem
  rw [storeBytes_out _ _ _ _ (by rw [uintBytes_length]; omega)]
  rfl

theorem iovMem_len {m : WrapEnv} {mem : Nat → Byte} {iov buf len : Nat} (hl : len < 256 ^ m.bind.arch.W) :
    IsUint m.bind.arch.big (iovMem m mem iov buf len) (iov + m.bind.arch.W) m.bind.arch.W len :=
  isUint_store _ _ _ _ _ hl

theorem iovMem_only {m : WrapEnv} {mem : Nat → Byte} {iov buf len : Nat} : Only mem (iovMem m mem iov buf len) iov (2 * m.bind.arch.W) := by
  intro x hx
  unfold iovMem
  rw [storeBytes_out _ _ _ _ (by rw [uintBytes_length]; omega), storeBytes_out _ _ _ _ (by rw [uintBytes_length]; omega),
    storeBytes_out _ _ _ _ (by rw [List.length_replicate]; omega)]

/-! ### C90: registers -/

private theorem rGet : ("PTRACE_GETREGS", 12) ∈ requests := by decide
private theorem rSet : ("PTRACE_SETREGS", 13) ∈ requests := by decide
private theorem rGetset : ("PTRACE_GETREGSET", 0x4204) ∈ requests := by decide
private theorem rSetset : ("PTRACE_SETREGSET", 0x4205) ∈ requests := by decide


theorem getField_reg {isa : Isa} {m : WrapEnv} (hH : isa.Runs m.machine m.bind.arch) {p : Nat} {R : String → Nat} {s : WrapSt}
    (h : RegsAt isa m.bind.arch s.mem p R) {name : String} (hn : name ∈ isa.regs) :
    getField m m.regFields p name s = .ok (R name % 2 ^ isa.bits m.bind.arch name) := by
  obtain ⟨i, hi, rfl⟩ := List.getElem_of_mem hn
  obtain ⟨t, hf, hsz⟩ := regField_eq hH i hi
  have hu := h i hi
  unfold getField
  rw [hf]
  simp only []
  congr 1
  rcases bits_cases hH isa.regs[i] with hb | ⟨hb, ha⟩
  · have hs : t.size = m.bind.arch.W := by omega
    rw [hs, readUint_eq hu, hb, ← pow_256, Nat.mod_eq_of_lt hu.1]
  · have hs : t.size = 2 := by omega
    have hW : m.bind.arch.W = 4 := by rw [ha]; rfl
    have hbig : m.bind.arch.big = false := by rw [ha]
    rw [hbig, hW] at hu
    rw [hs, hbig, hW, hb, readUint_eq (isUint_low hu (k := 2) (by decide))]
    rfl

/-- C90: `ptrace_getregs` makes one request, and the attributes of the structure it returns are the registers of the tracee, on every
supported CPU; nothing else in the memory of the tracer changes. -/
theorem C90_getregs (m : WrapEnv) (isa : Isa) (R : List PtraceReq → Nat → String → Nat) (hH : isa.Runs m.machine m.bind.arch) (hs : Sane m)
    (hR : CopiesRegs m isa R) (pid : Nat) (s : WrapSt) (h0 : Passes m (m.place s.bind.calls 0)) (h1 : Passes m (m.place s.bind.calls 1))
    (hd : m.place s.bind.calls 0 + isa.regs.length * m.bind.arch.W ≤ m.place s.bind.calls 1 ∨
      m.place s.bind.calls 1 + 2 * m.bind.arch.W ≤ m.place s.bind.calls 0) :
    ∃ req, (ptrace_getregs m pid s).2.bind.calls = req :: s.bind.calls ∧
      (if isa.direct then IsRequest "PTRACE_GETREGS" pid 0 (m.place s.bind.calls 0) req
        else IsRequest "PTRACE_GETREGSET" pid 1 (m.place s.bind.calls 1) req) ∧
      (∀ e, m.bind.kernel s.bind.calls req = .error e →
        ∃ n, (ptrace_getregs m pid s).1 = .error (.ptrace n) ∧ (m.hasCptrace = false → n = some e)) ∧
      (∀ v, m.bind.kernel s.bind.calls req = .ok v → ∃ regs, (ptrace_getregs m pid s).1 = .ok regs ∧
        (∀ name ∈ isa.regs, getField m m.regFields regs name (ptrace_getregs m pid s).2 =
          .ok (R s.bind.calls pid name % 2 ^ isa.bits m.bind.arch name)) ∧
        ∀ x, ¬ (regs ≤ x ∧ x < regs + isa.regs.length * m.bind.arch.W) →
          (isa.direct = false → ¬ (m.place s.bind.calls 1 ≤ x ∧ x < m.place s.bind.calls 1 + 2 * m.bind.arch.W)) →
          (ptrace_getregs m pid s).2.mem x = s.mem x) := by
  generalize hp0 : m.place s.bind.calls 0 = p0 at *
  generalize hp1 : m.place s.bind.calls 1 = p1 at *
  have hsz := regsSize_eq hH
  have hN0 : newObject m 0 m.regsSize s = (.ok p0, { s with mem := storeBytes s.mem p0 (List.replicate m.regsSize 0) }) := by
    unfold newObject; rw [hp0]
  cases hdir : isa.direct with
  | true =>
    have hg : m.hasGetregs = true := by rw [hasGetregs_eq hH, hdir]
    obtain ⟨hE, hO⟩ := doPtrace_run hs (command := 12) (pid := pid) (arg1 := 0) (arg2 := p0) (by decide) (zero_passes h0) h0
      { s with mem := storeBytes s.mem p0 (List.replicate m.regsSize 0) }
    have hrun : ptrace_getregs m pid s = Py.bind (doPtrace m 12 pid (0 : Nat) p0) (fun _ => Py.pure p0)
        { s with mem := storeBytes s.mem p0 (List.replicate m.regsSize 0) } := by
      unfold ptrace_getregs
      rw [if_pos hg, Py.run_bind_ok hN0]
      rfl
    have hreq : IsRequest "PTRACE_GETREGS" pid 0 p0 ⟨12, pid, 0, p0⟩ := ⟨rGet, rfl, rfl, rfl⟩
    refine ⟨⟨12, pid, 0, p0⟩, ?_, by simpa using hreq, ?_, ?_⟩
    · cases hk : m.bind.kernel s.bind.calls ⟨12, pid, 0, p0⟩ with
      | error e =>
        obtain ⟨n, u, hu, hc, -⟩ := hE e hk
        rw [hrun, Py.run_bind_error hu]; exact hc
      | ok v =>
        obtain ⟨u, hu, hc, -⟩ := hO v hk
        rw [hrun, Py.run_bind_ok hu]; exact hc
    · intro e hk
      obtain ⟨n, u, hu, hc, hn, -⟩ := hE e hk
      rw [hrun, Py.run_bind_error hu]
      exact ⟨n, rfl, hn⟩
    · intro v hk
      obtain ⟨u, hu, hc, hm⟩ := hO v hk
      rw [hrun, Py.run_bind_ok hu]
      obtain ⟨hra, honly⟩ := hR.direct hdir s.bind.calls ⟨12, pid, 0, p0⟩ (storeBytes s.mem p0 (List.replicate m.regsSize 0)) rGet
      refine ⟨p0, rfl, fun name hn => ?_, fun x hx _ => ?_⟩
      · exact getField_reg hH (s := u) (by rw [hm]; exact hra) hn
      · show u.mem x = s.mem x
        have hx' : x < p0 ∨ p0 + isa.regs.length * m.bind.arch.W ≤ x := by omega
        rw [hm, honly x hx', storeBytes_out _ _ _ _ (by rw [List.length_replicate, hsz]; exact hx')]
  | false =>
    have hg : ¬ m.hasGetregs = true := by rw [hasGetregs_eq hH, hdir]; decide
    have hN1 : newObject m 1 (CT.struct m.iovecFields).size { s with mem := storeBytes s.mem p0 (List.replicate m.regsSize 0) } =
        (.ok p1, { s with mem := storeBytes (storeBytes s.mem p0 (List.replicate m.regsSize 0)) p1 (List.replicate (2 * m.bind.arch.W) 0) }) := by
      unfold newObject; simp only []; rw [hp1, iovec_size]
    have hlenfit : m.regsSize < 256 ^ m.bind.arch.W := by rw [hsz]; exact regs_fit hH
    obtain ⟨hE, hO⟩ := doPtrace_run hs (command := 0x4204) (pid := pid) (arg1 := 1) (arg2 := p1) (by decide) (one_passes h0) h1
      { s with mem := iovMem m (storeBytes s.mem p0 (List.replicate m.regsSize 0)) p1 p0 m.regsSize }
    have hrun : ptrace_getregs m pid s = Py.bind (doPtrace m 0x4204 pid (1 : Nat) p1) (fun _ => Py.pure p0)
        { s with mem := iovMem m (storeBytes s.mem p0 (List.replicate m.regsSize 0)) p1 p0 m.regsSize } := by
      unfold ptrace_getregs
      rw [if_neg hg, Py.run_bind_ok hN0, Py.run_bind_ok hN1,
        Py.run_bind_ok (setAttr_run (iovec_buf m) (value := p0) (passes_lt h0)),
        Py.run_bind_ok (setAttr_run (iovec_len m) (value := m.regsSize) hlenfit)]
      rfl
    have hreq : IsRequest "PTRACE_GETREGSET" pid 1 p1 ⟨0x4204, pid, 1, p1⟩ := ⟨rGetset, rfl, rfl, rfl⟩
    refine ⟨⟨0x4204, pid, 1, p1⟩, ?_, by simpa using hreq, ?_, ?_⟩
    · cases hk : m.bind.kernel s.bind.calls ⟨0x4204, pid, 1, p1⟩ with
      | error e =>
        obtain ⟨n, u, hu, hc, -⟩ := hE e hk
        rw [hrun, Py.run_bind_error hu]; exact hc
      | ok v =>
        obtain ⟨u, hu, hc, -⟩ := hO v hk
        rw [hrun, Py.run_bind_ok hu]; exact hc
    · intro e hk
      obtain ⟨n, u, hu, hc, hn, -⟩ := hE e hk
      rw [hrun, Py.run_bind_error hu]
      exact ⟨n, rfl, hn⟩
    · intro v hk
      obtain ⟨u, hu, hc, hm⟩ := hO v hk
      rw [hrun, Py.run_bind_ok hu]
      obtain ⟨hra, honly⟩ := hR.regset s.bind.calls ⟨0x4204, pid, 1, p1⟩
        (iovMem m (storeBytes s.mem p0 (List.replicate m.regsSize 0)) p1 p0 m.regsSize) p0 rGetset rfl (iovMem_buf (passes_lt h0))
        (by rw [← hsz]; exact iovMem_len hlenfit) hd
      refine ⟨p0, rfl, fun name hn => ?_, fun x hx hx1 => ?_⟩
      · exact getField_reg hH (s := u) (by rw [hm]; exact hra) hn
      · show u.mem x = s.mem x
        have hx1 := hx1 rfl
        have hx' : x < p0 ∨ p0 + isa.regs.length * m.bind.arch.W ≤ x := by omega
        rw [hm, honly x hx hx1, iovMem_only x (by omega), storeBytes_out _ _ _ _ (by rw [List.length_replicate, hsz]; exact hx')]

/-- C90: `ptrace_setregs` hands the registers in the structure to the kernel, whole and in the right places. -/
theorem C90_setregs (m : WrapEnv) (isa : Isa) (R : String → Nat) (hH : isa.Runs m.machine m.bind.arch) (hs : Sane m) (pid regs : Nat)
    (s : WrapSt) (hregs : RegsAt isa m.bind.arch s.mem regs R) (h0 : Passes m (m.place s.bind.calls 0)) (h1 : Passes m regs)
    (hd : regs + isa.regs.length * m.bind.arch.W ≤ m.place s.bind.calls 0 ∨ m.place s.bind.calls 0 + 2 * m.bind.arch.W ≤ regs) :
    ∃ req mem, (ptrace_setregs m pid regs s).2.bind.calls = req :: s.bind.calls ∧ req.pid = pid ∧
      Only s.mem mem (m.place s.bind.calls 0) (2 * m.bind.arch.W) ∧ Takes m isa mem req R ∧
      (∀ e, m.bind.kernel s.bind.calls req = .error e →
        ∃ n, (ptrace_setregs m pid regs s).1 = .error (.ptrace n) ∧ (m.hasCptrace = false → n = some e)) ∧
      (∀ v, m.bind.kernel s.bind.calls req = .ok v →
        (ptrace_setregs m pid regs s).1 = .ok () ∧ (ptrace_setregs m pid regs s).2.mem = m.effect s.bind.calls req mem) := by
  generalize hp0 : m.place s.bind.calls 0 = p0 at *
  have hsz := regsSize_eq hH
  cases hdir : isa.direct with
  | true =>
    have hg : m.hasGetregs = true := by rw [hasGetregs_eq hH, hdir]
    obtain ⟨hE, hO⟩ := doPtrace_run hs (command := 13) (pid := pid) (arg1 := 0) (arg2 := regs) (by decide) (zero_passes h0) h1 s
    have hrun : ptrace_setregs m pid regs s = doPtrace m 13 pid (0 : Nat) regs s := by
      unfold ptrace_setregs
      rw [if_pos hg]
      rfl
    refine ⟨⟨13, pid, 0, regs⟩, s.mem, ?_, rfl, fun _ _ => rfl, Or.inl ⟨rSet, hdir, hregs⟩, ?_, ?_⟩
    · cases hk : m.bind.kernel s.bind.calls ⟨13, pid, 0, regs⟩ with
      | error e =>
        obtain ⟨n, u, hu, hc, -⟩ := hE e hk
        rw [hrun, hu]; exact hc
      | ok v =>
        obtain ⟨u, hu, hc, -⟩ := hO v hk
        rw [hrun, hu]; exact hc
    · intro e hk
      obtain ⟨n, u, hu, hc, hn, -⟩ := hE e hk
      rw [hrun, hu]
      exact ⟨n, rfl, hn⟩
    · intro v hk
      obtain ⟨u, hu, hc, hm⟩ := hO v hk
      rw [hrun, hu]
      exact ⟨rfl, hm⟩
  | false =>
    have hg : ¬ m.hasGetregs = true := by rw [hasGetregs_eq hH, hdir]; decide
    have hN1 : newObject m 0 (CT.struct m.iovecFields).size s =
        (.ok p0, { s with mem := storeBytes s.mem p0 (List.replicate (2 * m.bind.arch.W) 0) }) := by
      unfold newObject; rw [hp0, iovec_size]
    have hlenfit : m.regsSize < 256 ^ m.bind.arch.W := by rw [hsz]; exact regs_fit hH
    obtain ⟨hE, hO⟩ := doPtrace_run hs (command := 0x4205) (pid := pid) (arg1 := 1) (arg2 := p0) (by decide) (one_passes h0) h0
      { s with mem := iovMem m s.mem p0 regs m.regsSize }
    have hrun : ptrace_setregs m pid regs s = doPtrace m 0x4205 pid (1 : Nat) p0 { s with mem := iovMem m s.mem p0 regs m.regsSize } := by
      unfold ptrace_setregs
      rw [if_neg hg, Py.run_bind_ok hN1, Py.run_bind_ok (setAttr_run (iovec_buf m) (value := regs) (passes_lt h1)),
        Py.run_bind_ok (setAttr_run (iovec_len m) (value := m.regsSize) hlenfit)]
      rfl
    refine ⟨⟨0x4205, pid, 1, p0⟩, iovMem m s.mem p0 regs m.regsSize, ?_, rfl, iovMem_only,
      Or.inr ⟨rSetset, rfl, regs, iovMem_buf (passes_lt h1), by rw [← hsz]; exact iovMem_len hlenfit, ?_⟩, ?_, ?_⟩
    · cases hk : m.bind.kernel s.bind.calls ⟨0x4205, pid, 1, p0⟩ with
      | error e =>
        obtain ⟨n, u, hu, hc, -⟩ := hE e hk
        rw [hrun, hu]; exact hc
      | ok v =>
        obtain ⟨u, hu, hc, -⟩ := hO v hk
        rw [hrun, hu]; exact hc
    · intro i hi
      refine isUint_congr (hregs i hi) fun j hj => iovMem_only _ ?_
      have : i * m.bind.arch.W + m.bind.arch.W ≤ isa.regs.length * m.bind.arch.W := by
        rw [← Nat.succ_mul]; exact Nat.mul_le_mul_right _ hi
      omega
    · intro e hk
      obtain ⟨n, u, hu, hc, hn, -⟩ := hE e hk
      rw [hrun, hu]
      exact ⟨n, rfl, hn⟩
    · intro v hk
      obtain ⟨u, hu, hc, hm⟩ := hO v hk
      rw [hrun, hu]
      exact ⟨rfl, hm⟩

/-- C90: assigning an attribute of the structure changes the bits of that register and nothing else. -/
theorem C90_setattr (m : WrapEnv) (isa : Isa) (R : String → Nat) (hH : isa.Runs m.machine m.bind.arch) (regs value : Nat) (name : String)
    (hn : name ∈ isa.regs) (s : WrapSt) (hregs : RegsAt isa m.bind.arch s.mem regs R) :
    ∃ u, setAttr m m.regFields regs name value s = (.ok (), u) ∧ u.bind = s.bind ∧
      Only s.mem u.mem regs (isa.regs.length * m.bind.arch.W) ∧
      RegsAt isa m.bind.arch u.mem regs (fun n => if n = name then
        R n / 2 ^ isa.bits m.bind.arch n * 2 ^ isa.bits m.bind.arch n + value % 2 ^ isa.bits m.bind.arch n else R n) := by
  obtain ⟨i, hi, rfl⟩ := List.getElem_of_mem hn
  obtain ⟨t, hf, hsz⟩ := regField_eq hH i hi
  have hin : i * m.bind.arch.W + m.bind.arch.W ≤ isa.regs.length * m.bind.arch.W := by
    rw [← Nat.succ_mul]; exact Nat.mul_le_mul_right _ hi
  have hle : t.size ≤ m.bind.arch.W := by
    rcases bits_cases hH isa.regs[i] with hb | ⟨hb, ha⟩
    · omega
    · have hW : m.bind.arch.W = 4 := by rw [ha]; rfl
      omega
  refine ⟨{ s with mem := storeBytes s.mem (regs + i * m.bind.arch.W) (uintBytes m.bind.arch.big t.size (value % 256 ^ t.size)) }, ?_, rfl,
    fun x hx => storeBytes_out _ _ _ _ (by rw [uintBytes_length]; omega), ?_⟩
  · unfold setAttr; rw [hf]
  · intro j hj
    by_cases hij : j = i
    · subst hij
      simp only [if_true]
      rcases bits_cases hH isa.regs[j] with hb | ⟨hb, ha⟩
      · have hs : t.size = m.bind.arch.W := by omega
        have hlt := (hregs j hj).1
        rw [hb, ← pow_256, Nat.div_eq_of_lt hlt, hs, Nat.zero_mul, Nat.zero_add]
        exact isUint_store _ _ _ _ _ (Nat.mod_lt _ (Nat.pow_pos (by decide)))
      · have hs : t.size = 2 := by omega
        have hW : m.bind.arch.W = 4 := by rw [ha]; rfl
        have hbig : m.bind.arch.big = false := by rw [ha]
        have hold := hregs j hj
        have hst := isUint_store false s.mem (regs + j * 4) 2 (value % 256 ^ 2) (Nat.mod_lt _ (by decide))
        rw [hbig, hW] at hold
        rw [hb, hs, hW, hbig]
        refine ⟨?_, fun k hk => ?_⟩
        · have := hold.1
          omega
        · have hk' : k = 0 ∨ k = 1 ∨ k = 2 ∨ k = 3 := by omega
          have g0 := hst.2 0 (by decide)
          have g1 := hst.2 1 (by decide)
          have o2 := hold.2 2 (by decide)
          have o3 := hold.2 3 (by decide)
          unfold byteAt at *
          simp only [Bool.false_eq_true, if_false] at *
          rcases hk' with rfl | rfl | rfl | rfl
          · omega
          · omega
          · rw [storeBytes_out _ _ _ _ (by rw [uintBytes_length]; omega)]; omega
          · rw [storeBytes_out _ _ _ _ (by rw [uintBytes_length]; omega)]; omega
    · have hne : isa.regs[j] ≠ isa.regs[i] := fun h => hij ((List.getElem_inj (regs_nodup isa)).1 h)
      simp only [if_neg hne]
      refine isUint_congr (hregs j hj) fun k hk => storeBytes_out _ _ _ _ ?_
      rw [uintBytes_length]
      rcases Nat.lt_or_gt_of_ne hij with h | h
      · have : j * m.bind.arch.W + m.bind.arch.W ≤ i * m.bind.arch.W := by rw [← Nat.succ_mul]; exact Nat.mul_le_mul_right _ h
        omega
      · have : i * m.bind.arch.W + m.bind.arch.W ≤ j * m.bind.arch.W := by rw [← Nat.succ_mul]; exact Nat.mul_le_mul_right _ h
        omega

/-! ### C91: signal information -/

private theorem rInfo : ("PTRACE_GETSIGINFO", 0x4202) ∈ requests := by decide

theorem siginfo_layout (m : WrapEnv) : 128 ≤ (CT.struct m.siginfoFields).size ∧ fieldOf m.siginfoFields "si_signo" = some (0, CT.prim 4) ∧
    fieldOf m.siginfoFields "si_errno" = some (4, CT.prim 4) ∧ fieldOf m.siginfoFields "si_code" = some (8, CT.prim 4) ∧
    ∃ t, fieldOf m.siginfoFields "_sifields" = some (infoUnion m.bind.arch, t) := by
  have key : ∀ b : Bool, ∀ w ∈ [if b then 8 else 4],
      (fun fs : List (String × CT) => 128 ≤ (CT.struct fs).size ∧ fieldOf fs "si_signo" = some (0, CT.prim 4) ∧
        fieldOf fs "si_errno" = some (4, CT.prim 4) ∧ fieldOf fs "si_code" = some (8, CT.prim 4) ∧
        (fieldOf fs "_sifields").map Prod.fst = some (if b then 16 else 12))
      [("si_signo", CT.prim 4), ("si_errno", CT.prim 4), ("si_code", CT.prim 4), ("_sifields", CT.union [("pad", CT.array (CT.prim 1) (128 - 3 * 4)),
        ("_sigchld", CT.struct sigchldFields), ("_sigfault", CT.union [("_addr", CT.prim w)])])] := by
    decide +kernel
  obtain ⟨h1, h2, h3, h4, h5⟩ := key m.bind.arch.is64 m.bind.arch.W (by unfold Arch.W; simp)
  refine ⟨h1, h2, h3, h4, ?_⟩
  change (fieldOf m.siginfoFields "_sifields").map Prod.fst = some (infoUnion m.bind.arch) at h5
  cases hf : fieldOf m.siginfoFields "_sifields" with
  | none => rw [hf] at h5; cases h5
  | some f =>
    rw [hf] at h5
    injection h5 with h5
    exact ⟨f.2, by rw [← h5]⟩

/-- C91: the object handed to the kernel has room for the 128 bytes it stores, and no more than that on 32 bits; on 64 bits it is 8 bytes
larger, since `pad` counts three numbers of four bytes before the union where the kernel has four. -/
theorem C91_room (m : WrapEnv) : (CT.struct m.siginfoFields).size = 128 + if m.bind.arch.is64 then 8 else 0 := by
  have key : ∀ b : Bool, ∀ w ∈ [if b then 8 else 4],
      (CT.struct [("si_signo", CT.prim 4), ("si_errno", CT.prim 4), ("si_code", CT.prim 4), ("_sifields", CT.union
        [("pad", CT.array (CT.prim 1) (128 - 3 * 4)), ("_sigchld", CT.struct sigchldFields),
         ("_sigfault", CT.union [("_addr", CT.prim w)])])]).size = 128 + if b then 8 else 0 := by
    decide +kernel
  exact key m.bind.arch.is64 m.bind.arch.W (by unfold Arch.W; simp)

/-- A field of a structure inside the union of `siginfo` (`_anonymous_`, `linux_struct.py:304`): `info._sigfault._addr`, `info._sigchld.pid`. -/
def infoField (m : WrapEnv) (fields : List (String × CT)) (info : Nat) (name : String) (s : WrapSt) : Except Exc Nat :=
  match fieldOf m.siginfoFields "_sifields" with
  | some (off, _) => getField m fields (info + off) name s
  | none => .error .attribute

theorem getsiginfo_run {m : WrapEnv} (hs : Sane m) {K : List PtraceReq → Nat → KInfo} (hK : CopiesInfo m K) (pid : Nat) (s : WrapSt)
    (h0 : Passes m (m.place s.bind.calls 0)) :
    (ptrace_getsiginfo m pid s).2.bind.calls = ⟨0x4202, pid, 0, m.place s.bind.calls 0⟩ :: s.bind.calls ∧
    (∀ e, m.bind.kernel s.bind.calls ⟨0x4202, pid, 0, m.place s.bind.calls 0⟩ = .error e →
      ∃ n, (ptrace_getsiginfo m pid s).1 = .error (.ptrace n) ∧ (m.hasCptrace = false → n = some e)) ∧
    (∀ v, m.bind.kernel s.bind.calls ⟨0x4202, pid, 0, m.place s.bind.calls 0⟩ = .ok v →
      (ptrace_getsiginfo m pid s).1 = .ok (m.place s.bind.calls 0) ∧
      InfoAt m.bind.arch (ptrace_getsiginfo m pid s).2.mem (m.place s.bind.calls 0) (K s.bind.calls pid) ∧
      Only s.mem (ptrace_getsiginfo m pid s).2.mem (m.place s.bind.calls 0) (CT.struct m.siginfoFields).size) := by
  generalize hp0 : m.place s.bind.calls 0 = p0 at *
  obtain ⟨hsz, -⟩ := siginfo_layout m
  have hN0 : newObject m 0 (CT.struct m.siginfoFields).size s =
      (.ok p0, { s with mem := storeBytes s.mem p0 (List.replicate (CT.struct m.siginfoFields).size 0) }) := by
    unfold newObject; rw [hp0]
  obtain ⟨hE, hO⟩ := doPtrace_run hs (command := 0x4202) (pid := pid) (arg1 := 0) (arg2 := p0) (by decide) (zero_passes h0) h0
    { s with mem := storeBytes s.mem p0 (List.replicate (CT.struct m.siginfoFields).size 0) }
  have hrun : ptrace_getsiginfo m pid s = Py.bind (doPtrace m 0x4202 pid (0 : Nat) p0) (fun _ => Py.pure p0)
      { s with mem := storeBytes s.mem p0 (List.replicate (CT.struct m.siginfoFields).size 0) } := by
    unfold ptrace_getsiginfo
    rw [Py.run_bind_ok hN0]
    rfl
  refine ⟨?_, ?_, ?_⟩
  · cases hk : m.bind.kernel s.bind.calls ⟨0x4202, pid, 0, p0⟩ with
    | error e =>
      obtain ⟨n, u, hu, hc, -⟩ := hE e hk
      rw [hrun, Py.run_bind_error hu]; exact hc
    | ok v =>
      obtain ⟨u, hu, hc, -⟩ := hO v hk
      rw [hrun, Py.run_bind_ok hu]; exact hc
  · intro e hk
    obtain ⟨n, u, hu, hc, hn, -⟩ := hE e hk
    rw [hrun, Py.run_bind_error hu]
    exact ⟨n, rfl, hn⟩
  · intro v hk
    obtain ⟨u, hu, hc, hm⟩ := hO v hk
    rw [hrun, Py.run_bind_ok hu]
    obtain ⟨g1, g2⟩ := hK s.bind.calls ⟨0x4202, pid, 0, p0⟩
      (storeBytes s.mem p0 (List.replicate (CT.struct m.siginfoFields).size 0)) rInfo
    refine ⟨rfl, ?_, fun x hx => ?_⟩
    · show InfoAt _ u.mem _ _
      rw [hm]; exact g1
    · show u.mem x = s.mem x
      rw [hm, g2 x (show x < p0 ∨ p0 + 128 ≤ x by omega), storeBytes_out _ _ _ _ (by rw [List.length_replicate]; omega)]

theorem getField_eq {m : WrapEnv} {fields : List (String × CT)} {q off v : Nat} {name : String} {ty : CT} {s : WrapSt}
    (hf : fieldOf fields name = some (off, ty)) (hv : IsUint m.bind.arch.big s.mem (q + off) ty.size v) : getField m fields q name s = .ok v := by
  unfold getField
  rw [hf]
  simp only []
  rw [readUint_eq hv]

theorem infoField_eq {m : WrapEnv} {fields : List (String × CT)} {q off v : Nat} {name : String} {ty : CT} {s : WrapSt}
    (hf : fieldOf fields name = some (off, ty)) (hv : IsUint m.bind.arch.big s.mem (q + infoUnion m.bind.arch + off) ty.size v) :
    infoField m fields q name s = .ok v := by
  obtain ⟨-, -, -, -, t, f4⟩ := siginfo_layout m
  unfold infoField
  rw [f4]
  exact getField_eq hf hv

/-- C91: `ptrace_getsiginfo` returns what the kernel tells about the signal: its number, error and code, the address of a memory fault, the
process and status of a child, and the times of a child on 32-bit machines; nothing outside of the structure changes. Partial: the user of a
child, and its times on 64-bit machines, are wrong (`C91_uid_refuted`, `C91_times_refuted`). -/
theorem C91_partial (m : WrapEnv) (K : List PtraceReq → Nat → KInfo) (hs : Sane m) (hK : CopiesInfo m K) (pid : Nat) (s : WrapSt)
    (h0 : Passes m (m.place s.bind.calls 0)) :
    ∃ req, (ptrace_getsiginfo m pid s).2.bind.calls = req :: s.bind.calls ∧
      IsRequest "PTRACE_GETSIGINFO" pid 0 (m.place s.bind.calls 0) req ∧
      (∀ e, m.bind.kernel s.bind.calls req = .error e →
        ∃ n, (ptrace_getsiginfo m pid s).1 = .error (.ptrace n) ∧ (m.hasCptrace = false → n = some e)) ∧
      (∀ v, m.bind.kernel s.bind.calls req = .ok v → ∃ info, (ptrace_getsiginfo m pid s).1 = .ok info ∧
        getField m m.siginfoFields info "si_signo" (ptrace_getsiginfo m pid s).2 = .ok (K s.bind.calls pid).signo ∧
        getField m m.siginfoFields info "si_errno" (ptrace_getsiginfo m pid s).2 = .ok (K s.bind.calls pid).errno ∧
        getField m m.siginfoFields info "si_code" (ptrace_getsiginfo m pid s).2 = .ok (K s.bind.calls pid).code ∧
        ((K s.bind.calls pid).signo ∈ faultSignals →
          infoField m [("_addr", m.ulong)] info "_addr" (ptrace_getsiginfo m pid s).2 = .ok (K s.bind.calls pid).addr) ∧
        ((K s.bind.calls pid).signo = 17 →
          infoField m sigchldFields info "pid" (ptrace_getsiginfo m pid s).2 = .ok (K s.bind.calls pid).pid ∧
          infoField m sigchldFields info "status" (ptrace_getsiginfo m pid s).2 = .ok (K s.bind.calls pid).status ∧
          (m.bind.arch.is64 = false →
            infoField m sigchldFields info "utime" (ptrace_getsiginfo m pid s).2 = .ok (K s.bind.calls pid).utime ∧
            infoField m sigchldFields info "stime" (ptrace_getsiginfo m pid s).2 = .ok (K s.bind.calls pid).stime)) ∧
        Only s.mem (ptrace_getsiginfo m pid s).2.mem info (CT.struct m.siginfoFields).size) := by
  obtain ⟨hc, hE, hO⟩ := getsiginfo_run hs hK pid s h0
  obtain ⟨hsz, f1, f2, f3, -⟩ := siginfo_layout m
  refine ⟨_, hc, ⟨rInfo, rfl, rfl, rfl⟩, hE, fun v hk => ?_⟩
  obtain ⟨hr, ⟨g1, g2, g3, g4, g5⟩, honly⟩ := hO v hk
  refine ⟨_, hr, getField_eq f1 g1, getField_eq f2 g2, getField_eq f3 g3, fun hf => ?_, fun hch => ?_, honly⟩
  · refine infoField_eq (off := 0) (ty := m.ulong) ?_ (g4 hf)
    have key : ∀ w ∈ [4, 8], fieldOf [("_addr", CT.prim w)] "_addr" = some (0, CT.prim w) := by decide
    exact key m.bind.arch.W (by unfold Arch.W; split <;> decide)
  · obtain ⟨c1, c2, c3, c4, c5⟩ := g5 hch
    refine ⟨infoField_eq (off := 0) (ty := CT.prim 4) (by decide) c1, infoField_eq (off := 8) (ty := CT.prim 4) (by decide) c3, fun h32 => ?_⟩
    have hW : m.bind.arch.W = 4 := by unfold Arch.W; rw [h32]; rfl
    rw [hW, h32] at c4 c5
    exact ⟨infoField_eq (off := 12) (ty := CT.prim 4) (by decide) c4, infoField_eq (off := 16) (ty := CT.prim 4) (by decide) c5⟩

/-- On little-endian machines the user of a child is cut to 16 bits, and on 64-bit ones the system time is the user time, cut to 32 bits. -/
theorem siginfo_wrong {m : WrapEnv} {K : List PtraceReq → Nat → KInfo} (hs : Sane m) (hK : CopiesInfo m K) (pid : Nat) (s : WrapSt)
    (h0 : Passes m (m.place s.bind.calls 0)) (hb : m.bind.arch.big = false) (v : Nat)
    (hv : m.bind.kernel s.bind.calls ⟨0x4202, pid, 0, m.place s.bind.calls 0⟩ = .ok v) (hch : (K s.bind.calls pid).signo = 17) :
    infoField m sigchldFields (m.place s.bind.calls 0) "uid" (ptrace_getsiginfo m pid s).2 = .ok ((K s.bind.calls pid).uid % 65536) ∧
    (m.bind.arch.is64 = true →
      infoField m sigchldFields (m.place s.bind.calls 0) "stime" (ptrace_getsiginfo m pid s).2 = .ok ((K s.bind.calls pid).utime % 2 ^ 32)) := by
  obtain ⟨hc, hE, hO⟩ := getsiginfo_run hs hK pid s h0
  obtain ⟨hr, ⟨g1, g2, g3, g4, g5⟩, honly⟩ := hO v hv
  obtain ⟨c1, c2, c3, c4, c5⟩ := g5 hch
  constructor
  · refine infoField_eq (off := 4) (ty := CT.prim 2) (by decide) ?_
    rw [hb] at c2 ⊢
    exact isUint_low c2 (by decide)
  · intro h64
    refine infoField_eq (off := 16) (ty := CT.prim 4) (by decide) ?_
    have hW : m.bind.arch.W = 8 := by unfold Arch.W; rw [h64]; rfl
    rw [hb, hW, h64] at c4
    rw [hb]
    exact isUint_low c4 (by decide)

/-! ### C92: messages of events -/

private theorem rMsg : ("PTRACE_GETEVENTMSG", 0x4201) ∈ requests := by decide

theorem geteventmsg_run {m : WrapEnv} (hs : Sane m) {msg : List PtraceReq → Nat → Nat} (hM : CopiesMessage m msg) (pid : Nat) (s : WrapSt)
    (h0 : Passes m (m.place s.bind.calls 0)) :
    (ptrace_geteventmsg m pid s).2.bind.calls = ⟨0x4201, pid, 0, m.place s.bind.calls 0⟩ :: s.bind.calls ∧
    (∀ e, m.bind.kernel s.bind.calls ⟨0x4201, pid, 0, m.place s.bind.calls 0⟩ = .error e →
      ∃ n, (ptrace_geteventmsg m pid s).1 = .error (.ptrace n) ∧ (m.hasCptrace = false → n = some e)) ∧
    (∀ v, m.bind.kernel s.bind.calls ⟨0x4201, pid, 0, m.place s.bind.calls 0⟩ = .ok v →
      (ptrace_geteventmsg m pid s).1 = .ok (uint2int32 (readUint m.bind.arch.big (ptrace_geteventmsg m pid s).2.mem (m.place s.bind.calls 0) 4)) ∧
      IsUint m.bind.arch.big (ptrace_geteventmsg m pid s).2.mem (m.place s.bind.calls 0) m.bind.arch.W (msg s.bind.calls pid) ∧
      Only s.mem (ptrace_geteventmsg m pid s).2.mem (m.place s.bind.calls 0) m.bind.arch.W) := by
  generalize hp0 : m.place s.bind.calls 0 = p0 at *
  have hN0 : newObject m 0 4 s = (.ok p0, { s with mem := storeBytes s.mem p0 (List.replicate 4 0) }) := by
    unfold newObject; rw [hp0]
  obtain ⟨hE, hO⟩ := doPtrace_run hs (command := 0x4201) (pid := pid) (arg1 := 0) (arg2 := p0) (by decide) (zero_passes h0) h0
    { s with mem := storeBytes s.mem p0 (List.replicate 4 0) }
  have hrun : ptrace_geteventmsg m pid s = Py.bind (doPtrace m 0x4201 pid (0 : Nat) p0) (fun _ u => (.ok (intValue m p0 u), u))
      { s with mem := storeBytes s.mem p0 (List.replicate 4 0) } := by
    unfold ptrace_geteventmsg
    rw [Py.run_bind_ok hN0]
    rfl
  have hW : 4 ≤ m.bind.arch.W := by unfold Arch.W; split <;> decide
  refine ⟨?_, ?_, ?_⟩
  · cases hk : m.bind.kernel s.bind.calls ⟨0x4201, pid, 0, p0⟩ with
    | error e =>
      obtain ⟨n, u, hu, hc, -⟩ := hE e hk
      rw [hrun, Py.run_bind_error hu]; exact hc
    | ok v =>
      obtain ⟨u, hu, hc, -⟩ := hO v hk
      rw [hrun, Py.run_bind_ok hu]; exact hc
  · intro e hk
    obtain ⟨n, u, hu, hc, hn, -⟩ := hE e hk
    rw [hrun, Py.run_bind_error hu]
    exact ⟨n, rfl, hn⟩
  · intro v hk
    obtain ⟨u, hu, hc, hm⟩ := hO v hk
    rw [hrun, Py.run_bind_ok hu]
    obtain ⟨g1, g2⟩ := hM s.bind.calls ⟨0x4201, pid, 0, p0⟩ (storeBytes s.mem p0 (List.replicate 4 0)) rMsg
    refine ⟨rfl, ?_, fun x hx => ?_⟩
    · show IsUint _ u.mem _ _ _
      rw [hm]; exact g1
    · show u.mem x = s.mem x
      rw [hm, g2 x hx, storeBytes_out _ _ _ _ (by rw [List.length_replicate]; omega)]

/-- C92: `ptrace_geteventmsg` returns the message of the event (the new process, or a status) and changes one word of memory only. Partial:
on little-endian or 32-bit machines, for messages below 2^31; on 64-bit big-endian machines see `C92_big_refuted`, and `C92_space_refuted`
for the room the word has. -/
theorem C92_partial (m : WrapEnv) (msg : List PtraceReq → Nat → Nat) (hs : Sane m) (hM : CopiesMessage m msg) (pid : Nat) (s : WrapSt)
    (h0 : Passes m (m.place s.bind.calls 0)) (hlow : msg s.bind.calls pid < 2 ^ 31) (ha : m.bind.arch.big = false ∨ m.bind.arch.is64 = false) :
    ∃ req, (ptrace_geteventmsg m pid s).2.bind.calls = req :: s.bind.calls ∧
      IsRequest "PTRACE_GETEVENTMSG" pid 0 (m.place s.bind.calls 0) req ∧
      (∀ e, m.bind.kernel s.bind.calls req = .error e →
        ∃ n, (ptrace_geteventmsg m pid s).1 = .error (.ptrace n) ∧ (m.hasCptrace = false → n = some e)) ∧
      (∀ v, m.bind.kernel s.bind.calls req = .ok v → (ptrace_geteventmsg m pid s).1 = .ok (msg s.bind.calls pid : Int) ∧
        Only s.mem (ptrace_geteventmsg m pid s).2.mem (m.place s.bind.calls 0) m.bind.arch.W) := by
  obtain ⟨hc, hE, hO⟩ := geteventmsg_run hs hM pid s h0
  refine ⟨_, hc, ⟨rMsg, rfl, rfl, rfl⟩, hE, fun v hv => ?_⟩
  obtain ⟨h1, h2, h3⟩ := hO v hv
  refine ⟨?_, h3⟩
  rw [h1]
  have hrd : readUint m.bind.arch.big (ptrace_geteventmsg m pid s).2.mem (m.place s.bind.calls 0) 4 = msg s.bind.calls pid := by
    have hW : 4 ≤ m.bind.arch.W := by unfold Arch.W; split <;> decide
    rcases ha with ha | ha
    · rw [ha] at h2 ⊢
      rw [readUint_eq (isUint_low h2 hW), Nat.mod_eq_of_lt (by omega)]
    · have : m.bind.arch.W = 4 := by unfold Arch.W; rw [ha]; rfl
      rw [this] at h2
      exact readUint_eq h2
  rw [hrd]
  congr 1
  exact (Props.C01_uint2int32 _ _).2 ⟨by omega, by omega, 0, by omega⟩

/-- C92 is false on 64-bit big-endian machines (ppc64): every message below 2^32 is read as 0, so the new process has number 0. -/
theorem C92_big_refuted (m : WrapEnv) (msg : List PtraceReq → Nat → Nat) (hs : Sane m) (hM : CopiesMessage m msg) (pid : Nat) (s : WrapSt)
    (h0 : Passes m (m.place s.bind.calls 0)) (hlow : msg s.bind.calls pid < 2 ^ 32) (ha : m.bind.arch = ⟨true, true⟩) (v : Nat)
    (hv : m.bind.kernel s.bind.calls ⟨0x4201, pid, 0, m.place s.bind.calls 0⟩ = .ok v) :
    (ptrace_geteventmsg m pid s).1 = .ok 0 := by
  obtain ⟨hc, hE, hO⟩ := geteventmsg_run hs hM pid s h0
  obtain ⟨h1, h2, -⟩ := hO v hv
  rw [h1]
  have hb : m.bind.arch.big = true := by rw [ha]
  have hW : m.bind.arch.W = 8 := by rw [ha]; rfl
  rw [hb, hW] at h2
  rw [hb, readUint_eq (isUint_high h2 (k := 4) (by decide)), Nat.div_eq_of_lt (by simpa using hlow)]
  rfl

/-! ### C93: requests -/

/-- C93: every function makes exactly the request that its name says, about the process, with the arguments in their places; it fails exactly
if the kernel refuses the request. -/
theorem C93_requests (m : WrapEnv) (hs : Sane m) (pid v : Nat) (hv : Passes m v) :
    (∃ req, IsRequest "PTRACE_TRACEME" 0 0 0 req ∧ Asks m (ptrace_traceme m) req) ∧
    (∃ req, IsRequest "PTRACE_ATTACH" pid 0 0 req ∧ Asks m (ptrace_attach m pid) req) ∧
    (∃ req, IsRequest "PTRACE_DETACH" pid 0 v req ∧ Asks m (ptrace_detach m pid v) req) ∧
    (∃ req, IsRequest "PTRACE_KILL" pid 0 0 req ∧ Asks m (ptrace_kill m pid) req) ∧
    (∃ req, IsRequest "PTRACE_SETOPTIONS" pid 0 v req ∧ Asks m (ptrace_setoptions m pid v) req) ∧
    (∃ req, IsRequest "PTRACE_SYSCALL" pid 0 v req ∧ Asks m (ptrace_syscall m pid v) req) ∧
    (∃ req, IsRequest "PTRACE_CONT" pid 0 v req ∧ Asks m (ptrace_cont m pid v) req) ∧
    (∃ req, IsRequest "PTRACE_SINGLESTEP" pid 0 0 req ∧ Asks m (ptrace_singlestep m pid) req) ∧
    (∃ req, IsRequest "PTRACE_SETSIGINFO" pid 0 v req ∧ Asks m (ptrace_setsiginfo m pid v) req) ∧
    (∃ req, IsRequest "PTRACE_SETFPREGS" pid 0 v req ∧ Asks m (ptrace_setfpregs m pid v) req) ∧
    (∃ req, IsRequest "PTRACE_SETFPXREGS" pid 0 v req ∧ Asks m (ptrace_setfpxregs m pid v) req) := by
  have hz := zero_passes hv
  have key : ∀ (name : String) (command pid arg2 : Nat), (name, command) ∈ requests → (4 ≤ command ∨ command = 0) → Passes m arg2 →
      ∃ req, IsRequest name pid 0 arg2 req ∧ Asks m (doPtrace m command pid (0 : Nat) arg2) req :=
    fun name command pid arg2 hr hc ha => ⟨⟨command, pid, 0, arg2⟩, ⟨hr, rfl, rfl, rfl⟩, asks_call hs hc hz ha⟩
  exact ⟨key "PTRACE_TRACEME" 0 0 0 (by decide) (by decide) hz, key "PTRACE_ATTACH" 16 pid 0 (by decide) (by decide) hz,
    key "PTRACE_DETACH" 17 pid v (by decide) (by decide) hv, key "PTRACE_KILL" 8 pid 0 (by decide) (by decide) hz,
    key "PTRACE_SETOPTIONS" 0x4200 pid v (by decide) (by decide) hv, key "PTRACE_SYSCALL" 24 pid v (by decide) (by decide) hv,
    key "PTRACE_CONT" 7 pid v (by decide) (by decide) hv, key "PTRACE_SINGLESTEP" 9 pid 0 (by decide) (by decide) hz,
    key "PTRACE_SETSIGINFO" 0x4203 pid v (by decide) (by decide) hv, key "PTRACE_SETFPREGS" 15 pid v (by decide) (by decide) hv,
    key "PTRACE_SETFPXREGS" 19 pid v (by decide) (by decide) hv⟩

/-- C93: the functions that write a word of the tracee ask for that with the address and the word; an address that is not aligned is
refused without a request. -/
theorem C93_poke (m : WrapEnv) (hs : Sane m) (pid address word : Nat) (ha : Passes m address) (hw : Passes m word) :
    (m.bind.arch.W ∣ address →
      (∃ req, IsRequest "PTRACE_POKETEXT" pid address word req ∧ Asks m (ptrace_poketext m pid address word) req) ∧
      (∃ req, IsRequest "PTRACE_POKEDATA" pid address word req ∧ Asks m (ptrace_pokedata m pid address word) req) ∧
      (∃ req, IsRequest "PTRACE_POKEUSR" pid address word req ∧ Asks m (ptrace_pokeuser m pid address word) req)) ∧
    (¬ m.bind.arch.W ∣ address → ∀ s, ptrace_poketext m pid address word s = (.error (.ptrace none), s) ∧
      ptrace_pokedata m pid address word s = (.error (.ptrace none), s) ∧ ptrace_pokeuser m pid address word s = (.error (.ptrace none), s)) := by
  constructor
  · intro hd
    have hmod : ¬ address % m.bind.arch.W ≠ 0 := by rw [Nat.mod_eq_zero_of_dvd hd]; decide
    have key : ∀ (name : String) (command : Nat), (name, command) ∈ requests → 4 ≤ command →
        ∃ req, IsRequest name pid address word req ∧ Asks m (pokeM m command pid address word) req := by
      intro name command hr hc
      refine ⟨⟨command, pid, address, word⟩, ⟨hr, rfl, rfl, rfl⟩, ?_⟩
      unfold pokeM
      rw [if_neg hmod]
      exact asks_call hs (Or.inl hc) ha hw
    exact ⟨key "PTRACE_POKETEXT" 4 (by decide) (by decide), key "PTRACE_POKEDATA" 5 (by decide) (by decide),
      key "PTRACE_POKEUSR" 6 (by decide) (by decide)⟩
  · intro hd s
    have hmod : address % m.bind.arch.W ≠ 0 := fun h => hd (Nat.dvd_of_mod_eq_zero h)
    refine ⟨?_, ?_, ?_⟩
    · unfold ptrace_poketext pokeM; rw [if_pos hmod]; rfl
    · unfold ptrace_pokedata pokeM; rw [if_pos hmod]; rfl
    · unfold ptrace_pokeuser pokeM; rw [if_pos hmod]; rfl

/-- C93: the functions that read a word of the tracee ask for that with the address, and return the word; an address that is not aligned is
refused without a request. (The C library clears `errno` after a peek, or the C extension is used; otherwise see `C59_stale_refuted`.) -/
theorem C93_peek (m : WrapEnv) (hs : Sane m) (hr : m.hasCptrace = false → m.bind.resets = true) (pid address : Nat) (ha : Passes m address) :
    (m.bind.arch.W ∣ address → ∀ nf ∈ [("PTRACE_PEEKTEXT", ptrace_peektext), ("PTRACE_PEEKDATA", ptrace_peekdata),
      ("PTRACE_PEEKUSR", ptrace_peekuser)], ∃ req, IsRequest nf.1 pid address 0 req ∧ Asks m (nf.2 m pid address) req ∧
        ∀ s v, m.bind.kernel s.bind.calls req = .ok v → (nf.2 m pid address s).1 = .ok v) ∧
    (¬ m.bind.arch.W ∣ address → ∀ f ∈ [ptrace_peektext, ptrace_peekdata, ptrace_peekuser], ∀ s,
      f m pid address s = (.error (.ptrace none), s)) := by
  constructor
  · intro hd
    have hmod : ¬ address % m.bind.arch.W ≠ 0 := by rw [Nat.mod_eq_zero_of_dvd hd]; decide
    have key : ∀ (name : String) (command : Nat), (name, command) ∈ requests → (command = 1 ∨ command = 2 ∨ command = 3) →
        ∃ req, IsRequest name pid address 0 req ∧ Asks m (peekM m command pid address) req ∧
          ∀ s v, m.bind.kernel s.bind.calls req = .ok v → (peekM m command pid address s).1 = .ok v := by
      intro name command hn hc
      have hrun : ∀ s : BindSt, (ptrace m.bind m.hasCptrace command pid address 0 true s).2.calls = ⟨command, pid, address, 0⟩ :: s.calls ∧
          (∀ e, m.bind.kernel s.calls ⟨command, pid, address, 0⟩ = .error e → ∃ n,
            (ptrace m.bind m.hasCptrace command pid address 0 true s).1 = .error (.ptrace n) ∧ (m.hasCptrace = false → n = some e)) ∧
          (∀ v, m.bind.kernel s.calls ⟨command, pid, address, 0⟩ = .ok v →
            (ptrace m.bind m.hasCptrace command pid address 0 true s).1 = .ok v) := by
        intro s
        have e1 := mod_passes ha
        have e2 := mod_passes (zero_passes ha)
        have hreq : ∀ req : PtraceReq, req.command = command → req.pid = pid → (req.arg1 : Int) = (address : Int) % 2 ^ (8 * m.bind.arch.W) →
            (req.arg2 : Int) = (0 : Int) % 2 ^ (8 * m.bind.arch.W) → req = ⟨command, pid, address, 0⟩ := by
          intro req hcmd hpid h1 h2
          have y1 : req.arg1 = address := by rw [← e1, ← h1]; rfl
          have y2 : req.arg2 = 0 := by rw [Int.zero_emod] at h2; omega
          cases req
          simp only at hcmd hpid y1 y2
          rw [hcmd, hpid, y1, y2]
        cases hb : m.hasCptrace with
        | false =>
          obtain ⟨req, hcalls, hcmd, hpid, h1, h2, hans⟩ := C59_ctypes m.bind (hr hb) command pid address 0 true (by simp [hc]) s
          have := hreq req hcmd hpid h1 h2
          subst this
          obtain ⟨g1, g2⟩ := hans (hs _ _)
          exact ⟨hcalls, fun e he => ⟨some e, g1 e he, fun _ => rfl⟩, g2⟩
        | true =>
          have h64 := (ha.2 hb)
          obtain ⟨req, hcalls, hcmd, hpid, h1, h2, hans⟩ := C59_cptrace_partial m.bind h64.1 command pid address 0 true (by simp [hc]) s
            (by have := h64.2; constructor <;> omega) (by constructor <;> omega)
          have := hreq req hcmd hpid h1 h2
          subst this
          obtain ⟨g1, g2⟩ := hans (hs _ _)
          exact ⟨hcalls, fun e he => (g1 e he).imp fun n hn => ⟨hn, fun h => by cases h⟩, g2⟩
      have hpeek : ∀ s, (peekM m command pid address s).1 = (ptrace m.bind m.hasCptrace command pid address 0 true s.bind).1 ∧
          (peekM m command pid address s).2.bind = (ptrace m.bind m.hasCptrace command pid address 0 true s.bind).2 := by
        intro s
        unfold peekM
        rw [if_neg hmod]
        exact ⟨rfl, rfl⟩
      refine ⟨⟨command, pid, address, 0⟩, ⟨hn, rfl, rfl, rfl⟩, fun s => ?_, fun s v hv => ?_⟩
      · obtain ⟨r1, r2, r3⟩ := hrun s.bind
        rw [(hpeek s).1, (hpeek s).2]
        exact ⟨r1, r2, fun v hv => ⟨v, r3 v hv⟩⟩
      · rw [(hpeek s).1]
        exact (hrun s.bind).2.2 v hv
    intro nf hnf
    simp only [List.mem_cons, List.not_mem_nil, or_false] at hnf
    rcases hnf with rfl | rfl | rfl
    · exact key "PTRACE_PEEKTEXT" 1 (by decide) (by decide)
    · exact key "PTRACE_PEEKDATA" 2 (by decide) (by decide)
    · exact key "PTRACE_PEEKUSR" 3 (by decide) (by decide)
  · intro hd f hf s
    have hmod : address % m.bind.arch.W ≠ 0 := fun h => hd (Nat.dvd_of_mod_eq_zero h)
    simp only [List.mem_cons, List.not_mem_nil, or_false] at hf
    rcases hf with rfl | rfl | rfl
    · unfold ptrace_peektext peekM; rw [if_pos hmod]; rfl
    · unfold ptrace_peekdata peekM; rw [if_pos hmod]; rfl
    · unfold ptrace_peekuser peekM; rw [if_pos hmod]; rfl

/-! ### Floating point registers -/

/-- A list of fields has the parts, and fills `size` bytes. -/
def fpOk (fields : List (String × CT)) (size : Nat) (parts : List Part) : Bool :=
  (CT.struct fields).size == size && parts.all fun part =>
    match fieldOf fields part.name with
    | some (off, t) => off == part.off && t.items == part.items && t.size == part.size * part.items && decide (0 < part.items)
    | none => false

theorem fp_item {m : WrapEnv} {fields : List (String × CT)} {size : Nat} {parts : List Part} (h : fpOk fields size parts = true) {s : WrapSt} {p : Nat}
    {F : String → Nat → Nat} (hF : PartsAt m.bind.arch s.mem p parts F) {part : Part} (hp : part ∈ parts) {i : Nat} (hi : i < part.items) :
    getItem m fields p part.name i s = .ok (F part.name i) := by
  unfold fpOk at h
  rw [Bool.and_eq_true, List.all_eq_true] at h
  have h2 := h.2 part hp
  unfold getItem
  cases hf : fieldOf fields part.name with
  | none => rw [hf] at h2; cases h2
  | some x =>
    obtain ⟨off, t⟩ := x
    rw [hf] at h2
    simp only [Bool.and_eq_true, beq_iff_eq, decide_eq_true_eq] at h2
    obtain ⟨⟨⟨h21, h22⟩, h23⟩, h24⟩ := h2
    simp only []
    have hq : t.size / t.items = part.size := by rw [h23, h22, Nat.mul_div_cancel _ h24]
    rw [if_pos (by rw [h22]; exact hi), hq, h21, readUint_eq (hF part hp i hi)]

theorem fp_run {m : WrapEnv} (hs : Sane m) {isa : Isa} {name : String} {F : List PtraceReq → Nat → String → Nat → Nat} (hF : CopiesFp m isa name F)
    {size command : Nat} {parts : List Part} (hf : isa.fp name = some (size, parts)) (hn : (name, command) ∈ requests) (hc : 4 ≤ command)
    {fields : List (String × CT)} (hok : fpOk fields size parts = true) (pid : Nat) (s : WrapSt) (h0 : Passes m (m.place s.bind.calls 0))
    {f : Py WrapSt Nat} (hdef : f = Py.bind (newObject m 0 (CT.struct fields).size) fun regs =>
      Py.bind (doPtrace m command pid (0 : Nat) regs) fun _ => Py.pure regs) :
    ∃ req, (f s).2.bind.calls = req :: s.bind.calls ∧ IsRequest name pid 0 (m.place s.bind.calls 0) req ∧
      (∀ e, m.bind.kernel s.bind.calls req = .error e → ∃ n, (f s).1 = .error (.ptrace n) ∧ (m.hasCptrace = false → n = some e)) ∧
      (∀ v, m.bind.kernel s.bind.calls req = .ok v → ∃ regs, (f s).1 = .ok regs ∧
        (∀ part ∈ parts, ∀ i < part.items, getItem m fields regs part.name i (f s).2 = .ok (F s.bind.calls pid part.name i)) ∧
        Only s.mem (f s).2.mem regs (CT.struct fields).size) := by
  generalize hp0 : m.place s.bind.calls 0 = p0 at *
  have hsz : (CT.struct fields).size = size := by
    unfold fpOk at hok
    rw [Bool.and_eq_true, beq_iff_eq] at hok
    exact hok.1
  have hN0 : newObject m 0 (CT.struct fields).size s =
      (.ok p0, { s with mem := storeBytes s.mem p0 (List.replicate (CT.struct fields).size 0) }) := by
    unfold newObject; rw [hp0]
  obtain ⟨hE, hO⟩ := doPtrace_run hs (command := command) (pid := pid) (arg1 := 0) (arg2 := p0) (Or.inl hc) (zero_passes h0) h0
    { s with mem := storeBytes s.mem p0 (List.replicate (CT.struct fields).size 0) }
  have hrun : f s = Py.bind (doPtrace m command pid (0 : Nat) p0) (fun _ => Py.pure p0)
      { s with mem := storeBytes s.mem p0 (List.replicate (CT.struct fields).size 0) } := by
    rw [hdef, Py.run_bind_ok hN0]
  refine ⟨⟨command, pid, 0, p0⟩, ?_, ⟨hn, rfl, rfl, rfl⟩, ?_, ?_⟩
  · cases hk : m.bind.kernel s.bind.calls ⟨command, pid, 0, p0⟩ with
    | error e =>
      obtain ⟨n, u, hu, hc, -⟩ := hE e hk
      rw [hrun, Py.run_bind_error hu]; exact hc
    | ok v =>
      obtain ⟨u, hu, hc, -⟩ := hO v hk
      rw [hrun, Py.run_bind_ok hu]; exact hc
  · intro e hk
    obtain ⟨n, u, hu, hc, hn, -⟩ := hE e hk
    rw [hrun, Py.run_bind_error hu]
    exact ⟨n, rfl, hn⟩
  · intro v hk
    obtain ⟨u, hu, hc, hm⟩ := hO v hk
    rw [hrun, Py.run_bind_ok hu]
    obtain ⟨g1, g2⟩ := hF size parts hf s.bind.calls ⟨command, pid, 0, p0⟩
      (storeBytes s.mem p0 (List.replicate (CT.struct fields).size 0)) hn
    refine ⟨p0, rfl, fun part hp i hi => ?_, fun x hx => ?_⟩
    · exact fp_item (s := u) hok (by rw [hm]; exact g1) hp hi
    · show u.mem x = s.mem x
      rw [hm, g2 x (by rw [← hsz]; exact hx), storeBytes_out _ _ _ _ (by rw [List.length_replicate]; exact hx)]

/-- C94: on Intel CPUs `ptrace_getfpregs` makes one request, and the items of the structure it returns are the floating point registers as the
kernel lays them out; no byte outside the structure changes. The same of `ptrace_getfpxregs`, on i386. -/
theorem C94_partial (m : WrapEnv) (isa : Isa) (hH : isa.Runs m.machine m.bind.arch) (hs : Sane m) (pid : Nat) (s : WrapSt)
    (h0 : Passes m (m.place s.bind.calls 0)) (name : String) (size : Nat) (parts : List Part) (hf : isa.fp name = some (size, parts))
    (F : List PtraceReq → Nat → String → Nat → Nat) (hF : CopiesFp m isa name F) :
    ∃ fields f, (name, fields, f) ∈ [("PTRACE_GETFPREGS", m.fpregFields, ptrace_getfpregs m pid), ("PTRACE_GETFPXREGS", m.fpxregFields, ptrace_getfpxregs m pid)] ∧
    ∃ req, (f s).2.bind.calls = req :: s.bind.calls ∧ IsRequest name pid 0 (m.place s.bind.calls 0) req ∧
      (∀ e, m.bind.kernel s.bind.calls req = .error e → ∃ n, (f s).1 = .error (.ptrace n) ∧ (m.hasCptrace = false → n = some e)) ∧
      (∀ v, m.bind.kernel s.bind.calls req = .ok v → ∃ regs, (f s).1 = .ok regs ∧
        (∀ part ∈ parts, ∀ i < part.items, getItem m fields regs part.name i (f s).2 = .ok (F s.bind.calls pid part.name i)) ∧
        Only s.mem (f s).2.mem regs (CT.struct fields).size) := by
  have h64 : ∀ b : Bool, m.bind.arch = ⟨b, false⟩ → m.ulong = CT.prim (if b then 8 else 4) := by
    intro b hb
    unfold WrapEnv.ulong Arch.W
    rw [hb]
  unfold Isa.fp at hf
  split at hf
  · injection hf with hf; injection hf with e1 e2; subst e1 e2
    have ha : m.bind.arch = ⟨true, false⟩ := hH.2
    refine ⟨_, _, List.mem_cons_self .., fp_run hs hF rfl (command := 14) (by decide) (by decide) ?_ pid s h0 rfl⟩
    unfold WrapEnv.fpregFields
    rw [h64 _ ha, ha]
    decide +kernel
  · injection hf with hf; injection hf with e1 e2; subst e1 e2
    have ha : m.bind.arch = ⟨false, false⟩ := hH.2
    refine ⟨_, _, List.mem_cons_self .., fp_run hs hF rfl (command := 14) (by decide) (by decide) ?_ pid s h0 rfl⟩
    unfold WrapEnv.fpregFields
    rw [h64 _ ha, ha]
    decide +kernel
  · injection hf with hf; injection hf with e1 e2; subst e1 e2
    have ha : m.bind.arch = ⟨false, false⟩ := hH.2
    refine ⟨_, _, List.mem_cons_of_mem _ (List.mem_cons_self ..), fp_run hs hF rfl (command := 18) (by decide) (by decide) ?_ pid s h0 rfl⟩
    unfold WrapEnv.fpxregFields
    rw [h64 _ ha]
    decide +kernel
  · cases hf

/-! ### A machine -/

/-- Registers at `p`. -/
def fillRegs (isa : Isa) (a : Arch) (R : String → Nat) (p : Nat) (mem : Nat → Byte) : Nat → Byte := fun x =>
  if p ≤ x ∧ x < p + isa.regs.length * a.W then
    ⟨byteAt a.big a.W (R (isa.regs.getD ((x - p) / a.W) "")) ((x - p) % a.W), by unfold byteAt; split <;> exact Nat.mod_lt _ (by decide)⟩
  else mem x

theorem fillRegs_at (isa : Isa) (a : Arch) (R : String → Nat) (hR : ∀ n, R n < 256 ^ a.W) (p : Nat) (mem : Nat → Byte) :
    RegsAt isa a (fillRegs isa a R p mem) p R := by
  intro i hi
  refine ⟨hR _, fun j hj => ?_⟩
  have hin : i * a.W + a.W ≤ isa.regs.length * a.W := by rw [← Nat.succ_mul]; exact Nat.mul_le_mul_right _ hi
  unfold fillRegs
  rw [if_pos (by omega)]
  have e : p + i * a.W + j - p = j + i * a.W := by omega
  have e1 : (j + i * a.W) / a.W = i := by rw [Nat.add_mul_div_right _ _ (W_pos a), Nat.div_eq_of_lt hj, Nat.zero_add]
  have e2 : (j + i * a.W) % a.W = j := by rw [Nat.add_mul_mod_self_right, Nat.mod_eq_of_lt hj]
  simp only [e, e1, e2]
  rw [List.getD_eq_getElem _ _ hi]

theorem fillRegs_only (isa : Isa) (a : Arch) (R : String → Nat) (p : Nat) (mem : Nat → Byte) :
    Only mem (fillRegs isa a R p mem) p (isa.regs.length * a.W) := by
  intro x hx
  unfold fillRegs
  rw [if_neg (by omega)]

/-- Fields, one after the other. -/
def storeFields (big : Bool) (mem : Nat → Byte) : List (Nat × Nat × Nat) → (Nat → Byte)
  | [] => mem
  | (p, n, v) :: rest => storeFields big (storeBytes mem p (uintBytes big n v)) rest

/-- Some registers. -/
def exRegs (name : String) : Nat := 1000 * name.length % 65521

/-- The death of process 70001, that ran as user 66536 for 5 s, and 7 s in the kernel. -/
def exInfo : KInfo := ⟨17, 0, 1, 0, 70001, 66536, 3, 500, 700⟩

/-- The information at `p`. -/
def fillInfo (a : Arch) (k : KInfo) (p : Nat) (mem : Nat → Byte) : Nat → Byte :=
  storeFields a.big mem [(p, 4, k.signo), (p + 4, 4, k.errno), (p + 8, 4, k.code), (p + infoUnion a, 4, k.pid), (p + infoUnion a + 4, 4, k.uid),
    (p + infoUnion a + 8, 4, k.status), (p + infoUnion a + (if a.is64 then 16 else 12), a.W, k.utime),
    (p + infoUnion a + (if a.is64 then 24 else 16), a.W, k.stime)]

/-- Bytes of floating point registers: `struct user_fp` of ARM has 116 (`arch/arm/include/asm/user.h`). -/
def exFpSize : Isa → Nat
  | .i386 => 108
  | .arm => 116
  | _ => 512

/-- Some floating point registers. -/
def exFp (x : Nat) : Byte := ⟨(x + 3) % 251, Nat.lt_of_lt_of_le (Nat.mod_lt _ (by decide)) (by decide)⟩

/-- A kernel that carries out every request; the message of the event is 70000. -/
def exEffect (isa : Isa) (a : Arch) (req : PtraceReq) (mem : Nat → Byte) : Nat → Byte :=
  if req.command = 12 then fillRegs isa a exRegs req.arg2 mem
  else if req.command = 0x4204 then fillRegs isa a exRegs (readUint a.big mem req.arg2 a.W) mem
  else if req.command = 0x4202 then fillInfo a exInfo req.arg2 mem
  else if req.command = 0x4201 then storeBytes mem req.arg2 (uintBytes a.big a.W 70000)
  else if req.command = 14 then fun x => if req.arg2 ≤ x ∧ x < req.arg2 + exFpSize isa then exFp (x - req.arg2) else mem x
  else mem

/-- A machine. -/
def exWrap (isa : Isa) (machine : String) (a : Arch) : WrapEnv where
  machine := machine
  bind := ⟨a, true, fun _ _ => .ok 0⟩
  hasCptrace := false
  effect := fun _ req mem => exEffect isa a req mem
  place := fun _ n => 4096 + 1024 * n

/-- A tracer that has made no request. -/
def exTracer : WrapSt := ⟨⟨0, 0, []⟩, fun _ => 0⟩

theorem W_two (a : Arch) : a.W = 4 ∨ a.W = 8 := by unfold Arch.W; split <;> decide

theorem exWrap_sane (isa : Isa) (machine : String) (a : Arch) : Sane (exWrap isa machine a) := by
  refine fun before req => ⟨(fun e he => by cases he), fun v hv => ?_⟩
  injection hv with hv
  subst hv
  rcases W_two a with h | h <;> simp [exWrap, h]

theorem exWrap_regs (isa : Isa) (machine : String) (a : Arch) : CopiesRegs (exWrap isa machine a) isa (fun _ _ => exRegs) := by
  have hb : ∀ n, exRegs n < 256 ^ a.W := by
    intro n
    have : exRegs n < 65521 := Nat.mod_lt _ (by decide)
    rcases W_two a with h | h <;> rw [h] <;> omega
  have h12 : ∀ c, ("PTRACE_GETREGS", c) ∈ requests → c = 12 := by
    intro c hc; simp only [requests, List.mem_cons, Prod.mk.injEq, List.not_mem_nil, or_false] at hc; simpa using hc
  have h04 : ∀ c, ("PTRACE_GETREGSET", c) ∈ requests → c = 0x4204 := by
    intro c hc; simp only [requests, List.mem_cons, Prod.mk.injEq, List.not_mem_nil, or_false] at hc; simpa using hc
  constructor
  · intro _ before req mem hc
    have he : (exWrap isa machine a).effect before req mem = fillRegs isa a exRegs req.arg2 mem := by
      show exEffect isa a req mem = _
      unfold exEffect; rw [if_pos (h12 _ hc)]
    rw [he]
    exact ⟨fillRegs_at isa a exRegs hb _ _, fillRegs_only isa a exRegs _ _⟩
  · intro before req mem base hc _ hbase _ _
    have he : (exWrap isa machine a).effect before req mem = fillRegs isa a exRegs base mem := by
      show exEffect isa a req mem = _
      unfold exEffect
      rw [if_neg (by rw [h04 _ hc]; decide), if_pos (h04 _ hc)]
      exact congrArg (fun b => fillRegs isa a exRegs b mem) (readUint_eq hbase)
    rw [he]
    exact ⟨fillRegs_at isa a exRegs hb _ _, fun x hx _ => fillRegs_only isa a exRegs base mem x (by show x < base ∨ base + isa.regs.length * a.W ≤ x; simp only [exWrap] at hx; omega)⟩

theorem exWrap_message (isa : Isa) (machine : String) (a : Arch) : CopiesMessage (exWrap isa machine a) (fun _ _ => 70000) := by
  intro before req mem hc
  have h01 : req.command = 0x4201 := by
    simp only [requests, List.mem_cons, Prod.mk.injEq, List.not_mem_nil, or_false] at hc; simpa using hc
  have he : (exWrap isa machine a).effect before req mem = storeBytes mem req.arg2 (uintBytes a.big a.W 70000) := by
    show exEffect isa a req mem = _
    unfold exEffect; rw [h01]; rfl
  rw [he]
  refine ⟨isUint_store _ _ _ _ _ (by rcases W_two a with h | h <;> simp [exWrap, h]), fun x hx => ?_⟩
  rw [storeBytes_out _ _ _ _ (by rw [uintBytes_length]; exact hx)]

theorem storeFields_out (big : Bool) (mem : Nat → Byte) (l : List (Nat × Nat × Nat)) (x : Nat) (h : ∀ f ∈ l, x < f.1 ∨ f.1 + f.2.1 ≤ x) :
    storeFields big mem l x = mem x := by
  induction l generalizing mem with
  | nil => rfl
  | cons f l ih =>
    obtain ⟨p, n, v⟩ := f
    unfold storeFields
    rw [ih _ (fun f hf => h f (List.mem_cons_of_mem _ hf)), storeBytes_out _ _ _ _ (by rw [uintBytes_length]; exact h _ (List.mem_cons_self ..))]

/-- Fields that do not overlap keep their values. -/
theorem storeFields_at (big : Bool) (mem : Nat → Byte) (l : List (Nat × Nat × Nat))
    (hd : l.Pairwise fun f g => f.1 + f.2.1 ≤ g.1) (hv : ∀ f ∈ l, f.2.2 < 256 ^ f.2.1) (f : Nat × Nat × Nat) (hf : f ∈ l) :
    IsUint big (storeFields big mem l) f.1 f.2.1 f.2.2 := by
  induction l generalizing mem with
  | nil => cases hf
  | cons g l ih =>
    obtain ⟨p, n, v⟩ := g
    rw [List.pairwise_cons] at hd
    unfold storeFields
    rcases List.mem_cons.1 hf with rfl | hf
    · refine isUint_congr (isUint_store big mem p n v (hv _ (List.mem_cons_self ..))) fun i hi => storeFields_out _ _ _ _ fun g hg => ?_
      have := hd.1 g hg
      simp only at this hi ⊢
      omega
    · exact ih _ hd.2 (fun f hf => hv f (List.mem_cons_of_mem _ hf)) hf

theorem exWrap_info (isa : Isa) (machine : String) (a : Arch) : CopiesInfo (exWrap isa machine a) (fun _ _ => exInfo) := by
  intro before req mem hc
  have h02 : req.command = 0x4202 := by
    simp only [requests, List.mem_cons, Prod.mk.injEq, List.not_mem_nil, or_false] at hc; simpa using hc
  have he : (exWrap isa machine a).effect before req mem = fillInfo a exInfo req.arg2 mem := by
    show exEffect isa a req mem = _
    unfold exEffect; rw [h02]; rfl
  rw [he]
  have ha : (exWrap isa machine a).bind.arch = a := rfl
  rw [ha]
  generalize req.arg2 = p
  obtain ⟨b, big⟩ := a
  have key := storeFields_at big mem [(p, 4, 17), (p + 4, 4, 0), (p + 8, 4, 1), (p + infoUnion ⟨b, big⟩, 4, 70001), (p + infoUnion ⟨b, big⟩ + 4, 4, 66536),
    (p + infoUnion ⟨b, big⟩ + 8, 4, 3), (p + infoUnion ⟨b, big⟩ + (if b then 16 else 12), Arch.W ⟨b, big⟩, 500),
    (p + infoUnion ⟨b, big⟩ + (if b then 24 else 16), Arch.W ⟨b, big⟩, 700)]
    (by cases b <;> simp [infoUnion, Arch.W] <;> omega) (by cases b <;> simp [Arch.W])
  refine ⟨⟨key (p, 4, 17) (by simp), key (p + 4, 4, 0) (by simp), key (p + 8, 4, 1) (by simp), fun h => absurd h (show (17 : Nat) ∉ faultSignals by decide), fun _ => ⟨?_, ?_, ?_, ?_, ?_⟩⟩, ?_⟩
  · exact key (p + infoUnion ⟨b, big⟩, 4, 70001) (by simp)
  · exact key (p + infoUnion ⟨b, big⟩ + 4, 4, 66536) (by simp)
  · exact key (p + infoUnion ⟨b, big⟩ + 8, 4, 3) (by simp)
  · exact key (p + infoUnion ⟨b, big⟩ + (if b then 16 else 12), Arch.W ⟨b, big⟩, 500) (by simp)
  · exact key (p + infoUnion ⟨b, big⟩ + (if b then 24 else 16), Arch.W ⟨b, big⟩, 700) (by simp)
  · intro x hx
    unfold fillInfo
    apply storeFields_out
    intro f hf
    cases b <;> simp only [infoUnion, Arch.W, List.mem_cons, List.not_mem_nil, or_false] at hf <;>
      rcases hf with rfl | rfl | rfl | rfl | rfl | rfl | rfl | rfl <;> simp <;> omega

theorem exWrap_passes (isa : Isa) (machine : String) (a : Arch) (n : Nat) (hn : n ≤ 1) : Passes (exWrap isa machine a) ((exWrap isa machine a).place [] n) := by
  refine ⟨?_, fun h => by cases h⟩
  show 4096 + 1024 * n < 2 ^ (8 * a.W)
  rcases W_two a with h | h <;> rw [h] <;> omega

theorem exFilled (p : Nat) : RegsAt .aarch64 ⟨true, false⟩ (fillRegs .aarch64 ⟨true, false⟩ exRegs p (fun _ => 0)) p exRegs :=
  fillRegs_at _ _ _ (fun n => Nat.lt_of_lt_of_le (Nat.mod_lt _ (by decide)) (show 65521 ≤ 256 ^ 8 by decide)) _ _

example := C90_getregs (exWrap .aarch64 "aarch64" ⟨true, false⟩) .aarch64 (fun _ _ => exRegs) (by simp [Isa.Runs, exWrap]) (exWrap_sane _ _ _) (exWrap_regs _ _ _) 42
  exTracer (exWrap_passes _ _ _ 0 (by decide)) (exWrap_passes _ _ _ 1 (by decide)) (.inl (by decide +kernel))

example := C90_setregs (exWrap .aarch64 "aarch64" ⟨true, false⟩) .aarch64 exRegs (by simp [Isa.Runs, exWrap]) (exWrap_sane _ _ _) 42 8192
  ⟨⟨0, 0, []⟩, fillRegs .aarch64 ⟨true, false⟩ exRegs 8192 (fun _ => 0)⟩
  (exFilled 8192)
  (exWrap_passes _ _ _ 0 (by decide)) ⟨by show 8192 < 2 ^ 64; omega, fun h => by cases h⟩ (.inr (by decide))

example := C90_setattr (exWrap .aarch64 "aarch64" ⟨true, false⟩) .aarch64 exRegs (by simp [Isa.Runs, exWrap]) 8192 7 "r29" (by decide +kernel)
  ⟨⟨0, 0, []⟩, fillRegs .aarch64 ⟨true, false⟩ exRegs 8192 (fun _ => 0)⟩
  (exFilled 8192)

example := C91_partial (exWrap .i386 "i686" ⟨false, false⟩) (fun _ _ => exInfo) (exWrap_sane _ _ _) (exWrap_info _ _ _) 42 exTracer (exWrap_passes _ _ _ 0 (by decide))

example := C92_partial (exWrap .i386 "i686" ⟨false, false⟩) (fun _ _ => 70000) (exWrap_sane _ _ _) (exWrap_message _ _ _) 42 exTracer (exWrap_passes _ _ _ 0 (by decide))
  (by decide) (.inl rfl)

example := C93_requests (exWrap .i386 "i686" ⟨false, false⟩) (exWrap_sane _ _ _) 42 9 ⟨by decide, fun h => by cases h⟩

example := C93_poke (exWrap .i386 "i686" ⟨false, false⟩) (exWrap_sane _ _ _) 42 4096 9 ⟨by decide, fun h => by cases h⟩ ⟨by decide, fun h => by cases h⟩

example := C93_peek (exWrap .i386 "i686" ⟨false, false⟩) (exWrap_sane _ _ _) (fun _ => rfl) 42 4096 ⟨by decide, fun h => by cases h⟩

/-- The hypotheses of `C90_getregs` on all eight instruction sets. -/
example : ∀ x ∈ [(Isa.x86_64, "x86_64", (⟨true, false⟩ : Arch)), (.i386, "i686", ⟨false, false⟩), (.powerpc, "ppc", ⟨false, true⟩),
    (.powerpc64, "ppc64", ⟨true, true⟩), (.arm, "armv7l", ⟨false, false⟩), (.aarch64, "aarch64", ⟨true, false⟩),
    (.riscv32, "riscv32", ⟨false, false⟩), (.riscv64, "riscv64", ⟨true, false⟩)],
    x.1.Runs x.2.1 x.2.2 ∧ Sane (exWrap x.1 x.2.1 x.2.2) ∧ CopiesRegs (exWrap x.1 x.2.1 x.2.2) x.1 (fun _ _ => exRegs) ∧
    Passes (exWrap x.1 x.2.1 x.2.2) ((exWrap x.1 x.2.1 x.2.2).place [] 0) ∧ Passes (exWrap x.1 x.2.1 x.2.2) ((exWrap x.1 x.2.1 x.2.2).place [] 1) ∧
    (exWrap x.1 x.2.1 x.2.2).place [] 0 + x.1.regs.length * x.2.2.W ≤ (exWrap x.1 x.2.1 x.2.2).place [] 1 := by
  intro x hx
  refine ⟨?_, exWrap_sane _ _ _, exWrap_regs _ _ _, exWrap_passes _ _ _ _ (by decide), exWrap_passes _ _ _ _ (by decide), ?_⟩
  · simp only [List.mem_cons, List.not_mem_nil, or_false] at hx
    rcases hx with rfl | rfl | rfl | rfl | rfl | rfl | rfl | rfl <;> simp [Isa.Runs]
  · simp only [List.mem_cons, List.not_mem_nil, or_false] at hx
    rcases hx with rfl | rfl | rfl | rfl | rfl | rfl | rfl | rfl <;> (show 4096 + _ ≤ 4096 + 1024 * 1; decide +kernel)

/-- The hypotheses of `C90_setregs` and `C90_setattr`. -/
example : RegsAt .aarch64 ⟨true, false⟩ (fillRegs .aarch64 ⟨true, false⟩ exRegs 8192 (fun _ => 0)) 8192 exRegs ∧ "r29" ∈ Isa.aarch64.regs ∧
    Passes (exWrap .aarch64 "aarch64" ⟨true, false⟩) 8192 ∧ (exWrap .aarch64 "aarch64" ⟨true, false⟩).place [] 0 + 2 * 8 ≤ 8192 :=
  ⟨fillRegs_at _ _ _ (fun n => Nat.lt_of_lt_of_le (Nat.mod_lt _ (by decide)) (show 65521 ≤ 256 ^ 8 by decide)) _ _, by decide +kernel,
    ⟨by show 8192 < 2 ^ 64; omega, fun h => by cases h⟩, by decide⟩

/-- C91 is false about users: of a child of user 66536 the user 1000 is shown. -/
theorem C91_uid_refuted : ∃ (m : WrapEnv) (K : List PtraceReq → Nat → KInfo) (pid : Nat) (s : WrapSt), Sane m ∧ CopiesInfo m K ∧
    Passes m (m.place s.bind.calls 0) ∧ (K s.bind.calls pid).signo = 17 ∧
    ∃ info, (ptrace_getsiginfo m pid s).1 = .ok info ∧
      infoField m sigchldFields info "uid" (ptrace_getsiginfo m pid s).2 ≠ .ok (K s.bind.calls pid).uid := by
  refine ⟨exWrap .x86_64 "x86_64" ⟨true, false⟩, fun _ _ => exInfo, 42, exTracer, exWrap_sane _ _ _, exWrap_info _ _ _, exWrap_passes _ _ _ 0 (by decide), rfl, ?_⟩
  obtain ⟨-, -, hO⟩ := getsiginfo_run (exWrap_sane .x86_64 "x86_64" ⟨true, false⟩) (exWrap_info .x86_64 "x86_64" ⟨true, false⟩) 42 exTracer
    (exWrap_passes _ _ _ 0 (by decide))
  have hw := siginfo_wrong (exWrap_sane .x86_64 "x86_64" ⟨true, false⟩) (exWrap_info .x86_64 "x86_64" ⟨true, false⟩) 42 exTracer
    (exWrap_passes _ _ _ 0 (by decide)) rfl 0 rfl rfl
  refine ⟨_, (hO 0 rfl).1, ?_⟩
  rw [hw.1]
  decide

/-- C91 is false about times on 64-bit machines: the system time shown is the user time. -/
theorem C91_times_refuted : ∃ (m : WrapEnv) (K : List PtraceReq → Nat → KInfo) (pid : Nat) (s : WrapSt), Sane m ∧ CopiesInfo m K ∧
    Passes m (m.place s.bind.calls 0) ∧ (K s.bind.calls pid).signo = 17 ∧
    ∃ info, (ptrace_getsiginfo m pid s).1 = .ok info ∧
      infoField m sigchldFields info "stime" (ptrace_getsiginfo m pid s).2 = .ok (K s.bind.calls pid).utime ∧
      infoField m sigchldFields info "stime" (ptrace_getsiginfo m pid s).2 ≠ .ok (K s.bind.calls pid).stime := by
  refine ⟨exWrap .x86_64 "x86_64" ⟨true, false⟩, fun _ _ => exInfo, 42, exTracer, exWrap_sane _ _ _, exWrap_info _ _ _, exWrap_passes _ _ _ 0 (by decide), rfl, ?_⟩
  obtain ⟨-, -, hO⟩ := getsiginfo_run (exWrap_sane .x86_64 "x86_64" ⟨true, false⟩) (exWrap_info .x86_64 "x86_64" ⟨true, false⟩) 42 exTracer
    (exWrap_passes _ _ _ 0 (by decide))
  have hw := siginfo_wrong (exWrap_sane .x86_64 "x86_64" ⟨true, false⟩) (exWrap_info .x86_64 "x86_64" ⟨true, false⟩) 42 exTracer
    (exWrap_passes _ _ _ 0 (by decide)) rfl 0 rfl rfl
  refine ⟨_, (hO 0 rfl).1, ?_, ?_⟩
  · rw [hw.2 rfl]; rfl
  · rw [hw.2 rfl]; decide

/-- The hypotheses of `C91_partial`, `C92_partial`, and of `C93_requests`. -/
example : Sane (exWrap .i386 "i686" ⟨false, false⟩) ∧ CopiesInfo (exWrap .i386 "i686" ⟨false, false⟩) (fun _ _ => exInfo) ∧
    CopiesMessage (exWrap .i386 "i686" ⟨false, false⟩) (fun _ _ => 70000) ∧
    Passes (exWrap .i386 "i686" ⟨false, false⟩) ((exWrap .i386 "i686" ⟨false, false⟩).place exTracer.bind.calls 0) ∧
    (exWrap .i386 "i686" ⟨false, false⟩).bind.kernel exTracer.bind.calls ⟨0x4201, 42, 0, 4096⟩ = .ok 0 :=
  ⟨exWrap_sane _ _ _, exWrap_info _ _ _, exWrap_message _ _ _, exWrap_passes _ _ _ 0 (by decide), rfl⟩

/-- The hypotheses of `C92_big_refuted`. -/
example : Sane (exWrap .powerpc64 "ppc64" ⟨true, true⟩) ∧ CopiesMessage (exWrap .powerpc64 "ppc64" ⟨true, true⟩) (fun _ _ => 70000) ∧
    (ptrace_geteventmsg (exWrap .powerpc64 "ppc64" ⟨true, true⟩) 42 exTracer).1 = .ok 0 :=
  ⟨exWrap_sane _ _ _, exWrap_message _ _ _, C92_big_refuted _ _ (exWrap_sane _ _ _) (exWrap_message .powerpc64 "ppc64" ⟨true, true⟩) 42 exTracer
    (exWrap_passes _ _ _ 0 (by decide)) (by decide) rfl 0 rfl⟩

/-- C92: the word does not fit the object it is written to: the `c_int` has 4 bytes, on 64-bit machines the kernel writes 8. (CPython
happens to reserve 16 bytes for a small object.) -/
theorem C92_space_refuted : ∃ (m : WrapEnv) (msg : List PtraceReq → Nat → Nat) (pid : Nat) (s : WrapSt), Sane m ∧ CopiesMessage m msg ∧
    Passes m (m.place s.bind.calls 0) ∧ ¬ Only s.mem (ptrace_geteventmsg m pid s).2.mem (m.place s.bind.calls 0) 4 := by
  refine ⟨exWrap .x86_64 "x86_64" ⟨true, false⟩, fun _ _ => 70000, 42, ⟨⟨0, 0, []⟩, fun _ => 9⟩, exWrap_sane _ _ _, exWrap_message _ _ _, exWrap_passes _ _ _ 0 (by decide), ?_⟩
  intro h
  obtain ⟨-, -, hO⟩ := geteventmsg_run (exWrap_sane .x86_64 "x86_64" ⟨true, false⟩) (exWrap_message .x86_64 "x86_64" ⟨true, false⟩) 42
    ⟨⟨0, 0, []⟩, fun _ => 9⟩ (exWrap_passes _ _ _ 0 (by decide))
  have h2 := (hO 0 rfl).2.1.2 5 (by decide)
  have h3 := h (4096 + 5) (Or.inr (by decide))
  have e : (exWrap .x86_64 "x86_64" ⟨true, false⟩).place (WrapSt.mk ⟨0, 0, []⟩ fun _ => 9).bind.calls 0 = 4096 := rfl
  rw [e, h3] at h2
  exact absurd h2 (by decide)

/-- The items of the floating point registers. -/
def exItems (big : Bool) (parts : List Part) (name : String) (i : Nat) : Nat :=
  match parts.find? (fun part => part.name == name) with
  | some part => readUint big exFp (part.off + i * part.size) part.size
  | none => 0

theorem exWrap_fp (isa : Isa) (machine : String) (a : Arch) (hisa : isa ∈ [Isa.x86_64, .i386]) : ∃ size parts, isa.fp "PTRACE_GETFPREGS" = some (size, parts) ∧
    CopiesFp (exWrap isa machine a) isa "PTRACE_GETFPREGS" (fun _ _ => exItems a.big parts) := by
  have key : ∀ size parts, isa.fp "PTRACE_GETFPREGS" = some (size, parts) → size = exFpSize isa →
      (parts.all fun part => decide (part.off + part.items * part.size ≤ size) && decide ((parts.find? fun q => q.name == part.name).map (fun q => (q.off, q.size)) = some (part.off, part.size))) = true →
      CopiesFp (exWrap isa machine a) isa "PTRACE_GETFPREGS" (fun _ _ => exItems a.big parts) := by
    intro size parts h hsz hall size' parts' h' before req mem hc
    rw [h] at h'
    injection h' with h'
    injection h' with e1 e2
    subst e1 e2
    have h14 : req.command = 14 := by
      simp only [requests, List.mem_cons, Prod.mk.injEq, List.not_mem_nil, or_false] at hc; simpa using hc
    have he : (exWrap isa machine a).effect before req mem =
        fun x => if req.arg2 ≤ x ∧ x < req.arg2 + exFpSize isa then exFp (x - req.arg2) else mem x := by
      show exEffect isa a req mem = _
      unfold exEffect; rw [h14]; rfl
    rw [he]
    refine ⟨fun part hp i hi => ?_, fun x hx => ?_⟩
    · have hpart := List.all_eq_true.1 hall part hp
      rw [Bool.and_eq_true, decide_eq_true_eq, decide_eq_true_eq] at hpart
      obtain ⟨hfit, hfind⟩ := hpart
      have hitem : exItems a.big parts part.name i = readUint a.big exFp (part.off + i * part.size) part.size := by
        unfold exItems
        cases hq : parts.find? (fun q => q.name == part.name) with
        | none => rw [hq] at hfind; cases hfind
        | some q =>
          rw [hq] at hfind
          simp only [Option.map_some, Option.some.injEq, Prod.mk.injEq] at hfind
          simp only [hfind.1, hfind.2]
      show IsUint a.big _ _ _ (exItems a.big parts part.name i)
      rw [hitem]
      obtain ⟨g1, g2⟩ := isUint_readUint a.big exFp (part.off + i * part.size) part.size
      refine ⟨g1, fun j hj => ?_⟩
      rw [← g2 j hj]
      have hin : (i + 1) * part.size ≤ part.items * part.size := Nat.mul_le_mul_right _ hi
      rw [Nat.succ_mul] at hin
      simp only []
      rw [if_pos (by omega)]
      congr 2
      omega
    · simp only []
      rw [if_neg (by omega)]
  simp only [List.mem_cons, List.not_mem_nil, or_false] at hisa
  rcases hisa with rfl | rfl
  · exact ⟨_, _, rfl, key _ _ rfl rfl (by decide +kernel)⟩
  · exact ⟨_, _, rfl, key _ _ rfl rfl (by decide +kernel)⟩

/-- The hypotheses of `C94_partial`. -/
example : Isa.i386.Runs "i686" ⟨false, false⟩ ∧ Sane (exWrap .i386 "i686" ⟨false, false⟩) ∧
    (∃ size parts, Isa.i386.fp "PTRACE_GETFPREGS" = some (size, parts) ∧
      CopiesFp (exWrap .i386 "i686" ⟨false, false⟩) .i386 "PTRACE_GETFPREGS" (fun _ _ => exItems false parts)) ∧
    exItems false fpI386 "fip" 0 = 0x1211100f :=
  ⟨by simp [Isa.Runs], exWrap_sane _ _ _, exWrap_fp .i386 "i686" ⟨false, false⟩ (by decide), by decide +kernel⟩

/-- C94 is false of ARM: the kernel copies the 116 bytes of `struct user_fp` to a structure of 108 bytes. -/
theorem C94_refuted : ∃ (m : WrapEnv) (pid : Nat) (s : WrapSt), Isa.arm.Runs m.machine m.bind.arch ∧ Sane m ∧ Passes m (m.place s.bind.calls 0) ∧
    (∀ before req mem, ("PTRACE_GETFPREGS", req.command) ∈ requests → Only mem (m.effect before req mem) req.arg2 116) ∧
    ∃ regs, (ptrace_getfpregs m pid s).1 = .ok regs ∧ ¬ Only s.mem (ptrace_getfpregs m pid s).2.mem regs (CT.struct m.fpregFields).size := by
  refine ⟨exWrap .arm "armv7l" ⟨false, false⟩, 42, exTracer, by simp [Isa.Runs, exWrap], exWrap_sane _ _ _, exWrap_passes _ _ _ 0 (by decide), ?_, 4096, ?_, ?_⟩
  · intro before req mem hc x hx
    have h14 : req.command = 14 := by
      simp only [requests, List.mem_cons, Prod.mk.injEq, List.not_mem_nil, or_false] at hc; simpa using hc
    show exEffect .arm ⟨false, false⟩ req mem x = mem x
    unfold exEffect; rw [h14]
    exact if_neg (by show ¬ (req.arg2 ≤ x ∧ x < req.arg2 + 116); omega)
  · decide +kernel
  · intro h
    have := h (4096 + 110) (Or.inr (by decide +kernel))
    exact absurd this (by decide +kernel)

end PT
