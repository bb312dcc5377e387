import Verif.Model.BsdWrap
import Verif.Spec.BsdWrap
import Verif.Props.Wrappers

/-! C119: requests and registers on FreeBSD and OpenBSD. -/

namespace PT
open Spec

/-- The hosts of a kernel. -/
def bsdHost : BsdIsa → BsdHost
  | .freebsdAmd64 => ⟨false, true, false⟩
  | .freebsdI386 => ⟨false, false, false⟩
  | .openbsdI386 => ⟨true, false, false⟩
  | .openbsdAmd64 => ⟨true, true, false⟩

/-- **C119** Every function makes exactly one request, with the number that this system gives it; a stopped process continues where it is. -/
theorem C119_requests (h : BsdHost) (m : WrapEnv) (hs : Sane m) (pid v : Nat) (hv : Passes m v) :
    (∃ req, IsBsdRequest h.openbsd "PT_ATTACH" pid 0 0 req ∧ Asks m (bsd_attach h m pid) req) ∧
    (∃ req, IsBsdRequest h.openbsd "PT_DETACH" pid 0 v req ∧ Asks m (bsd_detach h m pid v) req) ∧
    (∃ req, IsBsdRequest h.openbsd "PT_CONTINUE" pid 1 v req ∧ Asks m (bsd_cont m pid v) req) ∧
    (∃ req, IsBsdRequest h.openbsd "PT_STEP" pid 1 0 req ∧ Asks m (bsd_singlestep h m pid) req) ∧
    (∃ req, IsBsdRequest h.openbsd "PT_SETREGS" pid v 0 req ∧ Asks m (bsd_setregs m pid v) req) ∧
    (∃ req, IsBsdRequest h.openbsd "PT_IO" pid v 0 req ∧ Asks m (bsd_io h m pid v) req) := by
  have hz := zero_passes hv
  have ho := one_passes hv
  have key : ∀ (name : String) (c : Nat) (a b : Nat), (∃ e ∈ bsdRequests, e.1 = name ∧ c = if h.openbsd then e.2.2 else e.2.1) → 4 ≤ c → Passes m a →
      Passes m b → ∃ req, IsBsdRequest h.openbsd name pid a b req ∧ Asks m (doPtrace m c pid a b) req :=
    fun name c a b h1 h2 h3 h4 => ⟨⟨c, pid, a, b⟩, ⟨h1, rfl, rfl, rfl⟩, asks_call hs (Or.inl h2) h3 h4⟩
  unfold bsd_attach bsd_detach bsd_cont bsd_singlestep bsd_setregs bsd_io
  generalize h.openbsd = ob at key ⊢
  refine ⟨?_, ?_, ?_, ?_, ?_, ?_⟩
  · exact key _ _ 0 0 (by cases ob <;> decide) (by cases ob <;> decide) hz hz
  · exact key _ _ 0 v (by cases ob <;> decide) (by cases ob <;> decide) hz hv
  · exact key _ _ 1 v (by cases ob <;> decide) (by decide) ho hv
  · exact key _ _ 1 0 (by cases ob <;> decide) (by cases ob <;> decide) ho hz
  · exact key _ _ v 0 (by cases ob <;> decide) (by decide) hv hz
  · exact key _ _ v 0 (by cases ob <;> decide) (by cases ob <;> decide) hv hz

/-- The register that the byte at an offset belongs to, and the number of the byte. -/
def bsdOwner (isa : BsdIsa) (j : Nat) : Option (String × Nat) :=
  (isa.regs.find? fun r => decide (r.2.1 ≤ j ∧ j < r.2.1 + r.2.2)).map fun r => (r.1, j - r.2.1)

/-- A tracer on BSD whose requests succeed. -/
def exBsd (isa : BsdIsa) : WrapEnv where
  machine := "amd64"
  bind := ⟨isa.arch, true, fun _ _ => .ok 0⟩
  hasCptrace := false
  effect := fun _ req mem => if req.command = 33 then
      (fun x => if req.arg1 ≤ x ∧ x < req.arg1 + isa.size then
        match bsdOwner isa (x - req.arg1) with
        | some (n, j) => Fin.ofNat 256 (exRegs n / 256 ^ j)
        | none => 0
      else mem x)
    else mem
  place := fun _ n => 4096 + 1024 * n

theorem exBsd_sane (isa : BsdIsa) : Sane (exBsd isa) := by
  refine fun before req => ⟨(fun e he => by cases he), fun v hv => ?_⟩
  injection hv with hv
  subst hv
  rcases W_two isa.arch with h | h <;> simp [exBsd, h]

theorem exBsd_copies (isa : BsdIsa) : BsdCopies (exBsd isa) isa (fun _ _ => exRegs) := by
  intro before req mem hc
  have he : (exBsd isa).effect before req mem = (fun x => if req.arg1 ≤ x ∧ x < req.arg1 + isa.size then
        match bsdOwner isa (x - req.arg1) with
        | some (n, j) => Fin.ofNat 256 (exRegs n / 256 ^ j)
        | none => 0
      else mem x) := by
    show (if req.command = 33 then _ else _) = _
    rw [if_pos hc]
  rw [he]
  have hown : ∀ r ∈ isa.regs, ∀ j < r.2.2, bsdOwner isa (r.2.1 + j) = some (r.1, j) := by cases isa <;> decide +kernel
  have hin : ∀ r ∈ isa.regs, r.2.1 + r.2.2 ≤ isa.size ∧ exRegs r.1 < 256 ^ r.2.2 := by cases isa <;> decide +kernel
  constructor
  · intro r hr
    refine ⟨(hin r hr).2, fun j hj => ?_⟩
    have := (hin r hr).1
    have e : req.arg1 + r.2.1 + j - req.arg1 = r.2.1 + j := by omega
    simp only []
    rw [if_pos (by omega), e, hown r hr j hj]
    rfl
  · intro x hx
    simp only []
    rw [if_neg (by omega)]

theorem exBsd_passes (isa : BsdIsa) : Passes (exBsd isa) 4096 := ⟨by cases isa <;> decide, fun h => by cases h⟩

/-- The hypotheses of the theorems. -/
example (isa : BsdIsa) : (exBsd isa).bind.arch = isa.arch ∧ Sane (exBsd isa) ∧ BsdCopies (exBsd isa) isa (fun _ _ => exRegs) ∧
    Passes (exBsd isa) ((exBsd isa).place exTracer.bind.calls 0) ∧ (exBsd isa).bind.kernel exTracer.bind.calls ⟨33, 42, 4096, 0⟩ = .ok 0 :=
  ⟨rfl, exBsd_sane isa, exBsd_copies isa, exBsd_passes isa, rfl⟩

theorem bsdField_eq {isa : BsdIsa} (hi : isa ≠ .openbsdAmd64) : ∀ r ∈ isa.regs, ∃ t, fieldOf ((bsdHost isa).regFields (CT.prim isa.arch.W)) r.1 = some (r.2.1, t) ∧ t.size = r.2.2 := by
  have key : ∀ isa ∈ [BsdIsa.freebsdAmd64, .freebsdI386, .openbsdI386], ∀ r ∈ isa.regs,
      ((fieldOf ((bsdHost isa).regFields (CT.prim isa.arch.W)) r.1).map fun f => (f.1, f.2.size)) = some r.2 := by
    decide +kernel
  intro r hr
  have := key isa (by cases isa <;> first | decide | exact absurd rfl hi) r hr
  cases hf : fieldOf ((bsdHost isa).regFields (CT.prim isa.arch.W)) r.1 with
  | none => rw [hf] at this; cases this
  | some f =>
    rw [hf] at this
    injection this with this
    exact ⟨f.2, by rw [← this], by rw [← this]⟩

theorem bsdSize_eq {isa : BsdIsa} (hi : isa ≠ .openbsdAmd64) : (CT.struct ((bsdHost isa).regFields (CT.prim isa.arch.W))).size = isa.size := by
  cases isa <;> first | decide +kernel | exact absurd rfl hi

theorem bsd_getregs_run {h : BsdHost} {m : WrapEnv} (hs : Sane m) (pid : Nat) (s : WrapSt) (h0 : Passes m (m.place s.bind.calls 0)) :
    (bsd_getregs h m pid s).2.bind.calls = ⟨33, pid, m.place s.bind.calls 0, 0⟩ :: s.bind.calls ∧
    (∀ e, m.bind.kernel s.bind.calls ⟨33, pid, m.place s.bind.calls 0, 0⟩ = .error e →
      ∃ n, (bsd_getregs h m pid s).1 = .error (.ptrace n) ∧ (m.hasCptrace = false → n = some e)) ∧
    (∀ v, m.bind.kernel s.bind.calls ⟨33, pid, m.place s.bind.calls 0, 0⟩ = .ok v →
      (bsd_getregs h m pid s).1 = .ok (m.place s.bind.calls 0) ∧
      (bsd_getregs h m pid s).2.mem = m.effect s.bind.calls ⟨33, pid, m.place s.bind.calls 0, 0⟩
        (storeBytes s.mem (m.place s.bind.calls 0) (List.replicate (h.regsSize m) 0))) := by
  generalize hp0 : m.place s.bind.calls 0 = p0 at *
  have hN0 : newObject m 0 (h.regsSize m) s = (.ok p0, { s with mem := storeBytes s.mem p0 (List.replicate (h.regsSize m) 0) }) := by
    unfold newObject; rw [hp0]
  obtain ⟨hE, hO⟩ := doPtrace_run hs (command := 33) (pid := pid) (arg1 := p0) (arg2 := 0) (by decide) h0 (zero_passes h0)
    { s with mem := storeBytes s.mem p0 (List.replicate (h.regsSize m) 0) }
  have hrun : bsd_getregs h m pid s = Py.bind (doPtrace m 33 pid p0 (0 : Nat)) (fun _ => Py.pure p0)
      { s with mem := storeBytes s.mem p0 (List.replicate (h.regsSize m) 0) } := by
    unfold bsd_getregs
    rw [Py.run_bind_ok hN0]
    rfl
  refine ⟨?_, ?_, ?_⟩
  · cases hk : m.bind.kernel s.bind.calls ⟨33, pid, p0, 0⟩ with
    | error e =>
      obtain ⟨n, u, hu, hc, -⟩ := hE e hk
      rw [hrun, Py.run_bind_error hu]; exact hc
    | ok v =>
      obtain ⟨u, hu, hc, -⟩ := hO v hk
      rw [hrun, Py.run_bind_ok hu]; exact hc
  · intro e hk
    obtain ⟨n, u, hu, hc, hn, -⟩ := hE e hk
    rw [hrun, Py.run_bind_error hu]
    exact ⟨n, rfl, hn⟩
  · intro v hk
    obtain ⟨u, hu, hc, hm⟩ := hO v hk
    rw [hrun, Py.run_bind_ok hu]
    exact ⟨rfl, hm⟩

/-- **C119 (partial)** On FreeBSD (amd64, i386) and on OpenBSD/i386 the attributes of the structure are the registers of the process, and
nothing else in the memory of the tracer changes. -/
theorem C119_getregs_partial (isa : BsdIsa) (hi : isa ≠ .openbsdAmd64) (m : WrapEnv) (ha : m.bind.arch = isa.arch) (hs : Sane m)
    (R : List PtraceReq → Nat → String → Nat) (hR : BsdCopies m isa R) (pid : Nat) (s : WrapSt) (h0 : Passes m (m.place s.bind.calls 0)) :
    ∃ req, (bsdProcGetregs (bsdHost isa) m pid s).2.bind.calls = req :: s.bind.calls ∧
      IsBsdRequest (bsdHost isa).openbsd "PT_GETREGS" pid (m.place s.bind.calls 0) 0 req ∧
      (∀ e, m.bind.kernel s.bind.calls req = .error e →
        ∃ n, (bsdProcGetregs (bsdHost isa) m pid s).1 = .error (.ptrace n) ∧ (m.hasCptrace = false → n = some e)) ∧
      (∀ v, m.bind.kernel s.bind.calls req = .ok v → ∃ regs, (bsdProcGetregs (bsdHost isa) m pid s).1 = .ok regs ∧
        (∀ r ∈ isa.regs, getField m ((bsdHost isa).regFields m.ulong) regs r.1 (bsdProcGetregs (bsdHost isa) m pid s).2 = .ok (R s.bind.calls pid r.1)) ∧
        Only s.mem (bsdProcGetregs (bsdHost isa) m pid s).2.mem regs isa.size) := by
  have hul : m.ulong = CT.prim isa.arch.W := by unfold WrapEnv.ulong; rw [ha]
  have hbig : m.bind.arch.big = false := by rw [ha]; cases isa <;> rfl
  have hsz : (bsdHost isa).regsSize m = isa.size := by unfold BsdHost.regsSize; rw [hul]; exact bsdSize_eq hi
  have hproc : bsdProcGetregs (bsdHost isa) m pid = bsd_getregs (bsdHost isa) m pid := by
    unfold bsdProcGetregs
    rw [if_pos (by cases isa <;> rfl)]
  rw [hproc]
  obtain ⟨h1, h2, h3⟩ := bsd_getregs_run (h := bsdHost isa) hs pid s h0
  refine ⟨_, h1, ⟨by show ∃ c ∈ bsdRequests, c.1 = "PT_GETREGS" ∧ 33 = (if (bsdHost isa).openbsd then c.2.2 else c.2.1); cases isa <;> decide, rfl, rfl, rfl⟩, h2, fun v hk => ?_⟩
  obtain ⟨e1, e2⟩ := h3 v hk
  obtain ⟨hra, honly⟩ := hR s.bind.calls ⟨33, pid, m.place s.bind.calls 0, 0⟩ (storeBytes s.mem (m.place s.bind.calls 0) (List.replicate ((bsdHost isa).regsSize m) 0)) rfl
  refine ⟨_, e1, fun r hr => ?_, fun x hx => ?_⟩
  · obtain ⟨t, hf, ht⟩ := bsdField_eq hi r hr
    unfold getField
    rw [hul, hf]
    simp only []
    rw [hbig, ht, readUint_eq (by rw [e2]; exact hra r hr)]
  · rw [e2, honly x hx, storeBytes_out _ _ _ _ (by rw [List.length_replicate, hsz]; exact hx)]

example := C119_getregs_partial .freebsdAmd64 (by decide) (exBsd .freebsdAmd64) rfl (exBsd_sane _) _ (exBsd_copies _) 42 exTracer (exBsd_passes _)

/-- **C119 (refuted)** On OpenBSD/amd64 the structure has 64 bytes and the kernel copies 192: whatever the kernel, the registers from `r8`... on
are written behind the object, and there is no instruction pointer among its attributes. -/
theorem C119_openbsd64_refuted (m : WrapEnv) (ha : m.bind.arch = ⟨true, false⟩) (hs : Sane m) (R : List PtraceReq → Nat → String → Nat)
    (hR : BsdCopies m .openbsdAmd64 R) (pid : Nat) (s : WrapSt) (h0 : Passes m (m.place s.bind.calls 0)) (v : Nat)
    (hk : m.bind.kernel s.bind.calls ⟨33, pid, m.place s.bind.calls 0, 0⟩ = .ok v) :
    ∃ regs, (bsdProcGetregs ⟨true, true, false⟩ m pid s).1 = .ok regs ∧ BsdHost.regsSize ⟨true, true, false⟩ m = 64 ∧
      (∀ r ∈ BsdIsa.openbsdAmd64.regs, 64 ≤ r.2.1 → IsUint false (bsdProcGetregs ⟨true, true, false⟩ m pid s).2.mem (regs + r.2.1) 8 (R s.bind.calls pid r.1)) ∧
      getField m (BsdHost.regFields ⟨true, true, false⟩ m.ulong) regs "rip" (bsdProcGetregs ⟨true, true, false⟩ m pid s).2 = .error .attribute := by
  have hproc : bsdProcGetregs ⟨true, true, false⟩ m pid = bsd_getregs ⟨true, true, false⟩ m pid := rfl
  have hul : m.ulong = CT.prim 8 := by unfold WrapEnv.ulong; rw [ha]; rfl
  rw [hproc]
  obtain ⟨h1, h2, h3⟩ := bsd_getregs_run (h := ⟨true, true, false⟩) hs pid s h0
  obtain ⟨e1, e2⟩ := h3 v hk
  obtain ⟨hra, -⟩ := hR s.bind.calls ⟨33, pid, m.place s.bind.calls 0, 0⟩ (storeBytes s.mem (m.place s.bind.calls 0) (List.replicate (BsdHost.regsSize ⟨true, true, false⟩ m) 0)) rfl
  refine ⟨_, e1, by unfold BsdHost.regsSize; rw [hul]; decide +kernel, fun r hr _ => ?_, ?_⟩
  · have h8 : ∀ r ∈ BsdIsa.openbsdAmd64.regs, r.2.2 = 8 := by decide +kernel
    have := hra r hr
    rw [h8 r hr] at this
    rw [e2]
    exact this
  · have hf : fieldOf (BsdHost.regFields ⟨true, true, false⟩ m.ulong) "rip" = none := by rw [hul]; decide +kernel
    unfold getField
    rw [hf]

/-- **C119 (refuted)** On OpenBSD a process cannot be resumed until its next system call: no request is made. -/
theorem C119_syscall_refuted (h : BsdHost) (ho : h.openbsd = true) (m : WrapEnv) (pid signum : Nat) (s : WrapSt) :
    bsd_syscall h m pid signum s = (.error .attribute, s) := by
  unfold bsd_syscall
  rw [if_pos ho]
  rfl

/-- On FreeBSD it is `PT_SYSCALL`, number 22. -/
theorem C119_syscall (h : BsdHost) (ho : h.openbsd = false) (m : WrapEnv) (hs : Sane m) (pid v : Nat) (hv : Passes m v) :
    Asks m (bsd_syscall h m pid v) ⟨22, pid, 1, v⟩ := by
  have : bsd_syscall h m pid v = doPtrace m 22 pid (1 : Nat) v := by
    unfold bsd_syscall
    rw [if_neg (by rw [ho]; decide)]
    rfl
  rw [this]
  exact asks_call hs (Or.inl (by decide)) (one_passes hv) hv

example := C119_syscall (bsdHost .freebsdI386) rfl (exBsd .freebsdI386) (exBsd_sane _) 42 4096 (exBsd_passes _)

theorem bsdPeekRegs_length (m : WrapEnv) (pid : Nat) : ∀ (n offset : Nat) (s t : WrapSt) (ws : List Nat), bsdPeekRegs m pid n offset s = (.ok ws, t) → ws.length = n := by
  intro n
  induction n with
  | zero =>
    intro offset s t ws h
    injection h with h _
    injection h with h
    rw [← h]
    rfl
  | succ n ih =>
    intro offset s t ws h
    rw [bsdPeekRegs] at h
    obtain ⟨w, u, _, h⟩ := Py.ok_of_bind h
    obtain ⟨rest, u', h2, h⟩ := Py.ok_of_bind h
    have := ih _ _ _ _ h2
    injection h with h _
    injection h with h
    rw [← h]
    simp [this]

/-- **C119 (refuted)** On FreeBSD/PowerPC the registers cannot be read, whatever the kernel answers. -/
theorem C119_powerpc_refuted (m : WrapEnv) (pid : Nat) (s t : WrapSt) (regs : Nat) : bsdProcGetregs ⟨false, false, true⟩ m pid s ≠ (.ok regs, t) := by
  intro h
  unfold bsdProcGetregs at h
  rw [if_neg (by decide)] at h
  obtain ⟨ws, u, h1, h2⟩ := Py.ok_of_bind h
  have hlen := bsdPeekRegs_length m pid _ _ _ _ _ h1
  have hsz : BsdHost.regsSize ⟨false, false, true⟩ m = 76 := by unfold BsdHost.regsSize; exact (by decide +kernel : (CT.struct (BsdHost.regFields ⟨false, false, true⟩ (CT.prim 4))).size = 76)
  cases ws with
  | nil =>
    rw [hsz] at hlen
    have : m.bind.arch.W = 4 ∨ m.bind.arch.W = 8 := by unfold Arch.W; split <;> simp
    rcases this with hw | hw <;> rw [hw] at hlen <;> cases hlen
  | cons w ws => cases h2

end PT
