import Verif.Lemmas.ArgText
import Verif.Lemmas.Memory2
import Verif.Spec.Wrappers

/-! Integers in memory, calls of `ptrace`, and the layout of registers. -/

namespace PT
open Spec

/-! ### Integers in memory -/

theorem isUint_readUint (big : Bool) (mem : Nat → Byte) (p n : Nat) : IsUint big mem p n (readUint big mem p n) := by
  have h := isUint_native (a := ⟨true, big⟩) (mem := mem) (p := p) (n := n) (b := bytesAt mem p n)
    ⟨bytesAt_length .., fun i hi => bytesAt_getElem mem p n i hi⟩
  exact h

theorem byte_bytes {n v i : Nat} (h : i < n) : ((leBytes n v)[i]'(by simpa using h)).val = v / 256 ^ i % 256 :=
  leBytes_getElem n v i (by simpa using h)

theorem leBytes_inj {n v w : Nat} (hv : v < 256 ^ n) (hw : w < 256 ^ n) (h : ∀ i < n, v / 256 ^ i % 256 = w / 256 ^ i % 256) : v = w := by
  have : leBytes n v = leBytes n w := by
    apply List.ext_getElem (by simp)
    intro i h1 h2
    have hi : i < n := by simpa using h1
    apply Fin.ext
    rw [byte_bytes hi, byte_bytes hi, h i hi]
  rw [← leValue_leBytes n v hv, ← leValue_leBytes n w hw, this]

theorem isUint_unique {big : Bool} {mem : Nat → Byte} {p n v w : Nat} (hv : IsUint big mem p n v) (hw : IsUint big mem p n w) : v = w := by
  apply leBytes_inj hv.1 hw.1
  intro i hi
  cases big with
  | false =>
    have h1 := hv.2 i hi
    have h2 := hw.2 i hi
    unfold byteAt at h1 h2
    simp only [Bool.false_eq_true, if_false] at h1 h2
    omega
  | true =>
    have h1 := hv.2 (n - 1 - i) (by omega)
    have h2 := hw.2 (n - 1 - i) (by omega)
    unfold byteAt at h1 h2
    simp only [if_true] at h1 h2
    have e : n - 1 - (n - 1 - i) = i := by omega
    rw [e] at h1 h2
    omega

theorem readUint_eq {big : Bool} {mem : Nat → Byte} {p n v : Nat} (h : IsUint big mem p n v) : readUint big mem p n = v :=
  isUint_unique (isUint_readUint ..) h

theorem isUint_congr {big : Bool} {mem mem' : Nat → Byte} {p n v : Nat} (h : IsUint big mem p n v)
    (he : ∀ i < n, mem' (p + i) = mem (p + i)) : IsUint big mem' p n v :=
  ⟨h.1, fun i hi => by rw [he i hi]; exact h.2 i hi⟩

/-- The first bytes of a little-endian integer are its low part. -/
theorem isUint_low {mem : Nat → Byte} {p n k v : Nat} (h : IsUint false mem p n v) (hk : k ≤ n) : IsUint false mem p k (v % 256 ^ k) := by
  refine ⟨Nat.mod_lt _ (Nat.pow_pos (by decide)), fun i hi => ?_⟩
  rw [h.2 i (by omega)]
  unfold byteAt
  simp only [Bool.false_eq_true, if_false]
  have e : 256 ^ k = 256 ^ i * 256 ^ (k - i) := by rw [← Nat.pow_add]; congr 1; omega
  have e2 : 256 ^ (k - i) = 256 * 256 ^ (k - i - 1) := by rw [← Nat.pow_succ']; congr 1; omega
  rw [e, Nat.mod_mul_right_div_self, e2, Nat.mod_mul_right_mod]

/-- The first bytes of a big-endian integer are its high part. -/
theorem isUint_high {mem : Nat → Byte} {p n k v : Nat} (h : IsUint true mem p n v) (hk : k ≤ n) : IsUint true mem p k (v / 256 ^ (n - k)) := by
  refine ⟨?_, fun i hi => ?_⟩
  · rw [Nat.div_lt_iff_lt_mul (Nat.pow_pos (by decide)), ← Nat.pow_add]
    have e : k + (n - k) = n := by omega
    rw [e]; exact h.1
  · rw [h.2 i (by omega)]
    unfold byteAt
    simp only [if_true]
    rw [Nat.div_div_eq_div_mul, ← Nat.pow_add]
    congr 3
    omega

theorem isUint_store (big : Bool) (mem : Nat → Byte) (p n v : Nat) (hv : v < 256 ^ n) :
    IsUint big (storeBytes mem p (uintBytes big n v)) p n v := by
  have hl : (uintBytes big n v).length = n := by unfold uintBytes; split <;> simp
  refine ⟨hv, fun i hi => ?_⟩
  rw [storeBytes_in _ _ _ _ (by rw [hl]; exact hi)]
  unfold byteAt uintBytes
  cases big with
  | false =>
    simp only [Bool.false_eq_true, if_false]
    exact byte_bytes hi
  | true =>
    simp only [if_true, List.getElem_reverse, leBytes_length]
    exact byte_bytes (by omega)

theorem uintBytes_length (big : Bool) (n v : Nat) : (uintBytes big n v).length = n := by unfold uintBytes; split <;> simp

/-! ### Calls -/

theorem mod_passes {m : WrapEnv} {v : Nat} (h : Passes m v) : ((v : Int) % 2 ^ (8 * m.bind.arch.W)).toNat = v := by
  have e : ((2 ^ (8 * m.bind.arch.W) : Nat) : Int) = (2 : Int) ^ (8 * m.bind.arch.W) := by push_cast; rfl
  rw [← e, Int.emod_eq_of_lt (by omega) (by exact_mod_cast h.1)]
  rfl

theorem memAfter_ok {m : WrapEnv} {before : List PtraceReq} {req : PtraceReq} {mem : Nat → Byte} {v : Nat}
    (h : m.bind.kernel before req = .ok v) : memAfter m before (req :: before) mem = m.effect before req mem := by
  unfold memAfter; simp only [if_true]; rw [h]

theorem memAfter_error {m : WrapEnv} {before : List PtraceReq} {req : PtraceReq} {mem : Nat → Byte} {e : Nat}
    (h : m.bind.kernel before req = .error e) : memAfter m before (req :: before) mem = mem := by
  unfold memAfter; simp only [if_true]; rw [h]

private theorem notPeek {c : Nat} (h : 4 ≤ c ∨ c = 0) : ¬ (c = 1 ∨ c = 2 ∨ c = 3) := by omega

private theorem pair_fst {α β : Type} {x : α × β} {a : α} (h : x.1 = a) : x = (a, x.2) := by rw [← h]

/-- The binding, for a request that is not a peek. -/
theorem ptrace_run {m : WrapEnv} (hs : Sane m) {command pid arg1 arg2 : Nat} (hc : 4 ≤ command ∨ command = 0) (h1 : Passes m arg1)
    (h2 : Passes m arg2) (s : BindSt) :
    (∀ e, m.bind.kernel s.calls ⟨command, pid, arg1, arg2⟩ = .error e → ∃ n u,
      ptrace m.bind m.hasCptrace command pid arg1 arg2 false s = (.error (.ptrace n), u) ∧
      u.calls = ⟨command, pid, arg1, arg2⟩ :: s.calls ∧ (m.hasCptrace = false → n = some e)) ∧
    (∀ v, m.bind.kernel s.calls ⟨command, pid, arg1, arg2⟩ = .ok v → ∃ u,
      ptrace m.bind m.hasCptrace command pid arg1 arg2 false s = (.ok v, u) ∧ u.calls = ⟨command, pid, arg1, arg2⟩ :: s.calls) := by
  have hpos : 0 < 2 ^ (8 * m.bind.arch.W) := Nat.two_pow_pos _
  have e1 := mod_passes h1
  have e2 := mod_passes h2
  have hno : ∀ v, m.bind.kernel s.calls ⟨command, pid, arg1, arg2⟩ = .ok v → v ≠ m.bind.minusOne := by
    intro v hv
    have := ((hs s.calls ⟨command, pid, arg1, arg2⟩).2 v hv).2 (notPeek hc)
    unfold BindEnv.minusOne
    omega
  have he0 := (hs s.calls ⟨command, pid, arg1, arg2⟩).1
  cases hb : m.hasCptrace with
  | false =>
    have hrun : ptrace m.bind false command pid arg1 arg2 false s =
        (let r := libcPtrace m.bind ⟨command, pid, arg1, arg2⟩ { s with errno := s.copy, copy := s.errno }
         if r.1 = m.bind.minusOne ∧ (false = false ∨ r.2.errno ≠ 0) then
           (.error (.ptrace (some r.2.errno)), { r.2 with errno := r.2.copy, copy := r.2.errno })
         else (.ok r.1, { r.2 with errno := r.2.copy, copy := r.2.errno })) := by
      conv => rhs; rw [← e1, ← e2]
      rfl
    constructor
    · intro e he
      refine ⟨some e, ⟨s.errno, e, ⟨command, pid, arg1, arg2⟩ :: s.calls⟩, ?_, rfl, fun _ => rfl⟩
      rw [hrun]
      unfold libcPtrace
      simp only [he]
      rw [if_pos ⟨trivial, Or.inl trivial⟩]
    · intro v hv
      refine ⟨⟨s.errno, if (isPeek command && m.bind.resets) = true then 0 else s.copy, ⟨command, pid, arg1, arg2⟩ :: s.calls⟩, ?_, rfl⟩
      rw [hrun]
      unfold libcPtrace
      simp only [hv]
      rw [if_neg (fun h => hno v hv h.1)]
  | true =>
    obtain ⟨h64, hlt1⟩ := h1.2 hb
    have hlt2 := (h2.2 hb).2
    have hW : m.bind.arch.W = 8 := by unfold Arch.W; rw [h64]; rfl
    obtain ⟨req, hcalls, hcmd, hpid, ha1, ha2, hans⟩ := C59_cptrace_partial m.bind h64 command pid arg1 arg2 false
      (by simp [notPeek hc]) s (by constructor <;> omega) (by constructor <;> omega)
    have hreq : req = ⟨command, pid, arg1, arg2⟩ := by
      have x1 : (0 : Int) ≤ arg1 % 2 ^ (8 * m.bind.arch.W) := by rw [← ha1]; omega
      have x2 : (0 : Int) ≤ arg2 % 2 ^ (8 * m.bind.arch.W) := by rw [← ha2]; omega
      have y1 : req.arg1 = arg1 := by rw [← e1, ← ha1]; rfl
      have y2 : req.arg2 = arg2 := by rw [← e2, ← ha2]; rfl
      cases req
      simp only at hcmd hpid y1 y2
      rw [hcmd, hpid, y1, y2]
    subst hreq
    obtain ⟨hE, hO⟩ := hans (hs _ _)
    constructor
    · intro e he
      obtain ⟨n, hn⟩ := hE e he
      refine ⟨n, (ptrace m.bind true command pid arg1 arg2 false s).2, pair_fst hn, hcalls, (fun h => by cases h)⟩
    · intro v hv
      refine ⟨(ptrace m.bind true command pid arg1 arg2 false s).2, pair_fst (hO v hv), hcalls⟩

/-- A call whose result is not used. -/
theorem doPtrace_run {m : WrapEnv} (hs : Sane m) {command pid arg1 arg2 : Nat} (hc : 4 ≤ command ∨ command = 0) (h1 : Passes m arg1)
    (h2 : Passes m arg2) (s : WrapSt) :
    (∀ e, m.bind.kernel s.bind.calls ⟨command, pid, arg1, arg2⟩ = .error e → ∃ n u,
      doPtrace m command pid arg1 arg2 s = (.error (.ptrace n), u) ∧
      u.bind.calls = ⟨command, pid, arg1, arg2⟩ :: s.bind.calls ∧ (m.hasCptrace = false → n = some e) ∧ u.mem = s.mem) ∧
    (∀ v, m.bind.kernel s.bind.calls ⟨command, pid, arg1, arg2⟩ = .ok v → ∃ u,
      doPtrace m command pid arg1 arg2 s = (.ok (), u) ∧ u.bind.calls = ⟨command, pid, arg1, arg2⟩ :: s.bind.calls ∧
      u.mem = m.effect s.bind.calls ⟨command, pid, arg1, arg2⟩ s.mem) := by
  obtain ⟨hE, hO⟩ := ptrace_run hs (pid := pid) hc h1 h2 s.bind
  constructor
  · intro e he
    obtain ⟨n, u, hu, hcalls, hn⟩ := hE e he
    refine ⟨n, ⟨u, memAfter m s.bind.calls u.calls s.mem⟩, ?_, hcalls, hn, ?_⟩
    · unfold doPtrace
      rw [Py.run_bind_error]
      unfold ptraceM
      simp only [hu]
    · show memAfter m s.bind.calls u.calls s.mem = s.mem
      rw [hcalls, memAfter_error he]
  · intro v hv
    obtain ⟨u, hu, hcalls⟩ := hO v hv
    refine ⟨⟨u, memAfter m s.bind.calls u.calls s.mem⟩, ?_, hcalls, ?_⟩
    · unfold doPtrace
      rw [Py.run_bind_ok (a := v) (u := ⟨u, memAfter m s.bind.calls u.calls s.mem⟩)]
      · rfl
      · unfold ptraceM
        simp only [hu]
    · show memAfter m s.bind.calls u.calls s.mem = _
      rw [hcalls, memAfter_ok hv]

theorem asks_call {m : WrapEnv} (hs : Sane m) {command pid arg1 arg2 : Nat} (hc : 4 ≤ command ∨ command = 0) (h1 : Passes m arg1)
    (h2 : Passes m arg2) : Asks m (doPtrace m command pid arg1 arg2) ⟨command, pid, arg1, arg2⟩ := by
  intro s
  obtain ⟨hE, hO⟩ := doPtrace_run hs (pid := pid) hc h1 h2 s
  cases hk : m.bind.kernel s.bind.calls ⟨command, pid, arg1, arg2⟩ with
  | error e =>
    obtain ⟨n, u, hu, hcalls, hn, -⟩ := hE e hk
    rw [hu]
    exact ⟨hcalls, fun e' he' => ⟨n, rfl, fun hb => by rw [hn hb]; injection he' with he'; rw [he']⟩, fun v hv => by cases hv⟩
  | ok v =>
    obtain ⟨u, hu, hcalls, -⟩ := hO v hk
    rw [hu]
    exact ⟨hcalls, (fun e he => by cases he), fun v hv => ⟨(), rfl⟩⟩

/-! ### Layout of registers -/

/-- The fields as a function of the machine. -/
def regFieldsOf (machine : String) (a : Arch) : List (String × CT) :=
  WrapEnv.regFields ⟨machine, ⟨a, false, fun _ _ => .ok 0⟩, false, fun _ _ m => m, fun _ _ => 0⟩

theorem regFields_eq (m : WrapEnv) : m.regFields = regFieldsOf m.machine m.bind.arch := rfl

/-- The structure has the kernel's size, and every register its place and width. -/
def tableOk (isa : Isa) (machine : String) (a : Arch) : Bool :=
  decide ((CT.struct (regFieldsOf machine a)).size = isa.regs.length * a.W) &&
  ((isa.regs.zipIdx).all fun x =>
    decide ((fieldOf (regFieldsOf machine a) x.1).map (fun f => (f.1, f.2.size * 8)) = some (x.2 * a.W, isa.bits a x.1)))

theorem tableOk_all {isa : Isa} {machine : String} {a : Arch} (h : isa.Runs machine a) : tableOk isa machine a = true := by
  cases isa <;> unfold Isa.Runs at h
  · obtain ⟨hm, rfl⟩ := h
    exact (by decide +kernel : ∀ x ∈ ["x86_64", "amd64"], tableOk .x86_64 x ⟨true, false⟩ = true) machine hm
  · obtain ⟨hm, rfl⟩ := h
    exact (by decide +kernel : ∀ x ∈ ["i386", "i486", "i586", "i686", "x86_64"], tableOk .i386 x ⟨false, false⟩ = true) machine hm
  · obtain ⟨rfl, rfl⟩ := h
    decide +kernel
  · obtain ⟨rfl, rfl⟩ | ⟨rfl, rfl⟩ := h <;> decide +kernel
  · obtain ⟨hm, rfl⟩ := h
    exact (by decide +kernel : ∀ x ∈ ["armv5tel", "armv6l", "armv7l", "armv8l"], tableOk .arm x ⟨false, false⟩ = true) machine hm
  · obtain ⟨rfl, rfl⟩ := h
    decide +kernel
  · obtain ⟨rfl, rfl⟩ := h
    decide +kernel
  · obtain ⟨rfl, rfl⟩ := h
    decide +kernel

theorem regsSize_eq {isa : Isa} {m : WrapEnv} (h : isa.Runs m.machine m.bind.arch) :
    m.regsSize = isa.regs.length * m.bind.arch.W := by
  have := tableOk_all h
  unfold tableOk at this
  rw [Bool.and_eq_true, decide_eq_true_eq] at this
  exact this.1

theorem regField_eq {isa : Isa} {m : WrapEnv} (h : isa.Runs m.machine m.bind.arch) (i : Nat) (hi : i < isa.regs.length) :
    ∃ t, fieldOf m.regFields isa.regs[i] = some (i * m.bind.arch.W, t) ∧ t.size * 8 = isa.bits m.bind.arch isa.regs[i] := by
  have := tableOk_all h
  unfold tableOk at this
  rw [Bool.and_eq_true, List.all_eq_true] at this
  have hx := this.2 (isa.regs[i], i) (by rw [List.mem_zipIdx_iff_getElem?]; simp [hi])
  rw [decide_eq_true_eq] at hx
  rw [regFields_eq]
  cases hf : fieldOf (regFieldsOf m.machine m.bind.arch) isa.regs[i] with
  | none => rw [hf] at hx; cases hx
  | some f =>
    rw [hf] at hx
    simp only [Option.map_some, Option.some.injEq, Prod.mk.injEq] at hx
    exact ⟨f.2, by rw [← hx.1], hx.2⟩

theorem hasGetregs_eq {isa : Isa} {m : WrapEnv} (h : isa.Runs m.machine m.bind.arch) : m.hasGetregs = isa.direct := by
  have key : ∀ machine a, isa.Runs machine a →
      (!((machine == "aarch64") || (machine == "riscv32" || machine == "riscv64"))) = isa.direct := by
    intro machine a h
    cases isa <;> unfold Isa.Runs at h
    · exact (by decide +kernel : ∀ x ∈ ["x86_64", "amd64"], (!((x == "aarch64") || (x == "riscv32" || x == "riscv64"))) = Isa.x86_64.direct) machine h.1
    · exact (by decide +kernel : ∀ x ∈ ["i386", "i486", "i586", "i686", "x86_64"],
        (!((x == "aarch64") || (x == "riscv32" || x == "riscv64"))) = Isa.i386.direct) machine h.1
    · obtain ⟨rfl, rfl⟩ := h; decide +kernel
    · obtain ⟨rfl, rfl⟩ | ⟨rfl, rfl⟩ := h <;> decide +kernel
    · exact (by decide +kernel : ∀ x ∈ ["armv5tel", "armv6l", "armv7l", "armv8l"],
        (!((x == "aarch64") || (x == "riscv32" || x == "riscv64"))) = Isa.arm.direct) machine h.1
    · obtain ⟨rfl, rfl⟩ := h; decide +kernel
    · obtain ⟨rfl, rfl⟩ := h; decide +kernel
    · obtain ⟨rfl, rfl⟩ := h; decide +kernel
  exact key m.machine m.bind.arch h

/-- Only i386 has registers that do not fill their word, and it is little-endian. -/
theorem bits_cases {isa : Isa} {machine : String} {a : Arch} (h : isa.Runs machine a) (name : String) :
    isa.bits a name = 8 * a.W ∨ (isa.bits a name = 16 ∧ a = ⟨false, false⟩) := by
  unfold Isa.bits
  split
  · rename_i hc
    right
    rw [hc.1] at h
    exact ⟨rfl, h.2⟩
  · exact Or.inl rfl

end PT
