import Verif.Props.Disasm

namespace PT
open Props

/-! ## C81 — the commands `break` and `delete` -/

theorem exceptPtrace_true {σ α : Type} {m : Py σ α} {v : Bool} {s s' : σ}
    (h : exceptPtrace (Py.bind m fun _ => Py.pure true) (Py.pure false) s = (.ok v, s')) (hv : v = true) :
    ∃ a, m s = (.ok a, s') := by
  subst hv
  unfold exceptPtrace at h
  cases hm : m s with
  | mk r u =>
    cases r with
    | ok a =>
      rw [Py.run_bind_ok hm] at h
      simp only [Py.pure] at h
      injection h with _ h
      subst h
      exact ⟨a, rfl⟩
    | error e =>
      rw [Py.run_bind_error hm] at h
      simp only [Py.pure] at h
      split at h
      · injection h with h _; cases h
      · injection h with h _; cases h

theorem exceptPtrace_false {σ α : Type} {m : Py σ α} {s s' : σ}
    (h : exceptPtrace (Py.bind m fun _ => Py.pure true) (Py.pure false) s = (.ok false, s')) :
    ∃ n, m s = (.error (.ptrace n), s') := by
  unfold exceptPtrace at h
  cases hm : m s with
  | mk r u =>
    cases r with
    | ok a =>
      rw [Py.run_bind_ok hm] at h
      simp only [Py.pure] at h
      injection h with h _; cases h
    | error e =>
      rw [Py.run_bind_error hm] at h
      simp only [Py.pure] at h
      cases e <;> simp [Exc.isPtrace] at h
      exact ⟨_, by rw [h]⟩

/-- The size `break` uses: that of the instruction in memory, or none when it cannot be disassembled. -/
theorem readInstrSize_run {E : Disassembler} (hE : E.bytesHex = false) {h : BpHost} (hk : CompleteReplies h.kernel)
    {a n : Nat} {t : Str} {s s' : BpSt} {size : Option Nat} (hi : Spec.IsInstr E.one s.m.mem a n t) (hn : n ≤ E.maxSize)
    (hr : readInstrSize (some E) h a s = (.ok size, s')) : Same s s' ∧ (size = some n ∨ size = none) := by
  unfold readInstrSize exceptPtrace at hr
  simp only [] at hr
  have hs := procDisassembleOne_same E h a s
  cases hp : procDisassembleOne E h a s with
  | mk r u =>
    rw [hp] at hs
    cases r with
    | ok i =>
      have := procDisassembleOne_instr hE hk hi hn hp
      rw [Py.run_bind_ok hp] at hr
      simp only [Py.pure] at hr
      injection hr with h1 h2
      injection h1 with h1
      subst h2
      refine ⟨hs, Or.inl ?_⟩
      rw [← h1, this]
    | error e =>
      rw [Py.run_bind_error hp] at hr
      simp only [Py.pure] at hr
      cases e <;> simp [Exc.isPtrace] at hr
      obtain ⟨h1, h2⟩ := hr
      subst h2
      exact ⟨hs, Or.inr h1.symm⟩

theorem readInstrSize_same (E : Option Disassembler) (h : BpHost) (a : Nat) (s : BpSt) :
    Same s (readInstrSize E h a s).2 := by
  cases E with
  | none => exact Same.refl s
  | some E =>
    unfold readInstrSize exceptPtrace
    simp only []
    have hs := procDisassembleOne_same E h a s
    cases hp : procDisassembleOne E h a s with
    | mk r u =>
      rw [hp] at hs
      cases r with
      | ok i => rw [Py.run_bind_ok hp]; exact hs
      | error e =>
        rw [Py.run_bind_error hp]
        simp only [Py.pure]
        split <;> exact hs

/-- A successful `break` is a successful `createBreakpoint`. -/
theorem gdbBreak_true {E : Option Disassembler} {h : BpHost} {a : Nat} {s s' : BpSt}
    (hr : gdbBreak E h a s = (.ok true, s')) :
    ∃ size u id, readInstrSize E h a s = (.ok size, u) ∧ Same s u ∧ createBreakpoint h a size u = (.ok id, s') := by
  unfold gdbBreak at hr
  obtain ⟨size, u, h1, h2⟩ := Py.ok_of_bind hr
  obtain ⟨id, h3⟩ := exceptPtrace_true h2 rfl
  have := readInstrSize_same E h a s
  rw [h1] at this
  exact ⟨size, u, id, h1, this, h3⟩

/-- `break ADDRESS` where memory holds an instruction: when a breakpoint is set, the trap covers exactly the
instruction (one byte, or one word on PowerPC, when the instruction could not be read), nothing else in memory
and no register changes, and there was no breakpoint at the address. Missing: instructions of more than
MAX_INSTR_SIZE bytes and short reads. -/
theorem C81_break_partial (E : Disassembler) (hE : E.bytesHex = false) (h : BpHost) (hk : CompleteReplies h.kernel)
    (a n : Nat) (t : Str) (s s' : BpSt) (hi : Spec.IsInstr E.one s.m.mem a n t) (hn : n ≤ E.maxSize)
    (hr : gdbBreak (some E) h a s = (.ok true, s')) :
    ∃ k, (k = bpSize h (some n) ∨ k = bpSize h none) ∧ Spec.Patched s.m.mem (trapByte h) [(a, k)] s'.m.mem ∧
      s'.r = s.r ∧ ∀ q ∈ places s, a < q.1 ∨ q.1 + q.2 ≤ a := by
  obtain ⟨size, u, id, h1, hs, h3⟩ := gdbBreak_true hr
  obtain ⟨_, hsz⟩ := readInstrSize_run hE hk hi hn h1
  obtain ⟨h4, h5, _, h6⟩ := C19_install h a size u s' id h3
  refine ⟨bpSize h size, ?_, by rw [← hs.mem]; exact h4, h5.trans hs.regs, ?_⟩
  · rcases hsz with rfl | rfl
    · exact Or.inl rfl
    · exact Or.inr rfl
  · intro q hq
    obtain ⟨e, he, b, hb, rfl⟩ := mem_places.1 hq
    exact findBreakpoint_none h6 e (by rw [hs.dict]; exact he) b (by rw [hs.objs]; exact hb)

example : (gdbBreak (some toyE) exHost 100 toyBp).1 = .ok true ∧
    places (gdbBreak (some toyE) exHost 100 toyBp).2 = [(100, 5)] := by decide +kernel

/-- `break` on an address that a breakpoint covers is refused and changes nothing. -/
theorem C81_covered (E : Option Disassembler) (h : BpHost) (a : Nat) (s : BpSt) (v : Bool) (s' : BpSt)
    (hc : ∃ q ∈ places s, q.1 ≤ a ∧ a < q.1 + q.2) (hr : gdbBreak E h a s = (.ok v, s')) :
    v = false ∧ s'.m.mem = s.m.mem ∧ places s' = places s := by
  unfold gdbBreak at hr
  obtain ⟨size, u, h1, h2⟩ := Py.ok_of_bind hr
  have hs := readInstrSize_same E h a s
  rw [h1] at hs
  have hfind : ∃ i, findBreakpoint u a = some i := by
    obtain ⟨q, hq, hq1, hq2⟩ := hc
    cases hf : findBreakpoint u a with
    | some i => exact ⟨i, rfl⟩
    | none =>
      obtain ⟨e, he, b, hb, rfl⟩ := mem_places.1 hq
      have := findBreakpoint_none hf e (by rw [hs.dict]; exact he) b (by rw [hs.objs]; exact hb)
      dsimp only at hq1 hq2
      omega
  obtain ⟨i, hf⟩ := hfind
  have hcb : createBreakpoint h a size u = (.error (.ptrace none), u) := by
    unfold createBreakpoint
    rw [hf]
  unfold exceptPtrace at h2
  rw [Py.run_bind_error hcb] at h2
  simp only [Exc.isPtrace, Py.pure, if_true] at h2
  injection h2 with h3 h4
  injection h3 with h3
  subst h4
  refine ⟨h3.symm, hs.mem, ?_⟩
  unfold places
  rw [hs.dict, hs.objs]

example : (gdbBreak (some toyE) exHost 102 toyBroken).1 = .ok false := by decide +kernel

/-- `delete ADDRESS` finds a breakpoint iff one covers the address; otherwise nothing changes. -/
theorem C81_delete_none (h : BpHost) (x : Nat) (s : BpSt) (hno : ∀ q ∈ places s, x < q.1 ∨ q.1 + q.2 ≤ x) :
    gdbDelete h x s = (.ok false, s) := by
  have hf : findBreakpoint s x = none := by
    unfold findBreakpoint
    rw [List.findSome?_eq_none_iff]
    intro e he
    unfold bpCovers
    cases hb : s.objs[e.2]? with
    | none => rfl
    | some b =>
      have := hno (b.address, b.size) (mem_places.2 ⟨e, he, b, hb, rfl⟩)
      dsimp only at this ⊢
      rw [if_neg (by omega)]
  unfold gdbDelete
  rw [hf]

/-- And the other way round: the answer "No breakpoint" is given only when no breakpoint covers the address. -/
theorem C81_delete_false (h : BpHost) (x : Nat) (s s' : BpSt) (hr : gdbDelete h x s = (.ok false, s')) :
    s' = s ∧ ∀ q ∈ places s, x < q.1 ∨ q.1 + q.2 ≤ x := by
  unfold gdbDelete at hr
  cases hf : findBreakpoint s x with
  | none =>
    rw [hf] at hr
    injection hr with _ hr
    refine ⟨hr.symm, fun q hq => ?_⟩
    obtain ⟨e, he, b, hb, rfl⟩ := mem_places.1 hq
    exact findBreakpoint_none hf e he b hb
  | some id =>
    rw [hf] at hr
    obtain ⟨u, s1, h1, h2⟩ := Py.ok_of_bind hr
    simp only [Py.pure] at h2
    injection h2 with h2 _
    injection h2 with h2
    cases h2

example : gdbDelete exHost 106 toyBroken = (.ok false, toyBroken) :=
  C81_delete_none exHost 106 toyBroken (by
    have : places toyBroken = [(100, 5), (107, 1)] := by decide +kernel
    rw [this]; decide)

/-- The breakpoint `findBreakpoint` finds. -/
theorem findBreakpoint_some {s : BpSt} {x id : Nat} (hf : findBreakpoint s x = some id) :
    ∃ e ∈ s.dict, e.2 = id ∧ ∃ b, s.objs[id]? = some b ∧ b.address ≤ x ∧ x < b.address + b.size := by
  unfold findBreakpoint at hf
  obtain ⟨e, he, hc⟩ := List.exists_of_findSome?_eq_some hf
  unfold bpCovers at hc
  cases hb : s.objs[e.2]? with
  | none => rw [hb] at hc; cases hc
  | some b =>
    rw [hb] at hc
    dsimp only at hc
    split at hc
    · rename_i hx
      injection hc with hc
      subst hc
      exact ⟨e, he, rfl, b, hb, hx⟩
    · cases hc

theorem places_desinstall {h : BpHost} {orig : Nat → Byte} {s s' : BpSt} {id : Nat} {b : BpObj} {ip : Bool}
    (hinv : BpInv h orig s) (hb : s.objs[id]? = some b) (hi : b.installed = true)
    (hd : desinstall h id ip s = (.ok (), s')) (q : Nat × Nat) :
    q ∈ places s' ↔ q ∈ places s ∧ q.1 ≠ b.address := by
  rcases desinstall_cases h id ip s b hb hi hinv.running with ⟨e, m1, h2, _⟩ | ⟨e, m1, r1, h2, _⟩ | ⟨m1, r1, h2, _⟩
  · rw [h2] at hd; injection hd with hd _; cases hd
  · rw [h2] at hd; injection hd with hd _; cases hd
  · rw [h2] at hd; injection hd with _ hd; subst hd
    rw [mem_places, mem_places]
    dsimp only
    have hlt := (List.getElem?_eq_some_iff.1 hb).1
    constructor
    · rintro ⟨e, he, c, hc, rfl⟩
      obtain ⟨he1, he2⟩ := (mem_dictDel e).1 he
      obtain ⟨c0, hc0, hca, _⟩ := hinv.ents e he1
      rw [List.getElem?_set] at hc
      by_cases hid : id = e.2
      · subst hid
        rw [hb] at hc0; injection hc0 with hc0; subst hc0
        exact absurd hca.symm he2
      · rw [if_neg hid] at hc
        rw [hc] at hc0; injection hc0 with hc0; subst hc0
        exact ⟨⟨e, he1, c, hc, rfl⟩, by dsimp only; rw [hca]; exact he2⟩
    · rintro ⟨⟨e, he, c, hc, rfl⟩, hne⟩
      dsimp only at hne
      obtain ⟨c0, hc0, hca, _⟩ := hinv.ents e he
      rw [hc] at hc0; injection hc0 with hc0; subst hc0
      refine ⟨e, (mem_dictDel e).2 ⟨he, by rw [← hca]; exact hne⟩, c, ?_, rfl⟩
      rw [List.getElem?_set]
      by_cases hid : id = e.2
      · subst hid
        rw [hb] at hc; injection hc with hc; subst hc
        exact absurd rfl hne
      · rw [if_neg hid]; exact hc

/-- Without `set_ip` the registers are not touched, whatever happens. -/
theorem desinstall_regs (h : BpHost) (id : Nat) (s : BpSt) : (desinstall h id false s).2.r = s.r := by
  unfold desinstall
  cases hb : s.objs[id]? with
  | none => rfl
  | some b =>
    dsimp only
    by_cases hi : ¬ b.installed
    · rw [if_pos hi]
    · rw [if_neg hi]
      by_cases hr : s.running = true
      · simp only [Py.bind, onMem, hr, if_true]
        cases writeBytes h.kernel b.address b.oldBytes s.m with
        | mk res m1 => cases res <;> simp [Py.pure, removeBreakpoint, apply_ite Prod.snd, apply_ite BpSt.r]
      · simp [Py.bind, hr, Py.pure, removeBreakpoint, apply_ite Prod.snd, apply_ite BpSt.r]

/-- `delete ADDRESS` never touches the registers of the process. -/
theorem C81_delete_regs (h : BpHost) (x : Nat) (s : BpSt) : (gdbDelete h x s).2.r = s.r := by
  unfold gdbDelete
  cases findBreakpoint s x with
  | none => rfl
  | some id =>
    dsimp only
    have hr := desinstall_regs h id s
    unfold Py.bind
    cases hd : desinstall h id false s with
    | mk res s1 => rw [hd] at hr; cases res <;> exact hr

example : (gdbDelete exHost 103 toyBroken).1 = .ok true ∧ (gdbDelete exHost 103 toyBroken).2.r.count = toyBroken.r.count := by
  decide +kernel

/-- `delete ADDRESS` after any history of breakpoints, when it reports success: exactly one breakpoint is gone, it
covered the address, and memory is the original program with traps at the remaining ones. The
breakpoint must be an installed one: see `C81_refuted`. -/
theorem C81_delete_partial (h : BpHost) (s0 s s' : BpSt) (hd : s0.dict = []) (ho : s0.objs = [])
    (hr : s0.running = true) (hrun : BpRun h s0 s) (x : Nat)
    (hinst : ∀ e ∈ s.dict, ∀ b, s.objs[e.2]? = some b → b.installed = true)
    (hdel : gdbDelete h x s = (.ok true, s')) :
    (∃ p ∈ places s, p.1 ≤ x ∧ x < p.1 + p.2 ∧ ∀ q, q ∈ places s' ↔ q ∈ places s ∧ q.1 ≠ p.1) ∧
    Spec.Patched s0.m.mem (trapByte h) (places s') s'.m.mem := by
  have hinv := bpRun_inv h s0 s hd ho hr hrun
  unfold gdbDelete at hdel
  cases hf : findBreakpoint s x with
  | none => rw [hf] at hdel; injection hdel with hdel _; injection hdel with hdel; cases hdel
  | some id =>
    rw [hf] at hdel
    obtain ⟨u, s1, h1, h2⟩ := Py.ok_of_bind hdel
    simp only [Py.pure] at h2
    injection h2 with _ h2
    subst h2
    obtain ⟨e, he, hid, b, hb, hx1, hx2⟩ := findBreakpoint_some hf
    have hi := hinst e he b (by rw [hid]; exact hb)
    have hpl := places_desinstall hinv hb hi h1
    exact ⟨⟨(b.address, b.size), mem_places.2 ⟨e, he, b, by rw [hid]; exact hb, rfl⟩, hx1, hx2, hpl⟩, (inv_desinstall hinv h1).mem⟩

example : (gdbDelete exHost 103 toyBroken).1 = .ok true ∧ places (gdbDelete exHost 103 toyBroken).2 = [(107, 1)] ∧
    (gdbDelete exHost 103 toyBroken).2.m.mem 100 = 0xb8 := by decide +kernel

/-- A kernel that refuses to write after the first requests. -/
def flakyHost : BpHost := { exHost with kernel := { exKernel with pokeErr := fun log _ => if log.length < 4 then 0 else 5 } }

/-- `delete` may report success and do nothing: after a `delete` whose write failed the breakpoint stays listed
but counts as removed, so the next `delete` says "deleted" and leaves the trap in memory. -/
theorem C81_refuted :
    let s1 := (createBreakpoint flakyHost 105 none toyBp).2
    let s2 := (gdbDelete flakyHost 105 s1).2
    let s3 := (gdbDelete flakyHost 105 s2).2
    (createBreakpoint flakyHost 105 none toyBp).1 = .ok 0 ∧
    (gdbDelete flakyHost 105 s1).1 = .error (.ptrace (some 5)) ∧
    (gdbDelete flakyHost 105 s2).1 = .ok true ∧ places s3 = [(105, 1)] ∧ s3.m.mem 105 = 0xcc := by
  decide +kernel

theorem key_unique {l : List (Nat × Nat)} (h : (l.map Prod.fst).Nodup) {k i j : Nat} (hi : (k, i) ∈ l) (hj : (k, j) ∈ l) :
    i = j := by
  induction l with
  | nil => simp at hi
  | cons e l ih =>
    simp only [List.map_cons, List.nodup_cons, List.mem_map, not_exists, not_and] at h
    rcases List.mem_cons.1 hi with h1 | h1 <;> rcases List.mem_cons.1 hj with h2 | h2
    · rw [← h1] at h2; injection h2 with _ h2; exact h2.symm
    · exact absurd (by rw [← h1]) (h.1 _ h2)
    · exact absurd (by rw [← h2]) (h.1 _ h1)
    · exact ih h.2 h1 h2

/-! ## C82 — a hit breakpoint -/

/-- A stop behind the first trap byte of a listed breakpoint, handled. -/
theorem gdbTrap_hit {h : BpHost} {orig : Nat → Byte} {s s' : BpSt} (hinv : BpInv h orig s) {name : String}
    (hn : h.table.instrPointer = some name) (hsub : h.table.subs.lookup name = none) {id : Nat} {b : BpObj}
    (hb : s.objs[id]? = some b) (hi : b.installed = true) {r' : RegSt}
    (hip : getInstrPointer h.table h.regKernel s.r = (.ok (if h.powerpc then b.address else b.address + 1), r'))
    (hsame : r'.regs = s.r.regs) {v : Bool} (ht : gdbTrap h s = (.ok v, s')) :
    desinstall h id true { s with r := r' } = (.ok (), s') ∧
    v = true ∧ (s'.r.regs name : Int) = b.address % 2 ^ h.table.width name ∧
    (∀ m, m ≠ name → s'.r.regs m = s.r.regs m) ∧
    (∀ q, q ∈ places s' ↔ q ∈ places s ∧ q.1 ≠ b.address) ∧
    Spec.Patched orig (trapByte h) (places s') s'.m.mem ∧
    ∀ j, j < b.size → s'.m.mem (b.address + j) = orig (b.address + j) := by
  have hinv' : BpInv h orig { s with r := r' } := ⟨hinv.running, hinv.ents, hinv.keys, hinv.disj, hinv.inst, hinv.mem⟩
  have hin := hinv.inst id b hb hi
  obtain ⟨b0, hb0, _, hpos, _⟩ := hinv.ents _ hin
  dsimp only at hb0
  rw [hb] at hb0; injection hb0 with hb0; subst hb0
  have hf : findBreakpoint { s with r := r' } b.address = some id := by
    cases hf : findBreakpoint { s with r := r' } b.address with
    | none =>
      have := findBreakpoint_none hf _ hin b hb
      omega
    | some i =>
      obtain ⟨e, he, hei, c, hc, hc1, hc2⟩ := findBreakpoint_some hf
      dsimp only at he hc
      by_cases hk : e.1 = b.address
      · have hnd := hinv.keys
        obtain ⟨c0, hc0, _⟩ := hinv.ents e he
        have he' : (b.address, e.2) ∈ s.dict := by rw [← hk]; exact he
        have heq : e.2 = id := by
          exact key_unique hnd he' hin
        rw [← hei, heq]
      · exfalso
        obtain ⟨c0, hc0, hca, _⟩ := hinv.ents e he
        rw [hei] at hc0
        rw [hc] at hc0; injection hc0 with hc0; subst hc0
        rcases hinv.disj e he _ hin hk c b (by rw [hei]; exact hc) hb with h1 | h1 <;> omega
  unfold gdbTrap at ht
  rw [Py.run_bind_ok (onRegs_ok hip)] at ht
  have ht2 : Py.bind (desinstall h id true) (fun _ => Py.pure true) { s with r := r' } = (.ok v, s') := by
    by_cases hp : h.powerpc = true
    · simp only [hp, if_true, hf] at ht
      exact ht
    · simp only [hp, Bool.false_eq_true, if_false, Nat.add_eq_zero_iff, one_ne_zero, and_false, Nat.add_sub_cancel, hf] at ht
      exact ht
  obtain ⟨u, s1, h1, h2⟩ := Py.ok_of_bind ht2
  simp only [Py.pure] at h2
  injection h2 with h2 h3
  injection h2 with h2
  subst h3
  have hset := C21_set_ip h id { s with r := r' } s1 b name hn hsub hb hi hinv.running h1
  have hpl := places_desinstall hinv' hb hi h1
  have hmem := (inv_desinstall hinv' h1).mem
  refine ⟨h1, h2.symm, hset.1, ?_, hpl, hmem, ?_⟩
  · intro m hm
    rw [hset.2.1 m hm]
    exact congrFun hsame m
  · intro j hj
    apply hmem.2
    intro q hq
    obtain ⟨hq1, hq2⟩ := (hpl q).1 hq
    obtain ⟨e, he, c, hc, rfl⟩ := mem_places.1 hq1
    obtain ⟨c0, hc0, hca, _⟩ := hinv.ents e he
    dsimp only at hc hq2
    rw [hc] at hc0; injection hc0 with hc0; subst hc0
    have := hinv.disj e he _ hin (by dsimp only; rw [← hca]; exact hq2) c b hc hb
    dsimp only
    omega

/-- After any history of breakpoints, when the process stops with SIGTRAP right behind the first trap byte of
a breakpoint (at it on PowerPC) and the stop is handled, then the breakpoint is gone, the instruction
pointer is at its address, the other registers are unchanged, and memory is the original program with traps
at the remaining breakpoints: the original instruction is executed next. -/
theorem C82_partial (h : BpHost) (s0 s s' : BpSt) (hd : s0.dict = []) (ho : s0.objs = [])
    (hr : s0.running = true) (hrun : BpRun h s0 s) (name : String) (hn : h.table.instrPointer = some name)
    (hsub : h.table.subs.lookup name = none) (id : Nat) (b : BpObj) (hb : s.objs[id]? = some b)
    (hi : b.installed = true) (r' : RegSt)
    (hip : getInstrPointer h.table h.regKernel s.r = (.ok (if h.powerpc then b.address else b.address + 1), r'))
    (hsame : r'.regs = s.r.regs) (v : Bool) (ht : gdbTrap h s = (.ok v, s')) :
    v = true ∧ (s'.r.regs name : Int) = b.address % 2 ^ h.table.width name ∧
    (∀ m, m ≠ name → s'.r.regs m = s.r.regs m) ∧
    (∀ q, q ∈ places s' ↔ q ∈ places s ∧ q.1 ≠ b.address) ∧
    Spec.Patched s0.m.mem (trapByte h) (places s') s'.m.mem ∧
    ∀ j, j < b.size → s'.m.mem (b.address + j) = s0.m.mem (b.address + j) := by
  exact (gdbTrap_hit (bpRun_inv h s0 s hd ho hr hrun) hn hsub hb hi hip hsame ht).2

/-- The example process, stopped behind the trap at 107. -/
def toyHit : BpSt := { toyBroken with r := { regs := fun n => if n = "rip" then 108 else 7 } }

example : let r := gdbTrap exHost toyHit
    r.1 = .ok true ∧ r.2.r.regs "rip" = 107 ∧ r.2.r.regs "rax" = 7 ∧ places r.2 = [(100, 5)] ∧ r.2.m.mem 107 = 0x90 := by
  decide +kernel

/-- A SIGTRAP that is not behind a trap byte changes nothing. -/
theorem C82_other_trap (h : BpHost) (s s' : BpSt) (v : Bool) (ip : Nat) (r' : RegSt) (hp : h.powerpc = false)
    (hip : getInstrPointer h.table h.regKernel s.r = (.ok ip, r')) (hsame : r'.regs = s.r.regs)
    (hno : ∀ q ∈ places s, ip < q.1 + 1 ∨ q.1 + q.2 < ip) (ht : gdbTrap h s = (.ok v, s')) :
    v = false ∧ s'.m = s.m ∧ s'.r.regs = s.r.regs ∧ s'.dict = s.dict := by
  unfold gdbTrap at ht
  rw [Py.run_bind_ok (onRegs_ok hip)] at ht
  simp only [hp, Bool.false_eq_true, if_false] at ht
  by_cases h0 : ip = 0
  · simp only [h0, if_true] at ht
    injection ht with h1 h2
    injection h1 with h1
    subst h2
    exact ⟨h1.symm, rfl, hsame, rfl⟩
  · simp only [h0, if_false] at ht
    have hf : findBreakpoint { s with r := r' } (ip - 1) = none := by
      unfold findBreakpoint
      rw [List.findSome?_eq_none_iff]
      intro e he
      unfold bpCovers
      cases hb : s.objs[e.2]? with
      | none => rfl
      | some b =>
        have := hno (b.address, b.size) (mem_places.2 ⟨e, he, b, hb, rfl⟩)
        dsimp only at this ⊢
        rw [if_neg (by omega)]
    rw [hf] at ht
    injection ht with h1 h2
    injection h1 with h1
    subst h2
    exact ⟨h1.symm, rfl, hsame, rfl⟩

example : (gdbTrap exHost { toyHit with r := { regs := fun _ => 106 } }).1 = .ok false := by decide +kernel

/-- When execution enters a breakpoint's instruction behind its first byte (glibc jumps over `lock` prefixes) the
trap byte it meets is in the middle; the handler then goes back to the beginning of the breakpoint, not to the
trap byte: a different instruction is executed next. Here the trap at 102 was hit (ip 103), and the process
continues at 100. -/
theorem C82_middle_refuted :
    ¬ ∀ (h : BpHost) (s s' : BpSt), h.powerpc = false → h.table.instrPointer = some "rip" →
      s.m.mem (s.r.regs "rip" - 1) = 0xcc → gdbTrap h s = (.ok true, s') →
      s'.r.regs "rip" = s.r.regs "rip" - 1 := by
  intro H
  have := H exHost { toyBroken with r := { regs := fun _ => 103 } } _ rfl rfl (by decide +kernel)
    (Prod.ext (show (gdbTrap exHost { toyBroken with r := { regs := fun _ => 103 } }).1 = .ok true by decide +kernel) rfl)
  revert this
  decide +kernel

/-- A SIGTRAP of another cause (for example sent with kill) while the process is right behind the first byte of
a breakpoint is taken for a hit: the breakpoint is removed and the process goes back one byte. The process never
executed a trap: the byte before its instruction pointer was jumped over. -/
theorem C82_sent_refuted :
    let r := gdbTrap exHost { toyBroken with r := { regs := fun _ => 101 } }
    r.1 = .ok true ∧ r.2.r.regs "rip" = 100 ∧ places r.2 = [(107, 1)] := by decide +kernel

/-- With several processes the handler looks at the current process and not at the one that stopped: process 1
hits its breakpoint at 107 and stays behind the trap byte, with the trap in memory. -/
theorem C82_process_refuted :
    ¬ ∀ (h : BpHost) (ps ps' : Nat → BpSt) (cur sig : Nat) (v : Bool), h.powerpc = false →
      h.table.instrPointer = some "rip" →
      (∃ q ∈ places (ps sig), (ps sig).r.regs "rip" = q.1 + 1) → gdbTrapOf h cur sig ps = (.ok v, ps') →
      (ps' sig).r.regs "rip" = (ps sig).r.regs "rip" - 1 := by
  intro H
  have := H exHost (fun i => if i = 1 then toyHit else toyBp) _ 0 1 false rfl rfl ⟨(107, 1), by decide +kernel, by decide +kernel⟩
    (Prod.ext (by decide +kernel) rfl)
  revert this
  decide +kernel

/-! ## C83 — stepping over an instruction -/

/-- What the tracee does between `cont` and the stop leaves the debugger's list of breakpoints alone. -/
structure Runs (f : Py BpSt Unit) : Prop where
  dict : ∀ s, (f s).2.dict = s.dict
  objs : ∀ s, (f s).2.objs = s.objs

/-- `step` and `until`, when they succeed: the program ran with a trap at the address; afterwards memory is what the
program left, with the code under the trap as it was before, the instruction pointer is at the breakpoint's address, and the breakpoint is not
listed any more. Missing: that the process stopped because of this breakpoint (`C83_refuted`). -/
theorem C83_partial (E : Option Disassembler) (h : BpHost) (hk : CompleteReplies h.kernel) (cont run : Py BpSt Unit)
    (hcont : Runs cont) (hrun : Runs run) (halive : ∀ s s', run s = (.ok (), s') → s'.running = true)
    (name : String) (hn : h.table.instrPointer = some name) (hsub : h.table.subs.lookup name = none)
    (a : Nat) (s s' : BpSt) (hr : stepTo E h cont run a s = (.ok true, s')) :
    ∃ k u s1 s2, Spec.Patched s.m.mem (trapByte h) [(a, k)] u.m.mem ∧ cont u = (.ok (), s1) ∧ run s1 = (.ok (), s2) ∧
      (s'.r.regs name : Int) = a % 2 ^ h.table.width name ∧
      (∀ m, m ≠ name → s'.r.regs m = s2.r.regs m) ∧ (∀ e ∈ s'.dict, e.1 ≠ a) ∧
      (∀ x, a ≤ x → x < a + k → s'.m.mem x = s.m.mem x) ∧
      ∀ x, x < a ∨ a + k ≤ x → s'.m.mem x = s2.m.mem x := by
  unfold stepTo at hr
  obtain ⟨size, u, h1, h2⟩ := Py.ok_of_bind hr
  have hs := readInstrSize_same E h a s
  rw [h1] at hs
  obtain ⟨id, u1, h3, h4⟩ := Py.ok_of_bind h2
  obtain ⟨x, u2, h5, h6⟩ := Py.ok_of_bind h4
  cases hrr : run u2 with
  | mk res u3 =>
    have hfin : ∃ s'', run u2 = (.ok (), u3) ∧ desinstall h id true u3 = (.ok (), s'') ∧ s'' = s' := by
      unfold Py.tryCatch at h6
      cases res with
      | error e =>
        rw [Py.run_bind_error hrr] at h6
        simp only [] at h6
        obtain ⟨_, _, _, h7⟩ := Py.ok_of_bind h6
        cases h7
      | ok w =>
        rw [Py.run_bind_ok hrr] at h6
        cases hdd : desinstall h id true u3 with
        | mk res2 u4 =>
          cases res2 with
          | error e =>
            rw [Py.run_bind_error hdd] at h6
            simp only [] at h6
            obtain ⟨_, _, _, h7⟩ := Py.ok_of_bind h6
            cases h7
          | ok w2 =>
            rw [Py.run_bind_ok hdd] at h6
            simp only [Py.pure] at h6
            injection h6 with _ h6
            exact ⟨u4, hrr, rfl, h6⟩
    obtain ⟨s'', h7, h8, rfl⟩ := hfin
    rcases createBreakpoint_cases h a size u with ⟨e, m', h9, _⟩ | ⟨m', old, h9, hfind, hlen, hold, _, hm, hrd⟩
    · rw [h9] at h3; injection h3 with h3 _; cases h3
    · rw [h9] at h3; injection h3 with hid hu1; injection hid with hid; subst hid
      have hobj : u3.objs[u.objs.length]? = some ⟨a, bpSize h size, old, true⟩ := by
        have e1 : u3.objs = u2.objs := by have := hrun.objs u2; rw [h7] at this; exact this
        have e2 : u2.objs = u1.objs := by have := hcont.objs u1; rw [h5] at this; exact this
        rw [e1, e2, ← hu1]
        simp
      have hal := halive u2 u3 h7
      have hset := C21_set_ip h u.objs.length u3 s'' _ name hn hsub hobj rfl hal h8
      have hfull := C10_partial h.kernel a _ u.m old (Or.inl hk) hrd
      rcases desinstall_cases h u.objs.length true u3 _ hobj rfl hal with ⟨e, m1, h2', _⟩ | ⟨e, m1, r1, h2', _⟩ | ⟨m1, r1, h2', hmm, _⟩
      · rw [h2'] at h8; injection h8 with h8 _; cases h8
      · rw [h2'] at h8; injection h8 with h8 _; cases h8
      · rw [h2'] at h8; injection h8 with _ h8
        have hmem : s''.m.mem = storeBytes u3.m.mem a old := by rw [← h8]; exact hmm
        have hinst := (C19_install h a size u _ _ h9).1
        rw [hu1, hs.mem] at hinst
        refine ⟨bpSize h size, u1, u2, u3, hinst, h5, h7, hset.1, hset.2.1, hset.2.2, ?_, ?_⟩
        · intro y hy1 hy2
          have hy : y = a + (y - a) := by omega
          have hl : y - a < old.length := by omega
          rw [hmem, hy, storeBytes_in _ _ _ _ hl, List.getElem_of_eq hold, bytesAt_getElem, hs.mem]
        · intro y hy
          rw [hmem, storeBytes_out _ _ _ _ (by rw [hfull]; exact hy)]

/-- `step` puts the breakpoint right behind the instruction at the instruction pointer. -/
theorem C83_target_partial (E : Disassembler) (hE : E.bytesHex = false) (h : BpHost) (hk : CompleteReplies h.kernel)
    (s s' : BpSt) (ip n : Nat) (t : Str) (r' : RegSt) (a : Option Nat)
    (hip : getInstrPointer h.table h.regKernel s.r = (.ok ip, r'))
    (hi : Spec.IsInstr E.one s.m.mem ip n t) (hn : n ≤ E.maxSize)
    (hr : stepTarget (some E) h s = (.ok a, s')) : a = some (ip + n) ∨ a = none := by
  unfold stepTarget at hr
  rw [Py.run_bind_ok (onRegs_ok hip)] at hr
  obtain ⟨size, u, h1, h2⟩ := Py.ok_of_bind hr
  obtain ⟨_, h3⟩ := readInstrSize_run hE hk (s := { s with r := r' }) hi hn h1
  have hpos := hi.1
  rcases h3 with rfl | rfl
  · cases n with
    | zero => omega
    | succ n => injection h2 with h2 _; injection h2 with h2; exact Or.inl h2.symm
  · injection h2 with h2 _; injection h2 with h2; exact Or.inr h2.symm

/-- A run of the example process: the `mov` at 100 is executed and the trap at 105 is hit. -/
def toyRun : Py BpSt Unit := fun s => (.ok (), { s with r := { s.r with regs := fun n => if n = "rip" then 106 else 3 }, running := true })
/-- The example process at the `mov`. -/
def toyStart : BpSt := { toyBp with r := { regs := fun _ => 100 } }

example := C83_partial (some toyE) exHost exKernel_complete (Py.pure ()) toyRun ⟨fun _ => rfl, fun _ => rfl⟩ ⟨fun _ => rfl, fun _ => rfl⟩
  (fun s s' h => by cases h; rfl) "rip" rfl (by decide +kernel) 105 toyStart _ (Prod.ext (by decide +kernel) rfl)

example : let r := gdbStepOver (some toyE) exHost (Py.pure ()) toyRun toyStart
    r.1 = .ok true ∧ r.2.r.regs "rip" = 105 ∧ r.2.r.regs "rax" = 3 ∧ r.2.m.mem 105 = 0x90 ∧ places r.2 = [] := by
  decide +kernel
example : Runs toyRun ∧ Runs (Py.pure ()) := ⟨⟨fun _ => rfl, fun _ => rfl⟩, ⟨fun _ => rfl, fun _ => rfl⟩⟩

/-- `step` succeeds only when the process was continued and stopped again; when it gives up, it has touched neither the memory nor the
breakpoints; and without a disassembler it always gives up. -/
theorem C83_outcome (E : Option Disassembler) (h : BpHost) (cont run : Py BpSt Unit) (s s' : BpSt) :
    (gdbStepOver E h cont run s = (.ok true, s') → ∃ u s1 s2, cont u = (.ok (), s1) ∧ run s1 = (.ok (), s2)) ∧
    (gdbStepOver E h cont run s = (.ok false, s') → s'.m.mem = s.m.mem ∧ s'.dict = s.dict) ∧
    (gdbStepOver none h cont run s ≠ (.ok true, s')) := by
  have hto : ∀ E a t b t', stepTo E h cont run a t = (.ok b, t') → b = true ∧ ∃ u s1 s2, cont u = (.ok (), s1) ∧ run s1 = (.ok (), s2) := by
    intro E a t b t' hr
    unfold stepTo at hr
    obtain ⟨size, u, _, h2⟩ := Py.ok_of_bind hr
    obtain ⟨id, u1, _, h4⟩ := Py.ok_of_bind h2
    obtain ⟨⟨⟩, u2, h5, h6⟩ := Py.ok_of_bind h4
    unfold Py.tryCatch at h6
    cases hx : (Py.bind run fun _ => Py.bind (desinstall h id true) fun _ => Py.pure true) u2 with
    | mk r u3 =>
      rw [hx] at h6
      cases r with
      | ok c =>
        obtain ⟨⟨⟩, u4, h7, h8⟩ := Py.ok_of_bind hx
        obtain ⟨_, u5, _, h9⟩ := Py.ok_of_bind h8
        injection h6 with h6 _
        injection h6 with h6
        injection h9 with h9 _
        injection h9 with h9
        exact ⟨by rw [← h6, ← h9], u1, u2, u4, h5, h7⟩
      | error e =>
        obtain ⟨_, u5, _, h9⟩ := Py.ok_of_bind h6
        injection h9 with h9 _
        cases h9
  refine ⟨fun hr => ?_, fun hr => ?_, fun hr => ?_⟩
  · obtain ⟨a, u, _, h2⟩ := Py.ok_of_bind hr
    cases a with
    | none => injection h2 with h2 _; injection h2 with h2; cases h2
    | some a => exact (hto E a u true s' h2).2
  · obtain ⟨a, u, h1, h2⟩ := Py.ok_of_bind hr
    cases a with
    | some a => exact absurd (hto E a u false s' h2).1 (by decide)
    | none =>
      injection h2 with _ h2
      subst h2
      unfold stepTarget at h1
      obtain ⟨ip, v, h3, h4⟩ := Py.ok_of_bind h1
      obtain ⟨size, w, h5, h6⟩ := Py.ok_of_bind h4
      have hs := readInstrSize_same E h ip v
      rw [h5] at hs
      have hw : w = u := by
        cases size with
        | none => injection h6
        | some n => cases n <;> injection h6
      subst hw
      have hv : v.m = s.m ∧ v.dict = s.dict := by
        unfold onRegs at h3
        split at h3
        injection h3 with _ h3
        subst h3
        exact ⟨rfl, rfl⟩
      exact ⟨by rw [hs.mem, hv.1], by rw [hs.dict, hv.2]⟩
  · obtain ⟨a, u, h1, h2⟩ := Py.ok_of_bind hr
    unfold stepTarget at h1
    obtain ⟨ip, v, _, h4⟩ := Py.ok_of_bind h1
    injection h4 with h4 _
    injection h4 with h4
    subst h4
    injection h2 with h2 _
    injection h2 with h2
    cases h2

-- the step over the `mov`, and the same without disassembler
example : (gdbStepOver (some toyE) exHost (Py.pure ()) toyRun toyStart).1 = .ok true ∧
    (gdbStepOver none exHost (Py.pure ()) toyRun toyStart).1 = .ok false := by decide +kernel

/-- After an exception while waiting (another signal, an exit, Control-C) the temporary breakpoint is removed
too, when the process can still be written, and the exception is passed on. -/
theorem C83_exception (E : Option Disassembler) (h : BpHost) (hk : CompleteReplies h.kernel) (cont run : Py BpSt Unit)
    (a : Nat) (s u u1 u2 u3 : BpSt) (size : Option Nat) (id : Nat) (e : Exc)
    (h1 : readInstrSize E h a s = (.ok size, u)) (h2 : createBreakpoint h a size u = (.ok id, u1))
    (h3 : cont u1 = (.ok (), u2)) (h4 : run u2 = (.error e, u3)) (h5 : u3.objs = u1.objs) (h6 : u3.running = true)
    (hw : (desinstall h id false u3).1 = .ok ()) :
    (stepTo E h cont run a s).1 = .error e ∧
    (∀ x, (stepTo E h cont run a s).2.m.mem x =
      if a ≤ x ∧ x < a + bpSize h size then s.m.mem x else u3.m.mem x) ∧
    ∀ y ∈ (stepTo E h cont run a s).2.dict, y.1 ≠ a := by
  have hs := readInstrSize_same E h a s
  rw [h1] at hs
  rcases createBreakpoint_cases h a size u with ⟨e', m', h9, _⟩ | ⟨m', old, h9, hfind, hlen, hold, _, hm, hrd⟩
  · rw [h9] at h2; injection h2 with h2 _; cases h2
  · rw [h9] at h2; injection h2 with hid hu1; injection hid with hid; subst hid
    have hobj : u3.objs[u.objs.length]? = some ⟨a, bpSize h size, old, true⟩ := by
      rw [h5, ← hu1]
      simp
    have hfull := C10_partial h.kernel a _ u.m old (Or.inl hk) hrd
    have hstep : stepTo E h cont run a s = (.error e, (desinstall h u.objs.length false u3).2) := by
      unfold stepTo
      rw [Py.run_bind_ok h1, Py.run_bind_ok h9, hu1, Py.run_bind_ok h3]
      unfold Py.tryCatch
      rw [Py.run_bind_error h4]
      simp only []
      have : desinstall h u.objs.length false u3 = (.ok (), (desinstall h u.objs.length false u3).2) := Prod.ext hw rfl
      rw [Py.run_bind_ok this]
      rfl
    rw [hstep]
    rcases desinstall_cases h u.objs.length false u3 _ hobj rfl h6 with ⟨e', m1, h2', _⟩ | ⟨e', m1, r1, h2', _⟩ | ⟨m1, r1, h2', hmm, _⟩
    · rw [h2'] at hw; cases hw
    · rw [h2'] at hw; cases hw
    · rw [h2']
      refine ⟨rfl, ?_, fun y hy => ((mem_dictDel y).1 hy).2⟩
      intro y
      dsimp only at hmm ⊢
      by_cases hy : a ≤ y ∧ y < a + bpSize h size
      · rw [if_pos hy]
        have hy' : y = a + (y - a) := by omega
        have hl : y - a < old.length := by omega
        rw [hmm, hy', storeBytes_in _ _ _ _ hl, List.getElem_of_eq hold, bytesAt_getElem, hs.mem]
      · rw [if_neg hy, hmm, storeBytes_out _ _ _ _ (by rw [hfull]; omega)]

example : let r := stepTo (some toyE) exHost (Py.pure ()) (Py.raise .interrupt) 105 toyStart
    r.1 = .error .interrupt ∧ r.2.m.mem 105 = 0x90 ∧ places r.2 = [] := by decide +kernel

/-- The instruction pointer is moved even when the process stopped elsewhere: `step` waits for any SIGTRAP of the
process. Here the stepped instruction is a call whose function has a breakpoint at 300; the process stops at
301, and `step` sets the instruction pointer to 105: the call is skipped half way. -/
theorem C83_refuted :
    ¬ ∀ (E : Option Disassembler) (h : BpHost) (cont run : Py BpSt Unit) (s s1 s2 s' : BpSt),
      h.powerpc = false → h.table.instrPointer = some "rip" → Runs cont → Runs run →
      gdbStepOver E h cont run s = (.ok true, s') → run s1 = (.ok (), s2) →
      (∀ t, run t = (.ok (), { t with r := s2.r })) →
      s'.r.regs "rip" = s2.r.regs "rip" ∨ s'.r.regs "rip" + 1 = s2.r.regs "rip" := by
  intro H
  have := H (some toyE) exHost (Py.pure ()) (fun s => (.ok (), { s with r := { regs := fun _ => 301 } })) toyStart toyStart
    { toyStart with r := { regs := fun _ => 301 } } _ rfl rfl ⟨fun _ => rfl, fun _ => rfl⟩ ⟨fun _ => rfl, fun _ => rfl⟩
    (Prod.ext (show (gdbStepOver (some toyE) exHost (Py.pure ())
      (fun s => (.ok (), { s with r := { regs := fun _ => 301 } })) toyStart).1 = .ok true by decide +kernel) rfl)
    rfl (fun _ => rfl)
  revert this
  decide +kernel

/-- When `cont` itself fails the temporary breakpoint stays: the request is outside the `try`. -/
theorem C83_cont_refuted :
    let r := gdbStepOver (some toyE) exHost (Py.raise (.ptrace (some 3))) toyRun toyStart
    r.1 = .error (.ptrace (some 3)) ∧ places r.2 = [(105, 1)] ∧ r.2.m.mem 105 = 0xcc := by decide +kernel

end PT
