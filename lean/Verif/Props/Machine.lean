import Verif.Props.GdbBreak
import Verif.Spec.Machine

/-! Property theorem C114: breakpoints do not change what a program computes. -/

namespace PT
open Props Spec

/-! ### Runs of the program -/

theorem after_add (M : Machine) (n k : Nat) (p : Prog) : M.after (n + k) p = M.after k (M.after n p) := by
  induction n generalizing p with
  | zero => simp [Machine.after]
  | succ n ih => rw [Nat.succ_add]; exact ih _

/-- One instruction that avoids the patched places. -/
theorem patched_step {M : Machine} (hM : M.Local) {trap : Nat → Byte} {places : List (Nat × Nat)} {orig m : Nat → Byte}
    {r : String → Nat} (hp : Patched orig trap places m) (ha : M.Avoids places m r) :
    Patched (M.step orig r).1 trap places (M.step m r).1 ∧ (M.step orig r).2 = (M.step m r).2 ∧
    (∀ x, M.uses orig r x ↔ M.uses m r x) ∧ ∀ p ∈ places, ∀ i, i < p.2 → (M.step orig r).1 (p.1 + i) = orig (p.1 + i) := by
  have hout : ∀ x, M.uses m r x → ∀ p ∈ places, x < p.1 ∨ p.1 + p.2 ≤ x := by
    intro x hx p hp
    by_cases h : x < p.1 ∨ p.1 + p.2 ≤ x
    · exact h
    · exfalso
      refine ha p hp (x - p.1) (by omega) ?_
      have : p.1 + (x - p.1) = x := by omega
      rw [this]; exact hx
  obtain ⟨hu, hr, hs⟩ := hM m orig r fun x hx => (hp.2 x (hout x hx)).symm
  refine ⟨⟨?_, ?_⟩, hr, hu, ?_⟩
  · intro p hpp i hi
    rw [((hs _).2 (ha p hpp i hi)).1]
    exact hp.1 p hpp i hi
  · intro x hx
    by_cases h : M.uses m r x
    · exact ((hs x).1 h).symm
    · rw [((hs x).2 h).1, ((hs x).2 h).2]
      exact hp.2 x hx
  · intro p hpp i hi
    exact ((hs _).2 (ha p hpp i hi)).2

/-- A run to a trap goes along with the run of the unpatched program. -/
theorem stops_after {M : Machine} (hM : M.Local) {pc : String} {w : Nat} (hw : M.Wide pc w) {trap : Byte} {places : List (Nat × Nat)}
    {m m' : Nat → Byte} {r r' : String → Nat} (hs : M.Stops pc trap places m r m' r') :
    ∀ {orig : Nat → Byte}, Patched orig (fun _ => trap) places m → r pc < 2 ^ w →
    ∃ n, Patched (M.after n (orig, r)).1 (fun _ => trap) places m' ∧ (M.after n (orig, r)).2 pc < 2 ^ w ∧
      r' = (fun k => if k = pc then (M.after n (orig, r)).2 pc + 1 else (M.after n (orig, r)).2 k) ∧
      ∀ p ∈ places, ∀ i, i < p.2 → (M.after n (orig, r)).1 (p.1 + i) = orig (p.1 + i) := by
  induction hs with
  | trap h => intro orig hp hr; exact ⟨0, hp, hr, rfl, fun _ _ _ _ => rfl⟩
  | @go m m' r r' h ha hs ih =>
    intro orig hp hr
    obtain ⟨h1, h2, _, h3⟩ := patched_step hM hp ha
    obtain ⟨n, g1, g2, g3, g4⟩ := ih h1 (hw m r hr)
    refine ⟨n + 1, ?_⟩
    have he : M.after (n + 1) (orig, r) = M.after n ((M.step orig r).1, (M.step m r).2) := by
      rw [← h2]; rfl
    rw [he]
    exact ⟨g1, g2, g3, fun p hpp i hi => (g4 p hpp i hi).trans (h3 p hpp i hi)⟩

/-- The converse: where the unpatched program comes to a patched place, the patched one stops. -/
theorem after_stops {M : Machine} (hM : M.Local) {pc : String} {trap : Byte} {places : List (Nat × Nat)} (n : Nat) :
    ∀ {orig m : Nat → Byte} {r : String → Nat}, Patched orig (fun _ => trap) places m →
    (∀ k, k < n → M.Avoids places (M.after k (orig, r)).1 (M.after k (orig, r)).2 ∧
      M.uses (M.after k (orig, r)).1 (M.after k (orig, r)).2 ((M.after k (orig, r)).2 pc) ∧
      (M.after k (orig, r)).1 ((M.after k (orig, r)).2 pc) ≠ trap) →
    (∃ p ∈ places, 0 < p.2 ∧ (M.after n (orig, r)).2 pc = p.1) →
    ∃ m', M.Stops pc trap places m r m'
      (fun k => if k = pc then (M.after n (orig, r)).2 pc + 1 else (M.after n (orig, r)).2 k) := by
  induction n with
  | zero =>
    intro orig m r hp _ hn
    obtain ⟨p, hpp, hpos, he⟩ := hn
    refine ⟨m, .trap ?_⟩
    have he : r pc = p.1 := he
    rw [he]
    exact hp.1 p hpp 0 hpos
  | succ n ih =>
    intro orig m r hp hk hn
    obtain ⟨ha, hu, hb⟩ := hk 0 (by omega)
    change M.Avoids places orig r at ha
    change M.uses orig r (r pc) at hu
    change orig (r pc) ≠ trap at hb
    have hout : ∀ x, M.uses orig r x → m x = orig x := by
      intro x hx
      refine hp.2 x fun p hpp => ?_
      by_cases h : x < p.1 ∨ p.1 + p.2 ≤ x
      · exact h
      · exfalso
        refine ha p hpp (x - p.1) (by omega) ?_
        have : p.1 + (x - p.1) = x := by omega
        rw [this]; exact hx
    have ha' : M.Avoids places m r := fun p hpp i hi h => ha p hpp i hi (((hM orig m r hout).1 _).1 h)
    obtain ⟨h1, h2, _, _⟩ := patched_step hM hp ha'
    have he : ∀ k, M.after (k + 1) (orig, r) = M.after k ((M.step orig r).1, (M.step m r).2) := by
      intro k; rw [← h2]; rfl
    obtain ⟨m', hs⟩ := ih h1 (fun k hk' => by rw [← he]; exact hk (k + 1) (by omega)) (by rw [← he]; exact hn)
    refine ⟨m', .go (by rw [hout _ hu]; exact hb) ha' ?_⟩
    rw [he]
    exact hs

/-! ### Sessions -/

/-- Breakpoints on the list are installed. -/
def AllInstalled (s : BpSt) : Prop := ∀ e ∈ s.dict, ∀ b, s.objs[e.2]? = some b → b.installed = true

/-- The breakpoint that `break` or `step` would set at `a` is apart from the listed ones. -/
def Apart (E : Option Disassembler) (h : BpHost) (a : Nat) (s : BpSt) : Prop :=
  ∀ size u, readInstrSize E h a s = (.ok size, u) → ∀ p ∈ places s, a + bpSize h size ≤ p.1 ∨ p.1 + p.2 ≤ a

/-- The tracee runs from `s` to a stop in `t`: the debugger does nothing meanwhile. -/
structure RunsTo (M : Machine) (pc : String) (s t : BpSt) : Prop where
  stops : M.Stops pc 0xCC (places s) s.m.mem s.r.regs t.m.mem t.r.regs
  dict : t.dict = s.dict
  objs : t.objs = s.objs
  running : t.running = true

/-- Sessions with one process: `break`, `delete`, `cont` to a breakpoint, `step` and `until` that end at their own breakpoint, `stepi` where no breakpoint
is, and anything that only looks. -/
inductive Session (M : Machine) (E : Option Disassembler) (h : BpHost) (pc : String) (s0 : BpSt) : BpSt → Prop
  | start : Session M E h pc s0 s0
  | brk {s s' : BpSt} (a : Nat) : Session M E h pc s0 s → gdbBreak E h a s = (.ok true, s') → Apart E h a s → Session M E h pc s0 s'
  | del {s s' : BpSt} (a : Nat) (v : Bool) : Session M E h pc s0 s → gdbDelete h a s = (.ok v, s') → Session M E h pc s0 s'
  | look {s s' : BpSt} : Session M E h pc s0 s → s'.m.mem = s.m.mem → s'.r.regs = s.r.regs → s'.dict = s.dict → s'.objs = s.objs →
      s'.running = s.running → Session M E h pc s0 s'
  | cont {s t s' : BpSt} {p : Nat × Nat} {v : Bool} : Session M E h pc s0 s → RunsTo M pc s t → p ∈ places s → t.r.regs pc = p.1 + 1 →
      gdbTrap h t = (.ok v, s') → Session M E h pc s0 s'
  | step {s s' : BpSt} {run : Py BpSt Unit} (a : Nat) : Session M E h pc s0 s → Apart E h a s →
      (∀ u t, run u = (.ok (), t) → RunsTo M pc u t ∧ t.r.regs pc = a + 1) →
      stepTo E h (Py.pure ()) run a s = (.ok true, s') → Session M E h pc s0 s'
  | stepi {s s' : BpSt} : Session M E h pc s0 s → s.m.mem (s.r.regs pc) ≠ 0xCC → M.Avoids (places s) s.m.mem s.r.regs →
      s'.m.mem = (M.step s.m.mem s.r.regs).1 → s'.r.regs = (M.step s.m.mem s.r.regs).2 → s'.dict = s.dict → s'.objs = s.objs →
      s'.running = s.running → Session M E h pc s0 s'

/-- The state of a debugged program that has come as far as the free program after some instructions. -/
structure Along (M : Machine) (h : BpHost) (pc : String) (p0 : Prog) (n : Nat) (s : BpSt) : Prop where
  inv : BpInv h (M.after n p0).1 s
  inst : AllInstalled s
  regs : s.r.regs = (M.after n p0).2
  wide : s.r.regs pc < 2 ^ h.table.width pc

theorem trapByte_x86 {h : BpHost} (hp : h.powerpc = false) : trapByte h = fun _ => 0xCC := by
  funext i; unfold trapByte; rw [hp]; rfl

theorem decodeAll_pos (one : Nat → Bytes → Option (Nat × Str)) (fuel : Nat) (address : Nat) (code : Bytes) :
    ∀ i ∈ decodeAll one fuel address code, 0 < i.size := by
  induction fuel generalizing address code with
  | zero => intro i hi; cases hi
  | succ fuel ih =>
    intro i hi
    unfold decodeAll at hi
    split at hi
    · cases hi
    · split_ifs at hi with hc
      · cases hi
      · rcases List.mem_cons.1 hi with rfl | hi
        · dsimp only; omega
        · exact ih _ _ i hi

theorem readInstrSize_pos {E : Option Disassembler} {h : BpHost} (hp : h.powerpc = false) {a : Nat} {s u : BpSt} {size : Option Nat}
    (hr : readInstrSize E h a s = (.ok size, u)) : 0 < bpSize h size := by
  unfold bpSize
  rw [hp]
  cases E with
  | none => injection hr with hr _; injection hr with hr; subst hr; exact Nat.one_pos
  | some E =>
    unfold readInstrSize exceptPtrace at hr
    simp only [] at hr
    cases hd : procDisassembleOne E h a s with
    | mk r t =>
      cases r with
      | error e =>
        rw [Py.run_bind_error hd] at hr
        simp only [Py.pure] at hr
        split at hr
        · injection hr with hr _; injection hr with hr; subst hr; exact Nat.one_pos
        · injection hr with hr _; cases hr
      | ok i =>
        rw [Py.run_bind_ok hd] at hr
        simp only [Py.pure] at hr
        injection hr with hr _
        injection hr with hr
        subst hr
        change 0 < i.size
        unfold procDisassembleOne at hd
        obtain ⟨code, v, _, h2⟩ := Py.ok_of_bind hd
        have h3 : disassembleFirst E code a = .ok i := by
          unfold liftE at h2
          cases hf : disassembleFirst E code a with
          | error e => rw [hf] at h2; cases h2
          | ok j => rw [hf] at h2; injection h2 with h2 _
        unfold disassembleFirst disassembleCode at h3
        by_cases hx : (E.bytesHex && !(decodeAll E.one code.length a code).isEmpty) = true
        · simp only [hx, if_true] at h3; cases h3
        · simp only [hx, Bool.false_eq_true, if_false] at h3
          have hpos := decodeAll_pos E.one code.length a code
          cases hl : decodeAll E.one code.length a code with
          | nil => rw [hl] at h3; cases h3
          | cons j l =>
            rw [hl] at h3 hpos
            injection h3 with h3
            subst h3
            exact hpos _ (by simp)

theorem getInstrPointer_ok {t : RegTable} {k : RegKernel} {name : String} (hn : t.instrPointer = some name)
    (hsub : t.subs.lookup name = none) {s s' : RegSt} {v : Nat} (h : getInstrPointer t k s = (.ok v, s')) :
    v = s.regs name ∧ s'.regs = s.regs := by
  unfold getInstrPointer at h
  rw [hn] at h
  simp only [] at h
  unfold getreg at h
  rw [hsub] at h
  simp only [] at h
  split_ifs at h with hm
  · obtain ⟨regs, u, h1, h2⟩ := Py.ok_of_bind h
    rcases getregs_cases k s with ⟨_, hg⟩ | ⟨_, hg⟩
    · rw [hg] at h1
      injection h1 with h1 h3
      injection h1 with h1
      subst h1; subst h3
      simp only [Py.pure, Nat.shiftRight_zero] at h2
      injection h2 with h2 h3
      injection h2 with h2
      subst h3
      exact ⟨h2.symm, rfl⟩
    · rw [hg] at h1; injection h1 with h1 _; cases h1
  · cases h

theorem along_look {M : Machine} {h : BpHost} {pc : String} {p0 : Prog} {n : Nat} {s s' : BpSt} (ha : Along M h pc p0 n s)
    (h1 : s'.m.mem = s.m.mem) (h2 : s'.r.regs = s.r.regs) (h3 : s'.dict = s.dict) (h4 : s'.objs = s.objs) (h5 : s'.running = s.running) :
    Along M h pc p0 n s' := by
  have hpl : places s' = places s := by unfold places; rw [h3, h4]
  refine ⟨⟨h5.trans ha.inv.running, ?_, ?_, ?_, ?_, ?_⟩, ?_, h2.trans ha.regs, by rw [h2]; exact ha.wide⟩
  · rw [h3, h4]; exact ha.inv.ents
  · rw [h3]; exact ha.inv.keys
  · rw [h3, h4]; exact ha.inv.disj
  · rw [h3, h4]; exact ha.inv.inst
  · rw [hpl, h1]; exact ha.inv.mem
  · unfold AllInstalled; rw [h3, h4]; exact ha.inst

theorem along_create {M : Machine} {h : BpHost} (hk : CompleteReplies h.kernel) {pc : String} {p0 : Prog} {n : Nat} {s s' : BpSt}
    {a id : Nat} {size : Option Nat} (ha : Along M h pc p0 n s) (hpos : 0 < bpSize h size)
    (hap : ∀ p ∈ places s, a + bpSize h size ≤ p.1 ∨ p.1 + p.2 ≤ a) (hc : createBreakpoint h a size s = (.ok id, s')) :
    Along M h pc p0 n s' := by
  have hinv := inv_create ha.inv hc hpos hap (C19_complete_replies h a size s s' id hk hc)
  have hi := C19_install h a size s s' id hc
  refine ⟨hinv, ?_, by rw [hi.2.1]; exact ha.regs, by rw [hi.2.1]; exact ha.wide⟩
  rcases createBreakpoint_cases h a size s with ⟨e, m', h9, _⟩ | ⟨m', old, h9, _⟩
  · rw [h9] at hc; injection hc with hc _; cases hc
  · rw [h9] at hc; injection hc with _ hs; subst hs
    intro e he b hb
    dsimp only at he hb
    by_cases hlt : e.2 < s.objs.length
    · rw [List.getElem?_append_left hlt] at hb
      rcases (mem_dictSet e).1 he with h1 | h1
      · rw [h1] at hlt; exact absurd hlt (Nat.lt_irrefl _)
      · exact ha.inst e h1.2 b hb
    · have hl := (List.getElem?_eq_some_iff.1 hb).1
      simp at hl
      have : e.2 = s.objs.length := by omega
      rw [this] at hb
      simp at hb
      rw [← hb]

theorem allInstalled_desinstall {h : BpHost} {orig : Nat → Byte} {s s' : BpSt} {id : Nat} {ip : Bool} (hinv : BpInv h orig s)
    (ha : AllInstalled s) (hd : desinstall h id ip s = (.ok (), s')) : AllInstalled s' := by
  cases hb : s.objs[id]? with
  | none => unfold desinstall at hd; rw [hb] at hd; injection hd with _ hd; subst hd; exact ha
  | some b =>
    by_cases hi : b.installed = true
    · rcases desinstall_cases h id ip s b hb hi hinv.running with ⟨e, m1, h2, _⟩ | ⟨e, m1, r1, h2, _⟩ | ⟨m1, r1, h2, _⟩
      · rw [h2] at hd; injection hd with hd _; cases hd
      · rw [h2] at hd; injection hd with hd _; cases hd
      · rw [h2] at hd; injection hd with _ hd; subst hd
        intro e he c hc
        dsimp only at he hc
        obtain ⟨he1, he2⟩ := (mem_dictDel e).1 he
        rcases getElem?_set_cases hb e.2 c hc with ⟨h3, _⟩ | ⟨_, h3⟩
        · exfalso
          obtain ⟨b', hb', hba, _⟩ := hinv.ents e he1
          rw [h3, hb] at hb'
          injection hb' with hb'
          subst hb'
          exact he2 hba.symm
        · exact ha e he1 c h3
    · unfold desinstall at hd; rw [hb] at hd
      simp only [hi, not_false_eq_true, Bool.false_eq_true, if_true] at hd
      injection hd with _ hd; subst hd; exact ha

theorem along_desinstall {M : Machine} {h : BpHost} {pc : String} {p0 : Prog} {n : Nat} {s s' : BpSt} {id : Nat}
    (ha : Along M h pc p0 n s) (hd : desinstall h id false s = (.ok (), s')) : Along M h pc p0 n s' := by
  have hinv := inv_desinstall ha.inv hd
  have hr := desinstall_regs h id s
  rw [hd] at hr
  exact ⟨hinv, allInstalled_desinstall ha.inv ha.inst hd, by rw [hr]; exact ha.regs, by rw [hr]; exact ha.wide⟩

/-- While the tracee runs to a trap, the breakpoints keep what they stored. -/
theorem along_runs {M : Machine} (hM : M.Local) {h : BpHost} (hp : h.powerpc = false) {pc : String} (hw : M.Wide pc (h.table.width pc))
    {p0 : Prog} {n : Nat} {s t : BpSt} (ha : Along M h pc p0 n s) (hr : RunsTo M pc s t) :
    ∃ k, BpInv h (M.after k p0).1 t ∧ AllInstalled t ∧ n ≤ k ∧ (M.after k p0).2 pc < 2 ^ h.table.width pc ∧
      t.r.regs = fun j => if j = pc then (M.after k p0).2 pc + 1 else (M.after k p0).2 j := by
  have hmem := ha.inv.mem
  rw [trapByte_x86 hp] at hmem
  obtain ⟨k, h1, h2, h3, h4⟩ := stops_after hM hw hr.stops hmem ha.wide
  have he : M.after k ((M.after n p0).1, s.r.regs) = M.after (n + k) p0 := by rw [after_add, ha.regs]
  rw [he] at h1 h2 h3 h4
  have hpl : places t = places s := by unfold places; rw [hr.dict, hr.objs]
  refine ⟨n + k, ⟨hr.running, ?_, ?_, ?_, ?_, ?_⟩, ?_, by omega, h2, h3⟩
  · rw [hr.dict, hr.objs]
    intro e he
    obtain ⟨b, hb, hb1, hb2, hb3⟩ := ha.inv.ents e he
    refine ⟨b, hb, hb1, hb2, ?_⟩
    rw [hb3]
    apply List.ext_getElem
    · simp
    · intro i hi1 hi2
      rw [bytesAt_getElem, bytesAt_getElem]
      simp only [bytesAt_length] at hi1
      exact (h4 (b.address, b.size) (mem_places.2 ⟨e, he, b, hb, rfl⟩) i hi1).symm
  · rw [hr.dict]; exact ha.inv.keys
  · rw [hr.dict, hr.objs]; exact ha.inv.disj
  · rw [hr.dict, hr.objs]; exact ha.inv.inst
  · rw [hpl, trapByte_x86 hp]; exact h1
  · unfold AllInstalled; rw [hr.dict, hr.objs]; exact ha.inst

/-- Removing the breakpoint a run stopped at brings the registers back. -/
theorem along_back {M : Machine} {h : BpHost} {pc : String} (hn : h.table.instrPointer = some pc)
    (hsub : h.table.subs.lookup pc = none) {p0 : Prog} {k : Nat} {t s' : BpSt} {id : Nat} {b : BpObj} (hinv : BpInv h (M.after k p0).1 t)
    (hall : AllInstalled t) (hb : t.objs[id]? = some b) (hi : b.installed = true) (hwd : (M.after k p0).2 pc < 2 ^ h.table.width pc)
    (hregs : t.r.regs = fun j => if j = pc then (M.after k p0).2 pc + 1 else (M.after k p0).2 j) (hat : t.r.regs pc = b.address + 1)
    (hd : desinstall h id true t = (.ok (), s')) : Along M h pc p0 k s' := by
  obtain ⟨h1, h2, _⟩ := C21_set_ip h id t s' b pc hn hsub hb hi hinv.running hd
  have hba : b.address = (M.after k p0).2 pc := by
    rw [hregs] at hat
    simp only [if_true] at hat
    omega
  have hreg : s'.r.regs = (M.after k p0).2 := by
    funext j
    by_cases hj : j = pc
    · subst hj
      rw [hba] at h1
      rw [Int.emod_eq_of_lt (by omega) (by exact_mod_cast hwd)] at h1
      exact_mod_cast h1
    · rw [h2 j hj, hregs]
      simp [hj]
  exact ⟨inv_desinstall hinv hd, allInstalled_desinstall hinv hall hd, hreg, by rw [hreg]; exact hwd⟩

theorem along_session {M : Machine} (hM : M.Local) {E : Option Disassembler} {h : BpHost} (hk : CompleteReplies h.kernel)
    (hp : h.powerpc = false) {pc : String} (hn : h.table.instrPointer = some pc) (hsub : h.table.subs.lookup pc = none)
    (hw : M.Wide pc (h.table.width pc)) {s0 s : BpSt} (hd : s0.dict = []) (ho : s0.objs = []) (hr : s0.running = true)
    (hpc : s0.r.regs pc < 2 ^ h.table.width pc) (hs : Session M E h pc s0 s) :
    ∃ n, Along M h pc (s0.m.mem, s0.r.regs) n s := by
  induction hs with
  | start =>
    exact ⟨0, bpRun_inv h s0 s0 hd ho hr .start, (by intro e he; rw [hd] at he; cases he), rfl, hpc⟩
  | @brk s s' a _ hb hap ih =>
    obtain ⟨n, ha⟩ := ih
    obtain ⟨size, u, id, h1, hs, h3⟩ := gdbBreak_true hb
    have hu := along_look ha hs.mem (by rw [hs.regs]) hs.dict hs.objs hs.running
    have hpl : ∀ p, p ∈ places u → p ∈ places s := by
      intro p hp; unfold places at hp ⊢; rw [hs.dict, hs.objs] at hp; exact hp
    exact ⟨n, along_create hk hu (readInstrSize_pos hp h1) (fun p hp' => hap size u h1 p (hpl p hp')) h3⟩
  | @del s s' a v _ hdel ih =>
    obtain ⟨n, ha⟩ := ih
    refine ⟨n, ?_⟩
    unfold gdbDelete at hdel
    split at hdel
    · injection hdel with _ hdel; subst hdel; exact ha
    · obtain ⟨_, u, h1, h2⟩ := Py.ok_of_bind hdel
      injection h2 with _ h2; subst h2
      exact along_desinstall ha h1
  | look _ h1 h2 h3 h4 h5 ih =>
    obtain ⟨n, ha⟩ := ih
    exact ⟨n, along_look ha h1 h2 h3 h4 h5⟩
  | @cont s t s' p v _ hrun hpp hat htr ih =>
    obtain ⟨n, ha⟩ := ih
    obtain ⟨k, hinv, hall, _, hwd, hregs⟩ := along_runs hM hp hw ha hrun
    obtain ⟨e, he, b, hb, rfl⟩ := mem_places.1 hpp
    have hbt : t.objs[e.2]? = some b := by rw [hrun.objs]; exact hb
    have hi := hall e (by rw [hrun.dict]; exact he) b hbt
    have hgi : ∃ r', getInstrPointer h.table h.regKernel t.r = (.ok (t.r.regs pc), r') ∧ r'.regs = t.r.regs := by
      unfold gdbTrap at htr
      obtain ⟨ip, u, h1, _⟩ := Py.ok_of_bind htr
      unfold onRegs at h1
      cases hg : getInstrPointer h.table h.regKernel t.r with
      | mk x r' =>
        rw [hg] at h1
        injection h1 with h1 _
        rw [h1] at hg
        obtain ⟨g1, g2⟩ := getInstrPointer_ok hn hsub hg
        exact ⟨r', by rw [h1, g1], g2⟩
    obtain ⟨r', hg, hsame⟩ := hgi
    have hg' : getInstrPointer h.table h.regKernel t.r = (.ok (if h.powerpc then b.address else b.address + 1), r') := by
      rw [hg, hp, hat]; rfl
    obtain ⟨hdes, _⟩ := gdbTrap_hit hinv hn hsub hbt hi hg' hsame htr
    refine ⟨k, along_back (t := { t with r := r' }) hn hsub ⟨hinv.running, hinv.ents, hinv.keys, hinv.disj, hinv.inst, hinv.mem⟩ hall hbt hi hwd ?_ ?_ hdes⟩
    · rw [← hregs]; exact hsame
    · dsimp only; rw [hsame]; exact hat
  | @step s s' run a _ hap hrun hst ih =>
    obtain ⟨n, ha⟩ := ih
    unfold stepTo at hst
    obtain ⟨size, u, h1, h2⟩ := Py.ok_of_bind hst
    have hs := readInstrSize_same E h a s
    rw [h1] at hs
    have hu := along_look ha hs.mem (by rw [hs.regs]) hs.dict hs.objs hs.running
    have hpl : ∀ p, p ∈ places u → p ∈ places s := by
      intro p hp; unfold places at hp ⊢; rw [hs.dict, hs.objs] at hp; exact hp
    obtain ⟨id, u1, h3, h4⟩ := Py.ok_of_bind h2
    have hu1 := along_create hk hu (readInstrSize_pos hp h1) (fun p hp' => hap size u h1 p (hpl p hp')) h3
    obtain ⟨x, u2, h5, h6⟩ := Py.ok_of_bind h4
    injection h5 with _ h5
    subst h5
    cases hrr : run u1 with
    | mk res u3 =>
      have hfin : run u1 = (.ok (), u3) ∧ desinstall h id true u3 = (.ok (), s') := by
        unfold Py.tryCatch at h6
        cases res with
        | error e =>
          rw [Py.run_bind_error hrr] at h6
          simp only [] at h6
          obtain ⟨_, _, _, h7⟩ := Py.ok_of_bind h6
          cases h7
        | ok w =>
          rw [Py.run_bind_ok hrr] at h6
          cases hdd : desinstall h id true u3 with
          | mk res2 u4 =>
            cases res2 with
            | error e =>
              rw [Py.run_bind_error hdd] at h6
              simp only [] at h6
              obtain ⟨_, _, _, h7⟩ := Py.ok_of_bind h6
              cases h7
            | ok w2 =>
              rw [Py.run_bind_ok hdd] at h6
              simp only [Py.pure] at h6
              injection h6 with _ h6
              rw [h6]
              exact ⟨hrr, rfl⟩
      obtain ⟨h7, h8⟩ := hfin
      obtain ⟨hrt, hat⟩ := hrun u1 u3 h7
      obtain ⟨k, hinv, hall, _, hwd, hregs⟩ := along_runs hM hp hw hu1 hrt
      rcases createBreakpoint_cases h a size u with ⟨e, m', h9, _⟩ | ⟨m', old, h9, _⟩
      · rw [h9] at h3; injection h3 with h3 _; cases h3
      · rw [h9] at h3; injection h3 with hid hu1'; injection hid with hid; subst hid
        have hobj : u3.objs[u.objs.length]? = some ⟨a, bpSize h size, old, true⟩ := by
          rw [hrt.objs, ← hu1']; simp
        exact ⟨k, along_back hn hsub hinv hall hobj rfl hwd hregs hat h8⟩
  | @stepi s s' _ hnt hav h1 h2 h3 h4 h5 ih =>
    obtain ⟨n, ha⟩ := ih
    have hmem := ha.inv.mem
    rw [trapByte_x86 hp] at hmem
    obtain ⟨g1, g2, _, g3⟩ := patched_step hM hmem hav
    have he : M.after (n + 1) (s0.m.mem, s0.r.regs) = M.step (M.after n (s0.m.mem, s0.r.regs)).1 s.r.regs := by
      rw [after_add, ha.regs]; rfl
    have hpl : places s' = places s := by unfold places; rw [h3, h4]
    refine ⟨n + 1, ⟨h5.trans ha.inv.running, ?_, ?_, ?_, ?_, ?_⟩, ?_, ?_, ?_⟩
    · rw [h3, h4, he]
      intro e hee
      obtain ⟨b, hb, hb1, hb2, hb3⟩ := ha.inv.ents e hee
      refine ⟨b, hb, hb1, hb2, ?_⟩
      rw [hb3]
      apply List.ext_getElem
      · simp
      · intro i hi1 hi2
        rw [bytesAt_getElem, bytesAt_getElem]
        simp only [bytesAt_length] at hi1
        exact (g3 (b.address, b.size) (mem_places.2 ⟨e, hee, b, hb, rfl⟩) i hi1).symm
    · rw [h3]; exact ha.inv.keys
    · rw [h3, h4]; exact ha.inv.disj
    · rw [h3, h4]; exact ha.inv.inst
    · rw [hpl, trapByte_x86 hp, he, h1]; exact g1
    · unfold AllInstalled; rw [h3, h4]; exact ha.inst
    · rw [h2, he, g2]
    · rw [h2]; exact hw _ _ ha.wide

/-! ## C114 -/

/-- C114: in a session with `break`, `delete`, `cont`, `step`, `until` and `stepi` on a processor with a trap of one byte, registers and memory are
at every prompt those of the program without a debugger after some number of instructions, except for the
trap bytes at the listed breakpoints. Conditions: reads are complete, breakpoints do not overlap, no executed instruction uses a byte of a listed
breakpoint, `stepi` is not used on a breakpoint and `step` ends at its own breakpoint (see the refutations below). -/
theorem C114_partial (M : Machine) (hM : M.Local) (E : Option Disassembler) (h : BpHost) (hk : CompleteReplies h.kernel)
    (hp : h.powerpc = false) (pc : String) (hn : h.table.instrPointer = some pc) (hsub : h.table.subs.lookup pc = none)
    (hw : M.Wide pc (h.table.width pc)) (s0 s : BpSt) (hd : s0.dict = []) (ho : s0.objs = []) (hr : s0.running = true)
    (hpc : s0.r.regs pc < 2 ^ h.table.width pc) (hs : Session M E h pc s0 s) :
    ∃ n, s.r.regs = (M.after n (s0.m.mem, s0.r.regs)).2 ∧
      Patched (M.after n (s0.m.mem, s0.r.regs)).1 (fun _ => 0xCC) (places s) s.m.mem ∧
      (places s = [] → s.m.mem = (M.after n (s0.m.mem, s0.r.regs)).1) := by
  obtain ⟨n, ha⟩ := along_session hM hk hp hn hsub hw hd ho hr hpc hs
  have hmem := ha.inv.mem
  rw [trapByte_x86 hp] at hmem
  refine ⟨n, ha.regs, hmem, ?_⟩
  intro he
  funext x
  refine hmem.2 x ?_
  intro p hp
  rw [he] at hp
  cases hp

/-- C114: no breakpoint is missed. From any prompt of such a session, when the program without a debugger comes to the address of a
listed breakpoint after `n` more instructions, none of which uses bytes of listed breakpoints or is a trap itself, then `cont`
runs to this breakpoint. -/
theorem C114_reached_partial (M : Machine) (hM : M.Local) (E : Option Disassembler) (h : BpHost) (hk : CompleteReplies h.kernel)
    (hp : h.powerpc = false) (pc : String) (hn : h.table.instrPointer = some pc) (hsub : h.table.subs.lookup pc = none)
    (hw : M.Wide pc (h.table.width pc)) (s0 s : BpSt) (hd : s0.dict = []) (ho : s0.objs = []) (hr : s0.running = true)
    (hpc : s0.r.regs pc < 2 ^ h.table.width pc) (hs : Session M E h pc s0 s) :
    ∃ now, s.r.regs = (M.after now (s0.m.mem, s0.r.regs)).2 ∧ ∀ n p,
      (∀ k, k < n → ∃ m r, M.after (now + k) (s0.m.mem, s0.r.regs) = (m, r) ∧ M.Avoids (places s) m r ∧ M.uses m r (r pc) ∧
        m (r pc) ≠ 0xCC) →
      p ∈ places s → (M.after (now + n) (s0.m.mem, s0.r.regs)).2 pc = p.1 →
      ∃ t, RunsTo M pc s t ∧ t.r.regs pc = p.1 + 1 ∧
        ∀ j, j ≠ pc → t.r.regs j = (M.after (now + n) (s0.m.mem, s0.r.regs)).2 j := by
  obtain ⟨now, ha⟩ := along_session hM hk hp hn hsub hw hd ho hr hpc hs
  refine ⟨now, ha.regs, ?_⟩
  intro n p hfree hpp hat
  have hmem := ha.inv.mem
  rw [trapByte_x86 hp] at hmem
  have he : ∀ k, M.after k ((M.after now (s0.m.mem, s0.r.regs)).1, s.r.regs) = M.after (now + k) (s0.m.mem, s0.r.regs) := by
    intro k; rw [after_add, ha.regs]
  obtain ⟨m', hst⟩ := after_stops hM (pc := pc) n hmem (by
      intro k hkn
      rw [he]
      obtain ⟨m, r, h1, h2, h3, h4⟩ := hfree k hkn
      rw [h1]
      exact ⟨h2, h3, h4⟩) (by
      rw [he]
      obtain ⟨e, hee, b, hb, rfl⟩ := mem_places.1 hpp
      obtain ⟨b', hb', _, hpos, _⟩ := ha.inv.ents e hee
      rw [hb] at hb'; injection hb' with hb'; subst hb'
      exact ⟨_, hpp, hpos, hat⟩)
  rw [he] at hst
  refine ⟨{ s with m := { s.m with mem := m' }, r := { s.r with regs := fun k =>
      if k = pc then (M.after (now + n) (s0.m.mem, s0.r.regs)).2 pc + 1 else (M.after (now + n) (s0.m.mem, s0.r.regs)).2 k } },
    ⟨hst, rfl, rfl, ha.inv.running⟩, ?_, ?_⟩
  · show (if pc = pc then _ else _) = _
    rw [if_pos rfl, hat]
  · intro j hj
    show (if j = pc then _ else _) = _
    rw [if_neg hj]

/-! ### A processor with four instructions -/

/-- 0x40 adds 1 to `rax`, 0x41 loads the byte at `rbx` into `rax`, 0x42 stores `rax` there, anything else does nothing. -/
def toyCpu : Machine where
  step m r :=
    let next (rax : Nat) : String → Nat := fun n => if n = "rip" then min (r "rip" + 1) (2 ^ 64 - 1) else if n = "rax" then rax else r n
    if m (r "rip") = 0x40 then (m, next (r "rax" + 1))
    else if m (r "rip") = 0x41 then (m, next (m (r "rbx")).val)
    else if m (r "rip") = 0x42 then (fun x => if x = r "rbx" then Fin.ofNat 256 (r "rax") else m x, next (r "rax"))
    else (m, next (r "rax"))
  uses m r x := x = r "rip" ∨ (m (r "rip") = 0x41 ∨ m (r "rip") = 0x42) ∧ x = r "rbx"

theorem toyCpu_local : toyCpu.Local := by
  intro m m' r h
  have h0 : m' (r "rip") = m (r "rip") := h _ (Or.inl rfl)
  refine ⟨fun x => by show _ ∨ _ ↔ _ ∨ _; rw [h0], ?_, fun x => ⟨fun hu => ?_, fun hu => ?_⟩⟩
  · simp only [toyCpu, h0]
    split_ifs with h1 h2 h3
    · rfl
    · rw [h (r "rbx") (Or.inr ⟨Or.inl h2, rfl⟩)]
    · rfl
    · rfl
  · simp only [toyCpu, h0]
    have hx := h x hu
    split_ifs <;> simp only [hx]
  · have hu' : x ≠ r "rip" ∧ ¬ ((m (r "rip") = 0x41 ∨ m (r "rip") = 0x42) ∧ x = r "rbx") := not_or.1 hu
    simp only [toyCpu, h0]
    split_ifs with h1 h2 h3
    · exact ⟨rfl, rfl⟩
    · exact ⟨rfl, rfl⟩
    · have : x ≠ r "rbx" := fun hx => hu'.2 ⟨Or.inr h3, hx⟩
      simp [this]
    · exact ⟨rfl, rfl⟩

theorem toyCpu_rip (m : Nat → Byte) (r : String → Nat) : (toyCpu.step m r).2 "rip" = min (r "rip" + 1) (2 ^ 64 - 1) := by
  simp only [toyCpu]
  split_ifs <;> rfl

theorem toyCpu_wide : toyCpu.Wide "rip" 64 := by
  intro m r _
  rw [toyCpu_rip]
  have : (0 : Nat) < 2 ^ 64 := by decide
  omega

theorem toyCpu_after (n : Nat) (p : Prog) (hp : p.2 "rip" ≤ 2 ^ 64 - 1) : (toyCpu.after n p).2 "rip" = min (p.2 "rip" + n) (2 ^ 64 - 1) := by
  induction n generalizing p with
  | zero => show p.2 "rip" = _; omega
  | succ n ih =>
    show (toyCpu.after n (toyCpu.step p.1 p.2)).2 "rip" = _
    rw [ih _ (by rw [toyCpu_rip]; omega), toyCpu_rip]
    omega

/-- A program: it counts `rax` up from 0 at 100 and 101, stores it at 500, and loads the byte at 500. -/
def countMem (x : Nat) : Byte := if x = 100 ∨ x = 101 then 0x40 else if x = 102 then 0x42 else if x = 103 then 0x41 else 0x90
def countBp (rbx : Nat) : BpSt :=
  { m := { mem := countMem }, r := { regs := fun n => if n = "rip" then 100 else if n = "rbx" then rbx else 0 }, running := true }

/-- Every instruction has one byte. -/
def byteE : Disassembler := ⟨fun _ code => match code with | [] => none | _ :: _ => some (1, []), 11, false⟩

/-- Run to a trap, when no instruction on the way uses a byte of the places. -/
def toyGo (places : List (Nat × Nat)) : Nat → Prog → Option Prog
  | 0, _ => none
  | n + 1, (m, r) =>
    if m (r "rip") = 0xCC then some (m, fun k => if k = "rip" then r "rip" + 1 else r k)
    else if places.all fun p => (List.range p.2).all fun i => decide (¬ (p.1 + i = r "rip" ∨ (m (r "rip") = 0x41 ∨ m (r "rip") = 0x42) ∧ p.1 + i = r "rbx"))
    then toyGo places n (toyCpu.step m r) else none

theorem toyGo_stops (places : List (Nat × Nat)) (n : Nat) (m m' : Nat → Byte) (r r' : String → Nat) (h : toyGo places n (m, r) = some (m', r')) :
    toyCpu.Stops "rip" 0xCC places m r m' r' := by
  induction n generalizing m r with
  | zero => cases h
  | succ n ih =>
    unfold toyGo at h
    split_ifs at h with h1 h2
    · injection h with h
      injection h with h3 h4
      subst h3; subst h4
      exact .trap h1
    · refine .go h1 ?_ (ih _ _ h)
      intro p hp i hi hu
      rw [List.all_eq_true] at h2
      have := List.all_eq_true.1 (h2 p hp) i (List.mem_range.2 hi)
      rw [decide_eq_true_eq] at this
      exact this hu

/-- `process.cont()` on the example processor. -/
def goBp (s : BpSt) : BpSt := match toyGo (places s) 20 (s.m.mem, s.r.regs) with
  | some p => { s with m := { s.m with mem := p.1 }, r := { s.r with regs := p.2 } }
  | none => s

theorem goBp_runs (s : BpSt) (hr : s.running = true) (h : (toyGo (places s) 20 (s.m.mem, s.r.regs)).isSome = true) :
    RunsTo toyCpu "rip" s (goBp s) := by
  unfold goBp
  cases hg : toyGo (places s) 20 (s.m.mem, s.r.regs) with
  | none => rw [hg] at h; cases h
  | some p => exact ⟨toyGo_stops _ _ _ _ _ _ hg, rfl, rfl, hr⟩

/-- `break 102`, `cont`, `break 104`, `cont`. -/
def count1 : BpSt := (gdbBreak (some byteE) exHost 102 (countBp 500)).2
def count2 : BpSt := (gdbTrap exHost (goBp count1)).2
def count3 : BpSt := (gdbBreak (some byteE) exHost 104 count2).2
def count4 : BpSt := (gdbTrap exHost (goBp count3)).2

theorem apart_nil (E : Option Disassembler) (h : BpHost) (a : Nat) (s : BpSt) (hs : places s = []) : Apart E h a s := by
  intro size u _ p hp
  rw [hs] at hp
  cases hp

theorem count_session : Session toyCpu (some byteE) exHost "rip" (countBp 500) count4 := by
  have s1 : Session toyCpu (some byteE) exHost "rip" (countBp 500) count1 :=
    .brk 102 .start (Prod.ext (by decide +kernel) rfl) (apart_nil _ _ _ _ rfl)
  have s2 : Session toyCpu (some byteE) exHost "rip" (countBp 500) count2 :=
    .cont (p := (102, 1)) (v := true) s1 (goBp_runs count1 (by decide +kernel) (by decide +kernel)) (by decide +kernel) (by decide +kernel)
      (Prod.ext (by decide +kernel) rfl)
  have s3 : Session toyCpu (some byteE) exHost "rip" (countBp 500) count3 :=
    .brk 104 s2 (Prod.ext (by decide +kernel) rfl) (apart_nil _ _ _ _ (by decide +kernel))
  exact .cont (p := (104, 1)) (v := true) s3 (goBp_runs count3 (by decide +kernel) (by decide +kernel)) (by decide +kernel) (by decide +kernel)
      (Prod.ext (by decide +kernel) rfl)

example : count4.r.regs "rip" = 104 ∧ count4.r.regs "rax" = 2 ∧ count4.m.mem 500 = 2 ∧ places count4 = [] := by decide +kernel
example : ∃ n, count4.r.regs = (toyCpu.after n (countMem, (countBp 500).r.regs)).2 ∧
    (places count4 = [] → count4.m.mem = (toyCpu.after n (countMem, (countBp 500).r.regs)).1) := by
  obtain ⟨n, h1, _, h2⟩ := C114_partial toyCpu toyCpu_local (some byteE) exHost toy_complete rfl "rip" rfl (by decide +kernel)
    toyCpu_wide (countBp 500) count4 rfl rfl rfl (by decide +kernel) count_session
  exact ⟨n, h1, h2⟩

/-- `step` from the prompt at 102. -/
def count5 : BpSt := (stepTo (some byteE) exHost (Py.pure ()) (fun u => (.ok (), goBp u)) 103 count2).2
example : (stepTo (some byteE) exHost (Py.pure ()) (fun u => (.ok (), goBp u)) 103 count2).1 = .ok true ∧ count5.r.regs "rip" = 103 ∧
    count5.m.mem 500 = 2 ∧ places count5 = [] := by decide +kernel

example : ∃ t, RunsTo toyCpu "rip" count1 t ∧ t.r.regs "rip" = 103 := by
  have s1 : Session toyCpu (some byteE) exHost "rip" (countBp 500) count1 :=
    .brk 102 .start (Prod.ext (by decide +kernel) rfl) (apart_nil _ _ _ _ rfl)
  obtain ⟨now, h1, h2⟩ := C114_reached_partial toyCpu toyCpu_local (some byteE) exHost toy_complete rfl "rip" rfl (by decide +kernel)
    toyCpu_wide (countBp 500) count1 rfl rfl rfl (by decide +kernel) s1
  have hnow : now = 0 := by
    have h3 := congrFun h1 "rip"
    rw [toyCpu_after now _ (show (100 : Nat) ≤ _ by decide)] at h3
    have h4 : count1.r.regs "rip" = 100 := by decide +kernel
    have h5 : ((countBp 500).r.regs) "rip" = 100 := by decide +kernel
    rw [h4] at h3
    dsimp only at h3
    rw [h5] at h3
    omega
  subst hnow
  have hpl : places count1 = [(102, 1)] := by decide +kernel
  obtain ⟨t, h3, h4, _⟩ := h2 2 (102, 1) (by
    intro k hk
    refine ⟨_, _, rfl, ?_, Or.inl rfl, ?_⟩
    · intro p hp i hi hu
      rw [hpl, List.mem_singleton] at hp
      subst hp
      dsimp only at hi
      have hk2 : k = 0 ∨ k = 1 := by omega
      rcases hk2 with rfl | rfl
      · rcases hu with hu | hu
        · have : (toyCpu.after (0 + 0) (countMem, (countBp 500).r.regs)).2 "rip" = 100 := by decide +kernel
          change _ = (toyCpu.after (0 + 0) (countMem, (countBp 500).r.regs)).2 "rip" at hu
          rw [this] at hu; dsimp only at hu; omega
        · exact absurd hu.1 (by decide +kernel)
      · rcases hu with hu | hu
        · have : (toyCpu.after (0 + 1) (countMem, (countBp 500).r.regs)).2 "rip" = 101 := by decide +kernel
          change _ = (toyCpu.after (0 + 1) (countMem, (countBp 500).r.regs)).2 "rip" at hu
          rw [this] at hu; dsimp only at hu; omega
        · exact absurd hu.1 (by decide +kernel)
    · have hk2 : k = 0 ∨ k = 1 := by omega
      rcases hk2 with rfl | rfl <;> decide +kernel) (by rw [hpl]; simp) (by decide +kernel)
  exact ⟨t, h3, h4⟩

/-- Registers that a program which starts at 100 does not have without a debugger. -/
theorem off_course (p : Prog) (hp : p.2 "rip" = 100) (r : String → Nat) (n : Nat) (hr : r "rip" = 100 + n) (hn : n < 1000)
    (h : ∃ k, r k ≠ (toyCpu.after n p).2 k) : ¬ ∃ k, r = (toyCpu.after k p).2 := by
  rintro ⟨k, rfl⟩
  rw [toyCpu_after k _ (by rw [hp]; decide), hp] at hr
  have : k = n := by omega
  subst this
  obtain ⟨j, hj⟩ := h
  exact hj rfl

/-- A program that loads the byte at 101. -/
def readBp : BpSt :=
  { m := { mem := fun x => if x = 100 then 0x41 else 0x90 }, r := { regs := fun n => if n = "rip" then 100 else 101 }, running := true }
def read1 : BpSt := (gdbBreak (some byteE) exHost 101 readBp).2
def read2 : BpSt := match toyGo [] 20 (read1.m.mem, read1.r.regs) with
  | some p => { read1 with m := { read1.m with mem := p.1 }, r := { read1.r with regs := p.2 } }
  | none => read1

/-- A program that reads its own code sees the breakpoints: here it loads the byte at 101, where a breakpoint is, and `rax` becomes 0xCC
instead of 0x90. The program has these registers at no time without a debugger. -/
theorem C114_reads_refuted : ¬ ∀ (M : Machine) (h : BpHost) (s0 s t s' : BpSt) (a : Nat), M.Local → h.powerpc = false →
    gdbBreak (some byteE) h a s0 = (.ok true, s) → M.Stops "rip" 0xCC [] s.m.mem s.r.regs t.m.mem t.r.regs →
    t.dict = s.dict → t.objs = s.objs → gdbTrap h t = (.ok true, s') → ∃ n, s'.r.regs = (M.after n (s0.m.mem, s0.r.regs)).2 := by
  intro H
  have hst : toyCpu.Stops "rip" 0xCC [] read1.m.mem read1.r.regs read2.m.mem read2.r.regs := by
    unfold read2
    cases hg : toyGo [] 20 (read1.m.mem, read1.r.regs) with
    | none =>
      have h1 : (toyGo [] 20 (read1.m.mem, read1.r.regs)).isSome = true := by decide +kernel
      rw [hg] at h1; cases h1
    | some p => exact toyGo_stops _ _ _ _ _ _ hg
  have hd : read2.dict = read1.dict ∧ read2.objs = read1.objs := by decide +kernel
  have := H toyCpu exHost readBp read1 read2 (gdbTrap exHost read2).2 101 toyCpu_local rfl (Prod.ext (by decide +kernel) rfl) hst hd.1 hd.2
    (Prod.ext (by decide +kernel) rfl)
  exact off_course (readBp.m.mem, readBp.r.regs) rfl _ 1 (by decide +kernel) (by decide) ⟨"rax", by decide +kernel⟩ this

/-- `stepi` with a breakpoint at the instruction pointer executes the trap and not the instruction, and nothing moves the instruction pointer back
(`gdb.py:584-598`): the process is left behind the trap, in registers the program never has. -/
theorem C114_stepi_refuted : ¬ ∀ (M : Machine) (h : BpHost) (s0 s t : BpSt) (a : Nat), M.Local → h.powerpc = false →
    gdbBreak (some byteE) h a s0 = (.ok true, s) → s.m.mem (s.r.regs "rip") = 0xCC → RunsTo M "rip" s t →
    ∃ n, t.r.regs = (M.after n (s0.m.mem, s0.r.regs)).2 := by
  intro H
  let s : BpSt := (gdbBreak (some byteE) exHost 100 (countBp 500)).2
  have hrun : RunsTo toyCpu "rip" s (goBp s) := goBp_runs s (by decide +kernel) (by decide +kernel)
  have := H toyCpu exHost (countBp 500) s (goBp s) 100 toyCpu_local rfl (Prod.ext (by decide +kernel) rfl) (by decide +kernel) hrun
  exact off_course (countMem, (countBp 500).r.regs) rfl _ 1 (by decide +kernel) (by decide) ⟨"rax", by decide +kernel⟩ this

/-- `step` with a breakpoint at the instruction pointer: the process stops at once with SIGTRAP at this breakpoint, which `step` takes for its own, and
moves the instruction pointer behind the instruction. The instruction is skipped: here `rax` is not counted up. -/
theorem C114_step_refuted : ¬ ∀ (M : Machine) (h : BpHost) (s0 s s' : BpSt) (a : Nat) (run : Py BpSt Unit), M.Local → h.powerpc = false →
    gdbBreak (some byteE) h a s0 = (.ok true, s) →
    (∀ u t, run u = (.ok (), t) → RunsTo M "rip" u t) → gdbStepOver (some byteE) h (Py.pure ()) run s = (.ok true, s') →
    ∃ n, s'.r.regs = (M.after n (s0.m.mem, s0.r.regs)).2 := by
  intro H
  let s : BpSt := (gdbBreak (some byteE) exHost 100 (countBp 500)).2
  let run : Py BpSt Unit := fun u =>
    if u.running && (toyGo (places u) 20 (u.m.mem, u.r.regs)).isSome then (.ok (), goBp u) else (.error .diverge, u)
  have hrun : ∀ u t, run u = (.ok (), t) → RunsTo toyCpu "rip" u t := by
    intro u t hu
    simp only [run] at hu
    split_ifs at hu with hc
    · injection hu with _ hu
      rw [Bool.and_eq_true] at hc
      rw [← hu]
      exact goBp_runs u hc.1 hc.2
    · injection hu with hu _; cases hu
  have := H toyCpu exHost (countBp 500) s (gdbStepOver (some byteE) exHost (Py.pure ()) run s).2 100 run toyCpu_local rfl
    (Prod.ext (by decide +kernel) rfl) hrun (Prod.ext (by decide +kernel) rfl)
  exact off_course (countMem, (countBp 500).r.regs) rfl _ 1 (by decide +kernel) (by decide) ⟨"rax", by decide +kernel⟩ this

end PT
