import Verif.Lemmas.GdbEnds
import Verif.Props.Asks

/-! C144 for gdb.py. -/

namespace PT
open Spec

variable {K : Kern}

/-- **C144, partial** gdb.py, from its command line to its end, whatever is typed and whatever the kernel replies: a process counts as not running only if the kernel told its
end, or if it refused a request for it with `ESRCH`. (The full statement is without the latter: `C144_gdb_refuted`.) -/
theorem C144_gdb_partial (E : ProgramEnv) (fuel : Nat) (G : GdbCfg) (hG : ErrTold G) (args : List Str) (inputs : List Input) {r : Except Exc (Option (List Input))}
    {t : DSt} (h : gdbProgram E K fuel G args inputs = .ran r t) (o : Nat) (ho : o < t.next) (hr : (t.heap o).running = false) (hp : (t.heap o).pid ≠ 0) :
    EndTold t.log o (t.heap o).pid ∨ Denied t.log (t.heap o).pid := by
  suffices hv : Backed t from (((hv.over o ho hr).resolve_left hp).imp (·.2) id).symm
  unfold gdbProgram at h
  split at h
  · cases h
  · rename_i v program hv
    split at h
    · cases h
    · rename_i lines s hs
      have hk : Backed s := by
        generalize (⟨isOn v "fork", isOn v "trace_exec", isOn v "trace_clone"⟩ : TraceOptions) = x at hs
        obtain ⟨a, b, c⟩ := x
        cases a <;> cases b <;> cases c <;> (injection hs with _ hs; injection hs with _ hs; rw [← hs]; exact vouched_empty rfl rfl rfl)
      dsimp only at h
      cases hb : tracedBy v program with
      | attach n =>
        rw [hb] at h
        cases h
        exact gdbMain_backed hG fuel _ _ inputs s hk
      | start p =>
        rw [hb] at h
        cases h
        exact gdbMain_backed hG fuel _ _ inputs s hk

/-! ### at work, and where more fails -/

/-- `err.pid` of a refused PTRACE_CONT: the process of the last call. -/
def toldCfg : GdbCfg := { promptCfg with errPid := fun s => match s.log.getLast? with
  | some ⟨.cont _ p _, .err 3, _⟩ => p
  | _ => 0 }

theorem toldCfg_told : ErrTold toldCfg := by
  intro s
  show (match s.log.getLast? with
    | some ⟨.cont _ p _, .err 3, _⟩ => p
    | _ => 0) = 0 ∨ Denied s.log (match s.log.getLast? with
    | some ⟨.cont _ p _, .err 3, _⟩ => p
    | _ => 0)
  split
  · rename_i o p n d hl
    exact .inr ⟨_, List.mem_of_getLast? hl, rfl, rfl⟩
  · exact .inl rfl

/-- A kernel as described in ptrace(2): a request for a process that is not stopped fails with `ESRCH`. Process 1 stops by SIGUSR1 once it is let go, and ends when it is
killed; the other one stops when it is attached and then runs for a long time. -/
def grazing : Kern := fun log c =>
  match c with
  | .waitpid (some p) _ _ =>
    if p = 1 then
      if log.any (fun e => e.call == .kill 0 1 9) then .ok 1 9
      else if log.any (fun e => e.call == .cont 0 1 0) then .ok 1 0xa7f else .ok 1 0x137f
    else if log.any (fun e => match e.call with
      | .waitpid (some q) _ _ => q == p
      | _ => false) then .ok 0 0 else .ok p 0x137f
  | .cont o _ _ | .singlestep o _ | .syscall o _ _ | .detach o _ | .setoptions o _ _ | .inspect o _ => if AtRest o log then .ok 0 0 else .err 3
  | _ => .ok 0 0

/-- The session: `gdb.py prog`; the user attaches another process, continues both, sees the signal of the first and continues. -/
def grazed : GdbEnded := gdbProgram programEnv grazing 9 toldCfg ["prog".toList] [.line "attach 0x400".toList, .line "cont".toList, .line "cont".toList, .eof]

/-- **C144 refuted** for gdb.py: `cont` continues every process, also one that is running since the last `cont`. The kernel refuses this with `ESRCH`, gdb.py takes the process for
ended and forgets it, although no wait told its end, and although nobody asked to kill it; it is not detached either. The session meets the hypotheses of `C144_gdb_partial`. -/
theorem C144_gdb_refuted : ∃ t, grazed = .ran (.ok (some [])) t ∧ TruthfulLog t.log ∧ PatientLog t.log ∧ 1 < t.next ∧ (t.heap 1).running = false ∧
    (t.heap 1).pid = 1024 ∧ (t.heap 1).wasAttached = false ∧ 1 ∉ iterate t ∧ ¬ EndTold t.log 1 1024 ∧ (∀ e ∈ t.log, sends e.call = some 9 → named e.call ≠ some 1024) ∧
    ∀ e ∈ t.log, ∀ p, e.call ≠ .detach 1 p := by
  have h : (match grazed with
    | .ran (.ok (some [])) t => decide (TruthfulLog t.log ∧ PatientLog t.log ∧ 1 < t.next ∧ (t.heap 1).running = false ∧ (t.heap 1).pid = 1024 ∧
        (t.heap 1).wasAttached = false ∧ 1 ∉ iterate t ∧
        t.log.map (fun e => (e.call, e.reply)) = [(.waitpid (some 1) false false, .ok 1 0x137f), (.setoptions 0 1 1, .ok 0 0), (.attach 1 1024, .ok 0 0),
          (.waitpid (some 1024) false false, .ok 1024 0x137f), (.setoptions 1 1024 1, .ok 0 0), (.cont 0 1 0, .ok 0 0), (.cont 1 1024 0, .ok 0 0),
          (.waitpid (some 1) true false, .ok 1 0xa7f), (.display 0 1, .ok 0 0), (.cont 0 1 10, .ok 0 0), (.cont 1 1024 0, .err 3), (.kill 0 1 9, .ok 0 0),
          (.waitpid (some 1) false false, .ok 1 9)])
    | _ => false) = true := by decide +kernel
  split at h
  · rename_i t hd
    obtain ⟨h1, h2, h3, h4, h5, h6, h7, h8⟩ := of_decide_eq_true h
    have hm : ∀ e ∈ t.log, (e.call, e.reply) ∈ t.log.map (fun e => (e.call, e.reply)) := fun e he => List.mem_map.2 ⟨e, he, rfl⟩
    rw [h8] at hm
    refine ⟨t, hd, h1, h2, h3, h4, h5, h6, h7, ?_, fun e he hs => ?_, fun e he p hx => ?_⟩
    · rintro ⟨e, he, hx, -⟩
      have hm := hm e he
      rcases hx with ⟨w, a, b, st, hc, hr, ho⟩ | ⟨a, b, hc, hr⟩ | ⟨o, hc, hr⟩ <;> rw [hc, hr] at hm
      · have : st = 0x137f := by
          simp only [List.mem_cons, Prod.mk.injEq, Call.waitpid.injEq, Reply.ok.injEq, List.not_mem_nil, reduceCtorEq, false_and, and_false, or_false, false_or] at hm
          omega
        rw [this] at ho
        have hs : waitMeaning 0x137f = .signal 0x13 := by decide
        rcases ho with ⟨c, hc⟩ | ⟨c, hc⟩ <;> rw [hs] at hc <;> cases hc
      · simp at hm
      · simp at hm
    · have hm := hm e he
      generalize e.call = c at hm hs ⊢
      generalize e.reply = y at hm
      simp only [List.mem_cons, Prod.mk.injEq, List.not_mem_nil, or_false] at hm
      rcases hm with ⟨rfl, -⟩ | ⟨rfl, -⟩ | ⟨rfl, -⟩ | ⟨rfl, -⟩ | ⟨rfl, -⟩ | ⟨rfl, -⟩ | ⟨rfl, -⟩ | ⟨rfl, -⟩ | ⟨rfl, -⟩ | ⟨rfl, -⟩ | ⟨rfl, -⟩ | ⟨rfl, -⟩ | ⟨rfl, -⟩ <;>
        revert hs <;> decide
    · have hm := hm e he
      rw [hx] at hm
      simp at hm
  · cases h

/-- **C145 refuted** for gdb.py also without `stepi`: in the same session a running process is asked to continue. -/
theorem C145_cont_refuted : ∃ r t, grazed = .ran r t ∧ TruthfulLog t.log ∧ PatientLog t.log ∧ ¬ AsksStopped t.log ∧ ∀ e ∈ t.log, ∀ o p, e.call ≠ .singlestep o p := by
  have h : (match grazed with
    | .ran _ t => decide (TruthfulLog t.log ∧ PatientLog t.log ∧ ¬ AsksStopped t.log) && t.log.all fun e => match e.call with
      | .singlestep _ _ => false
      | _ => true
    | _ => false) = true := by decide +kernel
  split at h
  · rename_i r t hd
    rw [Bool.and_eq_true] at h
    obtain ⟨h1, h2, h3⟩ := of_decide_eq_true h.1
    refine ⟨r, t, hd, h1, h2, h3, fun e he o p hx => ?_⟩
    have := List.all_eq_true.1 h.2 e he
    rw [hx] at this
    cases this
  · cases h

/-- The hypotheses of `C144_gdb_partial` hold for both processes of this session: the end of one was told, and a request for the other was refused. -/
example : ∃ r t, grazed = .ran r t ∧ (∀ o, o < 2 → EndTold t.log o (t.heap o).pid ∨ Denied t.log (t.heap o).pid) ∧ Denied t.log 1024 ∧ EndTold t.log 0 1 := by
  obtain ⟨t, hd, -, -, h1, h2, h3, -, -, h4, -⟩ := C144_gdb_refuted
  have h : (match grazed with
    | .ran _ t => decide ((t.heap 0).running = false ∧ (t.heap 0).pid = 1) && t.log.all fun e => e.reply != .err 3 || named e.call == some 1024
    | _ => false) = true := by decide +kernel
  rw [hd, Bool.and_eq_true] at h
  obtain ⟨g1, g2⟩ := of_decide_eq_true h.1
  have k : ∀ o, o < 2 → EndTold t.log o (t.heap o).pid ∨ Denied t.log (t.heap o).pid := fun o ho => by
    match o, ho with
    | 0, _ => exact C144_gdb_partial programEnv 9 toldCfg toldCfg_told _ _ hd 0 (by omega) g1 (by rw [g2]; decide)
    | 1, _ => exact C144_gdb_partial programEnv 9 toldCfg toldCfg_told _ _ hd 1 h1 h2 (by rw [h3]; decide)
  refine ⟨_, t, hd, k, ?_, ?_⟩
  · have := k 1 (by omega)
    rw [h3] at this
    exact this.resolve_left h4
  · have := k 0 (by omega)
    rw [g2] at this
    refine this.resolve_right ?_
    rintro ⟨e, he, hn, hr⟩
    have := List.all_eq_true.1 h.2 e he
    rw [hn, hr] at this
    exact absurd this (by decide)

end PT
