import Verif.Lemmas.Errors
import Verif.Props.GdbEnds

/-! C147: the debugger does not run into errors of its own. -/

namespace PT

open PT.Spec

variable {K : Kern}

theorem clean_told {α : Type} {s t : DSt} {r : Except Exc α} {e : Exc} (h : CleanRun s (r, t)) (he : r = .error e) :
    FromOutside e ∨ (e = .key ∧ ∃ g, t.log = s.log ++ g ∧ ToldTwice g) := h.err e he

theorem waitAny_empty {s : DSt} (h : s.dict = []) (fuel n : Nat) (b : Bool) :
    waitAny K fuel n b s = (.error .index, s) ∨ waitAny K fuel n b s = (.error .diverge, s) := by
  cases n with
  | zero => exact Or.inr rfl
  | succ n => left; unfold waitAny; rw [h]; rfl

/-- **C147, partial** A call of the library, in any state that calls lead to, whatever the kernel replies, raises an exception that tells of something outside the debugger. There are three
exceptions: a `KeyError` if the kernel tells of a new process with the number of a registered one, a `KeyError` if the caller adds a registered process, and an `IndexError` if it waits for
any process and there is none. (The full statement is without them: `C147_refuted`, `C147_add_refuted`, `C35_refuted`.) -/
theorem C147_library_partial (hz : RealPids K) {s t : DSt} (hs : Reach K s) (fuel : Nat) (op : Op) (hop : Proper s op) (e : Exc)
    (h : runOp K fuel op s = (.error e, t)) :
    FromOutside e ∨ (e = .key ∧ ∃ g, t.log = s.log ++ g ∧ ToldTwice g) ∨
      (e = .key ∧ ∃ pid a b c q, op = .addProcess pid a b c ∧ getitem s pid = some q) ∨
      (e = .index ∧ iterate s = [] ∧ ((∃ b, op = .waitProcessEvent none b) ∨ (∃ l, op = .waitSignals l none) ∨ op = .waitSyscall none)) := by
  have hg := reach_good hz hs
  have fin : CleanRun s (runOp K fuel op s) → FromOutside e ∨ (e = .key ∧ ∃ g, t.log = s.log ++ g ∧ ToldTwice g) ∨
      (e = .key ∧ ∃ pid a b c q, op = .addProcess pid a b c ∧ getitem s pid = some q) ∨
      (e = .index ∧ iterate s = [] ∧ ((∃ b, op = .waitProcessEvent none b) ∨ (∃ l, op = .waitSignals l none) ∨ op = .waitSyscall none)) := by
    intro hc
    rw [h] at hc
    exact (clean_told hc rfl).imp id Or.inl
  have hname : ∀ o, o < s.next → NamedObj s o := fun o ho => ⟨ho, hg.pid.obj o ho⟩
  have hempty : s.list = [] → s.dict = [] := by
    intro hl
    rw [List.eq_nil_iff_forall_not_mem]
    rintro ⟨p, o⟩ ho
    have := ((hg.reg.agree p o).1 ho).1
    rw [hl] at this
    cases this
  have hnone : s.list = [] → ∀ b {α : Type} (f : Option Event → Py DSt α),
      Py.bind (waitProcessEvent K fuel none b) f s = (.error .index, s) ∨
      Py.bind (waitProcessEvent K fuel none b) f s = (.error .diverge, s) := by
    intro hl b α f
    unfold Py.bind
    rcases waitAny_empty (K := K) (hempty hl) fuel fuel b with hx | hx
    · left; have hx : waitProcessEvent K fuel none b s = _ := hx; rw [hx]
    · right; have hx : waitProcessEvent K fuel none b s = _ := hx; rw [hx]
  have hvoid : ∀ {α : Type} (m : Py DSt α), (m s = (.error .index, s) ∨ m s = (.error .diverge, s)) →
      (void m s = (.error .index, s) ∨ void m s = (.error .diverge, s)) := by
    intro α m hm
    unfold void Py.bind
    rcases hm with hm | hm
    · left; rw [hm]
    · right; rw [hm]
  have hpick : ∀ hl : s.list = [], (runOp K fuel op s = (.error .index, s) ∨ runOp K fuel op s = (.error .diverge, s)) →
      ((∃ b, op = .waitProcessEvent none b) ∨ (∃ l, op = .waitSignals l none) ∨ op = .waitSyscall none) →
      FromOutside e ∨ (e = .key ∧ ∃ g, t.log = s.log ++ g ∧ ToldTwice g) ∨
      (e = .key ∧ ∃ pid a b c q, op = .addProcess pid a b c ∧ getitem s pid = some q) ∨
      (e = .index ∧ iterate s = [] ∧ ((∃ b, op = .waitProcessEvent none b) ∨ (∃ l, op = .waitSignals l none) ∨ op = .waitSyscall none)) := by
    intro hl hr hw
    rcases hr with hr | hr <;> rw [hr] at h <;> injection h with h1 _ <;> injection h1 with h1 <;> subst h1
    · exact Or.inr (Or.inr (Or.inr ⟨rfl, hl, hw⟩))
    · exact Or.inl trivial
  cases op with
  | addProcess pid a b c =>
    cases hd : dictHas s.dict pid with
    | true =>
      have : runOp K fuel (.addProcess pid a b c) s = (.error .key, s) := by
        show void (addProcess K (waitEventPid K fuel) pid a b c) s = _
        unfold void Py.bind addProcess
        rw [hd]; rfl
      rw [this] at h
      injection h with h1 _
      injection h1 with h1
      subst h1
      refine Or.inr (Or.inr (Or.inl ⟨rfl, pid, a, b, c, ?_⟩))
      cases hq : dictGet s.dict pid with
      | none =>
        obtain ⟨q, hm⟩ := dictHas_mem hd
        exact absurd hm (fun hm => by
          unfold dictGet at hq
          cases hf : s.dict.find? (fun e => decide (e.1 = pid)) with
          | none => exact absurd (List.find?_eq_none.1 hf _ hm) (by simp)
          | some x => rw [hf] at hq; cases hq)
      | some q => exact ⟨q, rfl, hq⟩
    | false => exact fin (clean_void (clean_addProcess (clean_waitEventPid hz fuel) pid a b c hop s hd).1)
  | deleteProcess o => exact fin (clean_onObj fun _ => clean_delete o s)
  | deletePid pid =>
    refine fin ?_
    show CleanRun s (deletePid pid s)
    unfold deletePid
    split
    · exact clean_delete _ s
    · exact .ok () (Old.refl s)
  | quit => exact fin (clean_quit hz fuel hg.named)
  | waitProcessEvent pid b =>
    cases pid with
    | some p => exact fin (clean_void (waited_event hz hg fuel (some p) hop (fun h => nomatch h) b).clean)
    | none =>
      by_cases hl : s.list = []
      · exact hpick hl (hnone hl b _) (Or.inl ⟨b, rfl⟩)
      · exact fin (clean_void (waited_event hz hg fuel none hop (fun _ => hl) b).clean)
  | waitSignals l pid =>
    cases pid with
    | some p => exact fin (clean_void (clean_waitSignals hz hg fuel l (some p) hop (fun h => nomatch h)))
    | none =>
      by_cases hl : s.list = []
      · exact hpick hl (hvoid _ (hnone hl true _)) (Or.inr (Or.inl ⟨l, rfl⟩))
      · exact fin (clean_void (clean_waitSignals hz hg fuel l none hop (fun _ => hl)))
  | waitSyscall o =>
    cases o with
    | some o =>
      exact fin (clean_onObj fun ho => clean_waitSignalsOf hz s fuel _ _ (hname o ho).2)
    | none =>
      by_cases hl : s.list = []
      · exact hpick hl (hvoid _ (hnone hl true _)) (Or.inr (Or.inr rfl))
      · exact fin (clean_void (clean_waitSignals hz hg fuel _ none (fun h => nomatch h) (fun _ => hl)))
  | traceFork => cases h
  | traceExec => cases h
  | traceClone => cases h
  | enableSysgood => cases h
  | attach o => exact fin (clean_onObj fun _ => clean_attach o s)
  | detach o => exact fin (clean_onObj fun _ => clean_detach o s)
  | cont o n => exact fin (clean_onObj fun _ => clean_cont o n s)
  | syscall o n => exact fin (clean_onObj fun _ => clean_syscall o n s)
  | singleStep o => exact fin (clean_onObj fun _ => clean_voidPt _ s)
  | kill o n => exact fin (clean_onObj fun _ => clean_kill o n s)
  | setoptions o n => exact fin (clean_onObj fun _ => clean_voidPt _ s)
  | terminate o w => exact fin (clean_onObj fun ho => clean_terminate hz fuel o w s (hname o ho))
  | waitExit o => exact fin (clean_onObj fun ho => clean_waitExit hz fuel o fuel s (hname o ho))
  | processTerminated o =>
    exact fin (clean_onObj fun _ => (clean_notRunning o s).bind fun _ t _ _ => .pure _ t)

/-- **C147, partial** `SyscallTracer.runDebugger` of strace.py: the exception that it raises tells of something outside the debugger, unless the kernel told of a new process with the number
of a registered one. -/
theorem C147_strace_run_partial (hz : RealPids K) {s t : DSt} (hs : Reach K s) (hl : iterate s = []) (fuel : Nat) (C : StraceCfg) (pid : Nat) (hp : pid ≠ 0)
    (isAttached : Bool) (e : Exc) (h : straceRun K fuel C pid isAttached s = (.error e, t)) :
    FromOutside e ∨ (e = .key ∧ ∃ g, t.log = s.log ++ g ∧ ToldTwice g) := by
  have hg := reach_good hz hs
  have hd : dictHas s.dict pid = false := by
    cases hd : dictHas s.dict pid with
    | false => rfl
    | true =>
      obtain ⟨q, hq⟩ := dictHas_mem hd
      have := ((hg.reg.agree _ _).1 hq).1
      have hl : s.list = [] := hl
      rw [hl] at this
      cases this
  have hc := (clean_straceRun hz hg fuel C pid isAttached hp hd).1
  rw [h] at hc
  exact clean_told hc rfl

/-- **C147, partial** The same for `SyscallTracer._main`, which takes every exception of `runDebugger`, displays and quits. -/
theorem C147_strace_partial (hz : RealPids K) {s t : DSt} (hs : Reach K s) (hl : iterate s = []) (fuel : Nat) (C : StraceCfg) (pid : Nat) (hp : pid ≠ 0)
    (isAttached : Bool) (e : Exc) (h : straceMain K fuel C pid isAttached s = (.error e, t)) :
    FromOutside e ∨ (e = .key ∧ ∃ g, t.log = s.log ++ g ∧ ToldTwice g) := by
  have hg := reach_good hz hs
  have hd : dictHas s.dict pid = false := by
    cases hd : dictHas s.dict pid with
    | false => rfl
    | true =>
      obtain ⟨q, hq⟩ := dictHas_mem hd
      have := ((hg.reg.agree _ _).1 hq).1
      have hl : s.list = [] := hl
      rw [hl] at this
      cases this
  have hc := clean_straceMain hz hg fuel C pid isAttached hp hd
  rw [h] at hc
  exact clean_told hc rfl

/-! ### the exceptions -/

/-- Process 7 forks twice and both times the child gets the number 8: the first child is a thread that calls `execve`, it then has the number of its leader, and its own is free again. The
processes end when they are killed. -/
def reborn : Kern := fun log c =>
  match c with
  | .waitpid (some p) _ _ =>
    if log.any fun e => match e.call with
      | .kill _ q 9 => q == p
      | _ => false then .ok p 9
    else if log.any fun e => match e.call with
      | .waitpid (some q) _ _ => q == p
      | _ => false then if p = 7 then .ok 7 0x1057f else .ok 0 0
    else .ok p 0x137f
  | .geteventmsg _ _ => .ok 8 0
  | _ => .ok 0 0

theorem realPids_reborn : RealPids reborn := by
  intro log o pid st h
  cases h

/-- **C147 refuted**: strace.py with `--fork`, and a kernel that gives the number of a thread that called `execve` to a new process: `KeyError` and exit code 1. The run meets the
hypotheses of `C147_strace_run_partial`. -/
theorem C147_refuted : ∃ K s t, RealPids K ∧ Reach K s ∧ iterate s = [] ∧ straceRun K 9 readCfg 7 true s = (.error .key, t) ∧
    (straceMain K 9 readCfg 7 true s).1 = .ok (some 1) ∧ ¬ FromOutside .key ∧ ∃ g, t.log = s.log ++ g ∧ ToldTwice g := by
  have hr : Reach reborn (runOp reborn 9 .traceFork newDebugger).2 := .call .new 9 .traceFork trivial
  have h1 : (straceRun reborn 9 readCfg 7 true (runOp reborn 9 .traceFork newDebugger).2).1 = .error .key := by decide +kernel
  have h2 : (straceMain reborn 9 readCfg 7 true (runOp reborn 9 .traceFork newDebugger).2).1 = .ok (some 1) := by decide +kernel
  obtain ⟨t, ht⟩ : ∃ t, straceRun reborn 9 readCfg 7 true (runOp reborn 9 .traceFork newDebugger).2 = (.error .key, t) := ⟨_, pair_eq h1⟩
  have h3 := C147_strace_run_partial realPids_reborn hr rfl 9 readCfg 7 (by decide) true .key ht
  exact ⟨reborn, _, t, realPids_reborn, hr, rfl, ht, h2, id, (h3.resolve_left id).2⟩

/-- **C147 refuted** for a caller of the library that adds a process twice. -/
theorem C147_add_refuted (K : Kern) (fuel : Nat) (s : DSt) (pid q : Nat) (a : Bool) (b : Option Nat) (c : Bool) (h : getitem s pid = some q) :
    runOp K fuel (.addProcess pid a b c) s = (.error .key, s) := by
  have hd : dictHas s.dict pid = true := by
    have h := dictGet_some (show dictGet s.dict pid = some q from h)
    unfold dictHas
    exact List.any_eq_true.2 ⟨_, h, by simp⟩
  show void (addProcess K (waitEventPid K fuel) pid a b c) s = _
  unfold void Py.bind addProcess
  rw [hd]; rfl

example := C147_add_refuted calm 9 (two calm) 9 1 false none false (by decide +kernel)

/-- A call that meets the hypotheses of `C147_library_partial` and raises. -/
example : FromOutside (.ptrace (some 3)) := by
  have h : (runOp noOptions 5 (.addProcess 7 true none false) newDebugger).1 = .error (.ptrace (some 3)) := by decide +kernel
  rcases C147_library_partial (K := noOptions) (by intro log o pid st h; cases h) .new 5 (.addProcess 7 true none false) (by show (7 : Nat) ≠ 0; decide)
    _ (pair_eq h) with h | h | h | h
  · exact h
  · cases h.1
  · cases h.1
  · cases h.1

/-- The killed process cannot be waited for: strace.py ends with this exception. -/
def unkillable : Kern := fun log c =>
  match c with
  | .kill _ _ _ => .err 1
  | .cont _ _ _ => .err 1
  | .syscall _ _ _ => .err 1
  | _ => calm log c

example : FromOutside (.ptrace (some 1)) := by
  have h : (straceMain unkillable 9 readCfg 7 true newDebugger).1 = .error (.ptrace (some 1)) := by decide +kernel
  rcases C147_strace_partial (K := unkillable) (by intro log o pid st h; cases h) .new rfl 9 readCfg 7 (by decide) true
    _ (pair_eq h) with h | h
  · exact h
  · cases h.1

/-- The argument `1`. -/
def selfCfg : GdbCfg := { toldCfg with parse := fun _ text => if text = "1".toList then .ok 1 else .error .value }

/-- `gdb.py prog`; the user attaches the process that is traced already. -/
def doubled : GdbEnded := gdbProgram programEnv killable 9 selfCfg ["prog".toList] [.line "attach 1".toList, .line "cont".toList, .eof]

/-- **C147 refuted** for gdb.py: `attach` with the number of a traced process raises a `KeyError`, which ends the session before the next line and kills the process. -/
theorem C147_gdb_refuted : (∃ t, (gdbRun killable 9 selfCfg 1 true [.line "attach 1".toList, .line "cont".toList, .eof] newDebugger) = (.error .key, t)) ∧
    ∃ t, doubled = .ran (.ok none) t ∧ t.log.map (fun e => (e.call, e.reply)) = [(.waitpid (some 1) false false, .ok 1 0x137f), (.setoptions 0 1 1, .ok 0 0),
      (.cont 0 1 9, .ok 0 0), (.waitpid (some 1) false false, .ok 1 9)] := by
  have h0 : (gdbRun killable 9 selfCfg 1 true [.line "attach 1".toList, .line "cont".toList, .eof] newDebugger).1 = .error .key := by decide +kernel
  have h : (match doubled with
    | .ran (.ok none) t => decide (t.log.map (fun e => (e.call, e.reply)) = [(.waitpid (some 1) false false, .ok 1 0x137f), (.setoptions 0 1 1, .ok 0 0),
      (.cont 0 1 9, .ok 0 0), (.waitpid (some 1) false false, .ok 1 9)])
    | _ => false) = true := by decide +kernel
  refine ⟨⟨_, pair_eq h0⟩, ?_⟩
  split at h
  · rename_i t ht
    exact ⟨t, ht, of_decide_eq_true h⟩
  · cases h

end PT
