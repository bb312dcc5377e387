import Verif.Lemmas.Debugger7

/-! Histories as sequences of steps, used by the theorems about all histories. -/

namespace PT
open Spec

variable {K : Kern}

theorem runOp_any (fuel : Nat) (op : Op) (s : DSt) : Steps K (fun _ _ => True) s (runOp K fuel op s).2 :=
  runOp_steps' fuel op s (fun _ _ _ => trivial) (fun _ _ _ => trivial) (fun _ _ _ _ => trivial)
    (fun _ _ _ => trivial) (fun _ _ => trivial)

theorem trace_steps {s t : DSt} {ops : List Op} (h : Trace K s ops t) : Steps K (fun _ _ => True) s t := by
  induction h with
  | nil => exact .refl s
  | snoc h fuel op ih => exact ih.trans (runOp_any fuel op _)

theorem reach_trace {s : DSt} (h : Reach K s) : ∃ ops, Trace K newDebugger ops s := by
  induction h with
  | new => exact ⟨[], .nil⟩
  | call h fuel op hop ih =>
    obtain ⟨ops, ht⟩ := ih
    exact ⟨ops ++ [op], .snoc ht fuel op⟩

/-! ### every entry of the log -/

/-- The log only holds requests that were made properly. -/
structure LogInv (s : DSt) : Prop where
  values : ∀ e ∈ s.dict, e.2 < s.next
  signals : ∀ e ∈ s.log, ∀ o pid n, e.call = .cont o pid n ∨ e.call = .syscall o pid n → n ≠ SIGTRAP
  waits : ∀ e ∈ s.log, ∀ pid nohang wall, e.call = .waitpid (some pid) nohang wall →
    ∃ o, o < s.next ∧ (pid, o) ∈ e.dict ∧ wall = (s.heap o).isThread

theorem dictDel_values {d : List (Nat × Nat)} {k n : Nat} (h : ∀ e ∈ d, e.2 < n) : ∀ e ∈ dictDel d k, e.2 < n :=
  fun e he => h e ((mem_dictDel e).1 he).1

theorem dictSet_values {d : List (Nat × Nat)} {k n : Nat} (h : ∀ e ∈ d, e.2 < n) :
    ∀ e ∈ dictSet d k n, e.2 < n + 1 := by
  intro e he
  rcases (mem_dictSet e).1 he with h1 | ⟨_, h1⟩
  · rw [h1]; exact Nat.lt_succ_self n
  · exact Nat.lt_succ_of_lt (h e h1)

theorem Step.values {s t : DSt} {a : Act} (hs : Step K a s t) (h : ∀ e ∈ s.dict, e.2 < s.next) :
    ∀ e ∈ t.dict, e.2 < t.next := by
  cases hs with
  | detachRun o _ _ _ => exact dictDel_values h
  | detachDead o _ _ => exact dictDel_values h
  | delete o => exact dictDel_values h
  | addAttached pid parent isThread _ => exact dictSet_values h
  | addAttach pid parent isThread _ _ => exact dictSet_values h
  | _ => exact h

/-- What is known about the call logged by a step. -/
theorem Step.callOK {s t : DSt} {a : Act} {c : Call} (hs : Step K a s t) (hc : actCall s a = some c) :
    CallOK s c ∨ (∃ o pid, c = .attach o pid) ∨ ∃ o pid, c = .detach o pid := by
  cases hs with
  | call c' h => injection hc with hc; subst hc; exact Or.inl h
  | attachFail o pid _ => injection hc with hc; subst hc; exact Or.inr (Or.inl ⟨_, _, rfl⟩)
  | detachRun o _ _ _ => injection hc with hc; subst hc; exact Or.inr (Or.inr ⟨_, _, rfl⟩)
  | detachFail o _ _ _ => injection hc with hc; subst hc; exact Or.inr (Or.inr ⟨_, _, rfl⟩)
  | addAttach pid parent isThread _ _ => injection hc with hc; subst hc; exact Or.inr (Or.inl ⟨_, _, rfl⟩)
  | reattach o _ _ => injection hc with hc; subst hc; exact Or.inr (Or.inl ⟨_, _, rfl⟩)
  | _ => cases hc

theorem Step.entry {s t : DSt} {a : Act} (hs : Step K a s t) {e : Entry} (he : e ∈ t.log) :
    e ∈ s.log ∨ ∃ c, actCall s a = some c ∧ e = ⟨c, K s.log c, s.dict⟩ := by
  rw [hs.log] at he
  rcases List.mem_append.1 he with he | he
  · exact Or.inl he
  · obtain ⟨c, hc, rfl⟩ := List.mem_map.1 he
    exact Or.inr ⟨c, by simpa using hc, rfl⟩

theorem LogInv.step {s t : DSt} {a : Act} (hs : Step K a s t) (h : LogInv s) : LogInv t := by
  have hold := Old.step hs
  refine ⟨hs.values h.values, ?_, ?_⟩
  · intro e he o pid n hcall
    rcases hs.entry he with he | ⟨c, hc, rfl⟩
    · exact h.signals e he o pid n hcall
    · have hcall : c = .cont o pid n ∨ c = .syscall o pid n := hcall
      rcases hs.callOK hc with hok | ⟨_, _, hok⟩ | ⟨_, _, hok⟩
      · rcases hcall with rfl | rfl
        · exact hok.2
        · exact hok.2
      · subst hok; rcases hcall with hcall | hcall <;> cases hcall
      · subst hok; rcases hcall with hcall | hcall <;> cases hcall
  · intro e he pid nohang wall hcall
    rcases hs.entry he with he | ⟨c, hc, rfl⟩
    · obtain ⟨o, ho, hm, hw⟩ := h.waits e he pid nohang wall hcall
      exact ⟨o, Nat.lt_of_lt_of_le ho hold.next, hm, by rw [hold.thread o ho]; exact hw⟩
    · have hcall : c = .waitpid (some pid) nohang wall := hcall
      subst hcall
      rcases hs.callOK hc with ⟨o, ho, hw⟩ | ⟨_, _, hok⟩ | ⟨_, _, hok⟩
      · have hm := dictGet_some ho
        have hlt := h.values _ hm
        exact ⟨o, Nat.lt_of_lt_of_le hlt hold.next, hm, by rw [hold.thread o hlt]; exact hw⟩
      · cases hok
      · cases hok

theorem logInv_new : LogInv newDebugger := by
  refine ⟨?_, ?_, ?_⟩
  · intro e h; cases h
  · intro e h; cases h
  · intro e h; cases h

theorem trace_logInv {t : DSt} {ops : List Op} (h : Trace K newDebugger ops t) : LogInv t :=
  (trace_steps h).invariant (fun _ _ _ _ hs hi => LogInv.step hs hi) logInv_new

/-- No wait for any child in reachable states. -/
theorem reach_noAny (hz : NoZero K) {s : DSt} (h : Reach K s) :
    ∀ e ∈ s.log, ∀ nohang wall, e.call ≠ .waitpid none nohang wall := by
  induction h with
  | new => intro e he; cases he
  | call h fuel op hop ih =>
    rename_i s
    have hst := runOp_nz hz (fun _ _ => True) (fun _ _ _ => trivial) fuel op s (reach_pid hz h) (proper_noZero hop)
      (fun _ _ _ => trivial) (fun _ _ _ _ => trivial) (fun _ _ _ => trivial) (fun _ _ => trivial)
    obtain ⟨g, hg, hq⟩ := hst.newLog (Q := fun e => ∀ nohang wall, e.call ≠ .waitpid none nohang wall)
      (by
        intro u a c ha hc nohang wall he
        have he : c = .waitpid none nohang wall := he
        subst he
        cases a with
        | call c => injection hc with hc; subst hc; exact ha.1
        | add o pid b parent th => cases b <;> cases hc
        | _ => cases hc)
    intro e he
    rw [hg] at he
    rcases List.mem_append.1 he with he | he
    · exact ih e he
    · exact hq e he

/-! ### detach requests -/

/-- `attach` by the user adds at most one attachment. -/
theorem DetInv.attach {o n : Nat} (fuel : Nat) {s : DSt} (h : DetInv o n s) :
    DetInv o (n + 1) (runOp K fuel (.attach o) s).2 := by
  have hmono : DetInv o (n + 1) s := ⟨h.new, by have := h.once; omega⟩
  show DetInv o (n + 1) (onObj o (procAttach K o) s).2
  unfold onObj
  by_cases ho : o < s.next
  · rw [if_pos ho]
    unfold void Py.bind procAttach
    by_cases ha : (s.heap o).isAttached = true
    · rw [if_pos ha]; exact hmono
    · rw [if_neg ha]
      unfold Py.bind
      rw [ptraceCall_run]
      have hc : detachCount o (logCall K (.attach o (s.heap o).pid) s).log = detachCount o s.log := by
        show detachCount o (s.log ++ [_]) = _
        rw [detachCount_append]
        rfl
      have h1 := h.once
      rw [if_neg ha] at h1
      cases hr : ptraceRes (K s.log (.attach o (s.heap o).pid)) with
      | error e =>
        refine ⟨fun hle => ?_, ?_⟩
        · have hle : s.next ≤ o := hle
          omega
        · show detachCount o (logCall K (.attach o (s.heap o).pid) s).log + (if (s.heap o).isAttached then 1 else 0) ≤ _
          rw [hc, if_neg ha]
          omega
      | ok v =>
        refine ⟨fun hle => ?_, ?_⟩
        · have hle : s.next ≤ o := hle
          omega
        · show detachCount o (logCall K (.attach o (s.heap o).pid) s).log + _ ≤ _
          rw [hc]
          have hle : ∀ b : Bool, (if b = true then 1 else 0 : Nat) ≤ 1 := by intro b; cases b <;> decide
          refine Nat.le_trans (Nat.add_le_add_left (hle _) _) ?_
          omega
  · rw [if_neg ho]; exact hmono

theorem detachOnce {o : Nat} {t : DSt} {ops : List Op} (h : Trace K newDebugger ops t) :
    DetInv o (ops.count (.attach o)) t := by
  induction h with
  | nil => exact ⟨fun _ => ⟨rfl, rfl⟩, Nat.zero_le _⟩
  | snoc h fuel op ih =>
    rename_i ops t
    rw [List.count_append]
    by_cases hop : op = .attach o
    · subst hop
      rw [List.count_singleton_self]
      exact ih.attach fuel
    · rw [List.count_singleton, if_neg (by simpa using hop), Nat.add_zero]
      refine (runOp_steps' (K := K) (P := fun _ a => a ≠ .reattach o) fuel op t ?_ ?_ ?_ ?_ ?_).invariant
        (fun _ _ _ ha hs hi => DetInv.step ha hs hi) ih
      · intro u a ha hr; subst hr; exact ha
      · intro q _ _ hr; cases hr
      · intro p q _ _ hr; cases hr
      · intro q hq _ hr
        injection hr with hr
        exact hop (by rw [hq, hr])
      · intro _ bits hr; cases hr

/-! ### options -/

theorem runOp_options (fuel : Nat) (op : Op) (s : DSt) :
    (runOp K fuel op s).2.options = s.options ||| optionBits op := by
  by_cases ho : opOptions op
  · cases op <;> first | exact ho.elim | rfl
  · have h0 : optionBits op = 0 := by cases op <;> first | rfl | exact absurd trivial ho
    rw [h0, Nat.or_zero]
    refine (runOp_steps' (K := K) (P := fun _ a => ∀ bits, a ≠ .options bits) fuel op s ?_ ?_ ?_ ?_ ?_).invariant
      (I := fun t => t.options = s.options) ?_ rfl
    · intro u a ha bits hr; subst hr; exact ha
    · intro q _ _ bits hr; cases hr
    · intro p q _ _ bits hr; cases hr
    · intro q _ _ bits hr; cases hr
    · intro h; exact absurd h ho
    · intro u a v ha hs hi
      cases hs with
      | options bits _ _ _ _ => exact absurd rfl (ha bits)
      | _ => exact hi

theorem trace_options {s t : DSt} {ops : List Op} (h : Trace K s ops t) :
    t.options = ops.foldl (fun acc op => acc ||| optionBits op) s.options := by
  induction h with
  | nil => rfl
  | snoc h fuel op ih =>
    rw [runOp_options, ih, List.foldl_append]
    rfl

theorem foldl_or_ne_zero (ops : List Op) : ∀ n, n ≠ 0 → ops.foldl (fun acc op => acc ||| optionBits op) n ≠ 0 := by
  induction ops with
  | nil => intro n h; exact h
  | cons op ops ih =>
    intro n h
    refine ih _ ?_
    intro h0
    exact h (Nat.or_eq_zero_iff.1 h0).1

theorem reach_options {s : DSt} (h : Reach K s) : s.options ≠ 0 := by
  obtain ⟨ops, ht⟩ := reach_trace h
  rw [trace_options ht]
  exact foldl_or_ne_zero ops _ (by decide)

/-! ### `SIGKILL` -/

theorem waitEventPid_noKill (fuel pid : Nat) (blocking : Bool) (s : DSt) :
    ∃ g, (waitEventPid K fuel pid blocking s).2.log = s.log ++ g ∧ ∀ e ∈ g, isKill e.call = false := by
  have h := waitEventPid_sat (K := K) (S := Rules.plain K fun _ => waitActs True) (fun _ _ h => h) fuel pid blocking
    (Or.inr trivial) s trivial
  exact h.newLog fun u a c ha hc => (waitActs_target ha hc).2.2

theorem gone_log (o : Nat) (s : DSt) : (gone o s).log = s.log := by unfold gone; split <;> rfl

theorem waitExit_noKill (hz : NoZero K) (hk : NoKillStop K) (fuel o : Nat) : ∀ (n : Nat) (s : DSt), RegInv s →
    o < s.next → (s.heap o).pid ≠ 0 →
    ∃ g, (waitExit K fuel o n s).2.log = s.log ++ g ∧ ∀ e ∈ g, isKill e.call = false := by
  intro n
  induction n with
  | zero => intro s _ _ _; exact ⟨[], by simp [waitExit, Py.raise], by simp⟩
  | succ n ih =>
    intro s hr ho hp
    have hw := waitEventPid_out hz fuel (s.heap o).pid true s hp hr
    have hst := waitEventPid_sat (K := K) (S := Rules.plain K fun _ => waitActs True) (fun _ _ h => h) fuel
      (s.heap o).pid true (Or.inr trivial) s trivial
    obtain ⟨g1, hg1, hq1⟩ := waitEventPid_noKill (K := K) fuel (s.heap o).pid true s
    unfold waitExit Py.bind
    generalize waitEventPid K fuel (s.heap o).pid true s = x at hw hst hg1
    obtain ⟨r, s1⟩ := x
    have hst : Steps K (fun _ => waitActs True) s s1 := hst
    have hg1 : s1.log = s.log ++ g1 := hg1
    have hr1 : RegInv s1 := RegInv.plain (hst.mono fun _ a h => plain_of_wait a h) hr
    have hold := hst.old
    cases r with
    | error e => exact ⟨g1, hg1, hq1⟩
    | ok ev =>
      cases ev with
      | none => exact ⟨g1, hg1, hq1⟩
      | some ev =>
        cases ev with
        | newProcess q => exact ⟨g1, hg1, hq1⟩
        | execution q => exact ⟨g1, hg1, hq1⟩
        | exit q a b => exact ⟨g1, hg1, hq1⟩
        | signal q m =>
          obtain ⟨_, st, hK, hcl, _⟩ := hw
          have hm : m ≠ 9 := by intro h; subst h; exact hk _ _ _ _ hK hcl
          have hcont : ∃ k, k ≠ 9 ∧ (if m ≠ SIGTRAP ∧ m ≠ SIGSTOP then procCont K o m else procCont K o 0) =
              procCont K o k := by
            by_cases hm' : m ≠ SIGTRAP ∧ m ≠ SIGSTOP
            · exact ⟨m, hm, if_pos hm'⟩
            · exact ⟨0, by decide, if_neg hm'⟩
          obtain ⟨k, hk9, hkk⟩ := hcont
          dsimp only
          rw [hkk]
          have hf : filterSignal k ≠ 9 := by
            unfold filterSignal
            by_cases h5 : k = SIGTRAP
            · rw [if_pos h5]; decide
            · rw [if_neg h5]; exact hk9
          unfold procCont Py.bind
          rw [ptraceCall_run]
          have hlog : (logCall K (.cont o (s1.heap o).pid (filterSignal k)) s1).log = s.log ++ (g1 ++
              [⟨.cont o (s1.heap o).pid (filterSignal k), K s1.log (.cont o (s1.heap o).pid (filterSignal k)), s1.dict⟩]) := by
            show s1.log ++ [_] = _
            rw [hg1, List.append_assoc]
          have hq2 : ∀ e ∈ (g1 ++ [(⟨.cont o (s1.heap o).pid (filterSignal k),
              K s1.log (.cont o (s1.heap o).pid (filterSignal k)), s1.dict⟩ : Entry)]), isKill e.call = false := by
            intro e he
            rcases List.mem_append.1 he with he | he
            · exact hq1 e he
            · rw [List.mem_singleton.1 he]
              exact decide_eq_false hf
          cases hres : ptraceRes (K s1.log (.cont o (s1.heap o).pid (filterSignal k))) with
          | error e => exact ⟨_, hlog, hq2⟩
          | ok v =>
            dsimp only [updProc]
            have hr2 : RegInv (setProc (logCall K (.cont o (s1.heap o).pid (filterSignal k)) s1) o
                { (logCall K (.cont o (s1.heap o).pid (filterSignal k)) s1).heap o with isStopped := false }) :=
              (hr1.logCall K _).setProc o _ rfl id
            obtain ⟨g3, hg3, hq3⟩ := ih _ hr2 (Nat.lt_of_lt_of_le ho hold.next) (by
              rw [setProc_same]
              show (s1.heap o).pid ≠ 0
              rw [hold.pid o ho]
              exact hp)
            refine ⟨(g1 ++ [⟨.cont o (s1.heap o).pid (filterSignal k),
                K s1.log (.cont o (s1.heap o).pid (filterSignal k)), s1.dict⟩]) ++ g3, ?_, ?_⟩
            · rw [hg3]
              show (logCall K (.cont o (s1.heap o).pid (filterSignal k)) s1).log ++ g3 = _
              rw [hlog, List.append_assoc]
            · intro e he
              rcases List.mem_append.1 he with he | he
              · exact hq2 e he
              · exact hq3 e he

/-- `terminate` sends at most one `SIGKILL`. -/
theorem terminate_oneKill (hz : NoZero K) (hk : NoKillStop K) (fuel o : Nat) (wait : Bool) (s : DSt) (hr : RegInv s)
    (ho : o < s.next) (hp : (s.heap o).pid ≠ 0) :
    ∃ g, (terminate K fuel o wait s).2.log = s.log ++ g ∧ (g.countP fun e => isKill e.call) ≤ 1 := by
  unfold terminate
  by_cases hc : (!(s.heap o).running || !(s.heap o).wasAttached) = true
  · rw [if_pos hc]; exact ⟨[], by simp, by simp⟩
  · rw [if_neg hc]
    have hkill : ∃ e, (terminateKill K o s).2.log = s.log ++ [e] := by
      unfold terminateKill
      by_cases hs : (s.heap o).isStopped = true
      · rw [if_pos hs]
        unfold procCont Py.bind
        rw [ptraceCall_run]
        cases hres : ptraceRes (K s.log (.cont o (s.heap o).pid (filterSignal SIGKILL))) with
        | error e =>
          dsimp only
          split <;> exact ⟨_, rfl⟩
        | ok v => exact ⟨_, rfl⟩
      · rw [if_neg hs]
        unfold procKill Py.bind
        rw [osCall_run]
        cases hres : osRes (K s.log (.kill o (s.heap o).pid SIGKILL)) with
        | error e =>
          dsimp only
          split <;> exact ⟨_, rfl⟩
        | ok v => exact ⟨_, rfl⟩
    obtain ⟨e0, he0⟩ := hkill
    have hone : ([e0].countP fun e => isKill e.call) ≤ 1 := by
      rw [List.countP_cons]; split <;> simp
    have hshk := terminateKill_ok (K := K) o s
    unfold Py.bind
    generalize terminateKill K o s = x at he0 hshk
    obtain ⟨r, s1⟩ := x
    have he0 : s1.log = s.log ++ [e0] := he0
    cases r with
    | error e => exact ⟨[e0], he0, hone⟩
    | ok done =>
      have hsh := hshk s1 done rfl
      dsimp only
      cases done with
      | true =>
        simp only [Bool.not_true, Bool.false_and, Bool.false_eq_true, if_false, if_true]
        dsimp only [Py.pure]
        rw [notRunning_run]
        exact ⟨[e0], by rw [← he0]; exact gone_log o s1, hone⟩
      | false =>
        cases wait with
        | false => exact ⟨[e0], he0, hone⟩
        | true =>
          simp only [Bool.not_true, Bool.not_false, Bool.and_false, Bool.false_eq_true, if_false]
          obtain ⟨g, hg, hq⟩ := waitExit_noKill hz hk fuel o fuel s1 (hsh.regInv hr) (by rw [hsh.next]; exact ho)
            (by rw [hsh.pid]; exact hp)
          have hcount : (([e0] ++ g).countP fun e => isKill e.call) ≤ 1 := by
            rw [List.countP_append]
            have : (g.countP fun e => isKill e.call) = 0 := by
              rw [List.countP_eq_zero]
              intro e he
              rw [hq e he]
              simp
            omega
          generalize waitExit K fuel o fuel s1 = y at hg
          obtain ⟨r2, s2⟩ := y
          have hg : s2.log = s1.log ++ g := hg
          have hlog : s2.log = s.log ++ ([e0] ++ g) := by rw [hg, he0, List.append_assoc]
          cases r2 with
          | error e => exact ⟨_, hlog, hcount⟩
          | ok _ =>
            dsimp only [Py.pure]
            rw [notRunning_run]
            exact ⟨_, by rw [← hlog]; exact gone_log o s2, hcount⟩

end PT
