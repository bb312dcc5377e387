import Verif.Lemmas.Debugger8
import Verif.Lemmas.Wait
import Verif.Lemmas.Py
import Verif.Spec.Quit

/-! Ending one process after the other. -/

namespace PT
open PT.Spec

/-- Requests `cs` were made for object `o`, which is still there. -/
structure Busy (o : Nat) (s : DSt) (cs : List Call) (t : DSt) : Prop where
  others : ∀ q, q ≠ o → t.heap q = s.heap q
  pid : (t.heap o).pid = (s.heap o).pid
  running : (t.heap o).running = (s.heap o).running
  attached : (t.heap o).isAttached = (s.heap o).isAttached
  was : (t.heap o).wasAttached = (s.heap o).wasAttached
  thread : (t.heap o).isThread = (s.heap o).isThread
  dict : t.dict = s.dict
  list : t.list = s.list
  options : t.options = s.options
  log : ∃ g, t.log = s.log ++ g ∧ g.map Entry.call = cs

/-- Requests `cs` were made for object `o`, which is not registered any more. -/
structure Left (o : Nat) (s : DSt) (cs : List Call) (t : DSt) : Prop where
  others : ∀ q, q ≠ o → t.heap q = s.heap q
  attached : (t.heap o).isAttached = false
  dict : t.dict = dictDel s.dict (s.heap o).pid
  list : t.list = s.list.erase o
  log : ∃ g, t.log = s.log ++ g ∧ g.map Entry.call = cs

section
variable {K : Kern} {o : Nat} {s t u : DSt} {cs ds : List Call}

theorem Busy.refl : Busy o s [] s := ⟨fun _ _ => rfl, rfl, rfl, rfl, rfl, rfl, rfl, rfl, rfl, [], by simp, rfl⟩

theorem Busy.trans (h : Busy o s cs t) (h' : Busy o t ds u) : Busy o s (cs ++ ds) u := by
  obtain ⟨g, hg, hc⟩ := h.log
  obtain ⟨g', hg', hc'⟩ := h'.log
  exact ⟨fun q hq => (h'.others q hq).trans (h.others q hq), h'.pid.trans h.pid, h'.running.trans h.running, h'.attached.trans h.attached,
    h'.was.trans h.was, h'.thread.trans h.thread, h'.dict.trans h.dict, h'.list.trans h.list, h'.options.trans h.options, g ++ g',
    by rw [hg', hg, List.append_assoc], by rw [List.map_append, hc, hc']⟩

theorem Busy.left (h : Busy o s cs t) (h' : Left o t ds u) : Left o s (cs ++ ds) u := by
  obtain ⟨g, hg, hc⟩ := h.log
  obtain ⟨g', hg', hc'⟩ := h'.log
  exact ⟨fun q hq => (h'.others q hq).trans (h.others q hq), h'.attached, by rw [h'.dict, h.dict, h.pid], by rw [h'.list, h.list],
    g ++ g', by rw [hg', hg, List.append_assoc], by rw [List.map_append, hc, hc']⟩

theorem busy_call {c : Call} {v : Nat} {st : Int} (hk : K s.log c = .ok v st) : ∃ t, ptraceCall K c s = (.ok v, t) ∧ Busy o s [c] t := by
  refine ⟨{ s with log := s.log ++ [⟨c, K s.log c, s.dict⟩] }, ?_, fun _ _ => rfl, rfl, rfl, rfl, rfl, rfl, rfl, rfl, rfl, _, rfl, rfl⟩
  unfold ptraceCall sysc Py.bind
  dsimp only
  rw [hk]
  rfl

theorem busy_os {c : Call} {v : Nat} {st : Int} (hk : K s.log c = .ok v st) : ∃ t, osCall K c s = (.ok (v, st), t) ∧ Busy o s [c] t := by
  refine ⟨{ s with log := s.log ++ [⟨c, K s.log c, s.dict⟩] }, ?_, fun _ _ => rfl, rfl, rfl, rfl, rfl, rfl, rfl, rfl, rfl, _, rfl, rfl⟩
  unfold osCall sysc Py.bind
  dsimp only
  rw [hk]
  rfl

theorem busy_upd {f : Proc → Proc} (hf : ∀ p, (f p).pid = p.pid ∧ (f p).running = p.running ∧ (f p).isAttached = p.isAttached ∧
    (f p).wasAttached = p.wasAttached ∧ (f p).isThread = p.isThread) : Busy o s [] (updProc o f s).2 := by
  obtain ⟨h1, h2, h3, h4, h5⟩ := hf (s.heap o)
  refine ⟨fun q hq => ?_, ?_, ?_, ?_, ?_, ?_, rfl, rfl, rfl, [], ?_, rfl⟩
  · exact if_neg hq
  all_goals simp [updProc, setProc, *]

theorem busy_cont {n v : Nat} {st : Int} (hk : K s.log (.cont o (s.heap o).pid (filterSignal n)) = .ok v st) :
    ∃ t, procCont K o n s = (.ok (), t) ∧ Busy o s [.cont o (s.heap o).pid (filterSignal n)] t := by
  obtain ⟨t, h1, h2⟩ := busy_call (o := o) hk
  refine ⟨_, ?_, h2.trans (ds := []) (busy_upd (f := fun p => { p with isStopped := false }) fun p => ⟨rfl, rfl, rfl, rfl, rfl⟩)⟩
  unfold procCont
  rw [Py.run_bind_ok h1]
  rfl

theorem busy_kill {n v : Nat} {st : Int} (hk : K s.log (.kill o (s.heap o).pid n) = .ok v st) :
    ∃ t, procKill K o n s = (.ok (), t) ∧ Busy o s [.kill o (s.heap o).pid n] t := by
  obtain ⟨t, h1, h2⟩ := busy_os (o := o) hk
  refine ⟨t, ?_, h2⟩
  unfold procKill
  rw [Py.run_bind_ok h1]
  rfl

/-- `_notRunning` of a process that is attached. -/
theorem left_notRunning (ha : (s.heap o).isAttached = true) : ∃ t, notRunning K o s = (.ok (), t) ∧ Left o s [] t := by
  have e : notRunning K o s = deleteProcess o (setProc (setProc s o { s.heap o with running := false }) o
      { { s.heap o with running := false } with isAttached := false }) := by
    unfold notRunning
    rw [show Py.bind (updProc o fun p => { p with running := false }) (fun _ => detach K o) s =
      detach K o (setProc s o { s.heap o with running := false }) from rfl]
    unfold detach
    rw [if_pos (show ((setProc s o { s.heap o with running := false }).heap o).isAttached = true by simpa [setProc] using ha)]
    simp [Py.bind, updProc, setProc, Py.pure]
  refine ⟨_, e, fun q hq => ?_, ?_, ?_, ?_, [], ?_, rfl⟩
  · simp [setProc, hq]
  all_goals simp [setProc]

/-- `detach` of a process that is attached. -/
theorem left_detach (ha : (s.heap o).isAttached = true) (hk : (s.heap o).running = true → ∃ v st, K s.log (.detach o (s.heap o).pid) = .ok v st) :
    ∃ t, detach K o s = (.ok (), t) ∧ Left o s (if (s.heap o).running then [.detach o (s.heap o).pid] else []) t := by
  unfold detach
  rw [if_pos ha]
  cases hr : (s.heap o).running with
  | false =>
    refine ⟨_, rfl, fun q hq => ?_, ?_, ?_, ?_, [], ?_, rfl⟩
    · simp [setProc, hq]
    all_goals simp [setProc]
  | true =>
    obtain ⟨v, st, hk⟩ := hk hr
    obtain ⟨t, h1, h2⟩ := busy_call (o := o) (s := setProc s o { s.heap o with isAttached := false }) (c := .detach o (s.heap o).pid) hk
    obtain ⟨g, hg, hc⟩ := h2.log
    refine ⟨{ t with dict := dictDel t.dict (t.heap o).pid, list := t.list.erase o }, ?_, fun q hq => ?_, ?_, ?_, ?_, g, hg, hc⟩
    · rw [Py.run_bind_ok (show updProc o (fun p => { p with isAttached := false }) s = (.ok (), setProc s o { s.heap o with isAttached := false }) from rfl)]
      rw [if_pos rfl]
      rw [Py.run_bind_ok (a := ()) (u := t) (by rw [Py.run_bind_ok h1]; rfl)]
      rfl
    · have := h2.others q hq
      simpa [setProc, hq] using this
    · have := h2.attached
      simpa [setProc] using this
    · have h3 := h2.pid
      have h4 := h2.dict
      simp [setProc] at h3 h4
      simp [h3, h4]
    · have h4 := h2.list
      simp [setProc] at h4
      simp [h4]

theorem waits_append (pid : Nat) (cs ds : List Call) : waits pid (cs ++ ds) = waits pid cs + waits pid ds := List.countP_append

/-- Waiting for the process. -/
theorem busy_wait (hp : (s.heap o).pid ≠ 0) (hd : dictGet s.dict (s.heap o).pid = some o) {st : Int}
    (hk : K s.log (.waitpid (some (s.heap o).pid) false (s.heap o).isThread) = .ok (s.heap o).pid st) :
    ∃ t, waitpidRaw K (s.heap o).pid true s = (.ok ((s.heap o).pid, st), t) ∧
      Busy o s [.waitpid (some (s.heap o).pid) false (s.heap o).isThread] t := by
  obtain ⟨t, h1, h2⟩ := busy_os (o := o) hk
  refine ⟨t, ?_, h2⟩
  unfold waitpidRaw
  rw [if_pos hp, hd]
  dsimp only
  rw [Py.run_bind_ok (show osCall K (.waitpid (some (s.heap o).pid) (!true) (s.heap o).isThread) s = _ from h1)]
  unfold checkPid
  simp

/-- What the kernel said becomes an event. -/
theorem wait_event (hp : (s.heap o).pid ≠ 0) (hd : dictGet s.dict (s.heap o).pid = some o) {st : Int} (fuel : Nat)
    (hk : K s.log (.waitpid (some (s.heap o).pid) false (s.heap o).isThread) = .ok (s.heap o).pid st) :
    ∃ t, Busy o s [.waitpid (some (s.heap o).pid) false (s.heap o).isThread] t ∧
      waitEventPid K (fuel + 1) (s.heap o).pid true s =
        Py.bind (processStatus K (waitEventPid K fuel) o st) (fun e => Py.pure (some e)) t := by
  obtain ⟨t, h1, h2⟩ := busy_wait hp hd hk
  refine ⟨t, h2, ?_⟩
  unfold waitEventPid
  rw [h1]
  dsimp only [waitReply]
  rw [h2.dict, hd]
  simp

/-- A signal. -/
theorem wait_signal (hp : (s.heap o).pid ≠ 0) (hd : dictGet s.dict (s.heap o).pid = some o) {st : Int} {n : Nat} (fuel : Nat)
    (hk : K s.log (.waitpid (some (s.heap o).pid) false (s.heap o).isThread) = .ok (s.heap o).pid st) (hm : waitMeaning st = .signal n) :
    ∃ t, waitEventPid K (fuel + 1) (s.heap o).pid true s = (.ok (some (.signal o n)), t) ∧
      Busy o s [.waitpid (some (s.heap o).pid) false (s.heap o).isThread] t ∧ (t.heap o).isStopped = true := by
  obtain ⟨t, h1, h2⟩ := wait_event hp hd fuel hk
  refine ⟨_, ?_, h1.trans (ds := []) (busy_upd (f := fun p => { p with isStopped := true }) fun p => ⟨rfl, rfl, rfl, rfl, rfl⟩), ?_⟩
  · rw [h2]
    unfold processStatus
    rw [classify_kind, hm]
    rfl
  · simp [updProc, setProc]

/-- The end. -/
theorem wait_final (hp : (s.heap o).pid ≠ 0) (hd : dictGet s.dict (s.heap o).pid = some o) (ha : (s.heap o).isAttached = true) {st : Int}
    (fuel : Nat) (hk : K s.log (.waitpid (some (s.heap o).pid) false (s.heap o).isThread) = .ok (s.heap o).pid st) (hm : Final (waitMeaning st)) :
    ∃ t a b, waitEventPid K (fuel + 1) (s.heap o).pid true s = (.ok (some (.exit o a b)), t) ∧
      Left o s [.waitpid (some (s.heap o).pid) false (s.heap o).isThread] t ∧
      ((∃ c, waitMeaning st = .exited c ∧ a = none ∧ b = some c) ∨ ∃ n, waitMeaning st = .killed n ∧ a = some n ∧ b = none) := by
  obtain ⟨t, h1, h2⟩ := wait_event hp hd fuel hk
  obtain ⟨u, h3, h4⟩ := left_notRunning (K := K) (o := o) (s := t) (h1.attached.trans ha)
  have h5 := h1.left h4
  rw [List.append_nil] at h5
  unfold processStatus at h2
  rw [classify_kind] at h2
  cases hw : waitMeaning st with
  | exited c =>
    rw [hw] at h2
    refine ⟨u, none, some c, ?_, h5, Or.inl ⟨c, rfl, rfl, rfl⟩⟩
    rw [h2]
    dsimp only
    rw [Py.run_bind_ok (by rw [Py.run_bind_ok h3]; rfl)]
    rfl
  | killed n =>
    rw [hw] at h2
    refine ⟨u, some n, none, ?_, h5, Or.inr ⟨n, rfl, rfl, rfl⟩⟩
    rw [h2]
    dsimp only
    rw [Py.run_bind_ok (by rw [Py.run_bind_ok h3]; rfl)]
    rfl
  | signal n => rw [hw] at hm; cases hm
  | event n => rw [hw] at hm; cases hm
  | unknown => rw [hw] at hm; cases hm

/-- The requests of `waitExit`. -/
def exitCalls (o : Nat) (p : Proc) (pending : List Nat) : List Call :=
  pending.flatMap (fun n => [.waitpid (some p.pid) false p.isThread, .cont o p.pid (if n = 5 ∨ n = 19 then 0 else n)]) ++
    [.waitpid (some p.pid) false p.isThread]

theorem left_waitExit {log : List Entry} {pid : Nat} {thread : Bool} {pending : List Nat} {last : StatusKind} (hE : Ends K log o pid thread pending last)
    (hp : pid ≠ 0) (fuel : Nat) (sigs : List Nat) : ∀ (pre : List Nat) (g : List Entry) (s : DSt) (n : Nat), pending = pre ++ sigs → sigs.length < n →
      s.log = log ++ g → waits pid (g.map Entry.call) = pre.length → (s.heap o).pid = pid → (s.heap o).isThread = thread →
      (s.heap o).isAttached = true → dictGet s.dict pid = some o →
      ∃ t, waitExit K (fuel + 1) o n s = (.ok (), t) ∧ Left o s (exitCalls o (s.heap o) sigs) t := by
  induction sigs with
  | nil =>
    intro pre g s n hpre hn hl hw hpid ht ha hd
    obtain ⟨n, rfl⟩ : ∃ m, n = m + 1 := ⟨n - 1, by simp at hn; omega⟩
    obtain ⟨st, hk, hm⟩ := hE.wait g last (by rw [hw, hpre, List.append_nil]; simp)
    rw [← hl, ← hpid, ← ht] at hk
    obtain ⟨t, a, b, h1, h2, -⟩ := wait_final (by rw [hpid]; exact hp) (by rw [hpid]; exact hd) ha fuel hk (by rw [hm]; exact hE.final)
    refine ⟨t, ?_, h2⟩
    unfold waitExit
    rw [Py.run_bind_ok h1]
    rfl
  | cons m sigs ih =>
    intro pre g s n hpre hn hl hw hpid ht ha hd
    obtain ⟨n, rfl⟩ : ∃ m, n = m + 1 := ⟨n - 1, by simp at hn; omega⟩
    obtain ⟨st, hk, hm⟩ := hE.wait g (.signal m) (by rw [hw, hpre]; simp)
    rw [← hl, ← hpid, ← ht] at hk
    obtain ⟨t, h1, h2, -⟩ := wait_signal (by rw [hpid]; exact hp) (by rw [hpid]; exact hd) fuel hk hm
    obtain ⟨g1, hg1, hc1⟩ := h2.log
    obtain ⟨v, x, hk2⟩ := (hE.accepts (g ++ g1) (if m = 5 ∨ m = 19 then 0 else m)).1
    rw [← List.append_assoc, ← hl, ← hg1, ← hpid, ← h2.pid] at hk2
    have hcont : ∃ u, (if m ≠ SIGTRAP ∧ m ≠ SIGSTOP then procCont K o m else procCont K o 0) t = (.ok (), u) ∧
        Busy o t [.cont o (t.heap o).pid (if m = 5 ∨ m = 19 then 0 else m)] u := by
      by_cases h5 : m = 5 ∨ m = 19
      · rw [if_pos h5] at hk2 ⊢
        rw [if_neg (by unfold SIGTRAP SIGSTOP; omega)]
        exact busy_cont hk2
      · rw [if_neg h5] at hk2 ⊢
        have hf : filterSignal m = m := by unfold filterSignal; exact if_neg (fun h => h5 (Or.inl h))
        rw [if_pos (by unfold SIGTRAP SIGSTOP; omega)]
        have := busy_cont (K := K) (o := o) (s := t) (n := m) (by rw [hf]; exact hk2)
        rwa [hf] at this
    obtain ⟨u, h3, h4⟩ := hcont
    have h5 := h2.trans h4
    obtain ⟨g2, hg2, hc2⟩ := h5.log
    obtain ⟨w, h6, h7⟩ := ih (pre ++ [m]) (g ++ g2) u n (by rw [hpre]; simp) (by simp at hn; omega) (by rw [hg2, hl, List.append_assoc])
      (by rw [List.map_append, waits_append, hw, hc2]; simp [waits, hpid]) (h5.pid.trans hpid) (h5.thread.trans ht) (h5.attached.trans ha)
      (by rw [h5.dict]; exact hd)
    refine ⟨w, ?_, ?_⟩
    · unfold waitExit
      rw [Py.run_bind_ok h1]
      dsimp only
      rw [Py.run_bind_ok h3]
      exact h6
    · have := h5.left h7
      unfold exitCalls at this ⊢
      rw [h2.pid, h5.pid, h5.thread] at this
      simpa using this

/-- `terminate` and `detach` of one process. -/
theorem left_one {log g : List Entry} {f : Fate} (hl : s.log = log ++ g) (hK : Keeps K log o (s.heap o) f) (hp : (s.heap o).pid ≠ 0)
    (hw : waits (s.heap o).pid (g.map Entry.call) = 0) (ha : (s.heap o).isAttached = true) (hd : dictGet s.dict (s.heap o).pid = some o)
    (fuel : Nat) (hf : f.length < fuel) :
    ∃ t, Py.bind (terminate K fuel o true) (fun _ => detach K o) s = (.ok (), t) ∧ Left o s (farewell o (s.heap o) f) t := by
  have spare : (s.heap o).running = false ∨ (s.heap o).wasAttached = false →
      Py.bind (terminate K fuel o true) (fun _ => detach K o) s = detach K o s := by
    intro h
    refine Py.run_bind_ok (a := true) ?_
    unfold terminate
    rw [if_pos (by rcases h with h | h <;> simp [h])]
  cases hr : (s.heap o).running with
  | false =>
    obtain ⟨t, h1, h2⟩ := left_detach (K := K) ha (fun h => by rw [hr] at h; cases h)
    rw [hr] at h2
    refine ⟨t, (spare (Or.inl hr)).trans h1, ?_⟩
    unfold farewell
    rw [hr]
    exact h2
  | true =>
    cases hc : (s.heap o).wasAttached with
    | false =>
      have hk : ∃ v st, K s.log (.detach o (s.heap o).pid) = .ok v st := by
        cases f with
        | ends pending last =>
          have := hK hr
          rw [hc] at this
          rw [hl]
          exact this g
        | absent => have := (hK hr).1; rw [hc] at this; cases this
      obtain ⟨t, h1, h2⟩ := left_detach (K := K) ha (fun _ => hk)
      rw [hr] at h2
      refine ⟨t, (spare (Or.inr hc)).trans h1, ?_⟩
      unfold farewell
      rw [hr, hc]
      exact h2
    | true =>
      have last : ∀ {cs : List Call} {t u : DSt}, Busy o s cs t → notRunning K o t = (.ok (), u) → Left o t [] u → Left o s cs u := by
        intro cs t u h _ h'
        have := h.left h'
        rwa [List.append_nil] at this
      have after : ∀ {cs : List Call} {u : DSt}, terminate K fuel o true s = (.ok true, u) → Left o s cs u →
          ∃ t, Py.bind (terminate K fuel o true) (fun _ => detach K o) s = (.ok (), t) ∧ Left o s cs t := by
        intro cs u h1 h2
        refine ⟨u, ?_, h2⟩
        rw [Py.run_bind_ok h1]
        unfold detach
        rw [if_neg (by rw [h2.attached]; simp)]
      cases f with
      | absent =>
        obtain ⟨-, hs, hk⟩ := hK hr
        have hk := hk g
        rw [← hl] at hk
        have hbusy : Busy o s [.cont o (s.heap o).pid 9] { s with log := s.log ++ [⟨.cont o (s.heap o).pid 9, .err 3, s.dict⟩] } :=
          ⟨fun _ _ => rfl, rfl, rfl, rfl, rfl, rfl, rfl, rfl, rfl, _, rfl, rfl⟩
        obtain ⟨u, h1, h2⟩ := left_notRunning (K := K) (o := o) (hbusy.attached.trans ha)
        have h3 := last hbusy h1 h2
        have hfw : farewell o (s.heap o) .absent = [.cont o (s.heap o).pid 9] := by
          unfold farewell
          rw [hr, hc, hs]
          rfl
        rw [hfw]
        refine after ?_ h3
        unfold terminate
        rw [if_neg (by simp [hr, hc])]
        rw [Py.run_bind_ok (a := true) (u := { s with log := s.log ++ [⟨.cont o (s.heap o).pid 9, .err 3, s.dict⟩] })]
        · rw [if_neg (by simp), if_pos rfl, Py.run_bind_ok (show Py.pure () _ = _ from rfl), Py.run_bind_ok h1]
          rfl
        · unfold terminateKill
          rw [hs, if_pos rfl]
          have e : procCont K o SIGKILL s = (.error (.ptrace (some 3)),
              { s with log := s.log ++ [⟨.cont o (s.heap o).pid 9, .err 3, s.dict⟩] }) := by
            unfold procCont
            refine Py.run_bind_error ?_
            unfold ptraceCall sysc Py.bind
            dsimp only
            rw [show filterSignal SIGKILL = 9 from rfl, hk]
            rfl
          rw [e]
          rfl
      | ends pending fin =>
        have hE := hK hr
        rw [hc, if_pos rfl] at hE
        have hkill : ∃ u, (if (s.heap o).isStopped then procCont K o SIGKILL else procKill K o SIGKILL) s = (.ok (), u) ∧
            Busy o s [if (s.heap o).isStopped then .cont o (s.heap o).pid 9 else .kill o (s.heap o).pid 9] u := by
          obtain ⟨⟨v, st, h1⟩, v', st', h2⟩ := hE.accepts g 9
          rw [← hl] at h1 h2
          cases (s.heap o).isStopped with
          | true => exact busy_cont h1
          | false => exact busy_kill h2
        obtain ⟨u, h1, h2⟩ := hkill
        obtain ⟨g1, hg1, hc1⟩ := h2.log
        obtain ⟨fuel, rfl⟩ : ∃ m, fuel = m + 1 := ⟨fuel - 1, by omega⟩
        obtain ⟨w, h3, h4⟩ := left_waitExit hE hp fuel pending [] (g ++ g1) u (fuel + 1) rfl hf (by rw [hg1, hl, List.append_assoc])
          (by rw [List.map_append, waits_append, hw, hc1]; split <;> rfl) h2.pid h2.thread (h2.attached.trans ha) (by rw [h2.dict]; exact hd)
        have h5 := h2.left h4
        have hfw : farewell o (s.heap o) (.ends pending fin) = [if (s.heap o).isStopped then .cont o (s.heap o).pid 9 else .kill o (s.heap o).pid 9] ++
            exitCalls o (u.heap o) pending := by
          unfold farewell exitCalls
          rw [hr, hc, h2.pid, h2.thread]
          rfl
        rw [hfw]
        have hnr : notRunning K o w = (.ok (), (updProc o (fun p => { p with running := false }) w).2) := by
          unfold notRunning
          rw [show Py.bind (updProc o fun p => { p with running := false }) (fun _ => detach K o) w =
            detach K o (updProc o (fun p => { p with running := false }) w).2 from rfl]
          unfold detach
          rw [if_neg]
          simp [updProc, setProc, h5.attached]
        have h6 : Left o s ([if (s.heap o).isStopped then .cont o (s.heap o).pid 9 else .kill o (s.heap o).pid 9] ++
            exitCalls o (u.heap o) pending) (updProc o (fun p => { p with running := false }) w).2 := by
          refine ⟨fun q hq => ?_, ?_, h5.dict, h5.list, h5.log⟩
          · rw [← h5.others q hq]
            simp [updProc, setProc, hq]
          · simp [updProc, setProc, h5.attached]
        refine after ?_ h6
        unfold terminate
        rw [if_neg (by simp [hr, hc])]
        rw [Py.run_bind_ok (a := false) (u := u) (by unfold terminateKill; rw [h1])]
        rw [if_neg (by simp), if_neg (by simp), Py.run_bind_ok h3, Py.run_bind_ok hnr]
        rfl

theorem dictGet_del {d : List (Nat × Nat)} {k k' : Nat} (h : k' ≠ k) : dictGet (dictDel d k) k' = dictGet d k' := by
  unfold dictGet dictDel
  rw [List.find?_filter]
  congr 2
  funext e
  by_cases he : e.1 = k'
  · simp [he, h]
  · simp [he]

theorem waits_farewell {pid : Nat} {p : Proc} {f : Fate} (h : p.pid ≠ pid) : waits pid (farewell o p f) = 0 := by
  unfold farewell
  have e : ∀ l : List Nat, waits pid (l.flatMap (fun n => [.waitpid (some p.pid) false p.isThread, .cont o p.pid (if n = 5 ∨ n = 19 then 0 else n)])) = 0 := by
    intro l
    induction l with
    | nil => rfl
    | cons n l ih => rw [List.flatMap_cons, waits_append, ih]; simp [waits, h]
  split
  · split
    · rw [← List.singleton_append, waits_append]
      have h1 : waits pid [if p.isStopped = true then Call.cont o p.pid 9 else Call.kill o p.pid 9] = 0 := by split <;> rfl
      rw [h1]
      cases f with
      | ends pending last =>
        dsimp only
        rw [waits_append, e]
        simp [waits, h]
      | absent => rfl
    · rfl
  · rfl

end

end PT
