import Verif.Lemmas.Debugger5

/-! Waiting for any process, ending processes. -/

namespace PT
open Spec

variable {K : Kern}

/-- `u` is `s` after some more logged calls. -/
def OnlyLog (s u : DSt) : Prop := ∃ g, u = { s with log := s.log ++ g }

theorem OnlyLog.refl (s : DSt) : OnlyLog s s := ⟨[], by simp⟩

theorem OnlyLog.trans {s t u : DSt} (h1 : OnlyLog s t) (h2 : OnlyLog t u) : OnlyLog s u := by
  obtain ⟨g1, h1⟩ := h1
  obtain ⟨g2, h2⟩ := h2
  exact ⟨g1 ++ g2, by rw [h2, h1]; simp⟩

theorem OnlyLog.logCall (c : Call) (s : DSt) : OnlyLog s (logCall K c s) := ⟨_, rfl⟩

theorem OnlyLog.regInv {s u : DSt} (h : OnlyLog s u) (hr : RegInv s) : RegInv u := by
  obtain ⟨g, h⟩ := h
  rw [h]
  exact hr.congr rfl rfl (Nat.le_refl _) (fun _ => rfl) (fun _ => id)

theorem OnlyLog.pidInv {s u : DSt} (h : OnlyLog s u) (hr : PidInv s) : PidInv u := by
  obtain ⟨g, h⟩ := h
  rw [h]
  exact hr.congr rfl (fun _ => rfl) (fun _ => id) (fun _ => id)

theorem OnlyLog.dict {s u : DSt} (h : OnlyLog s u) : u.dict = s.dict := by
  obtain ⟨g, h⟩ := h
  rw [h]

theorem OnlyLog.list {s u : DSt} (h : OnlyLog s u) : u.list = s.list := by
  obtain ⟨g, h⟩ := h
  rw [h]

theorem OnlyLog.heap {s u : DSt} (h : OnlyLog s u) : u.heap = s.heap := by
  obtain ⟨g, h⟩ := h
  rw [h]

theorem OnlyLog.next {s u : DSt} (h : OnlyLog s u) : u.next = s.next := by
  obtain ⟨g, h⟩ := h
  rw [h]

theorem OnlyLog.options {s u : DSt} (h : OnlyLog s u) : u.options = s.options := by
  obtain ⟨g, h⟩ := h
  rw [h]

theorem OnlyLog.log {s u : DSt} (h : OnlyLog s u) : ∃ g, u.log = s.log ++ g := by
  obtain ⟨g, h⟩ := h
  exact ⟨g, by rw [h]⟩

/-- An exception or event of `r` comes from waiting for one registered pid. -/
def FromOne (K : Kern) (fuel : Nat) (s : DSt) (r : Except Exc (Option Event)) (t : DSt) : Prop :=
  ∃ pid ∈ s.dict.map Prod.fst, ∃ b u, OnlyLog s u ∧ waitEventPid K fuel pid b u = (r, t)

theorem pollPids_out (hz : NoZero K) (fuel : Nat) (s : DSt) (hr : RegInv s) (hp : PidInv s) :
    ∀ (pids : List Nat) (s1 : DSt), OnlyLog s s1 → (∀ p ∈ pids, p ∈ s.dict.map Prod.fst) →
    ∀ r t, pollPids (waitEventPid K fuel) pids s1 = (r, t) →
      (r = .ok none ∧ OnlyLog s t) ∨ (r ≠ .ok none ∧ FromOne K fuel s r t) := by
  intro pids
  induction pids with
  | nil =>
    intro s1 h1 _ r t h
    injection h with ha hb
    subst ha hb
    exact Or.inl ⟨rfl, h1⟩
  | cons p ps ih =>
    intro s1 h1 hps r t h
    have hpk := hps p List.mem_cons_self
    have hw := waitEventPid_out hz fuel p false s1 (hp.keys p hpk) (h1.regInv hr)
    unfold pollPids Py.bind at h
    rcases hx : waitEventPid K fuel p false s1 with ⟨r1, t1⟩
    rw [hx] at hw h
    cases r1 with
    | error e =>
      injection h with ha hb
      subst ha hb
      exact Or.inr ⟨by (intro h; cases h), p, hpk, false, s1, h1, hx⟩
    | ok ev =>
      cases ev with
      | some ev =>
        injection h with ha hb
        subst ha hb
        exact Or.inr ⟨by (intro h; injection h with h; cases h), p, hpk, false, s1, h1, hx⟩
      | none =>
        obtain ⟨_, o, _, _, ht⟩ := hw
        have ht : t1 = logCall K (waitCall s1 p false o) s1 := ht
        refine ih t1 ?_ (fun q hq => hps q (List.mem_cons_of_mem _ hq)) r t h
        rw [ht]
        exact h1.trans (OnlyLog.logCall _ s1)

theorem waitAny_out (hz : NoZero K) (fuel : Nat) (blocking : Bool) (s : DSt) (hr : RegInv s) (hp : PidInv s) :
    ∀ (n : Nat) (s1 : DSt), OnlyLog s s1 → ∀ r t, waitAny K fuel n blocking s1 = (r, t) →
      (r = .ok none ∧ blocking = false ∧ OnlyLog s t) ∨ (r ≠ .ok none ∧ FromOne K fuel s r t) ∨
      (OnlyLog s t ∧ ((r = .error .index ∧ s.dict = []) ∨ r = .error .diverge ∨ r = .error .interrupt ∨
        ∃ e, r = .error (.os e))) := by
  intro n
  induction n with
  | zero =>
    intro s1 h1 r t h
    injection h with ha hb
    subst ha hb
    exact Or.inr (Or.inr ⟨h1, Or.inr (Or.inl rfl)⟩)
  | succ n ih =>
    intro s1 h1 r t h
    unfold waitAny at h
    rw [h1.dict] at h
    cases hk : s.dict.map Prod.fst with
    | nil =>
      rw [hk] at h
      injection h with ha hb
      subst ha hb
      exact Or.inr (Or.inr ⟨h1, Or.inl ⟨rfl, List.map_eq_nil_iff.1 hk⟩⟩)
    | cons p ps =>
      have hmem : ∀ q ∈ p :: ps, q ∈ s.dict.map Prod.fst := by intro q hq; rw [hk]; exact hq
      cases ps with
      | nil =>
        rw [hk] at h
        have hpk := hmem p List.mem_cons_self
        have hw := waitEventPid_out hz fuel p blocking s1 (hp.keys p hpk) (h1.regInv hr)
        have h : waitEventPid K fuel p blocking s1 = (r, t) := h
        rw [h] at hw
        by_cases hn : r = .ok none
        · subst hn
          obtain ⟨hb, o, _, _, ht⟩ := hw
          have ht : t = logCall K (waitCall s1 p blocking o) s1 := ht
          refine Or.inl ⟨rfl, hb, ?_⟩
          rw [ht]
          exact h1.trans (OnlyLog.logCall _ s1)
        · exact Or.inr (Or.inl ⟨hn, p, hpk, blocking, s1, h1, h⟩)
      | cons q ps =>
        rw [hk] at h
        have hpoll := pollPids_out hz fuel s hr hp (p :: q :: ps) s1 h1 hmem
        dsimp only at h
        unfold Py.bind at h
        generalize pollPids (waitEventPid K fuel) (p :: q :: ps) s1 = x at h hpoll
        obtain ⟨r1, t1⟩ := x
        rcases hpoll r1 t1 rfl with ⟨hr1, ht1⟩ | ⟨hr1, ht1⟩
        · subst hr1
          dsimp only at h
          by_cases hb : blocking = true
          · rw [if_pos hb] at h
            rw [osCall_run] at h
            cases hkk : K t1.log .sleep with
            | ok v st =>
              rw [hkk] at h
              exact ih (logCall K .sleep t1) (ht1.trans (OnlyLog.logCall _ _)) r t h
            | err e =>
              rw [hkk] at h
              injection h with ha hb
              subst ha hb
              exact Or.inr (Or.inr ⟨ht1.trans (OnlyLog.logCall _ _), Or.inr (Or.inr (Or.inr ⟨e, rfl⟩))⟩)
            | interrupt =>
              rw [hkk] at h
              injection h with ha hb
              subst ha hb
              exact Or.inr (Or.inr ⟨ht1.trans (OnlyLog.logCall _ _), Or.inr (Or.inr (Or.inl rfl))⟩)
          · rw [if_neg hb] at h
            injection h with ha hb'
            subst ha hb'
            exact Or.inl ⟨rfl, by simpa using hb, ht1⟩
        · right; left
          cases r1 with
          | error e =>
            injection h with ha hb
            subst ha hb
            exact ⟨hr1, ht1⟩
          | ok ev =>
            cases ev with
            | none => exact absurd rfl hr1
            | some ev =>
              injection h with ha hb
              subst ha hb
              exact ⟨hr1, ht1⟩

/-- An event returned by `waitProcessEvent` comes from waiting for one registered pid (the wanted one if
there is one), after nothing but logged calls. -/
theorem waitProcessEvent_from (hz : NoZero K) (fuel : Nat) (wanted : Option Nat) (hwant : wanted ≠ some 0)
    (blocking : Bool) (s : DSt) (hr : RegInv s) (hp : PidInv s) (ev : Event) (t : DSt)
    (h : waitProcessEvent K fuel wanted blocking s = (.ok (some ev), t)) :
    ∃ pid b u, pid ≠ 0 ∧ (∀ p, wanted = some p → pid = p) ∧ OnlyLog s u ∧ RegInv u ∧
      waitEventPid K fuel pid b u = (.ok (some ev), t) := by
  unfold waitProcessEvent at h
  cases wanted with
  | some p =>
    exact ⟨p, blocking, s, by (intro h0; exact hwant (by rw [h0])), by (intro q hq; injection hq),
      OnlyLog.refl s, hr, h⟩
  | none =>
    rcases waitAny_out hz fuel blocking s hr hp fuel s (OnlyLog.refl s) _ t h with
      ⟨h1, _⟩ | ⟨_, pid, hpid, b, u, hu, hw⟩ | ⟨_, h1 | h1 | h1 | ⟨e, h1⟩⟩
    · injection h1 with h1; cases h1
    · exact ⟨pid, b, u, hp.keys pid hpid, by (intro q hq; cases hq), hu, hu.regInv hr, hw⟩
    · cases h1.1
    · cases h1
    · cases h1
    · cases h1

/-! ### ending processes -/

theorem gone_gone (o : Nat) (s : DSt) : gone o (gone o s) = gone o s := by
  by_cases ha : (s.heap o).isAttached = true
  · have h1 : gone o s = unreg o (setProc s o { s.heap o with running := false, isAttached := false }) := by
      unfold gone; rw [if_pos ha]
    have h2 : (gone o s).heap o = { s.heap o with running := false, isAttached := false } := by
      rw [h1]; exact setProc_same _ _ _
    rw [gone, if_neg (by rw [h2]; simp)]
    refine setProc_id _ _ _ ?_
    rw [h2]
  · have h1 : gone o s = setProc s o { s.heap o with running := false } := by
      unfold gone; rw [if_neg ha]
    have h2 : (gone o s).heap o = { s.heap o with running := false } := by
      rw [h1]; exact setProc_same _ _ _
    rw [gone, if_neg (by rw [h2]; exact ha)]
    refine setProc_id _ _ _ ?_
    rw [h2]

/-- `u` is `s` after logged calls and changes of the `is_stopped` attribute of `o`. -/
def Sh (o : Nat) (s u : DSt) : Prop :=
  ∃ b g, u = { setProc s o { s.heap o with isStopped := b } with log := s.log ++ g }

theorem Sh.refl (o : Nat) (s : DSt) : Sh o s s := by
  refine ⟨(s.heap o).isStopped, [], ?_⟩
  rw [setProc_id s o _ rfl, List.append_nil]

theorem Sh.trans {o : Nat} {s t u : DSt} (h1 : Sh o s t) (h2 : Sh o t u) : Sh o s u := by
  obtain ⟨b1, g1, h1⟩ := h1
  obtain ⟨b2, g2, h2⟩ := h2
  refine ⟨b2, g1 ++ g2, ?_⟩
  have hh : t.heap o = { s.heap o with isStopped := b1 } := by rw [h1]; exact setProc_same _ _ _
  rw [h2, hh, h1]
  unfold setProc
  simp only [List.append_assoc, DSt.mk.injEq, and_self, and_true]
  funext i
  by_cases hi : i = o
  · rw [if_pos hi, if_pos hi]
  · rw [if_neg hi, if_neg hi, if_neg hi]

theorem Sh.logCall (o : Nat) (c : Call) (s : DSt) : Sh o s (logCall K c s) := by
  refine ⟨(s.heap o).isStopped, [⟨c, K s.log c, s.dict⟩], ?_⟩
  rw [setProc_id s o _ rfl]
  rfl

theorem Sh.stopped (o : Nat) (b : Bool) (s : DSt) : Sh o s (setProc s o { s.heap o with isStopped := b }) :=
  ⟨b, [], by rw [List.append_nil]; rfl⟩

theorem Sh.heap {o : Nat} {s u : DSt} (h : Sh o s u) (i : Nat) : ∃ b, u.heap i = { s.heap i with isStopped := b } := by
  obtain ⟨b, g, h⟩ := h
  rw [h]
  by_cases hi : i = o
  · exact ⟨b, by show (if i = o then _ else s.heap i) = _; rw [if_pos hi, hi]⟩
  · exact ⟨(s.heap i).isStopped, by show (if i = o then _ else s.heap i) = _; rw [if_neg hi]⟩

theorem Sh.dict {o : Nat} {s u : DSt} (h : Sh o s u) : u.dict = s.dict := by
  obtain ⟨b, g, h⟩ := h
  rw [h]; rfl

theorem Sh.list {o : Nat} {s u : DSt} (h : Sh o s u) : u.list = s.list := by
  obtain ⟨b, g, h⟩ := h
  rw [h]; rfl

theorem Sh.next {o : Nat} {s u : DSt} (h : Sh o s u) : u.next = s.next := by
  obtain ⟨b, g, h⟩ := h
  rw [h]; rfl

theorem Sh.pid {o : Nat} {s u : DSt} (h : Sh o s u) (i : Nat) : (u.heap i).pid = (s.heap i).pid := by
  obtain ⟨b, hb⟩ := h.heap i
  rw [hb]

theorem Sh.att {o : Nat} {s u : DSt} (h : Sh o s u) (i : Nat) : (u.heap i).isAttached = (s.heap i).isAttached := by
  obtain ⟨b, hb⟩ := h.heap i
  rw [hb]

theorem Sh.regInv {o : Nat} {s u : DSt} (h : Sh o s u) (hr : RegInv s) : RegInv u :=
  hr.congr h.dict h.list (Nat.le_of_eq h.next.symm) h.pid (fun i hi => by rw [← h.att i]; exact hi)

/-- A registered object is found under its pid. -/
theorem RegInv.get {s : DSt} (h : RegInv s) {o : Nat} (ho : o ∈ s.list) : dictGet s.dict (s.heap o).pid = some o :=
  dictGet_of_mem h.keys ((h.agree _ _).2 ⟨ho, rfl⟩)

theorem procCont_run (o signum : Nat) (s : DSt) (t : DSt) (h : procCont K o signum s = (.ok (), t)) : Sh o s t := by
  unfold procCont Py.bind at h
  rw [ptraceCall_run] at h
  cases hr : ptraceRes (K s.log (.cont o (s.heap o).pid (filterSignal signum))) with
  | error e => rw [hr] at h; cases h
  | ok v =>
    rw [hr] at h
    injection h with _ h
    rw [← h]
    exact (Sh.logCall o _ s).trans (Sh.stopped o false _)

/-- `waitExit` that returns: the process ended and nothing else changed. -/
theorem waitExit_ok (hz : NoZero K) (fuel o : Nat) : ∀ (n : Nat) (s t : DSt), RegInv s → o ∈ s.list →
    (s.heap o).pid ≠ 0 → waitExit K fuel o n s = (.ok (), t) → ∃ u, Sh o s u ∧ t = gone o u := by
  intro n
  induction n with
  | zero => intro s t _ _ _ h; cases h
  | succ n ih =>
    intro s t hr ho hp h
    have hget := hr.get ho
    have hw := waitEventPid_out hz fuel (s.heap o).pid true s hp hr
    unfold waitExit Py.bind at h
    generalize waitEventPid K fuel (s.heap o).pid true s = x at h hw
    obtain ⟨r, s1⟩ := x
    cases r with
    | error e => cases h
    | ok ev =>
      cases ev with
      | none => cases h
      | some ev =>
        cases ev with
        | newProcess q => cases h
        | execution q => cases h
        | exit q a b =>
          obtain ⟨hq, _, hs1⟩ := hw
          rw [hget] at hq
          injection hq with hq
          subst hq
          injection h with _ h
          exact ⟨_, Sh.logCall o _ s, by rw [← h]; exact hs1⟩
        | signal q m =>
          obtain ⟨hq, st, _, _, hs1⟩ := hw
          rw [hget] at hq
          injection hq with hq
          subst hq
          have hs1 : s1 = setProc (logCall K (waitCall s (s.heap o).pid true o) s) o
              { s.heap o with isStopped := true } := hs1
          have hsh1 : Sh o s s1 := by
            rw [hs1]
            exact (Sh.logCall o _ s).trans (Sh.stopped o true _)
          have hcont : ∃ k, (if m ≠ SIGTRAP ∧ m ≠ SIGSTOP then procCont K o m else procCont K o 0) = procCont K o k := by
            by_cases hm : m ≠ SIGTRAP ∧ m ≠ SIGSTOP
            · exact ⟨m, if_pos hm⟩
            · exact ⟨0, if_neg hm⟩
          obtain ⟨k, hk⟩ := hcont
          dsimp only at h
          rw [hk] at h
          rcases hc : procCont K o k s1 with ⟨r2, s2⟩
          rw [hc] at h
          cases r2 with
          | error e => cases h
          | ok _ =>
            have hsh2 := hsh1.trans (procCont_run o k s1 s2 hc)
            obtain ⟨u, hu, ht⟩ := ih s2 t (hsh2.regInv hr) (by rw [hsh2.list]; exact ho)
              (by rw [hsh2.pid]; exact hp) h
            exact ⟨u, hsh2.trans hu, ht⟩

theorem terminateKill_ok (o : Nat) (s t : DSt) (b : Bool) (h : terminateKill K o s = (.ok b, t)) : Sh o s t := by
  unfold terminateKill at h
  have hall : ∀ r s', (if (s.heap o).isStopped then procCont K o SIGKILL else procKill K o SIGKILL) s = (r, s') →
      Sh o s s' := by
    intro r s' hx
    by_cases hs : (s.heap o).isStopped = true
    · rw [if_pos hs] at hx
      unfold procCont Py.bind at hx
      rw [ptraceCall_run] at hx
      cases hr : ptraceRes (K s.log (.cont o (s.heap o).pid (filterSignal SIGKILL))) with
      | error e => rw [hr] at hx; injection hx with _ hx; rw [← hx]; exact Sh.logCall o _ s
      | ok v =>
        rw [hr] at hx
        injection hx with _ hx
        rw [← hx]
        exact (Sh.logCall o _ s).trans (Sh.stopped o false _)
    · rw [if_neg hs] at hx
      unfold procKill Py.bind at hx
      rw [osCall_run] at hx
      cases hr : osRes (K s.log (.kill o (s.heap o).pid SIGKILL)) with
      | error e => rw [hr] at hx; injection hx with _ hx; rw [← hx]; exact Sh.logCall o _ s
      | ok v => rw [hr] at hx; injection hx with _ hx; rw [← hx]; exact Sh.logCall o _ s
  generalize (if (s.heap o).isStopped then procCont K o SIGKILL else procKill K o SIGKILL) s = x at h hall
  obtain ⟨r, s'⟩ := x
  have hs' := hall r s' rfl
  cases r with
  | ok _ => injection h with _ h; rw [← h]; exact hs'
  | error e =>
    dsimp only at h
    by_cases he : e = .ptrace (some ESRCH)
    · rw [if_pos he] at h; injection h with _ h; rw [← h]; exact hs'
    · rw [if_neg he] at h; cases h

/-- `terminate` that returns true. -/
theorem terminate_ok (hz : NoZero K) (fuel o : Nat) (wait : Bool) (s t : DSt) (hr : RegInv s)
    (ho : o ∈ s.list) (hp : (s.heap o).pid ≠ 0) (h : terminate K fuel o wait s = (.ok true, t)) :
    (((s.heap o).running = false ∨ (s.heap o).wasAttached = false) ∧ t = s) ∨ ∃ u, Sh o s u ∧ t = gone o u := by
  unfold terminate at h
  by_cases hc : (!(s.heap o).running || !(s.heap o).wasAttached) = true
  · rw [if_pos hc] at h
    injection h with _ h
    exact Or.inl ⟨by simpa using hc, h.symm⟩
  · rw [if_neg hc] at h
    right
    unfold Py.bind at h
    rcases hk : terminateKill K o s with ⟨r, s1⟩
    rw [hk] at h
    cases r with
    | error e => cases h
    | ok done =>
      have h1 := terminateKill_ok o s s1 done hk
      dsimp only at h
      cases done with
      | true =>
        simp only [Bool.not_true, Bool.false_and, Bool.false_eq_true, if_false, if_true] at h
        dsimp only [Py.pure] at h
        rw [notRunning_run] at h
        injection h with _ h
        exact ⟨s1, h1, h.symm⟩
      | false =>
        cases wait with
        | false => injection h with h _; injection h with h; cases h
        | true =>
          simp only [Bool.not_true, Bool.not_false, Bool.and_false, Bool.false_eq_true, if_false] at h
          rcases hx : waitExit K fuel o fuel s1 with ⟨r2, s2⟩
          rw [hx] at h
          cases r2 with
          | error e => cases h
          | ok _ =>
            obtain ⟨u, hu, hs2⟩ := waitExit_ok hz fuel o fuel s1 s2 (h1.regInv hr) (by rw [h1.list]; exact ho)
              (by rw [h1.pid]; exact hp) hx
            dsimp only [Py.pure] at h
            rw [notRunning_run] at h
            injection h with _ h
            refine ⟨u, h1.trans hu, ?_⟩
            rw [← h, hs2, gone_gone]

end PT
