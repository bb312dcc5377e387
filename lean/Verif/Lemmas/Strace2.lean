import Verif.Lemmas.Strace
import Verif.Lemmas.Split

/-! Which event ends the loop of `strace.py`, and its filters. -/

namespace PT
open Spec
variable {K : Kern}

theorem procSyscall_list {o n : Nat} {s t : DSt} (h : procSyscall K o n s = (.ok (), t)) : t.list = s.list := by
  rw [(procSyscall_ok h).2]; rfl

theorem eventDisplay_list {o : Nat} {s t : DSt} (h : eventDisplay K o s = (.ok (), t)) : t.list = s.list := by
  rw [eventDisplay_ok h]; rfl

/-- A signal awaited from one registered process. -/
theorem waitSignals_pid_ok (hz : NoZero K) {s v : DSt} (h : Good s) (fuel : Nat) (signals : List Nat)
    (pid : Nat) (hpid : pid ≠ 0) (ev : Event) (hw : waitSignals K fuel signals (some pid) s = (.ok ev, v)) :
    ∃ o m st wall, ev = .signal o m ∧ (pid, o) ∈ s.dict ∧ (m ∈ signals ∨ signals = []) ∧
      Spec.waitMeaning st = .signal m ∧
      v.log = s.log ++ [⟨.waitpid (some pid) false wall, .ok pid st, s.dict⟩] ∧ v.list = s.list := by
  obtain ⟨e, u, h1, h2⟩ := Py.ok_of_bind hw
  cases e with
  | none => cases h2
  | some e =>
    cases e with
    | signal o m =>
      have h2 : (if (signals.contains m || signals.isEmpty) = true then Py.pure (.signal o m)
        else Py.raise (.event (.signal o m)) : Py DSt Event) u = (.ok ev, v) := h2
      by_cases hc : (signals.contains m || signals.isEmpty) = true
      · rw [if_pos hc] at h2
        injection h2 with h4 h3
        injection h4 with h4
        subst h3
        subst h4
        have hout := waitEventPid_out hz fuel pid true s hpid h.reg
        have h1 : waitEventPid K fuel pid true s = (.ok (some (.signal o m)), u) := h1
        rw [h1] at hout
        obtain ⟨hg, st, hk, hcl, ht⟩ := hout
        have ht : u = setProc (logCall K (waitCall s pid true o) s) o { s.heap o with isStopped := true } := ht
        refine ⟨o, m, st, (s.heap o).isThread, rfl, dictGet_some hg, ?_, hcl, ?_, ?_⟩
        · rw [Bool.or_eq_true_iff, List.contains_iff_mem, List.isEmpty_iff] at hc
          exact hc
        · rw [ht]
          show s.log ++ [⟨_, K s.log (waitCall s pid true o), s.dict⟩] = _
          rw [hk]
          rfl
        · rw [ht]; rfl
      · rw [if_neg hc] at h2
        cases h2
    | _ => cases h2

theorem sysResult_list (o : Nat) (s : DSt) : (sysResult K o s).2.list = s.list := by
  unfold sysResult
  cases (s.heap o).ss.syscall with
  | none => rfl
  | some c =>
    show (Py.bind _ _ s).2.list = _
    unfold Py.bind
    rw [ptraceCall_run]
    cases ptraceRes (K s.log (.inspect o (s.heap o).pid)) <;> rfl

theorem sysResult_good {s : DSt} (h : Good s) (o : Nat) : Good (sysResult K o s).2 := by
  unfold sysResult
  split
  · exact Good.bind (h.ptraceCall _) fun _ _ _ ht => ht.updSys o _
  · exact h

theorem sysEnter_list (C : SysCfg) (o : Nat) (s t : DSt) (r : Option SysObj) (h : sysEnter K C o s = (.ok r, t)) :
    t.list = s.list := by
  obtain ⟨regs, t1, h1, h⟩ := Py.ok_of_bind h
  have ht1 : t1.list = s.list := by rw [(ptraceCall_ok h1).2]; rfl
  obtain ⟨_, t2, h2, h⟩ := Py.ok_of_bind h
  have ht2 : t2.list = t1.list := by injection h2 with _ h2; rw [← h2]; rfl
  obtain ⟨_, t3, h3, h⟩ := Py.ok_of_bind h
  have ht3 : t3.list = t2.list := by
    split at h3
    · obtain ⟨_, t5, h5, h3⟩ := Py.ok_of_bind h3
      injection h3 with _ h3
      rw [← h3, (ptraceCall_ok h5).2]; rfl
    · injection h3 with _ h3
      rw [← h3]; rfl
  obtain ⟨_, t4, h4, h⟩ := Py.ok_of_bind h
  have ht4 : t4.list = t3.list := by injection h4 with _ h4; rw [← h4]; rfl
  injection h with _ h
  rw [← h, ht4, ht3, ht2, ht1]

theorem sysEvent_list (hz : NoZero K) (fuel : Nat) (C : SysCfg) (o : Nat) (s t : DSt) (r : Option SysObj)
    (hs : Good s) (ho : o < s.next) (h : sysEvent K fuel C o s = (.ok r, t)) : t.list = s.list := by
  unfold sysEvent at h
  split at h
  · obtain ⟨_, t1, h1, h⟩ := Py.ok_of_bind h
    obtain ⟨_, t2, h2, h⟩ := Py.ok_of_bind h
    have hl1 : t1.list = s.list := by
      have := sysResult_list (K := K) o s
      rw [h1] at this; exact this
    have hg1 : Good t1 := by
      have := sysResult_good (K := K) hs o
      rw [h1] at this; exact this
    have hn1 : o < t1.next := by
      have := sysResult_next (K := K) o s
      rw [h1] at this
      exact Nat.lt_of_lt_of_le ho this
    have hl2 : t2.list = t1.list := by
      unfold sysExecTrap at h2
      split at h2
      · obtain ⟨_, t3, h3, h2⟩ := Py.ok_of_bind h2
        obtain ⟨ev, t4, h4, h2⟩ := Py.ok_of_bind h2
        have hg3 : Good t3 := by
          have := hg1.procSyscall (K := K) o 0
          rw [h3] at this; exact this
        obtain ⟨_, _, _, _, _, _, _, _, _, hl⟩ :=
          waitSignals_pid_ok hz hg3 fuel _ _ (hg1.pid.obj o hn1) ev h4
        injection h2 with _ h2
        rw [← h2, hl, procSyscall_list h3]
      · injection h2 with _ h2
        rw [← h2]
    injection h with _ h
    rw [← h, ← hl1, ← hl2]
    rfl
  · exact sysEnter_list C o s t r h

/-- Handling an event changes the registry in no way. -/
theorem straceHandle_list (hz : NoZero K) (fuel : Nat) (C : StraceCfg) (r : Except Exc Event) (code c' : Nat)
    (s t : DSt) (hs : Good s) (hr : ∀ ev, r = .ok ev → ev.proc < s.next)
    (h : straceHandle K fuel C r code s = (.ok c', t)) : t.list = s.list := by
  cases r with
  | ok ev =>
    obtain ⟨_, u, h1, h⟩ := Py.ok_of_bind h
    injection h with _ h
    rw [← h]
    obtain ⟨r, t1, h2, h1⟩ := Py.ok_of_bind h1
    obtain ⟨_, t2, h3, h1⟩ := Py.ok_of_bind h1
    have hl2 : t2.list = t1.list := by
      split at h3
      · exact eventDisplay_list h3
      · injection h3 with _ h3; rw [← h3]
    rw [procSyscall_list h1, hl2, sysEvent_list hz fuel C.sys _ s t1 r hs (hr ev rfl) h2]
  | error e =>
    cases e with
    | event ev =>
      cases ev with
      | exit o a b =>
        obtain ⟨_, u, h1, h⟩ := Py.ok_of_bind h
        injection h with _ h
        rw [← h]
        unfold processExited at h1
        split at h1
        · exact eventDisplay_list h1
        · injection h1 with _ h1; rw [← h1]
      | signal o m =>
        obtain ⟨_, u, h1, h⟩ := Py.ok_of_bind h
        obtain ⟨_, w, h2, h⟩ := Py.ok_of_bind h
        injection h with _ h
        rw [← h, procSyscall_list h2, eventDisplay_list h1]
      | newProcess q =>
        obtain ⟨_, u, h1, h⟩ := Py.ok_of_bind h
        injection h with _ h
        rw [← h]
        obtain ⟨_, t1, h2, h1⟩ := Py.ok_of_bind h1
        obtain ⟨_, t2, h3, h2⟩ := Py.ok_of_bind h2
        have hl1 : t1.list = s.list := by
          injection h2 with _ h2
          rw [← h2, ← procSyscall_list h3]; rfl
        rw [← hl1]
        cases hp : (t1.heap q).parent with
        | none => simp only [hp] at h1; cases h1
        | some p => simp only [hp] at h1; exact procSyscall_list h1
      | execution o =>
        obtain ⟨_, u, h1, h⟩ := Py.ok_of_bind h
        injection h with _ h
        rw [← h, procSyscall_list h1]
    | _ => cases h

/-- Only the end of a process shortens the registry. -/
theorem waitSyscall_shrinks (hz : NoZero K) (fuel : Nat) (s v : DSt) (r : Except Exc Event) (hs : Good s)
    (h : waitSyscall K fuel none s = (r, v)) :
    (∃ o a b, r = .error (.event (.exit o a b)) ∧ o ∈ s.list ∧ (v.list = s.list.erase o ∨ v.list = s.list)) ∨
    ∃ l, v.list = s.list ++ l := by
  have hww : waitSyscall K fuel none s = Py.bind (waitProcessEvent K fuel none true)
      (filterEvent [if s.useSysgood then SIGTRAP ||| 0x80 else SIGTRAP]) s := rfl
  rw [hww] at h
  have hfe : ∀ (e : Option Event) (u : DSt), (filterEvent [if s.useSysgood then SIGTRAP ||| 0x80 else SIGTRAP] e u).2 = u := by
    intro e u
    generalize [if s.useSysgood then SIGTRAP ||| 0x80 else SIGTRAP] = l
    cases e with
    | none => rfl
    | some e =>
      cases e with
      | signal o m =>
        show ((if (l.contains m || l.isEmpty) = true then Py.pure (.signal o m)
          else Py.raise (.event (.signal o m)) : Py DSt Event) u).2 = u
        split <;> rfl
      | _ => rfl
  unfold Py.bind at h
  generalize hx : waitProcessEvent K fuel none true s = x at h
  obtain ⟨r1, u⟩ := x
  have hv : v = u := by
    cases r1 with
    | ok e =>
      have h5 : (filterEvent [if s.useSysgood then SIGTRAP ||| 0x80 else SIGTRAP] e u).2 = v := congrArg Prod.snd h
      rw [← h5]
      exact hfe e u
    | error e => injection h with _ h; exact h.symm
  subst hv
  have hx' : waitAny K fuel fuel true s = (r1, v) := hx
  rcases waitAny_out hz fuel true s hs.reg hs.pid fuel s (OnlyLog.refl s) _ v hx' with
    ⟨h1, h2, _⟩ | ⟨hne, pid, hpid, b, w, hu, hw⟩ | ⟨hu, _⟩
  · cases h2
  · have hout := waitEventPid_out hz fuel pid b w (hs.pid.keys pid hpid) (hu.regInv hs.reg)
    rw [hw] at hout
    cases r1 with
    | error e =>
      obtain ⟨l, hl⟩ := hout.1.list
      exact Or.inr ⟨l, by rw [← hu.list]; exact hl⟩
    | ok e =>
      cases e with
      | none => exact absurd rfl hne
      | some ev =>
        cases ev with
        | signal o m =>
          obtain ⟨_, st, _, _, ht⟩ := hout
          have ht : v = setProc (logCall K (waitCall w pid b o) w) o { w.heap o with isStopped := true } := ht
          exact Or.inr ⟨[], by rw [ht, List.append_nil, ← hu.list]; rfl⟩
        | execution o =>
          obtain ⟨_, st, _, _, ht⟩ := hout
          have ht : v = logCall K (waitCall w pid b o) w := ht
          exact Or.inr ⟨[], by rw [ht, List.append_nil, ← hu.list]; rfl⟩
        | newProcess q =>
          obtain ⟨o, st, event, p, mst, _, _, _, _, _, hadd⟩ := hout
          obtain ⟨l, hl⟩ := hadd.ext.list
          have hl : v.list = w.list ++ l := hl
          exact Or.inr ⟨l, by rw [hl, hu.list]⟩
        | exit o a b' =>
          obtain ⟨hg, _, ht⟩ := hout
          have ht : v = gone o (logCall K (waitCall w pid b o) w) := ht
          injection h with h _
          refine Or.inl ⟨o, a, b', h.symm, ?_, ?_⟩
          · rw [← hu.list]
            exact (((hu.regInv hs.reg).agree pid o).1 (dictGet_some hg)).1
          · rw [ht]
            unfold gone
            split
            · left; rw [← hu.list]; rfl
            · right; rw [← hu.list]; rfl
  · exact Or.inr ⟨[], by rw [List.append_nil]; exact hu.list⟩

/-- No turn or a last turn. -/
theorem _root_.PT.Spec.Turns.last {fuel : Nat} {C : StraceCfg} {s t : DSt} {code c : Nat}
    {es : List (Except Exc Event × DSt)} (h : Turns K fuel C s code es t c) :
    (es = [] ∧ s = t ∧ c = code) ∨ ∃ es' t' v c0 r, es = es' ++ [(r, v)] ∧ Turns K fuel C s code es' t' c0 ∧
      iterate t' ≠ [] ∧ waitSyscall K fuel none t' = (r, v) ∧ straceHandle K fuel C r c0 v = (.ok c, t) := by
  cases h with
  | nil => exact Or.inl ⟨rfl, rfl, rfl⟩
  | snoc h hne hw hh => exact Or.inr ⟨_, _, _, _, _, rfl, h, hne, hw, hh⟩

/-- The turn after which no process is left handled the end of the last process. -/
theorem lastTurn (hz : NoZero K) {fuel : Nat} {C : StraceCfg} {t v w : DSt} {c c' : Nat} {r : Except Exc Event}
    (ht : Good t) (hne : iterate t ≠ []) (hwait : waitSyscall K fuel none t = (r, v))
    (hh : straceHandle K fuel C r c v = (.ok c', w)) (he : iterate w = []) :
    ∃ o a b, r = .error (.event (.exit o a b)) ∧ iterate t = [o] := by
  have hgv := ht.waitSyscall hz fuel
  rw [hwait] at hgv
  have hr : ∀ ev, r = .ok ev → ev.proc < v.next := by
    intro ev he
    subst he
    obtain ⟨o, hev, _, _, ho, _⟩ := waitSyscall_ok hz ht fuel ev hwait
    rw [hev]; exact ho
  have hl := straceHandle_list hz fuel C r c c' v w hgv hr hh
  have hv : v.list = [] := by rw [← hl]; exact he
  rcases waitSyscall_shrinks hz fuel t v r ht hwait with ⟨o, a, b, hr, ho, h1 | h1⟩ | ⟨l, h1⟩
  · refine ⟨o, a, b, hr, ?_⟩
    have hlen := List.length_erase_of_mem ho
    rw [← h1, hv] at hlen
    have h0 : t.list.length ≠ 0 := fun h0 => hne (List.length_eq_zero_iff.1 h0)
    obtain ⟨x, hx⟩ := List.length_eq_one_iff.1 (show t.list.length = 1 by simp at hlen; omega)
    rw [hx] at ho
    show t.list = [o]
    rw [hx, List.mem_singleton.1 ho]
  · exact absurd (h1.symm.trans hv) hne
  · rw [hv] at h1
    exact absurd (List.append_eq_nil_iff.1 h1.symm).1 hne

theorem Good.prepareProcess {s : DSt} (h : Good s) (o : Nat) : Good (PT.prepareProcess K o s).2 :=
  Good.bind (h.procSyscall o 0) fun _ _ _ ht => ht.updSys o _

/-- An event seen by `waitpid` is about a registered process; the processes it leaves stopped are
registered. -/
theorem waitProcessEvent_left (hz : NoZero K) {t v : DSt} (hg : Good t) (fuel : Nat) (ev : Event)
    (hw : waitProcessEvent K fuel none true t = (.ok (some ev), v)) :
    ∃ o ∈ iterate t, EventFor v o ev ∧ ∀ p ∈ leftStopped o ev, p ∈ iterate v := by
  obtain ⟨pid, b, w, hp, _, hu, hru, hwait⟩ :=
    waitProcessEvent_from hz fuel none (by decide) true t hg.reg hg.pid _ v hw
  have hout := waitEventPid_out hz fuel pid b w hp hru
  rw [hwait] at hout
  have hin : ∀ o, dictGet w.dict pid = some o → o ∈ w.list ∧ o ∈ iterate t := by
    intro o h
    have ho := ((hru.agree pid o).1 (dictGet_some h)).1
    exact ⟨ho, by show o ∈ t.list; rw [← hu.list]; exact ho⟩
  cases ev with
  | signal o m =>
    obtain ⟨h, st, _, _, hv⟩ := hout
    have hv : v = setProc (logCall K (waitCall w pid b o) w) o { w.heap o with isStopped := true } := hv
    refine ⟨o, (hin o h).2, rfl, ?_⟩
    intro p hp
    rw [List.mem_singleton.1 hp, hv]
    exact (hin o h).1
  | execution o =>
    obtain ⟨h, st, _, _, hv⟩ := hout
    have hv : v = logCall K (waitCall w pid b o) w := hv
    refine ⟨o, (hin o h).2, rfl, ?_⟩
    intro p hp
    rw [List.mem_singleton.1 hp, hv]
    exact (hin o h).1
  | exit o a c =>
    obtain ⟨h, _, hv⟩ := hout
    exact ⟨o, (hin o h).2, rfl, fun p hp => (by cases hp)⟩
  | newProcess q =>
    obtain ⟨o, st, event, np, mst, h, _, _, _, _, hadd⟩ := hout
    refine ⟨o, (hin o h).2, ?_, ?_⟩
    · show (v.heap q).parent = some o
      rw [hadd.heap]; rfl
    · intro p hp
      rcases List.mem_cons.1 hp with rfl | hp
      · exact hadd.mem
      · rw [List.mem_singleton.1 hp]
        obtain ⟨l, hl⟩ := hadd.ext.list
        show o ∈ v.list
        rw [hl]
        exact List.mem_append_left _ (hin o h).1

/-- The two requests around the trap after `execve`. -/
theorem straceSyscall_trap (hz : NoZero K) {fuel : Nat} {C : StraceCfg} {o m code code' : Nat} {v w : DSt}
    (hgv : Good v) (ho : o < v.next) (hx : ExecTrap v o)
    (hh : straceHandle K fuel C (.ok (.signal o m)) code v = (.ok code', w)) :
    ∃ g1 e1 e2 g2 st n wall, w.log = v.log ++ g1 ++ [e1, e2] ++ g2 ∧ acting g1 = [] ∧
      e1.call = .syscall o (v.heap o).pid 0 ∧
      e2.call = .waitpid (some (v.heap o).pid) false wall ∧ e2.reply = .ok (v.heap o).pid st ∧
      Spec.waitMeaning st = .signal n ∧ (n = 5 ∨ n = 0x85) ∧
      acting g2 = [.syscall o (v.heap o).pid 0] := by
  obtain ⟨_, u, h1, h2⟩ := Py.ok_of_bind hh
  injection h2 with _ h2
  subst h2
  obtain ⟨r, t1, h2, h3⟩ := Py.ok_of_bind h1
  obtain ⟨_, t2, h4, h5⟩ := Py.ok_of_bind h3
  have h2 : sysEvent K fuel C.sys o v = (.ok r, t1) := h2
  have hpid := sysEvent_pid fuel C.sys o v t1 r ho h2
  unfold sysEvent at h2
  rw [if_pos hx.1] at h2
  obtain ⟨_, s1, h6, h7⟩ := Py.ok_of_bind h2
  obtain ⟨_, s2, h8, h9⟩ := Py.ok_of_bind h7
  have hres : Acts v s1 [] := by
    have := Acts.quiet (K := K) (sysResult_look o v) fun u a c ha hc => lookActs_target ha hc
    rw [h6] at this
    exact this
  obtain ⟨g1, hg1, ha1⟩ := hres
  have hkeep := sysResult_keeps (K := K) o v
  rw [h6] at hkeep
  have hgs1 : Good s1 := by
    have := sysResult_good (K := K) hgv o
    rw [h6] at this; exact this
  have hn1 : o < s1.next := by
    have := sysResult_next (K := K) o v
    rw [h6] at this
    exact Nat.lt_of_lt_of_le ho this
  unfold sysExecTrap at h8
  rw [if_pos ⟨hkeep.1.trans hx.2.1, hkeep.2.1.trans hx.2.2⟩] at h8
  obtain ⟨_, s3, h10, h11⟩ := Py.ok_of_bind h8
  obtain ⟨ev, s4, h12, h13⟩ := Py.ok_of_bind h11
  injection h13 with _ h13
  subst h13
  have hgs3 : Good s3 := by
    have := hgs1.procSyscall (K := K) o 0
    rw [h10] at this; exact this
  obtain ⟨q, n, st, wall, hev, hq, hn, hcl, hlog, _⟩ :=
    waitSignals_pid_ok hz hgs3 fuel _ _ (hgs1.pid.obj o hn1) ev h12
  have hs3 := (procSyscall_ok h10).2
  have hsp : (s1.heap o).pid = (v.heap o).pid := hkeep.2.2
  have hclear : t1.log = s4.log := by
    injection h9 with _ h9
    rw [← h9]; rfl
  have hd2 : Acts t1 t2 [] ∧ t2.heap = t1.heap := by
    split at h4
    · exact ⟨eventDisplay_acts h4, eventDisplay_heap h4⟩
    · injection h4 with _ h4
      rw [← h4]; exact ⟨Acts.refl _, rfl⟩
  have hlast := hd2.1.trans (procSyscall_acts h5)
  obtain ⟨g2, hg2, ha2⟩ := hlast
  refine ⟨g1, ⟨.syscall o (s1.heap o).pid (filterSignal 0), K s1.log (.syscall o (s1.heap o).pid (filterSignal 0)), s1.dict⟩,
    ⟨.waitpid (some (s1.heap o).pid) false wall, .ok (s1.heap o).pid st, s3.dict⟩, g2, st, n, wall, ?_, ha1, ?_, ?_, ?_, hcl, ?_, ?_⟩
  · rw [hg2, hclear, hlog, hs3]
    show s1.log ++ [_] ++ [_] ++ g2 = _
    rw [hg1]
    simp
  · show Call.syscall o (s1.heap o).pid 0 = _
    rw [hsp]
  · show Call.waitpid _ _ _ = _
    rw [hsp]
  · show Reply.ok (s1.heap o).pid st = _
    rw [hsp]
  · rcases hn with hn | hn
    · rcases List.mem_cons.1 hn with hn | hn
      · exact Or.inl hn
      · exact Or.inr (List.mem_singleton.1 hn)
    · cases hn
  · rw [ha2]
    show [Call.syscall o (t2.heap o).pid 0] = _
    rw [hd2.2, hpid]

/-! ### filters -/

theorem onlyLoop_append (names : List Str) (space : Char → Bool) (a b only : List Str) :
    onlyLoop names space (a ++ b) only = (onlyLoop names space a only).bind (onlyLoop names space b) := by
  induction a generalizing only with
  | nil => rfl
  | cons x xs ih =>
    have hx : ∀ l, onlyLoop names space (x :: l) only =
        if ((strip space x).isEmpty || only.contains (strip space x)) = true then onlyLoop names space l only
        else if (only.all fun name => names.contains name) = true then
          onlyLoop names space l (only ++ [strip space x]) else none := fun l => rfl
    show onlyLoop names space (x :: (xs ++ b)) only = _
    rw [hx, hx]
    split
    · exact ih only
    · split
      · exact ih _
      · rfl

theorem named_cons (space : Char → Bool) (x : Str) (xs : List Str) (n : Str) :
    Named space (x :: xs) n ↔ (n ≠ [] ∧ strip space x = n) ∨ Named space xs n := by
  unfold Named
  simp only [stripped_iff]
  constructor
  · rintro ⟨h0, item, hi, h⟩
    rcases List.mem_cons.1 hi with rfl | hi
    · exact Or.inl ⟨h0, h⟩
    · exact Or.inr ⟨h0, item, hi, h⟩
  · rintro (⟨h0, h⟩ | ⟨h0, item, hi, h⟩)
    · exact ⟨h0, x, List.mem_cons_self, h⟩
    · exact ⟨h0, item, List.mem_cons_of_mem _ hi, h⟩

theorem onlyLoop_mem (names : List Str) (space : Char → Bool) : ∀ (items only r : List Str),
    onlyLoop names space items only = some r → ∀ n, n ∈ r ↔ n ∈ only ∨ Named space items n := by
  intro items
  induction items with
  | nil =>
    intro only r h n
    injection h with h
    rw [h]
    constructor
    · exact Or.inl
    · rintro (h | ⟨_, _, h, _⟩)
      · exact h
      · cases h
  | cons x xs ih =>
    intro only r h n
    rw [named_cons]
    unfold onlyLoop at h
    by_cases hc : ((strip space x).isEmpty || only.contains (strip space x)) = true
    · rw [if_pos hc] at h
      rw [ih only r h n]
      constructor
      · rintro (h | h)
        · exact Or.inl h
        · exact Or.inr (Or.inr h)
      · rintro (h | ⟨h0, h⟩ | h)
        · exact Or.inl h
        · left
          rw [Bool.or_eq_true_iff, List.isEmpty_iff, List.contains_iff_mem] at hc
          rcases hc with hc | hc
          · exact absurd (h.symm.trans hc) h0
          · rw [← h]; exact hc
        · exact Or.inr h
    · rw [if_neg hc] at h
      split at h
      · rw [ih _ r h n, List.mem_append, List.mem_singleton]
        have hne : strip space x ≠ [] := by
          intro h0
          apply hc
          rw [h0]; rfl
        constructor
        · rintro ((h | h) | h)
          · exact Or.inl h
          · exact Or.inr (Or.inl ⟨by rw [h]; exact hne, h.symm⟩)
          · exact Or.inr (Or.inr h)
        · rintro (h | ⟨_, h⟩ | h)
          · exact Or.inl (Or.inl h)
          · exact Or.inl (Or.inr h.symm)
          · exact Or.inr h
      · cases h

/-- With an unknown name in the set, the next new name is refused. -/
theorem onlyLoop_refuses (names : List Str) (space : Char → Bool) (bad n : Str) (hbad : bad ∉ names) :
    ∀ (items only : List Str), bad ∈ only → n ∉ only → Named space items n → onlyLoop names space items only = none := by
  intro items
  induction items with
  | nil => intro only _ _ h; obtain ⟨_, _, h, _⟩ := h; cases h
  | cons x xs ih =>
    intro only hb hn h
    unfold onlyLoop
    by_cases hc : ((strip space x).isEmpty || only.contains (strip space x)) = true
    · rw [if_pos hc]
      rcases (named_cons space x xs n).1 h with ⟨h0, h⟩ | h
      · rw [Bool.or_eq_true_iff, List.isEmpty_iff, List.contains_iff_mem, h] at hc
        rcases hc with hc | hc
        · exact absurd hc h0
        · exact absurd hc hn
      · exact ih only hb hn h
    · rw [if_neg hc, if_neg]
      intro hall
      rw [List.all_eq_true] at hall
      exact hbad (List.contains_iff_mem.1 (hall bad hb))

/-- Known names are accepted. -/
theorem onlyLoop_accepts (names : List Str) (space : Char → Bool) : ∀ (items only : List Str),
    (∀ n ∈ only, n ∈ names) → (∀ n, Named space items n → n ∈ names) →
    ∃ r, onlyLoop names space items only = some r := by
  intro items
  induction items with
  | nil => intro only _ _; exact ⟨only, rfl⟩
  | cons x xs ih =>
    intro only ho hn
    have hn' : ∀ n, Named space xs n → n ∈ names := fun n h => hn n ((named_cons space x xs n).2 (Or.inr h))
    unfold onlyLoop
    by_cases hc : ((strip space x).isEmpty || only.contains (strip space x)) = true
    · rw [if_pos hc]; exact ih only ho hn'
    · rw [if_neg hc, if_pos]
      · refine ih _ ?_ hn'
        intro n h
        rcases List.mem_append.1 h with h | h
        · exact ho n h
        · rw [List.mem_singleton.1 h]
          refine hn _ ((named_cons space x xs _).2 (Or.inl ⟨?_, rfl⟩))
          intro h0
          exact hc (by rw [h0]; rfl)
      · rw [List.all_eq_true]
        exact fun n h => List.contains_iff_mem.2 (ho n h)

theorem onlyFilter_mem (T : SysTables) (space : Char → Bool) (sel : Selection) (only : List Str)
    (h : onlyFilter T space sel = some only) (name : Str) : name ∈ only ↔ Selected T space sel name := by
  unfold onlyFilter at h
  obtain ⟨first, h1, h2⟩ := Option.map_eq_some_iff.1 h
  have hfirst : name ∈ first ↔ ∃ text items, sel.syscalls = some text ∧ Pieces ',' text items ∧
      Named space items name := by
    cases hs : sel.syscalls with
    | none =>
      rw [hs] at h1
      injection h1 with h1
      rw [← h1]
      exact ⟨fun h => (by cases h), fun ⟨t, _, h, _⟩ => (by cases h)⟩
    | some text =>
      rw [hs] at h1
      have h1 : (if text.isEmpty then some [] else onlyLoop T.names space (splitOn ',' text) []) = some first := h1
      by_cases he : text.isEmpty = true
      · rw [if_pos he] at h1
        injection h1 with h1
        rw [← h1]
        refine ⟨fun h => (by cases h), fun ⟨t, items, ht, hp, hn⟩ => ?_⟩
        injection ht with ht
        rw [← ht, List.isEmpty_iff.1 he] at hp
        rw [← pieces_iff.1 hp] at hn
        obtain ⟨h0, item, hi, hx⟩ := hn
        have : item = [] := List.mem_singleton.1 hi
        rw [this] at hx
        exact absurd (stripped_iff.1 hx).symm h0
      · rw [if_neg he] at h1
        rw [onlyLoop_mem T.names space _ _ _ h1 name]
        refine ⟨?_, ?_⟩
        · rintro (h | h)
          · cases h
          · exact ⟨text, _, rfl, splitOn_pieces ',' text, h⟩
        · rintro ⟨t, items, ht, hp, hn⟩
          injection ht with ht
          rw [ht, pieces_iff.1 hp]; exact Or.inr hn
  have hfile : name ∈ (if sel.filename then
      first ++ (T.prototypes.filter fun p => p.2.any fun a => T.filenameArguments.contains a).map Prod.fst
      else first) ↔ name ∈ first ∨ (sel.filename = true ∧ ∃ args, (name, args) ∈ T.prototypes ∧
        ∃ a ∈ args, a ∈ T.filenameArguments) := by
    by_cases hf : sel.filename = true
    · rw [if_pos hf, List.mem_append]
      refine or_congr Iff.rfl ?_
      constructor
      · intro h
        obtain ⟨⟨n, args⟩, hm, rfl⟩ := List.mem_map.1 h
        obtain ⟨hm, ha⟩ := List.mem_filter.1 hm
        obtain ⟨a, ha1, ha2⟩ := List.any_eq_true.1 ha
        exact ⟨hf, args, hm, a, ha1, List.contains_iff_mem.1 ha2⟩
      · rintro ⟨_, args, hm, a, ha1, ha2⟩
        exact List.mem_map.2 ⟨(name, args), List.mem_filter.2
          ⟨hm, List.any_eq_true.2 ⟨a, ha1, List.contains_iff_mem.2 ha2⟩⟩, rfl⟩
    · rw [if_neg hf]
      exact ⟨Or.inl, fun h => h.elim id fun h => absurd h.1 hf⟩
  have h2 : (if sel.socket then (if sel.filename then
      first ++ (T.prototypes.filter fun p => p.2.any fun a => T.filenameArguments.contains a).map Prod.fst
      else first) ++ T.socketNames else (if sel.filename then
      first ++ (T.prototypes.filter fun p => p.2.any fun a => T.filenameArguments.contains a).map Prod.fst
      else first)) = only := h2
  unfold Selected
  rw [← or_assoc, ← hfirst, ← hfile, ← h2]
  by_cases hs : sel.socket = true
  · rw [if_pos hs, List.mem_append]
    exact or_congr Iff.rfl ⟨fun h => ⟨hs, h⟩, fun h => h.2⟩
  · rw [if_neg hs]
    exact ⟨Or.inl, fun h => h.elim id fun h => absurd h.1 hs⟩

end PT
