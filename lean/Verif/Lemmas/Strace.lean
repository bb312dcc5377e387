import Verif.Lemmas.Syscall
import Verif.Spec.Strace

/-! The loop of `strace.py`. -/

namespace PT
open Spec
variable {K : Kern}

theorem acting_append (g h : List Entry) : acting (g ++ h) = acting g ++ acting h := by
  unfold acting
  rw [List.map_append, List.filter_append]

theorem acting_nil {g : List Entry} (h : ∀ e ∈ g, target e.call = none) : acting g = [] := by
  unfold acting
  rw [List.filter_eq_nil_iff]
  intro c hc
  obtain ⟨e, he, rfl⟩ := List.mem_map.1 hc
  rw [h e he]
  decide

theorem acting_one (e : Entry) (h : (target e.call).isSome = true) : acting [e] = [e.call] := by
  unfold acting
  simp [h]

/-- The log from `s` to `t` contains exactly these acting requests. -/
def Acts (s t : DSt) (cs : List Call) : Prop := ∃ g, t.log = s.log ++ g ∧ acting g = cs

theorem Acts.refl (s : DSt) : Acts s s [] := ⟨[], by simp, rfl⟩

theorem Acts.trans {s t u : DSt} {cs ds : List Call} (h1 : Acts s t cs) (h2 : Acts t u ds) :
    Acts s u (cs ++ ds) := by
  obtain ⟨g, hg, rfl⟩ := h1
  obtain ⟨k, hk, rfl⟩ := h2
  exact ⟨g ++ k, by rw [hk, hg, List.append_assoc], acting_append g k⟩

theorem Acts.quiet {P : DSt → Act → Prop} {s t : DSt} (h : Steps K P s t)
    (hP : ∀ u a c, P u a → actCall u a = some c → target c = none) : Acts s t [] := by
  obtain ⟨g, hg, hq⟩ := h.newLog (Q := fun e => target e.call = none) fun u a c hp hc => hP u a c hp hc
  exact ⟨g, hg, acting_nil hq⟩

theorem waitSignals_acts (fuel : Nat) (signals : List Nat) (pid : Option Nat) (s : DSt) :
    Acts s (waitSignals K fuel signals pid s).2 [] := by
  refine Acts.quiet (waitSignals_wait (P := fun _ a => a = .call .sleep ∨ waitActs True a) (fun _ _ h => Or.inr h)
    (fun _ => Or.inl rfl) fuel signals pid s) ?_
  rintro u a c (rfl | h) hc
  · injection hc with hc; rw [← hc]; rfl
  · exact (waitActs_target h hc).1

/-- A request to resume that succeeded. -/
theorem procSyscall_ok {o n : Nat} {s t : DSt} (h : procSyscall K o n s = (.ok (), t)) :
    (∃ v st, K s.log (.syscall o (s.heap o).pid (filterSignal n)) = .ok v st) ∧
    t = setProc (logCall K (.syscall o (s.heap o).pid (filterSignal n)) s) o { s.heap o with isStopped := false } := by
  obtain ⟨v, u, h1, h2⟩ := Py.ok_of_bind h
  obtain ⟨⟨st, hk⟩, hu⟩ := ptraceCall_ok h1
  refine ⟨⟨v, st, hk⟩, ?_⟩
  injection h2 with _ h2
  rw [← h2, hu]
  rfl

theorem procSyscall_acts {o n : Nat} {s t : DSt} (h : procSyscall K o n s = (.ok (), t)) :
    Acts s t [.syscall o (s.heap o).pid (passed n)] := by
  obtain ⟨⟨v, st, hk⟩, ht⟩ := procSyscall_ok h
  refine ⟨[⟨.syscall o (s.heap o).pid (filterSignal n), .ok v st, s.dict⟩], ?_, ?_⟩
  · rw [ht, ← hk]; rfl
  · rw [acting_one _ rfl]
    rfl

/-- Only requests of inspection. -/
def lookActs (q : Nat) : Act → Prop
  | .sys o => o = q
  | .call (.inspect o _) => o = q
  | _ => False

theorem lookActs_target {q : Nat} {u : DSt} {a : Act} {c : Call} (ha : lookActs q a) (hc : actCall u a = some c) :
    target c = none := by
  unfold lookActs at ha
  split at ha
  · cases hc
  · injection hc with hc; rw [← hc]; rfl
  · exact ha.elim

theorem sysEnter_look (C : SysCfg) (q : Nat) (s : DSt) :
    Steps K (fun _ => lookActs q) s (sysEnter K C q s).2 := by
  let S := Rules.plain K fun _ => lookActs q
  have hT : ∀ t, S.I t := fun _ => trivial
  have hins : ∀ (pid : Nat) (t : DSt), (t.heap q).pid = pid →
      Steps K S.P t (ptraceCall K (.inspect q pid) t).2 := fun pid t h =>
    ptraceCall_sat (S := S) (c := .inspect q pid) (fun _ => rfl) t h.symm
  refine steps_bind (S := S) (hT s) (hins _ s rfl) fun regs t1 h1 _ => ?_
  refine steps_bind (S := S) (hT t1) (updSys_steps q _ t1 rfl) fun _ t2 h2 _ => ?_
  have hp2 : (t2.heap q).pid = (s.heap q).pid := by
    rw [ptraceCall_run] at h1
    have h1 : logCall K _ s = t1 := congrArg Prod.snd h1
    have h2 : setProc t1 q _ = t2 := congrArg Prod.snd h2
    rw [← h2, ← h1, setProc_same]
    rfl
  refine steps_bind (S := S) (hT t2) ?_ fun _ t3 _ _ => ?_
  · split
    · exact steps_bind (S := S) (hT t2) (hins _ t2 hp2) fun _ t _ _ => .refl t
    · exact updSys_steps q _ t2 rfl
  · exact steps_bind (S := S) (hT t3) (updSys_steps q _ t3 rfl) fun _ t _ _ => .refl t

theorem sysResult_look (q : Nat) (s : DSt) : Steps K (fun _ => lookActs q) s (sysResult K q s).2 := by
  let S := Rules.plain K fun _ => lookActs q
  have hT : ∀ t, S.I t := fun _ => trivial
  unfold sysResult
  cases (s.heap q).ss.syscall with
  | none => exact .refl s
  | some c =>
    exact steps_bind (S := S) (hT s) (ptraceCall_sat (S := S) (c := .inspect q _) (fun _ => rfl) s rfl)
      fun _ t _ _ => updSys_steps q _ t rfl

/-- Reading the result changes nothing the trap after `execve` depends on. -/
theorem sysResult_keeps (o : Nat) (s : DSt) : ((sysResult K o s).2.heap o).ss.name = (s.heap o).ss.name ∧
    (sysResult K o s).2.traceExec = s.traceExec ∧ ((sysResult K o s).2.heap o).pid = (s.heap o).pid := by
  unfold sysResult
  cases (s.heap o).ss.syscall with
  | none => exact ⟨rfl, rfl, rfl⟩
  | some c =>
    show ((Py.bind _ _ s).2.heap o).ss.name = _ ∧ (Py.bind _ _ s).2.traceExec = _ ∧ ((Py.bind _ _ s).2.heap o).pid = _
    unfold Py.bind
    rw [ptraceCall_run]
    cases ptraceRes (K s.log (.inspect o (s.heap o).pid)) with
    | ok v =>
      show ((setProc _ o _).heap o).ss.name = _ ∧ _ ∧ ((setProc _ o _).heap o).pid = _
      rw [setProc_same]
      exact ⟨rfl, rfl, rfl⟩
    | error e => exact ⟨rfl, rfl, rfl⟩

theorem sysEvent_acts (fuel : Nat) (C : SysCfg) (o : Nat) (s t : DSt) (r : Option SysObj)
    (h : sysEvent K fuel C o s = (.ok r, t)) :
    Acts s t (if ExecTrap s o then [.syscall o (s.heap o).pid 0] else []) := by
  unfold sysEvent at h
  cases hx : (s.heap o).ss.nextExit with
  | false =>
    rw [hx, if_neg (by decide)] at h
    rw [if_neg (by rintro ⟨h, _⟩; rw [hx] at h; cases h)]
    have := Acts.quiet (sysEnter_look (K := K) C o s) fun u a c ha hc => lookActs_target ha hc
    rw [h] at this
    exact this
  | true =>
    rw [hx, if_pos rfl] at h
    obtain ⟨_, t1, h1, h⟩ := Py.ok_of_bind h
    obtain ⟨_, t2, h2, h⟩ := Py.ok_of_bind h
    have ha1 : Acts s t1 [] := by
      have := Acts.quiet (sysResult_look (K := K) o s) fun u a c ha hc => lookActs_target ha hc
      rw [h1] at this
      exact this
    have ha3 : Acts t2 t [] := by
      injection h with _ h
      rw [← h]
      exact ⟨[], by simp [setProc], rfl⟩
    have hk := sysResult_keeps (K := K) o s
    rw [h1] at hk
    obtain ⟨hname, htrace, hpid⟩ := hk
    unfold sysExecTrap at h2
    rw [hname, htrace] at h2
    by_cases hc : (s.heap o).ss.name = some execveName ∧ s.traceExec = false
    · rw [if_pos hc] at h2
      rw [if_pos ⟨hx, hc⟩]
      obtain ⟨_, t3, h3, h2⟩ := Py.ok_of_bind h2
      obtain ⟨ev, t4, h4, h2⟩ := Py.ok_of_bind h2
      have ha4 := waitSignals_acts (K := K) fuel [SIGTRAP, SIGTRAP ||| 0x80] (some (t1.heap o).pid) t3
      rw [h4] at ha4
      have ha2 := procSyscall_acts h3
      rw [hpid] at ha2
      injection h2 with _ h2
      rw [h2] at ha4
      have := ((ha1.trans ha2).trans ha4).trans ha3
      exact this
    · rw [if_neg hc] at h2
      rw [if_neg (fun h => hc h.2)]
      injection h2 with _ h2
      rw [← h2] at ha3
      exact ha1.trans ha3

theorem eventDisplay_ok {o : Nat} {s t : DSt} (h : eventDisplay K o s = (.ok (), t)) :
    t = logCall K (.display o (s.heap o).pid) s := by
  obtain ⟨_, u, h1, h2⟩ := Py.ok_of_bind h
  injection h2 with _ h2
  rw [← h2]
  exact (ptraceCall_ok h1).2

theorem eventDisplay_acts {o : Nat} {s t : DSt} (h : eventDisplay K o s = (.ok (), t)) : Acts s t [] := by
  rw [eventDisplay_ok h]
  exact ⟨_, rfl, rfl⟩

theorem eventDisplay_heap {o : Nat} {s t : DSt} (h : eventDisplay K o s = (.ok (), t)) : t.heap = s.heap := by
  rw [eventDisplay_ok h]; rfl

theorem sysEvent_pid (fuel : Nat) (C : SysCfg) (o : Nat) (s t : DSt) (r : Option SysObj) (ho : o < s.next)
    (h : sysEvent K fuel C o s = (.ok r, t)) : (t.heap o).pid = (s.heap o).pid := by
  have := (sysEvent_steps (K := K) fuel C o s).old.pid o ho
  rw [h] at this
  exact this

theorem straceSyscall_acts (fuel : Nat) (C : StraceCfg) (o : Nat) (s t : DSt) (ho : o < s.next)
    (h : straceSyscall K fuel C o s = (.ok (), t)) :
    Acts s t (if ExecTrap s o then [.syscall o (s.heap o).pid 0, .syscall o (s.heap o).pid 0]
      else [.syscall o (s.heap o).pid 0]) := by
  obtain ⟨r, t1, h1, h⟩ := Py.ok_of_bind h
  obtain ⟨_, t2, h2, h⟩ := Py.ok_of_bind h
  have hp := sysEvent_pid fuel C.sys o s t1 r ho h1
  have ha1 := sysEvent_acts fuel C.sys o s t1 r h1
  have ha2 : Acts t1 t2 [] ∧ t2.heap = t1.heap := by
    by_cases hd : displayed C.enter r = true
    · rw [if_pos hd] at h2
      exact ⟨eventDisplay_acts h2, eventDisplay_heap h2⟩
    · rw [if_neg hd] at h2
      injection h2 with _ h2
      rw [← h2]
      exact ⟨Acts.refl t1, rfl⟩
  have ha3 := procSyscall_acts h
  rw [ha2.2, hp] at ha3
  have := (ha1.trans ha2.1).trans ha3
  by_cases hx : ExecTrap s o
  · rw [if_pos hx] at this ⊢; exact this
  · rw [if_neg hx] at this ⊢; exact this

theorem updSys_acts (o : Nat) (f : SysState → SysState) (s : DSt) : Acts s (updSys o f s).2 [] :=
  ⟨[], by simp [updSys, updProc, setProc], rfl⟩

theorem prepareProcess_acts {o : Nat} {s t : DSt} (h : prepareProcess K o s = (.ok (), t)) :
    Acts s t [.syscall o (s.heap o).pid 0] ∧
    ∀ i, (t.heap i).pid = (s.heap i).pid ∧ (t.heap i).parent = (s.heap i).parent := by
  obtain ⟨_, t1, h1, h⟩ := Py.ok_of_bind h
  have ha := procSyscall_acts h1
  injection h with _ h
  obtain ⟨_, ht1⟩ := procSyscall_ok h1
  refine ⟨?_, ?_⟩
  · rw [← h]
    exact ha.trans (updSys_acts o (fun ss => { ss with hasCallback := true }) t1)
  · intro i
    have hh : t.heap i = if i = o then { t1.heap o with ss := { (t1.heap o).ss with hasCallback := true } } else t1.heap i := by
      rw [← h]; rfl
    have hh1 : t1.heap i = if i = o then { s.heap o with isStopped := false } else s.heap i := by
      rw [ht1]; rfl
    have hh2 : t1.heap o = { s.heap o with isStopped := false } := by
      rw [ht1]; exact setProc_same _ _ _
    rw [hh]
    by_cases hi : i = o
    · rw [if_pos hi, hh2, hi]
      exact ⟨rfl, rfl⟩
    · rw [if_neg hi, hh1, if_neg hi]
      exact ⟨rfl, rfl⟩

theorem straceNewProcess_acts {q : Nat} {s t : DSt} (h : straceNewProcess K q s = (.ok (), t)) :
    ∃ p, (s.heap q).parent = some p ∧
    Acts s t [.syscall q (s.heap q).pid 0, .syscall p (s.heap p).pid 0] := by
  obtain ⟨_, t1, h1, h⟩ := Py.ok_of_bind h
  obtain ⟨ha, hk⟩ := prepareProcess_acts h1
  have h : (match (t1.heap q).parent with
    | some p => procSyscall K p 0 t1
    | none => (.error .attribute, t1)) = (.ok (), t) := h
  rw [(hk q).2] at h
  cases hp : (s.heap q).parent with
  | none => rw [hp] at h; cases h
  | some p =>
    rw [hp] at h
    have ha2 := procSyscall_acts h
    rw [(hk p).1] at ha2
    exact ⟨p, rfl, ha.trans ha2⟩

theorem processExited_acts {C : StraceCfg} {o : Nat} {s t : DSt} (h : processExited K C o s = (.ok (), t)) :
    Acts s t [] := by
  unfold processExited at h
  split at h
  · exact eventDisplay_acts h
  · injection h with _ h
    rw [← h]
    exact Acts.refl s

/-- What is known about the object of a returned event. -/
theorem straceHandle_acts (fuel : Nat) (C : StraceCfg) (r : Except Exc Event) (code c' : Nat) (s t : DSt)
    (hr : ∀ ev, r = .ok ev → ev.proc < s.next)
    (h : straceHandle K fuel C r code s = (.ok c', t)) : Acts s t (answers s r) ∧ c' = codeAfter code r := by
  cases r with
  | ok ev =>
    obtain ⟨_, u, h1, h⟩ := Py.ok_of_bind h
    injection h with h2 h
    injection h2 with h2
    rw [← h, ← h2]
    exact ⟨straceSyscall_acts fuel C ev.proc s u (hr ev rfl) h1, rfl⟩
  | error e =>
    cases e with
    | event ev =>
      cases ev with
      | exit o a b =>
        obtain ⟨_, u, h1, h⟩ := Py.ok_of_bind h
        injection h with h2 h
        injection h2 with h2
        rw [← h, ← h2]
        exact ⟨processExited_acts h1, by cases b <;> rfl⟩
      | signal o m =>
        obtain ⟨_, u, h1, h⟩ := Py.ok_of_bind h
        obtain ⟨_, w, h2, h⟩ := Py.ok_of_bind h
        injection h with h3 h
        injection h3 with h3
        rw [← h, ← h3]
        have ha := procSyscall_acts h2
        rw [eventDisplay_heap h1] at ha
        exact ⟨(eventDisplay_acts h1).trans ha, rfl⟩
      | newProcess q =>
        obtain ⟨_, u, h1, h⟩ := Py.ok_of_bind h
        injection h with h2 h
        injection h2 with h2
        rw [← h, ← h2]
        obtain ⟨p, hp, ha⟩ := straceNewProcess_acts h1
        refine ⟨?_, rfl⟩
        show Acts s u (.syscall q (s.heap q).pid 0 :: match (s.heap q).parent with
          | some p => [.syscall p (s.heap p).pid 0]
          | none => [])
        rw [hp]
        exact ha
      | execution o =>
        obtain ⟨_, u, h1, h⟩ := Py.ok_of_bind h
        injection h with h2 h
        injection h2 with h2
        rw [← h, ← h2]
        exact ⟨procSyscall_acts h1, rfl⟩
    | _ => cases h

/-! ### invariants of the registry along the loop -/

/-- The registry is consistent and pid 0 is not used. -/
structure Good (s : DSt) : Prop where
  reg : RegInv s
  pid : PidInv s

theorem Good.op (hz : NoZero K) {s : DSt} (h : Good s) (fuel : Nat) (op : Op) (hop : Proper s op) :
    Good (runOp K fuel op s).2 := by
  refine ⟨RegInv.steps (runOp_steps' (K := K) fuel op s (fun t a ha => regActs_plain t a ha)
      (fun o he _ => by subst he; exact ⟨hop.1, Or.inl hop.2⟩)
      (fun pid o he hg => by
        subst he
        have := (h.reg.agree pid o).1 (dictGet_some hg)
        exact ⟨hop o hg, Or.inl this.1⟩)
      (fun o he _ => by subst he; exact hop)
      (fun _ _ => trivial)) h.reg, ?_⟩
  exact (runOp_nz hz (fun _ _ => True) (fun _ _ _ => trivial) fuel op s h.pid (proper_noZero hop)
      (fun _ _ _ => trivial) (fun _ _ _ _ => trivial) (fun _ _ _ => trivial)
      (fun _ _ => trivial)).invariant (fun _ _ _ hp hs h => PidInv.step hp.1 hs h) h.pid

theorem reach_good (hz : NoZero K) {s : DSt} (h : Reach K s) : Good s := ⟨reach_reg h, reach_pid hz h⟩

theorem Good.log {s : DSt} (h : Good s) (c : Call) : Good (logCall K c s) := ⟨h.reg.logCall K c, h.pid.logCall c⟩

theorem Good.sys {s : DSt} (h : Good s) (o : Nat) (ss : SysState) : Good (setProc s o { s.heap o with ss := ss }) :=
  ⟨h.reg.setProc o _ rfl id, h.pid.setProc o _ rfl⟩

theorem Good.stopped {s : DSt} (h : Good s) (o : Nat) (b : Bool) : Good (setProc s o { s.heap o with isStopped := b }) :=
  ⟨h.reg.setProc o _ rfl id, h.pid.setProc o _ rfl⟩

theorem void_snd {α : Type} (m : Py DSt α) (s : DSt) : (void m s).2 = (m s).2 := by
  unfold void Py.bind
  generalize m s = x
  obtain ⟨r, t⟩ := x
  cases r <;> rfl

theorem Good.waitSignals (hz : NoZero K) {s : DSt} (h : Good s) (fuel : Nat) (signals : List Nat) (pid : Option Nat)
    (hp : pid ≠ some 0) : Good (PT.waitSignals K fuel signals pid s).2 := by
  have := h.op (K := K) hz fuel (.waitSignals signals pid) hp
  have hv : (runOp K fuel (.waitSignals signals pid) s).2 = (PT.waitSignals K fuel signals pid s).2 := void_snd _ s
  rw [hv] at this
  exact this

theorem Good.waitSyscall (hz : NoZero K) {s : DSt} (h : Good s) (fuel : Nat) :
    Good (PT.waitSyscall K fuel none s).2 := by
  have := h.op (K := K) hz fuel (.waitSyscall none) (by exact trivial)
  have hv : (runOp K fuel (.waitSyscall none) s).2 = (PT.waitSyscall K fuel none s).2 := void_snd _ s
  rw [hv] at this
  exact this

theorem Good.ptraceCall {s : DSt} (h : Good s) (c : Call) : Good (PT.ptraceCall K c s).2 := by
  rw [ptraceCall_run]; exact h.log c

theorem Good.updSys {s : DSt} (h : Good s) (o : Nat) (f : SysState → SysState) : Good (PT.updSys o f s).2 :=
  h.sys o _

/-- Sequencing. -/
theorem Good.bind {α β : Type} {m : Py DSt α} {f : α → Py DSt β} {s : DSt} (hm : Good (m s).2)
    (hf : ∀ a t, m s = (.ok a, t) → Good t → Good (f a t).2) : Good (Py.bind m f s).2 := by
  unfold Py.bind
  generalize hx : m s = x at hm
  obtain ⟨r, t⟩ := x
  cases r with
  | ok a => exact hf a t hx hm
  | error e => exact hm

theorem Good.procSyscall {s : DSt} (h : Good s) (o n : Nat) : Good (PT.procSyscall K o n s).2 :=
  Good.bind (h.ptraceCall _) fun _ _ _ ht => ht.stopped o false

theorem Good.eventDisplay {s : DSt} (h : Good s) (o : Nat) : Good (PT.eventDisplay K o s).2 :=
  Good.bind (h.ptraceCall _) fun _ _ _ ht => ht

theorem Good.sysEvent (hz : NoZero K) {s : DSt} (h : Good s) (fuel : Nat) (C : SysCfg) (o : Nat) (ho : o < s.next) :
    Good (PT.sysEvent K fuel C o s).2 := by
  unfold PT.sysEvent
  split
  · refine Good.bind ?_ fun _ t h1 ht => ?_
    · unfold sysResult
      split
      · exact Good.bind (h.ptraceCall _) fun _ _ _ ht => ht.updSys o _
      · exact h
    · have hn : o < t.next := by
        have := sysResult_next (K := K) o s
        rw [h1] at this
        exact Nat.lt_of_lt_of_le ho this
      refine Good.bind ?_ fun _ u _ hu => Good.bind (hu.updSys o _) fun _ _ _ hw => hw
      unfold sysExecTrap
      split
      · refine Good.bind (ht.procSyscall o 0) fun _ u _ hu => ?_
        refine Good.bind (hu.waitSignals hz _ _ _ ?_) fun _ _ _ hw => hw
        intro h0
        injection h0 with h0
        exact ht.pid.obj o hn h0
      · exact ht
  · refine Good.bind (h.ptraceCall _) fun _ t _ ht => Good.bind (ht.updSys o _) fun _ u _ hu => ?_
    refine Good.bind ?_ fun _ v _ hv => Good.bind (hv.updSys o _) fun _ _ _ hw => hw
    split
    · exact Good.bind (hu.ptraceCall _) fun _ _ _ hw => hw
    · exact hu.updSys o _

theorem Good.straceHandle (hz : NoZero K) {s : DSt} (h : Good s) (fuel : Nat) (C : StraceCfg) (r : Except Exc Event)
    (hr : ∀ ev, r = .ok ev → ev.proc < s.next) (code : Nat) : Good (PT.straceHandle K fuel C r code s).2 := by
  cases r with
  | ok ev =>
    refine Good.bind ?_ fun _ _ _ ht => ht
    refine Good.bind (h.sysEvent hz fuel C.sys _ (hr ev rfl)) fun r t _ ht => ?_
    refine Good.bind ?_ fun _ u _ hu => hu.procSyscall _ _
    split
    · exact ht.eventDisplay _
    · exact ht
  | error e =>
    cases e with
    | event ev =>
      cases ev with
      | exit o a b =>
        refine Good.bind ?_ fun _ _ _ ht => ht
        unfold processExited
        split
        · exact h.eventDisplay _
        · exact h
      | signal o m =>
        exact Good.bind (h.eventDisplay _) fun _ _ _ ht => Good.bind (ht.procSyscall _ _) fun _ _ _ hu => hu
      | newProcess q =>
        refine Good.bind ?_ fun _ _ _ ht => ht
        refine Good.bind (Good.bind (h.procSyscall _ _) fun _ _ _ ht => ht.updSys _ _) fun _ t _ ht => ?_
        show Good (match (t.heap q).parent with
          | some p => PT.procSyscall K p 0 t
          | none => (.error .attribute, t)).2
        split
        · exact ht.procSyscall _ _
        · exact ht
      | execution o => exact Good.bind (h.procSyscall _ _) fun _ _ _ ht => ht
    | _ => exact h

/-- The event returned by `waitSyscall` is a stop of a registered process by the awaited signal. -/
theorem waitSyscall_ok (hz : NoZero K) {s v : DSt} (h : Good s) (fuel : Nat) (ev : Event)
    (hw : PT.waitSyscall K fuel none s = (.ok ev, v)) :
    ∃ o, ev = .signal o (if s.useSysgood then SIGTRAP ||| 0x80 else SIGTRAP) ∧ o ∈ s.list ∧ o ∈ v.list ∧
      o < v.next ∧ waitProcessEvent K fuel none true s = (.ok (some ev), v) := by
  obtain ⟨e, u, h1, h2⟩ := Py.ok_of_bind hw
  cases e with
  | none => cases h2
  | some e =>
    cases e with
    | signal o m =>
      unfold filterEvent at h2
      by_cases hc : (([if s.useSysgood then SIGTRAP ||| 0x80 else SIGTRAP] : List Nat).contains m ||
          ([if s.useSysgood then SIGTRAP ||| 0x80 else SIGTRAP] : List Nat).isEmpty) = true
      · have h2 : (if _ then Py.pure (.signal o m) else Py.raise (.event (.signal o m)) : Py DSt Event) u = (.ok ev, v) := h2
        rw [if_pos hc] at h2
        injection h2 with h4 h3
        injection h4 with h4
        subst h3
        subst h4
        have hm : m = if s.useSysgood then SIGTRAP ||| 0x80 else SIGTRAP := by
          have : ([if s.useSysgood then SIGTRAP ||| 0x80 else SIGTRAP] : List Nat).contains m = true := by
            rw [Bool.or_eq_true_iff] at hc
            rcases hc with hc | hc
            · exact hc
            · cases hc
          exact List.mem_singleton.1 (List.contains_iff_mem.1 this)
        obtain ⟨pid, b, w, hp, _, hu, hru, hwait⟩ :=
          waitProcessEvent_from hz fuel none (by decide) true s h.reg h.pid _ u h1
        have hout := waitEventPid_out hz fuel pid b w hp hru
        rw [hwait] at hout
        obtain ⟨hg, st, _, _, ht⟩ := hout
        have ht : u = setProc (logCall K (waitCall w pid b o) w) o { w.heap o with isStopped := true } := ht
        have ho := ((hru.agree pid o).1 (dictGet_some hg)).1
        have hol : o ∈ s.list := by rw [← hu.list]; exact ho
        refine ⟨o, by rw [hm], hol, ?_, ?_, h1⟩
        · rw [ht]; exact ho
        · rw [ht]
          show o < w.next
          rw [hu.next]
          exact h.pid.list o hol
      · have h2 : (if _ then Py.pure (.signal o m) else Py.raise (.event (.signal o m)) : Py DSt Event) u = (.ok ev, v) := h2
        rw [if_neg hc] at h2
        cases h2
    | _ => cases h2

/-- All turns of the loop. -/
theorem turns_acts (hz : NoZero K) {fuel : Nat} {C : StraceCfg} {s : DSt} {code : Nat}
    {es : List (Except Exc Event × DSt)} {t : DSt} {c : Nat} (h : Turns K fuel C s code es t c) (hs : Good s) :
    Good t ∧ Acts s t (es.flatMap fun x => answers x.2 x.1) ∧ c = es.foldl (fun c x => codeAfter c x.1) code := by
  induction h with
  | nil => exact ⟨hs, Acts.refl s, rfl⟩
  | @snoc es t v w c c' r h hne hwait hh ih =>
    obtain ⟨hgt, ha, hc⟩ := ih
    have hgv := hgt.waitSyscall hz fuel
    have hav := waitSignals_acts (K := K) fuel [if t.useSysgood then SIGTRAP ||| 0x80 else SIGTRAP] none t
    have hav : Acts t (PT.waitSyscall K fuel none t).2 [] := hav
    rw [hwait] at hgv hav
    have hr : ∀ ev, r = .ok ev → ev.proc < v.next := by
      intro ev he
      subst he
      obtain ⟨o, hev, _, _, ho, _⟩ := waitSyscall_ok hz hgt fuel ev hwait
      rw [hev]; exact ho
    obtain ⟨ha2, hc2⟩ := straceHandle_acts fuel C r c c' v w hr hh
    have hgw := hgv.straceHandle hz fuel C r hr c
    rw [hh] at hgw
    refine ⟨hgw, ?_, ?_⟩
    · rw [List.flatMap_append]
      have := (ha.trans hav).trans ha2
      rw [List.append_nil] at this
      simpa using this
    · rw [List.foldl_append, ← hc, hc2]
      rfl

/-- The loop is a sequence of turns, ending when no process is left. -/
theorem straceLoop_turns (fuel : Nat) (C : StraceCfg) : ∀ (n : Nat) (code c0 : Nat) (s s0 t : DSt) (c : Nat)
    (es : List (Except Exc Event × DSt)), Turns K fuel C s0 c0 es s code →
    straceLoop K fuel C n code s = (.ok c, t) → ∃ es', Turns K fuel C s0 c0 es' t c ∧ iterate t = [] := by
  intro n
  induction n with
  | zero => intro code c0 s s0 t c es _ h; cases h
  | succ n ih =>
    intro code c0 s s0 t c es hes h
    unfold straceLoop at h
    by_cases hl : length s = 0
    · rw [if_pos hl] at h
      injection h with h1 h2
      injection h1 with h1
      subst h1 h2
      exact ⟨es, hes, List.length_eq_zero_iff.1 hl⟩
    · rw [if_neg hl] at h
      obtain ⟨c1, u, h1, h⟩ := Py.ok_of_bind h
      refine ih c1 c0 u s0 t c _ (.snoc hes ?_ rfl h1) h
      intro h0
      exact hl (by show s.list.length = 0; rw [show s.list = [] from h0]; rfl)

end PT
