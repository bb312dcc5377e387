import Verif.Lemmas.Asks2

/-! Requests are made to stopped processes: strace.py. -/

namespace PT
open Spec

variable {α β : Type} {K : Kern} {B : Nat → Prop} {D : Nat → Prop} {s : DSt}

/-- An event is as it should be, if there is one. -/
def ReportOK (r : Option Event) (t : DSt) : Prop := ∀ ev, r = some ev → EvOK ev t

def RaisedOK (e : Exc) (t : DSt) : Prop := ∀ ev, e = .event ev → EvOK ev t

/-- The process is stopped and registered. -/
def Now (o : Nat) (t : DSt) : Prop := AtRest o t.log ∧ o ∈ t.list

theorem waitSignals_any (fuel : Nat) (sigs : List Nat) (p : Nat) : Sat (askRules K) (waitSignals K fuel sigs (some p)) :=
  waitSignals_sat (fun _ _ _ => trivial) (fun _ => trivial) (fun _ _ _ _ => .inr trivial) fuel sigs (some p) (.inr trivial)

theorem procSyscall_any (o n : Nat) : Sat (askRules K) (procSyscall K o n) := procSyscall_sat o n (fun _ _ => trivial) fun _ => trivial

theorem procCont_any (o n : Nat) : Sat (askRules K) (procCont K o n) := procCont_sat o n (fun _ _ => trivial) fun _ => trivial

theorem asked_wait (fuel p : Nat) (b : Bool) (h : Lawful s.log → Core B D none s) :
    Asked B D s (waitEventPid K fuel p b s) ReportOK RaisedOK :=
  (good_wait (K := K) (B := B) (D := D) fuel none p b s h fun _ hx => by cases hx).weaken (fun _ _ hq ev he => (hq.2 ev he).1) fun _ _ he ev hx => (he.2.1 ev hx).1

theorem asked_poll (fuel : Nat) (pids : List Nat) : ∀ {s : DSt}, (Lawful s.log → Core B D none s) →
    Asked B D s (pollPids (waitEventPid K fuel) pids s) ReportOK RaisedOK := by
  induction pids with
  | nil => exact fun h => asked_pure h _ fun _ _ hx => by cases hx
  | cons pid pids ih =>
    intro s h
    refine Asked.bind (asked_wait fuel pid false h) fun r t hI _ hq => ?_
    cases r with
    | none => exact ih hI
    | some ev => exact asked_pure hI _ hq

theorem asked_sleep (h : Lawful s.log → Core B D none s) : Asked B D s (osCall K .sleep s) Free RaisedOK := by
  rw [osCall_run]
  have hI : Lawful (logCall K .sleep s).log → Core B D none (logCall K .sleep s) := fun hl => (h (Lawful.init hl)).muteCall _ rfl fun _ _ hx => by cases hx
  cases hr : K s.log .sleep with
  | ok v st => exact .ok hI (.logCall _ _) fun _ => trivial
  | err n => exact .err hI (.logCall _ _) fun _ _ hx => by cases hx
  | interrupt => exact .err hI (.logCall _ _) fun _ _ hx => by cases hx

theorem asked_any (fuel n : Nat) (b : Bool) : ∀ {s : DSt}, (Lawful s.log → Core B D none s) → Asked B D s (waitAny K fuel n b s) ReportOK RaisedOK := by
  induction n with
  | zero => exact fun {s} h => ⟨fun hl => (h hl).asks, fun hn => (hn rfl).elim, .refl s, fun _ hx => (by cases hx), fun e he _ ev hx => by cases he; cases hx⟩
  | succ n ih =>
    intro s h
    have hpoll : ∀ pids, Asked B D s (Py.bind (pollPids (waitEventPid K fuel) pids) (fun e =>
        match e with
        | some ev => Py.pure (some ev)
        | none =>
          if b then Py.bind (osCall K .sleep) fun _ => waitAny K fuel n b
          else Py.pure none) s) ReportOK RaisedOK := fun pids => by
      refine Asked.bind (asked_poll fuel pids h) fun r t hI _ hq => ?_
      cases r with
      | some ev => exact asked_pure hI _ hq
      | none =>
        cases b with
        | true => exact Asked.bind (asked_sleep hI) fun _ u hI2 _ _ => ih hI2
        | false => exact asked_pure hI _ fun _ _ hx => by cases hx
    unfold waitAny
    split
    · exact .err h (.refl s) fun _ _ hx => by cases hx
    · exact asked_wait fuel _ b h
    · exact hpoll _

theorem asked_filter (h : Lawful s.log → Core B D none s) (sigs : List Nat) (r : Option Event) (hr : Lawful s.log → ReportOK r s) :
    Asked B D s (filterEvent sigs r s) (fun ev t => EvOK ev t ∧ r = some ev ∧ t = s ∧ ∃ q m, ev = .signal q m) RaisedOK := by
  unfold filterEvent
  split
  · rename_i o m
    split
    · exact asked_pure h _ fun hl => ⟨hr hl _ rfl, rfl, rfl, o, m, rfl⟩
    · exact asked_raise h _ fun hl ev hx => by cases hx; exact hr hl _ rfl
  · rename_i ev _
    exact asked_raise h _ fun hl ev hx => by cases hx; exact hr hl _ rfl
  · exact asked_raise h _ fun hl ev hx => by cases hx

theorem asked_waitSyscall (fuel : Nat) (h : Lawful s.log → Core B D none s) :
    Asked B D s (waitSyscall K fuel none s) (fun ev t => ∃ q m, ev = .signal q m ∧ Now q t) RaisedOK := by
  unfold waitSyscall waitSignals
  refine Asked.bind (Q' := ReportOK) (asked_any fuel fuel true h) fun r t hI _ hq => ?_
  refine (asked_filter hI _ r hq).weaken (fun ev u hu => ?_) fun _ _ he => he
  obtain ⟨h1, _, _, q, m, rfl⟩ := hu
  exact ⟨q, m, rfl, h1⟩

/-- Waiting for signals of a registered process. -/
theorem asked_waitOne (fuel : Nat) (sigs : List Nat) {o : Nat} (h : Lawful s.log → Core B D none s) (ho : Lawful s.log → o ∈ s.list) :
    Asked B D s (waitSignals K fuel sigs (some (s.heap o).pid) s) (fun _ t => Now o t) RaisedOK := by
  refine Asked.cases (.refl s) (askOld (waitSignals_any (K := K) fuel sigs _) s) fun hl => ?_
  have hc := h hl
  have hg : dictGet s.dict (s.heap o).pid = some o := dictGet_of_mem hc.reg.keys (hc.getOf (ho hl))
  unfold waitSignals
  have hw := good_wait (K := K) (B := B) (D := D) fuel none (s.heap o).pid true s h fun _ hx => by cases hx
  refine Asked.bind (Q' := WQ (s.heap o).pid s) (hw.weaken (fun _ _ hq => hq) fun _ _ he ev hx => (he.2.1 ev hx).1) fun r t hI _ hq => ?_
  refine Asked.cases (.refl t) (askOld (filterEvent_sat (S := askRules K) sigs r) t) fun hlt => ?_
  refine (asked_filter hI sigs r fun hl2 ev he => ((hq hl2).2 ev he).1).weaken (fun ev u hu => ?_) fun _ _ he => he
  obtain ⟨h1, h2, _, q, m, rfl⟩ := hu
  have h3 := ((hq hlt).2 _ h2).2 q m rfl
  rw [hg] at h3
  cases h3
  exact h1

/-- A request that lets the process go on. -/
def resumes (o : Nat) (c : Call) : Prop := (∃ p n, c = .cont o p n) ∨ ∃ p n, c = .syscall o p n

/-- What such a request leaves as it is. -/
def Others (o : Nat) (s t : DSt) : Prop :=
  (∀ i, i ≠ o → AtRest i s.log → AtRest i t.log) ∧ t.list = s.list ∧ (∀ i, (t.heap i).parent = (s.heap i).parent)

theorem asked_resume {o : Nat} {c : Call} (hc : resumes o c) (h : Lawful s.log → Core B D none s) (ho : B s.log.length → Lawful s.log → AtRest o s.log) :
    Asked B D s (Py.bind (ptraceCall K c) (fun _ => updProc o fun p => { p with isStopped := false }) s) (fun _ t => Others o s t)
      (fun e t => RaisedOK e t ∧ t.list = s.list) := by
  have hask : asks c = some o := by
    rcases hc with ⟨p, n, rfl⟩ | ⟨p, n, rfl⟩ <;> rfl
  have hstop : ∀ i e, e.call = c → ¬ OverTold i e ∧ ¬ StopTold i e := by
    intro i e he
    constructor
    · rintro ⟨w, nh, wl, p, st, hx, _⟩
      rw [he] at hx
      rcases hc with ⟨p, n, rfl⟩ | ⟨p, n, rfl⟩ <;> cases hx
    · rintro ⟨w, nh, wl, p, st, hx, _⟩
      rw [he] at hx
      rcases hc with ⟨p, n, rfl⟩ | ⟨p, n, rfl⟩ <;> cases hx
  have hgo : ∀ i e, e.call = c → LetGo i e → i = o ∧ ∃ v st, e.reply = .ok v st := by
    rintro i e he ⟨hr, hx⟩
    refine ⟨?_, hr⟩
    rw [he] at hx
    rcases hc with ⟨p, n, rfl⟩ | ⟨p, n, rfl⟩ <;> rcases hx with ⟨p, n, hx⟩ | ⟨p, n, hx⟩ | ⟨p, hx⟩ | ⟨p, hx⟩ <;> cases hx <;> rfl
  have hoth : ∀ i, i ≠ o → AtRest i s.log → AtRest i (logCall K c s).log := fun i hi hh =>
    AtRest.snoc hh (fun hx => hi (hgo i _ rfl hx).1) (hstop i _ rfl).1
  have hfail : (∀ v st, K s.log c ≠ .ok v st) → Lawful (logCall K c s).log → Core B D none (logCall K c s) := fun hf hl =>
    (h (Lawful.init hl)).call c (fun hB i hi => by rw [hask] at hi; cases hi; exact ho hB (Lawful.init hl))
      (fun i _ _ _ hh => AtRest.snoc hh (fun hx => by
        obtain ⟨v, st, hr⟩ := (hgo i _ rfl hx).2
        exact hf v st hr) (hstop i _ rfl).1) (fun _ hx => by cases hx) fun i hx => (hstop i _ rfl).2 (SignalTold.stop hx)
  unfold Py.bind
  rw [ptraceCall_run]
  cases hr : K s.log c with
  | err n => exact .err (hfail fun v st hx => by rw [hr] at hx; cases hx) (.logCall _ _) fun _ => ⟨fun _ hx => (by cases hx), rfl⟩
  | interrupt => exact .err (hfail fun v st hx => by rw [hr] at hx; cases hx) (.logCall _ _) fun _ => ⟨fun _ hx => (by cases hx), rfl⟩
  | ok v st =>
    show Asked B D s (.ok (), setProc (logCall K c s) o { s.heap o with isStopped := false }) _ _
    refine .ok (fun hl => ?_) ((Old.logCall (K := K) c s).trans (Old.setProc _ o _ ⟨rfl, rfl, rfl, rfl, id⟩)) fun _ => ⟨hoth, rfl, fun i => ?_⟩
    · have hs := h (Lawful.init hl)
      have hne : ∀ i, i ≠ o → (setProc (logCall K c s) o { s.heap o with isStopped := false }).heap i = s.heap i := fun i hi => by
        rw [setProc_heap, if_neg hi]
        rfl
      refine ⟨(hs.reg.logCall K c).setProc o _ rfl id, AsksWhen.snoc hs.asks fun hB i hi => (by rw [hask] at hi; cases hi; exact ho hB (Lawful.init hl)),
        fun i hi h1 h2 => ?_, fun i hi h1 h2 => ?_, fun _ hx => (by cases hx), fun e he p i hm => ?_, fun i hi h1 => ?_⟩
      · by_cases e : i = o
        · rw [e, setProc_same] at h2
          cases h2
        · rw [hne i e] at h1 h2
          exact (hs.flag i hi h1 h2).imp (hoth i e) id
      · have hb := AtSignal.back h2 fun hx => (hstop i _ rfl).2 (SignalTold.stop hx)
        by_cases e : i = o
        · refine absurd (⟨⟨v, st, hr⟩, ?_⟩ : LetGo i ⟨c, K s.log c, s.dict⟩) hb.2
          rw [e]
          rcases hc with ⟨p, n, rfl⟩ | ⟨p, n, rfl⟩
          · exact .inl ⟨p, n, rfl⟩
          · exact .inr (.inl ⟨p, n, rfl⟩)
        · rw [hne i e] at h1 ⊢
          exact hs.full i hi h1 hb.1
      · rcases List.mem_append.1 he with he | he
        · exact hs.seen e he p i hm
        · rw [List.mem_singleton.1 he] at hm
          exact hs.reg.alloc i (hs.owner hm).1
      · by_cases e : i = o
        · rw [e, setProc_same] at h1
          exact e ▸ hs.left o (e ▸ hi) h1
        · rw [hne i e] at h1
          exact hs.left i hi h1
    · rw [setProc_heap]
      split
      · rename_i e
        rw [e]
      · rfl

theorem asked_procSyscall {o : Nat} (n : Nat) (h : Lawful s.log → Core B D none s) (ho : B s.log.length → Lawful s.log → AtRest o s.log) :
    Asked B D s (procSyscall K o n s) (fun _ t => Others o s t) (fun e t => RaisedOK e t ∧ t.list = s.list) := asked_resume (.inr ⟨_, _, rfl⟩) h ho

theorem asked_procCont {o : Nat} (n : Nat) (h : Lawful s.log → Core B D none s) (ho : B s.log.length → Lawful s.log → AtRest o s.log) :
    Asked B D s (procCont K o n s) (fun _ t => Others o s t) (fun e t => RaisedOK e t ∧ t.list = s.list) := asked_resume (.inl ⟨_, _, rfl⟩) h ho

theorem asked_updSys (o : Nat) (f : SysState → SysState) (h : Lawful s.log → Core B D none s) {E : Exc → DSt → Prop} :
    Asked B D s (updSys o f s) (fun _ t => t.log = s.log ∧ t.list = s.list ∧ ∀ i, (t.heap i).parent = (s.heap i).parent) E := by
  refine .ok (fun hl => (h hl).mild o _ rfl id rfl rfl) (Old.setProc s o _ ⟨rfl, rfl, rfl, rfl, id⟩) fun _ => ⟨rfl, rfl, fun i => ?_⟩
  rw [setProc_heap]
  split
  · rename_i e
    rw [e]
  · rfl

theorem now_of {o : Nat} {t : DSt} (h : Now o s) (h1 : t.log = s.log) (h2 : t.list = s.list) : Now o t := ⟨h1 ▸ h.1, h2 ▸ h.2⟩

theorem now_silent {o : Nat} {c : Call} (hc : muteCall c = true) (h : Now o s) : Now o (logCall K c s) := ⟨halted_silent hc h.1, h.2⟩

theorem asked_inspect {o : Nat} (p : Nat) (h : Lawful s.log → Core B D none s) (ho : Lawful s.log → Now o s) :
    Asked B D s (ptraceCall K (.inspect o p) s) (fun _ t => Now o t) Free := by
  refine Asked.cases (.refl s) ?_ fun hl => ?_
  · rw [ptraceCall_run]
    exact .logCall _ _
  · refine (asked_ptrace h (.inspect o p) rfl fun _ i hi hl => ?_).weaken (fun _ t ht => ?_) fun _ _ _ => trivial
    · cases hi
      exact (ho hl).1
    · rw [ht]
      exact now_silent rfl (ho hl)

/-- A display. -/
theorem asked_display (p : Nat) {o : Nat} (h : Lawful s.log → Core B D none s) (ho : Lawful s.log → Now o s) :
    Asked B D s (eventDisplay K p s) (fun _ t => Now o t) Free := by
  refine Asked.cases (.refl s) (askOld (eventDisplay_sat (S := askRules K) p fun _ _ => trivial) s) fun hl => ?_
  refine Asked.bind (Q' := fun _ t => Now o t) ((asked_ptrace h (.display p (s.heap p).pid) rfl fun _ i hi => by cases hi).weaken (fun _ t ht => ?_) fun _ _ _ => trivial) fun _ t hI _ hq =>
    asked_pure hI _ hq
  rw [ht]
  exact now_silent rfl (ho hl)

theorem asked_displayFree (p : Nat) (h : Lawful s.log → Core B D none s) : Asked B D s (eventDisplay K p s) Free Free :=
  Asked.bind (Q' := Free) ((asked_ptrace h (.display p (s.heap p).pid) rfl fun _ i hi => by cases hi).weaken (fun _ t ht => trivial) fun _ _ _ => trivial) fun _ t hI _ _ =>
    asked_pure hI _ fun _ => trivial

theorem asked_void {m : Py DSt β} {Q : DSt → Prop} {E : Exc → DSt → Prop} (h : Asked B D s (m s) (fun _ t => Q t) E) : Asked B D s (void m s) (fun _ t => Q t) E :=
  Asked.bind (Q' := fun _ t => Q t) h fun _ _ hI _ hq => asked_pure hI _ hq

theorem asked_sysEnter (C : SysCfg) {o : Nat} (h : Lawful s.log → Core B D none s) (ho : Lawful s.log → Now o s) :
    Asked B D s (sysEnter K C o s) (fun _ t => Now o t) Free := by
  unfold sysEnter
  have hup : ∀ {u : DSt} (f : SysState → SysState), (Lawful u.log → Core B D none u) → (Lawful u.log → Now o u) → Asked B D u (updSys o f u) (fun _ t => Now o t) Free :=
    fun {u} f hI hn => Asked.cases (.refl u) (Old.setProc u o _ ⟨rfl, rfl, rfl, rfl, id⟩) fun hl =>
      (asked_updSys o f hI).weaken (fun _ t ht => now_of (hn hl) ht.1 ht.2.1) fun _ _ h => h
  refine Asked.bind (asked_inspect _ h ho) fun regs t hI _ hn => ?_
  refine Asked.bind (Q' := fun _ t => Now o t) (hup _ hI hn) fun _ t hI _ hn => ?_
  refine Asked.bind (Q' := fun _ t => Now o t) ?_ fun _ t hI _ hn => ?_
  · split
    · exact asked_void (asked_inspect _ hI hn)
    · exact hup _ hI hn
  refine Asked.bind (Q' := fun _ t => Now o t) (hup _ hI hn) fun _ t hI _ hn => ?_
  exact .ok hI (.refl t) hn

theorem asked_sysExit (fuel : Nat) {o : Nat} (h : Lawful s.log → Core B D none s) (ho : Lawful s.log → Now o s) :
    Asked B D s (sysExit K fuel o s) (fun _ t => Now o t) Free := by
  have hup : ∀ {u : DSt} (f : SysState → SysState), (Lawful u.log → Core B D none u) → (Lawful u.log → Now o u) → Asked B D u (updSys o f u) (fun _ t => Now o t) Free :=
    fun {u} f hI hn => Asked.cases (.refl u) (Old.setProc u o _ ⟨rfl, rfl, rfl, rfl, id⟩) fun hl =>
      (asked_updSys o f hI).weaken (fun _ t ht => now_of (hn hl) ht.1 ht.2.1) fun _ _ h => h
  unfold sysExit
  refine Asked.bind (Q' := fun _ t => Now o t) ?_ fun _ t hI _ hn => ?_
  · unfold sysResult
    split
    · exact Asked.bind (asked_inspect _ h ho) fun _ t hI _ hn => hup _ hI hn
    · exact .ok h (.refl s) ho
  refine Asked.bind (Q' := fun _ t => Now o t) ?_ fun _ t hI _ hn => ?_
  · unfold sysExecTrap
    split
    · refine Asked.cases (.refl t) ?_ fun hl => ?_
      · exact askOld (K := K) (Sat.bind (procSyscall_any o 0) fun _ => void_sat (waitSignals_any fuel _ _)) t
      refine Asked.bind (Q' := fun _ u => o ∈ u.list ∧ (u.heap o).pid = (t.heap o).pid) ?_ fun _ u hI2 _ hq => ?_
      · have hp := asked_procSyscall (K := K) 0 hI fun _ hl => (hn hl).1
        refine ⟨hp.asks, hp.inv, hp.old, fun a ha hl2 => ⟨?_, hp.old.pid o ((hI hl).reg.alloc o (hn hl).2)⟩, fun _ _ _ => trivial⟩
        rw [(hp.val a ha hl2).2.1]
        exact (hn hl).2
      · refine Asked.cases (.refl u) ?_ fun hlu => ?_
        · exact askOld (K := K) (void_sat (waitSignals_any fuel _ _)) u
        · rw [← (hq hlu).2]
          exact asked_void ((asked_waitOne (K := K) fuel [SIGTRAP, SIGTRAP ||| 0x80] hI2 fun hl => (hq hl).1).weaken (fun _ _ h => h) fun _ _ _ => trivial)
    · exact .ok hI (.refl t) hn
  exact Asked.bind (Q' := fun _ t => Now o t) (hup _ hI hn) fun _ u hI _ hn => asked_pure hI _ hn

theorem asked_straceSyscall (fuel : Nat) (C : StraceCfg) {o : Nat} (h : Lawful s.log → Core B D none s) (ho : Lawful s.log → Now o s) :
    Asked B D s (straceSyscall K fuel C o s) Free Free := by
  unfold straceSyscall
  refine Asked.bind (Q' := fun _ t => Now o t) ?_ fun r t hI _ hn => ?_
  · unfold sysEvent
    split
    · exact asked_sysExit fuel h ho
    · exact asked_sysEnter C.sys h ho
  refine Asked.bind (Q' := fun _ t => Now o t) ?_ fun _ t hI _ hn => ?_
  · split
    · exact asked_display o hI hn
    · exact asked_pure hI _ hn
  exact (asked_procSyscall 0 hI fun _ hl => (hn hl).1).weaken (fun _ _ _ => trivial) fun _ _ _ => trivial

theorem asked_processExited (C : StraceCfg) (o : Nat) (h : Lawful s.log → Core B D none s) : Asked B D s (processExited K C o s) Free Free := by
  unfold processExited
  split
  · exact asked_displayFree o h
  · exact .ok h (.refl s) fun _ => trivial

theorem asked_prepare {o : Nat} (h : Lawful s.log → Core B D none s) (ho : B s.log.length → Lawful s.log → AtRest o s.log) :
    Asked B D s (prepareProcess K o s) (fun _ t => Others o s t) Free := by
  unfold prepareProcess
  refine Asked.bind (Q' := fun _ t => Others o s t) ((asked_procSyscall 0 h ho).weaken (fun _ _ h => h) fun _ _ _ => trivial) fun _ t hI _ hq => ?_
  refine Asked.cases (.refl t) (Old.setProc t o _ ⟨rfl, rfl, rfl, rfl, id⟩) fun hl => ?_
  refine (asked_updSys o _ hI).weaken (fun _ u hu => ?_) fun _ _ h => h
  obtain ⟨h1, h2, h3⟩ := hq hl
  exact ⟨fun i hi hh => hu.1 ▸ h1 i hi hh, hu.2.1.trans h2, fun i => (hu.2.2 i).trans (h3 i)⟩

theorem asked_handle (fuel : Nat) (C : StraceCfg) (r : Except Exc Event) (code : Nat) (hd : r ≠ .error .diverge) (h : Lawful s.log → Core B D none s)
    (hok : ∀ ev, r = .ok ev → Lawful s.log → ∃ q m, ev = .signal q m ∧ Now q s) (herr : ∀ e, r = .error e → Lawful s.log → RaisedOK e s) :
    Asked B D s (straceHandle K fuel C r code s) Free Free := by
  unfold straceHandle
  split
  · rename_i ev
    refine Asked.bind (Q' := Free) (asked_straceSyscall fuel C h fun hl => ?_) fun _ t hI _ _ => asked_pure hI _ fun _ => trivial
    obtain ⟨q, m, rfl, hq⟩ := hok ev rfl hl
    exact hq
  · exact Asked.bind (Q' := Free) (asked_processExited C _ h) fun _ t hI _ _ => asked_pure hI _ fun _ => trivial
  · rename_i o m
    have hn : Lawful s.log → Now o s := fun hl => herr _ rfl hl _ rfl
    refine Asked.bind (Q' := fun _ t => Now o t) (asked_display o h hn) fun _ t hI _ hq => ?_
    exact Asked.bind (Q' := Free) ((asked_procSyscall m hI fun _ hl => (hq hl).1).weaken (fun _ _ _ => trivial) fun _ _ _ => trivial) fun _ u hI2 _ _ =>
      asked_pure hI2 _ fun _ => trivial
  · rename_i q
    have hn : Lawful s.log → AtRest q s.log ∧ ∀ p, (s.heap q).parent = some p → AtRest p s.log ∧ p ≠ q := fun hl => herr _ rfl hl _ rfl
    refine Asked.bind (Q' := Free) ?_ fun _ t hI _ _ => asked_pure hI _ fun _ => trivial
    refine Asked.cases (.refl s) ?_ fun hl => ?_
    · refine askOld (K := K) (Sat.bind (Sat.bind (procSyscall_any q 0) fun _ => ?_) fun _ => ?_) s
      · intro u _
        exact .one trivial (.sys q _)
      · intro u _
        dsimp only
        cases (u.heap q).parent with
        | none => exact .refl u
        | some p => exact procSyscall_any p 0 u trivial
    unfold straceNewProcess
    refine Asked.bind (asked_prepare h fun _ hl => (hn hl).1) fun _ t hI _ hq => ?_
    cases hp : (t.heap q).parent with
    | none => exact .err hI (.refl t) fun _ => trivial
    | some p =>
      refine (asked_procSyscall 0 hI fun _ hlt => ?_).weaken (fun _ _ _ => trivial) fun _ _ _ => trivial
      obtain ⟨h1, _, h3⟩ := hq hlt
      rw [h3 q] at hp
      obtain ⟨h4, h5⟩ := (hn hl).2 p hp
      exact h1 p h5 h4
  · rename_i o
    exact Asked.bind (Q' := Free) ((asked_procSyscall 0 h fun _ hl => herr _ rfl hl _ rfl).weaken (fun _ _ _ => trivial) fun _ _ _ => trivial) fun _ t hI _ _ =>
      asked_pure hI _ fun _ => trivial
  · exact asked_raise h _ fun _ => trivial

theorem asked_loop (fuel : Nat) (C : StraceCfg) (n : Nat) : ∀ (code : Nat) {s : DSt}, (Lawful s.log → Core B D none s) →
    Asked B D s (straceLoop K fuel C n code s) Free Free := by
  induction n with
  | zero => exact fun code {s} h => ⟨fun hl => (h hl).asks, fun hn => (hn rfl).elim, .refl s, fun _ hx => (by cases hx), fun _ _ _ => trivial⟩
  | succ n ih =>
    intro code s h
    unfold straceLoop
    split
    · exact .ok h (.refl s) fun _ => trivial
    · refine Asked.bind (Q' := Free) ?_ fun code t hI _ _ => ih code hI
      unfold straceTurn
      have hw := asked_waitSyscall (K := K) fuel h
      generalize waitSyscall K fuel none s = x at hw ⊢
      obtain ⟨r, t⟩ := x
      by_cases hd : r = .error .diverge
      · subst hd
        exact ⟨hw.asks, fun hn => (hn rfl).elim, hw.old, fun _ hx => (by cases hx), fun _ _ _ => trivial⟩
      · refine Asked.base ?_ hw.old
        refine asked_handle fuel C r code hd (hw.inv hd) (fun ev he hl => ?_) fun e he hl => hw.exc e he hl
        exact hw.val ev he hl

theorem asked_create (fuel pid : Nat) (a : Bool) (h : Lawful s.log → Core B D none s) :
    Asked B D s (createProcess K fuel pid a s) (fun r t => ∀ o, r = some o → AtRest o t.log) Free := by
  unfold createProcess
  have hw := asked_add (K := K) (good_wait fuel) (fun p b => wait_sat fuel p b) pid a none false h
  generalize addProcess K (waitEventPid K fuel) pid a none false s = x at hw ⊢
  obtain ⟨r, t⟩ := x
  cases r with
  | ok o => exact .ok (hw.inv fun hx => by cases hx) hw.old fun hl i hi => by cases hi; exact (hw.val o rfl hl).1
  | error e =>
    have hn : e ≠ .diverge → Asked B D s ((.ok none : Except Exc (Option Nat)), t) (fun r t => ∀ o, r = some o → AtRest o t.log) Free := fun hd =>
      .ok (hw.inv fun hx => hd (by cases hx; rfl)) hw.old fun _ _ hx => by cases hx
    have he : Asked B D s ((.error e : Except Exc (Option Nat)), t) (fun r t => ∀ o, r = some o → AtRest o t.log) Free :=
      ⟨hw.asks, fun hd => hw.inv fun hx => hd (by cases hx; rfl), hw.old, fun _ hx => (by cases hx), fun _ _ _ => trivial⟩
    split
    · rename_i h1
      cases h1
    · rename_i h1
      cases h1
      exact hn fun hx => by cases hx
    · rename_i h1
      cases h1
      exact hn fun hx => by cases hx
    · rename_i h1
      cases h1
      exact he

theorem asked_run (fuel : Nat) (C : StraceCfg) (pid : Nat) (a : Bool) (h : Lawful s.log → Core B D none s) :
    Asked B D s (straceRun K fuel C pid a s) Free Free := by
  unfold straceRun
  refine Asked.bind (asked_create fuel pid a h) fun r t hI _ hq => ?_
  cases r with
  | none => exact asked_pure hI _ fun _ => trivial
  | some o =>
    refine Asked.bind (Q' := Free) ?_ fun code u hI2 _ _ => asked_pure hI2 _ fun _ => trivial
    unfold syscallTrace
    exact Asked.bind (Q' := Free) ((asked_prepare hI fun _ hl => hq hl o rfl).weaken (fun _ _ _ => trivial) fun _ _ _ => trivial) fun _ u hI2 _ _ => asked_loop fuel C fuel 0 hI2

/-! ### quitting -/

theorem asked_waitExit (fuel : Nat) {o : Nat} (n : Nat) : ∀ {s : DSt}, (Lawful s.log → Core B D none s) → (Lawful s.log → o ∈ s.list) →
    Asked B D s (waitExit K fuel o n s) Free Free := by
  induction n with
  | zero => exact fun {s} h _ => ⟨fun hl => (h hl).asks, fun hn => (hn rfl).elim, .refl s, fun _ hx => (by cases hx), fun _ _ _ => trivial⟩
  | succ n ih =>
    intro s h ho
    refine Asked.cases (.refl s) (askOld (waitExit_sat (S := askRules K) (fun _ _ _ => trivial) o (fun _ _ => .inr trivial) (fun _ _ _ => trivial)
      (fun _ => trivial) fuel (n + 1)) s) fun hl => ?_
    have hc := h hl
    have hg : dictGet s.dict (s.heap o).pid = some o := dictGet_of_mem hc.reg.keys (hc.getOf (ho hl))
    unfold waitExit
    have hw := good_wait (K := K) (B := B) (D := D) fuel none (s.heap o).pid true s h fun _ hx => by cases hx
    refine Asked.bind (Q' := WQ (s.heap o).pid s) (hw.weaken (fun _ _ hq => hq) fun _ _ _ => trivial) fun r t hI _ hq => ?_
    cases r with
    | none => exact asked_raise hI _ fun _ => trivial
    | some ev =>
      cases ev with
      | exit q a b => exact asked_pure hI _ fun _ => trivial
      | newProcess q => exact asked_raise hI _ fun _ => trivial
      | execution q => exact asked_raise hI _ fun _ => trivial
      | signal q m =>
        have hn : Lawful t.log → Now o t := fun hlt => by
          obtain ⟨h1, h2⟩ := (hq hlt).2 _ rfl
          have h3 := h2 q m rfl
          rw [hg] at h3
          cases h3
          exact h1
        refine Asked.cases (.refl t) ?_ fun hlt => ?_
        · refine askOld (K := K) (Sat.bind (Sat.ite (fun _ => procCont_any o _) fun _ => procCont_any o _) fun _ => waitExit_sat (S := askRules K) (fun _ _ _ => trivial) o
            (fun _ _ => .inr trivial) (fun _ _ _ => trivial) (fun _ => trivial) fuel n) t
        have key : ∀ k, Asked B D t (Py.bind (procCont K o k) (fun _ => waitExit K fuel o n) t) Free Free := fun k =>
          Asked.bind (Q' := fun _ u => u.list = t.list) ((asked_procCont k hI fun _ hl => (hn hl).1).weaken (fun _ _ h => h.2.1) fun _ _ _ => trivial) fun _ u hI2 _ hu =>
            ih hI2 fun hlu => by rw [hu hlu]; exact (hn hlt).2
        dsimp only
        split
        · exact key m
        · exact key 0

theorem asked_kill {o : Nat} (n : Nat) (h : Lawful s.log → Core B D none s) : Asked B D s (procKill K o n s) (fun _ t => t.list = s.list) (fun _ t => t.list = s.list) := by
  unfold procKill Py.bind
  rw [osCall_run]
  have hI : Lawful (logCall K (.kill o (s.heap o).pid n) s).log → Core B D none (logCall K (.kill o (s.heap o).pid n) s) := fun hl =>
    (h (Lawful.init hl)).muteCall _ rfl fun _ _ hx => by cases hx
  cases hr : K s.log (.kill o (s.heap o).pid n) with
  | ok v st => exact .ok hI (.logCall _ _) fun _ => rfl
  | err n => exact .err hI (.logCall _ _) fun _ => rfl
  | interrupt => exact .err hI (.logCall _ _) fun _ => rfl

theorem asked_notRunning (o : Nat) (h : Lawful s.log → Core B D none s) : Asked B D s (notRunning K o s) Free Free := by
  rw [notRunning_run]
  refine .ok (fun hl => ?_) (.gone o s) fun _ => trivial
  rw [(gone_heap o s).2.2.1] at hl
  have hc := h hl
  refine Core.gone hc.reg hc.asks (fun i hi _ h1 h2 => ?_) (fun i hi _ => hc.full i hi) hc.seen hc.left
  rcases hc.flag i hi h1 h2 with hx | hx
  · exact hx
  · cases hx

theorem asked_terminate (fuel : Nat) {o : Nat} (w : Bool) (h : Lawful s.log → Core B D none s) (ho : Lawful s.log → (s.heap o).running = true → o ∈ s.list) :
    Asked B D s (terminate K fuel o w s) Free Free := by
  refine Asked.cases (.refl s) (askOld (terminate_sat (S := askRules K) (fun _ _ _ => trivial) o (fun _ _ => .inr trivial) (fun _ _ _ => trivial)
      (fun _ => trivial) (fun _ _ => trivial) fuel w) s) fun hl => ?_
  have hc := h hl
  unfold terminate
  split
  · exact .ok h (.refl s) fun _ => trivial
  · rename_i hrun
    have hrun : (s.heap o).running = true := by
      cases hx : (s.heap o).running <;> simp_all
    have hm : o ∈ s.list := ho hl hrun
    refine Asked.bind (Q' := fun _ t => o ∈ t.list) ?_ fun done t hI _ hq => ?_
    · have hx : Asked B D s ((if (s.heap o).isStopped then procCont K o SIGKILL else procKill K o SIGKILL) s) (fun _ t => t.list = s.list) (fun _ t => t.list = s.list) := by
        cases hst : (s.heap o).isStopped with
        | true =>
          refine (asked_procCont (K := K) SIGKILL h fun _ hl => ?_).weaken (fun _ _ h => h.2.1) fun _ _ h => h.2
          rcases hc.flag o hm hrun hst with hx | hx
          · exact hx
          · cases hx
        | false => exact asked_kill SIGKILL h
      unfold terminateKill
      generalize (if (s.heap o).isStopped then procCont K o SIGKILL else procKill K o SIGKILL) s = x at hx ⊢
      obtain ⟨r, t⟩ := x
      cases r with
      | ok u => exact .ok (hx.inv fun hy => by cases hy) hx.old fun hl => by rw [hx.val u rfl hl]; exact hm
      | error e =>
        dsimp only
        split
        · rename_i he
          exact .ok (hx.inv fun hy => by subst he; cases hy) hx.old fun hl => by rw [hx.exc e rfl hl]; exact hm
        · exact ⟨hx.asks, fun hd => hx.inv fun hy => hd (by cases hy; rfl), hx.old, fun _ hy => (by cases hy), fun _ _ _ => trivial⟩
    · split
      · exact asked_pure hI _ fun _ => trivial
      · refine Asked.bind (Q' := Free) ?_ fun _ u hI2 _ _ => ?_
        · split
          · exact asked_pure hI _ fun _ => trivial
          · exact asked_waitExit fuel fuel hI hq
        · exact Asked.bind (Q' := Free) (asked_notRunning o hI2) fun _ v hI3 _ _ => asked_pure hI3 _ fun _ => trivial

/-- The object was detached while running. -/
theorem Core.detached (h : Core B D none s) {o p : Nat} (ha : (s.heap o).isAttached = true) :
    Core B (fun i => D i ∨ i = o) none (PT.unreg o (logCall K (.detach o p) (PT.setProc s o { s.heap o with isAttached := false }))) := by
  have hm := h.reg.att o ha
  refine ⟨?_, AsksWhen.snoc h.asks (fun _ _ hx => by cases hx), fun i hi h1 h2 => .inl ?_, fun i hi h1 h2 => ?_, fun _ hx => (by cases hx), fun e he q i hm => ?_, fun i hi h1 => ?_⟩
  · exact (((h.reg.setProc o { s.heap o with isAttached := false } rfl fun hx => by cases hx)).logCall K _).unreg o
      (by show ((PT.setProc s o _).heap o).isAttached = false; rw [setProc_same]) (.inl hm)
  · have hne : i ≠ o := fun e => by
      subst e
      exact (List.Nodup.not_mem_erase h.reg.nodup) hi
    have hi : i ∈ s.list := List.mem_of_mem_erase hi
    have hh : (PT.unreg o (logCall K (.detach o p) (PT.setProc s o { s.heap o with isAttached := false }))).heap i = s.heap i := by
      show (PT.setProc s o _).heap i = _
      rw [setProc_heap, if_neg hne]
    rw [hh] at h1 h2
    rcases h.flag i hi h1 h2 with hx | hx
    · refine AtRest.snoc hx ?_ ?_
      · rintro ⟨_, ⟨q, n, hy⟩ | ⟨q, n, hy⟩ | ⟨q, hy⟩ | ⟨q, hy⟩⟩
        · cases hy
        · cases hy
        · cases hy
        · injection hy with hy _
          exact hne hy.symm
      · rintro ⟨w, nh, wl, q, st, hy, _⟩
        cases hy
    · cases hx
  · have hne : i ≠ o := fun e => by
      subst e
      exact (List.Nodup.not_mem_erase h.reg.nodup) hi
    have hi : i ∈ s.list := List.mem_of_mem_erase hi
    have hh : (PT.unreg o (logCall K (.detach o p) (PT.setProc s o { s.heap o with isAttached := false }))).heap i = s.heap i := by
      show (PT.setProc s o _).heap i = _
      rw [setProc_heap, if_neg hne]
    rw [hh] at h1 ⊢
    refine h.full i hi h1 (AtSignal.back h2 ?_).1
    rintro ⟨w, nh, wl, q, st, hy, _⟩
    cases hy
  · rcases List.mem_append.1 he with he | he
    · exact h.seen e he q i hm
    · rw [List.mem_singleton.1 he] at hm
      exact h.reg.alloc i (h.owner hm).1
  · by_cases e : i = o
    · exact .inr (.inr e)
    · have hh : (PT.unreg o (logCall K (.detach o p) (PT.setProc s o { s.heap o with isAttached := false }))).heap i = s.heap i := by
        show (PT.setProc s o _).heap i = _
        rw [setProc_heap, if_neg e]
      rw [hh] at h1
      exact (h.left i hi h1).imp (fun hx => (List.mem_erase_of_ne e).2 hx) .inl

theorem Core.more {D' : Nat → Prop} {X : Option Nat} (h : Core B D X s) (hD : ∀ i, D i → D' i) : Core B D' X s :=
  ⟨h.reg, h.asks, h.flag, h.full, h.fresh, h.seen, fun i hi h1 => (h.left i hi h1).imp id (hD i)⟩

theorem Core.undetached (h : Core B D none s) {o p : Nat} (hf : ∀ v st, K s.log (.detach o p) ≠ .ok v st) :
    Core B D none (logCall K (.detach o p) (PT.setProc s o { s.heap o with isAttached := false })) := by
  refine (h.mild o { s.heap o with isAttached := false } rfl (fun hx => by cases hx) rfl rfl).call _ (fun _ _ hx => by cases hx) (fun i _ _ _ hh => ?_) (fun _ hx => by cases hx) ?_
  · refine AtRest.snoc hh ?_ ?_
    · rintro ⟨⟨v, st, hr⟩, _⟩
      exact hf v st hr
    · rintro ⟨w, nh, wl, q, st, hy, _⟩
      cases hy
  · rintro i ⟨w, nh, wl, q, st, hy, _⟩
    cases hy

theorem asked_detach {o : Nat} (h : Lawful s.log → Core B D none s) :
    Asked B (fun i => D i ∨ i = o) s (detach K o s) Free Free := by
  rcases detach_cases (K := K) o s with ⟨_, hx⟩ | ⟨ha, hr, hx⟩ | ⟨ha, hr, _, hx⟩ | ⟨ha, hr, e, he, hx⟩ <;> rw [hx]
  · exact .ok (fun hl => (h hl).more fun _ hd => .inl hd) (.refl s) fun _ => trivial
  · refine .ok (fun hl => ?_) ((Old.setProc s o { s.heap o with isAttached := false } ⟨rfl, rfl, rfl, rfl, id⟩).trans (.unreg o _)) fun _ => trivial
    have hc := h hl
    have hs := (hc.mild o { s.heap o with isAttached := false } rfl (fun hx => by cases hx) rfl rfl)
    exact (hs.unreg o (by rw [setProc_same]) (hc.reg.att o ha) (.inl (by rw [setProc_same]; exact hr))).more fun _ hd => .inl hd
  · exact .ok (fun hl => Core.detached (h (Lawful.init hl)) ha)
      (((Old.setProc s o { s.heap o with isAttached := false } ⟨rfl, rfl, rfl, rfl, id⟩).trans (.logCall _ _)).trans (.unreg o _)) fun _ => trivial
  · refine .err (fun hl => ((h (Lawful.init hl)).undetached fun v st hk => ?_).more fun _ hd => .inl hd)
      ((Old.setProc s o { s.heap o with isAttached := false } ⟨rfl, rfl, rfl, rfl, id⟩).trans (.logCall _ _)) fun _ => trivial
    rw [hk] at he
    cases he

/-- `D'` holds of what is detached meanwhile. -/
theorem asked_quitLoop (fuel : Nat) (os : List Nat) : ∀ (D : Nat → Prop) (s : DSt), (Lawful s.log → Core B D none s) → os.Nodup → (∀ o ∈ os, ¬ D o ∧ o < s.next) →
    ∃ D', Asked B D' s (quitLoop K fuel os s) Free Free := by
  induction os with
  | nil => exact fun D s h _ _ => ⟨D, .ok h (.refl s) fun _ => trivial⟩
  | cons o os ih =>
    intro D s h hn hD
    have ht := asked_terminate (K := K) fuel true h fun hl hr => ((h hl).left o (hD o List.mem_cons_self).2 hr).resolve_right (hD o List.mem_cons_self).1
    unfold quitLoop Py.bind
    generalize terminate K fuel o true s = x at ht ⊢
    obtain ⟨r, t⟩ := x
    cases r with
    | error e => exact ⟨D, ht.asks, fun hd => ht.inv fun hx => hd (by cases hx; rfl), ht.old, fun _ hx => (by cases hx), fun _ _ _ => trivial⟩
    | ok b =>
      dsimp only
      have h1 := asked_detach (K := K) (o := o) (ht.inv fun hx => by cases hx)
      generalize detach K o t = y at h1 ⊢
      obtain ⟨r, u⟩ := y
      cases r with
      | error e => exact ⟨_, h1.asks, fun hd => h1.inv fun hx => hd (by cases hx; rfl), ht.old.trans h1.old, fun _ hx => (by cases hx), fun _ _ _ => trivial⟩
      | ok _ =>
        obtain ⟨D', h2⟩ := ih (fun i => D i ∨ i = o) u (h1.inv fun hx => by cases hx) (List.nodup_cons.1 hn).2 fun i hi => ⟨(by
          rintro (hx | hx)
          · exact (hD i (List.mem_cons_of_mem _ hi)).1 hx
          · exact (List.nodup_cons.1 hn).1 (hx ▸ hi)), Nat.lt_of_lt_of_le (hD i (List.mem_cons_of_mem _ hi)).2 (Nat.le_trans ht.old.next h1.old.next)⟩
        exact ⟨D', h2.base (ht.old.trans h1.old)⟩

theorem asked_quit (fuel : Nat) (h : Lawful s.log → Core B D none s) (hD : Lawful s.log → ∀ o ∈ s.list, ¬ D o) : ∃ D', Asked B D' s (quit K fuel s) Free Free := by
  have hold : Old s (quit K fuel s).2 := askOld (quitLoop_sat (S := askRules K) (fun _ _ _ => trivial) fuel s.list.reverse (fun _ _ _ _ => .inr trivial)
    (fun _ _ _ _ _ => trivial) (fun _ _ _ => trivial) (fun _ _ _ _ => trivial) (fun _ _ _ => trivial) (fun _ _ _ => trivial)) s
  by_cases hl : Lawful s.log
  · have hr := (h hl).reg
    exact asked_quitLoop fuel s.list.reverse D s h (List.pairwise_reverse.2 (hr.nodup.imp fun hx => hx.symm)) fun o ho =>
      ⟨hD hl o (List.mem_reverse.1 ho), hr.alloc o (List.mem_reverse.1 ho)⟩
  · exact ⟨D, Asked.broken hl (.refl s) hold⟩

theorem asked_main (fuel : Nat) (C : StraceCfg) (pid : Nat) (a : Bool) (h : Core (fun _ => True) (fun _ => False) none s) :
    Lawful (straceMain K fuel C pid a s).2.log → AsksStopped (straceMain K fuel C pid a s).2.log := by
  have hr := asked_run (K := K) fuel C pid a fun _ => h
  unfold straceMain
  generalize straceRun K fuel C pid a s = x at hr ⊢
  obtain ⟨r, t⟩ := x
  have hquit : ∀ (code : Option Nat) (u : DSt), (Lawful u.log → Core (fun _ => True) (fun _ => False) none u) →
      Lawful (Py.bind (quit K fuel) (fun _ => Py.pure code) u).2.log → AsksStopped (Py.bind (quit K fuel) (fun _ => Py.pure code) u).2.log := fun code u hu => by
    obtain ⟨_, this⟩ := asked_quit (K := K) fuel hu fun _ _ _ hx => hx
    have this := fun hl => asksWhen_all.1 (this.asks hl)
    unfold Py.bind
    generalize quit K fuel u = y at this ⊢
    obtain ⟨r, v⟩ := y
    cases r <;> exact this
  dsimp only
  cases r with
  | ok code => exact hquit code t (hr.inv fun hx => by cases hx)
  | error e =>
    by_cases hd : e = .diverge
    · subst hd
      exact fun hl => asksWhen_all.1 (hr.asks hl)
    · have hI := hr.inv fun hx => hd (by cases hx; rfl)
      have hx : Asked (fun _ => True) (fun _ => False) t (straceExcept K C e t) Free Free := by
        unfold straceExcept
        split
        · exact Asked.bind (Q' := Free) (asked_processExited C _ hI) fun _ u hI2 _ _ => asked_pure hI2 _ fun _ => trivial
        · exact asked_pure hI _ fun _ => trivial
        · exact absurd rfl hd
        · exact asked_pure hI _ fun _ => trivial
      show Lawful (Py.bind (straceExcept K C e) _ t).2.log → AsksStopped (Py.bind (straceExcept K C e) _ t).2.log
      unfold Py.bind
      generalize straceExcept K C e t = y at hx ⊢
      obtain ⟨r, u⟩ := y
      cases r with
      | ok code => exact hquit code u (hx.inv fun hy => by cases hy)
      | error e => exact fun hl => asksWhen_all.1 (hx.asks hl)

end PT
