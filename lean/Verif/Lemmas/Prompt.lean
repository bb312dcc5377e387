import Verif.Model.GdbMain
import Verif.Spec.Prompt
import Verif.Props.Watch

/-! Commands of gdb.py about one process, request by request. -/

namespace PT
open PT.Spec

section
variable {K : Kern} {G : GdbCfg} {pid : Nat} {P : Story} {events : Bool} {cs : List Call} {ss : SysState} {s : DSt} {g : GSt} {T : Table}

/-- What waiting for signals gives when this is found. -/
def Awaited (events : Bool) (pid : Nat) (cs : List Call) (ss : SysState) (before : Bool) (sigs : List Nat) (m : Except Exc Event × DSt) :
    Stop → Prop
  | .signal n => m.1 = (if (sigs.contains n || sigs.isEmpty) = true then .ok (.signal 0 n) else .error (.event (.signal 0 n))) ∧
    Here events pid m.2 (cs ++ [await pid]) ss ∧ (m.2.heap 0).isStopped = true
  | .ctrlC => m.1 = .error .interrupt ∧ Here events pid m.2 (cs ++ [await pid]) ss ∧ (m.2.heap 0).isStopped = before
  | _ => (∃ a b, m.1 = .error (.event (.exit 0 a b))) ∧ m.2.list = [] ∧ m.2.log.map Entry.call = cs ++ [await pid] ∧
    (m.2.heap 0).running = false

theorem waitSignals_one (h : Here events pid s cs ss) {po : Option Nat} (hpo : po = none ∨ po = some pid) (fuel : Nat) (sigs : List Nat) :
    waitSignals K (fuel + 1) sigs po s = Py.bind (waitEventPid K (fuel + 1) pid true) (filterEvent sigs) s := by
  rcases hpo with rfl | rfl
  · unfold waitSignals waitProcessEvent Py.bind
    dsimp only
    have e : waitAny K (fuel + 1) (fuel + 1) true s = waitEventPid K (fuel + 1) pid true s := by
      rw [waitAny]
      dsimp only
      rw [h.dict]
      rfl
    rw [e]
  · rfl

/-- An interrupted wait. -/
theorem wait_ctrlC (hp : pid ≠ 0) (h : Here events pid s cs ss) (hk : K s.log (await pid) = .interrupt) (fuel : Nat) :
    ∃ t, waitEventPid K (fuel + 1) pid true s = (.error .interrupt, t) ∧ Here events pid t (cs ++ [await pid]) ss ∧
      (t.heap 0).isStopped = (s.heap 0).isStopped := by
  refine ⟨{ s with log := s.log ++ [⟨await pid, .interrupt, s.dict⟩] }, ?_, ?_, rfl⟩
  · have e1 : osCall K (await pid) s = (.error .interrupt, { s with log := s.log ++ [⟨await pid, .interrupt, s.dict⟩] }) := by
      unfold osCall sysc Py.bind
      dsimp only
      rw [hk]
      rfl
    have e2 : waitpidRaw K pid true s = (.error .interrupt, { s with log := s.log ++ [⟨await pid, .interrupt, s.dict⟩] }) := by
      unfold waitpidRaw
      rw [if_pos hp, h.get]
      dsimp only
      rw [h.thread]
      rw [Py.run_bind_error (show osCall K (.waitpid (some pid) (!true) false) s = _ from e1)]
    unfold waitEventPid
    rw [e2]
    rfl
  · exact ⟨h.dict, h.list, h.good, h.exec, h.options, h.pid, h.running, h.attached, h.thread, h.ss, by simp [h.log], h.next⟩

theorem wait_stop (hp : pid ≠ 0) (hK : Plays K pid P) (h : Here events pid s cs ss) {po : Option Nat} (hpo : po = none ∨ po = some pid)
    (fuel : Nat) (sigs : List Nat) {x : Stop} (hx : P.stops cs = some x) :
    Awaited events pid cs ss (s.heap 0).isStopped sigs (waitSignals K (fuel + 1) sigs po s) x := by
  rw [waitSignals_one h hpo]
  rw [← h.log] at hx
  cases x with
  | signal n =>
    obtain ⟨st, hk, hm⟩ := hK.signal _ _ hx
    obtain ⟨t, e, h1, h2⟩ := h.waitSignal_of hp hk hm fuel
    rw [Py.run_bind_ok e]
    unfold filterEvent Awaited
    dsimp only
    split
    · exact ⟨rfl, h1, h2⟩
    · exact ⟨rfl, h1, h2⟩
  | exited c =>
    obtain ⟨st, hk, hm⟩ := hK.exited _ _ hx
    obtain ⟨t, e, h1, _, _, h2, h3⟩ := h.waitEnd_run hp (Or.inl ⟨c, rfl, rfl, rfl⟩) hk hm fuel
    rw [Py.run_bind_ok e]
    exact ⟨⟨_, _, rfl⟩, h1, h2, h3⟩
  | killed n =>
    obtain ⟨st, hk, hm⟩ := hK.killed _ _ hx
    obtain ⟨t, e, h1, _, _, h2, h3⟩ := h.waitEnd_run hp (Or.inr ⟨n, rfl, rfl, rfl⟩) hk hm fuel
    rw [Py.run_bind_ok e]
    exact ⟨⟨_, _, rfl⟩, h1, h2, h3⟩
  | ctrlC =>
    obtain ⟨t, e, h1, h2⟩ := wait_ctrlC hp h (hK.ctrlC _ hx) fuel
    rw [Py.run_bind_error e]
    exact ⟨rfl, h1, h2⟩

/-- A request that is accepted, also keeps what is known of the process. -/
theorem request_keeps {c : Call} {v : Nat} {st : Int} (h : Here events pid s cs ss) (hk : K s.log c = .ok v st) :
    ∃ t, ptraceCall K c s = (.ok v, t) ∧ Here events pid t (cs ++ [c]) ss ∧ (t.heap 0).isStopped = (s.heap 0).isStopped := by
  have e : ptraceCall K c s = (.ok v, { s with log := s.log ++ [⟨c, K s.log c, s.dict⟩] }) := by
    unfold ptraceCall sysc Py.bind
    dsimp only
    rw [hk]
    rfl
  exact ⟨_, e, ⟨h.dict, h.list, h.good, h.exec, h.options, h.pid, h.running, h.attached, h.thread, h.ss, by simp [h.log], h.next⟩, rfl⟩

/-- The state kept about system calls. -/
def CallKept (name : Nat → Str) (inside : Option Nat) (ss : SysState) : Prop :=
  ss.hasCallback = false ∧
  match inside with
  | none => ss.nextExit = false
  | some regs => ss.nextExit = true ∧ ss.name = some (name regs) ∧ ∃ c, ss.syscall = some c

/-- The user is at the prompt. -/
structure Sits (events : Bool) (pid : Nat) (name : Nat → Str) (g : GSt) (T : Table) : Prop where
  here : ∃ ss, Here events pid g.dbg T.made ss ∧ CallKept name T.inside ss
  stopped : (g.dbg.heap 0).isStopped = T.stopped
  process : g.process = 0
  last : (g.last 0).getD 0 = T.pending

/-- What a command does. -/
def Leads (events : Bool) (pid : Nat) (name : Nat → Str) (m : Except Exc Bool × GSt) : Result → Prop
  | .ready ok T => m.1 = .ok ok ∧ Sits events pid name m.2 T
  | .signal n T => m.1 = .error (.event (.signal 0 n)) ∧ Sits events pid name m.2 T
  | .ctrlC T => m.1 = .error .interrupt ∧ Sits events pid name m.2 T
  | .ended T => (∃ a b, m.1 = .error (.event (.exit 0 a b))) ∧ m.2.dbg.list = [] ∧ m.2.dbg.log.map Entry.call = T.made ∧
    (m.2.dbg.heap 0).running = false ∧ m.2.process = 0
  | .unknown => True

/-- A look at the process. -/
theorem sits_look (hK : Plays K pid P) (h : Sits events pid G.sys.name g T) :
    ∃ g', PT.look K g = (.ok (T.answer P), g') ∧ Sits events pid G.sys.name g' (T.ask (Spec.look pid)) := by
  obtain ⟨ss, hh, hc⟩ := h.here
  obtain ⟨st, hk⟩ := hK.look g.dbg.log 0
  rw [hh.log] at hk
  obtain ⟨t, e, h1, h2⟩ := request_keeps hh hk
  refine ⟨{ g with dbg := t }, ?_, ⟨ss, h1, hc⟩, h2.trans h.stopped, h.process, h.last⟩
  unfold PT.look lift
  rw [h.process, hh.pid, e]
  rfl

/-- A signal is shown and kept. -/
theorem sits_signal (hK : Plays K pid P) (h : Sits events pid G.sys.name g T) (n : Nat) :
    ∃ g', processSignal K 0 n g = (.ok (), g') ∧ Sits events pid G.sys.name g' { T.ask (print pid) with pending := n } := by
  obtain ⟨ss, hh, hc⟩ := h.here
  obtain ⟨v, st, hk⟩ := (hK.accepts g.dbg.log 0 0).2.1
  obtain ⟨t, e, h1, h2⟩ := request_keeps hh hk
  refine ⟨⟨t, 0, fun i => if i = 0 then some n else g.last i⟩, ?_, ⟨ss, h1, hc⟩, h2.trans h.stopped, rfl, rfl⟩
  unfold processSignal
  rw [Py.run_bind_ok (a := ()) (u := { g with dbg := t })]
  · rfl
  · unfold lift eventDisplay
    rw [hh.pid, Py.run_bind_ok e]
    rfl

/-- Let the process go on, not thought to be stopped any more. -/
theorem sits_go (hK : Plays K pid P) (h : Here events pid s cs ss) (n : Nat) :
    ∃ t, procCont K 0 n s = (.ok (), t) ∧ Here events pid t (cs ++ [letGo pid (filterSignal n)]) ss ∧ (t.heap 0).isStopped = false := by
  obtain ⟨v, st, hk⟩ := (hK.accepts s.log 0 (filterSignal n)).1
  obtain ⟨t, h1, h2⟩ := h.request hk
  have h3 := h2.update (f := fun p => { p with isStopped := false }) fun p => ⟨rfl, rfl, rfl, rfl⟩
  dsimp only at h3
  rw [h2.ss] at h3
  refine ⟨_, ?_, h3, rfl⟩
  unfold procCont
  rw [h.pid, Py.run_bind_ok h1]
  rfl

theorem sits_goCall (hK : Plays K pid P) (h : Here events pid s cs ss) :
    ∃ t, procSyscall K 0 0 s = (.ok (), t) ∧ Here events pid t (cs ++ [go pid 0]) ss ∧ (t.heap 0).isStopped = false := by
  obtain ⟨v, st, hk⟩ := (hK.accepts s.log 0 0).2.2.2.2.2.1
  obtain ⟨t, h1, h2⟩ := h.request hk
  have h3 := h2.update (f := fun p => { p with isStopped := false }) fun p => ⟨rfl, rfl, rfl, rfl⟩
  dsimp only at h3
  rw [h2.ss] at h3
  refine ⟨_, ?_, h3, rfl⟩
  unfold procSyscall
  rw [h.pid, Py.run_bind_ok (show ptraceCall K (.syscall 0 pid (filterSignal 0)) s = _ from h1)]
  rfl

theorem filterSignal_eq (n : Nat) : filterSignal n = handedOn n := rfl

/-- Waiting for signals, and what is done then. -/
theorem attend_leads (hp : pid ≠ 0) (hK : Plays K pid P) (h : Sits events pid G.sys.name g T) {po : Option Nat} (hpo : po = none ∨ po = some pid)
    (fuel : Nat) (sigs : List Nat) (wanted : Nat → Bool) (hw : ∀ n, (sigs.contains n || sigs.isEmpty) = wanted n) (k : Event → Py GSt Bool)
    (next : Nat → Table → Result)
    (hk : ∀ n g', wanted n = true → Sits events pid G.sys.name g' { T.ask (await pid) with stopped := true } →
      Leads events pid G.sys.name (k (.signal 0 n) g') (next n { T.ask (await pid) with stopped := true })) :
    Leads events pid G.sys.name (Py.bind (lift (waitSignals K (fuel + 1) sigs po)) k g) (attend P pid wanted T next) := by
  obtain ⟨ss, hh, hc⟩ := h.here
  unfold attend
  cases hx : P.stops T.made with
  | none => trivial
  | some x =>
    have hf := wait_stop hp hK hh hpo fuel sigs hx
    generalize hm : waitSignals K (fuel + 1) sigs po g.dbg = m at hf
    obtain ⟨r, t⟩ := m
    have e : lift (waitSignals K (fuel + 1) sigs po) g = (r, { g with dbg := t }) := by
      unfold lift
      rw [hm]
    cases x with
    | signal n =>
      obtain ⟨h1, h2, h3⟩ := hf
      dsimp only at h1 h2 h3
      rw [hw] at h1
      have hs : Sits events pid G.sys.name { g with dbg := t } { T.ask (await pid) with stopped := true } := ⟨⟨ss, h2, hc⟩, h3, h.process, h.last⟩
      dsimp only
      cases hwn : wanted n with
      | true =>
        rw [if_pos hwn] at h1
        subst h1
        rw [if_pos rfl, Py.run_bind_ok e]
        exact hk n _ hwn hs
      | false =>
        rw [if_neg (by rw [hwn]; decide)] at h1
        subst h1
        rw [if_neg (by decide), Py.run_bind_error e]
        exact ⟨rfl, hs⟩
    | exited c =>
      obtain ⟨⟨a, b, h0⟩, h1, h2, h3⟩ := hf
      dsimp only at h0
      subst h0
      rw [Py.run_bind_error e]
      exact ⟨⟨a, b, rfl⟩, h1, h2, h3, h.process⟩
    | killed n =>
      obtain ⟨⟨a, b, h0⟩, h1, h2, h3⟩ := hf
      dsimp only at h0
      subst h0
      rw [Py.run_bind_error e]
      exact ⟨⟨a, b, rfl⟩, h1, h2, h3, h.process⟩
    | ctrlC =>
      obtain ⟨h0, h1, h2⟩ := hf
      dsimp only at h0
      subst h0
      rw [Py.run_bind_error e]
      exact ⟨rfl, ⟨ss, h1, hc⟩, h2.trans h.stopped, h.process, h.last⟩

/-! ### the commands -/

theorem contAll_leads (hK : Plays K pid P) (h : Sits events pid G.sys.name g T) (signum : Nat) :
    ∃ g', contAll K signum (iterate g.dbg) g = (.ok (), g') ∧ Sits events pid G.sys.name g'
      { T.ask (letGo pid (handedOn (if signum = 0 then T.pending else signum))) with pending := 0, inside := none, stopped := false } := by
  obtain ⟨ss, hh, hc⟩ := h.here
  obtain ⟨t1, e1, h1⟩ := hh.setSys (f := fun ss => { ss with syscall := none, name := none, nextExit := false })
  obtain ⟨t, e2, h2, i2⟩ := sits_go hK h1 (if signum = 0 then T.pending else signum)
  have hps : pendingSignal { g with dbg := t1 } 0 signum = if signum = 0 then T.pending else signum := by
    unfold pendingSignal
    dsimp only
    rw [h.last]
  have e1' : lift (sysClear 0) g = (.ok (), { g with dbg := t1 }) := by
    unfold lift sysClear
    rw [e1]
  have hk : CallKept G.sys.name none { ss with syscall := none, name := none, nextExit := false } := ⟨hc.1, rfl⟩
  have key : ∃ g', continueProcess K 0 signum { g with dbg := t1 } = (.ok (), g') ∧ g'.dbg = t ∧ g'.process = 0 ∧ (g'.last 0).getD 0 = 0 := by
    unfold continueProcess
    rw [hps]
    by_cases hz : (if signum = 0 then T.pending else signum) = 0
    · rw [if_neg (by simp [hz])]
      rw [hz] at e2
      refine ⟨{ g with dbg := t }, ?_, rfl, h.process, ?_⟩
      · unfold lift
        dsimp only
        rw [e2]
      · dsimp only
        rw [h.last]
        split at hz
        · exact hz
        · contradiction
    · rw [if_pos hz]
      refine ⟨⟨t, 0, fun i => if i = 0 then none else g.last i⟩, ?_, rfl, rfl, rfl⟩
      rw [Py.run_bind_ok (a := ()) (u := ⟨t, 0, g.last⟩)]
      · rfl
      · unfold lift
        dsimp only
        rw [e2, h.process]
  obtain ⟨g', e3, hd, hpr, hl⟩ := key
  refine ⟨g', ?_, ⟨_, by rw [hd]; exact h2, hk⟩, by rw [hd]; exact i2, hpr, hl⟩
  unfold iterate
  rw [hh.list, contAll, Py.run_bind_ok e1']
  rw [Py.run_bind_ok (a := ()) (u := g')]
  · rfl
  · rw [if_pos h.process.symm]
    exact e3

theorem cont_leads (hp : pid ≠ 0) (hK : Plays K pid P) (h : Sits events pid G.sys.name g T) (signum fuel : Nat) :
    Leads events pid G.sys.name (gdbCont K (fuel + 1) signum g) (goOn P pid (if signum = 0 then T.pending else signum) T) := by
  obtain ⟨g1, e1, h1⟩ := contAll_leads hK h signum
  unfold gdbCont
  rw [Py.run_bind_ok e1]
  unfold goOn
  refine attend_leads hp hK h1 (Or.inl rfl) fuel [] (fun _ => true) (fun n => by simp) _ _ fun n g2 _ h2 => ?_
  unfold contSignal
  dsimp only
  by_cases h5 : n = 5
  · rw [if_pos (show n = SIGTRAP from h5), if_pos h5]
    obtain ⟨g3, e3, h3⟩ := sits_look hK h2
    rw [Py.run_bind_ok e3]
    exact ⟨rfl, h3⟩
  · rw [if_neg (show n ≠ SIGTRAP from h5), if_neg h5]
    obtain ⟨g3, e3, h3⟩ := sits_signal hK h2 n
    rw [Py.run_bind_ok e3]
    exact ⟨rfl, h3⟩

/-- The signal kept for the process is dropped. -/
theorem forget_leads {m : Except Exc Bool × GSt} {r : Result} (h : Leads events pid G.sys.name m r) :
    Leads events pid G.sys.name (m.1, (forget 0 m.2).2) (r.map ({ · with pending := 0 })) := by
  have hs : ∀ T, Sits events pid G.sys.name m.2 T → Sits events pid G.sys.name (forget 0 m.2).2 { T with pending := 0 } :=
    fun T h => ⟨h.here, h.stopped, h.process, rfl⟩
  cases r with
  | ready ok T => exact ⟨h.1, hs _ h.2⟩
  | signal n T => exact ⟨h.1, hs _ h.2⟩
  | ctrlC T => exact ⟨h.1, hs _ h.2⟩
  | ended T => exact h
  | unknown => trivial

theorem stepWait_leads (hp : pid ≠ 0) (hK : Plays K pid P) (h : Sits events pid G.sys.name g T) (fuel : Nat) :
    Leads events pid G.sys.name (stepWait K (fuel + 1) false g) (attend P pid (· = 5) T fun _ T => .ready true T) ∧
    Leads events pid G.sys.name (stepWait K (fuel + 1) true g)
      (match attend P pid (· = 5) T fun _ T => .ready true T with
      | .ended T => .ended T
      | r => r.map (·.ask (Spec.look pid))) := by
  have hpid : (g.dbg.heap g.process).pid = pid := by
    obtain ⟨ss, hh, _⟩ := h.here
    rw [h.process, hh.pid]
  have key := attend_leads hp hK h (po := some pid) (Or.inr rfl) fuel [SIGTRAP] (· = 5) (fun n => by simp [SIGTRAP]) (fun _ => Py.pure true)
    (fun _ T => .ready true T) (fun n g' _ h' => ⟨rfl, h'⟩)
  have run : ∀ T g', Sits events pid G.sys.name g' T → (g'.dbg.heap g'.process).running = true := fun T g' h => by
    obtain ⟨ss, hh, _⟩ := h.here
    rw [h.process]
    exact hh.running
  unfold stepWait
  rw [hpid]
  generalize attend P pid (· = 5) T (fun _ T => Result.ready true T) = r at key ⊢
  generalize hw : lift (waitSignals K (fuel + 1) [SIGTRAP] (some pid)) g = w at key ⊢
  obtain ⟨x, g1⟩ := w
  cases x with
  | ok ev =>
    rw [Py.run_bind_ok hw] at key
    refine ⟨key, ?_⟩
    cases r with
    | ready ok T =>
      obtain ⟨h1, h2⟩ := key
      obtain ⟨g2, e2, h3⟩ := sits_look hK h2
      dsimp only [Result.map]
      rw [if_pos rfl, Py.run_bind_ok (m := PT.look K) (show PT.look K g1 = _ from e2)]
      exact ⟨h1, h3⟩
    | signal n T => exact absurd key.1 (by intro h; cases h)
    | ctrlC T => exact absurd key.1 (by intro h; cases h)
    | ended T => obtain ⟨⟨a, b, h1⟩, _⟩ := key; cases h1
    | unknown => trivial
  | error e =>
    rw [Py.run_bind_error hw] at key
    refine ⟨by simpa using key, ?_⟩
    have hl : ∀ T, Sits events pid G.sys.name g1 T → ∃ g2, (if (true && (g1.dbg.heap g1.process).running) = true then
        Py.bind (PT.look K) fun _ => Py.raise e else Py.raise e) g1 = ((.error e : Except Exc Bool), g2) ∧
        Sits events pid G.sys.name g2 (T.ask (Spec.look pid)) := fun T h => by
      obtain ⟨g2, e2, h3⟩ := sits_look hK h
      refine ⟨g2, ?_, h3⟩
      rw [run T g1 h, if_pos (by decide), Py.run_bind_ok e2]
      rfl
    dsimp only
    cases r with
    | ready ok T => exact absurd key.1 (by intro h; cases h)
    | signal n T =>
      obtain ⟨h1, h2⟩ := key
      obtain ⟨g2, e2, h3⟩ := hl _ h2
      dsimp only [Result.map]
      rw [e2]
      exact ⟨h1, h3⟩
    | ctrlC T =>
      obtain ⟨h1, h2⟩ := key
      obtain ⟨g2, e2, h3⟩ := hl _ h2
      dsimp only [Result.map]
      rw [e2]
      exact ⟨h1, h3⟩
    | ended T =>
      obtain ⟨h1, h2, h3, h4, h5⟩ := key
      have h4 : (g1.dbg.heap 0).running = false := h4
      have h5 : g1.process = 0 := h5
      rw [h5, h4, if_neg (by decide)]
      exact ⟨h1, h2, h3, h4, h5⟩
    | unknown => trivial

theorem stepi_leads (hp : pid ≠ 0) (hK : Plays K pid P) (h : Sits events pid G.sys.name g T) (fuel : Nat) :
    Leads events pid G.sys.name (gdbStep K (fuel + 1) true g)
      (attend P pid (· = 5) (T.ask (.singlestep 0 pid)) fun _ T => .ready true T) := by
  obtain ⟨ss, hh, hc⟩ := h.here
  obtain ⟨v, st, hk⟩ := (hK.accepts g.dbg.log 0 0).2.2.2.2.1
  obtain ⟨t, e, h1, h2⟩ := request_keeps hh hk
  have hs : Sits events pid G.sys.name { g with dbg := t } (T.ask (.singlestep 0 pid)) := ⟨⟨ss, h1, hc⟩, h2.trans h.stopped, h.process, h.last⟩
  unfold gdbStep
  rw [if_pos rfl, Py.run_bind_ok (a := ()) (u := { g with dbg := t })]
  · exact (stepWait_leads hp hK hs fuel).1
  · unfold lift procSingleStep
    rw [h.process, hh.pid, Py.run_bind_ok e]
    rfl

theorem step_leads (hp : pid ≠ 0) (hK : Plays K pid P) (h : Sits events pid G.sys.name g T) (fuel : Nat) :
    Leads events pid G.sys.name (gdbStep K (fuel + 1) false g)
      (if T.answer P ≠ 0 then .ready false (T.ask (Spec.look pid)) else goTo P pid (T.ask (Spec.look pid))) := by
  obtain ⟨g1, e1, h1⟩ := sits_look hK h
  unfold gdbStep
  rw [if_neg (by decide), Py.run_bind_ok e1]
  split
  · exact ⟨rfl, h1⟩
  · obtain ⟨ss, hh, hc⟩ := h1.here
    obtain ⟨t, e2, h2, i2⟩ := sits_go hK hh 0
    have hs : Sits events pid G.sys.name { g1 with dbg := t } { (T.ask (Spec.look pid)).ask (letGo pid 0) with stopped := false } :=
      ⟨⟨ss, h2, hc⟩, i2, h1.process, h1.last⟩
    rw [Py.run_bind_ok (a := ()) (u := { g1 with dbg := t })]
    · exact (stepWait_leads hp hK hs fuel).2
    · unfold lift
      rw [h1.process, e2]

/-- The start or the end of a system call. -/
theorem callStop_leads (hp : pid ≠ 0) (hK : Plays K pid P) (h : Sits events pid G.sys.name g T) (fuel : Nat) :
    Leads events pid G.sys.name (Py.bind (fun g => lift (sysEvent K (fuel + 1) G.sys g.process) g) (fun _ => Py.pure true) g)
      (callStop P pid (fun regs => decide (G.sys.name regs = execveName)) events T) := by
  obtain ⟨ss, hh, hc⟩ := h.here
  obtain ⟨st, hk⟩ := hK.look g.dbg.log 0
  rw [hh.log] at hk
  obtain ⟨t1, e1, h1, i1⟩ := request_keeps hh hk
  unfold callStop
  cases hin : T.inside with
  | none =>
    rw [hin] at hc
    obtain ⟨hcb, hne⟩ := hc
    obtain ⟨t2, e2, h2⟩ := h1.setSys
      (f := fun ss => { ss with syscall := some ⟨g.dbg.log.length, T.answer P, none⟩, name := some (G.sys.name (T.answer P)) })
    have i2 : (t2.heap 0).isStopped = (t1.heap 0).isStopped := by
      have := congrArg (fun x => (x.2.heap 0).isStopped) e2
      exact this.symm
    obtain ⟨st', hk'⟩ := hK.look t2.log 0
    obtain ⟨t3, e3, h3, i3⟩ := request_keeps h2 hk'
    obtain ⟨t4, e4, h4⟩ := h3.setSys (f := fun ss => { ss with nextExit := true })
    have i4 : (t4.heap 0).isStopped = (t3.heap 0).isStopped := by
      have := congrArg (fun x => (x.2.heap 0).isStopped) e4
      exact this.symm
    have e : sysEvent K (fuel + 1) G.sys 0 g.dbg = (.ok (t4.heap 0).ss.syscall, t4) := by
      unfold sysEvent
      rw [if_neg (by rw [hh.ss, hne]; decide)]
      unfold sysEnter
      rw [hh.pid, Py.run_bind_ok (show ptraceCall K (.inspect 0 pid) g.dbg = (.ok (T.answer P), t1) from e1), Py.run_bind_ok e2]
      rw [hh.ss, hcb]
      rw [Py.run_bind_ok (a := ()) (u := t3)]
      · rw [Py.run_bind_ok e4]
      · rw [if_pos (by rfl)]
        unfold void
        rw [Py.run_bind_ok e3]
        rfl
    rw [Py.run_bind_ok (a := (t4.heap 0).ss.syscall) (u := ⟨t4, 0, g.last⟩)]
    · refine ⟨rfl, ⟨_, h4, hcb, rfl, rfl, _, rfl⟩, ?_, rfl, h.last⟩
      show (t4.heap 0).isStopped = T.stopped
      rw [i4, i3, i2, i1, h.stopped]
    · unfold lift
      rw [h.process, e]
  | some regs =>
    rw [hin] at hc
    obtain ⟨hcb, hne, hname, c, hsys⟩ := hc
    obtain ⟨t2, e2, h2⟩ := h1.setSys (f := fun ss => { ss with syscall := some { c with result := some (T.answer P) } })
    have i2 : (t2.heap 0).isStopped = (t1.heap 0).isStopped := by
      have := congrArg (fun x => (x.2.heap 0).isStopped) e2
      exact this.symm
    have er : sysResult K 0 g.dbg = (.ok (), t2) := by
      unfold sysResult
      rw [hh.ss, hsys]
      dsimp only
      rw [hh.pid, Py.run_bind_ok (show ptraceCall K (.inspect 0 pid) g.dbg = (.ok (T.answer P), t1) from e1), e2]
    have ec : ∀ t cs' ss', Here events pid t cs' ss' → ss'.hasCallback = false → ∃ u, sysClear 0 t = (.ok (), u) ∧
        (u.heap 0).isStopped = (t.heap 0).isStopped ∧ ∃ ss'', Here events pid u cs' ss'' ∧ CallKept G.sys.name none ss'' := by
      intro t cs' ss' h' hcb'
      obtain ⟨u, e, hu⟩ := h'.setSys (f := fun ss => { ss with syscall := none, name := none, nextExit := false })
      have := congrArg (fun x => (x.2.heap 0).isStopped) e
      exact ⟨u, e, this.symm, _, hu, hcb', rfl⟩
    have eq : Py.bind (fun g => lift (sysEvent K (fuel + 1) G.sys g.process) g) (fun _ => Py.pure true) g =
        Py.bind (lift (sysExecTrap K (fuel + 1) 0)) (fun _ => Py.bind (fun g => lift (fun t => Py.bind (sysClear 0)
          (fun _ => Py.pure (t.heap 0).ss.syscall) t) g) fun _ => Py.pure true) { g with dbg := t2 } := by
      have e0 : sysEvent K (fuel + 1) G.sys 0 g.dbg = Py.bind (sysExecTrap K (fuel + 1) 0) (fun _ => fun t =>
          Py.bind (sysClear 0) (fun _ => Py.pure (t.heap 0).ss.syscall) t) t2 := by
        unfold sysEvent
        rw [if_pos (by rw [hh.ss]; exact hne)]
        unfold sysExit
        rw [Py.run_bind_ok er]
      have e1 : lift (sysEvent K (fuel + 1) G.sys 0) g = lift (Py.bind (sysExecTrap K (fuel + 1) 0) (fun _ => fun t =>
          Py.bind (sysClear 0) (fun _ => Py.pure (t.heap 0).ss.syscall) t)) { g with dbg := t2 } := by
        unfold lift
        dsimp only
        rw [e0]
      have e3 : (fun g => lift (sysEvent K (fuel + 1) G.sys g.process) g) g = lift (sysEvent K (fuel + 1) G.sys 0) g := by
        dsimp only
        rw [h.process]
      unfold Py.bind
      rw [e3, e1]
      unfold lift Py.bind
      dsimp only
      cases hx : sysExecTrap K (fuel + 1) 0 t2 with
      | mk r u => cases r <;> rfl
    rw [eq]
    have clear : ∀ g', g'.process = 0 → ∀ T', Sits events pid G.sys.name g' T' →
        Leads events pid G.sys.name (Py.bind (fun g => lift (fun t => Py.bind (sysClear 0) (fun _ => Py.pure (t.heap 0).ss.syscall) t) g)
          (fun _ => Py.pure true) g') (.ready true { T' with inside := none }) := by
      intro g' hp' T' h'
      obtain ⟨ss', hh', hc'⟩ := h'.here
      obtain ⟨u, e, hi, ss'', hu, hk''⟩ := ec _ _ _ hh' hc'.1
      rw [Py.run_bind_ok (a := (g'.dbg.heap 0).ss.syscall) (u := { g' with dbg := u })]
      · exact ⟨rfl, ⟨ss'', hu, hk''⟩, hi.trans h'.stopped, hp', h'.last⟩
      · unfold lift
        dsimp only
        rw [Py.run_bind_ok e]
        rfl
    have hs2 : Sits events pid G.sys.name { g with dbg := t2 } (T.ask (Spec.look pid)) := by
      refine ⟨⟨_, h2, ?_⟩, (i2.trans i1).trans h.stopped, h.process, h.last⟩
      rw [show (T.ask (Spec.look pid)).inside = some regs from hin]
      exact ⟨hcb, hne, hname, _, rfl⟩
    dsimp only
    split
    · rename_i hex
      have hex : G.sys.name regs = execveName ∧ events = false := by simpa using hex
      obtain ⟨t3, e3, h3, i3⟩ := sits_goCall hK h2
      have hs3 : Sits events pid G.sys.name { g with dbg := t3 } { (T.ask (Spec.look pid)).ask (go pid 0) with stopped := false } := by
        refine ⟨⟨_, h3, ?_⟩, i3, h.process, h.last⟩
        rw [show ({ (T.ask (Spec.look pid)).ask (go pid 0) with stopped := false } : Table).inside = some regs from hin]
        exact ⟨hcb, hne, hname, _, rfl⟩
      have key := attend_leads hp hK hs3 (po := some pid) (Or.inr rfl) fuel [SIGTRAP, SIGTRAP ||| 0x80] (fun n => n = 5 || n = 133)
        (fun n => by
          show (List.elem n [5, 133] || false) = _
          simp) (fun _ => Py.bind (fun g => lift (fun t => Py.bind (sysClear 0)
          (fun _ => Py.pure (t.heap 0).ss.syscall) t) g) fun _ => Py.pure true) (fun _ T => .ready true { T with inside := none })
        (fun n g' _ h' => clear g' h'.process _ h')
      have et : Py.bind (lift (sysExecTrap K (fuel + 1) 0)) (fun _ => Py.bind (fun g => lift (fun t => Py.bind (sysClear 0)
          (fun _ => Py.pure (t.heap 0).ss.syscall) t) g) fun _ => Py.pure true) { g with dbg := t2 } =
          Py.bind (lift (waitSignals K (fuel + 1) [SIGTRAP, SIGTRAP ||| 0x80] (some pid))) (fun _ => Py.bind (fun g => lift (fun t => Py.bind (sysClear 0)
          (fun _ => Py.pure (t.heap 0).ss.syscall) t) g) fun _ => Py.pure true) { g with dbg := t3 } := by
        have e0 : sysExecTrap K (fuel + 1) 0 t2 = void (waitSignals K (fuel + 1) [SIGTRAP, SIGTRAP ||| 0x80] (some pid)) t3 := by
          unfold sysExecTrap
          rw [h2.ss, h2.exec, if_pos ⟨by dsimp only; rw [hname, hex.1], hex.2⟩, h2.pid, Py.run_bind_ok e3]
        have e1 : lift (sysExecTrap K (fuel + 1) 0) { g with dbg := t2 } =
            lift (void (waitSignals K (fuel + 1) [SIGTRAP, SIGTRAP ||| 0x80] (some pid))) { g with dbg := t3 } := by
          unfold lift
          dsimp only
          rw [e0]
        unfold Py.bind
        rw [e1]
        unfold lift void Py.bind
        dsimp only
        cases hx : waitSignals K (fuel + 1) [SIGTRAP, SIGTRAP ||| 0x80] (some pid) t3 with
        | mk r u => cases r <;> rfl
      rw [et]
      exact key
    · rename_i hex
      have e0 : lift (sysExecTrap K (fuel + 1) 0) { g with dbg := t2 } = (.ok (), { g with dbg := t2 }) := by
        unfold lift sysExecTrap
        dsimp only
        rw [h2.ss, h2.exec, if_neg]
        rintro ⟨h8, h9⟩
        apply hex
        have : G.sys.name regs = execveName := by
          dsimp only at h8
          rw [hname] at h8
          exact Option.some.inj h8
        simp [this, h9]
      rw [Py.run_bind_ok e0]
      exact clear { g with dbg := t2 } h.process _ hs2

theorem sys_leads (hp : pid ≠ 0) (hK : Plays K pid P) (h : Sits events pid G.sys.name g T) (fuel : Nat) :
    Leads events pid G.sys.name (gdbSys K (fuel + 1) G g)
      (attend P pid (· = 133) { T.ask (go pid 0) with stopped := false } fun _ T =>
        callStop P pid (fun regs => decide (G.sys.name regs = execveName)) events T) := by
  obtain ⟨ss, hh, hc⟩ := h.here
  obtain ⟨t, e1, h1, i1⟩ := sits_goCall hK hh
  have hs : Sits events pid G.sys.name { g with dbg := t } { T.ask (go pid 0) with stopped := false } := ⟨⟨ss, h1, hc⟩, i1, h.process, h.last⟩
  have key := attend_leads hp hK hs (po := some pid) (Or.inr rfl) fuel [133] (· = 133) (fun n => by simp)
    (fun _ => Py.bind (fun g => lift (sysEvent K (fuel + 1) G.sys g.process) g) fun _ => Py.pure true)
    (fun _ T => callStop P pid (fun regs => decide (G.sys.name regs = execveName)) events T) (fun n g' _ h' => callStop_leads hp hK h' fuel)
  have e : gdbSys K (fuel + 1) G g = Py.bind (lift (waitSignals K (fuel + 1) [133] (some pid)))
      (fun _ => Py.bind (fun g => lift (sysEvent K (fuel + 1) G.sys g.process) g) fun _ => Py.pure true) { g with dbg := t } := by
    unfold gdbSys
    rw [Py.run_bind_ok (a := ()) (u := { g with dbg := t })]
    · have e0 : lift (waitSyscall K (fuel + 1) (some g.process)) { g with dbg := t } =
          lift (waitSignals K (fuel + 1) [133] (some pid)) { g with dbg := t } := by
        unfold lift waitSyscall
        dsimp only [Option.map]
        rw [h1.good, h.process, h1.pid]
        rfl
      unfold Py.bind
      dsimp only
      rw [e0]
    · unfold lift
      rw [h.process, e1]
  rw [e]
  exact key

/-! ### lines -/

/-- The commands as they are typed. -/
inductive Names (G : GdbCfg) (pid : Nat) : Str → Cmd → Prop
  | cont : Names G pid "cont".toList .cont
  | signal (arg : Str) (n : Nat) (h : ∀ d, parseSignum G.signals (fun text => (G.parse d text).map Int.ofNat) arg = .ok n) :
    Names G pid ("signal ".toList ++ arg) (.signal n)
  | stepi : Names G pid "stepi".toList .stepi
  | step : Names G pid "step".toList .step
  | until (arg : Str) (h : ∀ d, ∃ v, G.parse d arg = .ok v) : Names G pid ("until ".toList ++ arg) .step
  | sys : Names G pid "sys".toList .sys
  | show (c : Str) (h : parseCommand c = .look) : Names G pid c .show
  | tell (c : Str) (h : parseCommand c = .info) : Names G pid c .tell
  | switch (arg : Str) (ha : arg ≠ []) (h : ∀ d, G.parse d arg = .ok pid) : Names G pid ("switch".toList ++ arg) .tell
  | wrong (c : Str) (h : parseCommand c = .unknown) : Names G pid c .wrong
  | noSwitch : Names G pid "switch".toList .wrong
  | switchTo (arg : Str) (ha : arg ≠ []) (h : ∀ d, ∃ v, G.parse d arg = .ok v ∧ v ≠ pid) : Names G pid ("switch".toList ++ arg) .wrong
  | badSwitch (arg : Str) (ha : arg ≠ []) (h : ∀ d, G.parse d arg = .error .value) : Names G pid ("switch".toList ++ arg) .wrong
  | badUntil (arg : Str) (h : ∀ d, G.parse d arg = .error .value) : Names G pid ("until ".toList ++ arg) .wrong
  | badSignal (arg : Str) (h : ∀ d, parseSignum G.signals (fun text => (G.parse d text).map Int.ofNat) arg = .error .value) :
    Names G pid ("signal ".toList ++ arg) .wrong

theorem parse_signal (arg : Str) : parseCommand ("signal ".toList ++ arg) = .signal arg := by
  simp [parseCommand, List.isPrefixOf, show ("signal ".toList : Str) = ['s', 'i', 'g', 'n', 'a', 'l', ' '] from rfl]

theorem parse_until (arg : Str) : parseCommand ("until ".toList ++ arg) = .until arg := by
  simp [parseCommand, List.isPrefixOf, show ("until ".toList : Str) = ['u', 'n', 't', 'i', 'l', ' '] from rfl]

theorem parse_switch (arg : Str) : parseCommand ("switch".toList ++ arg) = .switch arg := by
  simp [parseCommand, List.isPrefixOf, show ("switch".toList : Str) = ['s', 'w', 'i', 't', 'c', 'h'] from rfl]

theorem getitem_here (h : Here events pid s cs ss) (v : Nat) : getitem s v = if v = pid then some 0 else none := by
  unfold getitem
  rw [h.dict]
  simp [dictGet, eq_comm]

/-- One command. -/
theorem command_leads (hp : pid ≠ 0) (hK : Plays K pid P) (h : Sits events pid G.sys.name g T) (fuel : Nat) {c : Str} {a : Cmd}
    (hn : Names G pid c a) : Leads events pid G.sys.name (gdbExecute K (fuel + 1) G c g)
      (act P pid (fun regs => decide (G.sys.name regs = execveName)) events a T) := by
  obtain ⟨ss, hh, hc⟩ := id h.here
  unfold gdbExecute
  cases hn with
  | cont => exact cont_leads hp hK h 0 fuel
  | signal arg n hs =>
    rw [parse_signal]
    unfold runCommand gdbSignal act
    dsimp only
    rw [hs]
    dsimp only
    rw [h.process]
    exact forget_leads (cont_leads hp hK h n fuel)
  | stepi => exact stepi_leads hp hK h fuel
  | step => exact step_leads hp hK h fuel
  | «until» arg hs =>
    rw [parse_until]
    unfold runCommand gdbUntil
    dsimp only
    obtain ⟨v, e⟩ := hs g.dbg
    rw [e]
    exact step_leads hp hK h fuel
  | sys => exact sys_leads hp hK h fuel
  | «show» _ e =>
    rw [e]
    unfold runCommand act
    dsimp only
    obtain ⟨g1, e1, h1⟩ := sits_look hK h
    rw [Py.run_bind_ok e1]
    exact ⟨rfl, h1⟩
  | tell _ e =>
    rw [e]
    exact ⟨rfl, h⟩
  | switch arg ha e =>
    rw [parse_switch]
    unfold runCommand gdbSwitch
    dsimp only
    rw [if_neg (by rw [List.isEmpty_iff]; exact ha), e]
    dsimp only
    rw [getitem_here hh, if_pos rfl]
    exact ⟨rfl, h.here, h.stopped, rfl, h.last⟩
  | wrong _ e =>
    rw [e]
    exact ⟨rfl, h⟩
  | noSwitch =>
    rw [show parseCommand "switch".toList = .switch [] by decide +kernel]
    unfold runCommand gdbSwitch gdbSwitchNext
    dsimp only
    rw [if_pos (show List.isEmpty ([] : Str) = true from rfl), hh.list, if_pos (show [0].length = 1 from rfl)]
    exact ⟨rfl, h⟩
  | switchTo arg ha e =>
    rw [parse_switch]
    unfold runCommand gdbSwitch
    dsimp only
    obtain ⟨v, e, hv⟩ := e g.dbg
    rw [if_neg (by rw [List.isEmpty_iff]; exact ha), e]
    dsimp only
    rw [getitem_here hh, if_neg hv]
    exact ⟨rfl, h⟩
  | badSwitch arg ha e =>
    rw [parse_switch]
    unfold runCommand gdbSwitch
    dsimp only
    rw [if_neg (by rw [List.isEmpty_iff]; exact ha), e]
    exact ⟨rfl, h⟩
  | badUntil arg e =>
    rw [parse_until]
    unfold runCommand gdbUntil
    dsimp only
    rw [e]
    exact ⟨rfl, h⟩
  | badSignal arg e =>
    rw [parse_signal]
    unfold runCommand gdbSignal
    dsimp only
    rw [e]
    exact ⟨rfl, h⟩

/-- The commands of a line. -/
theorem line_leads (hp : pid ≠ 0) (hK : Plays K pid P) (fuel : Nat) : ∀ (parts : List Str) (as : List Cmd) (g : GSt) (T : Table),
    Sits events pid G.sys.name g T → List.Forall₂ (fun c a => Names G pid (strip G.space c) a) parts as →
    Leads events pid G.sys.name (runLine (gdbExecute K (fuel + 1) G) G.space parts g)
      (acts P pid (fun regs => decide (G.sys.name regs = execveName)) events as T) := by
  intro parts
  induction parts with
  | nil =>
    intro as g T h hf
    cases hf
    exact ⟨rfl, h⟩
  | cons c parts ih =>
    intro as g T h hf
    cases hf with
    | @cons _ a _ as hn hf =>
    have h1 := command_leads hp hK h fuel hn
    rw [runLine, acts]
    generalize hr : act P pid (fun regs => decide (G.sys.name regs = execveName)) events a T = r at h1 ⊢
    generalize hm : gdbExecute K (fuel + 1) G (strip G.space c) g = m at h1
    obtain ⟨x, g1⟩ := m
    cases r with
    | ready ok T1 =>
      obtain ⟨e, h1⟩ := h1
      dsimp only at e
      subst e
      rw [Py.run_bind_ok hm]
      cases ok with
      | true => exact ih as g1 T1 h1 hf
      | false => exact ⟨rfl, h1⟩
    | signal n T1 =>
      obtain ⟨e, h1⟩ := h1
      dsimp only at e
      subst e
      rw [Py.run_bind_error hm]
      exact ⟨rfl, h1⟩
    | ctrlC T1 =>
      obtain ⟨e, h1⟩ := h1
      dsimp only at e
      subst e
      rw [Py.run_bind_error hm]
      exact ⟨rfl, h1⟩
    | ended T1 =>
      obtain ⟨⟨a, b, e⟩, h1⟩ := h1
      dsimp only at e
      subst e
      rw [Py.run_bind_error hm]
      exact ⟨⟨a, b, rfl⟩, h1⟩
    | unknown => trivial

/-- Stopping the process. -/
theorem interrupt_leads (hp : pid ≠ 0) (hK : Plays K pid P) (h : Sits events pid G.sys.name g T) (fuel : Nat) :
    Leads events pid G.sys.name (Py.bind (gdbInterrupt K (fuel + 1)) (fun _ => Py.pure true) g) (interrupt P pid T) := by
  obtain ⟨ss, hh, hc⟩ := id h.here
  have hcat : ∀ r t, Py.bind (interruptSend K (iterate g.dbg)) (interruptWait K (fuel + 1)) g.dbg = (r, t) →
      gdbInterrupt K (fuel + 1) g = (r, { g with dbg := t }) := fun r t e => by
    unfold gdbInterrupt lift
    rw [e]
  unfold iterate at hcat
  rw [hh.list] at hcat
  unfold interrupt
  cases hst : T.stopped with
  | true =>
    rw [if_pos rfl]
    have e : interruptSend K [0] g.dbg = (.ok [], g.dbg) := by
      unfold interruptSend
      rw [h.stopped, hst]
      rfl
    rw [Py.run_bind_ok (hcat (.ok ()) g.dbg (by rw [Py.run_bind_ok e]; rfl))]
    exact ⟨rfl, h⟩
  | false =>
    rw [if_neg (by decide)]
    obtain ⟨st, hk⟩ := hK.look g.dbg.log 0
    rw [hh.log] at hk
    obtain ⟨t1, e1, h1, i1⟩ := request_keeps hh hk
    have hs1 : ∀ {t : DSt} {c : Call}, Here events pid t (T.made ++ [Call.inspect 0 pid] ++ [c]) ss → (t.heap 0).isStopped = (t1.heap 0).isStopped →
        Sits events pid G.sys.name { g with dbg := t } ((T.ask (Spec.look pid)).ask c) := fun hh' hi =>
      ⟨⟨ss, hh', hc⟩, hi.trans (i1.trans h.stopped), h.process, h.last⟩
    have hsend : interruptSend K [0] g.dbg = if T.answer P ≠ 0 then (.ok [], t1) else
        Py.bind (procKill K 0 SIGINT) (fun _ => Py.bind (interruptSend K []) fun rest => Py.pure (0 :: rest)) t1 := by
      unfold interruptSend
      rw [h.stopped, hst, if_neg (by decide), hh.pid, Py.run_bind_ok (show ptraceCall K (.inspect 0 pid) g.dbg = (.ok (T.answer P), t1) from e1)]
      split
      · rfl
      · rfl
    split
    · rename_i hv
      rw [if_pos hv] at hsend
      rw [Py.run_bind_ok (hcat (.ok ()) t1 (by rw [Py.run_bind_ok hsend]; rfl))]
      exact ⟨rfl, ⟨ss, h1, hc⟩, i1.trans h.stopped, h.process, h.last⟩
    · rename_i hv
      rw [if_neg hv] at hsend
      obtain ⟨v, st, hk2⟩ := (hK.accepts t1.log 0 2).2.2.2.2.2.2
      have h2 : Here events pid { t1 with log := t1.log ++ [⟨.kill 0 pid 2, K t1.log (.kill 0 pid 2), t1.dict⟩] }
          (T.made ++ [Call.inspect 0 pid] ++ [.kill 0 pid 2]) ss :=
        ⟨h1.dict, h1.list, h1.good, h1.exec, h1.options, h1.pid, h1.running, h1.attached, h1.thread, h1.ss, by simp [h1.log], h1.next⟩
      have e2 : procKill K 0 SIGINT t1 = (.ok (), { t1 with log := t1.log ++ [⟨.kill 0 pid 2, K t1.log (.kill 0 pid 2), t1.dict⟩] }) := by
        unfold procKill
        rw [h1.pid]
        unfold osCall sysc Py.bind
        dsimp only
        rw [show SIGINT = 2 from rfl, hk2]
        rfl
      generalize ht2 : ({ t1 with log := t1.log ++ [⟨.kill 0 pid 2, K t1.log (.kill 0 pid 2), t1.dict⟩] } : DSt) = t2 at h2 e2
      have i2 : (t2.heap 0).isStopped = (t1.heap 0).isStopped := by rw [← ht2]
      have hs2 := hs1 h2 i2
      rw [Py.run_bind_ok e2] at hsend
      have hsend : interruptSend K [0] g.dbg = (.ok [0], t2) := hsend
      unfold attend
      cases hx : P.stops ((T.ask (Spec.look pid)).ask (.kill 0 pid 2)).made with
      | none => trivial
      | some x =>
        have hf := wait_stop hp hK h2 (po := some pid) (Or.inr rfl) fuel [SIGINT] hx
        generalize hm : waitSignals K (fuel + 1) [SIGINT] (some pid) t2 = m at hf
        obtain ⟨r, t⟩ := m
        have hpid2 : (t2.heap 0).pid = pid := h2.pid
        cases x with
        | signal n =>
          obtain ⟨h3, h4, h5⟩ := hf
          have hs3 : Sits events pid G.sys.name { g with dbg := t }
              { ((T.ask (Spec.look pid)).ask (.kill 0 pid 2)).ask (await pid) with stopped := true } := ⟨⟨ss, h4, hc⟩, h5, h.process, h.last⟩
          dsimp only at h3
          rw [show (List.contains [SIGINT] n || List.isEmpty [SIGINT]) = decide (n = 2) by simp [SIGINT]] at h3
          dsimp only
          by_cases h22 : n = 2
          · rw [if_pos (by simpa using h22)] at h3
            rw [if_pos (by simpa using h22)]
            subst h3
            rw [Py.run_bind_ok (hcat (.ok ()) t (by
              rw [Py.run_bind_ok hsend, interruptWait, Py.run_bind_ok (a := ()) (u := t)]
              · rfl
              · rw [hpid2, hm]))]
            exact ⟨rfl, hs3⟩
          · rw [if_neg (by simpa using h22)] at h3
            rw [if_neg (by simpa using h22)]
            subst h3
            obtain ⟨v', st', hk3⟩ := (hK.accepts t.log 0 0).2.1
            obtain ⟨t3, e3, h6, i6⟩ := request_keeps h4 hk3
            have e4 : eventDisplay K 0 t = (.ok (), t3) := by
              unfold eventDisplay
              rw [h4.pid, Py.run_bind_ok e3]
              rfl
            rw [Py.run_bind_ok (hcat (.ok ()) t3 (by
              rw [Py.run_bind_ok hsend, interruptWait, Py.run_bind_ok (a := ()) (u := t3)]
              · rfl
              · rw [hpid2, hm]
                exact e4))]
            exact ⟨rfl, ⟨ss, h6, hc⟩, i6.trans h5, h.process, h.last⟩
        | exited c =>
          obtain ⟨⟨a, b, h0⟩, h3, h4, h5⟩ := hf
          dsimp only at h0
          subst h0
          rw [Py.run_bind_error (hcat (.error (.event (.exit 0 a b))) t (by
            rw [Py.run_bind_ok hsend, interruptWait, Py.run_bind_error (e := .event (.exit 0 a b)) (u := t)]
            rw [hpid2, hm]))]
          exact ⟨⟨a, b, rfl⟩, h3, h4, h5, h.process⟩
        | killed n =>
          obtain ⟨⟨a, b, h0⟩, h3, h4, h5⟩ := hf
          dsimp only at h0
          subst h0
          rw [Py.run_bind_error (hcat (.error (.event (.exit 0 a b))) t (by
            rw [Py.run_bind_ok hsend, interruptWait, Py.run_bind_error (e := .event (.exit 0 a b)) (u := t)]
            rw [hpid2, hm]))]
          exact ⟨⟨a, b, rfl⟩, h3, h4, h5, h.process⟩
        | ctrlC =>
          obtain ⟨h0, h3, h4⟩ := hf
          dsimp only at h0
          subst h0
          rw [Py.run_bind_ok (hcat (.ok ()) t (by
            rw [Py.run_bind_ok hsend, interruptWait, Py.run_bind_ok (a := ()) (u := t)]
            · rfl
            · rw [hpid2, hm]))]
          exact ⟨rfl, ⟨ss, h3, hc⟩, (h4.trans i2).trans (i1.trans h.stopped), h.process, h.last⟩

end
end PT
