import Verif.Model.Strace
import Verif.Lemmas.Wait
import Verif.Lemmas.Py
import Verif.Spec.Follow

/-! Following one process step by step. -/

namespace PT
open PT.Spec

/-- Number of requests to go on among these. -/
def goesOf (cs : List Call) : Nat := cs.countP fun c => match c with
  | .syscall _ _ _ => true
  | _ => false

theorem goes_eq (log : List Entry) : goes log = goesOf (log.map Entry.call) := by
  unfold goes goesOf
  rw [List.countP_map]
  rfl

/-- The debugger follows the process `pid`, which is object 0, and has made the requests `cs`. -/
structure Here (events : Bool) (pid : Nat) (s : DSt) (cs : List Call) (ss : SysState) : Prop where
  dict : s.dict = [(pid, 0)]
  list : s.list = [0]
  good : s.useSysgood = true
  exec : s.traceExec = events
  options : s.options = if events then 17 else 1
  pid : (s.heap 0).pid = pid
  running : (s.heap 0).running = true
  attached : (s.heap 0).isAttached = true
  thread : (s.heap 0).isThread = false
  ss : (s.heap 0).ss = ss
  log : s.log.map Entry.call = cs
  next : 0 < s.next

section
variable {K : Kern} {pid : Nat} {stops : List (StatusKind × Nat)} {events : Bool} {cs : List Call} {ss : SysState} {s : DSt}

theorem Here.goes (h : Here events pid s cs ss) : goes s.log = goesOf cs := by rw [goes_eq, h.log]

/-- A request that is accepted. -/
theorem Here.request {c : Call} {v : Nat} {st : Int} (h : Here events pid s cs ss) (hk : K s.log c = .ok v st) :
    ∃ t, ptraceCall K c s = (.ok v, t) ∧ Here events pid t (cs ++ [c]) ss := by
  have e : ptraceCall K c s = (.ok v, { s with log := s.log ++ [⟨c, K s.log c, s.dict⟩] }) := by
    unfold ptraceCall sysc Py.bind
    dsimp only
    rw [hk]
    rfl
  refine ⟨_, e, ?_⟩
  · exact ⟨h.dict, h.list, h.good, h.exec, h.options, h.pid, h.running, h.attached, h.thread, h.ss, by simp [h.log], h.next⟩

/-- Attributes that are not followed here. -/
theorem Here.update {f : Proc → Proc} (h : Here events pid s cs ss) (hf : ∀ p, (f p).pid = p.pid ∧ (f p).running = p.running ∧
    (f p).isAttached = p.isAttached ∧ (f p).isThread = p.isThread) : Here events pid (updProc 0 f s).2 cs (f (s.heap 0)).ss := by
  obtain ⟨h1, h2, h3, h4⟩ := hf (s.heap 0)
  exact ⟨h.dict, h.list, h.good, h.exec, h.options, h1.trans h.pid, h2.trans h.running, h3.trans h.attached, h4.trans h.thread, rfl, h.log, h.next⟩

theorem Here.go (h : Here events pid s cs ss) (hK : Follows K pid stops) (n : Nat) :
    ∃ t, procSyscall K 0 n s = (.ok (), t) ∧ Here events pid t (cs ++ [go pid (filterSignal n)]) ss := by
  obtain ⟨v, st, hk⟩ := (hK.accepts s.log 0 (filterSignal n)).1
  obtain ⟨t, h1, h2⟩ := h.request hk
  have h3 := h2.update (f := fun p => { p with isStopped := false }) fun p => ⟨rfl, rfl, rfl, rfl⟩
  dsimp only at h3
  rw [h2.ss] at h3
  refine ⟨_, ?_, h3⟩
  unfold procSyscall
  rw [h.pid, Py.run_bind_ok h1]
  rfl

theorem Here.show (h : Here events pid s cs ss) (hK : Follows K pid stops) :
    ∃ t, eventDisplay K 0 s = (.ok (), t) ∧ Here events pid t (cs ++ [print pid]) ss := by
  obtain ⟨v, st, hk⟩ := (hK.accepts s.log 0 0).2.1
  obtain ⟨t, h1, h2⟩ := h.request hk
  refine ⟨t, ?_, h2⟩
  unfold eventDisplay
  rw [h.pid, Py.run_bind_ok h1]
  rfl

theorem Here.look (h : Here events pid s cs ss) (hK : Follows K pid stops) {kind : StatusKind} {regs : Nat}
    (hs : stops[goesOf cs]? = some (kind, regs)) : ∃ t, ptraceCall K (.inspect 0 pid) s = (.ok regs, t) ∧
      Here events pid t (cs ++ [look pid]) ss := by
  obtain ⟨st, hk⟩ := hK.look s.log kind regs 0 (by rw [h.goes]; exact hs)
  exact h.request hk

theorem Here.setSys {f : SysState → SysState} (h : Here events pid s cs ss) :
    ∃ t, updSys 0 f s = (.ok (), t) ∧ Here events pid t cs (f ss) := by
  have := h.update (f := fun p => { p with ss := f p.ss }) fun p => ⟨rfl, rfl, rfl, rfl⟩
  dsimp only at this
  rw [h.ss] at this
  exact ⟨_, rfl, this⟩

/-! ### waiting -/

theorem Here.get (h : Here events pid s cs ss) : dictGet s.dict pid = some 0 := by rw [h.dict]; simp [dictGet]

theorem Here.waitpid_of (hp : pid ≠ 0) (h : Here events pid s cs ss) {st : Int} (hk : K s.log (await pid) = .ok pid st) :
    ∃ t, waitpidRaw K pid true s = (.ok (pid, st), t) ∧ Here events pid t (cs ++ [await pid]) ss := by
  have e : waitpidRaw K pid true s = (.ok (pid, st), { s with log := s.log ++ [⟨await pid, .ok pid st, s.dict⟩] }) := by
    have e1 := h.get
    have e2 : osCall K (await pid) s = (.ok (pid, st), { s with log := s.log ++ [⟨await pid, .ok pid st, s.dict⟩] }) := by
      unfold osCall sysc Py.bind
      dsimp only
      rw [hk]
      rfl
    unfold waitpidRaw
    rw [if_pos hp, e1]
    dsimp only
    rw [h.thread]
    rw [Py.run_bind_ok (show osCall K (.waitpid (some pid) (!true) false) s = _ from e2)]
    unfold checkPid
    simp
  refine ⟨_, e, ?_⟩
  · exact ⟨h.dict, h.list, h.good, h.exec, h.options, h.pid, h.running, h.attached, h.thread, h.ss, by simp [h.log], h.next⟩

theorem Here.waitpid (hp : pid ≠ 0) (h : Here events pid s cs ss) (hK : Follows K pid stops) {kind : StatusKind} {regs : Nat}
    (hs : stops[goesOf cs]? = some (kind, regs)) : ∃ st t, waitpidRaw K pid true s = (.ok (pid, st), t) ∧ waitMeaning st = kind ∧
      Here events pid t (cs ++ [await pid]) ss := by
  obtain ⟨st, hk, hm⟩ := hK.wait s.log kind regs (by rw [h.goes]; exact hs)
  obtain ⟨t, h1, h2⟩ := h.waitpid_of hp hk
  exact ⟨st, t, h1, hm, h2⟩

/-- What the kernel says becomes an event. -/
theorem Here.status {kind : StatusKind} {st : Int} {t : DSt} {cs' : List Call} {ss' : SysState} (h1 : waitpidRaw K pid true s = (.ok (pid, st), t))
    (hm : waitMeaning st = kind) (h2 : Here events pid t cs' ss') (fuel : Nat) {e : Event} {u : DSt}
    (he : ∀ x, classify true x = kind → processStatus K (waitEventPid K fuel) 0 x t = (.ok e, u)) :
    waitEventPid K (fuel + 1) pid true s = (.ok (some e), u) := by
  unfold waitEventPid
  rw [h1]
  dsimp only [waitReply]
  rw [h2.get]
  simp only [Bool.not_true, Bool.false_and, Bool.false_eq_true, if_false]
  rw [Py.run_bind_ok (he st (by rw [classify_kind, hm]))]
  rfl

/-- The process was stopped by a signal. -/
theorem Here.waitSignal_of (hp : pid ≠ 0) (h : Here events pid s cs ss) {n : Nat} {st : Int} (hk : K s.log (await pid) = .ok pid st)
    (hm : waitMeaning st = .signal n) (fuel : Nat) :
    ∃ t, waitEventPid K (fuel + 1) pid true s = (.ok (some (.signal 0 n)), t) ∧ Here events pid t (cs ++ [await pid]) ss ∧
      (t.heap 0).isStopped = true := by
  obtain ⟨t, h1, h2⟩ := h.waitpid_of hp hk
  have h3 := h2.update (f := fun p => { p with isStopped := true }) fun p => ⟨rfl, rfl, rfl, rfl⟩
  dsimp only at h3
  rw [h2.ss] at h3
  refine ⟨_, ?_, h3, rfl⟩
  exact Here.status h1 hm h2 fuel fun x hx => by unfold processStatus; rw [hx]; rfl

theorem Here.waitSignal (hp : pid ≠ 0) (h : Here events pid s cs ss) (hK : Follows K pid stops) {n regs : Nat}
    (hs : stops[goesOf cs]? = some (.signal n, regs)) (fuel : Nat) :
    ∃ t, waitEventPid K (fuel + 1) pid true s = (.ok (some (.signal 0 n)), t) ∧ Here events pid t (cs ++ [await pid]) ss := by
  obtain ⟨st, hk, hm⟩ := hK.wait s.log _ _ (by rw [h.goes]; exact hs)
  obtain ⟨t, h1, h2, _⟩ := h.waitSignal_of hp hk hm fuel
  exact ⟨t, h1, h2⟩

/-- The process has begun a new program. -/
theorem Here.waitExec (hp : pid ≠ 0) (h : Here events pid s cs ss) (hK : Follows K pid stops) {regs : Nat}
    (hs : stops[goesOf cs]? = some (.event 4, regs)) (fuel : Nat) :
    ∃ t, waitEventPid K (fuel + 1) pid true s = (.ok (some (.execution 0)), t) ∧ Here events pid t (cs ++ [await pid]) ss := by
  obtain ⟨st, t, h1, hm, h2⟩ := h.waitpid hp hK hs
  refine ⟨t, ?_, h2⟩
  exact Here.status h1 hm h2 fuel fun x hx => by unfold processStatus; rw [hx]; rfl

/-- The process has ended: it is forgotten. -/
theorem Here.waitEnd_run (hp : pid ≠ 0) (h : Here events pid s cs ss) {kind : StatusKind} {a b : Option Nat} {st : Int}
    (hk : (∃ c, kind = .exited c ∧ a = none ∧ b = some c) ∨ ∃ n, kind = .killed n ∧ a = some n ∧ b = none)
    (hw : K s.log (await pid) = .ok pid st) (hm : waitMeaning st = kind) (fuel : Nat) :
    ∃ t, waitEventPid K (fuel + 1) pid true s = (.ok (some (.exit 0 a b)), t) ∧ t.list = [] ∧ (t.heap 0).ss = ss ∧ (t.heap 0).pid = pid ∧
      t.log.map Entry.call = cs ++ [await pid] ∧ (t.heap 0).running = false := by
  obtain ⟨t, h1, h2⟩ := h.waitpid_of hp hw
  have hn : ∃ u, notRunning K 0 t = (.ok (), u) ∧ u.list = [] ∧ (u.heap 0).ss = ss ∧ (u.heap 0).pid = pid ∧ u.log = t.log ∧ (u.heap 0).running = false := by
    have e : notRunning K 0 t = deleteProcess 0 (setProc (setProc t 0 { t.heap 0 with running := false }) 0
        { { t.heap 0 with running := false } with isAttached := false }) := by
      unfold notRunning
      rw [show Py.bind (updProc 0 fun p => { p with running := false }) (fun _ => detach K 0) t =
        detach K 0 (setProc t 0 { t.heap 0 with running := false }) from rfl]
      unfold detach
      rw [if_pos (show ((setProc t 0 { t.heap 0 with running := false }).heap 0).isAttached = true from h2.attached)]
      rfl
    refine ⟨_, e, ?_, ?_, ?_, rfl, rfl⟩
    · dsimp only [setProc]; rw [h2.list]; rfl
    · exact h2.ss
    · exact h2.pid
  obtain ⟨u, hu, h3, h4, h5, h6, h7⟩ := hn
  refine ⟨u, ?_, h3, h4, h5, by rw [h6, h2.log], h7⟩
  refine Here.status h1 hm h2 fuel fun x hx => ?_
  unfold processStatus
  rw [hx]
  rcases hk with ⟨c, rfl, rfl, rfl⟩ | ⟨n, rfl, rfl, rfl⟩
  · exact (Py.run_bind_ok hu).trans rfl
  · exact (Py.run_bind_ok hu).trans rfl

theorem Here.waitEnd_of (hp : pid ≠ 0) (h : Here events pid s cs ss) {kind : StatusKind} {a b : Option Nat} {st : Int}
    (hk : (∃ c, kind = .exited c ∧ a = none ∧ b = some c) ∨ ∃ n, kind = .killed n ∧ a = some n ∧ b = none)
    (hw : K s.log (await pid) = .ok pid st) (hm : waitMeaning st = kind) (fuel : Nat) :
    ∃ t, waitEventPid K (fuel + 1) pid true s = (.ok (some (.exit 0 a b)), t) ∧ t.list = [] ∧ (t.heap 0).ss = ss ∧ (t.heap 0).pid = pid ∧
      t.log.map Entry.call = cs ++ [await pid] := by
  obtain ⟨t, h1, h2, h3, h4, h5, _⟩ := h.waitEnd_run hp hk hw hm fuel
  exact ⟨t, h1, h2, h3, h4, h5⟩

theorem Here.waitEnd (hp : pid ≠ 0) (h : Here events pid s cs ss) (hK : Follows K pid stops) {kind : StatusKind} {regs : Nat} {a b : Option Nat}
    (hk : (∃ c, kind = .exited c ∧ a = none ∧ b = some c) ∨ ∃ n, kind = .killed n ∧ a = some n ∧ b = none)
    (hs : stops[goesOf cs]? = some (kind, regs)) (fuel : Nat) :
    ∃ t, waitEventPid K (fuel + 1) pid true s = (.ok (some (.exit 0 a b)), t) ∧ t.list = [] ∧ (t.heap 0).ss = ss ∧ (t.heap 0).pid = pid ∧
      t.log.map Entry.call = cs ++ [await pid] := by
  obtain ⟨st, hw, hm⟩ := hK.wait s.log _ _ (by rw [h.goes]; exact hs)
  exact h.waitEnd_of hp hk hw hm fuel

/-- Waiting for any process is waiting for the only one. -/
theorem Here.waitSyscall (h : Here events pid s cs ss) {fuel : Nat} {r : Option Event} {t : DSt}
    (hw : waitEventPid K (fuel + 1) pid true s = (.ok r, t)) : waitSyscall K (fuel + 1) none s = filterEvent [133] r t := by
  unfold PT.waitSyscall
  dsimp only
  rw [h.good]
  unfold waitSignals waitProcessEvent
  dsimp only [Option.map]
  rw [Py.run_bind_ok (a := r) (u := t) (by unfold waitAny; rw [h.dict]; exact hw)]
  rfl

end

end PT
