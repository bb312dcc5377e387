import Verif.Props.Quit
import Verif.Model.Simple
import Verif.Spec.Simple

/-! Property theorems C127: `examples/simple_dbg.py` from start to end. -/

namespace PT
open PT.Spec

/-- A process is added that stops with one of the signals of the debugger. -/
theorem add_step {K : Kern} {s : DSt} {pid : Nat} (hp : pid ≠ 0) (hd : dictHas s.dict pid = false) (attached : Bool) (parent : Option Nat)
    (thread : Bool) (fuel : Nat) {n : Nat} (hn : n = 5 ∨ n = 19) (ho : s.options ≠ 0)
    (hattach : attached = false → ∃ v st, K s.log (.attach s.next pid) = .ok v st)
    (hwait : ∀ g, g.map Entry.call = (if attached then [] else [.attach s.next pid]) →
      ∃ st, K (s.log ++ g) (.waitpid (some pid) false thread) = .ok pid st ∧ waitMeaning st = .signal n)
    (hopt : ∀ g, ∃ v st, K (s.log ++ g) (.setoptions s.next pid s.options) = .ok v st) :
    ∃ t, addProcess K (waitEventPid K (fuel + 1)) pid attached parent thread s = (.ok s.next, t) ∧ t.dict = dictSet s.dict pid s.next ∧
      t.list = s.list ++ [s.next] ∧ (t.heap s.next).pid = pid ∧ (t.heap s.next).running = true ∧ (t.heap s.next).isAttached = true ∧
      (t.heap s.next).wasAttached = attached ∧ (t.heap s.next).isThread = thread ∧ (t.heap s.next).isStopped = true ∧
      ∃ g, t.log = s.log ++ g ∧ g.map Entry.call =
        (if attached then [] else [.attach s.next pid]) ++ [.waitpid (some pid) false thread, .setoptions s.next pid s.options] := by
  have hnew : ∃ t g, newProc K pid attached parent thread s = (.ok s.next, t) ∧ t.dict = s.dict ∧ t.list = s.list ∧ t.options = s.options ∧
      t.heap s.next = freshProc pid attached parent thread ∧ t.log = s.log ++ g ∧ g.map Entry.call = (if attached then [] else [.attach s.next pid]) := by
    cases attached with
    | true =>
      refine ⟨{ setProc s s.next (freshProc pid true parent thread) with next := s.next + 1 }, [], rfl, rfl, rfl, rfl, ?_, ?_, rfl⟩
      · simp [setProc]
      · simp [setProc]
    | false =>
      obtain ⟨v, st, hk⟩ := hattach rfl
      refine ⟨{ setProc { s with log := s.log ++ [⟨.attach s.next pid, K s.log (.attach s.next pid), s.dict⟩] } s.next
        (freshProc pid false parent thread) with next := s.next + 1 }, [⟨.attach s.next pid, K s.log (.attach s.next pid), s.dict⟩], ?_, rfl, rfl, rfl,
        ?_, ?_, rfl⟩
      · unfold newProc
        rw [Py.run_bind_ok (a := ())]
        simp only [Bool.false_eq_true, if_false]
        rw [Py.run_bind_ok (a := v) (u := { s with log := s.log ++ [⟨.attach s.next pid, K s.log (.attach s.next pid), s.dict⟩] })]
        · rfl
        · unfold ptraceCall sysc Py.bind
          dsimp only
          rw [hk]
          rfl
      · simp [setProc]
      · simp [setProc]
  obtain ⟨t, g, e1, h1, h2, h3, h4, h5, h6⟩ := hnew
  obtain ⟨st, hk, hm⟩ := hwait g h6
  have h7 : ∃ t1 : DSt, register pid s.next t = (.ok (), t1) ∧ t1.dict = dictSet s.dict pid s.next ∧ t1.list = s.list ++ [s.next] ∧ t1.heap = t.heap ∧
      t1.log = t.log ∧ t1.options = t.options := ⟨_, rfl, by rw [← h1], by rw [← h2], rfl, rfl, rfl⟩
  obtain ⟨t1, e2, k1, k2, k3, k4, k5⟩ := h7
  have k6 : t1.heap s.next = freshProc pid attached parent thread := by rw [k3, h4]
  have hpid : (t1.heap s.next).pid = pid := by rw [k6]; rfl
  have hth : (t1.heap s.next).isThread = thread := by rw [k6]; rfl
  have hg : dictGet t1.dict pid = some s.next := by
    rw [k1]
    unfold dictSet
    rw [hd]
    simp only [Bool.false_eq_true, if_false]
    unfold dictGet
    rw [List.find?_append]
    have : List.find? (fun e => decide (e.1 = pid)) s.dict = none := by
      rw [List.find?_eq_none]
      intro x hx
      unfold dictHas at hd
      have := List.any_eq_false.1 hd x hx
      simpa using this
    rw [this]
    simp
  obtain ⟨u, e3, b1, b2⟩ := wait_signal (K := K) (o := s.next) (s := t1) (st := st) (n := n) (by rw [hpid]; exact hp) (by rw [hpid]; exact hg) fuel
    (by rw [hpid, hth, k4, h5]; exact hk) hm
  rw [hpid] at e3 b1
  rw [hth] at b1
  obtain ⟨g1, hg1, hc1⟩ := b1.log
  obtain ⟨v, x, hk2⟩ := hopt (g ++ g1)
  have hu : u.log = s.log ++ (g ++ g1) := by rw [hg1, k4, h5, List.append_assoc]
  rw [← hu] at hk2
  obtain ⟨w, e4, b3⟩ := busy_call (o := s.next) hk2
  obtain ⟨g2, hg2, hc2⟩ := b3.log
  have b4 := b1.trans b3
  have e5 : procSetoptions K s.next u.options u = (.ok (), w) := by
    unfold procSetoptions
    rw [b1.pid, hpid, b1.options, k5, h3, Py.run_bind_ok e4]
    rfl
  have same : w.heap s.next = u.heap s.next := by
    have : (ptraceCall K (.setoptions s.next pid s.options) u).2.heap = u.heap := by
      unfold ptraceCall sysc Py.bind
      dsimp only
      rw [hk2]
      rfl
    rw [e4] at this
    rw [this]
  refine ⟨w, ?_, b4.dict.trans k1, b4.list.trans k2, b4.pid.trans hpid, ?_, ?_, ?_, ?_, ?_, g ++ g1 ++ g2, ?_, ?_⟩
  · unfold addProcess
    rw [if_neg (by rw [hd]; simp), Py.run_bind_ok e1, Py.run_bind_ok e2, Py.run_bind_ok (a := ()) (u := u), Py.run_bind_ok (a := ()) (u := w)]
    · rfl
    · unfold addProcessOptions
      rw [if_pos (by rw [b1.options, k5, h3]; exact ho)]
      exact e5
    · unfold addProcessWait waitSignalsPid
      rw [Py.run_bind_ok e3]
      rcases hn with rfl | rfl <;> rfl
  · rw [b4.running, k6]; rfl
  · rw [b4.attached, k6]; rfl
  · rw [b4.was, k6]; rfl
  · rw [b4.thread, k6]; rfl
  · rw [same, b2]
  · rw [hg2, hu, List.append_assoc]
  · rw [List.map_append, List.map_append, h6, hc1, hc2]; simp

/-- The requests of `dumpRegs`. -/
theorem regs_step {K : Kern} {s : DSt} {o pid : Nat} (hpid : (s.heap o).pid = pid) (hk : K s.log (.inspect o pid) ≠ .interrupt) :
    ∃ t, simpleRegs K o s = (.ok (), t) ∧ Busy o s [.inspect o pid] t ∧ (t.heap o).isStopped = (s.heap o).isStopped := by
  refine ⟨{ s with log := s.log ++ [⟨.inspect o pid, K s.log (.inspect o pid), s.dict⟩] }, ?_,
    ⟨fun _ _ => rfl, rfl, rfl, rfl, rfl, rfl, rfl, rfl, rfl, _, rfl, rfl⟩, rfl⟩
  unfold simpleRegs ptraceCall sysc Py.bind
  rw [hpid]
  dsimp only
  cases hr : K s.log (.inspect o pid) with
  | ok v st => rfl
  | err e => rfl
  | interrupt => exact absurd hr hk

theorem meets_ends {K : Kern} {pid : Nat} {pre : List StatusKind} {pending : List Nat} {last : StatusKind} (hl : Final last)
    (hK : Meets K pid (pre ++ (pending.map StatusKind.signal ++ [last]))) {log : List Entry} (hw : waits pid (log.map Entry.call) = pre.length) :
    Ends K log 0 pid false pending last := by
  refine ⟨hl, ?_, fun g n => ⟨(hK.accepts (log ++ g) 0 n).2.2.1, (hK.accepts (log ++ g) 0 n).2.2.2.1⟩⟩
  intro g k hk
  refine hK.wait (log ++ g) k ?_
  rw [List.map_append, waits_append, hw, List.getElem?_append_right (by omega)]
  rw [Nat.add_sub_cancel_left]
  exact hk

/-- **C127** if the first stop is one of those that the debugger expects. For every process, created or attached, whatever it does next, with any
kernel that refuses nothing: `simple_dbg.py` ends, tells the event that happened, leaves no process behind, and its requests are exactly those of the
specification. So a process that was attached is never killed and is detached exactly if it is still there, and one that was created is dead. -/
theorem C127_session_partial (K : Kern) (pid : Nat) (hp : pid ≠ 0) (created : Bool) (n : Nat) (hn : n = 5 ∨ n = 19) (h : Happens)
    (hl : Final h.last) (hK : Meets K pid (.signal n :: h.list)) (fuel : Nat) (hf : h.list.length ≤ fuel) :
    ∃ t e, simpleMain K fuel pid created newDebugger = (.ok (some e), t) ∧ h.Told e ∧ iterate t = [] ∧
      t.log.map Entry.call = h.requests pid created := by
  obtain ⟨fuel, rfl⟩ : ∃ m, fuel = m + 1 := ⟨fuel - 1, by cases h <;> simp [Happens.list] at hf <;> omega⟩
  obtain ⟨s1, e1, d1, l1, p1, r1, a1, w1, t1, st1, g1, hg1, hc1⟩ := add_step (K := K) (s := newDebugger) hp rfl created none false fuel hn (by decide)
    (fun _ => (hK.accepts _ _ 0).1) (fun g hg => hK.wait _ _ (by
      have : waits pid ((newDebugger.log ++ g).map Entry.call) = 0 := by
        rw [List.map_append, hg]
        cases created <;> rfl
      rw [this]; rfl)) (fun g => (hK.accepts _ _ _).2.1)
  have log1 : s1.log.map Entry.call = (if created then [] else [.attach 0 pid]) ++ [.waitpid (some pid) false false, .setoptions 0 pid 1] := by
    rw [hg1, show newDebugger.log = [] from rfl, List.nil_append, hc1]
    rfl
  change (s1.heap 0).pid = pid at p1
  change (s1.heap 0).running = true at r1
  change (s1.heap 0).isAttached = true at a1
  change (s1.heap 0).wasAttached = created at w1
  change (s1.heap 0).isThread = false at t1
  change (s1.heap 0).isStopped = true at st1
  change s1.list = [0] at l1
  change s1.dict = [(pid, 0)] at d1
  obtain ⟨s2, e2, b2, -⟩ := regs_step p1 (hK.looks s1.log 0)
  obtain ⟨v, x, hk⟩ := (hK.accepts s2.log 0 (filterSignal 0)).2.2.1
  rw [← p1, ← b2.pid] at hk
  obtain ⟨s3, e3, b3⟩ := busy_cont hk
  have b4 := b2.trans b3
  have p3 : (s3.heap 0).pid = pid := b4.pid.trans p1
  have t3 : (s3.heap 0).isThread = false := b4.thread.trans t1
  have d3 : dictGet s3.dict (s3.heap 0).pid = some 0 := by rw [p3, b4.dict, d1]; simp [dictGet]
  have log3 : s3.log.map Entry.call = (if created then [] else [.attach 0 pid]) ++
      [.waitpid (some pid) false false, .setoptions 0 pid 1, .inspect 0 pid, .cont 0 pid 0] := by
    obtain ⟨g, hg, hc⟩ := b4.log
    rw [hg, List.map_append, log1, hc, b2.pid, p1]
    simp [filterSignal]
  have w3 : waits pid (s3.log.map Entry.call) = 1 := by
    rw [log3]
    cases created <;> simp [waits]
  have hnext : ∀ k, h.list[0]? = some k → ∃ st, K s3.log (.waitpid (some (s3.heap 0).pid) false (s3.heap 0).isThread) = .ok (s3.heap 0).pid st ∧
      waitMeaning st = k := by
    intro k hk
    rw [p3, t3]
    refine hK.wait s3.log k ?_
    rw [w3]
    exact hk
  have play : ∀ {e : Event} {u : DSt}, waitEventPid K (fuel + 1) (s3.heap 0).pid true s3 = (.ok (some e), u) →
      playWithProcess K (fuel + 1) 0 s1 = (.ok (some e), u) := by
    intro e u he
    unfold playWithProcess
    rw [Py.run_bind_ok e2, Py.run_bind_ok e3, p1]
    rw [p3] at he
    exact he
  have main : ∀ {e : Event} {u t : DSt}, playWithProcess K (fuel + 1) 0 s1 = (.ok (some e), u) → quit K (fuel + 1) u = (.ok (), t) →
      simpleMain K (fuel + 1) pid created newDebugger = (.ok (some e), t) := by
    intro e u t h1 h2
    unfold simpleMain
    rw [Py.run_bind_ok e1, Py.run_bind_ok (show playWithProcess K (fuel + 1) newDebugger.next s1 = _ from h1), Py.run_bind_ok h2]
    rfl
  cases h with
  | ends kind =>
    obtain ⟨st, hk, hm⟩ := hnext kind rfl
    obtain ⟨t, a, b, he, hleft, hab⟩ := wait_final (by rw [p3]; exact hp) d3 (b4.attached.trans a1) fuel hk (by rw [hm]; exact hl)
    have hlist : t.list = [] := by rw [hleft.list, b4.list, l1]; rfl
    obtain ⟨g, hg, hc⟩ := hleft.log
    refine ⟨t, .exit 0 a b, main (play he) (by unfold quit; rw [hlist]; rfl), ?_, hlist, ?_⟩
    · rw [hm] at hab
      rcases hab with ⟨c, rfl, rfl, rfl⟩ | ⟨c, rfl, rfl, rfl⟩ <;> rfl
    · rw [hg, List.map_append, log3, hc, p3, t3]
      simp [Happens.requests]
  | stops m pending last =>
    obtain ⟨st, hk, hm⟩ := hnext (.signal m) rfl
    obtain ⟨u, he, b5, hst⟩ := wait_signal (by rw [p3]; exact hp) d3 fuel hk hm
    have b6 := b4.trans b5
    have hpid : (u.heap 0).pid = pid := b6.pid.trans p1
    have hth : (u.heap 0).isThread = false := b6.thread.trans t1
    have hrun : (u.heap 0).running = true := b6.running.trans r1
    have hwas : (u.heap 0).wasAttached = created := b6.was.trans w1
    have logu : u.log.map Entry.call = (if created then [] else [.attach 0 pid]) ++
        [.waitpid (some pid) false false, .setoptions 0 pid 1, .inspect 0 pid, .cont 0 pid 0, .waitpid (some pid) false false] := by
      obtain ⟨g, hg, hc⟩ := b5.log
      rw [hg, List.map_append, log3, hc, p3, t3]
      simp
    obtain ⟨t, g', hq, hlist, hlog, hc⟩ := quitLoop_left (K := K) (log := u.log) (heap := u.heap) (fun _ => Fate.ends pending last) (fuel := fuel + 1) [0]
      [] u (by simp) (by rw [b6.list, l1]; rfl) (by simp)
      (fun o ho => by
        obtain rfl := List.mem_singleton.1 ho
        refine ⟨rfl, ?_, rfl⟩
        rw [hpid, b6.dict, d1]
        simp [dictGet])
      (fun o ho => by
        obtain rfl := List.mem_singleton.1 ho
        refine ⟨by rw [hpid]; exact hp, b6.attached.trans a1, ?_, by simp [Happens.list] at hf; show pending.length < fuel + 1; omega⟩
        intro _
        rw [hwas, hpid, hth]
        cases created with
        | true =>
          rw [if_pos rfl]
          refine meets_ends (pre := [.signal n, .signal m]) hl hK ?_
          rw [logu]
          simp [waits]
        | false => exact fun g => (hK.accepts _ _ 0).2.2.2.2)
    refine ⟨t, .signal 0 m, main (play he) ?_, rfl, hlist, ?_⟩
    · unfold quit
      rw [b6.list, l1]
      exact hq
    · rw [hlog, List.append_nil, List.map_append, logu, hc]
      unfold farewell Happens.requests
      rw [List.flatMap_singleton, hrun, hwas, hpid, hth, hst]
      cases created <;> simp

/-- A kernel with one process that stops and ends with these wait statuses. -/
def oneKern (pid : Nat) (statuses : List Int) : Kern := fun log c =>
  match c with
  | .waitpid _ _ _ =>
    match statuses[waits pid (log.map Entry.call)]? with
    | some st => .ok pid st
    | none => .err 10
  | .inspect _ _ => .err 5
  | _ => .ok 1 0

theorem oneKern_meets (pid : Nat) (statuses : List Int) : Meets (oneKern pid statuses) pid (statuses.map waitMeaning) := by
  refine ⟨?_, fun log o n => ⟨⟨1, 0, rfl⟩, ⟨1, 0, rfl⟩, ⟨1, 0, rfl⟩, ⟨1, 0, rfl⟩, 1, 0, rfl⟩, fun log o h => by cases h⟩
  intro log k hk
  rw [List.getElem?_map] at hk
  cases h : statuses[waits pid (log.map Entry.call)]? with
  | none => rw [h] at hk; cases hk
  | some st =>
    rw [h] at hk
    injection hk with hk
    exact ⟨st, by unfold oneKern; dsimp only; rw [h], hk⟩

/-- A program that is started, stopped by signal 11 and killed while signal 17 is on its way. -/
example := C127_session_partial (oneKern 42 [0x057f, 0x0b7f, 0x117f, 9]) 42 (by decide) true 5 (Or.inl rfl) (.stops 11 [17] (.killed 9)) trivial
  (oneKern_meets 42 [0x057f, 0x0b7f, 0x117f, 9]) 5 (by decide)

/-- A process that is attached and exits. -/
example := C127_session_partial (oneKern 42 [0x137f, 0x0300]) 42 (by decide) false 19 (Or.inr rfl) (.ends (.exited 3)) trivial
  (oneKern_meets 42 [0x137f, 0x0300]) 5 (by decide)

/-- **C127** is false for the signals: process 42, which was attached, is stopped by signal 15 on its way to it, and is released without it. -/
theorem C127_signal_refuted : ∃ (K : Kern) (t : DSt), Meets K 42 [.signal 19, .signal 15, .killed 9] ∧
    simpleMain K 5 42 false newDebugger = (.ok (some (.signal 0 15)), t) ∧ iterate t = [] ∧ detachCount 0 t.log = 1 ∧
    ∀ e ∈ t.log, sends e.call ≠ some 15 :=
  ⟨oneKern 42 [0x137f, 0x0f7f, 9], (simpleMain (oneKern 42 [0x137f, 0x0f7f, 9]) 5 42 false newDebugger).2, oneKern_meets 42 [0x137f, 0x0f7f, 9],
    pair_eq (by decide +kernel), by decide +kernel, by decide +kernel, by decide +kernel⟩

/-- **C127**, the command line: a process is attached exactly if there is one argument and it is a number; otherwise the arguments are a program. -/
theorem C127_arguments (parse : Str → Option Int) (name : Str) (argv : List Str) :
    (∀ pid, simpleStart parse (name :: argv) = .attach pid ↔ ∃ a, argv = [a] ∧ parse a = some pid) ∧
    (∀ l, simpleStart parse (name :: argv) = .create l ↔ l = argv ∧ argv ≠ [] ∧ ∀ a, argv = [a] → parse a = none) := by
  match argv with
  | [] =>
    have e : simpleStart parse [name] = .usage := rfl
    rw [e]
    simp
  | [a] =>
    have e : simpleStart parse [name, a] = match parse a with
      | some pid => .attach pid
      | none => .create [a] := rfl
    rw [e]
    cases hp : parse a with
    | none => simp [hp]; exact fun l => eq_comm
    | some pid => simp [hp]
  | a :: b :: rest =>
    have e : simpleStart parse (name :: a :: b :: rest) = .create (a :: b :: rest) := by
      unfold simpleStart
      rw [if_neg (by simp), if_neg (by simp)]
      rfl
    rw [e]
    simp
    exact fun l => eq_comm

example := C127_arguments (fun s => if s = "42".toList then some 42 else none) "simple_dbg.py".toList ["42".toList]

end PT
