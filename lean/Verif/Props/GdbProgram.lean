import Verif.Props.Program
import Verif.Props.Prompt
import Verif.Props.Simple
import Verif.Lemmas.GdbKeep
import Verif.Model.GdbProgram
import Verif.Spec.GdbProgram

/-! C142: gdb.py, from its command line to its end. -/

namespace PT
open Spec

theorem setup_plain (exec : Bool) : setupDebugger true ⟨false, exec, false⟩ newDebugger = (none, [], startState exec) := by
  cases exec <;> rfl

section
variable {K : Kern} {pid : Nat} {P : Story}

/-- A process that was killed is followed to its end. -/
theorem dies_run (hp : pid ≠ 0) (hK : Plays K pid P) (fuel : Nat) {made rest : List Call} (h : Dies P pid made rest) : ∀ (s : DSt) (n : Nat),
    rest.length ≤ n → s.log.map Entry.call = made → (s.heap 0).pid = pid → (s.heap 0).isThread = false → (s.heap 0).isAttached = true →
    dictGet s.dict pid = some 0 → ∃ t, waitExit K (fuel + 1) 0 n s = (.ok (), t) ∧ Left 0 s rest t := by
  have fin : ∀ (s : DSt) (n : Nat) (st : Int), 1 ≤ n → (s.heap 0).pid = pid → (s.heap 0).isThread = false → (s.heap 0).isAttached = true →
      dictGet s.dict pid = some 0 → K s.log (await pid) = .ok pid st → Final (waitMeaning st) →
      ∃ t, waitExit K (fuel + 1) 0 n s = (.ok (), t) ∧ Left 0 s [await pid] t := by
    intro s n st hn hpid ht ha hd hk hf
    obtain ⟨n, rfl⟩ : ∃ m, n = m + 1 := ⟨n - 1, by omega⟩
    have hk : K s.log (.waitpid (some (s.heap 0).pid) false (s.heap 0).isThread) = .ok (s.heap 0).pid st := by rw [hpid, ht]; exact hk
    obtain ⟨t, a, b, h1, h2, -⟩ := wait_final (by rw [hpid]; exact hp) (by rw [hpid]; exact hd) ha fuel hk hf
    refine ⟨t, ?_, ?_⟩
    · unfold waitExit
      rw [Py.run_bind_ok h1]
      rfl
    · rw [hpid, ht] at h2
      exact h2
  induction h with
  | exited c h =>
    intro s n hn hl hpid ht ha hd
    obtain ⟨st, hk, hm⟩ := hK.exited s.log c (by rw [hl]; exact h)
    exact fin s n st hn hpid ht ha hd hk (by rw [hm]; trivial)
  | killed c h =>
    intro s n hn hl hpid ht ha hd
    obtain ⟨st, hk, hm⟩ := hK.killed s.log c (by rw [hl]; exact h)
    exact fin s n st hn hpid ht ha hd hk (by rw [hm]; trivial)
  | @stops made rest m h hr ih =>
    intro s n hn hl hpid ht ha hd
    obtain ⟨n, rfl⟩ : ∃ m, n = m + 1 := ⟨n - 1, by simp at hn; omega⟩
    obtain ⟨st, hk, hm⟩ := hK.signal s.log m (by rw [hl]; exact h)
    have hk : K s.log (.waitpid (some (s.heap 0).pid) false (s.heap 0).isThread) = .ok (s.heap 0).pid st := by rw [hpid, ht]; exact hk
    obtain ⟨t, h1, h2, -⟩ := wait_signal (by rw [hpid]; exact hp) (by rw [hpid]; exact hd) fuel hk hm
    obtain ⟨v, x, hk2⟩ := (hK.accepts t.log 0 (if m = 5 ∨ m = 19 then 0 else m)).1
    rw [← hpid, ← h2.pid] at hk2
    have hcont : ∃ u, (if m ≠ SIGTRAP ∧ m ≠ SIGSTOP then procCont K 0 m else procCont K 0 0) t = (.ok (), u) ∧
        Busy 0 t [.cont 0 (t.heap 0).pid (if m = 5 ∨ m = 19 then 0 else m)] u := by
      by_cases h5 : m = 5 ∨ m = 19
      · rw [if_pos h5] at hk2 ⊢
        rw [if_neg (by unfold SIGTRAP SIGSTOP; omega)]
        exact busy_cont hk2
      · rw [if_neg h5] at hk2 ⊢
        have hf : filterSignal m = m := by unfold filterSignal; exact if_neg (fun h => h5 (Or.inl h))
        rw [if_pos (by unfold SIGTRAP SIGSTOP; omega)]
        have := busy_cont (K := K) (o := 0) (s := t) (n := m) (by rw [hf]; exact hk2)
        rwa [hf] at this
    obtain ⟨u, h3, h4⟩ := hcont
    have h5 := h2.trans h4
    rw [h2.pid, hpid, ht] at h5
    obtain ⟨g2, hg2, hc2⟩ := h5.log
    obtain ⟨w, h6, h7⟩ := ih u n (by simp at hn; omega) (by rw [hg2, List.map_append, hl, hc2]; rfl) (h5.pid.trans hpid) (h5.thread.trans ht)
      (h5.attached.trans ha) (by rw [h5.dict]; exact hd)
    refine ⟨w, ?_, h5.left h7⟩
    unfold waitExit
    rw [Py.run_bind_ok h1]
    dsimp only
    rw [Py.run_bind_ok h3]
    exact h6

/-- The session is left. -/
theorem leaves_run (hp : pid ≠ 0) (hK : Plays K pid P) (hd : ∀ log, ∃ v st, K log (.detach 0 pid) = .ok v st) {events : Bool} {name : Nat → Str} {g : GSt}
    {T : Table} (h : Sits events pid name g T) {created : Bool} (hw : (g.dbg.heap 0).wasAttached = created) {rest : List Call}
    (hr : Leaves P pid T created rest) (fuel : Nat) (hf : rest.length ≤ fuel) :
    ∃ t, quit K (fuel + 1) g.dbg = (.ok (), t) ∧ t.list = [] ∧ t.log.map Entry.call = T.made ++ rest := by
  obtain ⟨ss, hh, -⟩ := h.here
  have hs := h.stopped
  generalize g.dbg = s at hh hs hw
  have hdict : dictGet s.dict pid = some 0 := by rw [hh.dict]; simp [dictGet]
  have fin : ∀ t, Py.bind (terminate K (fuel + 1) 0 true) (fun _ => detach K 0) s = (.ok (), t) → Left 0 s rest t →
      ∃ t, quit K (fuel + 1) s = (.ok (), t) ∧ t.list = [] ∧ t.log.map Entry.call = T.made ++ rest := by
    intro t e hl
    refine ⟨t, ?_, by rw [hl.list, hh.list]; rfl, ?_⟩
    · obtain ⟨b, w, e1, e2⟩ := Py.ok_of_bind e
      unfold quit
      rw [hh.list]
      show Py.bind (terminate K (fuel + 1) 0 true) (fun _ => Py.bind (detach K 0) fun _ => quitLoop K (fuel + 1) []) s = _
      rw [Py.run_bind_ok e1, Py.run_bind_ok e2]
      rfl
    · obtain ⟨g, hg, hc⟩ := hl.log
      rw [hg, List.map_append, hh.log, hc]
  cases hr with
  | found =>
    obtain ⟨t, h1, h2⟩ := left_detach (K := K) hh.attached (fun _ => by rw [hh.pid]; exact hd s.log)
    rw [hh.running, if_pos rfl, hh.pid] at h2
    refine fin t ?_ h2
    rw [Py.run_bind_ok (a := true) (u := s)]
    · exact h1
    · unfold terminate
      rw [if_pos (by simp [hw])]
  | @created rest h =>
    have hkill : ∃ u, (if (s.heap 0).isStopped then procCont K 0 SIGKILL else procKill K 0 SIGKILL) s = (.ok (), u) ∧ Busy 0 s [slay pid T.stopped] u := by
      obtain ⟨⟨v, st, h1⟩, -, -, -, -, -, v', st', h2⟩ := hK.accepts s.log 0 9
      rw [hs]
      rw [← hh.pid] at h1 h2 ⊢
      unfold slay letGo
      cases T.stopped with
      | true => exact busy_cont h1
      | false => exact busy_kill h2
    obtain ⟨u, h1, h2⟩ := hkill
    obtain ⟨g1, hg1, hc1⟩ := h2.log
    obtain ⟨w, h3, h4⟩ := dies_run hp hK fuel h u (fuel + 1) (by simp at hf; omega) (by rw [hg1, List.map_append, hh.log, hc1])
      (h2.pid.trans hh.pid) (h2.thread.trans hh.thread) (h2.attached.trans hh.attached) (by rw [h2.dict]; exact hdict)
    have h5 : Left 0 s (slay pid T.stopped :: rest) w := h2.left h4
    have hnr : notRunning K 0 w = (.ok (), (updProc 0 (fun p => { p with running := false }) w).2) := by
      unfold notRunning
      rw [show Py.bind (updProc 0 fun p => { p with running := false }) (fun _ => detach K 0) w =
        detach K 0 (updProc 0 (fun p => { p with running := false }) w).2 from rfl]
      unfold detach
      rw [if_neg]
      simp [updProc, setProc, h5.attached]
    have h6 : Left 0 s (slay pid T.stopped :: rest) (updProc 0 (fun p => { p with running := false }) w).2 := by
      refine ⟨fun q hq => ?_, ?_, h5.dict, h5.list, h5.log⟩
      · rw [← h5.others q hq]
        simp [updProc, setProc, hq]
      · simp [updProc, setProc, h5.attached]
    refine fin _ ?_ h6
    rw [Py.run_bind_ok (a := true) (u := (updProc 0 (fun p => { p with running := false }) w).2)]
    · unfold detach
      rw [if_neg (by rw [h6.attached]; simp)]
    · unfold terminate
      rw [if_neg (by simp [hh.running, hw])]
      rw [Py.run_bind_ok (a := false) (u := u) (by unfold terminateKill; rw [h1])]
      rw [if_neg (by simp), if_neg (by simp), Py.run_bind_ok h3, Py.run_bind_ok hnr]
      rfl

end

/-- C133 with the end of a session that the user leaves. -/
theorem C142_leave_partial (K : Kern) (G : GdbCfg) (pid : Nat) (hp : pid ≠ 0) (events attached : Bool) (first : Nat) (hn : first = 5 ∨ first = 19)
    (P : Story) (hK : Plays K pid P) (hd : ∀ log, ∃ v st, K log (.detach 0 pid) = .ok v st)
    (hf : P.stops (if attached then [] else [.attach 0 pid]) = some (.signal first)) (inputs : List Input) (xs : List Typed)
    (hi : List.Forall₂ (TypedAs G pid) inputs xs) (fuel : Nat) (prev : Option (List Cmd)) (T : Table) (rest : List Typed)
    (ht : talk P pid (isExecve G) events none (firstTable pid attached events) xs = .asking prev T ∧ rest = [] ∨
      talk P pid (isExecve G) events none (firstTable pid attached events) xs = .over rest T true)
    (more : List Call) (hl : Leaves P pid T attached more) (hm : more.length ≤ fuel) :
    ∃ inputs' t, gdbMain K (fuel + 1) G pid attached inputs (startState events) = (.ok (some inputs'), t) ∧ List.Forall₂ (TypedAs G pid) inputs' rest ∧
      t.list = [] ∧ t.log.map Entry.call = T.made ++ more := by
  obtain ⟨s1, ss1, e1, h1, hx1, i1⟩ := start_step_of (K := K) (events := events) hp attached hn (hK.accepts _ 0 0).2.2.2.1
    (fun log hl => hK.signal log first (by rw [hl]; cases attached <;> exact hf)) (fun log => (hK.accepts log 0 _).2.2.1) fuel
  have hwas : (s1.heap 0).wasAttached = attached := by
    have hz : (startState events).next = 0 ∧ (startState events).log = [] ∧ (startState events).options ≠ 0 ∧ dictHas (startState events).dict pid = false := by
      cases events <;> exact ⟨rfl, rfl, by decide, rfl⟩
    obtain ⟨t, e, -, -, -, -, -, hw, -⟩ := add_step (K := K) (s := startState events) hp hz.2.2.2 attached none false fuel hn hz.2.2.1
      (fun _ => by rw [hz.1]; exact (hK.accepts _ 0 0).2.2.2.1)
      (fun g hg => by
        rw [hz.1] at hg
        exact hK.signal _ first (by rw [hz.2.1, List.nil_append, hg]; cases attached <;> exact hf))
      (fun g => by rw [hz.1]; exact (hK.accepts _ 0 _).2.2.1)
    rw [hz.1] at e hw
    unfold createProcess at e1
    rw [e] at e1
    cases e1
    exact hw
  have hcb : ss1.hasCallback = false := by rw [hx1]
  have hs : Sits events pid G.sys.name ⟨s1, 0, fun _ => none⟩ (firstTable pid attached events) := ⟨⟨ss1, h1, hcb, by rw [hx1]; rfl⟩, i1, rfl, rfl⟩
  have key := talk_run (P := P) hp hK fuel inputs xs _ _ none none hi rfl hs
  have old := gdbLines_keep (K := K) (fuel + 1) G inputs (none, ⟨s1, 0, fun _ => none⟩)
  cases hm' : gdbLines K (fuel + 1) G inputs (none, ⟨s1, 0, fun _ => none⟩) with
  | mk y st =>
  obtain ⟨q, t⟩ := st
  rw [hm'] at key old
  have hw : (t.dbg.heap 0).wasAttached = attached := (old.was 0 h1.next).trans hwas
  have fin : ∀ inputs', y = .ok inputs' → List.Forall₂ (TypedAs G pid) inputs' rest → Sits events pid G.sys.name t T →
      ∃ inputs' t, gdbMain K (fuel + 1) G pid attached inputs (startState events) = (.ok (some inputs'), t) ∧ List.Forall₂ (TypedAs G pid) inputs' rest ∧
        t.list = [] ∧ t.log.map Entry.call = T.made ++ more := by
    rintro inputs' rfl h2 h3
    obtain ⟨u, q1, q2, q3⟩ := leaves_run hp hK hd h3 hw hl fuel hm
    refine ⟨inputs', u, ?_, h2, q2, q3⟩
    have e3 : gdbRun K (fuel + 1) G pid attached inputs (startState events) = (.ok inputs', t.dbg) := by
      unfold gdbRun
      rw [Py.run_bind_ok e1]
      dsimp only
      rw [hm']
    unfold gdbMain
    rw [e3]
    dsimp only
    rw [Py.run_bind_ok (m := Py.pure (some inputs')) (a := some inputs') (u := t.dbg) rfl, Py.run_bind_ok q1]
    rfl
  rcases ht with ⟨ht, rfl⟩ | ht
  · rw [ht] at key
    obtain ⟨e, -, h3⟩ := key
    exact fin [] e .nil h3
  · rw [ht] at key
    obtain ⟨⟨inputs', e, h2⟩, -, h3⟩ := key
    exact fin inputs' e h2 h3

/-- What gdb.py does with its command line. -/
theorem gdb_program {E : ProgramEnv} (hs : Tidy E.cmd.space) {is : List (Str × Setting)} {prog args : List Str} (h : CmdLine Decimal gdbManual is prog args)
    {root : Nat} {attached : Bool} (ht : Tracee E is prog root attached) (K : Kern) (fuel : Nat) (G : GdbCfg) (inputs : List Input) :
    gdbProgram E K fuel G args inputs =
      let d := gdbMain K fuel G root attached inputs (treeState (isSet is "fork") (isSet is "trace-exec") (isSet is "trace-clone"))
      .ran d.1 d.2 := by
  obtain ⟨v, prog', e1, e2, e3, H, e6, e7⟩ := C139_gdb_partial hs h (by
    cases ht with
    | attach n h hn => exact .inr ⟨_, h⟩
    | start p as h hp => exact .inl (by rw [hp]; simp))
  have A := gdb_agrees
  have hi := fits_line h
  have o1 := flag_held A hi H (name := "fork") (dest := "fork") (l := some 'f') (by decide) (by decide) (by decide)
  have o2 := flag_held A hi H (name := "trace-exec") (dest := "trace_exec") (l := none) (by decide) (by decide) (by decide)
  have o3 := flag_held A hi H (name := "trace-clone") (dest := "trace_clone") (l := none) (by decide) (by decide) (by decide)
  unfold gdbProgram
  rw [e1]
  dsimp only
  rw [setup_tree, o1, o2, o3]
  dsimp only
  cases ht with
  | attach n h hn =>
    rw [e7 _ h (by exact_mod_cast hn)]
    rfl
  | start p as h hp => rw [e6 h, e3 p as hp]

/-- **C142** From the command line to the end: gdb.py traces the process asked for, and whatever is typed and whatever happens, it makes exactly the
requests of the session. When the program is over, nothing else is asked. When the user leaves, a process that gdb.py has created is killed and awaited, one
that was there before is released, and no process is left. Partial: as C133 and C139, and nobody types Control-C while gdb.py ends. -/
theorem C142_gdb_partial {E : ProgramEnv} (hs : Tidy E.cmd.space) {is : List (Str × Setting)} {prog args : List Str}
    (h : CmdLine Decimal gdbManual is prog args) (h1 : isSet is "fork" = false) (h2 : isSet is "trace-clone" = false) {pid : Nat} {attached : Bool}
    (ht : Tracee E is prog pid attached) (hp : pid ≠ 0) (K : Kern) (G : GdbCfg) (first : Nat) (hn : first = 5 ∨ first = 19) (P : Story) (hK : Plays K pid P)
    (hd : ∀ log, ∃ v st, K log (.detach 0 pid) = .ok v st) (hf : P.stops (if attached then [] else [.attach 0 pid]) = some (.signal first))
    (inputs : List Input) (xs : List Typed) (hi : List.Forall₂ (TypedAs G pid) inputs xs) (fuel : Nat) :
    let events := isSet is "trace-exec"
    let course := talk P pid (isExecve G) events none (firstTable pid attached events) xs
    (∀ rest T, course = .over rest T false → ∃ inputs' t, gdbProgram E K (fuel + 1) G args inputs = .ran (.ok (some inputs')) t ∧
      List.Forall₂ (TypedAs G pid) inputs' rest ∧ t.list = [] ∧ t.log.map Entry.call = T.made) ∧
    (∀ T, course = .failed T → ∃ t, gdbProgram E K (fuel + 1) G args inputs = .ran (.ok none) t ∧ t.list = [] ∧ t.log.map Entry.call = T.made) ∧
    ∀ prev T rest, course = .asking prev T ∧ rest = [] ∨ course = .over rest T true → ∀ more, Leaves P pid T attached more → more.length ≤ fuel →
      ∃ inputs' t, gdbProgram E K (fuel + 1) G args inputs = .ran (.ok (some inputs')) t ∧ List.Forall₂ (TypedAs G pid) inputs' rest ∧ t.list = [] ∧
        t.log.map Entry.call = T.made ++ more := by
  intro events course
  have hg := gdb_program hs h ht K (fuel + 1) G inputs
  have hst : treeState (isSet is "fork") (isSet is "trace-exec") (isSet is "trace-clone") = startState events := by
    rw [h1, h2]
    have a := setup_tree false events false
    have b := setup_plain events
    rw [b] at a
    exact (congrArg (·.2.2) a).symm
  rw [hst] at hg
  obtain ⟨r1, r2, -⟩ := C133_run_partial K G pid hp events attached first hn P hK hf inputs xs hi fuel
  refine ⟨fun rest T hc => ?_, fun T hc => ?_, fun prev T rest hc more hl hm => ?_⟩
  · obtain ⟨inputs', t, e, h⟩ := r1 rest T hc
    exact ⟨inputs', t, by rw [hg, e], h⟩
  · obtain ⟨t, e, h⟩ := r2 T hc
    exact ⟨t, by rw [hg, e], h⟩
  · obtain ⟨inputs', t, e, h⟩ := C142_leave_partial K G pid hp events attached first hn P hK hd hf inputs xs hi fuel prev T rest hc more hl hm
    exact ⟨inputs', t, by rw [hg, e], h⟩

/-- Lines that ask for nothing that can be traced end gdb.py before it makes any request; so do the help and unknown switches. -/
theorem C142_early {E : ProgramEnv} (hs : Tidy E.cmd.space) (K : Kern) (fuel : Nat) (G : GdbCfg) (inputs : List Input) :
    (∀ is args, CmdLine Decimal gdbManual is [] args → lastSetting is "pid".toList = none → gdbProgram E K fuel G args inputs = .early 1) ∧
    ∀ is ws rest, CmdWords Decimal gdbManual is ws →
      (∀ w s, Means gdbManual w s → s.takes = .help → gdbProgram E K fuel G (ws ++ ('-' :: '-' :: w) :: rest) inputs = .early 0) ∧
      (∀ w, w ≠ [] → (∀ s, ¬Means gdbManual (w.takeWhile (· ≠ '=')) s) → gdbProgram E K fuel G (ws ++ ('-' :: '-' :: w) :: rest) inputs = .early 2) ∧
      (∀ c w, c ≠ '-' → (∀ s, ¬Letter gdbManual c s) → gdbProgram E K fuel G (ws ++ ('-' :: c :: w) :: rest) inputs = .early 2) := by
  have key : ∀ args code, gdbParse E.cmd args = .exit code → gdbProgram E K fuel G args inputs = .early code := by
    intro args code h
    unfold gdbProgram
    rw [h]
  have key' : ∀ args code, parseArgs E.cmd.space gdbOptions args = .exit code → gdbProgram E K fuel G args inputs = .early code := by
    intro args code h
    refine key args code ?_
    unfold gdbParse
    rw [h]
  refine ⟨fun is args h hn => key _ _ ((C139_ends hs).2.2 h rfl hn), fun is ws rest h => ?_⟩
  obtain ⟨h1, h2, h3⟩ := C139_gdb_stops (rest := rest) hs h
  exact ⟨fun w s a b => key' _ _ (h1 w s a b), fun w a b => key' _ _ (h2 w a b), fun c w a b => key' _ _ (h3 c w a b)⟩

/-! ## who is killed -/

theorem detach_sends {K : Kern} (o : Nat) (s : DSt) : ∃ g, (detach K o s).2.log = s.log ++ g ∧ ∀ e ∈ g, sends e.call = none := by
  rcases detach_cases (K := K) o s with ⟨_, h⟩ | ⟨_, _, h⟩ | ⟨_, _, _, h⟩ | ⟨_, _, e, _, h⟩
  · exact ⟨[], by rw [h]; simp, by simp⟩
  · exact ⟨[], by rw [h]; simp [unreg, setProc], by simp⟩
  · exact ⟨[⟨.detach o (s.heap o).pid, K s.log (.detach o (s.heap o).pid), s.dict⟩], by rw [h]; simp [unreg, setProc, logCall], by simp [sends]⟩
  · exact ⟨[⟨.detach o (s.heap o).pid, K s.log (.detach o (s.heap o).pid), s.dict⟩], by rw [h]; simp [setProc, logCall], by simp [sends]⟩

/-- A process that was there before gets no signal when the debugger quits. -/
theorem quitLoop_spares {K : Kern} (fuel o : Nat) : ∀ (os : List Nat) (s : DSt), o < s.next → (s.heap o).wasAttached = false →
    ∃ g, (quitLoop K fuel os s).2.log = s.log ++ g ∧ ∀ e ∈ g, target e.call = some o → sends e.call = none
  | [], s, _, _ => ⟨[], by simp [quitLoop, Py.pure], by simp⟩
  | q :: os, s, ho, hw => by
    obtain ⟨g1, h1, h2, h3⟩ := terminate_log (K := K) fuel q true s
    have old1 := (terminate_end (K := K) fuel q true s).old
    have hg1 : ∀ e ∈ g1, target e.call = some o → sends e.call = none := by
      intro e he ht
      have := h2 e he o ht
      subst this
      by_contra hc
      have := h3 e he hc
      rw [hw] at this
      cases this
    unfold quitLoop
    unfold Py.bind
    rcases hm : terminate K fuel q true s with ⟨r, t⟩
    rw [hm] at h1 old1
    cases r with
    | error e => exact ⟨g1, h1, hg1⟩
    | ok b =>
      dsimp only
      obtain ⟨g2, k1, k2⟩ := detach_sends (K := K) q t
      have old2 : Old t (detach K q t).2 := old_of_sat (K := K) (detach_sat q (fun _ => trivial) (fun _ => trivial) (fun _ => trivial)) t
      rcases hm2 : detach K q t with ⟨r2, u⟩
      rw [hm2] at k1 old2
      have both : ∀ e ∈ g1 ++ g2, target e.call = some o → sends e.call = none := by
        intro e he ht
        rcases List.mem_append.1 he with he | he
        · exact hg1 e he ht
        · exact k2 e he
      cases r2 with
      | error e => exact ⟨g1 ++ g2, by dsimp only; rw [k1, h1, List.append_assoc], both⟩
      | ok b =>
        dsimp only
        have old := old1.trans old2
        obtain ⟨g3, m1, m2⟩ := quitLoop_spares (K := K) fuel o os u (Nat.lt_of_lt_of_le ho old.next) ((old.was o ho).trans hw)
        refine ⟨g1 ++ g2 ++ g3, by rw [m1, k1, h1]; simp, ?_⟩
        intro e he ht
        rcases List.mem_append.1 he with he | he
        · exact both e he ht
        · exact m2 e he ht

/-- The first process. -/
theorem create_first {K : Kern} (fuel pid : Nat) (attached : Bool) (s : DSt) (hz : s.next = 0) (hl : s.list = []) :
    (createProcess K fuel pid attached s).2.list = [] ∧ (∀ o, (createProcess K fuel pid attached s).1 ≠ .ok (some o)) ∨
      0 < (createProcess K fuel pid attached s).2.next ∧ ((createProcess K fuel pid attached s).2.heap 0).wasAttached = attached := by
  have e : (createProcess K fuel pid attached s).2 = (addProcess K (waitEventPid K fuel) pid attached none false s).2 ∧
      ((∀ o, (addProcess K (waitEventPid K fuel) pid attached none false s).1 ≠ .ok o) → ∀ o, (createProcess K fuel pid attached s).1 ≠ .ok (some o)) := by
    unfold createProcess
    split <;> rename_i h <;> rw [h] <;> refine ⟨rfl, fun hn o ho => ?_⟩
    · exact hn _ rfl
    all_goals cases ho
  rw [e.1]
  refine Or.imp_left (And.imp_right e.2) ?_
  unfold addProcess
  split
  · exact .inl ⟨hl, fun o h => by cases h⟩
  · unfold Py.bind
    have hnew : (∃ x t, newProc K pid attached none false s = (.error x, t) ∧ t.list = []) ∨
        ∃ t, newProc K pid attached none false s = (.ok 0, t) ∧ t.next = 1 ∧ (t.heap 0).wasAttached = attached := by
      unfold newProc
      cases attached with
      | true =>
        right
        refine ⟨_, by rw [hz]; rfl, rfl, ?_⟩
        simp [setProc, freshProc]
      | false =>
        unfold Py.bind
        simp only [Bool.false_eq_true, if_false]
        rw [ptraceCall_run]
        cases ptraceRes (K s.log (.attach s.next pid)) with
        | error x => exact .inl ⟨x, _, rfl, hl⟩
        | ok v =>
          right
          rw [hz]
          refine ⟨_, rfl, rfl, ?_⟩
          simp [setProc, freshProc]
    rcases hnew with ⟨x, t, h, h1⟩ | ⟨t, h, h1, h2⟩
    · rw [h]
      exact .inl ⟨h1, fun o h => by cases h⟩
    · right
      rw [h]
      dsimp only
      have h3 : ∃ t1 : DSt, register pid 0 t = (.ok (), t1) ∧ t1.next = 1 ∧ (t1.heap 0).wasAttached = attached := ⟨_, rfl, h1, h2⟩
      obtain ⟨t1, e1, k1, k2⟩ := h3
      rw [e1]
      dsimp only
      have tail : Sat (anyRules K) (Py.bind (addProcessWait K (waitEventPid K fuel) 0 pid) fun _ => Py.bind (addProcessOptions K 0) fun _ => Py.pure 0) := by
        refine Sat.bind ?_ (fun _ => Sat.bind ?_ fun _ => Sat.pure _)
        · intro u hu
          unfold addProcessWait
          have hws : Sat (anyRules K) (waitSignalsPid (waitEventPid K fuel) [SIGTRAP, SIGSTOP] pid) :=
            Sat.bind (waitEventPid_sat (S := anyRules K) (fun _ _ _ => trivial) fuel _ _ (.inr trivial)) fun e => filterEvent_sat _ _
          have := hws u hu
          generalize waitSignalsPid (waitEventPid K fuel) [SIGTRAP, SIGSTOP] pid u = x at this ⊢
          obtain ⟨r, u'⟩ := x
          cases r with
          | ok a => exact this
          | error e => exact this.trans (addProcessExcept_sat (fun _ _ _ => trivial) 0 e u' ((anyRules K).keep this hu))
        · intro u hu
          unfold addProcessOptions
          split
          · exact procSetoptions_sat 0 _ (fun _ _ => trivial) u hu
          · exact .refl u
      have old := old_of_sat tail t1
      refine ⟨Nat.lt_of_lt_of_le (by rw [k1]; exact Nat.one_pos) old.next, (old.was 0 (by rw [k1]; exact Nat.one_pos)).trans k2⟩

/-- Whatever the kernel does and whatever is typed: if gdb.py is to trace a process that is there already, then it sends it no signal when it ends. -/
theorem C142_spares {E : ProgramEnv} (hs : Tidy E.cmd.space) {is : List (Str × Setting)} {prog args : List Str} (h : CmdLine Decimal gdbManual is prog args)
    {n : Nat} (hn : lastSetting is "pid".toList = some (.number n)) (h0 : n ≠ 0) (K : Kern) (fuel : Nat) (G : GdbCfg) (inputs : List Input) :
    ∃ r t g, gdbProgram E K fuel G args inputs = .ran r t ∧
      t.log = (gdbRun K fuel G n false inputs (treeState (isSet is "fork") (isSet is "trace-exec") (isSet is "trace-clone"))).2.log ++ g ∧
      ∀ e ∈ g, target e.call = some 0 → sends e.call = none := by
  rw [gdb_program hs h (.attach n hn h0)]
  generalize hst : treeState (isSet is "fork") (isSet is "trace-exec") (isSet is "trace-clone") = s
  have hz : s.next = 0 ∧ s.list = [] := by
    subst hst
    generalize isSet is "fork" = a, isSet is "trace-exec" = b, isSet is "trace-clone" = c
    cases a <;> cases b <;> cases c <;> exact ⟨rfl, rfl⟩
  have key : (gdbRun K fuel G n false inputs s).2.list = [] ∨
      0 < (gdbRun K fuel G n false inputs s).2.next ∧ ((gdbRun K fuel G n false inputs s).2.heap 0).wasAttached = false := by
    have hc := create_first (K := K) fuel n false s hz.1 hz.2
    unfold gdbRun Py.bind
    rcases hm : createProcess K fuel n false s with ⟨r, t⟩
    rw [hm] at hc
    match r with
    | .error e => exact hc.imp_left (·.1)
    | .ok none => exact hc.imp_left (·.1)
    | .ok (some o) =>
      obtain ⟨c1, c2⟩ := hc.resolve_left fun h => h.2 o rfl
      have old := gdbLines_keep (K := K) fuel G inputs (none, ⟨t, o, fun _ => none⟩)
      exact .inr ⟨Nat.lt_of_lt_of_le c1 old.next, (old.was 0 c1).trans c2⟩
  unfold gdbMain
  dsimp only
  generalize gdbRun K fuel G n false inputs s = d at key
  obtain ⟨r, t⟩ := d
  dsimp only at key ⊢
  have hq : ∃ g, (quit K fuel t).2.log = t.log ++ g ∧ ∀ e ∈ g, target e.call = some 0 → sends e.call = none := by
    rcases key with key | ⟨k1, k2⟩
    · refine ⟨[], ?_, by simp⟩
      unfold quit
      rw [key]
      simp [quitLoop, Py.pure]
    · exact quitLoop_spares fuel 0 _ t k1 k2
  have fin : ∀ rest : Option (List Input), ∃ g, (Py.bind (quit K fuel) (fun _ => Py.pure rest) t).2.log = t.log ++ g ∧
      ∀ e ∈ g, target e.call = some 0 → sends e.call = none := by
    intro rest
    obtain ⟨g, h1, h2⟩ := hq
    refine ⟨g, ?_, h2⟩
    unfold Py.bind
    rcases hm : quit K fuel t with ⟨r, u⟩
    rw [hm] at h1
    cases r <;> exact h1
  split
  · obtain ⟨g, h1, h2⟩ := fin (some _)
    exact ⟨_, _, g, rfl, h1, h2⟩
  · exact ⟨_, _, [], rfl, by simp [Py.bind, Py.raise], by simp⟩
  · obtain ⟨g, h1, h2⟩ := fin none
    exact ⟨_, _, g, rfl, h1, h2⟩

/-- Whatever is typed and whatever the kernel replies: in a session no process object gets another number, parent, kind or origin, one whose process is over
stays so, and requests are only added. -/
theorem C142_origin (K : Kern) (fuel : Nat) (G : GdbCfg) (inputs : List Input) (prev : Option Str) (g : GSt) :
    ∃ made, (gdbLines K fuel G inputs (prev, g)).2.2.dbg.log = g.dbg.log ++ made ∧ ∀ o, o < g.dbg.next →
      let p := g.dbg.heap o
      let q := (gdbLines K fuel G inputs (prev, g)).2.2.dbg.heap o
      q.pid = p.pid ∧ q.parent = p.parent ∧ q.wasAttached = p.wasAttached ∧ q.isThread = p.isThread ∧ (p.running = false → q.running = false) := by
  have h := gdbLines_keep (K := K) fuel G inputs (prev, g)
  obtain ⟨made, hm⟩ := h.log
  exact ⟨made, hm, fun o ho => ⟨h.pid o ho, h.parent o ho, h.was o ho, h.thread o ho, h.running o ho⟩⟩

/-! ## examples and what is not so -/

/-- What gdb.py asked for. -/
def GdbEnded.calls : GdbEnded → List Call
  | .early _ => []
  | .ran _ t => t.log.map Entry.call

/-- `--trace-exec -p 42` -/
theorem line_gdb : CmdLine Decimal gdbManual [("trace-exec".toList, .on), ("pid".toList, .number 42)] [] ["--trace-exec".toList, "-p".toList, "42".toList] :=
  .words (is := [("trace-exec".toList, .on), ("pid".toList, .number 42)]) (js := []) (ws := ["--trace-exec".toList, "-p".toList, "42".toList]) (args := [])
    (.name (w := "trace-exec".toList) (s := ⟨"trace-exec".toList, none, .nothing⟩) ⟨by decide, Or.inl rfl⟩ rfl
      (.lettersThen (js := []) (cs := []) (c := 'p') (s := ⟨"pid".toList, some 'p', .number⟩) .nil ⟨by decide, rfl⟩ (.number (show Decimal 42 _ by unfold Decimal; decide)) .nil)) .nil

/-- A session with a process that is there already, and the user leaves: it is released. -/
example : ∃ inputs' t, gdbProgram programEnv (storyKern 42 (tale [.signal 19, .signal 10])) (8 + 1) promptCfg ["--trace-exec".toList, "-p".toList, "42".toList]
      [.line "cont".toList, .eof, .line "cont".toList] = .ran (.ok (some inputs')) t ∧ List.Forall₂ (TypedAs promptCfg 42) inputs' [.line [.cont]] ∧ t.list = [] ∧
      t.log.map Entry.call = sessionStart 42 false 17 ++ [letGo 42 0, await 42, print 42] ++ [.detach 0 42] :=
  (C142_gdb_partial (E := programEnv) blank_tidy line_gdb (by decide) (by decide) (.attach 42 (by decide) (by decide)) (by decide) _ promptCfg 19 (Or.inr rfl) _
    (tale_plays 42 [.signal 19, .signal 10] (by
      intro x hx
      simp only [List.mem_cons, List.not_mem_nil, or_false] at hx
      rcases hx with h | h <;> subst h <;> trivial)) (fun log => ⟨0, 0, rfl⟩) rfl _ [.line [.cont], .quit, .line [.cont]]
    (.cons type_cont (.cons (show TypedAs promptCfg 42 .eof .quit from trivial) (.cons type_cont .nil))) 8).2.2 none ⟨sessionStart 42 false 17 ++ [letGo 42 0, await 42, print 42], 10, none, true⟩ [.line [.cont]]
    (Or.inr rfl) _ .found (by decide)

/-- A session with a new process, and nothing more is typed: it is killed; a signal was on its way. -/
example : ∃ inputs' t, gdbProgram { programEnv with child := fun _ => 42 } (storyKern 42 (tale [.signal 5, .signal 10, .signal 15, .killed 9])) (8 + 1) promptCfg
      ["--".toList, "prog".toList, "-p".toList] [.line "cont".toList] = .ran (.ok (some inputs')) t ∧ List.Forall₂ (TypedAs promptCfg 42) inputs' [] ∧ t.list = [] ∧
      t.log.map Entry.call = sessionStart 42 true 1 ++ [letGo 42 0, await 42, print 42] ++ [letGo 42 9, await 42, letGo 42 15, await 42] :=
  (C142_gdb_partial (E := { programEnv with child := fun _ => 42 }) (is := []) blank_tidy (.rest ["prog".toList, "-p".toList]) (by decide) (by decide)
    (.start "prog".toList ["-p".toList] (by decide) rfl) (by decide) _ promptCfg 5 (Or.inl rfl) _
    (tale_plays 42 [.signal 5, .signal 10, .signal 15, .killed 9] (by
      intro x hx
      simp only [List.mem_cons, List.not_mem_nil, or_false] at hx
      rcases hx with h | h | h | h <;> subst h <;> trivial)) (fun log => ⟨0, 0, rfl⟩) rfl _ [.line [.cont]]
    (.cons type_cont .nil) 8).2.2 (some [.cont]) ⟨sessionStart 42 true 1 ++ [letGo 42 0, await 42, print 42], 10, none, true⟩ []
    (Or.inl ⟨rfl, rfl⟩) _ (.created (.stops 15 rfl (.killed 9 rfl))) (by decide)

example : gdbProgram programEnv (storyKern 42 listens) 3 promptCfg [] [] = .early 1 :=
  (C142_early (E := programEnv) blank_tidy _ _ _ _).1 [] _ .nil (by decide)

example (K : Kern) (fuel : Nat) (inputs : List Input) : ∃ r t g, gdbProgram programEnv K fuel promptCfg ["--trace-exec".toList, "-p".toList, "42".toList] inputs = .ran r t ∧
    t.log = (gdbRun K fuel promptCfg 42 false inputs (treeState false true false)).2.log ++ g ∧ ∀ e ∈ g, target e.call = some 0 → sends e.call = none :=
  C142_spares (E := programEnv) blank_tidy line_gdb (by decide) (by decide) K fuel promptCfg inputs

/-- Process 7 makes process 9. -/
def breeding : Kern := fun log c =>
  match c with
  | .waitpid p _ _ => match log.countP (fun e => match e.call with
      | .waitpid _ _ _ => true
      | _ => false) with
    | 0 => .ok 7 0x137f
    | 1 => .ok 7 0x1057f
    | 2 => .ok 9 0x137f
    | _ => .ok (p.getD 7) 9
  | .geteventmsg _ _ => .ok 9 0
  | _ => .ok 0 0

/-- **C142 refuted** for the children of a process that was there before: `gdb.py --fork -p 7`, the process makes process 9, and the user leaves. Process 7 is
released, but process 9, which gdb.py did not create either, is killed. -/
theorem C142_children_refuted :
    (gdbProgram programEnv breeding 9 promptCfg ["--fork".toList, "-p".toList, "7".toList] [.line "cont".toList, .eof]).calls =
      [.attach 0 7, .waitpid (some 7) false false, .setoptions 0 7 7] ++ [.cont 0 7 0, .waitpid (some 7) false false, .geteventmsg 0 7] ++
      [.waitpid (some 9) false false, .setoptions 1 9 7] ++ [.cont 1 9 9, .waitpid (some 9) false false] ++ [.detach 0 7] := by
  decide +kernel

end PT
