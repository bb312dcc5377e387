import Verif.Lemmas.AsksGdb

/-! Requests are made to stopped processes: the commands and the main loop of gdb.py. -/

namespace PT
open Spec

variable {K : Kern} {G : GdbCfg} {s : DSt} {g : GSt}

/-- After a command. -/
abbrev Calmed {α : Type} (_ : α) (t : GSt) : Prop := Full t.dbg

theorem gkept_look (h : Law g.dbg.log → Full g.dbg) (ho : Law g.dbg.log → g.process ∈ g.dbg.list) :
    GKept g.dbg (look K g) (fun _ t => (Full t.dbg ∧ t.dbg.list = g.dbg.list) ∧ t.process = g.process) := .lift (kept_inspect _ h ho)

theorem gkept_signal (o n : Nat) (h : Law g.dbg.log → Full g.dbg) : GKept g.dbg (processSignal K o n g) Calmed :=
  GKept.bind (GKept.lift (kept_display o h)) fun _ _ _ _ hq => .ok (.refl _) (fun hl => (hq hl).1.1) fun hl => (hq hl).1.1

theorem gkept_continue (o n : Nat) (h : Law g.dbg.log → Full g.dbg) (ho : Law g.dbg.log → o ∈ g.dbg.list) :
    GKept g.dbg (continueProcess K o n g) (fun _ t => Half t.dbg ∧ t.dbg.list = g.dbg.list) := by
  unfold continueProcess
  split
  · refine GKept.bind (GKept.lift (kept_cont _ h ho)) fun _ t _ _ hq => ?_
    exact ⟨.refl _, fun hl => (hq hl).1.1.core.asks, fun _ _ hl => (hq hl).1, fun _ hx => by cases hx⟩
  · exact (GKept.lift (kept_cont _ h ho)).weaken fun _ _ hq => hq.1

theorem Half.single (h : Half s) {o : Nat} (ho : o ∈ s.list) : s.list = [o] := by
  have hone := h.one
  have hn := h.core.reg.nodup
  generalize s.list = l at ho hone hn
  cases l with
  | nil => cases ho
  | cons a l =>
    cases l with
    | nil => rw [List.mem_singleton.1 ho]
    | cons b l =>
      have : a = b := hone a (by simp) b (by simp)
      subst this
      simp at hn

theorem gkept_cont (h : Ready g) (hF : Full g.dbg) (fuel n : Nat) : GKept g.dbg (gdbCont K (fuel + 1) n g) Calmed := by
  have hl := hF.single h.mem
  unfold gdbCont
  have hm : iterate g.dbg = [g.process] := hl
  rw [hm]
  refine GKept.bind (Q' := fun _ t => Half t.dbg ∧ t.dbg.list = g.dbg.list) ?_ fun _ t ht _ hq => ?_
  · refine GKept.bind (GKept.lift (kept_updSys g.process _ fun _ => hF)) fun _ t _ h1 hq => ?_
    have hc : ∀ m, GKept t.dbg (continueProcess K g.process m t) (fun _ u => Half u.dbg ∧ u.dbg.list = t.dbg.list) := fun m =>
      gkept_continue g.process m (fun hl => (hq hl).1.1) fun hl => by rw [(hq hl).1.2]; exact h.mem
    refine GKept.bind (Q' := fun _ u => Half u.dbg ∧ u.dbg.list = t.dbg.list) ?_ fun _ u _ h2 hu => ?_
    · split
      · exact hc _
      · exact hc _
    · exact ⟨.refl _, fun hl => (hu hl).1.core.asks, fun _ _ hl => ⟨(hu hl).1, (hu hl).2.trans (hq (hl.before h2)).1.2⟩, fun _ hx => by cases hx⟩
  · have hs := Safe.contAll (K := K) n [g.process] g h
    rw [ht] at hs
    have hr := hs.ready
    refine GKept.bind (GKept.lift (kept_any fuel [] (fun hl => (hq hl).1) fun _ => hr.mem)) fun ev u _ h2 hu => ?_
    unfold contSignal
    split
    · split
      · refine GKept.bind (gkept_look (fun hl => (hu hl).1.1) fun hl => ?_) fun _ v _ _ hv => .ok (.refl _) (fun hl => (hv hl).1.1) fun hl => (hv hl).1.1
        rw [(hu hl).2, (hu hl).1.2]
        exact hr.mem
      · exact GKept.bind (gkept_signal _ _ fun hl => (hu hl).1.1) fun _ v _ _ hv => .ok (.refl _) hv hv
    · exact .ok (.refl _) (fun hl => (hu hl).1.1) fun hl => (hu hl).1.1

theorem gkept_arg (hF : Full g.dbg) (e : Exc) : GKept g.dbg (argError e g) Calmed := by
  unfold argError
  split
  · exact .ok (.refl _) (fun _ => hF) fun _ => hF
  · exact .err (.refl _) fun _ => hF

theorem gkept_gdbSignal (h : Ready g) (hF : Full g.dbg) (fuel : Nat) (arg : Str) : GKept g.dbg (gdbSignal K (fuel + 1) G arg g) Calmed := by
  unfold gdbSignal
  split
  · exact gkept_arg hF _
  · have := fun n => gkept_cont (K := K) h hF fuel n
    exact ⟨(this _).old, (this _).asks, (this _).val, (this _).exc⟩

theorem addWait_old (fuel c pid : Nat) : Sat (askRules K) (addProcessWait K (waitEventPid K fuel) c pid) := fun u _ => by
  unfold addProcessWait waitSignalsPid
  have h1 := Sat.bind (wait_sat (K := K) fuel pid true) (fun ev => filterEvent_sat (S := askRules K) [SIGTRAP, SIGSTOP] ev) u trivial
  generalize Py.bind (waitEventPid K fuel pid true) (filterEvent [SIGTRAP, SIGSTOP]) u = y at h1 ⊢
  obtain ⟨r, t⟩ := y
  cases r with
  | ok _ => exact h1
  | error e => exact h1.trans (addProcessExcept_sat (fun _ _ _ => trivial) _ e t trivial)

theorem options_old (c : Nat) : Sat (askRules K) (addProcessOptions K c) := fun u _ => by
  unfold addProcessOptions
  split
  · exact procSetoptions_sat _ _ (fun _ _ => trivial) u trivial
  · exact .refl u

theorem unlawful_add {fuel pid : Nat} (hne : s.dict ≠ []) (hd : dictHas s.dict pid = false) :
    ¬ Law (addProcess K (waitEventPid K fuel) pid false none false s).2.log := by
  have hno : ¬ Law (logCall K (.attach s.next pid) s).log := fun hx => hne (Law.last hx).2
  unfold addProcess
  rw [if_neg (by simp [hd])]
  have hrun : ∀ f : Nat → Py DSt Nat, Py.bind (newProc K pid false none false) f s =
      match ptraceRes (K s.log (.attach s.next pid)) with
      | .ok _ => f s.next { setProc (logCall K (.attach s.next pid) s) s.next (freshProc pid false none false) with next := s.next + 1 }
      | .error e => (.error e, logCall K (.attach s.next pid) s) := fun f => by
    unfold newProc
    simp only [Bool.false_eq_true, if_false, Py.bind, ptraceCall_run]
    cases ptraceRes (K s.log (.attach s.next pid)) <;> rfl
  rw [hrun]
  cases hr : K s.log (.attach s.next pid) with
  | err n => exact hno
  | interrupt => exact hno
  | ok v st =>
    show ¬ Law (Py.bind (addProcessWait K (waitEventPid K fuel) s.next pid) (fun _ => Py.bind (addProcessOptions K s.next) fun _ => Py.pure s.next)
      (started (logCall K (.attach s.next pid) s) pid false none false)).2.log
    intro hx
    have := hx.before (askOld (K := K) (Sat.bind (addWait_old fuel s.next pid) fun _ => Sat.bind (options_old s.next) fun _ => Sat.pure _) _)
    exact hno this

theorem gkept_attach (hz : NoZero K) (ha : NoAttachZero K) (h : Ready g) (hF : Full g.dbg) (fuel : Nat) (arg : Str) :
    GKept g.dbg (gdbAttach K fuel G arg g) Calmed := by
  have hold := (gclean_attach (G := G) (A := True) hz ha trivial fuel arg g).old
  unfold gdbAttach at hold ⊢
  split
  · exact gkept_arg hF _
  · rename_i pid hpid
    rw [hpid] at hold
    dsimp only at hold
    cases hd : dictHas g.dbg.dict pid with
    | true =>
      have hrun : addProcess K (waitEventPid K fuel) pid false none false g.dbg = (.error .key, g.dbg) := by
        unfold addProcess
        rw [hd]; rfl
      unfold Py.bind lift
      rw [hrun]
      exact .err (.refl _) fun _ => hF
    | false =>
      have hne : g.dbg.dict ≠ [] := fun hx => by
        have := hF.core.getOf h.mem
        rw [hx] at this
        cases this
      have hno := unlawful_add (K := K) (fuel := fuel) hne hd
      refine GKept.broken hold ?_
      unfold Py.bind lift
      generalize addProcess K (waitEventPid K fuel) pid false none false g.dbg = x at hno
      obtain ⟨r, t⟩ := x
      cases r <;> exact hno

theorem gkept_stepWait (h : Law g.dbg.log → Half g.dbg) (hm : Law g.dbg.log → g.process ∈ g.dbg.list) (fuel : Nat) (b : Bool) :
    GKept g.dbg (stepWait K (fuel + 1) b g) Calmed := by
  have hw := kept_signalsOf (K := K) fuel [SIGTRAP] h hm
  unfold stepWait lift
  generalize waitSignals K (fuel + 1) [SIGTRAP] (some (g.dbg.heap g.process).pid) g.dbg = x at hw
  obtain ⟨r, t⟩ := x
  have hold : Old g.dbg t := hw.old
  have hlook : (Law t.log → Full t) → (Law t.log → g.process ∈ t.list) → GKept t (look K { g with dbg := t }) (fun _ t => Full t.dbg) := fun h1 h2 =>
    (gkept_look (K := K) (g := { g with dbg := t }) h1 h2).weaken fun _ _ hq => hq.1.1
  cases r with
  | ok ev =>
    have hq := hw.val ev rfl
    dsimp only at hq ⊢
    split
    · refine .from hold (GKept.bind (hlook (fun hl => (hq hl).1) fun hl => by rw [(hq hl).2]; exact hm (hl.before hold)) fun _ u _ _ hu => .ok (.refl _) hu hu)
    · exact .ok hold (fun hl => (hq hl).1) fun hl => (hq hl).1
  | error e =>
    have hq := hw.exc e rfl
    dsimp only at hq ⊢
    split
    · rename_i hb
      have hrun : (t.heap g.process).running = true := by
        have := (Bool.and_eq_true _ _ ▸ hb : _ ∧ _).2
        exact this
      refine .from hold (GKept.bind (hlook hq fun hl => ?_) fun _ u _ _ hu => .err (.refl _) hu)
      exact ((hq hl).core.left g.process (Nat.lt_of_lt_of_le ((h (hl.before hold)).core.reg.alloc _ (hm (hl.before hold))) hold.next) hrun).resolve_right id
    · exact .err hold hq

theorem gkept_step (G : GdbCfg) (h : Ready g) (hF : Full g.dbg) (hz : NoZero K) (fuel : Nat) (enter : Bool) : GKept g.dbg (gdbStep K (fuel + 1) enter g) Calmed := by
  have hn := h.good.named _ h.mem
  unfold gdbStep
  split
  · have hno : ¬ Law (logCall K (.singlestep g.process (g.dbg.heap g.process).pid) g.dbg).log := fun hx => (Law.last hx).2
    have hrun : (procSingleStep K g.process g.dbg).2 = logCall K (.singlestep g.process (g.dbg.heap g.process).pid) g.dbg := by
      unfold procSingleStep Py.bind
      rw [ptraceCall_run]
      cases ptraceRes (K g.dbg.log (.singlestep g.process (g.dbg.heap g.process).pid)) <;> rfl
    refine GKept.bind (m := fun g => lift (procSingleStep K g.process) g) (Q' := fun _ t => False) (GKept.broken ?_ ?_) fun _ t ht h1 hq => ?_
    · show Old g.dbg (procSingleStep K g.process g.dbg).2
      rw [hrun]
      exact .logCall _ _
    · show ¬ Law (procSingleStep K g.process g.dbg).2.log
      rw [hrun]
      exact hno
    · have hp : t.process = g.process := by injection ht with _ ht; rw [← ht]
      have hold := (gclean_stepWait (K := K) (G := G) (A := True) hz t (by rw [hp]; exact hn.after h1) (fuel + 1) false).old
      exact GKept.broken hold fun hl => hq (hl.before hold)
  · refine GKept.bind (gkept_look (fun _ => hF) fun _ => h.mem) fun v t ht h1 hq => ?_
    split
    · exact .ok (.refl _) (fun hl => (hq hl).1.1) fun hl => (hq hl).1.1
    · have hm : Law t.dbg.log → t.process ∈ t.dbg.list := fun hl => by rw [(hq hl).2, (hq hl).1.2]; exact h.mem
      show GKept t.dbg (Py.bind (lift (procCont K t.process 0)) _ t) _
      refine GKept.bind (GKept.lift (kept_cont 0 (fun hl => (hq hl).1.1) hm)) fun _ u _ h2 hu => ?_
      exact gkept_stepWait (fun hl => (hu hl).1.1) (fun hl => by rw [(hu hl).2, (hu hl).1.2]; exact hm (hl.before h2)) fuel true

theorem gkept_sys (h : Ready g) (hF : Full g.dbg) (fuel : Nat) : GKept g.dbg (gdbSys K (fuel + 1) G g) Calmed := by
  refine GKept.bind (m := fun g => lift (procSyscall K g.process 0) g) (GKept.lift (kept_syscall 0 (fun _ => hF) fun _ => h.mem)) fun _ t _ h1 hq => ?_
  have hm : Law t.dbg.log → t.process ∈ t.dbg.list := fun hl => by rw [(hq hl).2, (hq hl).1.2]; exact h.mem
  refine GKept.bind (m := fun g => lift (waitSyscall K (fuel + 1) (some g.process)) g)
    (GKept.lift (kept_signalsOf fuel _ (fun hl => (hq hl).1.1) hm)) fun _ u _ h2 hu => ?_
  have hm2 : Law u.dbg.log → u.process ∈ u.dbg.list := fun hl => by rw [(hu hl).2, (hu hl).1.2]; exact hm (hl.before h2)
  exact GKept.bind (m := fun g => lift (sysEvent K (fuel + 1) G.sys g.process) g) (GKept.lift (kept_sysEvent fuel _ (fun hl => (hu hl).1.1) hm2)) fun _ v _ _ hv =>
    .ok (.refl _) (fun hl => (hv hl).1) fun hl => (hv hl).1

theorem gkept_switch (h : Ready g) (hF : Full g.dbg) (arg : Str) : GKept g.dbg (gdbSwitch G arg g) Calmed := by
  unfold gdbSwitch
  split
  · obtain ⟨i, hi, h2, ok, hj, hrun⟩ := gdbSwitchNext_run h.mem
    rw [hrun]
    exact .ok (.refl _) (fun _ => hF) fun _ => hF
  · split
    · exact gkept_arg hF _
    · split
      · exact .ok (.refl _) (fun _ => hF) fun _ => hF
      · exact .ok (.refl _) (fun _ => hF) fun _ => hF

theorem gkept_execute (hz : NoZero K) (ha : NoAttachZero K) (h : Ready g) (hF : Law g.dbg.log → Full g.dbg) (fuel : Nat) (c : Str) :
    GKept g.dbg (gdbExecute K (fuel + 1) G c g) Calmed := by
  by_cases hl : Law g.dbg.log
  swap
  · have hold := (gclean_execute (G := G) hz ha h (fuel + 1) c).old
    exact GKept.broken hold fun hx => hl (hx.before hold)
  have hF := hF hl
  unfold gdbExecute
  cases parseCommand c with
  | cont => exact gkept_cont h hF fuel 0
  | signal arg => exact gkept_gdbSignal h hF fuel arg
  | attach arg => exact gkept_attach hz ha h hF (fuel + 1) arg
  | step enter => exact gkept_step G h hF hz fuel enter
  | «until» arg =>
    show GKept g.dbg (gdbUntil K (fuel + 1) G arg g) _
    unfold gdbUntil
    split
    · exact gkept_arg hF _
    · exact gkept_step G h hF hz fuel false
  | sys => exact gkept_sys h hF fuel
  | switch arg => exact gkept_switch h hF arg
  | look => exact GKept.bind (gkept_look (fun _ => hF) fun _ => h.mem) fun _ t _ _ hq => .ok (.refl _) (fun hl => (hq hl).1.1) fun hl => (hq hl).1.1
  | info => exact .ok (.refl _) (fun _ => hF) fun _ => hF
  | unknown => exact .ok (.refl _) (fun _ => hF) fun _ => hF

theorem gkept_interrupt (h : Law g.dbg.log → Full g.dbg) (fuel : Nat) : GKept g.dbg (gdbInterrupt K (fuel + 1) g) Calmed := by
  refine (GKept.lift (m := Py.bind (interruptSend K (iterate g.dbg)) (interruptWait K (fuel + 1))) (P := fun _ t => Full t) ?_).weaken fun _ _ hq => hq.1
  exact SoloKept.bind (kept_interruptSend _ h fun _ _ hi => hi) fun ws t _ hq => kept_interruptWait fuel ws hq

theorem gkept_next (h : Law g.dbg.log → Full g.dbg) : GKept g.dbg (nextProcess g) Calmed := by
  unfold nextProcess
  split
  · exact .ok (.refl _) h h
  · exact .ok (.refl _) h h

theorem gkept_except (h : Law g.dbg.log → Full g.dbg) (fuel : Nat) (e : Exc) : GKept g.dbg (gdbExcept K (fuel + 1) G e g) Calmed := by
  have hre : ∀ e, GKept g.dbg ((.error e, g) : Except Exc Unit × GSt) Calmed := fun e => .err (.refl _) h
  cases e with
  | interrupt => exact gkept_interrupt h fuel
  | event ev =>
    cases ev with
    | newProcess q => exact .ok (.refl _) h h
    | signal o n => exact gkept_signal o n h
    | exit o a b => exact gkept_next h
    | execution o => exact gkept_interrupt (g := { g with process := o }) h fuel
  | ptrace errno =>
    show GKept g.dbg ((if errno = some ESRCH then gdbDeleteProcess K (G.errPid g.dbg) g else (.ok (), g)) : Except Exc Unit × GSt) Calmed
    split
    · unfold gdbDeleteProcess
      split
      · exact .ok (.refl _) h h
      · rename_i o ho
        have hrun : lift (processTerminated K o) g = (.ok (.exit o none none), { g with dbg := gone o g.dbg }) := by
          unfold lift; rw [notRunning_gone]
        rw [Py.run_bind_ok hrun]
        have hg : Law (gone o g.dbg).log → Full (gone o g.dbg) := fun hl => by
          rw [(gone_heap o g.dbg).2.2.1] at hl
          exact (h hl).gone ((h hl).core.owner (dictGet_some ho)).1
        split
        · exact .from (Old.gone o _) (gkept_next (g := { g with dbg := gone o g.dbg }) hg)
        · exact .ok (Old.gone o _) hg hg
    · exact .ok (.refl _) h h
  | _ => exact hre _

theorem gkept_line (hz : NoZero K) (ha : NoAttachZero K) (hG : NoEvent G) (fuel : Nat) : ∀ ps (g : GSt), Ready g → (Law g.dbg.log → Full g.dbg) →
    GKept g.dbg (runLine (gdbExecute K (fuel + 1) G) G.space ps g) Calmed
  | [], g, _, hF => .ok (.refl _) hF hF
  | p :: ps, g, h, hF => by
    have h2 := Safe.gdbExecute hz ha h (fuel + 1) G hG (strip G.space p)
    rw [runLine]
    refine GKept.bind (gkept_execute (G := G) hz ha h hF fuel (strip G.space p)) fun ok t ht _ hq => ?_
    rw [ht] at h2
    cases ok with
    | true => exact gkept_line hz ha hG fuel ps t h2.ready hq
    | false => exact .ok (.refl _) hq hq

/-- The main loop. -/
structure LKept {α : Type} (s : DSt) (x : Except Exc α × (Option Str × GSt)) : Prop where
  old : Old s x.2.2.dbg
  asks : Law x.2.2.dbg.log → AsksWhen (fun _ => True) x.2.2.dbg.log
  full : Law x.2.2.dbg.log → Full x.2.2.dbg

theorem GKept.main {α β : Type} {r : Except Exc α} {r' : Except Exc β} {t : GSt} {p : Option Str} (h : GKept s (r, t) Calmed) : LKept s (r', (p, t)) :=
  ⟨h.old, h.asks, fun hl => by
    cases r with
    | ok a => exact h.val a rfl hl
    | error e => exact h.exc e rfl hl⟩

theorem lkept_line (hz : NoZero K) (ha : NoAttachZero K) (hG : NoEvent G) (fuel : Nat) (command : Str) (s : Option Str × GSt) (h : Ready s.2)
    (hF : Law s.2.dbg.log → Full s.2.dbg) : LKept s.2.dbg (mainLine (gdbExecute K (fuel + 1) G) (gdbExcept K (fuel + 1) G) G.space command s) := by
  have hl := gkept_line (G := G) hz ha hG fuel (splitOn ';' command) s.2 h hF
  unfold mainLine
  split
  · exact ⟨.refl _, fun hx => (hF hx).core.asks, hF⟩
  · generalize runLine (gdbExecute K (fuel + 1) G) G.space (splitOn ';' command) s.2 = x at hl
    obtain ⟨r, t⟩ := x
    cases r with
    | ok ok => exact hl.main
    | error e =>
      dsimp only
      have hx := gkept_except (K := K) (G := G) (g := t) (hl.exc e rfl) fuel e
      generalize gdbExcept K (fuel + 1) G e t = y at hx
      obtain ⟨r2, u⟩ := y
      have hm : ∀ {β : Type} {r' : Except Exc β} {p : Option Str}, LKept s.2.dbg (r', (p, u)) := (hx.from hl.old).main
      cases r2 with
      | ok a => exact hm
      | error e2 => exact hm

theorem lkept_loop (hz : NoZero K) (ha : NoAttachZero K) (hG : NoEvent G) (fuel : Nat) (input : Input) (s : Option Str × GSt) (h : Ready s.2)
    (hF : Law s.2.dbg.log → Full s.2.dbg) : LKept s.2.dbg (gdbLoop K (fuel + 1) G input s) := by
  have hre : ∀ (b : Bool) (p : Option Str), LKept s.2.dbg ((.ok b, (p, s.2)) : Except Exc Bool × _) := fun _ _ => ⟨.refl _, fun hx => (hF hx).core.asks, hF⟩
  unfold gdbLoop mainLoop
  cases input with
  | eof => exact hre _ _
  | interrupt =>
    dsimp only
    have hx := gkept_interrupt (K := K) hF fuel
    generalize gdbInterrupt K (fuel + 1) s.2 = x at hx
    obtain ⟨r, u⟩ := x
    cases r with
    | ok _ => exact hx.main
    | error e => exact hx.main
  | line text =>
    dsimp only
    have key := fun c => lkept_line hz ha hG fuel c s h hF
    by_cases h1 : (strip G.space text).isEmpty = true
    · rw [if_pos h1]
      cases hs : s.1 with
      | none => exact hre _ _
      | some c =>
        dsimp only
        by_cases h2 : c.isEmpty = true
        · rw [if_pos h2]; exact hre _ _
        · rw [if_neg h2]; exact key c
    · rw [if_neg h1]
      exact key _

theorem lkept_lines (hz : NoZero K) (ha : NoAttachZero K) (hG : NoEvent G) (fuel : Nat) : ∀ (inputs : List Input) (s : Option Str × GSt), Prompt s.2 →
    (Law s.2.dbg.log → Full s.2.dbg) → LKept s.2.dbg (gdbLines K (fuel + 1) G inputs s)
  | [], s, h, hF => by
    rw [gdbLines]
    dsimp only
    split
    · exact ⟨.refl _, fun hx => (hF hx).core.asks, hF⟩
    · have hl := lkept_loop (K := K) hz ha hG fuel .eof s ⟨h.good, h.mem.elim (fun h0 => by simp_all [length]) id, h.held⟩ hF
      unfold Py.bind
      generalize gdbLoop K (fuel + 1) G .eof s = x at hl
      obtain ⟨r, t⟩ := x
      cases r with
      | ok a => exact ⟨hl.old, hl.asks, hl.full⟩
      | error e => exact ⟨hl.old, hl.asks, hl.full⟩
  | input :: rest, s, h, hF => by
    rw [gdbLines]
    dsimp only
    split
    · exact ⟨.refl _, fun hx => (hF hx).core.asks, hF⟩
    · have hr : Ready s.2 := ⟨h.good, h.mem.elim (fun h0 => by simp_all [length]) id, h.held⟩
      have hl := lkept_loop (K := K) hz ha hG fuel input s hr hF
      unfold Py.bind
      generalize hx : gdbLoop K (fuel + 1) G input s = x at hl
      obtain ⟨r, t⟩ := x
      cases r with
      | error e => exact ⟨hl.old, hl.asks, hl.full⟩
      | ok done =>
        dsimp only
        have ht : Prompt t.2 := gdbLoop_prompt (p := s.1) (p' := t.1) hz ha (fuel + 1) G hG hr hx
        cases done with
        | true => exact ⟨hl.old, hl.asks, hl.full⟩
        | false =>
          have := lkept_lines hz ha hG fuel rest t ht hl.full
          exact ⟨hl.old.trans this.old, this.asks, this.full⟩

/-! ### the first process -/

/-- The wait for the first stop leaves the process registered and attached. -/
theorem solo_addWait {n c pid : Nat} {t : DSt} (hp : pid ≠ 0) (hg : dictGet s.dict pid = some c)
    (hrun : addProcessWait K (waitEventPid K (n + 1)) c pid s = (.ok (), t)) (hl : Law t.log) : t.list = s.list ∧ (t.heap c).isAttached = (s.heap c).isAttached := by
  have ho2 : Old (waitEventPid K (n + 1) pid true s).2 t := by
    have : (addProcessWait K (waitEventPid K (n + 1)) c pid s).2 = t := by rw [hrun]
    rw [← this]
    unfold addProcessWait waitSignalsPid Py.bind
    rcases waitEventPid K (n + 1) pid true s with ⟨r, t⟩
    cases r with
    | error e => exact askOld (addProcessExcept_sat (fun _ _ _ => trivial) c e) t
    | ok ev =>
      dsimp only
      have h1 := askOld (filterEvent_sat (S := askRules K) [SIGTRAP, SIGSTOP] ev) t
      generalize filterEvent [SIGTRAP, SIGSTOP] ev t = y at h1 ⊢
      obtain ⟨r2, t2⟩ := y
      cases r2 with
      | error e => exact h1.trans (askOld (addProcessExcept_sat (fun _ _ _ => trivial) c e) t2)
      | ok _ => exact h1
  have hs := solo_run (K := K) hp hg n (hl.before ho2)
  unfold addProcessWait waitSignalsPid Py.bind at hrun
  generalize waitEventPid K (n + 1) pid true s = x at hs hrun
  have hgen : ∀ e u, e ≠ .interrupt → (∀ q m, e ≠ .event (.signal q m)) → addProcessExcept K c e u ≠ (.ok (), t) := fun e u h1 h2 h3 => by
    rw [addProcessExcept_generic K c e u h1 h2] at h3
    cases h3
  cases hs with
  | exit a b _ => exact absurd hrun (hgen _ _ (fun h => nomatch h) fun _ _ h => nomatch h)
  | event m st _ _ r hr =>
    rcases hr with rfl | ⟨k, rfl⟩
    · exact absurd hrun (hgen _ _ (fun h => nomatch h) fun _ _ h => nomatch h)
    · exact absurd hrun (hgen _ _ (fun h => nomatch h) fun _ _ h => nomatch h)
  | message m st _ _ k => exact absurd hrun (hgen _ _ (fun h => nomatch h) fun _ _ h => nomatch h)
  | signal m st _ _ =>
    have hb : ∀ c', ((setProc (logCall K c' s) c { s.heap c with isStopped := true }).heap c).isAttached = (s.heap c).isAttached := fun c' => by rw [setProc_same]
    dsimp only [filterEvent] at hrun
    cases hm : ([SIGTRAP, SIGSTOP].contains m || [SIGTRAP, SIGSTOP].isEmpty) with
    | true =>
      rw [hm] at hrun
      injection hrun with _ hrun
      rw [← hrun]
      exact ⟨rfl, hb _⟩
    | false =>
      rw [hm] at hrun
      have hrun : eventDisplay K c (setProc (logCall K (.waitpid (some pid) false (s.heap c).isThread) s) c { s.heap c with isStopped := true }) = (.ok (), t) := hrun
      unfold eventDisplay Py.bind at hrun
      rw [ptraceCall_run] at hrun
      split at hrun
      · rename_i h1
        injection h1 with _ h1
        injection hrun with _ hrun
        rw [← hrun, ← h1]
        exact ⟨rfl, hb _⟩
      · cases hrun

theorem solo_add {n pid o : Nat} {a : Bool} {t : DSt} (hp : pid ≠ 0) (hr : RegInv s) (hd : dictHas s.dict pid = false)
    (hrun : addProcess K (waitEventPid K (n + 1)) pid a none false s = (.ok o, t)) (hl : Law t.log) : t.list = s.list ++ [o] ∧ (t.heap o).isAttached = true := by
  have main : ∀ s0 : DSt, s0.next = s.next → s0.list = s.list → RegInv s0 → dictHas s0.dict pid = false →
      Py.bind (addProcessWait K (waitEventPid K (n + 1)) s.next pid) (fun _ => Py.bind (addProcessOptions K s.next) fun _ => Py.pure s.next) (started s0 pid a none false) = (.ok o, t) →
      t.list = s.list ++ [o] ∧ (t.heap o).isAttached = true := by
    intro s0 hn hls hr0 hd0 hrun
    unfold Py.bind at hrun
    have hg : dictGet (started s0 pid a none false).dict pid = some s.next := by
      rw [← hn]
      exact started_get s0 pid a none false hr0 hd0
    rcases hw : addProcessWait K (waitEventPid K (n + 1)) s.next pid (started s0 pid a none false) with ⟨r, u⟩
    rw [hw] at hrun
    cases r with
    | error e => cases hrun
    | ok _ =>
      dsimp only at hrun
      have hopt := askOld (options_old (K := K) s.next) u
      have hsame : (addProcessOptions K s.next u).2.list = u.list ∧ (addProcessOptions K s.next u).2.heap = u.heap := by
        unfold addProcessOptions
        split
        · unfold procSetoptions Py.bind
          rw [ptraceCall_run]
          cases ptraceRes (K u.log (.setoptions s.next (u.heap s.next).pid u.options)) <;> exact ⟨rfl, rfl⟩
        · exact ⟨rfl, rfl⟩
      generalize addProcessOptions K s.next u = y at hrun hopt hsame
      obtain ⟨r2, w⟩ := y
      cases r2 with
      | error e => cases hrun
      | ok _ =>
        injection hrun with h1 h2
        injection h1 with h1
        subst h1 h2
        have h3 := solo_addWait hp hg hw (hl.before hopt)
        dsimp only at hsame
        rw [hsame.1, hsame.2, h3.1, h3.2]
        refine ⟨?_, ?_⟩
        · show s0.list ++ [s0.next] = _
          rw [hls, hn]
        · rw [← hn, started_heap]
          rfl
  unfold addProcess at hrun
  rw [if_neg (by simp [hd])] at hrun
  cases a with
  | true => exact main s rfl rfl hr hd hrun
  | false =>
    have hnew : ∀ f : Nat → Py DSt Nat, Py.bind (newProc K pid false none false) f s =
        match ptraceRes (K s.log (.attach s.next pid)) with
        | .ok _ => f s.next { setProc (logCall K (.attach s.next pid) s) s.next (freshProc pid false none false) with next := s.next + 1 }
        | .error e => (.error e, logCall K (.attach s.next pid) s) := fun f => by
      unfold newProc
      simp only [Bool.false_eq_true, if_false, Py.bind, ptraceCall_run]
      cases ptraceRes (K s.log (.attach s.next pid)) <;> rfl
    rw [hnew] at hrun
    cases hk : K s.log (.attach s.next pid) with
    | ok v st =>
      rw [hk] at hrun
      exact main (logCall K (.attach s.next pid) s) rfl rfl (hr.logCall K _) hd hrun
    | err n => rw [hk] at hrun; cases hrun
    | interrupt => rw [hk] at hrun; cases hrun

/-- `main` of gdb.py. -/
theorem asked_gdbMain (hz : NoZero K) (ha : NoAttachZero K) (hG : NoEvent G) (fuel pid : Nat) (a : Bool) (inputs : List Input) (hp : a = true → pid ≠ 0) (hg : Good s) (hs : s.list = [])
    (h : Cor s) : Law (gdbMain K (fuel + 1) G pid a inputs s).2.log → AsksStopped (gdbMain K (fuel + 1) G pid a inputs s).2.log := by
  have hd : dictHas s.dict pid = false := by
    cases hd : dictHas s.dict pid with
    | false => rfl
    | true =>
      obtain ⟨q, hq⟩ := dictHas_mem hd
      have := ((hg.reg.agree _ _).1 hq).1
      rw [hs] at this
      cases this
  have hr : (Law (gdbRun K (fuel + 1) G pid a inputs s).2.log → AsksWhen (fun _ => True) (gdbRun K (fuel + 1) G pid a inputs s).2.log) ∧
      ((gdbRun K (fuel + 1) G pid a inputs s).1 ≠ .error .diverge → Law (gdbRun K (fuel + 1) G pid a inputs s).2.log → Cor (gdbRun K (fuel + 1) G pid a inputs s).2) := by
    have hc := asked_create (K := K) (fuel + 1) pid a fun _ => h
    have hpid : ∀ o u, createProcess K (fuel + 1) pid a s = (.ok (some o), u) → pid ≠ 0 := by
      intro o u hu h0
      cases a with
      | true => exact hp rfl h0
      | false =>
        subst h0
        unfold createProcess addProcess newProc Py.bind at hu
        rw [hd] at hu
        simp only [Bool.false_eq_true, if_false] at hu
        rw [ptraceCall_run] at hu
        cases hk : K s.log (.attach s.next 0) with
        | ok v st => exact absurd hk (ha _ _ _ _)
        | err e => rw [hk] at hu; cases hu
        | interrupt => rw [hk] at hu; cases hu
    have hgood : ∀ o u, createProcess K (fuel + 1) pid a s = (.ok (some o), u) → Good u := by
      intro o u hu
      have := (clean_createProcess (K := K) hz hg (fuel + 1) pid a (hpid o u hu) hd).2
      rw [hu] at this
      exact this
    have hone : ∀ o u, createProcess K (fuel + 1) pid a s = (.ok (some o), u) → Law u.log → u.list = [o] ∧ (u.heap o).isAttached = true := by
      intro o u hu hl
      have hp := hpid o u hu
      unfold createProcess at hu
      split at hu
      · rename_i o' t' ho
        injection hu with h1 h2
        injection h1 with h1
        injection h1 with h1
        subst h1 h2
        have := solo_add hp hg.reg hd ho hl
        rw [hs] at this
        exact this
      · cases hu
      · cases hu
      · cases hu
    have hmem : ∀ o u, createProcess K (fuel + 1) pid a s = (.ok (some o), u) → o ∈ u.list := by
      intro o u hu
      have hp := hpid o u hu
      unfold createProcess at hu
      split at hu
      · rename_i o' t' ho
        injection hu with h1 h2
        injection h1 with h1
        injection h1 with h1
        subst h1 h2
        have hout : AddOK s t' pid a none false o' :=
          addProcess_out (fun wanted s hw hr => waitEventPid_out hz (fuel + 1) wanted true s hw hr) pid hp a none false s hg.reg _ t' ho
        exact hout.mem
      · cases hu
      · cases hu
      · cases hu
    unfold gdbRun Py.bind
    generalize createProcess K (fuel + 1) pid a s = x at hc hgood hone hmem
    obtain ⟨r, u⟩ := x
    cases r with
    | error e => exact ⟨fun hl => hc.asks hl.1, fun hn hl => hc.inv (fun hx => hn (by cases hx; rfl)) hl.1⟩
    | ok o =>
      cases o with
      | none => exact ⟨fun hl => hc.asks hl.1, fun _ hl => hc.inv (fun hx => nomatch hx) hl.1⟩
      | some o =>
        have hpr : Prompt ((none, ⟨u, o, fun _ => none⟩) : Option Str × GSt).2 := ⟨hgood o u rfl, Or.inr (hmem o u rfl), fun _ _ h => nomatch h⟩
        have hF : Law u.log → Full u := fun hl => by
          obtain ⟨h1, h2⟩ := hone o u rfl hl
          refine ⟨⟨hc.inv (fun hx => nomatch hx) hl.1, fun i hi j hj => ?_, fun i hi => ?_⟩, fun i hi => ?_⟩
          · rw [h1] at hi hj
            rw [List.mem_singleton.1 hi, List.mem_singleton.1 hj]
          · rw [h1] at hi
            rw [List.mem_singleton.1 hi]
            exact h2
          · rw [h1] at hi
            rw [List.mem_singleton.1 hi]
            exact hc.val _ rfl hl.1 o rfl
        have hl := lkept_lines (K := K) hz ha hG fuel inputs (none, ⟨u, o, fun _ => none⟩) hpr hF
        dsimp only
        generalize gdbLines K (fuel + 1) G inputs (none, ⟨u, o, fun _ => none⟩) = y at hl
        obtain ⟨r2, w⟩ := y
        exact ⟨hl.asks, fun _ hx => (hl.full hx).core⟩
  unfold gdbMain
  generalize gdbRun K (fuel + 1) G pid a inputs s = x at hr
  obtain ⟨r, t⟩ := x
  have key : ∀ m : Py DSt (Option (List Input)), (∃ a, m t = (.ok a, t)) → r ≠ .error .diverge →
      Law (Py.bind m (fun rest => Py.bind (quit K (fuel + 1)) fun _ => Py.pure rest) t).2.log →
      AsksStopped (Py.bind m (fun rest => Py.bind (quit K (fuel + 1)) fun _ => Py.pure rest) t).2.log := by
    rintro m ⟨a, hm⟩ hn
    rw [Py.run_bind_ok hm]
    have hq : Old t (quit K (fuel + 1) t).2 := askOld (quitLoop_sat (S := askRules K) (fun _ _ _ => trivial) (fuel + 1) t.list.reverse (fun _ _ _ _ => .inr trivial)
      (fun _ _ _ _ _ => trivial) (fun _ _ _ => trivial) (fun _ _ _ _ => trivial) (fun _ _ _ => trivial) (fun _ _ _ => trivial)) t
    have hlog : (Py.bind (quit K (fuel + 1)) (fun _ => Py.pure a) t).2 = (quit K (fuel + 1) t).2 := by
      unfold Py.bind
      rcases quit K (fuel + 1) t with ⟨r, u⟩
      cases r <;> rfl
    rw [hlog]
    intro hl
    obtain ⟨_, hA⟩ := asked_quit (K := K) (B := fun _ => True) (D := fun _ => False) (s := t) (fuel + 1) (fun _ => hr.2 hn (hl.before hq)) fun _ _ _ hx => hx
    exact asksWhen_all.1 (hA.asks hl.1)
  cases r with
  | ok rest => exact key _ ⟨_, rfl⟩ fun hx => nomatch hx
  | error e =>
    cases e with
    | diverge => exact fun hl => asksWhen_all.1 (hr.1 hl)
    | _ => exact key _ ⟨_, rfl⟩ fun hx => nomatch hx

end PT
