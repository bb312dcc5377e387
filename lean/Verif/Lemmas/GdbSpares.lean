import Verif.Lemmas.Spares
import Verif.Model.GdbMain

/-! The same for gdb.py. -/

namespace PT
open Spec

variable {α β : Type} {K : Kern} {G : GdbCfg} {N : Nat → Prop}

/-- Code of gdb.py that keeps it. -/
def SpareCode (N : Nat → Prop) (m : Py GSt α) : Prop := ∀ g, Mourned N g.dbg → Mourned N (m g).2.dbg

theorem spare_pure (a : α) : SpareCode N (Py.pure a : Py GSt α) := fun _ h => h
theorem spare_raise (e : Exc) : SpareCode N (Py.raise e : Py GSt α) := fun _ h => h

theorem SpareCode.bind {m : Py GSt β} {f : β → Py GSt α} (hm : SpareCode N m) (hf : ∀ b, SpareCode N (f b)) : SpareCode N (Py.bind m f) := by
  intro g h
  have h1 := hm g h
  unfold Py.bind
  rcases hx : m g with ⟨r, t⟩
  rw [hx] at h1
  cases r with
  | ok b => exact hf b t h1
  | error e => exact h1

theorem spare_at {m : GSt → Py GSt α} (h : ∀ g, SpareCode N (m g)) : SpareCode N (fun g => m g g) := fun g hg => h g g hg

theorem spare_lift {m : Py DSt α} (h : ∀ s, Mourned N s → Mourn N s (m s)) : SpareCode N (PT.lift m) := fun _ hg => (h _ hg).inv

theorem spare_ite {p : Prop} [Decidable p] {a b : Py GSt α} (ha : SpareCode N a) (hb : SpareCode N b) : SpareCode N (if p then a else b) := by
  split
  · exact ha
  · exact hb

theorem spare_look : SpareCode N (look K) := fun g h => spare_lift (m := ptraceCall K (.inspect g.process (g.dbg.heap g.process).pid)) (fun _ h => mourn_ptrace h _ (fun _ _ _ hx => nomatch hx) (fun _ _ _ hx => nomatch hx)) g h
theorem spare_switch (o : Nat) : SpareCode N (switchProcess o) := fun _ h => h
theorem spare_forget (o : Nat) : SpareCode N (forget o) := fun _ h => h

theorem spare_signal (o n : Nat) : SpareCode N (processSignal K o n) :=
  (spare_lift fun _ h => mourn_display h o).bind fun _ => (spare_switch o).bind fun _ => fun _ h => h

theorem spare_continue (o n : Nat) : SpareCode N (continueProcess K o n) := by
  intro g hg
  unfold continueProcess
  split
  · exact SpareCode.bind (spare_lift fun _ h => mourn_cont h o _) (fun _ => spare_forget o) g hg
  · exact spare_lift (m := procCont K o 0) (fun _ h => mourn_cont h o 0) g hg

theorem spare_contAll (n : Nat) : ∀ os, SpareCode N (contAll K n os)
  | [] => spare_pure ()
  | o :: os => (spare_lift fun _ h => mourn_updSys h o _).bind fun _ =>
    SpareCode.bind (spare_at fun g => spare_ite (p := o = g.process) (spare_continue o n) (spare_continue o 0)) fun _ => spare_contAll n os

theorem spare_contSignal (ev : Event) : SpareCode N (contSignal K ev) := by
  cases ev with
  | signal o n => exact spare_ite (spare_look.bind fun _ => spare_pure _) ((spare_signal o n).bind fun _ => spare_pure _)
  | exit o a b => exact spare_pure _
  | newProcess o => exact spare_pure _
  | execution o => exact spare_pure _

theorem spare_cont (fuel n : Nat) : SpareCode N (gdbCont K fuel n) :=
  fun g hg => SpareCode.bind (spare_contAll (K := K) n (iterate g.dbg)) (fun _ => SpareCode.bind (spare_lift (m := waitSignals K fuel [] none) fun _ h => mourn_waitSignals fuel h [] none)
    fun ev => spare_contSignal ev) g hg

theorem spare_argError (e : Exc) : SpareCode N (argError e) := spare_ite (spare_pure _) (spare_raise e)

theorem spare_gdbSignal (fuel : Nat) (arg : Str) : SpareCode N (gdbSignal K fuel G arg) := by
  intro g h
  unfold gdbSignal
  split
  · exact spare_argError _ g h
  · exact spare_cont (K := K) fuel _ g h

theorem spare_attach (fuel : Nat) (arg : Str) : SpareCode N (gdbAttach K fuel G arg) := by
  intro g h
  unfold gdbAttach
  split
  · exact spare_argError _ g h
  · rename_i pid _
    exact SpareCode.bind (spare_lift fun _ h => mourn_add (mourn_waitEventPid fuel) h pid false none false)
      (fun o => (spare_switch o).bind fun _ => spare_pure _) g h

theorem spare_stepWait (fuel : Nat) (b : Bool) : SpareCode N (stepWait K fuel b) := by
  intro g h
  have hw := spare_lift (m := waitSignals K fuel [SIGTRAP] (some (g.dbg.heap g.process).pid)) (fun _ h => mourn_waitSignals fuel h _ _) g h
  unfold stepWait
  split <;> rename_i e <;> rw [e] at hw
  · exact spare_ite (spare_look.bind fun _ => spare_pure _) (spare_pure _) _ hw
  · exact spare_ite (spare_look.bind fun _ => spare_raise _) (spare_raise _) _ hw

theorem spare_step (fuel : Nat) (enter : Bool) : SpareCode N (gdbStep K fuel enter) :=
  spare_ite (SpareCode.bind (spare_at fun g => spare_lift fun _ h => mourn_singleStep h g.process) fun _ => spare_stepWait fuel false)
    (spare_look.bind fun _ => spare_ite (spare_pure _)
      (SpareCode.bind (spare_at fun g => spare_lift fun _ h => mourn_cont h g.process 0) fun _ => spare_stepWait fuel true))

theorem spare_until (fuel : Nat) (arg : Str) : SpareCode N (gdbUntil K fuel G arg) := by
  intro g h
  unfold gdbUntil
  split
  · exact spare_argError _ g h
  · exact spare_step fuel false g h

theorem spare_sys (fuel : Nat) : SpareCode N (gdbSys K fuel G) :=
  SpareCode.bind (spare_at fun g => spare_lift fun _ h => mourn_syscall h g.process 0) fun _ =>
  SpareCode.bind (spare_at fun g => spare_lift fun _ h => mourn_waitSyscall fuel h (some g.process)) fun _ =>
  SpareCode.bind (spare_at fun g => spare_lift fun _ h => mourn_sysEvent fuel h G.sys g.process) fun _ => spare_pure _

theorem spare_gdbSwitch (arg : Str) : SpareCode N (gdbSwitch G arg) := by
  intro g h
  unfold gdbSwitch gdbSwitchNext
  repeat' split
  all_goals first
    | exact h
    | exact spare_argError _ g h

theorem spare_execute (fuel : Nat) (c : Str) : SpareCode N (gdbExecute K fuel G c) := by
  unfold gdbExecute
  cases parseCommand c with
  | cont => exact spare_cont fuel 0
  | signal arg => exact spare_gdbSignal fuel arg
  | attach arg => exact spare_attach fuel arg
  | step enter => exact spare_step fuel enter
  | «until» arg => exact spare_until fuel arg
  | sys => exact spare_sys fuel
  | switch arg => exact spare_gdbSwitch arg
  | look => exact spare_look.bind fun _ => spare_pure _
  | info => exact spare_pure _
  | unknown => exact spare_pure _

theorem mourn_interruptSend (hN : ¬ N 2) : ∀ (os : List Nat) (s : DSt), Mourned N s → Mourn N s (interruptSend K os s)
  | [], _, h => mourn_pure h _
  | o :: os, s, h => by
    unfold interruptSend
    split
    · exact mourn_interruptSend hN os s h
    · refine Mourn.bind (mourn_ptrace h _ (fun _ _ _ hx => nomatch hx) (fun _ _ _ hx => nomatch hx)) fun v t ht _ => ?_
      split
      · exact mourn_interruptSend hN os t ht
      · exact Mourn.bind (mourn_kill ht o _ fun hx => absurd hx hN) fun _ u hu _ => Mourn.bind (mourn_interruptSend hN os u hu) fun ws v hv _ => mourn_pure hv _

theorem mourn_interruptWait (fuel : Nat) : ∀ (os : List Nat) (s : DSt), Mourned N s → Mourn N s (interruptWait K fuel os s)
  | [], _, h => mourn_pure h ()
  | o :: os, s, h => by
    refine Mourn.bind ?_ fun _ t ht _ => mourn_interruptWait fuel os t ht
    have hw := mourn_waitSignals (K := K) fuel h [SIGINT] (some (s.heap o).pid)
    split <;> rename_i e <;> rw [e] at hw
    · exact ⟨hw.inv, hw.after⟩
    · exact (mourn_display hw.inv _).base hw.after
    · exact ⟨hw.inv, hw.after⟩
    · exact ⟨hw.inv, hw.after⟩

theorem spare_interrupt (hN : ¬ N 2) (fuel : Nat) : SpareCode N (gdbInterrupt K fuel) := by
  intro g h
  exact (Mourn.bind (mourn_interruptSend (K := K) hN _ _ h) fun ws t ht _ => mourn_interruptWait (K := K) fuel ws t ht).inv

theorem spare_next : SpareCode N nextProcess := by
  intro g h
  unfold nextProcess
  split <;> exact h

theorem spare_delete (pid : Nat) : SpareCode N (gdbDeleteProcess K pid) := by
  intro g h
  unfold gdbDeleteProcess
  split
  · exact h
  · rename_i o ho
    refine SpareCode.bind (spare_lift fun _ h => mourn_terminated h o) (fun _ => ?_) g h
    intro g h
    dsimp only
    split
    · exact spare_next g h
    · exact h

theorem spare_except (hN : ¬ N 2) (fuel : Nat) (e : Exc) : SpareCode N (gdbExcept K fuel G e) := by
  cases e with
  | event ev =>
    cases ev with
    | newProcess o => exact spare_pure ()
    | signal o n => exact spare_signal o n
    | exit o a b => exact spare_next
    | execution o => exact (spare_switch o).bind fun _ => spare_interrupt hN fuel
  | interrupt => exact spare_interrupt hN fuel
  | ptrace errno =>
    intro g h
    show Mourned N ((if errno = some ESRCH then gdbDeleteProcess K (G.errPid g.dbg) g else (.ok (), g))).2.dbg
    split
    · exact spare_delete _ g h
    · exact h
  | _ => exact spare_raise _

theorem spare_line (fuel : Nat) : ∀ cs, SpareCode N (runLine (gdbExecute K fuel G) G.space cs)
  | [] => spare_pure _
  | _ :: cs => (spare_execute fuel _).bind fun _ => spare_ite (spare_line fuel cs) (spare_pure _)

/-! ### the main loop -/

theorem mainLine_spares (hN : ¬ N 2) (fuel : Nat) (line : Str) (s : Option Str × GSt) (h : Mourned N s.2.dbg) :
    Mourned N (mainLine (gdbExecute K fuel G) (gdbExcept K fuel G) G.space line s).2.2.dbg := by
  unfold mainLine
  split
  · exact h
  · have hr := spare_line (K := K) (G := G) fuel (splitOn ';' line) s.2 h
    split
    · rename_i e
      rw [e] at hr
      exact hr
    · rename_i x t e
      rw [e] at hr
      have he := spare_except (K := K) (G := G) hN fuel x t hr
      split <;> rename_i e2 <;> rw [e2] at he <;> exact he

theorem gdbLoop_spares (hN : ¬ N 2) (fuel : Nat) (x : Input) (s : Option Str × GSt) (h : Mourned N s.2.dbg) : Mourned N (gdbLoop K fuel G x s).2.2.dbg := by
  unfold gdbLoop mainLoop
  cases x with
  | eof => exact h
  | interrupt =>
    have hi := spare_interrupt (K := K) hN fuel s.2 h
    dsimp only
    split <;> rename_i e <;> rw [e] at hi <;> exact hi
  | line text =>
    dsimp only
    split
    · split
      · split
        · exact h
        · exact mainLine_spares hN fuel _ s h
      · exact h
    · exact mainLine_spares hN fuel _ s h

theorem gdbLines_spares (hN : ¬ N 2) (fuel : Nat) : ∀ (inputs : List Input) (s : Option Str × GSt), Mourned N s.2.dbg → Mourned N (gdbLines K fuel G inputs s).2.2.dbg
  | [], s, h => by
    unfold gdbLines
    split
    · exact h
    · have h2 := gdbLoop_spares (K := K) (G := G) hN fuel .eof s h
      unfold Py.bind
      rcases hm : gdbLoop K fuel G .eof s with ⟨r, t⟩
      rw [hm] at h2
      cases r <;> exact h2
  | x :: xs, s, h => by
    unfold gdbLines
    split
    · exact h
    · have h2 := gdbLoop_spares (K := K) (G := G) hN fuel x s h
      unfold Py.bind
      rcases hm : gdbLoop K fuel G x s with ⟨r, t⟩
      rw [hm] at h2
      cases r with
      | error e => exact h2
      | ok done =>
        dsimp only
        split
        · exact h2
        · exact gdbLines_spares hN fuel xs t h2

theorem gdbMain_spares (hN : ¬ N 2) (fuel : Nat) (pid : Nat) (a : Bool) (inputs : List Input) (s : DSt) (h : Mourned N s) :
    Mourned N (gdbMain K fuel G pid a inputs s).2 := by
  have hr : Mourned N (gdbRun K fuel G pid a inputs s).2 := by
    have hc := (mourn_create (K := K) fuel h pid a).inv
    unfold gdbRun Py.bind
    rcases hx : createProcess K fuel pid a s with ⟨r, t⟩
    rw [hx] at hc
    cases r with
    | error e => exact hc
    | ok o =>
      cases o with
      | none => exact hc
      | some o => exact gdbLines_spares (K := K) hN fuel inputs (none, ⟨t, o, fun _ => none⟩) hc
  unfold gdbMain
  rcases hx : gdbRun K fuel G pid a inputs s with ⟨r, t⟩
  rw [hx] at hr
  have key : ∀ m : Py DSt (Option (List Input)), Mourn N t (m t) →
      Mourned N (Py.bind m (fun rest => Py.bind (quit K fuel) fun _ => Py.pure rest) t).2 := fun m hm =>
    (Mourn.bind hm fun rest u hu _ => Mourn.bind (mourn_quit (K := K) fuel hu) fun _ v hv _ => mourn_pure hv rest).inv
  refine key _ ?_
  cases r with
  | ok rest => exact mourn_pure hr _
  | error e =>
    cases e with
    | diverge => exact mourn_raise hr _
    | _ => exact mourn_pure hr _

end PT
