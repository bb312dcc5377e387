import Verif.Lemmas.Hale

/-! gdb.py with a kernel that tells first stops by signals. -/

namespace PT
open Spec

variable {α β : Type} {K : Kern} {G : GdbCfg}

/-- Code of gdb.py that keeps what is known. -/
def FitCode (m : Py GSt α) : Prop := ∀ g, Fit g.dbg → Out g.dbg ((m g).1, (m g).2.dbg)

theorem fit_pure (a : α) : FitCode (Py.pure a : Py GSt α) := fun _ h => out_same h _
theorem fit_raise (e : Exc) : FitCode (Py.raise e : Py GSt α) := fun _ h => out_same h _

theorem FitCode.bind {m : Py GSt β} {f : β → Py GSt α} (hm : FitCode m) (hf : ∀ b, FitCode (f b)) : FitCode (Py.bind m f) := by
  intro g h
  have h1 := hm g h
  unfold Py.bind
  rcases hx : m g with ⟨r, t⟩
  rw [hx] at h1
  cases r with
  | ok b => exact (hf b t h1.fit).base h1.after
  | error e => exact ⟨h1.most, h1.after, h1.all⟩

theorem fit_at {m : GSt → Py GSt α} (h : ∀ g, FitCode (m g)) : FitCode (fun g => m g g) := fun g hg => h g g hg

theorem fit_lift {m : Py DSt α} (h : ∀ s, Fit s → Out s (m s)) : FitCode (PT.lift m) := fun _ hg => h _ hg

theorem fit_ite {p : Prop} [Decidable p] {a b : Py GSt α} (ha : FitCode a) (hb : FitCode b) : FitCode (if p then a else b) := by
  split
  · exact ha
  · exact hb

theorem fit_look : FitCode (look K) := fun g h => fit_lift (m := ptraceCall K (.inspect g.process (g.dbg.heap g.process).pid)) (fun _ h => out_ptrace h _ (fun _ _ _ hx => nomatch hx) (fun _ _ _ hx => nomatch hx)) g h
theorem fit_switch (o : Nat) : FitCode (switchProcess o) := fun _ h => out_same h _
theorem fit_forget (o : Nat) : FitCode (forget o) := fun _ h => out_same h _

theorem fit_signal (o n : Nat) : FitCode (processSignal K o n) :=
  (fit_lift fun _ h => out_display h o).bind fun _ => (fit_switch o).bind fun _ => fun _ h => out_same h _

theorem fit_continue (o n : Nat) : FitCode (continueProcess K o n) := by
  intro g hg
  unfold continueProcess
  split
  · exact FitCode.bind (fit_lift fun _ h => out_cont h o _) (fun _ => fit_forget o) g hg
  · exact fit_lift (m := procCont K o 0) (fun _ h => out_cont h o 0) g hg

theorem fit_contAll (n : Nat) : ∀ os, FitCode (contAll K n os)
  | [] => fit_pure ()
  | o :: os => (fit_lift fun _ h => out_updSys h o _).bind fun _ =>
    FitCode.bind (fit_at fun g => fit_ite (p := o = g.process) (fit_continue o n) (fit_continue o 0)) fun _ => fit_contAll n os

theorem fit_contSignal (ev : Event) : FitCode (contSignal K ev) := by
  cases ev with
  | signal o n => exact fit_ite (fit_look.bind fun _ => fit_pure _) ((fit_signal o n).bind fun _ => fit_pure _)
  | exit o a b => exact fit_pure _
  | newProcess o => exact fit_pure _
  | execution o => exact fit_pure _

theorem fit_cont (fuel n : Nat) : FitCode (gdbCont K (fuel + 2) n) :=
  fun g hg => FitCode.bind (fit_contAll (K := K) n (iterate g.dbg)) (fun _ => FitCode.bind (fit_lift (m := waitSignals K (fuel + 2) [] none) fun _ h => out_waitSignals fuel h [] none)
    fun ev => fit_contSignal ev) g hg

theorem fit_argError (e : Exc) : FitCode (argError e) := fit_ite (fit_pure _) (fit_raise e)

theorem fit_gdbSignal (fuel : Nat) (arg : Str) : FitCode (gdbSignal K (fuel + 2) G arg) := by
  intro g h
  unfold gdbSignal
  split
  · exact fit_argError _ g h
  · exact fit_cont (K := K) fuel _ g h

theorem fit_attach (fuel : Nat) (arg : Str) : FitCode (gdbAttach K (fuel + 2) G arg) := by
  intro g h
  unfold gdbAttach
  split
  · exact fit_argError _ g h
  · rename_i pid _
    exact FitCode.bind (fit_lift fun _ h => out_add (fuel + 1) h pid false none false)
      (fun o => (fit_switch o).bind fun _ => fit_pure _) g h

theorem fit_stepWait (fuel : Nat) (b : Bool) : FitCode (stepWait K (fuel + 2) b) := by
  intro g h
  have hw := fit_waitSignals (K := K) fuel h [SIGTRAP] (g.dbg.heap g.process).pid
  have hw : Fit (lift (waitSignals K (fuel + 2) [SIGTRAP] (some (g.dbg.heap g.process).pid)) g).2.dbg ∧
      After g.dbg (lift (waitSignals K (fuel + 2) [SIGTRAP] (some (g.dbg.heap g.process).pid)) g).2.dbg := hw
  unfold stepWait
  split <;> rename_i e <;> rw [e] at hw
  · exact (fit_ite (fit_look.bind fun _ => fit_pure _) (fit_pure _) _ hw.1).base hw.2
  · exact (fit_ite (fit_look.bind fun _ => fit_raise _) (fit_raise _) _ hw.1).base hw.2

theorem fit_step (fuel : Nat) (enter : Bool) : FitCode (gdbStep K (fuel + 2) enter) :=
  fit_ite (FitCode.bind (fit_at fun g => fit_lift fun _ h => out_singleStep h g.process) fun _ => fit_stepWait fuel false)
    (fit_look.bind fun _ => fit_ite (fit_pure _)
      (FitCode.bind (fit_at fun g => fit_lift fun _ h => out_cont h g.process 0) fun _ => fit_stepWait fuel true))

theorem fit_until (fuel : Nat) (arg : Str) : FitCode (gdbUntil K (fuel + 2) G arg) := by
  intro g h
  unfold gdbUntil
  split
  · exact fit_argError _ g h
  · exact fit_step fuel false g h

theorem fit_sys (fuel : Nat) : FitCode (gdbSys K (fuel + 2) G) :=
  FitCode.bind (fit_at fun g => fit_lift fun _ h => out_syscall h g.process 0) fun _ =>
  FitCode.bind (fit_at fun g => fit_lift fun _ h => out_waitSyscall fuel h (some g.process)) fun _ =>
  FitCode.bind (fit_at fun g => fit_lift fun _ h => out_sysEvent fuel h G.sys g.process) fun _ => fit_pure _

theorem fit_gdbSwitch (arg : Str) : FitCode (gdbSwitch G arg) := by
  intro g h
  unfold gdbSwitch gdbSwitchNext
  repeat' split
  all_goals first
    | exact out_same h _
    | exact fit_argError _ g h

theorem fit_execute (fuel : Nat) (c : Str) : FitCode (gdbExecute K (fuel + 2) G c) := by
  unfold gdbExecute
  cases parseCommand c with
  | cont => exact fit_cont fuel 0
  | signal arg => exact fit_gdbSignal fuel arg
  | attach arg => exact fit_attach fuel arg
  | step enter => exact fit_step fuel enter
  | «until» arg => exact fit_until fuel arg
  | sys => exact fit_sys fuel
  | switch arg => exact fit_gdbSwitch arg
  | look => exact fit_look.bind fun _ => fit_pure _
  | info => exact fit_pure _
  | unknown => exact fit_pure _

theorem fit_interrupt (fuel : Nat) : FitCode (gdbInterrupt K (fuel + 2)) := by
  intro g h
  exact Out.bind (out_interruptSend (K := K) _ _ h fun _ ho => ho) fun ws t ht _ => out_interruptWait (K := K) fuel ws t ht

theorem fit_next : FitCode nextProcess := by
  intro g h
  unfold nextProcess
  split <;> exact out_same h _

theorem fit_delete (pid : Nat) : FitCode (gdbDeleteProcess K pid) := by
  intro g h
  unfold gdbDeleteProcess
  split
  · exact out_same h _
  · rename_i o ho
    have h1 : Out g.dbg ((lift (processTerminated K o) g).1, (lift (processTerminated K o) g).2.dbg) := out_terminated h (dictGet_some ho)
    unfold Py.bind
    rcases hx : lift (processTerminated K o) g with ⟨r, t⟩
    rw [hx] at h1
    cases r with
    | error e => exact ⟨h1.most, h1.after, h1.all⟩
    | ok ev =>
      have h2 := h1.fit
      refine Out.base ?_ h1.after
      dsimp only
      split
      · exact fit_next t h2
      · exact out_same h2 _

theorem fit_except (fuel : Nat) (e : Exc) : FitCode (gdbExcept K (fuel + 2) G e) := by
  cases e with
  | event ev =>
    cases ev with
    | newProcess o => exact fit_pure ()
    | signal o n => exact fit_signal o n
    | exit o a b => exact fit_next
    | execution o => exact (fit_switch o).bind fun _ => fit_interrupt fuel
  | interrupt => exact fit_interrupt fuel
  | ptrace errno =>
    intro g h
    show Out g.dbg (((if errno = some ESRCH then gdbDeleteProcess K (G.errPid g.dbg) g else (.ok (), g)) : Except Exc Unit × GSt).1,
      ((if errno = some ESRCH then gdbDeleteProcess K (G.errPid g.dbg) g else (.ok (), g)) : Except Exc Unit × GSt).2.dbg)
    split
    · exact fit_delete _ g h
    · exact out_same h _
  | _ => exact fit_raise _

theorem fit_line (fuel : Nat) : ∀ cs, FitCode (runLine (gdbExecute K (fuel + 2) G) G.space cs)
  | [] => fit_pure _
  | _ :: cs => (fit_execute fuel _).bind fun _ => fit_ite (fit_line fuel cs) (fit_pure _)

/-! ### the main loop -/

theorem mainLine_fit (fuel : Nat) (line : Str) (s : Option Str × GSt) (h : Fit s.2.dbg) :
    Out s.2.dbg ((mainLine (gdbExecute K (fuel + 2) G) (gdbExcept K (fuel + 2) G) G.space line s).1, (mainLine (gdbExecute K (fuel + 2) G) (gdbExcept K (fuel + 2) G) G.space line s).2.2.dbg) := by
  unfold mainLine
  split
  · exact out_same h _
  · have hr := fit_line (K := K) (G := G) fuel (splitOn ';' line) s.2 h
    split
    · rename_i e
      rw [e] at hr
      exact (out_same hr.fit _).base hr.after
    · rename_i x t e
      rw [e] at hr
      · have he := fit_except (K := K) (G := G) fuel x t hr.fit
        refine Out.base ?_ hr.after
        split <;> rename_i e2 <;> rw [e2] at he
        · exact out_same he.fit _ |>.base he.after
        · exact ⟨he.most, he.after, he.all⟩

theorem gdbLoop_fit (fuel : Nat) (x : Input) (s : Option Str × GSt) (h : Fit s.2.dbg) : Out s.2.dbg ((gdbLoop K (fuel + 2) G x s).1, (gdbLoop K (fuel + 2) G x s).2.2.dbg) := by
  unfold gdbLoop mainLoop
  cases x with
  | eof => exact out_same h _
  | interrupt =>
    have hi := fit_interrupt (K := K) fuel s.2 h
    dsimp only
    split <;> rename_i e <;> rw [e] at hi
    · exact out_same hi.fit _ |>.base hi.after
    · exact ⟨hi.most, hi.after, hi.all⟩
  | line text =>
    dsimp only
    split
    · split
      · split
        · exact out_same h _
        · exact mainLine_fit fuel _ s h
      · exact out_same h _
    · exact mainLine_fit fuel _ s h

theorem gdbLines_fit (fuel : Nat) : ∀ (inputs : List Input) (s : Option Str × GSt), Fit s.2.dbg → Out s.2.dbg ((gdbLines K (fuel + 2) G inputs s).1, (gdbLines K (fuel + 2) G inputs s).2.2.dbg)
  | [], s, h => by
    unfold gdbLines
    split
    · exact out_same h _
    · have h2 := gdbLoop_fit (K := K) (G := G) fuel .eof s h
      unfold Py.bind
      rcases hm : gdbLoop K (fuel + 2) G .eof s with ⟨r, t⟩
      rw [hm] at h2
      cases r with
      | ok a => exact out_same h2.fit _ |>.base h2.after
      | error e => exact ⟨h2.most, h2.after, h2.all⟩
  | x :: xs, s, h => by
    unfold gdbLines
    split
    · exact out_same h _
    · have h2 := gdbLoop_fit (K := K) (G := G) fuel x s h
      unfold Py.bind
      rcases hm : gdbLoop K (fuel + 2) G x s with ⟨r, t⟩
      rw [hm] at h2
      cases r with
      | error e => exact ⟨h2.most, h2.after, h2.all⟩
      | ok done =>
        have h3 := h2.fit
        refine Out.base ?_ h2.after
        dsimp only
        split
        · exact out_same h3 _
        · exact gdbLines_fit fuel xs t h3

/-- The whole session: the processes that are left are terminated with SIGKILL, which is sent to running ones only. -/
theorem gdbMain_plain (fuel : Nat) (pid : Nat) (a : Bool) (inputs : List Input) (s : DSt) (h : Fit s) (hp : PlainLog (gdbMain K (fuel + 2) G pid a inputs s).2.log) :
    Mourned (fun _ => True) (gdbMain K (fuel + 2) G pid a inputs s).2 := by
  have hr : Out s (gdbRun K (fuel + 2) G pid a inputs s) := Out.bind (out_create (K := K) fuel h pid a) fun o t ht _ => by
    cases o with
    | none => exact out_pure ht _
    | some o => exact gdbLines_fit (K := K) (G := G) fuel inputs (none, ⟨t, o, fun _ => none⟩) ht
  revert hp
  unfold gdbMain
  rcases hx : gdbRun K (fuel + 2) G pid a inputs s with ⟨r, t⟩
  rw [hx] at hr
  have key : ∀ m : Py DSt (Option (List Input)), (∀ N, Mourned N t → Mourn N t (m t)) →
      PlainLog (Py.bind m (fun rest => Py.bind (quit K (fuel + 2)) fun _ => Py.pure rest) t).2.log →
      Mourned (fun _ => True) (Py.bind m (fun rest => Py.bind (quit K (fuel + 2)) fun _ => Py.pure rest) t).2 := fun m hm hp => by
    have all : ∀ N, Mourned N t → Mourn N t (Py.bind m (fun rest => Py.bind (quit K (fuel + 2)) fun _ => Py.pure rest) t) := fun N hN =>
      Mourn.bind (hm N hN) fun rest u hu _ => Mourn.bind (mourn_quit (K := K) (fuel + 2) hu) fun _ v hv _ => mourn_pure hv rest
    exact (all _ (hr.all ((all _ hr.most).after.plain hp)).1).inv
  refine key _ fun N hN => ?_
  cases r with
  | ok rest => exact mourn_pure hN _
  | error e =>
    cases e with
    | diverge => exact mourn_raise hN _
    | _ => exact mourn_pure hN _

end PT
