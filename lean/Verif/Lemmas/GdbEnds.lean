import Verif.Lemmas.Ends
import Verif.Model.GdbMain
import Verif.Spec.GdbEnds

/-! gdb.py takes a process for ended only on the word of the kernel. -/

namespace PT
open Spec

variable {α β : Type} {K : Kern} {G : GdbCfg}

/-- A request for the object was refused. -/
def Refuse (s : DSt) (o : Nat) : Prop := o < s.next ∧ Denied s.log (s.heap o).pid

theorem Vouched.mono {T T' : Nat → Prop} {s : DSt} (h : Vouched T s) (hT : ∀ o, T o → T' o) : Vouched T' s :=
  ⟨fun o ho hr => (h.over o ho hr).imp id (Or.imp (hT o) id), h.dict, h.own, h.list⟩

/-- The invariant of gdb.py. -/
def Backed (s : DSt) : Prop := Vouched (Refuse s) s

theorem After.refuse {s t : DSt} (h : After s t) {o : Nat} (hx : Refuse s o) : Refuse t o := by
  refine ⟨h.later.lt hx.1, ?_⟩
  rw [h.pid o hx.1]
  obtain ⟨g, hg⟩ := h.later.log
  obtain ⟨e, he, hy⟩ := hx.2
  exact ⟨e, by rw [hg]; exact List.mem_append.2 (.inl he), hy⟩

theorem Sound.backed {s : DSt} {x : Except Exc α × DSt} {Q : α → DSt → Prop} (h : Sound (Refuse s) s x Q) : Backed x.2 := h.inv.mono fun _ => h.after.refuse

/-- Code of gdb.py that keeps it. -/
def Backs (m : Py GSt α) : Prop := ∀ g, Backed g.dbg → Backed (m g).2.dbg

theorem backs_pure (a : α) : Backs (Py.pure a : Py GSt α) := fun _ h => h
theorem backs_raise (e : Exc) : Backs (Py.raise e : Py GSt α) := fun _ h => h

theorem Backs.bind {m : Py GSt β} {f : β → Py GSt α} (hm : Backs m) (hf : ∀ b, Backs (f b)) : Backs (Py.bind m f) := by
  intro g h
  have h1 := hm g h
  unfold Py.bind
  rcases hx : m g with ⟨r, t⟩
  rw [hx] at h1
  cases r with
  | ok b => exact hf b t h1
  | error e => exact h1

theorem backs_at {m : GSt → Py GSt α} (h : ∀ g, Backs (m g)) : Backs (fun g => m g g) := fun g hg => h g g hg

theorem backs_lift {m : Py DSt α} {Q : α → DSt → Prop} (h : ∀ (T : Nat → Prop) s, Vouched T s → Sound T s (m s) Q) : Backs (PT.lift m) := fun _ hg => (h _ _ hg).backed

theorem backs_ite {p : Prop} [Decidable p] {a b : Py GSt α} (ha : Backs a) (hb : Backs b) : Backs (if p then a else b) := by
  split
  · exact ha
  · exact hb

theorem backs_look : Backs (look K) := fun g h => backs_lift (m := ptraceCall K (.inspect g.process (g.dbg.heap g.process).pid)) (fun _ _ h => sound_ptrace h _) g h
theorem backs_switch (o : Nat) : Backs (switchProcess o) := fun _ h => h
theorem backs_forget (o : Nat) : Backs (forget o) := fun _ h => h

theorem backs_signal (o n : Nat) : Backs (processSignal K o n) :=
  (backs_lift fun _ _ h => sound_display h o).bind fun _ => (backs_switch o).bind fun _ => fun _ h => h

theorem backs_continue (o n : Nat) : Backs (continueProcess K o n) := by
  intro g hg
  unfold continueProcess
  split
  · exact Backs.bind (backs_lift fun _ _ h => sound_cont h o _) (fun _ => backs_forget o) g hg
  · exact backs_lift (m := procCont K o 0) (fun _ _ h => sound_cont h o 0) g hg

theorem backs_contAll (n : Nat) : ∀ os, Backs (contAll K n os)
  | [] => backs_pure ()
  | o :: os => (backs_lift fun _ _ h => sound_updSys h o _).bind fun _ =>
    Backs.bind (backs_at fun g => backs_ite (p := o = g.process) (backs_continue o n) (backs_continue o 0)) fun _ => backs_contAll n os

theorem backs_contSignal (ev : Event) : Backs (contSignal K ev) := by
  cases ev with
  | signal o n => exact backs_ite (backs_look.bind fun _ => backs_pure _) ((backs_signal o n).bind fun _ => backs_pure _)
  | exit o a b => exact backs_pure _
  | newProcess o => exact backs_pure _
  | execution o => exact backs_pure _

theorem backs_cont (fuel n : Nat) : Backs (gdbCont K fuel n) :=
  fun g hg => Backs.bind (backs_contAll (K := K) n (iterate g.dbg)) (fun _ => Backs.bind (backs_lift (m := waitSignals K fuel [] none) fun _ _ h => sound_waitSignals fuel h [] none)
    fun ev => backs_contSignal ev) g hg

theorem backs_argError (e : Exc) : Backs (argError e) := backs_ite (backs_pure _) (backs_raise e)

theorem backs_gdbSignal (fuel : Nat) (arg : Str) : Backs (gdbSignal K fuel G arg) := by
  intro g h
  unfold gdbSignal
  split
  · exact backs_argError _ g h
  · exact backs_cont (K := K) fuel _ g h

theorem backs_attach (fuel : Nat) (arg : Str) : Backs (gdbAttach K fuel G arg) := by
  intro g h
  unfold gdbAttach
  split
  · exact backs_argError _ g h
  · rename_i pid _
    exact Backs.bind (backs_lift fun _ _ h => sound_add (sound_waitEventPid fuel) h pid false none false)
      (fun o => (backs_switch o).bind fun _ => backs_pure _) g h

theorem backs_stepWait (fuel : Nat) (b : Bool) : Backs (stepWait K fuel b) := by
  intro g h
  have hw := backs_lift (m := waitSignals K fuel [SIGTRAP] (some (g.dbg.heap g.process).pid)) (fun _ _ h => sound_waitSignals fuel h _ _) g h
  unfold stepWait
  split <;> rename_i e <;> rw [e] at hw
  · exact backs_ite (backs_look.bind fun _ => backs_pure _) (backs_pure _) _ hw
  · exact backs_ite (backs_look.bind fun _ => backs_raise _) (backs_raise _) _ hw

theorem backs_step (fuel : Nat) (enter : Bool) : Backs (gdbStep K fuel enter) :=
  backs_ite (Backs.bind (backs_at fun g => backs_lift fun _ _ h => sound_singleStep h g.process) fun _ => backs_stepWait fuel false)
    (backs_look.bind fun _ => backs_ite (backs_pure _)
      (Backs.bind (backs_at fun g => backs_lift fun _ _ h => sound_cont h g.process 0) fun _ => backs_stepWait fuel true))

theorem backs_until (fuel : Nat) (arg : Str) : Backs (gdbUntil K fuel G arg) := by
  intro g h
  unfold gdbUntil
  split
  · exact backs_argError _ g h
  · exact backs_step fuel false g h

theorem backs_sys (fuel : Nat) : Backs (gdbSys K fuel G) :=
  Backs.bind (backs_at fun g => backs_lift fun _ _ h => sound_syscall h g.process 0) fun _ =>
  Backs.bind (backs_at fun g => backs_lift fun _ _ h => sound_waitSyscall fuel h (some g.process)) fun _ =>
  Backs.bind (backs_at fun g => backs_lift fun _ _ h => sound_sysEvent fuel h G.sys g.process) fun _ => backs_pure _

theorem backs_gdbSwitch (arg : Str) : Backs (gdbSwitch G arg) := by
  intro g h
  unfold gdbSwitch gdbSwitchNext
  repeat' split
  all_goals first
    | exact h
    | exact backs_argError _ g h

theorem backs_execute (fuel : Nat) (c : Str) : Backs (gdbExecute K fuel G c) := by
  unfold gdbExecute
  cases parseCommand c with
  | cont => exact backs_cont fuel 0
  | signal arg => exact backs_gdbSignal fuel arg
  | attach arg => exact backs_attach fuel arg
  | step enter => exact backs_step fuel enter
  | «until» arg => exact backs_until fuel arg
  | sys => exact backs_sys fuel
  | switch arg => exact backs_gdbSwitch arg
  | look => exact backs_look.bind fun _ => backs_pure _
  | info => exact backs_pure _
  | unknown => exact backs_pure _

theorem sound_interruptSend {T : Nat → Prop} : ∀ (os : List Nat) (s : DSt), Vouched T s → Sound T s (interruptSend K os s) Any
  | [], _, h => sound_pure h _ trivial
  | o :: os, s, h => by
    unfold interruptSend
    split
    · exact sound_interruptSend os s h
    · refine Sound.bind (sound_ptrace h _) fun v t ht _ _ => ?_
      split
      · exact sound_interruptSend os t ht
      · exact Sound.bind (sound_kill ht o _) fun _ u hu _ _ => Sound.bind (sound_interruptSend os u hu) fun ws v hv _ _ => sound_pure hv _ trivial

theorem sound_interruptWait {T : Nat → Prop} (fuel : Nat) : ∀ (os : List Nat) (s : DSt), Vouched T s → Sound T s (interruptWait K fuel os s) Any
  | [], _, h => sound_pure h () trivial
  | o :: os, s, h => by
    refine Sound.bind (Q' := Any) ?_ fun _ t ht _ _ => sound_interruptWait fuel os t ht
    have hw := sound_waitSignals (K := K) fuel h [SIGINT] (some (s.heap o).pid)
    split <;> rename_i e <;> rw [e] at hw
    · exact .ok hw.inv hw.after trivial
    · exact (sound_display hw.inv _).base hw.after
    · exact .ok hw.inv hw.after trivial
    · exact .err hw.inv hw.after

theorem backs_interrupt (fuel : Nat) : Backs (gdbInterrupt K fuel) := by
  intro g h
  exact (Sound.bind (T := Refuse g.dbg) (sound_interruptSend (K := K) _ _ h) fun ws t ht _ _ => sound_interruptWait (K := K) fuel ws t ht).backed

theorem backs_next : Backs nextProcess := by
  intro g h
  unfold nextProcess
  split <;> exact h

theorem backs_delete (hG : ErrTold G) : Backs (fun g => gdbDeleteProcess K (G.errPid g.dbg) g) := by
  intro g h
  show Backed (gdbDeleteProcess K (G.errPid g.dbg) g).2.dbg
  unfold gdbDeleteProcess
  split
  · exact h
  · rename_i o ho
    have hm := dictGet_some ho
    have hown := h.own _ _ hm
    have hT : o < g.dbg.next → Allowed (Refuse g.dbg) g.dbg o := fun hlt => by
      rcases hG g.dbg with hz | hz
      · exact .inl (hown.1.trans hz)
      · exact .inr (.inl ⟨hlt, by rw [hown.1]; exact hz⟩)
    have ht := (sound_terminated (K := K) h o hT).backed
    unfold Py.bind
    rcases hx : PT.lift (processTerminated K o) g with ⟨r, t⟩
    have ht : Backed t.dbg := by
      have : t.dbg = (processTerminated K o g.dbg).2 := by
        unfold PT.lift at hx
        cases hx
        rfl
      rw [this]
      exact ht
    cases r with
    | error e => exact ht
    | ok _ =>
      dsimp only
      split
      · exact backs_next t ht
      · exact ht

theorem backs_except (hG : ErrTold G) (fuel : Nat) (e : Exc) : Backs (gdbExcept K fuel G e) := by
  cases e with
  | event ev =>
    cases ev with
    | newProcess o => exact backs_pure ()
    | signal o n => exact backs_signal o n
    | exit o a b => exact backs_next
    | execution o => exact (backs_switch o).bind fun _ => backs_interrupt fuel
  | interrupt => exact backs_interrupt fuel
  | ptrace errno =>
    intro g h
    show Backed ((if errno = some ESRCH then gdbDeleteProcess K (G.errPid g.dbg) g else (.ok (), g))).2.dbg
    split
    · exact backs_delete hG g h
    · exact h
  | _ => exact backs_raise _

theorem backs_line (fuel : Nat) : ∀ cs, Backs (runLine (gdbExecute K fuel G) G.space cs)
  | [] => backs_pure _
  | _ :: cs => (backs_execute fuel _).bind fun _ => backs_ite (backs_line fuel cs) (backs_pure _)

/-! ### the main loop -/

theorem mainLine_backed (hG : ErrTold G) (fuel : Nat) (line : Str) (s : Option Str × GSt) (h : Backed s.2.dbg) :
    Backed (mainLine (gdbExecute K fuel G) (gdbExcept K fuel G) G.space line s).2.2.dbg := by
  unfold mainLine
  split
  · exact h
  · have hr := backs_line (K := K) (G := G) fuel (splitOn ';' line) s.2 h
    split
    · rename_i e
      rw [e] at hr
      exact hr
    · rename_i x t e
      rw [e] at hr
      have he := backs_except (K := K) hG fuel x t hr
      split <;> rename_i e2 <;> rw [e2] at he <;> exact he

theorem gdbLoop_backed (hG : ErrTold G) (fuel : Nat) (x : Input) (s : Option Str × GSt) (h : Backed s.2.dbg) : Backed (gdbLoop K fuel G x s).2.2.dbg := by
  unfold gdbLoop mainLoop
  cases x with
  | eof => exact h
  | interrupt =>
    have hi := backs_interrupt (K := K) fuel s.2 h
    dsimp only
    split <;> rename_i e <;> rw [e] at hi <;> exact hi
  | line text =>
    dsimp only
    split
    · split
      · split
        · exact h
        · exact mainLine_backed hG fuel _ s h
      · exact h
    · exact mainLine_backed hG fuel _ s h

theorem gdbLines_backed (hG : ErrTold G) (fuel : Nat) : ∀ (inputs : List Input) (s : Option Str × GSt), Backed s.2.dbg → Backed (gdbLines K fuel G inputs s).2.2.dbg
  | [], s, h => by
    unfold gdbLines
    split
    · exact h
    · have h2 := gdbLoop_backed (K := K) hG fuel .eof s h
      unfold Py.bind
      rcases hm : gdbLoop K fuel G .eof s with ⟨r, t⟩
      rw [hm] at h2
      cases r <;> exact h2
  | x :: xs, s, h => by
    unfold gdbLines
    split
    · exact h
    · have h2 := gdbLoop_backed (K := K) hG fuel x s h
      unfold Py.bind
      rcases hm : gdbLoop K fuel G x s with ⟨r, t⟩
      rw [hm] at h2
      cases r with
      | error e => exact h2
      | ok done =>
        dsimp only
        split
        · exact h2
        · exact gdbLines_backed hG fuel xs t h2

theorem gdbMain_backed (hG : ErrTold G) (fuel : Nat) (pid : Nat) (a : Bool) (inputs : List Input) (s : DSt) (h : Backed s) :
    Backed (gdbMain K fuel G pid a inputs s).2 := by
  have hr : Backed (gdbRun K fuel G pid a inputs s).2 := by
    have hc := (sound_create (K := K) fuel h pid a).backed
    unfold gdbRun Py.bind
    rcases hx : createProcess K fuel pid a s with ⟨r, t⟩
    rw [hx] at hc
    cases r with
    | error e => exact hc
    | ok o =>
      cases o with
      | none => exact hc
      | some o => exact gdbLines_backed (K := K) hG fuel inputs (none, ⟨t, o, fun _ => none⟩) hc
  unfold gdbMain
  rcases hx : gdbRun K fuel G pid a inputs s with ⟨r, t⟩
  rw [hx] at hr
  have key : ∀ m : Py DSt (Option (List Input)), Sound (Refuse t) t (m t) Any →
      Backed (Py.bind m (fun rest => Py.bind (quit K fuel) fun _ => Py.pure rest) t).2 := fun m hm =>
    (Sound.bind hm fun rest u hu _ _ => Sound.bind (sound_quit (K := K) fuel hu) fun _ v hv _ _ => sound_pure hv rest (Q := Any) trivial).backed
  refine key _ ?_
  cases r with
  | ok rest => exact sound_pure hr _ trivial
  | error e =>
    cases e with
    | diverge => exact .err hr (.refl _)
    | _ => exact sound_pure hr _ trivial

end PT
