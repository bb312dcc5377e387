import Verif.Lemmas.Strace
import Verif.Lemmas.AsksGdb2
import Verif.Spec.Kills

/-! Signals sent by kill(2) go to processes that the debugger has. -/

namespace PT
open Spec

variable {α β : Type} {K : Kern} {N : Nat → Prop} {D : Nat → Prop} {s t : DSt}

/-- Labels: signals go to registered processes; `D`: processes that may be detached while they are running. -/
def ownActs (N : Nat → Prop) (D : Nat → Prop) (s : DSt) : Act → Prop
  | .delete o => D o ∧ regActs s (.delete o)
  | .reattach o => o ∈ s.list
  | .call (.kill o _ n) => o ∈ s.list ∧ N n
  | .detachRun o => D o
  | .detachFail o => D o
  | _ => True

abbrev ownRules (K : Kern) (N : Nat → Prop) (D : Nat → Prop) : Rules K := Rules.plain K (ownActs N D)

theorem own_wait (s : DSt) (a : Act) (h : waitActs True a) : ownActs N D s a := by
  unfold waitActs at h
  split at h <;> first | exact trivial | exact h.elim

theorem own_reg (s : DSt) (a : Act) (h : ownActs N D s a) : regActs s a := by
  cases a <;> first | exact trivial | exact h.2 | exact h

theorem KillsOwn.snoc {log : List Entry} {e : Entry} (h : KillsOwn N log) (he : ∀ o p n, e.call = .kill o p n → (p, o) ∈ e.dict ∧ N n) : KillsOwn N (log ++ [e]) := by
  intro x hx
  rcases List.mem_append.1 hx with hx | hx
  · exact h x hx
  · rw [List.mem_singleton.1 hx]
    exact he

theorem own_step {a : Act} (hp : ownActs N D s a) (hs : Step K a s t) (hr : RegInv s) (h : KillsOwn N s.log) : KillsOwn N t.log := by
  cases hs with
  | call c hc =>
    refine KillsOwn.snoc h fun o p n he => ?_
    dsimp only at he
    subst he
    have hc : p = (s.heap o).pid := hc
    have hp : o ∈ s.list ∧ N n := hp
    exact ⟨(hr.agree _ _).2 ⟨hp.1, hc.symm⟩, hp.2⟩
  | attachFail o pid hk => exact KillsOwn.snoc h fun _ _ _ he => nomatch he
  | detachRun o ha hr hk => exact KillsOwn.snoc h fun _ _ _ he => nomatch he
  | detachFail o ha hr hk => exact KillsOwn.snoc h fun _ _ _ he => nomatch he
  | addAttach pid parent th hd hk => exact KillsOwn.snoc h fun _ _ _ he => nomatch he
  | reattach o ha hk => exact KillsOwn.snoc h fun _ _ _ he => nomatch he
  | _ => exact h

/-- What is kept. -/
structure Owns (N : Nat → Prop) (s : DSt) : Prop where
  reg : RegInv s
  log : KillsOwn N s.log

theorem Owns.steps (h : Owns N s) (hs : Steps K (ownActs N D) s t) : Owns N t := by
  induction hs with
  | refl => exact h
  | step a _ hp hst ih => exact ⟨RegInv.step (own_reg _ _ hp) hst ih.reg, own_step hp hst ih.reg ih.log⟩

/-- A process that is running is registered. -/
def OwnHeld (s : DSt) (q : Nat) : Prop := q < s.next ∧ ((s.heap q).running = true → q ∈ s.list)

theorem ownHeld_proc {q o : Nat} {x : Proc} (h : OwnHeld s q) (hx : x.running = true → (s.heap o).running = true) : OwnHeld (setProc s o x) q := by
  refine ⟨h.1, fun hq => ?_⟩
  rw [setProc_heap] at hq
  split at hq
  · rename_i he
    subst he
    exact h.2 (hx hq)
  · exact h.2 hq

theorem ownHeld_unreg {q o : Nat} (h : OwnHeld s q) (ho : q = o → (s.heap o).running = false) : OwnHeld (unreg o s) q := by
  refine ⟨h.1, fun hq => ?_⟩
  have hq : (s.heap q).running = true := hq
  have hne : q ≠ o := fun he => by
    have := ho he
    rw [← he, hq] at this
    cases this
  exact (List.mem_erase_of_ne hne).2 (h.2 hq)

theorem ownHeld_add {q : Nat} {x : Proc} {d : List (Nat × Nat)} (h : OwnHeld s q) :
    OwnHeld { setProc s s.next x with next := s.next + 1, dict := d, list := s.list ++ [s.next] } q := by
  refine ⟨Nat.lt_succ_of_lt h.1, fun hq => List.mem_append.2 (.inl (h.2 ?_))⟩
  have hq : ((setProc s s.next x).heap q).running = true := hq
  rw [setProc_heap, if_neg (Nat.ne_of_lt h.1)] at hq
  exact hq

theorem ownHeld_step {a : Act} {q : Nat} (hD : ¬ D q) (hp : ownActs N D s a) (hs : Step K a s t) (h : OwnHeld s q) : OwnHeld t q := by
  cases hs with
  | call c hc => exact h
  | attachFail o pid hk => exact h
  | detachRun o ha hr hk =>
    have hp : D o := hp
    have hne : q ≠ o := fun he => hD (he ▸ hp)
    exact ownHeld_unreg (s := logCall K _ (setProc s o _)) (ownHeld_proc (s := s) h fun _ => hr) fun he => absurd he hne
  | detachDead o ha hr =>
    refine ownHeld_unreg (ownHeld_proc h fun hx => hx) fun he => ?_
    rw [setProc_same]
    exact hr
  | detachFail o ha hr hk => exact ownHeld_proc (s := s) h fun _ => hr
  | stopRun o => exact ownHeld_proc h fun hx => nomatch hx
  | unattach o => exact ownHeld_proc h fun hx => hx
  | stopped o b => exact ownHeld_proc h fun hx => hx
  | sys o ss => exact ownHeld_proc h fun hx => hx
  | addAttached pid parent th hd => exact ownHeld_add h
  | addAttach pid parent th hd hk => exact ownHeld_add (s := logCall K _ s) h
  | options bits a b c d => exact h
  | delete o =>
    have hp : D o ∧ regActs s (.delete o) := hp
    exact ownHeld_unreg h fun he => absurd hp.1 (he ▸ hD)
  | reattach o ha hk => exact ownHeld_proc (s := logCall K _ s) h fun hx => hx

theorem ownHeld_steps {q : Nat} (hD : ¬ D q) (hs : Steps K (ownActs N D) s t) (h : OwnHeld s q) : OwnHeld t q :=
  hs.invariant (fun _ _ _ hp hst hi => ownHeld_step hD hp hst hi) h

/-! ### quit -/

theorem own_kill (o n : Nat) (hn : N n) (ho : o ∈ s.list) : Steps K (ownActs N D) s (procKill K o n s).2 := by
  have hl : Steps K (ownActs N D) s (logCall K (.kill o (s.heap o).pid n) s) :=
    .one (a := .call (.kill o (s.heap o).pid n)) (show o ∈ s.list ∧ N n from ⟨ho, hn⟩) (.call _ rfl)
  unfold procKill Py.bind
  rw [osCall_run]
  cases osRes (K s.log (.kill o (s.heap o).pid n)) <;> exact hl

theorem own_terminate (hN : N SIGKILL) (fuel o : Nat) (w : Bool) (h : OwnHeld s o) : Steps K (ownActs N D) s (terminate K fuel o w s).2 := by
  unfold terminate
  split
  · exact .refl s
  · rename_i hr
    have hrun : (s.heap o).running = true := by
      cases hx : (s.heap o).running with
      | true => rfl
      | false => simp [hx] at hr
    refine steps_bind (S := ownRules K N D) (by exact trivial) ?_ fun done u _ _ => ?_
    · unfold terminateKill
      have hk : Steps K (ownActs N D) s ((if (s.heap o).isStopped then procCont K o SIGKILL else procKill K o SIGKILL) s).2 := by
        split
        · exact procCont_sat (S := ownRules K N D) o _ (fun _ _ => trivial) (fun _ => trivial) s trivial
        · exact own_kill o SIGKILL hN (h.2 hrun)
      generalize (if (s.heap o).isStopped then procCont K o SIGKILL else procKill K o SIGKILL) s = x at hk ⊢
      obtain ⟨r, s'⟩ := x
      cases r with
      | ok a => exact hk
      | error e =>
        dsimp only
        split <;> exact hk
    · refine Sat.ite (S := ownRules K N D) (fun _ => Sat.pure _) (fun _ => ?_) u trivial
      refine Sat.bind (Sat.ite (fun _ => Sat.pure _) (fun _ => waitExit_sat (S := ownRules K N D) own_wait o (fun _ _ => .inr trivial) (fun _ _ _ => trivial)
        (fun _ => trivial) _ _)) fun _ => ?_
      exact Sat.bind (notRunning_sat o (fun _ => trivial) (fun _ => trivial)) fun _ => Sat.pure _

theorem own_quitLoop (hN : N SIGKILL) (fuel : Nat) : ∀ os s, os.Nodup → (∀ o ∈ os, OwnHeld s o) → Owns N s → Owns N (quitLoop K fuel os s).2
  | [], _, _, _, h => h
  | o :: os, s, hn, hh, h => by
    have hn' := List.nodup_cons.1 hn
    have h1 : Steps K (ownActs N (· = o)) s (terminate K fuel o true s).2 := own_terminate hN fuel o true (hh o List.mem_cons_self)
    have hrest : ∀ {u : DSt}, Steps K (ownActs N (· = o)) s u → ∀ q ∈ os, OwnHeld u q := fun hu q hq =>
      ownHeld_steps (D := (· = o)) (fun he => hn'.1 (he ▸ hq)) hu (hh q (List.mem_cons_of_mem _ hq))
    unfold quitLoop Py.bind
    generalize terminate K fuel o true s = x at h1
    obtain ⟨r, u⟩ := x
    cases r with
    | error e => exact h.steps h1
    | ok b =>
      dsimp only
      have h2 : Steps K (ownActs N (· = o)) u (detach K o u).2 := detach_sat (S := ownRules K N (· = o)) o (fun _ => trivial) (fun _ => rfl) (fun _ => rfl) u trivial
      generalize detach K o u = y at h2
      obtain ⟨r2, w⟩ := y
      cases r2 with
      | error e => exact (h.steps h1).steps h2
      | ok _ => exact own_quitLoop hN fuel os w hn'.2 (hrest (h1.trans h2)) ((h.steps h1).steps h2)

theorem own_quit (hN : N SIGKILL) (fuel : Nat) (h : Owns N s) : Owns N (quit K fuel s).2 :=
  own_quitLoop hN fuel _ s (List.pairwise_reverse.2 (h.reg.nodup.imp Ne.symm)) (fun o ho => ⟨h.reg.alloc o (List.mem_reverse.1 ho), fun _ => List.mem_reverse.1 ho⟩) h

/-! ### the library -/

theorem own_runOp (fuel : Nat) (op : Op) (hop : ProperKill s op) (h : Owns (fun _ => True) s) : Owns (fun _ => True) (runOp K fuel op s).2 := by
  let S := ownRules K (fun _ => True) (fun _ => True)
  have hw : ∀ t a, waitActs S.Z a → S.P t a := own_wait
  have hI : S.I s := trivial
  have hq : ∀ o ∈ s.list, OwnHeld s o := fun o ho => ⟨h.reg.alloc o ho, fun _ => ho⟩
  have fin : Steps K S.P s (runOp K fuel op s).2 → Owns (fun _ => True) (runOp K fuel op s).2 := h.steps
  cases op with
  | addProcess pid a parent th =>
    exact fin (void_sat (addProcess_sat (S := S) hw (waitEventPid_sat hw fuel) _ (.inr trivial) _ _ _ (fun _ _ => trivial) fun _ _ _ => trivial) s hI)
  | deleteProcess o =>
    exact fin (onObj_steps (S := S) hI fun _ => delete_steps (S := S) o s ⟨trivial, hop.1.1, .inl hop.1.2⟩)
  | deletePid pid =>
    refine fin ?_
    show Steps K S.P s (deletePid pid s).2
    unfold deletePid
    cases hg : dictGet s.dict pid with
    | none => exact .refl s
    | some o =>
      have hm : o ∈ s.list := ((h.reg.agree _ _).1 (dictGet_some hg)).1
      exact delete_steps (S := S) o s ⟨trivial, hop.1 o hg, .inl hm⟩
  | quit => exact own_quit trivial fuel h
  | waitProcessEvent pid b => exact fin (void_sat (waitProcessEvent_sat (S := S) hw (fun _ => trivial) (fun _ _ _ _ => .inr trivial) _ _ (.inr trivial) _) s hI)
  | waitSignals sigs pid => exact fin (void_sat (waitSignals_sat (S := S) hw (fun _ => trivial) (fun _ _ _ _ => .inr trivial) _ _ _ (.inr trivial)) s hI)
  | waitSyscall o =>
    cases o with
    | none => exact fin (void_sat (fun t ht => waitSignals_sat (S := S) hw (fun _ => trivial) (fun _ _ _ _ => .inr trivial) _ _ _ (.inr trivial) t ht) s hI)
    | some o => exact fin (onObj_steps (S := S) hI fun _ => waitSignals_sat (S := S) hw (fun _ => trivial) (fun _ _ _ _ => .inr trivial) _ _ _ (.inr trivial) s hI)
  | traceFork => exact fin (.one (a := .options _) trivial (.options _ _ _ _ _))
  | traceExec => exact fin (.one (a := .options _) trivial (.options _ _ _ _ _))
  | traceClone => exact fin (.one (a := .options _) trivial (.options _ _ _ _ _))
  | enableSysgood => exact fin (.one (a := .options _) trivial (.options _ _ _ _ _))
  | attach o =>
    refine fin (onObj_steps (S := S) hI fun _ => ?_)
    unfold procAttach
    by_cases hat : (s.heap o).isAttached = true
    · rw [if_pos hat]; exact .refl s
    · rw [if_neg hat]
      have ha' : (s.heap o).isAttached = false := by simpa using hat
      unfold Py.bind
      rw [ptraceCall_run]
      cases hr : ptraceRes (K s.log (.attach o (s.heap o).pid)) with
      | ok v =>
        obtain ⟨st, hst⟩ := ptraceRes_ok hr
        exact .one (a := .reattach o) hop.1 (.reattach o ha' hst)
      | error e => exact .one (a := .call (.attach o (s.heap o).pid)) trivial (.attachFail o _ (ptraceRes_err hr))
  | detach o => exact fin (onObj_sat o (detach_sat (S := S) o (fun _ => trivial) (fun _ => trivial) fun _ => trivial) s hI)
  | cont o n => exact fin (onObj_sat o (procCont_sat (S := S) o _ (fun _ _ => trivial) fun _ => trivial) s hI)
  | syscall o n => exact fin (onObj_sat o (procSyscall_sat (S := S) o _ (fun _ _ => trivial) fun _ => trivial) s hI)
  | singleStep o => exact fin (onObj_sat o (procSingleStep_sat (S := S) o fun _ _ => trivial) s hI)
  | kill o n => exact fin (onObj_steps (S := S) hI fun _ => own_kill o n trivial hop.2)
  | setoptions o n => exact fin (onObj_sat o (procSetoptions_sat (S := S) o _ fun _ _ => trivial) s hI)
  | terminate o w => exact fin (onObj_steps (S := S) hI fun _ => own_terminate trivial fuel o w (hq o hop.2))
  | waitExit o => exact fin (onObj_steps (S := S) hI fun _ => waitExit_sat (S := S) hw o (fun _ _ => .inr trivial) (fun _ _ _ => trivial) (fun _ => trivial) _ _ s hI)
  | processTerminated o => exact fin (onObj_sat o (Sat.bind (notRunning_sat (S := S) o (fun _ => trivial) fun _ => trivial) fun _ => Sat.pure _) s hI)

/-! ### strace.py -/

abbrev Mild (K : Kern) (N : Nat → Prop) (m : Py DSt α) : Prop := Sat (ownRules K N fun _ => False) m

theorem mild_cont (o n : Nat) : Mild K N (procCont K o n) := procCont_sat o n (fun _ _ => trivial) fun _ => trivial

theorem mild_syscall (o n : Nat) : Mild K N (procSyscall K o n) := procSyscall_sat o n (fun _ _ => trivial) fun _ => trivial

theorem mild_step (o : Nat) : Mild K N (procSingleStep K o) := procSingleStep_sat o fun _ _ => trivial

theorem mild_display (o : Nat) : Mild K N (eventDisplay K o) := eventDisplay_sat o fun _ _ => trivial

theorem mild_updSys (o : Nat) (f : SysState → SysState) : Mild K N (updSys o f) := fun _ _ => .one (a := .sys o) trivial (.sys o _)

theorem mild_signals (fuel : Nat) (sigs : List Nat) (p : Option Nat) : Mild K N (waitSignals K fuel sigs p) :=
  waitSignals_sat own_wait (fun _ => trivial) (fun _ _ _ _ => .inr trivial) fuel sigs p (.inr trivial)

theorem mild_sysWait (fuel : Nat) (p : Option Nat) : Mild K N (waitSyscall K fuel p) := fun s h => by
  unfold waitSyscall
  split
  · exact mild_signals _ _ _ s h
  · exact mild_signals _ _ _ s h

theorem mild_event (fuel : Nat) (C : SysCfg) (o : Nat) : Mild K N (sysEvent K fuel C o) := fun s _ =>
  (sysEvent_steps fuel C o s).mono fun s a h => by
    unfold sysActs at h
    split at h <;> first | exact trivial | exact own_wait s a h

theorem mild_add (fuel pid : Nat) (a : Bool) (parent : Option Nat) (th : Bool) : Mild K N (addProcess K (waitEventPid K fuel) pid a parent th) :=
  addProcess_sat own_wait (fun p b _ => waitEventPid_sat own_wait fuel p b (.inr trivial)) pid (.inr trivial) a parent th (fun _ _ => trivial) fun _ _ _ => trivial

theorem mild_create (fuel pid : Nat) (a : Bool) : Mild K N (createProcess K fuel pid a) := fun s _ => by
  have h := mild_add (K := K) (N := N) fuel pid a none false s trivial
  unfold createProcess
  generalize addProcess K (waitEventPid K fuel) pid a none false s = x at h
  obtain ⟨r, t⟩ := x
  split <;> (rename_i hx; injection hx with h1 h2; subst h2; exact h)

theorem mild_exited (C : StraceCfg) (o : Nat) : Mild K N (processExited K C o) := fun s h => by
  unfold processExited
  split
  · exact mild_display o s h
  · exact .refl s

theorem mild_straceSyscall (fuel : Nat) (C : StraceCfg) (o : Nat) : Mild K N (straceSyscall K fuel C o) :=
  Sat.bind (mild_event fuel C.sys o) fun _ => Sat.bind (Sat.ite (fun _ => mild_display o) fun _ => Sat.pure _) fun _ => mild_syscall o 0

theorem mild_prepare (o : Nat) : Mild K N (prepareProcess K o) := Sat.bind (mild_syscall o 0) fun _ => mild_updSys o _

theorem mild_new (q : Nat) : Mild K N (straceNewProcess K q) := Sat.bind (mild_prepare q) fun _ s h => by
  split
  · exact mild_syscall _ _ s h
  · exact .refl s

theorem mild_handle (fuel : Nat) (C : StraceCfg) (r : Except Exc Event) (code : Nat) : Mild K N (straceHandle K fuel C r code) := by
  unfold straceHandle
  split
  · exact Sat.bind (mild_straceSyscall _ _ _) fun _ => Sat.pure _
  · exact Sat.bind (mild_exited _ _) fun _ => Sat.pure _
  · exact Sat.bind (mild_display _) fun _ => Sat.bind (mild_syscall _ _) fun _ => Sat.pure _
  · exact Sat.bind (mild_new _) fun _ => Sat.pure _
  · exact Sat.bind (mild_syscall _ _) fun _ => Sat.pure _
  · exact Sat.raise _

theorem mild_turn (fuel : Nat) (C : StraceCfg) (code : Nat) : Mild K N (straceTurn K fuel C code) := fun s _ =>
  (mild_sysWait fuel none s trivial).trans (mild_handle fuel C _ code _ trivial)

theorem mild_loop (fuel : Nat) (C : StraceCfg) : ∀ n code, Mild K N (straceLoop K fuel C n code)
  | 0, _ => Sat.raise _
  | n + 1, code => fun s h => by
    rw [straceLoop]
    dsimp only
    split
    · exact .refl s
    · exact Sat.bind (mild_turn fuel C code) (fun c => mild_loop fuel C n c) s h

theorem mild_straceRun (fuel : Nat) (C : StraceCfg) (pid : Nat) (a : Bool) : Mild K N (straceRun K fuel C pid a) :=
  Sat.bind (mild_create fuel pid a) fun o => by
    cases o with
    | none => exact Sat.pure _
    | some o => exact Sat.bind (Sat.bind (mild_prepare o) fun _ => mild_loop fuel C fuel 0) fun _ => Sat.pure _

theorem mild_straceExcept (C : StraceCfg) (e : Exc) : Mild K N (straceExcept K C e) := by
  unfold straceExcept
  split
  · exact Sat.bind (mild_exited _ _) fun _ => Sat.pure _
  · exact Sat.pure _
  · exact Sat.raise _
  · exact Sat.pure _

/-- At the end everything is left. -/
theorem own_finish (hN : N SIGKILL) (fuel : Nat) {m : Py DSt α} (hm : Mild K N m) (h : Owns N s) :
    Owns N (Py.bind m (fun code => Py.bind (quit K fuel) fun _ => Py.pure code) s).2 := by
  have h1 := h.steps (hm s trivial)
  unfold Py.bind
  generalize m s = x at h1
  obtain ⟨r, t⟩ := x
  cases r with
  | error e => exact h1
  | ok a =>
    dsimp only
    have h2 := own_quit (K := K) hN fuel h1
    generalize quit K fuel t = y at h2
    obtain ⟨r2, u⟩ := y
    cases r2 <;> exact h2

theorem own_straceMain (hN : N SIGKILL) (fuel : Nat) (C : StraceCfg) (pid : Nat) (a : Bool) (h : Owns N s) : Owns N (straceMain K fuel C pid a s).2 := by
  have h1 := h.steps (mild_straceRun (K := K) fuel C pid a s trivial)
  unfold straceMain
  generalize straceRun K fuel C pid a s = x at h1
  obtain ⟨r, t⟩ := x
  refine own_finish hN fuel ?_ h1
  split
  · exact Sat.pure _
  · exact mild_straceExcept _ _

/-! ### gdb.py -/

variable {G : GdbCfg}

/-- As `Mild`, for functions of gdb.py. -/
def GMild (K : Kern) (N : Nat → Prop) (m : Py GSt α) : Prop := ∀ g, Steps K (ownActs N fun _ => False) g.dbg (m g).2.dbg

theorem GMild.pure (a : α) : GMild K N (Py.pure a : Py GSt α) := fun _ => .refl _

theorem GMild.raise (e : Exc) : GMild K N (Py.raise e : Py GSt α) := fun _ => .refl _

theorem GMild.bind {m : Py GSt α} {f : α → Py GSt β} (hm : GMild K N m) (hf : ∀ a, GMild K N (f a)) : GMild K N (Py.bind m f) := fun g => by
  have h := hm g
  unfold Py.bind
  generalize m g = x at h
  obtain ⟨r, t⟩ := x
  cases r with
  | ok a => exact h.trans (hf a t)
  | error e => exact h

theorem GMild.lift {m : Py DSt α} (h : Mild K N m) : GMild K N (PT.lift m) := fun g => h g.dbg trivial

theorem gmild_look : GMild K N (look K) := fun g => ptraceCall_sat (S := ownRules K N fun _ => False) (c := .inspect _ _) (fun _ => trivial) g.dbg rfl

theorem gmild_switch (o : Nat) : GMild K N (switchProcess o) := fun _ => .refl _

theorem gmild_forget (o : Nat) : GMild K N (forget o) := fun _ => .refl _

theorem gmild_signal (o n : Nat) : GMild K N (processSignal K o n) := by
  unfold processSignal
  exact GMild.bind (GMild.lift (mild_display o)) fun _ => fun _ => .refl _

theorem gmild_continue (o n : Nat) : GMild K N (continueProcess K o n) := fun g => by
  unfold continueProcess
  split
  · exact GMild.bind (GMild.lift (mild_cont _ _)) (fun _ => gmild_forget o) g
  · exact GMild.lift (mild_cont _ _) g

theorem gmild_contAll (n : Nat) : ∀ os, GMild K N (contAll K n os)
  | [] => GMild.pure _
  | o :: os => GMild.bind (GMild.lift (mild_updSys o _)) fun _ => GMild.bind (fun g => by
      split <;> exact gmild_continue _ _ g) fun _ => gmild_contAll n os

theorem gmild_contSignal (ev : Event) : GMild K N (contSignal K ev) := by
  unfold contSignal
  split
  · split
    · exact GMild.bind gmild_look fun _ => GMild.pure _
    · exact GMild.bind (gmild_signal _ _) fun _ => GMild.pure _
  · exact GMild.pure _

theorem gmild_cont (fuel n : Nat) : GMild K N (gdbCont K fuel n) := fun g =>
  GMild.bind (gmild_contAll n _) (fun _ => GMild.bind (GMild.lift (mild_signals fuel [] none)) gmild_contSignal) g

theorem gmild_arg (e : Exc) : GMild K N (argError e) := by
  unfold argError
  split
  · exact GMild.pure _
  · exact GMild.raise _

theorem gmild_gdbSignal (fuel : Nat) (arg : Str) : GMild K N (gdbSignal K fuel G arg) := fun g => by
  unfold gdbSignal
  split
  · exact gmild_arg _ g
  · exact gmild_cont fuel _ g

theorem gmild_attach (fuel : Nat) (arg : Str) : GMild K N (gdbAttach K fuel G arg) := fun g => by
  unfold gdbAttach
  split
  · exact gmild_arg _ g
  · exact GMild.bind (GMild.lift (mild_add fuel _ _ _ _)) (fun o => GMild.bind (gmild_switch o) fun _ => GMild.pure _) g

theorem gmild_stepWait (fuel : Nat) (b : Bool) : GMild K N (stepWait K fuel b) := fun g => by
  have h := GMild.lift (K := K) (N := N) (mild_signals fuel [SIGTRAP] (some (g.dbg.heap g.process).pid)) g
  unfold stepWait
  generalize lift (waitSignals K fuel [SIGTRAP] (some (g.dbg.heap g.process).pid)) g = x at h
  obtain ⟨r, t⟩ := x
  refine h.trans ?_
  cases r with
  | ok ev =>
    dsimp only
    split
    · exact GMild.bind gmild_look (fun _ => GMild.pure _) t
    · exact .refl _
  | error e =>
    dsimp only
    split
    · exact GMild.bind gmild_look (fun _ => GMild.raise _) t
    · exact .refl _

theorem gmild_step (fuel : Nat) (enter : Bool) : GMild K N (gdbStep K fuel enter) := by
  unfold gdbStep
  split
  · exact GMild.bind (fun g => GMild.lift (mild_step g.process) g) fun _ => gmild_stepWait fuel false
  · refine GMild.bind gmild_look fun v => ?_
    split
    · exact GMild.pure _
    · exact GMild.bind (fun g => GMild.lift (mild_cont g.process 0) g) fun _ => gmild_stepWait fuel true

theorem gmild_sys (fuel : Nat) : GMild K N (gdbSys K fuel G) :=
  GMild.bind (fun g => GMild.lift (mild_syscall g.process 0) g) fun _ => GMild.bind (fun g => GMild.lift (mild_sysWait fuel (some g.process)) g) fun _ =>
    GMild.bind (fun g => GMild.lift (mild_event fuel G.sys g.process) g) fun _ => GMild.pure _

theorem gmild_gdbSwitch (arg : Str) : GMild K N (gdbSwitch G arg) := fun g => by
  unfold gdbSwitch
  split
  · unfold gdbSwitchNext
    split
    · exact .refl _
    · split
      · exact .refl _
      · split
        · exact .refl _
        · exact .refl _
  · split
    · exact gmild_arg _ g
    · split
      · exact .refl _
      · exact .refl _

theorem gmild_until (fuel : Nat) (arg : Str) : GMild K N (gdbUntil K fuel G arg) := fun g => by
  unfold gdbUntil
  split
  · exact gmild_arg _ g
  · exact gmild_step fuel false g

theorem gmild_execute (fuel : Nat) (c : Str) : GMild K N (gdbExecute K fuel G c) := by
  unfold gdbExecute
  cases parseCommand c with
  | cont => exact gmild_cont fuel 0
  | signal arg => exact gmild_gdbSignal fuel arg
  | attach arg => exact gmild_attach fuel arg
  | step enter => exact gmild_step fuel enter
  | «until» arg => exact gmild_until fuel arg
  | sys => exact gmild_sys fuel
  | switch arg => exact gmild_gdbSwitch arg
  | look => exact GMild.bind gmild_look fun _ => GMild.pure _
  | info => exact GMild.pure _
  | unknown => exact GMild.pure _

theorem gmild_line (fuel : Nat) : ∀ ps, GMild K N (runLine (gdbExecute K fuel G) G.space ps)
  | [] => GMild.pure _
  | p :: ps => GMild.bind (gmild_execute fuel _) fun ok => by
    cases ok with
    | true => exact gmild_line fuel ps
    | false => exact GMild.pure _

/-- Control-C: the processes are those of the list, which does not change meanwhile. -/
theorem own_send (hN : N SIGINT) : ∀ os s, (∀ o ∈ os, o ∈ s.list) → Steps K (ownActs N fun _ => False) s (interruptSend K os s).2
  | [], s, _ => .refl s
  | o :: os, s, h => by
    have hrest : ∀ {u : DSt}, u.list = s.list → ∀ q ∈ os, q ∈ u.list := fun hu q hq => hu ▸ h q (List.mem_cons_of_mem _ hq)
    rw [interruptSend]
    dsimp only
    split
    · exact own_send hN os s (hrest rfl)
    · refine steps_bind (S := ownRules K N fun _ => False) (by exact trivial) (ptraceCall_sat (S := ownRules K N fun _ => False) (c := .inspect _ _) (fun _ => trivial) s rfl)
        fun v u hu _ => ?_
      rw [ptraceCall_run] at hu
      injection hu with _ hu
      subst hu
      split
      · exact own_send hN os _ (hrest rfl)
      · refine steps_bind (S := ownRules K N fun _ => False) (by exact trivial) (own_kill o SIGINT hN (h o List.mem_cons_self)) fun _ u hu _ => ?_
        have hl : u.list = s.list := by
          unfold procKill Py.bind at hu
          rw [osCall_run] at hu
          have hu := congrArg Prod.snd hu
          cases hk : osRes (K (logCall K (.inspect o (s.heap o).pid) s).log (.kill o ((logCall K (.inspect o (s.heap o).pid) s).heap o).pid SIGINT)) with
          | ok _ => rw [hk] at hu; exact (congrArg DSt.list hu).symm
          | error _ => rw [hk] at hu; exact (congrArg DSt.list hu).symm
        exact steps_bind (S := ownRules K N fun _ => False) (by exact trivial) (own_send hN os u (hrest hl)) fun _ w _ _ => .refl w

theorem mild_interruptWait (fuel : Nat) : ∀ os, Mild K N (interruptWait K fuel os)
  | [] => Sat.pure _
  | o :: os => Sat.bind (fun s h => by
      have hw := mild_signals (K := K) (N := N) fuel [SIGINT] (some (s.heap o).pid) s h
      generalize hx : waitSignals K fuel [SIGINT] (some (s.heap o).pid) s = x at hw
      obtain ⟨r, t⟩ := x
      refine hw.trans ?_
      cases r with
      | ok _ => exact .refl _
      | error e =>
        cases e with
        | event ev =>
          cases ev with
          | signal q n => exact mild_display q t trivial
          | _ => exact .refl _
        | _ => exact .refl _) fun _ => mild_interruptWait fuel os

theorem gmild_interrupt (hN : N SIGINT) (fuel : Nat) : GMild K N (gdbInterrupt K fuel) := fun g =>
  steps_bind (S := ownRules K N fun _ => False) (by exact trivial) (own_send hN _ g.dbg fun _ h => h) fun os u _ _ => mild_interruptWait fuel os u trivial

theorem gmild_next : GMild K N nextProcess := fun g => by
  unfold nextProcess
  split <;> exact .refl _

theorem gmild_except (hN : N SIGINT) (fuel : Nat) (e : Exc) : GMild K N (gdbExcept K fuel G e) := by
  cases e with
  | interrupt => exact gmild_interrupt hN fuel
  | event ev =>
    cases ev with
    | newProcess q => exact GMild.pure _
    | signal o n => exact gmild_signal o n
    | exit o a b => exact gmild_next
    | execution o => exact GMild.bind (gmild_switch o) fun _ => gmild_interrupt hN fuel
  | ptrace errno =>
    intro g
    show Steps K _ g.dbg ((if errno = some ESRCH then gdbDeleteProcess K (G.errPid g.dbg) g else (.ok (), g)) : Except Exc Unit × GSt).2.dbg
    split
    · unfold gdbDeleteProcess
      split
      · exact .refl _
      · refine GMild.bind (GMild.lift (m := processTerminated K _) (Sat.bind (notRunning_sat _ (fun _ => trivial) (fun _ => trivial)) fun _ => Sat.pure _)) (fun _ g' => ?_) g
        split
        · exact gmild_next g'
        · exact .refl _
    · exact .refl _
  | _ => exact GMild.raise _

/-- The main loop. -/
def LMild (K : Kern) (N : Nat → Prop) (m : Py (Option Str × GSt) α) : Prop := ∀ s, Steps K (ownActs N fun _ => False) s.2.dbg (m s).2.2.dbg

theorem lmild_line (hN : N SIGINT) (fuel : Nat) (c : Str) : LMild K N (mainLine (gdbExecute K fuel G) (gdbExcept K fuel G) G.space c) := fun s => by
  have h := gmild_line (K := K) (N := N) (G := G) fuel (splitOn ';' c) s.2
  unfold mainLine
  split
  · exact .refl _
  · generalize runLine (gdbExecute K fuel G) G.space (splitOn ';' c) s.2 = x at h
    obtain ⟨r, t⟩ := x
    cases r with
    | ok _ => exact h
    | error e =>
      dsimp only
      refine h.trans ?_
      have hx := gmild_except (K := K) (G := G) hN fuel e t
      generalize gdbExcept K fuel G e t = y at hx
      obtain ⟨r2, u⟩ := y
      cases r2 <;> exact hx

theorem lmild_loop (hN : N SIGINT) (fuel : Nat) (input : Input) : LMild K N (gdbLoop K fuel G input) := fun s => by
  unfold gdbLoop mainLoop
  cases input with
  | eof => exact .refl _
  | interrupt =>
    dsimp only
    have hx := gmild_interrupt (K := K) hN fuel s.2
    generalize gdbInterrupt K fuel s.2 = y at hx
    obtain ⟨r2, u⟩ := y
    cases r2 <;> exact hx
  | line text =>
    dsimp only
    split
    · split
      · split
        · exact .refl _
        · exact lmild_line hN fuel _ s
      · exact .refl _
    · exact lmild_line hN fuel _ s

theorem LMild.bind {m : Py (Option Str × GSt) α} {f : α → Py (Option Str × GSt) β} (hm : LMild K N m) (hf : ∀ a, LMild K N (f a)) : LMild K N (Py.bind m f) := fun g => by
  have h := hm g
  unfold Py.bind
  generalize m g = x at h
  obtain ⟨r, t⟩ := x
  cases r with
  | ok a => exact h.trans (hf a t)
  | error e => exact h

theorem lmild_lines (hN : N SIGINT) (fuel : Nat) : ∀ inputs, LMild K N (gdbLines K fuel G inputs)
  | [] => fun s => by
    rw [gdbLines]
    dsimp only
    split
    · exact .refl _
    · exact LMild.bind (lmild_loop hN fuel .eof) (fun _ _ => .refl _) s
  | input :: rest => fun s => by
    rw [gdbLines]
    dsimp only
    split
    · exact .refl _
    · refine LMild.bind (lmild_loop hN fuel input) (fun done => ?_) s
      cases done with
      | true => exact fun _ => .refl _
      | false => exact lmild_lines hN fuel rest

theorem mild_gdbRun (hN : N SIGINT) (fuel : Nat) (pid : Nat) (a : Bool) (inputs : List Input) : Mild K N (gdbRun K fuel G pid a inputs) :=
  Sat.bind (mild_create fuel pid a) fun o => by
    cases o with
    | none => exact Sat.pure _
    | some o => exact fun s _ => lmild_lines (G := G) hN fuel inputs (none, ⟨s, o, fun _ => none⟩)

theorem own_gdbMain (hN : N SIGKILL) (hI : N SIGINT) (fuel : Nat) (pid : Nat) (a : Bool) (inputs : List Input) (h : Owns N s) :
    Owns N (gdbMain K fuel G pid a inputs s).2 := by
  have h1 := h.steps (mild_gdbRun (K := K) (G := G) hI fuel pid a inputs s trivial)
  unfold gdbMain
  generalize gdbRun K fuel G pid a inputs s = x at h1
  obtain ⟨r, t⟩ := x
  refine own_finish hN fuel ?_ h1
  split
  · exact Sat.pure _
  · exact Sat.raise _
  · exact Sat.pure _

end PT
