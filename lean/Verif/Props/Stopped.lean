import Verif.Lemmas.Stopped
import Verif.Props.Asks

/-! C146: the attribute `is_stopped`. -/

namespace PT
open Spec

variable {K : Kern}

/-- **C146, partial** After any calls of methods of registered processes, but singleStep, a registered process whose `is_stopped` is set and that counts as running
is stopped: its stop was told, and since then it was not let go, nor was its end told. This holds after any exceptions and failing requests, provided the kernel tells the
truth about the processes it is asked about, and provided no wait for the first stop of a process is interrupted. -/
theorem C146_flag_partial {s : DSt} (h : Regularly K s) (h1 : TruthfulLog s.log) (h2 : PatientLog s.log) : FlagTrue s := fun o ho hr hs =>
  ((regularly_core h (lawful_of h1 h2)).flag o ho hr hs).resolve_right fun hx => by cases hx

/-- **C146, partial** And the other way round: if it is stopped by a signal, its `is_stopped` is set. -/
theorem C146_signal_partial {s : DSt} (h : Regularly K s) (h1 : TruthfulLog s.log) (h2 : PatientLog s.log) : FlagSignal s :=
  (regularly_core h (lawful_of h1 h2)).full

/-- **C146, partial** so that after such calls quit makes its requests, but PTRACE_DETACH, to stopped processes; the others are killed by a signal. -/
theorem C146_quit_partial {s : DSt} (h : Regularly K s) (fuel : Nat) (h1 : TruthfulLog (quit K fuel s).2.log) (h2 : PatientLog (quit K fuel s).2.log) :
    AsksStoppedFrom s.log.length (quit K fuel s).2.log :=
  (asked_quitAny (K := K) fuel fun hl => (regularly_core h hl).fromNow).asks (lawful_of h1 h2)

/-- **C146, partial** the same for terminate. -/
theorem C146_terminate_partial {s : DSt} (h : Regularly K s) (fuel o : Nat) (w : Bool) (ho : o ∈ iterate s) (h1 : TruthfulLog (terminate K fuel o w s).2.log)
    (h2 : PatientLog (terminate K fuel o w s).2.log) : AsksStoppedFrom s.log.length (terminate K fuel o w s).2.log :=
  (asked_terminate (K := K) fuel w (fun hl => (regularly_core h hl).fromNow) fun _ _ => ho).asks (lawful_of h1 h2)

/-! ### deciding it -/

instance (n : Nat) (log : List Entry) : Decidable (AsksStoppedFrom n log) :=
  decidable_of_iff _ (each_iff (fun b e => n ≤ b.length → ∀ o, asks e.call = some o → AtRest o b) log).symm

instance (s : DSt) : Decidable (FlagTrue s) := inferInstanceAs (Decidable (∀ o ∈ iterate s, (s.heap o).running = true → (s.heap o).isStopped = true → AtRest o s.log))

instance (s : DSt) : Decidable (FlagFull s) := inferInstanceAs (Decidable (∀ o ∈ iterate s, (s.heap o).running = true → AtRest o s.log → (s.heap o).isStopped = true))

/-- Calls one after the other, each of them regular and coming to an end. -/
def allRegular (K : Kern) (fuel : Nat) : List Op → DSt → Prop
  | [], _ => True
  | op :: ops, s => Regular s op ∧ (runOp K fuel op s).1 ≠ .error .diverge ∧ allRegular K fuel ops (runOp K fuel op s).2

theorem regularly_ops {fuel : Nat} {ops : List Op} : ∀ {s : DSt}, Regularly K s → allRegular K fuel ops s → Regularly K (runOps K fuel ops s) := by
  induction ops with
  | nil => exact fun h _ => h
  | cons op ops ih => exact fun h hx => ih (h.call fuel op hx.1 hx.2.1) hx.2.2

instance (s : DSt) (op : Op) : Decidable (Proper s op) := by
  cases op with
  | deletePid pid =>
    match h : getitem s pid with
    | none => exact .isTrue fun o ho => by rw [h] at ho; cases ho
    | some o => exact decidable_of_iff ((s.heap o).isAttached = false) ⟨fun hx i hi => by rw [h] at hi; cases hi; exact hx, fun hx => hx o h⟩
  | _ => unfold Proper; infer_instance

instance (s : DSt) (op : Op) : Decidable (Regular s op) :=
  have : Decidable (∀ o, methodOf op = some o → o ∈ iterate s) :=
    match h : methodOf op with
    | none => .isTrue fun _ hx => by cases hx
    | some o => decidable_of_iff (o ∈ iterate s) ⟨fun hx i hi => by cases hi; exact hx, fun hx => hx o rfl⟩
  have : Decidable (∀ o, op ≠ .singleStep o) := by
    cases op with
    | singleStep o => exact .isFalse fun h => h o rfl
    | _ => exact .isTrue fun _ hx => by cases hx
  inferInstanceAs (Decidable (_ ∧ _ ∧ _))

/-- Whether a call came to an end. -/
def ended (r : Except Exc Unit) : Bool :=
  match r with
  | .error .diverge => false
  | _ => true

theorem ended_iff (r : Except Exc Unit) : ended r = true ↔ r ≠ .error .diverge := by
  unfold ended
  split
  · exact ⟨fun h => (by cases h), fun h => (h rfl).elim⟩
  · rename_i h
    exact ⟨fun _ hx => h hx, fun _ => rfl⟩

instance allRegular.dec (K : Kern) (fuel : Nat) : ∀ ops s, Decidable (allRegular K fuel ops s)
  | [], _ => .isTrue trivial
  | op :: ops, s =>
    have := allRegular.dec K fuel ops (runOp K fuel op s).2
    have : Decidable ((runOp K fuel op s).1 ≠ .error .diverge) := decidable_of_iff _ (ended_iff _)
    inferInstanceAs (Decidable (_ ∧ _ ∧ _))

/-! ### at work -/

/-- A kernel as described in ptrace(2): requests for a process that is not stopped fail. A process stops first by SIGSTOP, later as `next` tells. -/
def stopping (next : Reply) : Kern := fun log c =>
  match c with
  | .waitpid (some p) _ _ => if log.any (fun e => match e.call with
      | .waitpid (some q) _ _ => q == p
      | _ => false) then next else .ok p 0x137f
  | .geteventmsg o _ => if AtRest o log then .ok 8 0 else .err 3
  | .cont o _ _ | .singlestep o _ | .syscall o _ _ | .detach o _ | .setoptions o _ _ => if AtRest o log then .ok 0 0 else .err 3
  | _ => .ok 0 0

/-- One program is let go and stops at a system call, another one is let go; a request for it fails. -/
def someOps : List Op :=
  [.traceFork, .addProcess 7 true none false, .addProcess 9 false none false, .syscall 0 0, .waitSyscall (some 0), .cont 1 0, .syscall 1 0]

theorem someOps_regular : Regularly (stopping (.ok 7 0x857f)) (runOps (stopping (.ok 7 0x857f)) 5 someOps newDebugger) := regularly_ops .new (by decide +kernel)

/-- The hypotheses hold; one process counts as stopped and is, the other does not and is not. -/
example : TruthfulLog (runOps (stopping (.ok 7 0x857f)) 5 someOps newDebugger).log ∧ PatientLog (runOps (stopping (.ok 7 0x857f)) 5 someOps newDebugger).log ∧
    (iterate (runOps (stopping (.ok 7 0x857f)) 5 someOps newDebugger)).map (fun o => ((runOps (stopping (.ok 7 0x857f)) 5 someOps newDebugger).heap o).isStopped) =
      [true, false] ∧
    AtRest 0 (runOps (stopping (.ok 7 0x857f)) 5 someOps newDebugger).log ∧ ¬ AtRest 1 (runOps (stopping (.ok 7 0x857f)) 5 someOps newDebugger).log := by decide +kernel

theorem someOps_length : 6 < (runOps (stopping (.ok 7 0x857f)) 5 someOps newDebugger).log.length := by decide +kernel

/-- The one that counts as stopped was stopped by a signal. -/
example : AtSignal 0 (runOps (stopping (.ok 7 0x857f)) 5 someOps newDebugger).log := by
  have hm : ∀ e ∈ (runOps (stopping (.ok 7 0x857f)) 5 someOps newDebugger).log.drop 7, ¬ movedOn 0 e = true := by decide +kernel
  refine ⟨_, _, _, (List.take_append_drop 6 _).symm.trans (by rw [List.drop_eq_getElem_cons someOps_length]), ⟨some 7, false, false, 7, 0x857f, ?_, ?_, ?_, ?_, 0x85, ?_⟩,
    fun e he => ⟨fun hx => hm e he ((movedOn_iff 0 e).1 (.inl hx)), fun hx => hm e he ((movedOn_iff 0 e).1 (.inr hx))⟩⟩ <;> clear hm <;> decide +kernel

/-- A program is let go, is told to have stopped, and quit kills it by PTRACE_CONT and waits for its end. -/
def lastOps : List Op := [.addProcess 7 true none false]

example : Regularly (stopping (.ok 7 9)) (runOps (stopping (.ok 7 9)) 5 lastOps newDebugger) ∧
    TruthfulLog (quit (stopping (.ok 7 9)) 5 (runOps (stopping (.ok 7 9)) 5 lastOps newDebugger)).2.log ∧
    PatientLog (quit (stopping (.ok 7 9)) 5 (runOps (stopping (.ok 7 9)) 5 lastOps newDebugger)).2.log ∧
    ((quit (stopping (.ok 7 9)) 5 (runOps (stopping (.ok 7 9)) 5 lastOps newDebugger)).2.log.drop 2).map (fun e => (e.call, e.reply)) =
      [(.cont 0 7 9, .ok 0 0), (.waitpid (some 7) false false, .ok 7 9)] :=
  ⟨regularly_ops .new (by decide +kernel), by decide +kernel⟩

/-! ### where it fails -/

/-- **C146 refuted** for singleStep: it leaves `is_stopped` as it was. -/
theorem C146_step_refuted : TruthfulLog (runOps (stopping .interrupt) 5 [.addProcess 7 true none false, .singleStep 0] newDebugger).log ∧
    PatientLog (runOps (stopping .interrupt) 5 [.addProcess 7 true none false, .singleStep 0] newDebugger).log ∧
    ¬ FlagTrue (runOps (stopping .interrupt) 5 [.addProcess 7 true none false, .singleStep 0] newDebugger) := by decide +kernel

/-- The kernel: the wait for the first stop is interrupted. -/
def rash : Kern := fun log c =>
  match c with
  | .waitpid _ _ _ => .interrupt
  | c => stopping .interrupt log c

/-- **C146 refuted** without patience: a new process counts as stopped from the beginning. -/
theorem C146_first_refuted : Regularly rash (runOps rash 5 [.addProcess 7 false none false] newDebugger) ∧
    TruthfulLog (runOps rash 5 [.addProcess 7 false none false] newDebugger).log ∧ ¬ FlagTrue (runOps rash 5 [.addProcess 7 false none false] newDebugger) :=
  ⟨regularly_ops .new (by decide +kernel), by decide +kernel⟩

/-- The calls of a user who traces forks. -/
def forkOps : List Op := [.traceFork, .addProcess 7 true none false, .cont 0 0, .waitProcessEvent (some 7) true]

/-- **C146 refuted** the other way round: a process that stopped because it forks does not count as stopped, whereas its child does. -/
theorem C146_event_refuted : Regularly (stopping (.ok 7 0x1057f)) (runOps (stopping (.ok 7 0x1057f)) 5 forkOps newDebugger) ∧
    TruthfulLog (runOps (stopping (.ok 7 0x1057f)) 5 forkOps newDebugger).log ∧ PatientLog (runOps (stopping (.ok 7 0x1057f)) 5 forkOps newDebugger).log ∧
    ¬ FlagFull (runOps (stopping (.ok 7 0x1057f)) 5 forkOps newDebugger) ∧
    (iterate (runOps (stopping (.ok 7 0x1057f)) 5 forkOps newDebugger)).map (fun o => ((runOps (stopping (.ok 7 0x1057f)) 5 forkOps newDebugger).heap o).isStopped) =
      [false, true] :=
  ⟨regularly_ops .new (by decide +kernel), by decide +kernel⟩

end PT
