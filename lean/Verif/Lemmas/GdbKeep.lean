import Verif.Lemmas.Debugger5
import Verif.Lemmas.Gdb2
import Verif.Model.GdbMain

/-! Whatever is typed, gdb.py does not change what its processes are. -/

namespace PT
open Spec

variable {K : Kern} {α β : Type}

/-- All steps allowed. -/
abbrev anyRules (K : Kern) : Rules K := Rules.plain K fun _ _ => True

theorem old_of_sat {m : Py DSt α} (h : Sat (anyRules K) m) (s : DSt) : Old s (m s).2 := (h s trivial).old

/-- Code of gdb.py that does not change what the processes are. -/
def GKeep (m : Py GSt α) : Prop := ∀ g, Old g.dbg (m g).2.dbg

theorem GKeep.lift {m : Py DSt α} (h : ∀ s, Old s (m s).2) : GKeep (PT.lift m) := fun g => h g.dbg
theorem GKeep.pure (a : α) : GKeep (Py.pure a : Py GSt α) := fun _ => Old.refl _
theorem GKeep.raise (e : Exc) : GKeep (Py.raise e : Py GSt α) := fun _ => Old.refl _
theorem GKeep.bind {m : Py GSt α} {f : α → Py GSt β} (hm : GKeep m) (hf : ∀ a, GKeep (f a)) : GKeep (Py.bind m f) := by
  intro g
  have h1 := hm g
  unfold Py.bind
  rcases hms : m g with ⟨r, t⟩
  rw [hms] at h1
  cases r with
  | ok a => exact h1.trans (hf a t)
  | error e => exact h1
theorem GKeep.local {m : GSt → Py GSt α} (h : ∀ g, GKeep (m g)) : GKeep (fun g => m g g) := fun g => h g g
theorem GKeep.look : GKeep (PT.look K) := fun g => by
  show Old g.dbg (ptraceCall K _ g.dbg).2
  rw [ptraceCall_run]
  exact Old.logCall _ _
theorem GKeep.switch (o : Nat) : GKeep (switchProcess o) := fun _ => Old.refl _
theorem GKeep.forget (o : Nat) : GKeep (PT.forget o) := fun _ => Old.refl _

theorem old_cont (o n : Nat) : ∀ s, Old s (procCont K o n s).2 := old_of_sat (procCont_sat o n (fun _ _ => trivial) (fun _ => trivial))
theorem old_display (o : Nat) : ∀ s, Old s (eventDisplay K o s).2 := old_of_sat (eventDisplay_sat o (fun _ _ => trivial))
theorem old_waitSignals (fuel : Nat) (signals : List Nat) (pid : Option Nat) : ∀ s, Old s (waitSignals K fuel signals pid s).2 := fun s =>
  (waitSignals_wait (K := K) (P := fun _ _ => True) (fun _ _ _ => trivial) (fun _ => trivial) fuel signals pid s).old

theorem GKeep.processSignal (o n : Nat) : GKeep (PT.processSignal K o n) :=
  .bind (.lift (old_display o)) fun _ => .bind (.switch o) fun _ => fun _ => Old.refl _

theorem GKeep.continueProcess (o n : Nat) : GKeep (PT.continueProcess K o n) := by
  intro g
  unfold PT.continueProcess
  split
  · exact GKeep.bind (.lift (old_cont o _)) (fun _ => .forget o) g
  · exact GKeep.lift (old_cont o 0) g

theorem GKeep.contAll (n : Nat) : ∀ os, GKeep (PT.contAll K n os)
  | [] => .pure ()
  | o :: os => by
    refine .bind (.lift fun s => Old.setProc s o _ ⟨rfl, rfl, rfl, rfl, id⟩) fun _ => .bind (fun g => ?_) fun _ => GKeep.contAll n os
    split <;> exact GKeep.continueProcess o _ g

theorem GKeep.gdbCont (fuel n : Nat) : GKeep (PT.gdbCont K fuel n) := by
  intro g
  refine GKeep.bind (.contAll n _) (fun _ => .bind (.lift (old_waitSignals fuel _ _)) fun ev => ?_) g
  unfold contSignal
  split
  · split
    · exact .bind .look fun _ => .pure _
    · exact .bind (.processSignal _ _) fun _ => .pure _
  · exact .pure _

theorem GKeep.argError (e : Exc) : GKeep (PT.argError e) := by
  unfold PT.argError
  split
  · exact .pure _
  · exact .raise _

theorem GKeep.gdbSignal (fuel : Nat) (G : GdbCfg) (arg : Str) : GKeep (PT.gdbSignal K fuel G arg) := by
  intro g
  unfold PT.gdbSignal
  split
  · exact GKeep.argError _ g
  · exact GKeep.gdbCont fuel _ g

theorem old_addProcess (fuel pid : Nat) (a : Bool) (parent : Option Nat) (th : Bool) : ∀ s, Old s (addProcess K (waitEventPid K fuel) pid a parent th s).2 :=
  old_of_sat (addProcess_sat (fun _ _ _ => trivial) (waitEventPid_sat (S := anyRules K) (fun _ _ _ => trivial) fuel) pid (.inr trivial) a parent th
    (fun _ _ => trivial) (fun _ _ _ => trivial))

theorem GKeep.gdbAttach (fuel : Nat) (G : GdbCfg) (arg : Str) : GKeep (PT.gdbAttach K fuel G arg) := by
  intro g
  unfold PT.gdbAttach
  split
  · exact GKeep.argError _ g
  · exact GKeep.bind (.lift (old_addProcess fuel _ _ _ _)) (fun o => .bind (.switch o) fun _ => .pure _) g

theorem GKeep.stepWait (fuel : Nat) (b : Bool) : GKeep (PT.stepWait K fuel b) := by
  intro g
  unfold PT.stepWait
  have h := GKeep.lift (old_waitSignals (K := K) fuel [SIGTRAP] (some (g.dbg.heap g.process).pid)) g
  split
  · rename_i g' e
    rw [e] at h
    refine h.trans ?_
    split
    · exact GKeep.bind .look (fun _ => .pure _) g'
    · exact Old.refl _
  · rename_i g' e
    rw [e] at h
    refine h.trans ?_
    split
    · exact GKeep.bind .look (fun _ => .raise _) g'
    · exact Old.refl _

theorem GKeep.gdbStep (fuel : Nat) (b : Bool) : GKeep (PT.gdbStep K fuel b) := by
  unfold PT.gdbStep
  split
  · exact .bind (.local fun _ => .lift (old_of_sat (procSingleStep_sat _ (fun _ _ => trivial)))) fun _ => .stepWait _ _
  · refine .bind .look fun v => ?_
    split
    · exact .pure _
    · exact .bind (.local fun g => .lift (old_cont _ 0)) fun _ => .stepWait _ _

theorem GKeep.gdbUntil (fuel : Nat) (G : GdbCfg) (arg : Str) : GKeep (PT.gdbUntil K fuel G arg) := by
  intro g
  unfold PT.gdbUntil
  split
  · exact GKeep.argError _ g
  · exact GKeep.gdbStep fuel _ g

theorem GKeep.gdbSys (fuel : Nat) (G : GdbCfg) : GKeep (PT.gdbSys K fuel G) :=
  .bind (.local fun _ => .lift (old_of_sat (procSyscall_sat _ 0 (fun _ _ => trivial) (fun _ => trivial)))) fun _ =>
  .bind (.local fun _ => .lift fun s => old_waitSignals fuel _ _ s) fun _ =>
  .bind (.local fun _ => .lift fun s => (sysEvent_steps fuel G.sys _ s).old) fun _ => .pure _

theorem GKeep.gdbSwitch (G : GdbCfg) (arg : Str) : GKeep (PT.gdbSwitch G arg) := by
  intro g
  unfold PT.gdbSwitch gdbSwitchNext
  repeat' split
  all_goals first
    | exact Old.refl _
    | exact GKeep.argError _ g

theorem GKeep.runCommand (fuel : Nat) (G : GdbCfg) (c : Command) : GKeep (PT.runCommand K fuel G c) := by
  cases c with
  | cont => exact .gdbCont fuel 0
  | signal arg => exact .gdbSignal fuel G arg
  | attach arg => exact .gdbAttach fuel G arg
  | step enter => exact .gdbStep fuel enter
  | «until» arg => exact .gdbUntil fuel G arg
  | sys => exact .gdbSys fuel G
  | switch arg => exact .gdbSwitch G arg
  | look => exact .bind .look fun _ => .pure _
  | info => exact .pure _
  | unknown => exact .pure _

theorem old_ptraceCall (c : Call) (s : DSt) : Old s (ptraceCall K c s).2 := by
  rw [ptraceCall_run]
  exact Old.logCall _ _

theorem old_bind {m : Py DSt α} {f : α → Py DSt β} (hm : ∀ s, Old s (m s).2) (hf : ∀ a s, Old s (f a s).2) (s : DSt) : Old s (Py.bind m f s).2 := by
  have h1 := hm s
  unfold Py.bind
  rcases hms : m s with ⟨r, t⟩
  rw [hms] at h1
  cases r with
  | ok a => exact h1.trans (hf a t)
  | error e => exact h1

theorem old_interruptSend : ∀ os s, Old s (interruptSend K os s).2
  | [], s => Old.refl s
  | o :: os, s => by
    unfold interruptSend
    split
    · exact old_interruptSend os s
    · refine old_bind (old_ptraceCall _) (fun v t => ?_) s
      split
      · exact old_interruptSend os t
      · exact old_bind (old_of_sat (procKill_sat _ _ (fun _ _ => trivial))) (fun _ => old_bind (old_interruptSend os) fun _ t => Old.refl t) t

theorem old_interruptWait (fuel : Nat) : ∀ os s, Old s (interruptWait K fuel os s).2
  | [], s => Old.refl s
  | o :: os, s => by
    refine old_bind (fun t => ?_) (fun _ => old_interruptWait fuel os) s
    have h := old_waitSignals (K := K) fuel [SIGINT] (some (t.heap o).pid) t
    split <;> rename_i e <;> rw [e] at h
    · exact h
    · exact h.trans (old_display _ _)
    · exact h
    · exact h

theorem GKeep.gdbInterrupt (fuel : Nat) : GKeep (PT.gdbInterrupt K fuel) :=
  fun g => old_bind (old_interruptSend _) (fun ws => old_interruptWait fuel ws) g.dbg

theorem GKeep.nextProcess : GKeep PT.nextProcess := by
  intro g
  unfold PT.nextProcess
  split <;> exact Old.refl _

theorem old_terminated (o : Nat) : ∀ s, Old s (processTerminated K o s).2 :=
  old_of_sat (Sat.bind (notRunning_sat o (fun _ => trivial) (fun _ => trivial)) fun _ => Sat.pure _)

theorem GKeep.gdbDeleteProcess (pid : Nat) : GKeep (PT.gdbDeleteProcess K pid) := by
  intro g
  unfold PT.gdbDeleteProcess
  split
  · exact Old.refl _
  · refine GKeep.bind (.lift (old_terminated _)) (fun _ => ?_) g
    intro g'
    dsimp only
    split
    · exact GKeep.nextProcess g'
    · exact Old.refl _

theorem GKeep.gdbExcept (fuel : Nat) (G : GdbCfg) (e : Exc) : GKeep (PT.gdbExcept K fuel G e) := by
  unfold PT.gdbExcept
  split
  · exact .gdbInterrupt fuel
  · exact .pure _
  · exact .processSignal _ _
  · exact .nextProcess
  · exact .bind (.switch _) fun _ => .gdbInterrupt fuel
  · intro g
    dsimp only
    split
    · exact GKeep.gdbDeleteProcess _ g
    · exact Old.refl _
  · exact .raise _

theorem runLine_keep (fuel : Nat) (G : GdbCfg) : ∀ cs, GKeep (runLine (gdbExecute K fuel G) G.space cs)
  | [] => .pure _
  | c :: cs => .bind (.runCommand fuel G _) fun ok => by
    split
    · exact runLine_keep fuel G cs
    · exact .pure _

theorem mainLine_keep (fuel : Nat) (G : GdbCfg) (c : Str) (s : Option Str × GSt) :
    Old s.2.dbg (mainLine (gdbExecute K fuel G) (gdbExcept K fuel G) G.space c s).2.2.dbg := by
  unfold mainLine
  split
  · exact Old.refl _
  · have h := runLine_keep (K := K) fuel G (splitOn ';' c) s.2
    split
    · rename_i e
      rw [e] at h
      exact h
    · rename_i e t he
      rw [he] at h
      have h2 := GKeep.gdbExcept (K := K) fuel G e t
      split <;> rename_i e2 <;> rw [e2] at h2 <;> exact h.trans h2

theorem gdbLoop_keep (fuel : Nat) (G : GdbCfg) (input : Input) (s : Option Str × GSt) : Old s.2.dbg (gdbLoop K fuel G input s).2.2.dbg := by
  unfold gdbLoop mainLoop
  split
  · exact Old.refl _
  · have h := GKeep.gdbInterrupt (K := K) fuel s.2
    split <;> rename_i e <;> rw [e] at h <;> exact h
  · dsimp only
    split
    · split
      · split
        · exact Old.refl _
        · exact mainLine_keep fuel G _ s
      · exact Old.refl _
    · exact mainLine_keep fuel G _ s

/-- In a session gdb.py does not change what its processes are: their numbers, their parents, whether it created them, and whether they are threads; a
process that is over stays so, and requests are only added. -/
theorem gdbLines_keep (fuel : Nat) (G : GdbCfg) : ∀ inputs (s : Option Str × GSt), Old s.2.dbg (gdbLines K fuel G inputs s).2.2.dbg
  | [], s => by
    unfold gdbLines
    split
    · exact Old.refl _
    · have h := gdbLoop_keep (K := K) fuel G .eof s
      unfold Py.bind
      rcases hm : gdbLoop K fuel G .eof s with ⟨r, t⟩
      rw [hm] at h
      cases r <;> exact h
  | x :: xs, s => by
    unfold gdbLines
    split
    · exact Old.refl _
    · have h := gdbLoop_keep (K := K) fuel G x s
      unfold Py.bind
      rcases hm : gdbLoop K fuel G x s with ⟨r, t⟩
      rw [hm] at h
      cases r with
      | error e => exact h
      | ok done =>
        refine h.trans ?_
        dsimp only
        split
        · exact Old.refl _
        · exact gdbLines_keep fuel G xs t

end PT
