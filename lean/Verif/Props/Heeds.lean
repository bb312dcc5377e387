import Verif.Spec.Heeds
import Verif.Props.Spares

/-! C149: the end of a process is never overlooked. -/

namespace PT
open Spec

variable {K : Kern}

theorem Mourned.heeds {N : Nat → Prop} {s : DSt} (h : Mourned N s) : HeedsEnds s := fun x hx q o h1 h2 => (h.dead x hx q o h1 h2).2

/-- **C149** Whatever methods are called, and whichever of them raise: a process whose end the kernel told counts as not running, from then on for ever. -/
theorem C149_library (K : Kern) (ops : List Op) (t : DSt) (h : Trace K newDebugger ops t) : HeedsEnds t := by
  have key : Mourned (fun _ => False) t := by
    generalize hs : newDebugger = s at h
    induction h with
    | nil => exact hs ▸ mourned_empty rfl rfl
    | snoc _ fuel op ih => exact (mourn_runOp fuel op ih fun _ _ _ hx => hx.elim).inv
  exact key.heeds

/-- **C149** strace.py: the same, from the command line to the end. -/
theorem C149_strace (E : ProgramEnv) (fuel : Nat) (args : List Str) {file : Option Str} {r : Except Exc (Option Nat)} {t : Con DSt}
    (h : straceProgram E K fuel args = .ran file r t) : HeedsEnds t.inner := by
  unfold straceProgram at h
  split at h
  · cases h
  · rename_i v program hv
    split at h
    · cases h
    · rename_i lines s hs
      have hk : Mourned (fun _ => False) s := setup_mourned _ hs
      have key : ∀ (pid : Nat) (b : Bool) (F : LineView), HeedsEnds (straceMainOut K fuel (cfgBy E v) F (textsBy E program) pid b ⟨s, lines⟩).2.inner :=
        fun pid b F => by
          rw [(C130_same K fuel (cfgBy E v) F (textsBy E program) pid b ⟨s, lines⟩).2]
          exact (mourn_straceMain fuel hk (cfgBy E v) pid b).inv.heeds
      dsimp only at h
      cases hb : tracedBy v program with
      | attach n =>
        rw [hb] at h
        cases h
        exact key _ false _
      | start p =>
        rw [hb] at h
        cases h
        exact key _ true _

/-- **C149** gdb.py: the same, whatever is typed. -/
theorem C149_gdb (E : ProgramEnv) (fuel : Nat) (G : GdbCfg) (args : List Str) (inputs : List Input) {r : Except Exc (Option (List Input))} {t : DSt}
    (h : gdbProgram E K fuel G args inputs = .ran r t) : HeedsEnds t := by
  unfold gdbProgram at h
  split at h
  · cases h
  · rename_i v program hv
    split at h
    · cases h
    · rename_i lines s hs
      have hk : Mourned (fun _ => False) s := setup_mourned _ hs
      dsimp only at h
      cases hb : tracedBy v program with
      | attach n =>
        rw [hb] at h
        cases h
        exact (gdbMain_spares id fuel _ false inputs s hk).heeds
      | start p =>
        rw [hb] at h
        cases h
        exact (gdbMain_spares id fuel _ true inputs s hk).heeds

/-! ### what this says -/

/-- Two processes, the first one ends while the debugger waits for it; the second one goes on. -/
example : HeedsEnds (runOps expiring 5 [.addProcess 7 false none false, .addProcess 8 false none false, .cont 0 0, .waitProcessEvent (some 7) true] newDebugger) ∧
    ((runOps expiring 5 [.addProcess 7 false none false, .addProcess 8 false none false, .cont 0 0, .waitProcessEvent (some 7) true] newDebugger).heap 0).running = false ∧
    ((runOps expiring 5 [.addProcess 7 false none false, .addProcess 8 false none false, .cont 0 0, .waitProcessEvent (some 7) true] newDebugger).heap 1).running = true :=
  ⟨C149_library expiring _ _ (.snoc (.snoc (.snoc (.snoc .nil 5 (.addProcess 7 false none false)) 5 (.addProcess 8 false none false)) 5 (.cont 0 0)) 5
    (.waitProcessEvent (some 7) true)), by decide +kernel, by decide +kernel⟩

/-- A state in which an end was told and not heeded. -/
example : ¬ HeedsEnds { newDebugger with log := [⟨.waitpid (some 7) false false, .ok 7 0, [(7, 0)]⟩], heap := fun _ => { (newDebugger.heap 0) with running := true } } := by
  intro h
  exact absurd (h _ List.mem_cons_self 7 0 ⟨by decide, .inl ⟨some 7, false, false, 0, rfl, .inl rfl, rfl, .inl ⟨0, by decide⟩⟩⟩ List.mem_cons_self) (by simp)

/-- gdb.py of `C148_ended_refuted`: process 5 stays registered, but it counts as ended. -/
example : ∃ r t, puzzled = .ran r t ∧ HeedsEnds t ∧ (5, 1) ∈ t.dict ∧ (t.heap 1).running = false := by
  have h : (match puzzled with
    | .ran _ t => decide ((5, 1) ∈ t.dict ∧ (t.heap 1).running = false)
    | _ => false) = true := by decide +kernel
  match hd : puzzled with
  | .early _ =>
    rw [hd] at h
    cases h
  | .ran r t =>
    rw [hd] at h
    exact ⟨r, t, rfl, C149_gdb _ _ _ _ _ hd, of_decide_eq_true h⟩

/-- `strace.py prog`, interrupted while the program is running: it is killed, and counts as ended. -/
example : ∃ r t, straceProgram programEnv pressing 9 ["prog".toList] = .ran none r t ∧ HeedsEnds t.inner ∧ (t.inner.heap 0).running = false := by
  have h : (match straceProgram programEnv pressing 9 ["prog".toList] with
    | .ran none _ t => decide ((t.inner.heap 0).running = false)
    | _ => false) = true := by decide +kernel
  split at h
  · rename_i r t hd
    exact ⟨r, t, hd, C149_strace _ _ _ hd, of_decide_eq_true h⟩
  · cases h

end PT
