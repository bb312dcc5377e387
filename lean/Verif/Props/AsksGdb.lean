import Verif.Lemmas.AsksGdb2
import Verif.Props.Asks
import Verif.Props.GdbErrors

/-! C145 for gdb.py. -/

namespace PT
open Spec

variable {K : Kern}

/-- **C145, partial** gdb.py, started in any way, whatever the user types, as long as it traces one process (no other is attached, and the kernel tells of no new one), the
user does not type `stepi`, and they do not interrupt a call of the kernel (they may type Control-C at the prompt). Provided the kernel tells the truth about the process it
is asked about, each request that it grants for a stopped process only is made while the process is stopped. This holds for all calls up to the end of gdb.py, with any number
of lines and failing requests, and also for further processes, attached after the one before has ended. (The full statement is without these conditions:
`C145_gdb_refuted` for `stepi`, `C145_cont_refuted` for two processes, `C145_first_refuted` for an interrupt.) -/
theorem C145_gdb_partial (hz : RealPids K) (ha : NoAttachZero K) (E : ProgramEnv) (hE : ∀ p, E.child p ≠ 0) (fuel : Nat) {G : GdbCfg} (hG : NoEvent G) (args : List Str)
    (inputs : List Input) {r : Except Exc (Option (List Input))} {t : DSt} (h : gdbProgram E K (fuel + 1) G args inputs = .ran r t)
    (h1 : TruthfulLog t.log) (h2 : PatientLog t.log) (h3 : SoloLog t.log) : AsksStopped t.log := by
  have hl : Law t.log := ⟨lawful_of h1 h2, h3⟩
  unfold gdbProgram at h
  split at h
  · cases h
  · rename_i v program hv
    split at h
    · cases h
    · rename_i lines s hs
      have hk : Cor s ∧ Good s ∧ s.list = [] := by
        have hreg : ∀ {s : DSt}, s.dict = [] → s.list = [] → (∀ o, (s.heap o).isAttached = false) → RegInv s := fun {s} h1 h2 h3 =>
          ⟨by rw [h1]; simp, by rw [h2]; simp, fun p o => by rw [h1, h2]; simp, fun o ho => (by rw [h2] at ho; cases ho), fun o ho => by rw [h3 o] at ho; cases ho⟩
        have hpid : ∀ {s : DSt}, s.dict = [] → s.list = [] → s.next = 0 → PidInv s := fun {s} h1 h2 h3 =>
          ⟨fun o ho => by rw [h3] at ho; exact absurd ho (Nat.not_lt_zero o), fun p hp => (by rw [h1] at hp; cases hp), fun o ho => by rw [h2] at ho; cases ho⟩
        generalize (⟨isOn v "fork", isOn v "trace_exec", isOn v "trace_clone"⟩ : TraceOptions) = x at hs
        obtain ⟨a, b, c⟩ := x
        cases a <;> cases b <;> cases c <;> (injection hs with _ hs; injection hs with _ hs; rw [← hs]
                                             exact ⟨core_empty rfl rfl (hreg rfl rfl fun _ => rfl), ⟨hreg rfl rfl fun _ => rfl, hpid rfl rfl rfl⟩, rfl⟩)
      obtain ⟨hc, hg, hs0⟩ := hk
      dsimp only at h
      cases hb : tracedBy v program with
      | attach n =>
        rw [hb] at h
        cases h
        exact asked_gdbMain hz ha hG fuel _ false inputs (fun hx => nomatch hx) hg hs0 hc hl
      | start p =>
        rw [hb] at h
        cases h
        exact asked_gdbMain hz ha hG fuel _ true inputs (fun _ => hE p) hg hs0 hc hl

/-! ### a session -/

instance : DecidablePred SoloEntry := fun e => by
  unfold SoloEntry
  have : Decidable (∀ v st, e.reply ≠ .ok v st) := match h : e.reply with
    | .ok v st => .isFalse fun hx => hx v st rfl
    | .err _ => .isTrue fun _ _ hx => nomatch hx
    | .interrupt => .isTrue fun _ _ hx => nomatch hx
  refine @instDecidableAnd _ _ inferInstance ?_
  split <;> first | assumption | infer_instance

instance (log : List Entry) : Decidable (SoloLog log) := inferInstanceAs (Decidable (∀ e ∈ log, SoloEntry e))

/-- A kernel as described in ptrace(2): a request for a process that is not stopped fails with `ESRCH`; there is no process 0 to attach. The process stops by a signal, for
system calls, and by signals again; it ends when it is killed. -/
def attending : Kern := fun log c =>
  match c with
  | .attach _ 0 => .err 3
  | .waitpid (some p) _ _ => if log.any (fun e => isKill e.call) then .ok p 9 else .ok p ([0x137f, 0x857f, 0x857f, 0x57f].getD (log.filter fun e : Entry => match e.call with
      | .waitpid _ _ _ => true
      | _ => false).length 0x137f)
  | .cont o _ _ | .singlestep o _ | .syscall o _ _ | .detach o _ | .setoptions o _ _ | .inspect o _ => if AtRest o log then .ok 0 0 else .err 3
  | .geteventmsg _ _ => .err 3
  | _ => .ok 0 0

theorem realPids_attending : RealPids attending := fun _ _ _ _ h => nomatch h

theorem noAttachZero_attending : NoAttachZero attending := fun _ _ _ _ h => nomatch h

/-- `gdb.py prog`; the stop for a system call, Control-C at the prompt, another stop, and the end of the input, which kills the program. -/
def attended : GdbEnded := gdbProgram programEnv attending (8 + 1) selfCfg ["prog".toList] [.line "sys".toList, .interrupt,
  .line "cont".toList, .eof]

/-- The hypotheses of the theorem are met by this session, in which the process is let go three times. -/
example : ∃ r t, attended = .ran r t ∧ AsksStopped t.log ∧ (t.log.map fun e => e.call).filter (fun c => (asks c).isSome) =
    [.setoptions 0 1 1, .syscall 0 1 0, .inspect 0 1, .inspect 0 1, .cont 0 1 0, .cont 0 1 9] := by
  have h : (match attended with
    | .ran _ t => decide (TruthfulLog t.log ∧ PatientLog t.log ∧ SoloLog t.log ∧ (t.log.map fun e => e.call).filter (fun c => (asks c).isSome) =
      [.setoptions 0 1 1, .syscall 0 1 0, .inspect 0 1, .inspect 0 1, .cont 0 1 0, .cont 0 1 9])
    | _ => false) = true := by decide +kernel
  split at h
  · rename_i r t hd
    obtain ⟨h1, h2, h3, h4⟩ := of_decide_eq_true h
    refine ⟨r, t, hd, ?_, h4⟩
    unfold attended at hd
    exact C145_gdb_partial realPids_attending noAttachZero_attending programEnv (fun _ => Nat.one_ne_zero) 8 selfCfg_plain _ _ hd h1 h2 h3
  · cases h

end PT
