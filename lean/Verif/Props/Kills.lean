import Verif.Lemmas.Kills
import Verif.Props.AsksGdb

/-! C148: signals are sent to the debugger's own processes only. -/

namespace PT
open Spec

variable {K : Kern}

theorem owns_empty {N : Nat → Prop} {s : DSt} (hl : s.log = []) (h1 : s.dict = []) (h2 : s.list = []) (h3 : ∀ o, (s.heap o).isAttached = false) : Owns N s :=
  ⟨⟨by rw [h1]; simp, by rw [h2]; simp, fun p o => by rw [h1, h2]; simp, fun o ho => (by rw [h2] at ho; cases ho), fun o ho => by rw [h3 o] at ho; cases ho⟩,
    fun e he => by rw [hl] at he; cases he⟩

theorem setup_owns {N : Nat → Prop} (o : TraceOptions) {lines : List Str} {s : DSt} (h : setupDebugger true o newDebugger = (none, lines, s)) : Owns N s := by
  obtain ⟨a, b, c⟩ := o
  cases a <;> cases b <;> cases c <;> (injection h with _ h; injection h with _ h; rw [← h]; exact owns_empty rfl rfl rfl fun _ => rfl)

/-- **C148** strace.py, whatever the kernel replies: a signal is sent by kill(2) only to a process that strace.py has at this moment, and it is SIGKILL. -/
theorem C148_strace (E : ProgramEnv) (fuel : Nat) (args : List Str) {file : Option Str} {r : Except Exc (Option Nat)} {t : Con DSt}
    (h : straceProgram E K fuel args = .ran file r t) : KillsOwn (· = 9) t.inner.log := by
  unfold straceProgram at h
  split at h
  · cases h
  · rename_i v program hv
    split at h
    · cases h
    · rename_i lines s hs
      have hk : Owns (· = 9) s := setup_owns _ hs
      have key : ∀ (pid : Nat) (b : Bool) (F : LineView), KillsOwn (· = 9) (straceMainOut K fuel (cfgBy E v) F (textsBy E program) pid b ⟨s, lines⟩).2.inner.log :=
        fun pid b F => by
          rw [(C130_same K fuel (cfgBy E v) F (textsBy E program) pid b ⟨s, lines⟩).2]
          exact (own_straceMain (N := (· = 9)) rfl fuel (cfgBy E v) pid b hk).log
      dsimp only at h
      cases hb : tracedBy v program with
      | attach n =>
        rw [hb] at h
        cases h
        exact key _ false _
      | start p =>
        rw [hb] at h
        cases h
        exact key _ true _

/-- **C148** gdb.py, whatever the kernel replies and whatever is typed: a signal is sent by kill(2) only to a process that gdb.py has at this moment, and it is SIGINT
or SIGKILL. -/
theorem C148_gdb (E : ProgramEnv) (fuel : Nat) (G : GdbCfg) (args : List Str) (inputs : List Input) {r : Except Exc (Option (List Input))} {t : DSt}
    (h : gdbProgram E K fuel G args inputs = .ran r t) : KillsOwn (fun n => n = 2 ∨ n = 9) t.log := by
  unfold gdbProgram at h
  split at h
  · cases h
  · rename_i v program hv
    split at h
    · cases h
    · rename_i lines s hs
      have hk : Owns (fun n => n = 2 ∨ n = 9) s := setup_owns _ hs
      dsimp only at h
      cases hb : tracedBy v program with
      | attach n =>
        rw [hb] at h
        cases h
        exact (own_gdbMain (N := fun n => n = 2 ∨ n = 9) (.inr rfl) (.inl rfl) fuel _ false inputs hk).log
      | start p =>
        rw [hb] at h
        cases h
        exact (own_gdbMain (N := fun n => n = 2 ∨ n = 9) (.inr rfl) (.inl rfl) fuel _ true inputs hk).log

/-- **C148, partial** The methods of a debugger, used in any way, whatever the kernel replies and whatever exceptions are raised, as long as `kill` and `terminate` are
called for processes that the debugger has: a signal is sent by kill(2) only to a process that it has at this moment. In particular `quit` sends none to a process that it
has found ended meanwhile. (The full statement is without the condition about `terminate`: `C148_detached_refuted`.) -/
theorem C148_library_partial {s : DSt} (h : ReachKill K s) : KillsOwn (fun _ => True) s.log := by
  have key : Owns (fun _ => True) s := by
    induction h with
    | new => exact owns_empty rfl rfl rfl fun _ => rfl
    | call _ fuel op hop ih => exact own_runOp fuel op hop ih
  exact key.log

/-! ### where it fails -/

/-- A kernel as described in ptrace(2): a request for a process that is not stopped fails with `ESRCH`. The process stops at the start, then because of execve. -/
def renewed : Kern := fun log c =>
  match c with
  | .waitpid (some p) _ _ => .ok p (if log.any (fun e => match e.call with
      | .cont _ _ _ => true
      | _ => false) then 0x4057f else 0x137f)
  | .cont o _ _ | .singlestep o _ | .syscall o _ _ | .detach o _ | .setoptions o _ _ | .inspect o _ => if AtRest o log then .ok 0 0 else .err 3
  | _ => .ok 0 0

/-- Start a program, let it go on until it executes another one, let it go, and terminate it. -/
def renewedOps : List Op := [.traceExec, .addProcess 7 true none false, .cont 0 0, .waitProcessEvent (some 7) true, .detach 0, .terminate 0 false]

/-- **C148 refuted** for a process that was let go: `detach` leaves `running` set, and the stop because of execve does not set `is_stopped`, so that `terminate` sends
SIGKILL to a process that is not traced any more, or to whatever has its number by then. -/
theorem C148_detached_refuted : ¬ KillsOwn (fun _ => True) (runOps renewed 5 renewedOps newDebugger).log ∧
    (runOps renewed 5 renewedOps newDebugger).log.map (fun e => (e.call, e.reply, e.dict)) =
      [(.waitpid (some 7) false false, .ok 7 0x137f, [(7, 0)]), (.setoptions 0 7 17, .ok 0 0, [(7, 0)]), (.cont 0 7 0, .ok 0 0, [(7, 0)]),
        (.waitpid (some 7) false false, .ok 7 0x4057f, [(7, 0)]), (.detach 0 7, .ok 0 0, [(7, 0)]), (.kill 0 7 9, .ok 0 0, [])] := by
  have h : (runOps renewed 5 renewedOps newDebugger).log.map (fun e => (e.call, e.reply, e.dict)) =
      [(.waitpid (some 7) false false, .ok 7 0x137f, [(7, 0)]), (.setoptions 0 7 17, .ok 0 0, [(7, 0)]), (.cont 0 7 0, .ok 0 0, [(7, 0)]),
        (.waitpid (some 7) false false, .ok 7 0x4057f, [(7, 0)]), (.detach 0 7, .ok 0 0, [(7, 0)]), (.kill 0 7 9, .ok 0 0, [])] := by decide +kernel
  refine ⟨fun hk => ?_, h⟩
  have hm : ((.kill 0 7 9, .ok 0 0, []) : Call × Reply × List (Nat × Nat)) ∈ (runOps renewed 5 renewedOps newDebugger).log.map (fun e => (e.call, e.reply, e.dict)) := by
    rw [h]
    simp
  obtain ⟨e, he, hx⟩ := List.mem_map.1 hm
  injection hx with h1 h2
  injection h2 with _ h2
  have := (hk e he 0 7 9 h1).1
  rw [h2] at this
  cases this

/-! ### what this says -/

example : ¬ KillsOwn (fun _ => True) [⟨.kill 0 7 9, .ok 0 0, [(8, 1)]⟩] ∧ ¬ KillsOwn (· = 9) [⟨.kill 0 7 2, .ok 0 0, [(7, 0)]⟩] ∧
    KillsOwn (· = 9) [⟨.kill 0 7 9, .ok 0 0, [(8, 1), (7, 0)]⟩] := by
  refine ⟨fun h => ?_, fun h => ?_, ?_⟩
  · have := (h _ List.mem_cons_self 0 7 9 rfl).1
    simp at this
  · have := (h _ List.mem_cons_self 0 7 2 rfl).2
    cases this
  · intro e he o p n hc
    rw [List.mem_singleton.1 he] at hc ⊢
    cases hc
    exact ⟨by simp, rfl⟩

/-- A kernel whose process stops at the start; after that the user interrupts each wait, until a signal stops or ends the process. -/
def pressing : Kern := fun log c =>
  match c with
  | .waitpid (some p) _ _ => match log.getLast? with
    | some ⟨.kill _ _ n, _, _⟩ => .ok p (if n = 9 then 9 else 256 * n + 127)
    | some ⟨.cont _ _ 9, _, _⟩ => .ok p 9
    | some ⟨.waitpid _ _ _, _, _⟩ => .interrupt
    | none => .ok p 0x137f
    | _ => .interrupt
  | _ => .ok 0 0

/-- The signals that were sent, and to whom. -/
def sent (log : List Entry) : List (Nat × Nat × Nat × List (Nat × Nat)) :=
  log.filterMap fun e => match e.call with
    | .kill o p n => some (o, p, n, e.dict)
    | _ => none

/-- `strace.py prog`, interrupted while the program is running. -/
example : ∃ r t, straceProgram programEnv pressing 9 ["prog".toList] = .ran none r t ∧ KillsOwn (· = 9) t.inner.log ∧ sent t.inner.log = [(0, 1, 9, [(1, 0)])] := by
  have h : (match straceProgram programEnv pressing 9 ["prog".toList] with
    | .ran none _ t => decide (sent t.inner.log = [(0, 1, 9, [(1, 0)])])
    | _ => false) = true := by decide +kernel
  split at h
  · rename_i r t hd
    exact ⟨r, t, hd, C148_strace _ _ _ hd, of_decide_eq_true h⟩
  · cases h

/-- `gdb.py prog`, `cont`, Control-C, the end of the input. -/
example : ∃ r t, gdbProgram programEnv pressing 9 selfCfg ["prog".toList] [.line "cont".toList, .eof] = .ran r t ∧ KillsOwn (fun n => n = 2 ∨ n = 9) t.log ∧
    sent t.log = [(0, 1, 2, [(1, 0)])] := by
  have h : (match gdbProgram programEnv pressing 9 selfCfg ["prog".toList] [.line "cont".toList, .eof] with
    | .ran _ t => decide (sent t.log = [(0, 1, 2, [(1, 0)])])
    | _ => false) = true := by decide +kernel
  split at h
  · rename_i r t hd
    exact ⟨r, t, hd, C148_gdb _ _ _ _ _ hd, of_decide_eq_true h⟩
  · cases h

/-- `terminate` of a process that is running. -/
example : KillsOwn (fun _ => True) (runOp killable 5 (.terminate 0 true) (runOp killable 5 (.cont 0 0) (runOp killable 5 (.addProcess 7 true none false) newDebugger).2).2).2.log ∧
    sent (runOp killable 5 (.terminate 0 true) (runOp killable 5 (.cont 0 0) (runOp killable 5 (.addProcess 7 true none false) newDebugger).2).2).2.log = [(0, 7, 9, [(7, 0)])] :=
  ⟨C148_library_partial (.call (.call (.call .new 5 (.addProcess 7 true none false) ⟨(by decide : 7 ≠ 0), trivial⟩) 5 (.cont 0 0) ⟨trivial, trivial⟩) 5 (.terminate 0 true)
    ⟨trivial, (by decide +kernel : 0 ∈ iterate (runOp killable 5 (.cont 0 0) (runOp killable 5 (.addProcess 7 true none false) newDebugger).2).2)⟩), by decide +kernel⟩

end PT
