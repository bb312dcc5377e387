import Verif.Lemmas.Ends
import Verif.Props.GdbProgram
import Verif.Lemmas.Debugger8

/-! ### C144: a process is taken for ended only on the word of the kernel -/

namespace PT
open Spec

variable {K : Kern} {T : Nat → Prop}

theorem vouched_empty {s : DSt} (hn : s.next = 0) (hd : s.dict = []) (hs : s.list = []) : Vouched T s := by
  refine ⟨fun o ho => ?_, fun p o hm => ?_, fun p o hm => ?_, fun o ho => ?_⟩
  · omega
  · rw [hd] at hm; cases hm
  · rw [hd] at hm; cases hm
  · rw [hs] at ho; cases ho

theorem vouched_trace {s t : DSt} {ops : List Op} (h : Trace K s ops t) (hT : ∀ o, Op.processTerminated o ∈ ops → T o) (hs : Vouched T s) : Vouched T t := by
  induction h with
  | nil => exact hs
  | snoc h fuel op ih =>
    refine (sound_runOp fuel op (ih fun o ho => hT o (List.mem_append.2 (.inl ho))) fun o ho => hT o ?_).inv
    rw [ho]
    exact List.mem_append.2 (.inr List.mem_cons_self)

/-- **C144** Whatever is done with the methods of a debugger and whatever the kernel replies: a process object counts as not running only if the kernel
told that the process is over when the object was already there, or if the user said so. -/
theorem C144_library (K : Kern) (ops : List Op) (t : DSt) (h : Trace K newDebugger ops t) (o : Nat) (ho : o < t.next) (hr : (t.heap o).running = false)
    (hp : (t.heap o).pid ≠ 0) (hT : Op.processTerminated o ∉ ops) : EndTold t.log o (t.heap o).pid := by
  have hv : Vouched (fun i => Op.processTerminated i ∈ ops) t := vouched_trace h (fun _ hx => hx) (vouched_empty rfl rfl rfl)
  exact ((hv.over o ho hr).resolve_left hp).resolve_left hT

/-- **C144** If `quit` returns without an exception, the kernel told the end of each process that was registered and had been created by the debugger. -/
theorem C144_quit_partial (K : Kern) (ops : List Op) (s t : DSt) (h : Trace K newDebugger ops s) (fuel : Nat) (hq : quit K fuel s = (.ok (), t)) (o : Nat)
    (ho : o ∈ iterate s) (hw : (s.heap o).wasAttached = true) (hp : (s.heap o).pid ≠ 0) (hT : Op.processTerminated o ∉ ops) :
    (t.heap o).running = false ∧ EndTold t.log o (s.heap o).pid := by
  have hv : Vouched (fun i => Op.processTerminated i ∈ ops) s := vouched_trace h (fun _ hx => hx) (vouched_empty rfl rfl rfl)
  have hs := sound_quit (K := K) fuel hv
  rw [hq] at hs
  have hr := hs.val () rfl o ho hw
  have hlt := hv.list o ho
  have hpid := hs.after.pid o hlt
  have := hs.inv.over o (hs.after.later.lt hlt) hr
  unfold Allowed at this
  rw [hpid] at this
  exact ⟨hr, (this.resolve_left hp).resolve_left hT⟩

/-- **C144** strace.py, from its command line to its end: no process counts as not running unless the kernel told its end. -/
theorem C144_strace (E : ProgramEnv) (K : Kern) (fuel : Nat) (args : List Str) {file : Option Str} {r : Except Exc (Option Nat)} {t : Con DSt}
    (h : straceProgram E K fuel args = .ran file r t) (o : Nat) (ho : o < t.inner.next) (hr : (t.inner.heap o).running = false) (hp : (t.inner.heap o).pid ≠ 0) :
    EndTold t.inner.log o (t.inner.heap o).pid := by
  suffices hv : Vouched (fun _ => False) t.inner from ((hv.over o ho hr).resolve_left hp).resolve_left id
  unfold straceProgram at h
  split at h
  · cases h
  · rename_i v program hv
    split at h
    · cases h
    · rename_i lines s hs
      have hk : Vouched (fun _ => False) s := by
        generalize (⟨isOn v "fork", isOn v "trace_exec", isOn v "trace_clone"⟩ : TraceOptions) = x at hs
        obtain ⟨a, b, c⟩ := x
        cases a <;> cases b <;> cases c <;> (injection hs with _ hs; injection hs with _ hs; rw [← hs]; exact vouched_empty rfl rfl rfl)
      have key : ∀ (pid : Nat) (b : Bool) (F : LineView), Vouched (fun _ => False)
          (straceMainOut K fuel (cfgBy E v) F (textsBy E program) pid b ⟨s, lines⟩).2.inner := fun pid b F => by
        rw [(C130_same K fuel (cfgBy E v) F (textsBy E program) pid b ⟨s, lines⟩).2]
        exact (sound_straceMain (K := K) fuel hk (cfgBy E v) pid b).inv
      dsimp only at h
      cases hb : tracedBy v program with
      | attach n =>
        rw [hb] at h
        cases h
        exact key _ false _
      | start p =>
        rw [hb] at h
        cases h
        exact key _ true _

/-- Whether the process is stopped after these calls: a wait told of a stop, and it was not let go on since. -/
def stoppedIn (log : List Entry) : Bool :=
  log.foldl (fun b e => match e.call, e.reply with
    | .waitpid _ _ _, .ok _ _ => true
    | .cont _ _ _, .ok _ _ => false
    | .singlestep _ _, .ok _ _ => false
    | .syscall _ _ _, .ok _ _ => false
    | _, _ => b) false

/-- A kernel as described in ptrace(2): a request for a process that is not stopped fails with `ESRCH`. The program stops at its start; its first single step
is a system call that does not return, and the user interrupts the wait. -/
def dozing : Kern := fun log c =>
  match c with
  | .waitpid (some p) _ _ => if log.any (fun e => match e.call with
      | .singlestep _ _ => true
      | _ => false) then .interrupt else .ok p 0x57f
  | .cont _ _ _ => if stoppedIn log then .ok 0 0 else .err 3
  | .singlestep _ _ => if stoppedIn log then .ok 0 0 else .err 3
  | .syscall _ _ _ => if stoppedIn log then .ok 0 0 else .err 3
  | .detach _ _ => if stoppedIn log then .ok 0 0 else .err 3
  | _ => .ok 0 0

/-- The session: `gdb.py prog`, `stepi`, then the end of the input. -/
def dozed : GdbEnded := gdbProgram programEnv dozing 9 promptCfg ["prog".toList] [.line "stepi".toList, .eof]

/-- **C144 refuted** as far as the word of the kernel is taken for more than it says: `gdb.py prog`, the user types `stepi`, interrupts it and leaves. `singleStep`
does not note that the process is not stopped any more, so that `terminate` kills it by PTRACE_CONT; this fails with `ESRCH`, because the process is running, and gdb.py
takes it for ended. The process gets no SIGKILL, is not detached, and is left alone; its end was not told by any wait. -/
theorem C144_step_refuted : ∃ r t, dozed = .ran (.ok r) t ∧
    (t.heap 0).wasAttached = true ∧ (t.heap 0).running = false ∧ iterate t = [] ∧ stoppedIn t.log = false ∧
    (∀ e ∈ t.log, (∃ v st, e.reply = .ok v st) → sends e.call ≠ some 9) ∧
    (∀ e ∈ t.log, ∀ w a b v st, e.call = .waitpid w a b → e.reply = .ok v st → ¬ OverStatus st) ∧
    ∃ e ∈ t.log, e.call = .cont 0 1 9 ∧ e.reply = .err 3 := by
  have h : (match dozed with
    | .ran (.ok _) t => decide ((t.heap 0).wasAttached = true ∧ (t.heap 0).running = false ∧ iterate t = [] ∧
        t.log = [⟨.waitpid (some 1) false false, .ok 1 0x57f, [(1, 0)]⟩, ⟨.setoptions 0 1 1, .ok 0 0, [(1, 0)]⟩, ⟨.singlestep 0 1, .ok 0 0, [(1, 0)]⟩,
          ⟨.waitpid (some 1) false false, .interrupt, [(1, 0)]⟩, ⟨.cont 0 1 9, .err 3, [(1, 0)]⟩])
    | _ => false) = true := by decide +kernel
  match hd : dozed with
  | .early _ => rw [hd] at h; cases h
  | .ran (.error _) _ => rw [hd] at h; cases h
  | .ran (.ok r) t =>
    rw [hd] at h
    obtain ⟨h1, h2, h3, h4⟩ := of_decide_eq_true h
    refine ⟨r, t, rfl, h1, h2, h3, ?_, ?_, ?_, ?_⟩ <;> rw [h4]
    · decide
    · intro e he hx
      simp only [List.mem_cons, List.not_mem_nil, or_false] at he
      rcases he with rfl | rfl | rfl | rfl | rfl
      · decide
      · decide
      · decide
      · decide
      · obtain ⟨v, st, hx⟩ := hx
        cases hx
    · intro e he w a b v st hc hx ho
      have key : ¬ OverStatus 0x57f := by
        have hm : waitMeaning 0x57f = .signal 5 := by decide
        rintro (⟨c, hc⟩ | ⟨c, hc⟩) <;> rw [hm] at hc <;> cases hc
      simp only [List.mem_cons, List.not_mem_nil, or_false] at he
      rcases he with rfl | rfl | rfl | rfl | rfl <;> cases hc <;> cases hx
      exact key ho
    · exact ⟨⟨.cont 0 1 9, .err 3, [(1, 0)]⟩, by simp, rfl, rfl⟩

/-- In a session of `stepi` that is not interrupted in this way the end is told: the kernel of C28 lets both processes end. -/
example : ∃ t, Trace killable newDebugger [.addProcess 7 true none false, .addProcess 8 false none false] t ∧ (quit killable 5 t).1 = .ok () ∧
    0 ∈ iterate t ∧ (t.heap 0).wasAttached = true ∧ (t.heap 0).pid ≠ 0 :=
  ⟨_, .snoc (.snoc (.nil) 5 _) 5 _, by decide +kernel⟩

/-- The kernel speaks of another process, or of a stop, or spoke before the object was there: none of these is its word. -/
example : ¬ EndTold [⟨.waitpid (some 7) false false, .ok 8 0, [(8, 1), (7, 0)]⟩, ⟨.waitpid (some 7) false false, .ok 7 0x137f, [(8, 1), (7, 0)]⟩] 0 7 ∧
    ¬ EndTold [⟨.waitpid (some 7) false false, .ok 7 0, [(7, 0)]⟩] 1 7 ∧ EndTold [⟨.waitpid (some 7) false false, .ok 7 0, [(7, 0)]⟩] 0 7 := by
  have key : ¬ OverStatus 0x137f := by
    have hm : waitMeaning 0x137f = .signal 19 := by decide
    rintro (⟨c, hc⟩ | ⟨c, hc⟩) <;> rw [hm] at hc <;> cases hc
  refine ⟨?_, ?_, ?_⟩
  · rintro ⟨e, he, ht, -⟩
    simp only [List.mem_cons, List.not_mem_nil, or_false] at he
    rcases he with rfl | rfl <;> rcases ht with ⟨w, a, b, st, hc, hr, ho⟩ | ⟨a, b, hc, hr⟩ | ⟨o, hc, hr⟩ <;> cases hr <;> cases hc
    exact key ho
  · rintro ⟨e, he, -, ⟨n, hn⟩ | ⟨o, ho, hm⟩⟩
    · simp only [List.mem_cons, List.not_mem_nil, or_false] at he
      rw [he] at hn
      cases hn
    · simp only [List.mem_cons, List.not_mem_nil, or_false] at he
      rw [he] at hm
      simp at hm
      omega
  · exact ⟨_, List.mem_cons_self, .inl ⟨_, _, _, _, rfl, rfl, .inl ⟨0, by decide⟩⟩, .inr ⟨0, Nat.le_refl _, List.mem_cons_self⟩⟩

end PT
