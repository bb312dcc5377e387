import Verif.Lemmas.Asks3
import Verif.Props.Ends

/-! C145: requests are made to stopped processes. -/

namespace PT
open Spec

variable {K : Kern}

theorem core_empty {s : DSt} (hl : s.log = []) (hn : s.next = 0) (hr : RegInv s) : Core (fun _ => True) (fun _ => False) none s := by
  refine ⟨hr, fun before e after h => ?_, fun o ho => ?_, fun o ho => ?_, fun _ h => (by cases h), fun e he => ?_, fun o ho => ?_⟩
  · rw [hl] at h
    have := congrArg List.length h
    simp at this
  · have := hr.alloc o ho
    omega
  · have := hr.alloc o ho
    omega
  · rw [hl] at he
    cases he
  · omega

/-- **C145, partial** strace.py, started in any way: provided the kernel tells the truth about the processes it is asked about, and provided the user does not interrupt the
wait for the first stop of a process, each request that the kernel grants for a stopped process only (PTRACE_CONT, PTRACE_SYSCALL, PTRACE_SINGLESTEP, PTRACE_SETOPTIONS,
PTRACE_GETEVENTMSG, reading registers) is made while the process is stopped: its stop was told, and since then it was not let go, nor was its end told. This holds for all
calls up to the end of strace.py, with any number of processes, failing requests and interrupts. -/
theorem C145_strace_partial (E : ProgramEnv) (fuel : Nat) (args : List Str) {file : Option Str} {r : Except Exc (Option Nat)} {t : Con DSt}
    (h : straceProgram E K fuel args = .ran file r t) (h1 : TruthfulLog t.inner.log) (h2 : PatientLog t.inner.log) : AsksStopped t.inner.log := by
  have hl := lawful_of h1 h2
  unfold straceProgram at h
  split at h
  · cases h
  · rename_i v program hv
    split at h
    · cases h
    · rename_i lines s hs
      have hk : Core (fun _ => True) (fun _ => False) none s := by
        have hreg : ∀ {s : DSt}, s.dict = [] → s.list = [] → (∀ o, (s.heap o).isAttached = false) → RegInv s := fun {s} h1 h2 h3 =>
          ⟨by rw [h1]; simp, by rw [h2]; simp, fun p o => by rw [h1, h2]; simp, fun o ho => (by rw [h2] at ho; cases ho), fun o ho => by rw [h3 o] at ho; cases ho⟩
        generalize (⟨isOn v "fork", isOn v "trace_exec", isOn v "trace_clone"⟩ : TraceOptions) = x at hs
        obtain ⟨a, b, c⟩ := x
        cases a <;> cases b <;> cases c <;> (injection hs with _ hs; injection hs with _ hs; rw [← hs]; exact core_empty rfl rfl (hreg rfl rfl fun _ => rfl))
      have key : ∀ (pid : Nat) (b : Bool) (F : LineView), Lawful (straceMainOut K fuel (cfgBy E v) F (textsBy E program) pid b ⟨s, lines⟩).2.inner.log →
          AsksStopped (straceMainOut K fuel (cfgBy E v) F (textsBy E program) pid b ⟨s, lines⟩).2.inner.log := fun pid b F => by
        rw [(C130_same K fuel (cfgBy E v) F (textsBy E program) pid b ⟨s, lines⟩).2]
        exact asked_main fuel (cfgBy E v) pid b hk
      dsimp only at h
      cases hb : tracedBy v program with
      | attach n =>
        rw [hb] at h
        cases h
        exact key _ false _ hl
      | start p =>
        rw [hb] at h
        cases h
        exact key _ true _ hl

/-! ### deciding it for given calls -/

/-- Whether a stop was told by this entry. -/
def stopTold (o : Nat) (e : Entry) : Bool :=
  match e.call, e.reply with
  | .waitpid _ _ _, .ok p st => p ≠ 0 && e.dict.contains (p, o) && match waitMeaning st with
    | .signal _ => true
    | .event _ => true
    | _ => false
  | _, _ => false

theorem stopTold_iff (o : Nat) (e : Entry) : StopTold o e ↔ stopTold o e = true := by
  obtain ⟨c, r, d⟩ := e
  unfold StopTold stopTold
  constructor
  · rintro ⟨w, nh, wl, p, st, rfl, rfl, h1, h2, h3⟩
    rcases h3 with ⟨n, h3⟩ | ⟨n, h3⟩ <;> simp [h1, h2, h3]
  · intro h
    split at h
    · rename_i w nh wl p st hc hr
      simp only [Bool.and_eq_true, decide_eq_true_eq, List.contains_iff_mem] at h
      refine ⟨w, nh, wl, p, st, hc, hr, by simpa using h.1.1, by simpa using h.1.2, ?_⟩
      cases hm : waitMeaning st with
      | signal n => exact .inl ⟨n, rfl⟩
      | event n => exact .inr ⟨n, rfl⟩
      | exited n => rw [hm] at h; exact absurd h.2 (by simp)
      | killed n => rw [hm] at h; exact absurd h.2 (by simp)
      | unknown => rw [hm] at h; exact absurd h.2 (by simp)
    · cases h

/-- Whether it was let go, or its end was told, by this entry. -/
def movedOn (o : Nat) (e : Entry) : Bool :=
  match e.call, e.reply with
  | .waitpid _ _ _, .ok p st => p ≠ 0 && e.dict.contains (p, o) && match waitMeaning st with
    | .exited _ => true
    | .killed _ => true
    | _ => false
  | .cont i _ _, .ok _ _ => i = o
  | .syscall i _ _, .ok _ _ => i = o
  | .singlestep i _, .ok _ _ => i = o
  | .detach i _, .ok _ _ => i = o
  | _, _ => false

theorem movedOn_iff (o : Nat) (e : Entry) : (LetGo o e ∨ OverTold o e) ↔ movedOn o e = true := by
  obtain ⟨c, r, d⟩ := e
  constructor
  · rintro (⟨⟨v, st, hr⟩, ⟨p, n, hc⟩ | ⟨p, n, hc⟩ | ⟨p, hc⟩ | ⟨p, hc⟩⟩ | ⟨w, nh, wl, p, st, hc, hr, h1, h2, h3⟩)
    · subst hc hr
      simp [movedOn]
    · subst hc hr
      simp [movedOn]
    · subst hc hr
      simp [movedOn]
    · subst hc hr
      simp [movedOn]
    · subst hc hr
      rcases h3 with ⟨n, h3⟩ | ⟨n, h3⟩ <;> simp [movedOn, h1, h2, h3]
  · intro h
    unfold movedOn at h
    split at h
    · rename_i w nh wl p st hc hr
      simp only [Bool.and_eq_true, decide_eq_true_eq, List.contains_iff_mem] at h
      refine .inr ⟨w, nh, wl, p, st, hc, hr, by simpa using h.1.1, by simpa using h.1.2, ?_⟩
      cases hm : waitMeaning st with
      | signal n => rw [hm] at h; exact absurd h.2 (by simp)
      | event n => rw [hm] at h; exact absurd h.2 (by simp)
      | exited n => exact .inl ⟨n, rfl⟩
      | killed n => exact .inr ⟨n, rfl⟩
      | unknown => rw [hm] at h; exact absurd h.2 (by simp)
    · rename_i i p n v st hc hr
      have hi : i = o := by simpa using h
      exact .inl ⟨⟨v, st, hr⟩, .inl ⟨p, n, hi ▸ hc⟩⟩
    · rename_i i p n v st hc hr
      have hi : i = o := by simpa using h
      exact .inl ⟨⟨v, st, hr⟩, .inr (.inl ⟨p, n, hi ▸ hc⟩)⟩
    · rename_i i p v st hc hr
      have hi : i = o := by simpa using h
      exact .inl ⟨⟨v, st, hr⟩, .inr (.inr (.inl ⟨p, hi ▸ hc⟩))⟩
    · rename_i i p v st hc hr
      have hi : i = o := by simpa using h
      exact .inl ⟨⟨v, st, hr⟩, .inr (.inr (.inr ⟨p, hi ▸ hc⟩))⟩
    · cases h

/-- Whether it is stopped after these calls; newest first. -/
def isAtRest (o : Nat) : List Entry → Bool
  | [] => false
  | e :: log => stopTold o e || (!movedOn o e && isAtRest o log)

theorem isAtRest_iff (o : Nat) (log : List Entry) : AtRest o log ↔ isAtRest o log.reverse = true := by
  obtain ⟨l, rfl⟩ : ∃ l : List Entry, log = l.reverse := ⟨log.reverse, by simp⟩
  rw [List.reverse_reverse]
  induction l with
  | nil =>
    constructor
    · rintro ⟨b, e, a, h, _⟩
      have := congrArg List.length h
      simp at this
    · intro h
      cases h
  | cons e l ih =>
    rw [List.reverse_cons]
    show _ ↔ (stopTold o e || (!movedOn o e && isAtRest o l)) = true
    rw [Bool.or_eq_true, Bool.and_eq_true, ← ih, ← stopTold_iff, Bool.not_eq_true', ← Bool.not_eq_true, ← movedOn_iff]
    constructor
    · rintro ⟨b, x, a, h, h1, h2⟩
      rcases snoc_split h with ⟨_, rfl, _⟩ | ⟨l, rfl, hr⟩
      · exact .inl h1
      · have := h2 e (by simp)
        exact .inr ⟨fun hx => hx.elim this.1 this.2, b, x, l, hr, h1, fun e' he => h2 e' (by simp [he])⟩
    · rintro (h | ⟨h1, h2⟩)
      · exact AtRest.now h
      · exact AtRest.snoc h2 (fun hx => h1 (.inl hx)) fun hx => h1 (.inr hx)

instance (o : Nat) (log : List Entry) : Decidable (AtRest o log) := decidable_of_iff _ (isAtRest_iff o log).symm

instance (o : Nat) (e : Entry) : Decidable (StopTold o e) := decidable_of_iff _ (stopTold_iff o e).symm

/-- Each call meets a condition on it and on the calls before; newest first. -/
def Each (P : List Entry → Entry → Prop) : List Entry → Prop
  | [] => True
  | e :: log => P log.reverse e ∧ Each P log

instance Each.dec (P : List Entry → Entry → Prop) [∀ b e, Decidable (P b e)] : ∀ log, Decidable (Each P log)
  | [] => .isTrue trivial
  | e :: log => have := Each.dec P log; inferInstanceAs (Decidable (P log.reverse e ∧ Each P log))

theorem each_iff (P : List Entry → Entry → Prop) (log : List Entry) : (∀ before e after, log = before ++ e :: after → P before e) ↔ Each P log.reverse := by
  obtain ⟨l, rfl⟩ : ∃ l : List Entry, log = l.reverse := ⟨log.reverse, by simp⟩
  rw [List.reverse_reverse]
  induction l with
  | nil =>
    refine ⟨fun _ => trivial, fun _ b e a h => ?_⟩
    have := congrArg List.length h
    simp at this
  | cons e l ih =>
    rw [List.reverse_cons]
    constructor
    · exact fun h => ⟨h l.reverse e [] rfl, ih.1 fun b x a hx => h b x (a ++ [e]) (by rw [hx]; simp)⟩
    · rintro ⟨h1, h2⟩ b x a hx
      rcases snoc_split hx with ⟨_, rfl, rfl⟩ | ⟨l', _, hr⟩
      · exact h1
      · exact ih.2 h2 b x l' hr

instance (b : List Entry) (e : Entry) : Decidable (∀ o, asks e.call = some o → AtRest o b) :=
  match h : asks e.call with
  | none => .isTrue fun _ hx => by cases hx
  | some o => decidable_of_iff (AtRest o b) ⟨fun hx i hi => by cases hi; exact hx, fun hx => hx o rfl⟩

instance (b : List Entry) (e : Entry) : Decidable (∀ o p, e.call = .detach o p → AtRest o b) :=
  match h : e.call with
  | .detach o p => decidable_of_iff (AtRest o b) ⟨fun hx i q hi => by cases hi; exact hx, fun hx => hx o p rfl⟩
  | .attach _ _ | .cont _ _ _ | .syscall _ _ _ | .singlestep _ _ | .kill _ _ _ | .setoptions _ _ _ | .geteventmsg _ _ | .waitpid _ _ _ | .sleep | .display _ _
  | .inspect _ _ => .isTrue fun _ _ hx => by cases hx

instance (b : List Entry) (e : Entry) : Decidable (PatientAt b e) := by
  unfold PatientAt
  split <;> infer_instance

instance : DecidablePred TruthfulEntry := fun e => by
  unfold TruthfulEntry
  split <;> infer_instance

instance (log : List Entry) : Decidable (AsksStopped log) := decidable_of_iff _ (each_iff (fun b e => ∀ o, asks e.call = some o → AtRest o b) log).symm

instance (log : List Entry) : Decidable (DetachesStopped log) := decidable_of_iff _ (each_iff (fun b e => ∀ o p, e.call = .detach o p → AtRest o b) log).symm

instance (log : List Entry) : Decidable (PatientLog log) := decidable_of_iff _ (each_iff PatientAt log).symm

instance (log : List Entry) : Decidable (TruthfulLog log) := inferInstanceAs (Decidable (∀ e ∈ log, TruthfulEntry e))

/-! ### where it fails -/

/-- A kernel as described in ptrace(2): a request for a process that is not stopped fails with `ESRCH`. The process stops after PTRACE_ATTACH and makes no system call;
the user interrupts the wait for one. -/
def idling : Kern := fun log c =>
  match c with
  | .waitpid (some p) _ _ => if log.any (fun e => match e.call with
      | .syscall _ _ _ => true
      | _ => false) then .interrupt else .ok p 0x137f
  | .cont o _ _ | .singlestep o _ | .syscall o _ _ | .detach o _ | .setoptions o _ _ | .inspect o _ => if AtRest o log then .ok 0 0 else .err 3
  | _ => .ok 0 0

/-- **C145 refuted** for detaching: `strace.py -p 7`, interrupted by the user while the process is running, asks the kernel to detach it, which it does not do for a process
that is not stopped. strace.py ends with the exception, before it detaches the other processes. -/
theorem C145_detach_refuted : ∃ r t, straceProgram programEnv idling 9 ["-p".toList, "7".toList] = .ran none (.error r) t ∧ r = .ptrace (some 3) ∧
    TruthfulLog t.inner.log ∧ PatientLog t.inner.log ∧ ¬ DetachesStopped t.inner.log ∧ iterate t.inner = [0] := by
  have h : (match straceProgram programEnv idling 9 ["-p".toList, "7".toList] with
    | .ran none (.error (.ptrace (some 3))) t => decide (TruthfulLog t.inner.log ∧ PatientLog t.inner.log ∧ ¬ DetachesStopped t.inner.log ∧ iterate t.inner = [0])
    | _ => false) = true := by decide +kernel
  split at h
  · rename_i t hd
    exact ⟨_, t, hd, rfl, of_decide_eq_true h⟩
  · cases h

/-- The kernel of the first wait that is interrupted; otherwise as above. -/
def hasty : Kern := fun log c =>
  match c with
  | .waitpid _ _ _ => .interrupt
  | c => idling log c

/-- **C145 refuted** without patience: `strace.py prog`, interrupted before the first stop of the program is told. `addProcess` goes on and asks for options, which the
kernel refuses; strace.py gives up and takes the program, which it believes to be stopped, for ended, because PTRACE_CONT fails, too. It ends with status 0, and the program
was neither killed nor detached; the only requests are these two, and both failed. -/
theorem C145_first_refuted : ∃ t, straceProgram programEnv hasty 9 ["prog".toList] = .ran none (.ok none) t ∧ TruthfulLog t.inner.log ∧ ¬ AsksStopped t.inner.log ∧
    iterate t.inner = [] ∧ t.inner.log.map (fun e => (e.call, e.reply)) =
      [(.waitpid (some 1) false false, .interrupt), (.setoptions 0 1 1, .err 3), (.cont 0 1 9, .err 3)] := by
  have h : (match straceProgram programEnv hasty 9 ["prog".toList] with
    | .ran none (.ok none) t => decide (TruthfulLog t.inner.log ∧ ¬ AsksStopped t.inner.log ∧ iterate t.inner = [] ∧ t.inner.log.map (fun e => (e.call, e.reply)) =
      [(.waitpid (some 1) false false, .interrupt), (.setoptions 0 1 1, .err 3), (.cont 0 1 9, .err 3)])
    | _ => false) = true := by decide +kernel
  split at h
  · rename_i t hd
    exact ⟨t, hd, of_decide_eq_true h⟩
  · cases h

/-- **C145 refuted** for gdb.py: the session of C144, which is truthful and patient. -/
theorem C145_gdb_refuted : ∃ r t, dozed = .ran r t ∧ TruthfulLog t.log ∧ PatientLog t.log ∧ ¬ AsksStopped t.log := by
  have h : (match dozed with
    | .ran _ t => decide (TruthfulLog t.log ∧ PatientLog t.log ∧ ¬ AsksStopped t.log)
    | _ => false) = true := by decide +kernel
  split at h
  · rename_i r t hd
    exact ⟨r, t, hd, of_decide_eq_true h⟩
  · cases h

/-! ### what this says -/

/-- The kernel tells of another process, or of the end, or the process was let go since: then it is not stopped. -/
example : ¬ AtRest 0 [⟨.waitpid (some 8) false false, .ok 8 0x137f, [(8, 1), (7, 0)]⟩] ∧ ¬ AtRest 0 [⟨.waitpid (some 7) false false, .ok 7 0x100, [(7, 0)]⟩] ∧
    ¬ AtRest 0 [⟨.waitpid (some 7) false false, .ok 7 0x137f, [(7, 0)]⟩, ⟨.syscall 0 7 0, .ok 0 0, [(7, 0)]⟩] ∧
    AtRest 0 [⟨.waitpid (some 7) false false, .ok 7 0x137f, [(8, 1), (7, 0)]⟩, ⟨.syscall 1 8 0, .ok 0 0, [(8, 1), (7, 0)]⟩] ∧
    ¬ AsksStopped [⟨.cont 0 7 9, .ok 0 0, []⟩] := by decide

/-- A kernel as above for `strace.py -f prog`: the program (1) makes a system call, forks (8), and both end. -/
def branching : Kern := fun log c =>
  match c with
  | .waitpid (some p) _ _ => .ok p ((if p = 1 then [0x137f, 0x857f, 0x857f, 0x1057f, 0x857f, 0x300] else [0x137f, 0x857f, 0x857f, 0x200]).getD
      (log.filter fun e => match e.call with
        | .waitpid (some q) _ _ => q == p
        | _ => false).length 0)
  | .geteventmsg o _ => if AtRest o log then .ok 8 0 else .err 3
  | .cont o _ _ | .singlestep o _ | .syscall o _ _ | .detach o _ | .setoptions o _ _ | .inspect o _ => if AtRest o log then .ok 0 0 else .err 3
  | _ => .ok 0 0

/-- The theorem at work: the hypotheses hold of this run, no request fails, and 19 are made, of two processes. -/
example : ∃ r t, straceProgram programEnv branching 40 ["-f".toList, "prog".toList] = .ran none (.ok r) t ∧ TruthfulLog t.inner.log ∧ PatientLog t.inner.log ∧
    AsksStopped t.inner.log ∧ t.inner.log.filterMap (fun e => asks e.call) = [0, 0, 0, 0, 0, 0, 0, 0, 1, 1, 0, 0, 0, 0, 1, 1, 1, 1, 1] ∧ ∀ e ∈ t.inner.log, e.reply ≠ .err 3 := by
  have h : (match straceProgram programEnv branching 40 ["-f".toList, "prog".toList] with
    | .ran none (.ok r) t => decide (TruthfulLog t.inner.log ∧ PatientLog t.inner.log ∧ AsksStopped t.inner.log ∧
        t.inner.log.filterMap (fun e => asks e.call) = [0, 0, 0, 0, 0, 0, 0, 0, 1, 1, 0, 0, 0, 0, 1, 1, 1, 1, 1] ∧ ∀ e ∈ t.inner.log, e.reply ≠ .err 3)
    | _ => false) = true := by decide +kernel
  split at h
  · rename_i r t hd
    exact ⟨r, t, hd, of_decide_eq_true h⟩
  · cases h

end PT
