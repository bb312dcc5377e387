import Verif.Model.Strace

/-! A run depends on the kernel only through the replies to the requests it makes: two kernels that give the same replies along the way give the
same run. So a theorem for kernels that behave well after every log carries over to kernels that behave well after the logs that occur. -/

namespace PT

/-- Two kernels give the same replies to the requests of a run, from one log to another. -/
def Agree (K K' : Kern) (l l' : List Entry) : Prop := ∀ p e, l <+: p → p ++ [e] <+: l' → K' p e.call = K p e.call

theorem Agree.left {K K' : Kern} {l m n : List Entry} (h : Agree K K' l n) (hm : m <+: n) : Agree K K' l m :=
  fun p e h1 h2 => h p e h1 (h2.trans hm)

theorem Agree.right {K K' : Kern} {l m n : List Entry} (h : Agree K K' l n) (hl : l <+: m) : Agree K K' m n :=
  fun p e h1 h2 => h p e (hl.trans h1) h2

/-- The outcome depends on the replies only, and the log grows. The log tells the replies of the kernel, and the next request depends on those before. -/
structure LocalAt {α : Type} (l : List Entry) (r : Kern → Except Exc α × DSt) : Prop where
  grows : ∀ K, l <+: (r K).2.log
  agree : ∀ K K', Agree K K' l (r K).2.log → r K' = r K
  honest : ∀ K p e, l <+: p → p ++ [e] <+: (r K).2.log → e.reply = K p e.call
  next : ∀ K K' p e, l <+: p → p ++ [e] <+: (r K).2.log → Agree K K' l p → ∃ v, p ++ [{ e with reply := v }] <+: (r K').2.log

theorem prefix_snoc_absurd {l p : List Entry} {e : Entry} (h1 : l <+: p) (h2 : p ++ [e] <+: l) : False := by
  have := h1.length_le
  have := h2.length_le
  simp at this
  omega

namespace LocalAt
variable {α β : Type} {s : DSt}

/-- What asks for nothing. -/
theorem const {r : Except Exc α} {t : DSt} (h : t.log = s.log) : LocalAt s.log (fun _ => (r, t)) :=
  ⟨fun _ => by rw [h]; exact List.prefix_refl _, fun _ _ _ => rfl, fun _ _ _ h1 h2 => (prefix_snoc_absurd h1 (h ▸ h2)).elim,
    fun _ _ _ _ h1 h2 => (prefix_snoc_absurd h1 (h ▸ h2)).elim⟩

theorem pure (a : α) : LocalAt s.log (fun _ => Py.pure a s) := const rfl
theorem raise (e : Exc) : LocalAt s.log (fun _ => (Py.raise e : Py DSt α) s) := const rfl
theorem upd (o : Nat) (f : Proc → Proc) : LocalAt s.log (fun _ => updProc o f s) := const rfl
theorem updS (o : Nat) (f : SysState → SysState) : LocalAt s.log (fun _ => updSys o f s) := const rfl

/-- One thing after the other, whatever comes of the first. -/
theorem case {γ : Type} {m : Kern → Except Exc α × DSt} {F : Kern → Except Exc α → DSt → Except Exc γ × DSt} (hm : LocalAt s.log m)
    (hF : ∀ r t, LocalAt t.log (fun K => F K r t)) : LocalAt s.log (fun K => F K (m K).1 (m K).2) := by
  have cmp : ∀ K (p : List Entry) (e : Entry), p ++ [e] <+: (F K (m K).1 (m K).2).2.log → p ++ [e] <+: (m K).2.log ∨ (m K).2.log <+: p := by
    intro K p e h
    rcases Nat.lt_or_ge p.length (m K).2.log.length with hl | hl
    · exact Or.inl (List.prefix_of_prefix_length_le h ((hF _ _).grows K) (by simp; omega))
    · exact Or.inr (List.prefix_of_prefix_length_le ((hF _ _).grows K) ((List.prefix_append _ _).trans h) hl)
  refine ⟨fun K => (hm.grows K).trans ((hF _ _).grows K), fun K K' h => ?_, fun K p e h1 h2 => ?_, fun K K' p e h1 h2 h3 => ?_⟩
  · have e := hm.agree K K' (h.left ((hF _ _).grows K))
    show F K' (m K').1 (m K').2 = _
    rw [e]
    exact (hF _ _).agree K K' (h.right (hm.grows K))
  · rcases cmp K p e h2 with h | h
    · exact hm.honest K p e h1 h
    · exact (hF _ _).honest K p e h h2
  · rcases cmp K p e h2 with h | h
    · obtain ⟨v, hv⟩ := hm.next K K' p e h1 h h3
      exact ⟨v, hv.trans ((hF _ _).grows K')⟩
    · have e1 := hm.agree K K' (h3.left h)
      obtain ⟨v, hv⟩ := (hF _ _).next K K' p e h h2 (h3.right (hm.grows K))
      exact ⟨v, by show _ <+: (F K' (m K').1 (m K').2).2.log; rw [e1]; exact hv⟩

/-- The same, for a `match` on the outcome. -/
theorem pair {γ : Type} {m : Kern → Except Exc α × DSt} {F : Kern → Except Exc α × DSt → Except Exc γ × DSt} (hm : LocalAt s.log m)
    (hF : ∀ r t, LocalAt t.log (fun K => F K (r, t))) : LocalAt s.log (fun K => F K (m K)) :=
  case (F := fun K r t => F K (r, t)) hm hF

theorem bind {m : Kern → Py DSt α} {f : Kern → α → Py DSt β} (hm : LocalAt s.log (fun K => m K s))
    (hf : ∀ a t, LocalAt t.log (fun K => f K a t)) : LocalAt s.log (fun K => Py.bind (m K) (f K) s) := by
  have := case (F := fun K r t => match r with
    | .ok a => f K a t
    | .error e => (.error e, t)) hm (fun r t => by
      cases r with
      | ok a => exact hf a t
      | error e => exact const rfl)
  have e : (fun K => Py.bind (m K) (f K) s) = (fun K => match (m K s).1 with
    | .ok a => f K a (m K s).2
    | .error e => (.error e, (m K s).2)) := by
    funext K
    unfold Py.bind
    rcases m K s with ⟨r, t⟩
    cases r <;> rfl
  rw [e]
  exact this

theorem sys (c : Call) : LocalAt s.log (fun K => sysc K c s) := by
  have one : ∀ (K : Kern) (p : List Entry) (e : Entry), s.log <+: p → p ++ [e] <+: s.log ++ [⟨c, K s.log c, s.dict⟩] →
      p = s.log ∧ e = ⟨c, K s.log c, s.dict⟩ := by
    intro K p e h1 h2
    have hl := h2.length_le
    simp only [List.length_append, List.length_singleton] at hl
    have hp : s.log = p := h1.eq_of_length (by have := h1.length_le; omega)
    subst hp
    have := h2.eq_of_length (by simp)
    simpa using this
  refine ⟨fun K => List.prefix_append _ _, fun K K' h => ?_, fun K p e h1 h2 => ?_, fun K K' p e h1 h2 h3 => ?_⟩
  · have := h s.log _ (List.prefix_refl _) (List.prefix_refl _)
    unfold sysc
    dsimp only at this
    rw [this]
  · obtain ⟨rfl, rfl⟩ := one K p e h1 h2
    rfl
  · obtain ⟨rfl, rfl⟩ := one K p e h1 h2
    exact ⟨K' s.log c, List.prefix_refl _⟩

theorem ptrace (c : Call) : LocalAt s.log (fun K => ptraceCall K c s) := by
  unfold ptraceCall
  refine LocalAt.bind (sys c) fun r t => ?_
  cases r with
  | ok v st => exact pure v
  | err e => exact raise _
  | interrupt => exact raise _

theorem os (c : Call) : LocalAt s.log (fun K => osCall K c s) := by
  unfold osCall
  refine LocalAt.bind (sys c) fun r t => ?_
  cases r with
  | ok v st => exact pure _
  | err e => exact raise _
  | interrupt => exact raise _

theorem void {m : Kern → Py DSt α} (hm : LocalAt s.log (fun K => m K s)) : LocalAt s.log (fun K => PT.void (m K) s) :=
  LocalAt.bind hm fun _ _ => pure ()
end LocalAt

/-- A function of the debugger. -/
def Local {α : Type} (m : Kern → Py DSt α) : Prop := ∀ s, LocalAt s.log (fun K => m K s)

open LocalAt (case const pure raise upd updS ptrace os)

theorem local_detach (o : Nat) : Local fun K => detach K o := by
  intro s
  unfold detach
  dsimp only
  by_cases h : (s.heap o).isAttached
  · simp only [h, if_true]
    refine LocalAt.bind (upd o _) fun _ t => LocalAt.bind ?_ fun _ t => const rfl
    split
    · exact LocalAt.bind (ptrace _) fun _ _ => pure ()
    · exact pure ()
  · simp only [h]
    exact const rfl

theorem local_notRunning (o : Nat) : Local fun K => notRunning K o := fun _ => LocalAt.bind (upd o _) fun _ t => local_detach o t
theorem local_cont (o n : Nat) : Local fun K => procCont K o n := fun _ => LocalAt.bind (ptrace _) fun _ _ => upd o _
theorem local_syscall (o n : Nat) : Local fun K => procSyscall K o n := fun _ => LocalAt.bind (ptrace _) fun _ _ => upd o _
theorem local_singleStep (o : Nat) : Local fun K => procSingleStep K o := fun _ => LocalAt.bind (ptrace _) fun _ _ => pure ()
theorem local_kill (o n : Nat) : Local fun K => procKill K o n := fun _ => LocalAt.bind (os _) fun _ _ => pure ()
theorem local_setoptions (o n : Nat) : Local fun K => procSetoptions K o n := fun _ => LocalAt.bind (ptrace _) fun _ _ => pure ()
theorem local_display (o : Nat) : Local fun K => eventDisplay K o := fun _ => LocalAt.bind (ptrace _) fun _ _ => pure ()

theorem local_newProc (pid : Nat) (b : Bool) (p : Option Nat) (t : Bool) : Local fun K => newProc K pid b p t := by
  intro s
  unfold newProc
  refine LocalAt.bind ?_ fun _ t => const rfl
  cases b with
  | true => exact pure ()
  | false => exact LocalAt.bind (ptrace _) fun _ _ => pure ()

/-- The function that waits for a process. -/
def LocalWait (W : Kern → WaitPid) : Prop := ∀ p b, Local fun K => W K p b

theorem local_filterEvent (signals : List Nat) (e : Option Event) : Local fun _ => filterEvent signals e := by
  intro s
  suffices key : (filterEvent signals e s).2.log = s.log by
    exact const (r := (filterEvent signals e s).1) (t := (filterEvent signals e s).2) key
  unfold filterEvent
  rcases e with _ | e
  · rfl
  · cases e with
    | signal o n => dsimp only; split <;> rfl
    | _ => rfl

theorem local_addExcept (o : Nat) (e : Exc) : Local fun K => addProcessExcept K o e := by
  intro t
  unfold addProcessExcept
  have key : LocalAt t.log (fun K => (Py.bind (updProc o fun p => { p with isAttached := false }) fun _ =>
      Py.bind (detach K o) fun _ => (Py.raise e : Py DSt Unit)) t) :=
    LocalAt.bind (upd o _) fun _ t => LocalAt.bind (local_detach o t) fun _ t => raise e
  cases e with
  | interrupt => exact pure ()
  | event ev =>
    cases ev with
    | signal q n => exact local_display q t
    | _ => exact key
  | _ => exact key

theorem local_addOptions (o : Nat) : Local fun K => addProcessOptions K o := by
  intro t
  unfold addProcessOptions
  dsimp only
  by_cases ho : t.options = 0
  · simp only [ho, ne_eq, not_true, if_false]
    exact const rfl
  · simp only [ne_eq, ho, not_false_iff, if_true]
    exact local_setoptions o _ t

theorem local_addProcess {W : Kern → WaitPid} (hW : LocalWait W) (pid : Nat) (b : Bool) (p : Option Nat) (th : Bool) :
    Local fun K => addProcess K (W K) pid b p th := by
  intro s
  unfold addProcess
  dsimp only
  by_cases h : dictHas s.dict pid
  · simp only [h, if_true]
    exact const rfl
  · simp only [h]
    refine LocalAt.bind (local_newProc pid b p th s) fun o t => LocalAt.bind (const rfl) fun _ t => LocalAt.bind ?_ fun _ t => LocalAt.bind ?_ fun _ t => pure o
    · unfold addProcessWait
      refine LocalAt.pair (m := fun K => waitSignalsPid (W K) [SIGTRAP, SIGSTOP] pid t) (F := fun K x => match x with
        | (.ok _, s') => (.ok (), s')
        | (.error e, s') => addProcessExcept K o e s') ?_ fun r t => ?_
      · exact LocalAt.bind (hW _ _ _) fun e t => local_filterEvent _ e t
      · cases r with
        | ok a => exact const rfl
        | error e => exact local_addExcept o e t
    · exact local_addOptions o t

theorem local_processStatus {W : Kern → WaitPid} (hW : LocalWait W) (o : Nat) (status : Int) : Local fun K => processStatus K (W K) o status := by
  intro s
  unfold processStatus
  dsimp only
  cases classify true status with
  | exited c => exact LocalAt.bind (local_notRunning o s) fun _ _ => pure _
  | killed n => exact LocalAt.bind (local_notRunning o s) fun _ _ => pure _
  | unknown => exact raise _
  | event n =>
    dsimp only
    unfold ptraceEvent
    by_cases h : n = PTRACE_EVENT_FORK ∨ n = PTRACE_EVENT_VFORK ∨ n = PTRACE_EVENT_CLONE
    · simp only [h, if_true]
      exact LocalAt.bind (ptrace _) fun c t => LocalAt.bind (local_addProcess hW _ _ _ _ t) fun _ _ => pure _
    · simp only [h, if_false]
      split
      · exact const rfl
      · exact const rfl
  | signal n => exact LocalAt.bind (upd o _) fun _ _ => pure _

theorem local_processTerminated (o : Nat) : Local fun K => processTerminated K o := fun s => LocalAt.bind (local_notRunning o s) fun _ _ => pure _

theorem local_checkPid (w : Nat) (b : Bool) (r : Nat × Int) : Local fun _ => checkPid w b r := by
  intro s
  suffices key : (checkPid w b r s).2.log = s.log by
    exact const (r := (checkPid w b r s).1) (t := (checkPid w b r s).2) key
  unfold checkPid
  split <;> rfl

theorem local_waitpidRaw (w : Nat) (b : Bool) : Local fun K => waitpidRaw K w b := by
  intro s
  unfold waitpidRaw
  dsimp only
  by_cases h : w ≠ 0
  · simp only [h, ne_eq, not_false_iff, if_true]
    cases dictGet s.dict w with
    | none => exact const rfl
    | some o => exact LocalAt.bind (os _) fun r t => local_checkPid w b r t
  · simp only [h, if_false]
    exact LocalAt.bind (os _) fun r t => local_checkPid w b r t

theorem local_waitExcept (w : Nat) (e : Exc) : Local fun K => waitExcept K w e := by
  intro t
  unfold waitExcept
  dsimp only
  split
  · cases dictGet t.dict w with
    | none => exact const rfl
    | some o => exact LocalAt.bind (local_processTerminated o t) fun _ _ => pure _
  · exact const rfl

theorem local_waitEventPid : ∀ n, LocalWait fun K => waitEventPid K n := by
  intro n
  induction n with
  | zero => exact fun _ _ _ => raise _
  | succ n ih =>
    intro w b s
    refine LocalAt.pair (m := fun K => waitpidRaw K w b s) (F := fun K x => match x with
      | (.ok r, s') => waitReply K (waitEventPid K n) (waitEventPid K n w b) b r s'
      | (.error e, s') => waitExcept K w e s') (local_waitpidRaw w b s) fun r t => ?_
    cases r with
    | ok r =>
      dsimp only
      unfold waitReply
      split
      · exact const rfl
      · cases dictGet t.dict r.1 with
        | none => exact ih _ _ t
        | some o => exact LocalAt.bind (local_processStatus ih o _ t) fun _ _ => pure _
    | error e => exact local_waitExcept w e t

theorem local_pollPids {W : Kern → WaitPid} (hW : LocalWait W) : ∀ pids, Local fun K => pollPids (W K) pids := by
  intro pids
  induction pids with
  | nil => exact fun _ => pure none
  | cons p ps ih =>
    intro s
    refine LocalAt.bind (hW p false s) fun e t => ?_
    cases e with
    | none => exact ih t
    | some ev => exact pure _

theorem local_waitAny (fuel : Nat) : ∀ n b, Local fun K => waitAny K fuel n b := by
  intro n
  induction n with
  | zero => exact fun _ _ => raise _
  | succ n ih =>
    intro b s
    unfold waitAny
    dsimp only
    rcases s.dict.map Prod.fst with _ | ⟨p, _ | ⟨q, ps⟩⟩
    · exact const rfl
    · exact local_waitEventPid fuel p b s
    · refine LocalAt.bind (local_pollPids (local_waitEventPid fuel) _ s) fun e t => ?_
      cases e with
      | some ev => exact pure _
      | none =>
        cases b with
        | true => exact LocalAt.bind (os _) fun _ t => ih true t
        | false => exact pure _

theorem local_waitProcessEvent (fuel : Nat) (p : Option Nat) (b : Bool) : Local fun K => waitProcessEvent K fuel p b := by
  cases p with
  | none => exact local_waitAny fuel fuel b
  | some p => exact local_waitEventPid fuel p b

theorem local_waitSignals (fuel : Nat) (sigs : List Nat) (p : Option Nat) : Local fun K => waitSignals K fuel sigs p :=
  fun s => LocalAt.bind (local_waitProcessEvent fuel p true s) fun e t => local_filterEvent sigs e t

theorem local_waitSyscall (fuel : Nat) (p : Option Nat) : Local fun K => waitSyscall K fuel p := fun s => local_waitSignals fuel _ _ s

theorem local_waitExit (fuel o : Nat) : ∀ n, Local fun K => waitExit K fuel o n := by
  intro n
  induction n with
  | zero => exact fun _ => raise _
  | succ n ih =>
    intro s
    refine LocalAt.bind (local_waitEventPid fuel _ true s) fun e t => ?_
    rcases e with _ | e
    · exact raise _
    · cases e with
      | exit a b c => exact pure ()
      | signal q n =>
        refine LocalAt.bind ?_ fun _ t => ih t
        split
        · exact local_cont o n t
        · exact local_cont o 0 t
      | newProcess q => exact raise _
      | execution q => exact raise _

theorem local_terminateKill (o : Nat) : Local fun K => terminateKill K o := by
  intro s
  refine LocalAt.pair (m := fun K => (if (s.heap o).isStopped then procCont K o SIGKILL else procKill K o SIGKILL) s) (F := fun K x => match x with
    | (.ok _, s') => (.ok false, s')
    | (.error e, s') => if e = .ptrace (some ESRCH) then (.ok true, s') else (.error e, s')) ?_ fun r t => ?_
  · split
    · exact local_cont o _ s
    · exact local_kill o _ s
  · cases r with
    | ok a => exact const rfl
    | error e => dsimp only; split <;> exact const rfl

theorem local_terminate (fuel o : Nat) (w : Bool) : Local fun K => terminate K fuel o w := by
  intro s
  unfold terminate
  dsimp only
  split
  · exact const rfl
  · refine LocalAt.bind (local_terminateKill o s) fun d t => ?_
    split
    · exact pure _
    · refine LocalAt.bind ?_ fun _ t => LocalAt.bind (local_notRunning o t) fun _ _ => pure _
      cases d with
      | true => exact pure ()
      | false => exact local_waitExit fuel o fuel t

theorem local_quit (fuel : Nat) : Local fun K => quit K fuel := by
  have key : ∀ os, Local fun K => quitLoop K fuel os := by
    intro os
    induction os with
    | nil => exact fun _ => pure ()
    | cons o os ih => exact fun s => LocalAt.bind (local_terminate fuel o true s) fun _ t => LocalAt.bind (local_detach o t) fun _ t => ih t
  exact fun s => key _ s

/-! ## strace.py -/

theorem local_sysResult (o : Nat) : Local fun K => sysResult K o := by
  intro s
  unfold sysResult
  dsimp only
  cases (s.heap o).ss.syscall with
  | none => exact const rfl
  | some c => exact LocalAt.bind (ptrace _) fun _ _ => updS o _

theorem local_sysEnter (C : SysCfg) (o : Nat) : Local fun K => sysEnter K C o := by
  intro s
  unfold sysEnter
  refine LocalAt.bind (ptrace _) fun regs t => LocalAt.bind (updS o _) fun _ t => LocalAt.bind ?_ fun _ t => LocalAt.bind (updS o _) fun _ t => const rfl
  split
  · exact LocalAt.void (ptrace _)
  · exact updS o _

theorem local_sysEvent (fuel : Nat) (C : SysCfg) (o : Nat) : Local fun K => sysEvent K fuel C o := by
  intro s
  unfold sysEvent
  dsimp only
  split
  · unfold sysExit
    refine LocalAt.bind (local_sysResult o s) fun _ t => LocalAt.bind ?_ fun _ t => LocalAt.bind (updS o _) fun _ _ => pure _
    unfold sysExecTrap
    split
    · exact LocalAt.bind (local_syscall o 0 t) fun _ t => LocalAt.void (local_waitSignals fuel _ _ t)
    · exact const rfl
  · exact local_sysEnter C o s

theorem local_processExited (C : StraceCfg) (o : Nat) : Local fun K => processExited K C o := by
  intro s
  unfold processExited
  dsimp only
  split
  · exact local_display o s
  · exact const rfl

theorem local_prepare (o : Nat) : Local fun K => prepareProcess K o := fun s => LocalAt.bind (local_syscall o 0 s) fun _ _ => updS o _

theorem local_shown (C : StraceCfg) (o : Nat) (r : Option SysObj) :
    Local fun K => Py.bind (if displayed C.enter r then displaySyscall K o else Py.pure ()) fun _ => procSyscall K o 0 := by
  refine fun t => LocalAt.bind ?_ fun _ t => local_syscall _ _ t
  split
  · exact local_display _ t
  · exact pure ()

theorem local_handle (fuel : Nat) (C : StraceCfg) (r : Except Exc Event) (code : Nat) : Local fun K => straceHandle K fuel C r code := by
  intro s
  unfold straceHandle
  dsimp only
  cases r with
  | ok ev =>
    refine LocalAt.bind ?_ fun _ _ => pure _
    unfold straceSyscall
    exact LocalAt.bind (local_sysEvent fuel C.sys _ s) fun r t => local_shown C _ r t
  | error e =>
    cases e with
    | event ev =>
      cases ev with
      | exit o a b => exact LocalAt.bind (local_processExited C o s) fun _ _ => pure _
      | signal o n => exact LocalAt.bind (local_display o s) fun _ t => LocalAt.bind (local_syscall o n t) fun _ _ => pure _
      | newProcess q =>
        refine LocalAt.bind ?_ fun _ _ => pure _
        unfold straceNewProcess
        refine LocalAt.bind (local_prepare q s) fun _ t => ?_
        cases (t.heap q).parent with
        | none => exact const rfl
        | some p => exact local_syscall p 0 t
      | execution o => exact LocalAt.bind (local_syscall o 0 s) fun _ _ => pure _
    | _ => exact raise _

theorem local_turn (fuel : Nat) (C : StraceCfg) (code : Nat) : Local fun K => straceTurn K fuel C code :=
  fun s => case (m := fun K => waitSyscall K fuel none s) (F := fun K r t => straceHandle K fuel C r code t) (local_waitSyscall fuel none s)
    fun r t => local_handle fuel C r code t

theorem local_loop (fuel : Nat) (C : StraceCfg) : ∀ n code, Local fun K => straceLoop K fuel C n code := by
  intro n
  induction n with
  | zero => exact fun _ _ => raise _
  | succ n ih =>
    intro code s
    unfold straceLoop
    dsimp only
    split
    · exact const rfl
    · exact LocalAt.bind (local_turn fuel C code s) fun c t => ih c t

theorem local_create (fuel pid : Nat) (b : Bool) : Local fun K => createProcess K fuel pid b := by
  intro s
  refine LocalAt.pair (m := fun K => addProcess K (waitEventPid K fuel) pid b none false s) (F := fun K x => match x with
    | (.ok o, t) => (.ok (some o), t)
    | (.error (.event (.exit _ _ _)), t) => (.ok none, t)
    | (.error (.ptrace _), t) => (.ok none, t)
    | (.error e, t) => (.error e, t)) (local_addProcess (local_waitEventPid fuel) _ _ _ _ s) fun r t => ?_
  cases r with
  | ok a => exact const rfl
  | error e =>
    cases e with
    | event ev => cases ev <;> exact const rfl
    | _ => exact const rfl

theorem local_run (fuel : Nat) (C : StraceCfg) (pid : Nat) (b : Bool) : Local fun K => straceRun K fuel C pid b := by
  intro s
  refine LocalAt.bind (local_create fuel pid b s) fun o t => ?_
  cases o with
  | none => exact pure none
  | some o => exact LocalAt.bind (LocalAt.bind (local_prepare o t) fun _ t => local_loop fuel C fuel 0 t) fun _ _ => pure _

theorem local_straceExcept (C : StraceCfg) (e : Exc) : Local fun K => straceExcept K C e := by
  intro t
  unfold straceExcept
  cases e with
  | event ev =>
    cases ev with
    | exit o a c => exact LocalAt.bind (local_processExited C o t) fun _ _ => pure _
    | _ => exact pure _
  | diverge => exact raise _
  | _ => exact pure _

/-- strace.py, from its start to its end. -/
theorem local_strace (fuel : Nat) (C : StraceCfg) (pid : Nat) (b : Bool) : Local fun K => straceMain K fuel C pid b := by
  intro s
  refine case (m := fun K => straceRun K fuel C pid b s) (F := fun K r t => Py.bind (match r with
    | .ok code => Py.pure code
    | .error e => straceExcept K C e) (fun code => Py.bind (quit K fuel) fun _ => Py.pure code) t) (local_run fuel C pid b s) fun r t => ?_
  refine LocalAt.bind ?_ fun c t => LocalAt.bind (local_quit fuel t) fun _ _ => pure _
  cases r with
  | ok c => exact pure c
  | error e => exact local_straceExcept C e t

end PT
