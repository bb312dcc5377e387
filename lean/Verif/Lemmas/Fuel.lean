import Verif.Lemmas.Local
import Verif.Lemmas.Py

/-! More fuel: a run that did not run out of it is the same, one that did goes on. -/

namespace PT

/-- The first run, from a log, is the second one, or it ran out of fuel on the way. -/
structure Deep {α : Type} (l : List Entry) (r r' : Except Exc α × DSt) : Prop where
  grows : l <+: r.2.log
  same : r.1 ≠ .error .diverge → r' = r
  more : r.2.log <+: r'.2.log

namespace Deep
variable {α β : Type} {s : DSt} {K : Kern}

theorem refl {l : List Entry} {r : Except Exc α × DSt} (h : l <+: r.2.log) : Deep l r r := ⟨h, fun _ => rfl, List.prefix_refl _⟩

theorem const {r : Except Exc α} {t : DSt} (h : t.log = s.log) : Deep s.log (r, t) (r, t) := refl (by rw [h]; exact List.prefix_refl _)

/-- What has no fuel. -/
theorem of {m : Kern → Py DSt α} (h : Local m) : Deep s.log (m K s) (m K s) := refl ((h s).grows K)

theorem pure (a : α) : Deep s.log (Py.pure a s) (Py.pure a s) := const rfl
theorem raise (e : Exc) : Deep s.log ((Py.raise e : Py DSt α) s) ((Py.raise e : Py DSt α) s) := const rfl

theorem out {r : Except Exc α × DSt} (h : s.log <+: r.2.log) : Deep s.log ((Py.raise .diverge : Py DSt α) s) r :=
  ⟨List.prefix_refl _, fun h => absurd rfl h, h⟩

/-- One thing after the other. Running out of fuel is not repaired. -/
theorem pair {x x' : Except Exc α × DSt} {F F' : Except Exc α × DSt → Except Exc β × DSt} (hm : Deep s.log x x')
    (hF : ∀ r t, Deep t.log (F (r, t)) (F' (r, t))) (hd : ∀ t, (F (.error .diverge, t)).1 = .error .diverge ∧ (F (.error .diverge, t)).2.log = t.log) :
    Deep s.log (F x) (F' x') := by
  rcases x with ⟨r, t⟩
  refine ⟨hm.grows.trans (hF r t).grows, fun h => ?_, ?_⟩
  · have : r ≠ .error .diverge := by
      rintro rfl
      exact h (hd t).1
    rw [hm.same this]
    exact (hF r t).same h
  · by_cases hr : r = .error .diverge
    · subst hr
      rw [(hd t).2]
      rcases x' with ⟨r', t'⟩
      exact hm.more.trans ((hF r' t').grows.trans (hF r' t').more)
    · rw [hm.same hr]
      exact (hF r t).more

theorem bind {m m' : Py DSt α} {f f' : α → Py DSt β} (hm : Deep s.log (m s) (m' s)) (hf : ∀ a t, Deep t.log (f a t) (f' a t)) :
    Deep s.log (Py.bind m f s) (Py.bind m' f' s) := by
  have e : ∀ (m : Py DSt α) (f : α → Py DSt β), Py.bind m f s = match (m s).1 with
    | .ok a => f a (m s).2
    | .error e => (.error e, (m s).2) := by
    intro m f
    unfold Py.bind
    rcases m s with ⟨r, t⟩
    cases r <;> rfl
  rw [e, e]
  refine pair (F := fun x => match x.1 with
    | .ok a => f a x.2
    | .error e => (.error e, x.2)) (F' := fun x => match x.1 with
    | .ok a => f' a x.2
    | .error e => (.error e, x.2)) hm (fun r t => ?_) fun t => ⟨rfl, rfl⟩
  cases r with
  | ok a => exact hf a t
  | error e => exact const rfl
end Deep

/-- Waiting for a process, with less and with more fuel. -/
def DeepWait (W W' : WaitPid) : Prop := ∀ p b s, Deep s.log (W p b s) (W' p b s)

variable {K : Kern}

theorem deep_addProcess {W W' : WaitPid} (hW : DeepWait W W') (pid : Nat) (b : Bool) (p : Option Nat) (th : Bool) (s : DSt) :
    Deep s.log (addProcess K W pid b p th s) (addProcess K W' pid b p th s) := by
  unfold addProcess
  by_cases h : dictHas s.dict pid
  · simp only [h, if_true]
    exact Deep.const rfl
  · simp only [h]
    refine Deep.bind (Deep.of (local_newProc pid b p th)) fun o t => Deep.bind (Deep.const rfl) fun _ t => Deep.bind ?_ fun _ t =>
      Deep.bind ?_ fun _ t => Deep.pure o
    · refine Deep.pair (F := fun x => match x with
        | (.ok _, s') => (.ok (), s')
        | (.error e, s') => addProcessExcept K o e s') (F' := fun x => match x with
        | (.ok _, s') => (.ok (), s')
        | (.error e, s') => addProcessExcept K o e s') (x := waitSignalsPid W [SIGTRAP, SIGSTOP] pid t)
        (x' := waitSignalsPid W' [SIGTRAP, SIGSTOP] pid t) ?_ (fun r t => ?_) fun t => ?_
      · exact Deep.bind (hW _ _ _) fun e t => Deep.of (K := K) (local_filterEvent _ e)
      · cases r with
        | ok a => exact Deep.const rfl
        | error e => exact Deep.of (local_addExcept o e)
      · unfold addProcessExcept
        have hd : ∀ u : DSt, (u.heap o).isAttached = false → (detach K o u).1 = .ok () ∧ (detach K o u).2.log = u.log := by
          intro u hu
          unfold detach
          rw [if_neg (by rw [hu]; decide)]
          exact ⟨rfl, rfl⟩
        obtain ⟨h1, h2⟩ := hd (updProc o (fun p => { p with isAttached := false }) t).2 (by
          show (if o = o then _ else _ : Proc).isAttached = false
          rw [if_pos rfl])
        have e1 : detach K o (updProc o (fun p => { p with isAttached := false }) t).2 =
          (.ok (), (detach K o (updProc o (fun p => { p with isAttached := false }) t).2).2) := by rw [← h1]
        dsimp only
        rw [Py.run_bind_ok (show updProc o (fun p => { p with isAttached := false }) t =
          (.ok (), (updProc o (fun p => { p with isAttached := false }) t).2) from rfl), Py.run_bind_ok e1]
        exact ⟨rfl, h2⟩
    · exact Deep.of (local_addOptions o)

theorem deep_processStatus {W W' : WaitPid} (hW : DeepWait W W') (o : Nat) (status : Int) (s : DSt) :
    Deep s.log (processStatus K W o status s) (processStatus K W' o status s) := by
  unfold processStatus
  cases classify true status with
  | exited c => exact Deep.bind (Deep.of (local_notRunning o)) fun _ _ => Deep.pure _
  | killed n => exact Deep.bind (Deep.of (local_notRunning o)) fun _ _ => Deep.pure _
  | unknown => exact Deep.raise _
  | event n =>
    dsimp only
    unfold ptraceEvent
    by_cases h : n = PTRACE_EVENT_FORK ∨ n = PTRACE_EVENT_VFORK ∨ n = PTRACE_EVENT_CLONE
    · simp only [h, if_true]
      exact Deep.bind (Deep.refl ((LocalAt.ptrace _).grows K)) fun c t => Deep.bind (deep_addProcess hW _ _ _ _ t) fun _ _ => Deep.pure _
    · simp only [h, if_false]
      split
      · exact Deep.const rfl
      · exact Deep.const rfl
  | signal n => exact Deep.bind (Deep.const rfl) fun _ _ => Deep.pure _

theorem deep_waitEventPid : ∀ n n', n ≤ n' → DeepWait (waitEventPid K n) (waitEventPid K n') := by
  intro n
  induction n with
  | zero => exact fun n' _ p b s => Deep.out ((local_waitEventPid n' p b s).grows K)
  | succ n ih =>
    intro n' hn p b s
    obtain ⟨n', rfl⟩ : ∃ m, n' = m + 1 := ⟨n' - 1, by omega⟩
    have ih := ih n' (by omega)
    refine Deep.pair (F := fun x => match x with
      | (.ok r, s') => waitReply K (waitEventPid K n) (waitEventPid K n p b) b r s'
      | (.error e, s') => waitExcept K p e s') (F' := fun x => match x with
      | (.ok r, s') => waitReply K (waitEventPid K n') (waitEventPid K n' p b) b r s'
      | (.error e, s') => waitExcept K p e s') (x := waitpidRaw K p b s) (x' := waitpidRaw K p b s)
      (Deep.of (local_waitpidRaw p b)) (fun r t => ?_) fun t => ⟨rfl, rfl⟩
    cases r with
    | ok r =>
      dsimp only
      unfold waitReply
      split
      · exact Deep.const rfl
      · cases dictGet t.dict r.1 with
        | none => exact ih _ _ t
        | some o => exact Deep.bind (deep_processStatus ih o _ t) fun _ _ => Deep.pure _
    | error e => exact Deep.of (local_waitExcept p e)

theorem deep_pollPids {W W' : WaitPid} (hW : DeepWait W W') : ∀ pids s, Deep s.log (pollPids W pids s) (pollPids W' pids s) := by
  intro pids
  induction pids with
  | nil => exact fun s => Deep.pure none
  | cons p ps ih =>
    intro s
    refine Deep.bind (hW p false s) fun e t => ?_
    cases e with
    | none => exact ih t
    | some ev => exact Deep.pure _

theorem deep_waitAny {fuel fuel' : Nat} (hf : fuel ≤ fuel') : ∀ n n' b s, n ≤ n' → Deep s.log (waitAny K fuel n b s) (waitAny K fuel' n' b s) := by
  intro n
  induction n with
  | zero => exact fun n' b s _ => Deep.out ((local_waitAny fuel' n' b s).grows K)
  | succ n ih =>
    intro n' b s hn
    obtain ⟨n', rfl⟩ : ∃ m, n' = m + 1 := ⟨n' - 1, by omega⟩
    unfold waitAny
    rcases s.dict.map Prod.fst with _ | ⟨p, _ | ⟨q, ps⟩⟩
    · exact Deep.const rfl
    · exact deep_waitEventPid fuel fuel' hf p b s
    · refine Deep.bind (deep_pollPids (deep_waitEventPid fuel fuel' hf) _ s) fun e t => ?_
      cases e with
      | some ev => exact Deep.pure _
      | none =>
        cases b with
        | true => exact Deep.bind (Deep.refl ((LocalAt.os _).grows K)) fun _ t => ih n' true t (by omega)
        | false => exact Deep.pure _

section
variable {fuel fuel' : Nat} (hf : fuel ≤ fuel')
include hf

theorem deep_waitSignals (sigs : List Nat) (p : Option Nat) (s : DSt) : Deep s.log (waitSignals K fuel sigs p s) (waitSignals K fuel' sigs p s) := by
  refine Deep.bind ?_ fun e t => Deep.of (K := K) (local_filterEvent sigs e)
  cases p with
  | none => exact deep_waitAny hf fuel fuel' true s hf
  | some p => exact deep_waitEventPid fuel fuel' hf p true s

theorem deep_waitExit (o : Nat) : ∀ n n' s, n ≤ n' → Deep s.log (waitExit K fuel o n s) (waitExit K fuel' o n' s) := by
  intro n
  induction n with
  | zero => exact fun n' s _ => Deep.out ((local_waitExit fuel' o n' s).grows K)
  | succ n ih =>
    intro n' s hn
    obtain ⟨n', rfl⟩ : ∃ m, n' = m + 1 := ⟨n' - 1, by omega⟩
    refine Deep.bind (deep_waitEventPid fuel fuel' hf _ true s) fun e t => ?_
    rcases e with _ | e
    · exact Deep.raise _
    · cases e with
      | exit a b c => exact Deep.pure ()
      | signal q m =>
        refine Deep.bind ?_ fun _ t => ih n' t (by omega)
        split
        · exact Deep.of (local_cont o m)
        · exact Deep.of (local_cont o 0)
      | newProcess q => exact Deep.raise _
      | execution q => exact Deep.raise _

theorem deep_terminate (o : Nat) (w : Bool) (s : DSt) : Deep s.log (terminate K fuel o w s) (terminate K fuel' o w s) := by
  unfold terminate
  split
  · exact Deep.const rfl
  · refine Deep.bind (Deep.of (local_terminateKill o)) fun d t => ?_
    split
    · exact Deep.pure _
    · refine Deep.bind ?_ fun _ t => Deep.bind (Deep.of (local_notRunning o)) fun _ _ => Deep.pure _
      cases d with
      | true => exact Deep.pure ()
      | false => exact deep_waitExit hf o fuel fuel' t hf

theorem deep_quit (s : DSt) : Deep s.log (quit K fuel s) (quit K fuel' s) := by
  have key : ∀ os s, Deep s.log (quitLoop K fuel os s) (quitLoop K fuel' os s) := by
    intro os
    induction os with
    | nil => exact fun s => Deep.pure ()
    | cons o os ih => exact fun s => Deep.bind (deep_terminate hf o true s) fun _ t => Deep.bind (Deep.of (local_detach o)) fun _ t => ih t
  exact key _ s

theorem deep_sysEvent (C : SysCfg) (o : Nat) (s : DSt) : Deep s.log (sysEvent K fuel C o s) (sysEvent K fuel' C o s) := by
  unfold sysEvent
  split
  · unfold sysExit
    refine Deep.bind (Deep.of (local_sysResult o)) fun _ t => Deep.bind ?_ fun _ t => Deep.bind (Deep.const rfl) fun _ _ => Deep.pure _
    unfold sysExecTrap
    split
    · exact Deep.bind (Deep.of (local_syscall o 0)) fun _ t => Deep.bind (deep_waitSignals hf _ _ t) fun _ _ => Deep.pure _
    · exact Deep.const rfl
  · exact Deep.of (local_sysEnter C o)

theorem deep_handle (C : StraceCfg) (r : Except Exc Event) (code : Nat) (s : DSt) :
    Deep s.log (straceHandle K fuel C r code s) (straceHandle K fuel' C r code s) := by
  cases r with
  | ok ev =>
    refine Deep.bind ?_ fun _ _ => Deep.pure _
    unfold straceSyscall
    exact Deep.bind (deep_sysEvent hf C.sys _ s) fun r t => Deep.of (local_shown C _ r)
  | error e =>
    have : (fun K => straceHandle K fuel C (.error e) code) = fun K => straceHandle K fuel' C (.error e) code := by
      funext K
      unfold straceHandle
      cases e with
      | event ev => cases ev <;> rfl
      | _ => rfl
    rw [show straceHandle K fuel C (.error e) code = straceHandle K fuel' C (.error e) code from congrFun this K]
    exact Deep.of (local_handle fuel' C (.error e) code)

theorem deep_loop (C : StraceCfg) : ∀ n n' code s, n ≤ n' → Deep s.log (straceLoop K fuel C n code s) (straceLoop K fuel' C n' code s) := by
  intro n
  induction n with
  | zero => exact fun n' code s _ => Deep.out ((local_loop fuel' C n' code s).grows K)
  | succ n ih =>
    intro n' code s hn
    obtain ⟨n', rfl⟩ : ∃ m, n' = m + 1 := ⟨n' - 1, by omega⟩
    unfold straceLoop
    split
    · exact Deep.const rfl
    · refine Deep.bind ?_ fun c t => ih n' c t (by omega)
      refine Deep.pair (x := waitSyscall K fuel none s) (x' := waitSyscall K fuel' none s) (F := fun x => straceHandle K fuel C x.1 code x.2)
        (F' := fun x => straceHandle K fuel' C x.1 code x.2) (deep_waitSignals hf _ _ s) (fun r t => deep_handle hf C r code t) fun t => ⟨rfl, rfl⟩

theorem deep_run (C : StraceCfg) (pid : Nat) (b : Bool) (s : DSt) : Deep s.log (straceRun K fuel C pid b s) (straceRun K fuel' C pid b s) := by
  refine Deep.bind ?_ fun o t => ?_
  · refine Deep.pair (x := addProcess K (waitEventPid K fuel) pid b none false s) (x' := addProcess K (waitEventPid K fuel') pid b none false s)
      (F := fun x => match x with
      | (.ok o, t) => (.ok (some o), t)
      | (.error (.event (.exit _ _ _)), t) => (.ok none, t)
      | (.error (.ptrace _), t) => (.ok none, t)
      | (.error e, t) => (.error e, t)) (F' := fun x => match x with
      | (.ok o, t) => (.ok (some o), t)
      | (.error (.event (.exit _ _ _)), t) => (.ok none, t)
      | (.error (.ptrace _), t) => (.ok none, t)
      | (.error e, t) => (.error e, t)) (deep_addProcess (deep_waitEventPid fuel fuel' hf) _ _ _ _ s) (fun r t => ?_) fun t => ⟨rfl, rfl⟩
    cases r with
    | ok a => exact Deep.const rfl
    | error e =>
      cases e with
      | event ev => cases ev <;> exact Deep.const rfl
      | _ => exact Deep.const rfl
  · cases o with
    | none => exact Deep.pure none
    | some o => exact Deep.bind (Deep.bind (Deep.of (local_prepare o)) fun _ t => deep_loop hf C fuel fuel' 0 t hf) fun _ _ => Deep.pure _

/-- strace.py with more fuel. -/
theorem deep_strace (C : StraceCfg) (pid : Nat) (b : Bool) (s : DSt) :
    Deep s.log (straceMain K fuel C pid b s) (straceMain K fuel' C pid b s) := by
  refine Deep.pair (x := straceRun K fuel C pid b s) (x' := straceRun K fuel' C pid b s) (F := fun x => Py.bind (match x.1 with
    | .ok code => Py.pure code
    | .error e => straceExcept K C e) (fun code => Py.bind (quit K fuel) fun _ => Py.pure code) x.2) (F' := fun x => Py.bind (match x.1 with
    | .ok code => Py.pure code
    | .error e => straceExcept K C e) (fun code => Py.bind (quit K fuel') fun _ => Py.pure code) x.2) (deep_run hf C pid b s) (fun r t => ?_)
    fun t => ⟨rfl, rfl⟩
  refine Deep.bind ?_ fun c t => Deep.bind (deep_quit hf t) fun _ _ => Deep.pure _
  cases r with
  | ok c => exact Deep.pure c
  | error e => exact Deep.of (local_straceExcept C e)
end

end PT
