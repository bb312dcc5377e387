import Verif.Props.Strace
import Verif.Spec.Pass

/-! Property C122: the signals that `strace.py` passes on. -/

namespace PT
open Spec
variable {K : Kern}

/-! ### logs -/

theorem _root_.PT.Spec.StopsIn.append {g h : List Entry} {l k : List (Nat × Nat)} (h1 : StopsIn g l) (h2 : StopsIn h k) : StopsIn (g ++ h) (l ++ k) := by
  induction h1 with
  | nil => exact h2
  | stop h _ ih => exact .stop h ih
  | child h _ ih => exact .child h ih
  | other h h' _ ih => exact .other h h' ih

/-- The log grew by these stops. -/
def Rep (s t : DSt) (l : List (Nat × Nat)) : Prop := ∃ g, t.log = s.log ++ g ∧ StopsIn g l

theorem Rep.refl (s : DSt) : Rep s s [] := ⟨[], by simp, .nil⟩

theorem Rep.same {s t : DSt} (h : t.log = s.log) : Rep s t [] := ⟨[], by simp [h], .nil⟩

theorem Rep.trans {s t u : DSt} {l k : List (Nat × Nat)} (h1 : Rep s t l) (h2 : Rep t u k) : Rep s u (l ++ k) := by
  obtain ⟨g, hg, hr⟩ := h1
  obtain ⟨g', hg', hr'⟩ := h2
  exact ⟨g ++ g', by rw [hg', hg, List.append_assoc], hr.append hr'⟩

/-- Neither a wait nor the question for a new process. -/
def plainCall : Call → Bool
  | .waitpid _ _ _ => false
  | .geteventmsg _ _ => false
  | _ => true

theorem stopOf_plain {e : Entry} (h : plainCall e.call = true) : stopOf e = none := by
  unfold stopOf
  cases hc : e.call <;> rw [hc] at h <;> first | rfl | cases h

theorem namesChild_plain {e : Entry} (h : plainCall e.call = true) : namesChild e = false := by
  unfold namesChild
  cases hc : e.call <;> rw [hc] at h <;> first | rfl | cases h

theorem Rep.logCall (c : Call) (s : DSt) (h : plainCall c = true) : Rep s (PT.logCall K c s) [] :=
  ⟨[_], rfl, .other (stopOf_plain h) (namesChild_plain h) .nil⟩

/-- A result after which the log is complete: no other error. -/
def Clean {α : Type} : Except Exc α → Prop
  | .ok _ => True
  | .error (.event _) => True
  | .error .interrupt => True
  | .error _ => False

/-- The stop that a result stands for. -/
def stopIn (wanted : Nat) : Except Exc (Option Event) → Option (Nat × Nat)
  | .ok (some (.signal _ m)) => some (wanted, m)
  | _ => none

/-- The first entry is the wait, which reports the stop of the result; no other stop is reported. -/
def WaitLog (wanted : Nat) (s : DSt) (r : Except Exc (Option Event)) (t : DSt) : Prop :=
  Clean r → ∃ e g, t.log = s.log ++ e :: g ∧ StopsIn g [] ∧ namesChild e = false ∧ stopOf e = stopIn wanted r

theorem addProcess_log {W : WaitPid} (hW : ∀ wanted s, wanted ≠ 0 → WaitLog wanted s (W wanted true s).1 (W wanted true s).2)
    (pid : Nat) (hp : pid ≠ 0) (parent : Option Nat) (isThread : Bool) (s : DSt) {r : Except Exc Nat} {t : DSt}
    (h : addProcess K W pid true parent isThread s = (r, t)) (hc : Clean r) :
    ∃ e g, t.log = s.log ++ e :: g ∧ StopsIn g [] := by
  unfold addProcess at h
  by_cases hd : dictHas s.dict pid = true
  · rw [if_pos hd] at h
    injection h with h _
    subst h
    exact hc.elim
  · rw [if_neg hd] at h
    have h : Py.bind (addProcessWait K W s.next pid) (fun _ => Py.bind (addProcessOptions K s.next) fun _ => Py.pure s.next)
        (started s pid true parent isThread) = (r, t) := h
    have hlog : (started s pid true parent isThread).log = s.log := rfl
    generalize started s pid true parent isThread = s0 at h hlog
    -- the wait
    have hwait : ∀ (r1 : Except Exc Unit) (t1 : DSt), addProcessWait K W s.next pid s0 = (r1, t1) → Clean r1 →
        ∃ e g, t1.log = s0.log ++ e :: g ∧ StopsIn g [] := by
      intro r1 t1 h1 hc1
      have hWs := hW pid s0 hp
      unfold addProcessWait waitSignalsPid Py.bind at h1
      generalize W pid true s0 = x at h1 hWs
      obtain ⟨rw, tw⟩ := x
      have hex : ∀ e, addProcessExcept K s.next e tw = (r1, t1) → Clean (.error e : Except Exc Unit) → Rep tw t1 [] := by
        intro e he hce
        cases e with
        | interrupt =>
          injection he with _ he
          rw [← he]
          exact Rep.refl _
        | event ev =>
          cases ev with
          | signal q m =>
            have he : eventDisplay K q tw = (r1, t1) := he
            have h2 : t1 = PT.logCall K (.display q (tw.heap q).pid) tw := by
              unfold eventDisplay Py.bind at he
              rw [ptraceCall_run] at he
              cases hk : ptraceRes (K tw.log (.display q (tw.heap q).pid)) <;> rw [hk] at he <;>
                (injection he with _ he; exact he.symm)
            rw [h2]
            exact Rep.logCall _ _ rfl
          | _ =>
            have he : Py.bind (updProc s.next fun p => { p with isAttached := false }) (fun _ =>
              Py.bind (detach K s.next) fun _ => Py.raise _) tw = (r1, t1) := he
            have hdet : detach K s.next (setProc tw s.next { tw.heap s.next with isAttached := false }) =
                (.ok (), setProc tw s.next { tw.heap s.next with isAttached := false }) := by
              rcases detach_cases (K := K) s.next (setProc tw s.next { tw.heap s.next with isAttached := false }) with
                ⟨_, h⟩ | ⟨ha, _⟩ | ⟨ha, _⟩ | ⟨ha, _⟩
              · exact h
              all_goals
                rw [setProc_same] at ha
                cases ha
            unfold Py.bind updProc at he
            dsimp only at he
            rw [hdet] at he
            injection he with _ he
            rw [← he]
            exact Rep.same rfl
        | _ => exact hce.elim
      have hfin : ∀ e, addProcessExcept K s.next e tw = (r1, t1) → Clean (.error e : Except Exc Unit) → Clean rw →
          ∃ e g, t1.log = s0.log ++ e :: g ∧ StopsIn g [] := by
        intro e he hce hcw
        obtain ⟨e0, g, hg, hr, _⟩ := hWs hcw
        obtain ⟨g', hg', hr'⟩ := hex e he hce
        exact ⟨e0, g ++ g', by rw [hg', hg]; simp, hr.append hr'⟩
      -- other errors are raised again
      have hbad : ∀ e, addProcessExcept K s.next e tw = (r1, t1) → ¬ Clean (.error e : Except Exc Unit) → False := by
        intro e he hce
        cases e with
        | interrupt => exact hce trivial
        | event ev => exact hce trivial
        | _ =>
          have he : Py.bind (updProc s.next fun p => { p with isAttached := false }) (fun _ =>
              Py.bind (detach K s.next) fun _ => Py.raise _) tw = (r1, t1) := he
          have hdet : detach K s.next (setProc tw s.next { tw.heap s.next with isAttached := false }) =
              (.ok (), setProc tw s.next { tw.heap s.next with isAttached := false }) := by
            rcases detach_cases (K := K) s.next (setProc tw s.next { tw.heap s.next with isAttached := false }) with
              ⟨_, h⟩ | ⟨ha, _⟩ | ⟨ha, _⟩ | ⟨ha, _⟩
            · exact h
            all_goals
              rw [setProc_same] at ha
              cases ha
          unfold Py.bind updProc at he
          dsimp only at he
          rw [hdet] at he
          injection he with he _
          rw [← he] at hc1
          exact hc1
      cases rw with
      | error e =>
        have h1 : addProcessExcept K s.next e tw = (r1, t1) := h1
        by_cases hce : Clean (.error e : Except Exc Unit)
        · refine hfin e h1 hce ?_
          cases e <;> first | exact hce | exact trivial
        · exact (hbad e h1 hce).elim
      | ok o =>
        cases o with
        | none => exact (hbad .type h1 id).elim
        | some ev =>
          cases ev with
          | signal q m =>
            dsimp only [filterEvent] at h1
            by_cases hin : (([SIGTRAP, SIGSTOP] : List Nat).contains m || ([SIGTRAP, SIGSTOP] : List Nat).isEmpty) = true
            · rw [if_pos hin] at h1
              obtain ⟨e0, g, hg, hr, _⟩ := hWs trivial
              injection h1 with _ h1
              rw [← h1]
              exact ⟨e0, g, hg, hr⟩
            · rw [if_neg hin] at h1
              exact hfin _ h1 trivial trivial
          | _ => exact hfin _ h1 trivial trivial
    -- the options
    unfold Py.bind at h
    cases hx : addProcessWait K W s.next pid s0 with
    | mk r1 t1 =>
      rw [hx] at h
      cases r1 with
      | error e =>
        injection h with h1 h2
        rw [← h2, ← hlog]
        refine hwait _ _ hx ?_
        rw [← h1] at hc
        cases e <;> first | exact hc | exact trivial
      | ok _ =>
        obtain ⟨e0, g, hg, hr⟩ := hwait _ _ hx trivial
        have hopt : Rep t1 t [] := by
          dsimp only at h
          unfold addProcessOptions at h
          by_cases ho : t1.options ≠ 0
          · rw [if_pos ho] at h
            unfold procSetoptions Py.bind at h
            rw [ptraceCall_run] at h
            have ht : t = PT.logCall K (.setoptions s.next (t1.heap s.next).pid t1.options) t1 := by
              cases hk : ptraceRes (K t1.log (.setoptions s.next (t1.heap s.next).pid t1.options)) <;> rw [hk] at h <;>
                (injection h with _ h; exact h.symm)
            rw [ht]
            exact Rep.logCall _ _ rfl
          · rw [if_neg ho] at h
            injection h with _ h
            rw [← h]
            exact Rep.refl _
        obtain ⟨g', hg', hr'⟩ := hopt
        exact ⟨e0, g ++ g', by rw [hg', hg, hlog]; simp, hr.append hr'⟩

theorem stopOf_none {c : Call} {r : Reply} {d : List (Nat × Nat)} {st : Int} {pid : Nat} (hr : r = .ok pid st)
    (hc : ∀ n, Spec.waitMeaning st ≠ .signal n) : stopOf ⟨c, r, d⟩ = none := by
  unfold stopOf
  subst hr
  cases c <;> try rfl
  dsimp only
  split_ifs
  · rfl
  · cases h : Spec.waitMeaning st <;> first | rfl | exact absurd h (hc _)

theorem namesChild_wait {a : Option Nat} {b c : Bool} {r : Reply} {d : List (Nat × Nat)} : namesChild ⟨.waitpid a b c, r, d⟩ = false := rfl

theorem clean_of {α β : Type} {e : Exc} (h : Clean (.error e : Except Exc α)) : Clean (.error e : Except Exc β) := by
  cases e <;> first | exact h | exact trivial

theorem processStatus_log {W : WaitPid} (hz : NoZero K)
    (hW : ∀ wanted s, wanted ≠ 0 → WaitLog wanted s (W wanted true s).1 (W wanted true s).2)
    (wanted : Nat) (hw : wanted ≠ 0) (blocking : Bool) (s : DSt) (o : Nat) (st : Int)
    (hk : K s.log (waitCall s wanted blocking o) = .ok wanted st) :
    WaitLog wanted s
      (Py.bind (processStatus K W o st) (fun e => Py.pure (some e)) (logCall K (waitCall s wanted blocking o) s)).1
      (Py.bind (processStatus K W o st) (fun e => Py.pure (some e)) (logCall K (waitCall s wanted blocking o) s)).2 := by
  have hnc : namesChild ⟨waitCall s wanted blocking o, K s.log (waitCall s wanted blocking o), s.dict⟩ = false := rfl
  cases hc : Spec.waitMeaning st with
  | exited c =>
    have : Py.bind (processStatus K W o st) (fun e => Py.pure (some e)) (logCall K (waitCall s wanted blocking o) s)
        = (.ok (some (.exit o none (some c))), gone o (logCall K (waitCall s wanted blocking o) s)) := by
      unfold processStatus
      rw [classify_kind, hc]
      simp only [Py.bind, notRunning_run]
      rfl
    rw [this]
    exact fun _ => ⟨_, [], by rw [gone_log]; rfl, .nil, hnc, stopOf_none hk (by rw [hc]; intro n h; cases h)⟩
  | killed n =>
    have : Py.bind (processStatus K W o st) (fun e => Py.pure (some e)) (logCall K (waitCall s wanted blocking o) s)
        = (.ok (some (.exit o (some n) none)), gone o (logCall K (waitCall s wanted blocking o) s)) := by
      unfold processStatus
      rw [classify_kind, hc]
      simp only [Py.bind, notRunning_run]
      rfl
    rw [this]
    exact fun _ => ⟨_, [], by rw [gone_log]; rfl, .nil, hnc, stopOf_none hk (by rw [hc]; intro n h; cases h)⟩
  | unknown =>
    have : Py.bind (processStatus K W o st) (fun e => Py.pure (some e)) (logCall K (waitCall s wanted blocking o) s)
        = (.error (.ptrace none), logCall K (waitCall s wanted blocking o) s) := by
      unfold processStatus
      rw [classify_kind, hc]
      rfl
    rw [this]
    exact fun h => h.elim
  | signal m =>
    have : Py.bind (processStatus K W o st) (fun e => Py.pure (some e)) (logCall K (waitCall s wanted blocking o) s)
        = (.ok (some (.signal o m)), setProc (logCall K (waitCall s wanted blocking o) s) o
            { s.heap o with isStopped := true }) := by
      unfold processStatus
      rw [classify_kind, hc]
      rfl
    rw [this]
    refine fun _ => ⟨_, [], rfl, .nil, hnc, ?_⟩
    rw [hk]
    show (if wanted = 0 then none else match Spec.waitMeaning st with | .signal n => some (wanted, n) | _ => none) = some (wanted, m)
    rw [if_neg hw, hc]
  | event ev =>
    have hns : stopOf ⟨waitCall s wanted blocking o, K s.log (waitCall s wanted blocking o), s.dict⟩ = none :=
      stopOf_none hk (by rw [hc]; intro n h; cases h)
    by_cases hev : ev = PTRACE_EVENT_FORK ∨ ev = PTRACE_EVENT_VFORK ∨ ev = PTRACE_EVENT_CLONE
    · have hrun : Py.bind (processStatus K W o st) (fun e => Py.pure (some e)) (logCall K (waitCall s wanted blocking o) s)
        = match ptraceRes (K (logCall K (waitCall s wanted blocking o) s).log (.geteventmsg o (s.heap o).pid)) with
          | .error e => (.error e, logCall K (.geteventmsg o (s.heap o).pid) (logCall K (waitCall s wanted blocking o) s))
          | .ok pid => Py.bind (addProcess K W pid true (some o) (decide (ev = PTRACE_EVENT_CLONE)))
              (fun q => Py.pure (some (.newProcess q)))
              (logCall K (.geteventmsg o (s.heap o).pid) (logCall K (waitCall s wanted blocking o) s)) := by
        unfold processStatus
        rw [classify_kind, hc]
        dsimp only
        unfold ptraceEvent
        unfold Py.bind
        dsimp only
        rw [if_pos hev, ptraceCall_run]
        have hh : (logCall K (waitCall s wanted blocking o) s).heap o = s.heap o := rfl
        rw [hh]
        cases ptraceRes (K (logCall K (waitCall s wanted blocking o) s).log (.geteventmsg o (s.heap o).pid)) with
        | error e => rfl
        | ok pid =>
          dsimp only
          generalize addProcess K W pid true (some o) (decide (ev = PTRACE_EVENT_CLONE)) _ = x
          obtain ⟨r, t⟩ := x
          cases r <;> rfl
      rw [hrun]
      cases hkk : K (logCall K (waitCall s wanted blocking o) s).log (.geteventmsg o (s.heap o).pid) with
      | err n => exact fun h => h.elim
      | interrupt =>
        refine fun _ => ⟨_, [⟨.geteventmsg o (s.heap o).pid, .interrupt, s.dict⟩], ?_, .other rfl rfl .nil, hnc, hns⟩
        show (s.log ++ [_]) ++ [⟨_, K (logCall K (waitCall s wanted blocking o) s).log (.geteventmsg o (s.heap o).pid), _⟩] = _
        rw [hkk, List.append_assoc]
        rfl
      | ok pid mst =>
        have hp : pid ≠ 0 := by
          intro h0
          subst h0
          exact hz _ _ _ _ hkk
        have hout := fun r t => @addProcess_log K W hW pid hp (some o) (decide (ev = PTRACE_EVENT_CLONE))
          (logCall K (.geteventmsg o (s.heap o).pid) (logCall K (waitCall s wanted blocking o) s)) r t
        dsimp only [ptraceRes]
        unfold Py.bind
        generalize addProcess K W pid true (some o) (decide (ev = PTRACE_EVENT_CLONE)) _ = x at hout ⊢
        obtain ⟨r, t⟩ := x
        have fin : Clean r → ∃ e g, t.log = s.log ++ e :: g ∧ StopsIn g [] ∧ namesChild e = false ∧ stopOf e = none := by
          intro hcr
          obtain ⟨e, g, hg, hr⟩ := hout r t rfl hcr
          refine ⟨_, ⟨.geteventmsg o (s.heap o).pid, .ok pid mst, s.dict⟩ :: e :: g, ?_, .child rfl hr, hnc, hns⟩
          rw [hg]
          show (s.log ++ [_]) ++ [⟨_, K (logCall K (waitCall s wanted blocking o) s).log (.geteventmsg o (s.heap o).pid), _⟩] ++ _ = _
          rw [hkk, List.append_assoc, List.append_assoc]
          rfl
        cases r with
        | ok q => exact fun _ => fin trivial
        | error e => exact fun h => fin (clean_of h)
    · by_cases hex : ev = PTRACE_EVENT_EXEC
      · have : Py.bind (processStatus K W o st) (fun e => Py.pure (some e)) (logCall K (waitCall s wanted blocking o) s)
          = (.ok (some (.execution o)), logCall K (waitCall s wanted blocking o) s) := by
          unfold processStatus
          rw [classify_kind, hc]
          dsimp only
          unfold ptraceEvent Py.bind
          dsimp only
          rw [if_neg hev, if_pos hex]
          rfl
        rw [this]
        exact fun _ => ⟨_, [], rfl, .nil, hnc, hns⟩
      · have : Py.bind (processStatus K W o st) (fun e => Py.pure (some e)) (logCall K (waitCall s wanted blocking o) s)
          = (.error (.ptrace none), logCall K (waitCall s wanted blocking o) s) := by
          unfold processStatus
          rw [classify_kind, hc]
          dsimp only
          unfold ptraceEvent Py.bind
          dsimp only
          rw [if_neg hev, if_neg hex]
        rw [this]
        exact fun h => h.elim

theorem waitEventPid_log (hz : NoZero K) : ∀ (n wanted : Nat) (blocking : Bool) (s : DSt), wanted ≠ 0 →
    WaitLog wanted s (waitEventPid K n wanted blocking s).1 (waitEventPid K n wanted blocking s).2 := by
  intro n
  induction n with
  | zero =>
    intro wanted blocking s _ h
    exact h.elim
  | succ n ih =>
    intro wanted blocking s hw
    cases hg : dictGet s.dict wanted with
    | none =>
      have : waitEventPid K (n + 1) wanted blocking s = (.error (.ptrace none), s) := by
        unfold waitEventPid waitpidRaw
        rw [if_pos hw, hg]
        dsimp only
        unfold waitExcept
        rw [if_neg (by intro e; cases e)]
      rw [this]
      exact fun h => h.elim
    | some o =>
      have hrun : waitEventPid K (n + 1) wanted blocking s =
          match osRes (K s.log (waitCall s wanted blocking o)) with
          | .ok r => (match checkPid wanted blocking r (logCall K (waitCall s wanted blocking o) s) with
            | (.ok r, s') => waitReply K (waitEventPid K n) (waitEventPid K n wanted blocking) blocking r s'
            | (.error e, s') => waitExcept K wanted e s')
          | .error e => waitExcept K wanted e (logCall K (waitCall s wanted blocking o) s) := by
        rw [waitEventPid]
        unfold waitpidRaw
        dsimp only
        rw [if_pos hw, hg]
        dsimp only
        unfold Py.bind
        rw [osCall_run]
        unfold waitCall
        cases osRes (K s.log (.waitpid (some wanted) (!blocking) (s.heap o).isThread)) <;> rfl
      rw [hrun]
      have hnc : namesChild ⟨waitCall s wanted blocking o, K s.log (waitCall s wanted blocking o), s.dict⟩ = false := rfl
      cases hk : K s.log (waitCall s wanted blocking o) with
      | interrupt =>
        refine fun _ => ⟨_, [], rfl, .nil, hnc, ?_⟩
        rw [hk]
        rfl
      | err m =>
        dsimp only [osRes]
        unfold waitExcept
        by_cases hm : m = ECHILD
        · subst hm
          rw [if_pos rfl]
          have hgg : dictGet (logCall K (waitCall s wanted blocking o) s).dict wanted = some o := hg
          rw [hgg]
          have : Py.bind (processTerminated K o) (fun e => Py.pure (some e)) (logCall K (waitCall s wanted blocking o) s)
              = (.ok (some (.exit o none none)), gone o (logCall K (waitCall s wanted blocking o) s)) := by
            unfold processTerminated
            simp only [Py.bind, notRunning_run]
            rfl
          dsimp only
          rw [this]
          refine fun _ => ⟨_, [], by rw [gone_log]; rfl, .nil, hnc, ?_⟩
          rw [hk]
          rfl
        · rw [if_neg (by intro e; injection e with e; exact hm e)]
          exact fun h => h.elim
      | ok v st =>
        dsimp only [osRes]
        unfold checkPid
        by_cases hb : ((blocking || decide ((v, st).1 ≠ 0)) && decide (wanted ≠ 0) && decide ((v, st).1 ≠ wanted)) = true
        · rw [if_pos hb]
          dsimp only [Py.raise]
          unfold waitExcept
          rw [if_neg (by intro e; cases e)]
          exact fun h => h.elim
        · rw [if_neg hb]
          dsimp only [Py.pure]
          unfold waitReply
          by_cases hn : (!blocking && decide ((v, st).1 = 0)) = true
          · rw [if_pos hn]
            have : blocking = false ∧ v = 0 := by simpa using hn
            refine fun _ => ⟨_, [], rfl, .nil, hnc, ?_⟩
            rw [hk, this.2]
            rfl
          · rw [if_neg hn]
            have hv : v = wanted := by
              by_contra hne
              cases blocking <;> simp_all
            subst hv
            have hgg : dictGet (logCall K (waitCall s v blocking o) s).dict (v, st).1 = some o := hg
            rw [hgg]
            exact processStatus_log hz (fun w s h => ih w true s h) v hw blocking s o st hk

/-- The stop that a result stands for, by the object of its event. -/
def told (t : DSt) : Except Exc (Option Event) → List (Nat × Nat)
  | .ok (some (.signal o m)) => [((t.heap o).pid, m)]
  | _ => []

theorem waitEventPid_told (hz : NoZero K) (fuel wanted : Nat) (blocking : Bool) (s : DSt) (hw : wanted ≠ 0) (hr : RegInv s)
    {r : Except Exc (Option Event)} {t : DSt} (h : waitEventPid K fuel wanted blocking s = (r, t)) (hc : Clean r) :
    Rep s t (told t r) := by
  have h1 := waitEventPid_log hz fuel wanted blocking s hw
  have h2 := waitEventPid_out hz fuel wanted blocking s hw hr
  rw [h] at h1 h2
  obtain ⟨e, g, hg, hrep, hn, hs⟩ := h1 hc
  refine ⟨e :: g, hg, ?_⟩
  have hone : ∀ x, stopOf e = x → StopsIn (e :: g) x.toList := by
    intro x hx
    cases x with
    | none => exact .other hx hn hrep
    | some x => exact .stop hx hrep
  have := hone _ hs
  have heq : (stopIn wanted r).toList = told t r := by
    cases r with
    | error e => rfl
    | ok o =>
      cases o with
      | none => rfl
      | some ev =>
        cases ev with
        | signal o m =>
          obtain ⟨hd, st, _, _, ht⟩ := h2
          have ht : t = setProc (logCall K (waitCall s wanted blocking o) s) o { s.heap o with isStopped := true } := ht
          have hp := ((hr.agree wanted o).1 (dictGet_some hd)).2
          show [(wanted, m)] = [((t.heap o).pid, m)]
          rw [ht, setProc_same]
          show _ = [((s.heap o).pid, m)]
          rw [hp]
        | _ => rfl
  rw [← heq]
  exact this

theorem pollPids_told (hz : NoZero K) (fuel : Nat) : ∀ (pids : List Nat) (s : DSt), (∀ p ∈ pids, p ≠ 0) → RegInv s →
    ∀ r t, pollPids (waitEventPid K fuel) pids s = (r, t) → Clean r → Rep s t (told t r) := by
  intro pids
  induction pids with
  | nil =>
    intro s _ _ r t h _
    injection h with ha hb
    subst ha hb
    exact Rep.refl _
  | cons p ps ih =>
    intro s hps hr r t h hc
    unfold pollPids Py.bind at h
    cases hx : waitEventPid K fuel p false s with
    | mk r1 t1 =>
      rw [hx] at h
      have h1 := fun hc => waitEventPid_told hz fuel p false s (hps p List.mem_cons_self) hr hx hc
      cases r1 with
      | error e =>
        injection h with ha hb
        subst ha hb
        exact h1 (clean_of hc)
      | ok o =>
        cases o with
        | some ev =>
          injection h with ha hb
          subst ha hb
          exact h1 trivial
        | none =>
          have hout := waitEventPid_out hz fuel p false s (hps p List.mem_cons_self) hr
          rw [hx] at hout
          obtain ⟨_, o, _, _, ht⟩ := hout
          have ht : t1 = logCall K (waitCall s p false o) s := ht
          have := ih t1 (fun q hq => hps q (List.mem_cons_of_mem _ hq)) (by rw [ht]; exact hr.logCall K _) r t h hc
          exact (h1 trivial).trans this

theorem waitAny_told (hz : NoZero K) (fuel : Nat) (blocking : Bool) : ∀ (n : Nat) (s : DSt), RegInv s → PidInv s →
    ∀ r t, waitAny K fuel n blocking s = (r, t) → Clean r → Rep s t (told t r) := by
  intro n
  induction n with
  | zero =>
    intro s _ _ r t h hc
    injection h with ha hb
    subst ha
    exact hc.elim
  | succ n ih =>
    intro s hr hp r t h hc
    unfold waitAny at h
    cases hk : s.dict.map Prod.fst with
    | nil =>
      rw [hk] at h
      injection h with ha hb
      subst ha
      exact hc.elim
    | cons p ps =>
      have hne : ∀ q ∈ p :: ps, q ≠ 0 := by intro q hq; rw [← hk] at hq; exact hp.keys q hq
      have hmem : ∀ q ∈ p :: ps, q ∈ s.dict.map Prod.fst := by intro q hq; rw [hk]; exact hq
      cases ps with
      | nil =>
        rw [hk] at h
        exact waitEventPid_told hz fuel p blocking s (hne p List.mem_cons_self) hr h hc
      | cons q ps =>
        rw [hk] at h
        dsimp only at h
        unfold Py.bind at h
        cases hx : pollPids (waitEventPid K fuel) (p :: q :: ps) s with
        | mk r1 t1 =>
          rw [hx] at h
          have h1 := pollPids_told hz fuel (p :: q :: ps) s hne hr r1 t1 hx
          cases r1 with
          | error e =>
            injection h with ha hb
            subst ha hb
            exact h1 (clean_of hc)
          | ok o =>
            cases o with
            | some ev =>
              injection h with ha hb
              subst ha hb
              exact h1 trivial
            | none =>
              dsimp only at h
              by_cases hb : blocking = true
              · rw [if_pos hb, osCall_run] at h
                have h2 : Rep t1 (logCall K .sleep t1) [] := Rep.logCall _ _ rfl
                have ho : OnlyLog s t1 := by
                  rcases pollPids_out hz fuel s hr hp (p :: q :: ps) s (OnlyLog.refl s) hmem _ t1 hx with ⟨_, h⟩ | ⟨h, _⟩
                  · exact h
                  · exact absurd rfl h
                cases hkk : K t1.log .sleep with
                | ok v st =>
                  rw [hkk] at h
                  have h3 := ih (logCall K .sleep t1) ((ho.regInv hr).logCall K _) ((ho.pidInv hp).logCall _) r t h hc
                  exact ((h1 trivial).trans h2).trans h3
                | err e =>
                  rw [hkk] at h
                  injection h with ha _
                  subst ha
                  exact hc.elim
                | interrupt =>
                  rw [hkk] at h
                  injection h with ha hb
                  subst ha hb
                  exact (h1 trivial).trans h2
              · rw [if_neg hb] at h
                injection h with ha hb
                subst ha hb
                exact h1 trivial

theorem waitProcessEvent_told (hz : NoZero K) (fuel : Nat) (wanted : Option Nat) (hw : wanted ≠ some 0) (blocking : Bool) (s : DSt) (hg : Good s)
    {r : Except Exc (Option Event)} {t : DSt} (h : waitProcessEvent K fuel wanted blocking s = (r, t)) (hc : Clean r) : Rep s t (told t r) := by
  unfold waitProcessEvent at h
  cases wanted with
  | some p => exact waitEventPid_told hz fuel p blocking s (fun h0 => hw (by rw [h0])) hg.reg h hc
  | none => exact waitAny_told hz fuel blocking fuel s hg.reg hg.pid r t h hc

/-- The stop that the result of `waitSignals` stands for. -/
def toldBy (t : DSt) : Except Exc Event → List (Nat × Nat)
  | .ok (.signal o m) => [((t.heap o).pid, m)]
  | .error (.event (.signal o m)) => [((t.heap o).pid, m)]
  | _ => []

/-- No error of a wait is the report of a signal. -/
theorem waitProcessEvent_notSig (hz : NoZero K) (fuel : Nat) (wanted : Option Nat) (hw : wanted ≠ some 0) (blocking : Bool) (s : DSt) (hg : Good s)
    {e : Exc} {t : DSt} (h : waitProcessEvent K fuel wanted blocking s = (.error e, t)) : ∀ q m, e ≠ .event (.signal q m) := by
  have one : ∀ p b u, p ≠ 0 → RegInv u → waitEventPid K fuel p b u = (.error e, t) → ∀ q m, e ≠ .event (.signal q m) := by
    intro p b u hp hr hx
    have := waitEventPid_out hz fuel p b u hp hr
    rw [hx] at this
    exact this.2.1
  unfold waitProcessEvent at h
  cases wanted with
  | some p => exact one p blocking s (fun h0 => hw (by rw [h0])) hg.reg h
  | none =>
    rcases waitAny_out hz fuel blocking s hg.reg hg.pid fuel s (OnlyLog.refl s) _ t h with
      ⟨h1, _⟩ | ⟨_, pid, hpid, b, u, hu, hx⟩ | ⟨_, ⟨h1, _⟩ | h1 | h1 | ⟨e', h1⟩⟩
    · cases h1
    · exact one pid b u (hg.pid.keys pid hpid) (hu.regInv hg.reg) hx
    all_goals
      injection h1 with h1
      rw [h1]
      intro q m h; cases h

theorem waitSignals_told (hz : NoZero K) (fuel : Nat) (signals : List Nat) (wanted : Option Nat) (hw : wanted ≠ some 0) (s : DSt) (hg : Good s)
    {r : Except Exc Event} {t : DSt} (h : waitSignals K fuel signals wanted s = (r, t)) (hc : Clean r) : Rep s t (toldBy t r) := by
  unfold waitSignals Py.bind at h
  cases hx : waitProcessEvent K fuel wanted true s with
  | mk r1 t1 =>
    rw [hx] at h
    have h1 := fun hc => waitProcessEvent_told hz fuel wanted hw true s hg hx hc
    cases r1 with
    | error e =>
      have hn := waitProcessEvent_notSig hz fuel wanted hw true s hg hx
      injection h with ha hb
      subst ha hb
      have := h1 (clean_of hc)
      have heq : toldBy t1 (.error e) = [] := by
        cases e with
        | event ev =>
          cases ev with
          | signal q m => exact absurd rfl (hn q m)
          | _ => rfl
        | _ => rfl
      rw [heq]
      exact this
    | ok o =>
      cases o with
      | none =>
        injection h with ha _
        subst ha
        exact hc.elim
      | some ev =>
        cases ev with
        | signal q m =>
          dsimp only [filterEvent] at h
          split at h <;>
          · injection h with ha hb
            subst ha hb
            exact h1 trivial
        | _ =>
          injection h with ha hb
          subst ha hb
          exact h1 trivial

/-! ### the option `use_sysgood` -/

/-- Steps that do not change the options. -/
def keepOptions : Act → Prop
  | .options _ => False
  | _ => True

theorem Steps.sysgood {P : DSt → Act → Prop} {s t : DSt} (h : Steps K P s t) (hP : ∀ u a, P u a → keepOptions a) :
    t.useSysgood = s.useSysgood := by
  induction h with
  | refl => rfl
  | step a h hp hs ih =>
    rw [← ih]
    have := hP _ _ hp
    cases hs <;> first | rfl | exact this.elim

theorem keepOptions_of_wait {Z : Prop} (a : Act) (h : waitActs Z a) : keepOptions a := by
  cases a <;> first | trivial | exact h.elim

theorem keepOptions_of_plain {Z : Prop} (a : Act) (h : plainActs Z a) : keepOptions a := by
  cases a <;> first | trivial | exact h.elim

theorem keepOptions_of_sys {q : Nat} (a : Act) (h : sysActs q a) : keepOptions a := by
  cases a <;> first | trivial | exact h.elim

theorem reach_sysgood {s : DSt} (h : Reach K s) : s.useSysgood = true := by
  induction h with
  | new => rfl
  | @call s h fuel op hop ih =>
    by_cases ho : opOptions op
    · cases op <;> first | exact ho.elim | exact ih | rfl
    · have := (runOp_steps' (K := K) (P := fun _ => keepOptions) fuel op s (fun _ a => keepOptions_of_plain a) (fun _ _ _ => trivial)
        (fun _ _ _ _ => trivial) (fun _ _ _ => trivial) (fun h => absurd h ho)).sysgood (fun _ _ h => h)
      rw [this]
      exact ih

theorem waitSyscall_sysgood (fuel : Nat) (s : DSt) : (waitSyscall K fuel none s).2.useSysgood = s.useSysgood :=
  (waitSignals_wait (K := K) (P := fun _ => keepOptions) (fun _ a => keepOptions_of_wait a) (fun _ => trivial) fuel _ none s).sysgood (fun _ _ h => h)

/-! ### handling an event -/

theorem Rep.quiet {P : DSt → Act → Prop} {s t : DSt} (h : Steps K P s t)
    (hP : ∀ u a c, P u a → actCall u a = some c → plainCall c = true) : Rep s t [] := by
  obtain ⟨g, hg, hq⟩ := h.newLog (Q := fun e => plainCall e.call = true) fun u a c hp hc => hP u a c hp hc
  refine ⟨g, hg, ?_⟩
  clear hg
  induction g with
  | nil => exact .nil
  | cons e g ih =>
    have he := hq e List.mem_cons_self
    exact .other (stopOf_plain he) (namesChild_plain he) (ih fun x hx => hq x (List.mem_cons_of_mem _ hx))

theorem lookActs_plain {q : Nat} {u : DSt} {a : Act} {c : Call} (ha : lookActs q a) (hc : actCall u a = some c) : plainCall c = true := by
  unfold lookActs at ha
  split at ha
  · cases hc
  · injection hc with hc; rw [← hc]; rfl
  · exact ha.elim

theorem procSyscall_rep {o n : Nat} {s t : DSt} (h : procSyscall K o n s = (.ok (), t)) : Rep s t [] ∧ t.useSysgood = s.useSysgood := by
  obtain ⟨_, ht⟩ := procSyscall_ok h
  rw [ht]
  exact ⟨Rep.logCall _ _ rfl, rfl⟩

theorem eventDisplay_rep {o : Nat} {s t : DSt} (h : eventDisplay K o s = (.ok (), t)) : Rep s t [] ∧ t.useSysgood = s.useSysgood := by
  rw [eventDisplay_ok h]
  exact ⟨Rep.logCall _ _ rfl, rfl⟩

/-- A returned event is a signal that was asked for. -/
theorem waitSignals_ok {fuel : Nat} {signals : List Nat} {pid : Option Nat} {s t : DSt} {ev : Event} (hne : signals ≠ [])
    (h : waitSignals K fuel signals pid s = (.ok ev, t)) : ∃ q m, ev = .signal q m ∧ m ∈ signals := by
  obtain ⟨e, u, _, h2⟩ := Py.ok_of_bind h
  cases e with
  | none => cases h2
  | some e =>
    cases e with
    | signal q m =>
      have h2 : (if signals.contains m || signals.isEmpty then Py.pure (.signal q m) else Py.raise (.event (.signal q m)) : Py DSt Event) u = (.ok ev, t) := h2
      by_cases hc : (signals.contains m || signals.isEmpty) = true
      · rw [if_pos hc] at h2
        injection h2 with h2 _
        injection h2 with h2
        refine ⟨q, m, h2.symm, ?_⟩
        rcases (Bool.or_eq_true_iff.1 hc) with h | h
        · exact List.contains_iff_mem.1 h
        · exact absurd (List.isEmpty_iff.1 h) hne
      · rw [if_neg hc] at h2
        cases h2
    | _ => cases h2

/-- Only stops that are not passed on. -/
def RepTraps (s t : DSt) : Prop := ∃ l, Rep s t l ∧ l.filter OtherSignal = []

theorem RepTraps.of {s t : DSt} (h : Rep s t []) : RepTraps s t := ⟨[], h, rfl⟩

theorem RepTraps.trans {s t u : DSt} (h1 : RepTraps s t) (h2 : RepTraps t u) : RepTraps s u := by
  obtain ⟨l, hl, hf⟩ := h1
  obtain ⟨k, hk, hg⟩ := h2
  exact ⟨l ++ k, hl.trans hk, by rw [List.filter_append, hf, hg]; rfl⟩

theorem sysEvent_rep (hz : NoZero K) (fuel : Nat) (C : SysCfg) (o : Nat) (s t : DSt) (r : Option SysObj) (hg : Good s) (ho : o < s.next)
    (h : sysEvent K fuel C o s = (.ok r, t)) : RepTraps s t := by
  unfold sysEvent at h
  cases hx : (s.heap o).ss.nextExit with
  | false =>
    rw [hx, if_neg (by decide)] at h
    have := Rep.quiet (sysEnter_look (K := K) C o s) fun u a c ha hc => lookActs_plain ha hc
    rw [h] at this
    exact .of this
  | true =>
    rw [hx, if_pos rfl] at h
    obtain ⟨_, t1, h1, h⟩ := Py.ok_of_bind h
    obtain ⟨_, t2, h2, h⟩ := Py.ok_of_bind h
    have hlook := sysResult_look (K := K) o s
    rw [h1] at hlook
    have ha1 : Rep s t1 [] := Rep.quiet hlook fun u a c ha hc => lookActs_plain ha hc
    have hg1 : Good t1 := by
      have hh := h1
      unfold sysResult at hh
      cases hss : (s.heap o).ss.syscall with
      | none =>
        rw [hss] at hh
        injection hh with _ hh
        rw [← hh]; exact hg
      | some c =>
        rw [hss] at hh
        have hgb : Good (Py.bind (ptraceCall K (.inspect o (s.heap o).pid)) (fun v =>
          updSys o fun ss => { ss with syscall := some { c with result := some v } }) s).2 :=
          Good.bind (hg.ptraceCall _) fun _ _ _ ht => ht.sys o _
        have hh : Py.bind (ptraceCall K (.inspect o (s.heap o).pid)) (fun v =>
          updSys o fun ss => { ss with syscall := some { c with result := some v } }) s = _ := hh
        rw [hh] at hgb
        exact hgb
    have ho1 : o < t1.next := Nat.lt_of_lt_of_le ho hlook.old.next
    have ha3 : Rep t2 t [] := by
      injection h with _ h
      rw [← h]
      exact Rep.same rfl
    unfold sysExecTrap at h2
    by_cases hc : (t1.heap o).ss.name = some execveName ∧ t1.traceExec = false
    · rw [if_pos hc] at h2
      obtain ⟨_, t3, h3, h2⟩ := Py.ok_of_bind h2
      obtain ⟨ev, t4, h4, h2⟩ := Py.ok_of_bind h2
      have hg3 := hg1.procSyscall (K := K) o 0
      rw [h3] at hg3
      have ha2 := (procSyscall_rep h3).1
      have ha4 := waitSignals_told hz fuel _ (some (t1.heap o).pid) (fun h0 => hg1.pid.obj o ho1 (by injection h0)) t3 hg3 h4 trivial
      obtain ⟨q, m, hev, hm⟩ := waitSignals_ok (by simp) h4
      injection h2 with _ h2
      rw [h2, hev] at ha4
      have ha4 : Rep t3 t2 [((t2.heap q).pid, m)] := ha4
      have hm2 : RepTraps t3 t2 := by
        refine ⟨_, ha4, ?_⟩
        have : m = 5 ∨ m = 0x85 := by
          have hm : m ∈ [5, 0x85] := hm
          simpa using hm
        rcases this with rfl | rfl <;> rfl
      exact (((RepTraps.of ha1).trans (.of ha2)).trans hm2).trans (.of ha3)
    · rw [if_neg hc] at h2
      injection h2 with _ h2
      rw [← h2] at ha3
      exact (RepTraps.of ha1).trans (.of ha3)

theorem prepareProcess_rep {o : Nat} {s t : DSt} (h : prepareProcess K o s = (.ok (), t)) : Rep s t [] ∧ t.useSysgood = s.useSysgood := by
  obtain ⟨_, t1, h1, h⟩ := Py.ok_of_bind h
  have ha := procSyscall_rep h1
  injection h with _ h
  rw [← h]
  exact ⟨ha.1.trans (Rep.same rfl), ha.2⟩

theorem straceHandle_rep (hz : NoZero K) (fuel : Nat) (C : StraceCfg) (r : Except Exc Event) (code c' : Nat) (s t : DSt) (hg : Good s)
    (hr : ∀ ev, r = .ok ev → ev.proc < s.next) (h : straceHandle K fuel C r code s = (.ok c', t)) :
    RepTraps s t ∧ t.useSysgood = s.useSysgood ∧ Clean r := by
  cases r with
  | ok ev =>
    obtain ⟨_, u, h1, h⟩ := Py.ok_of_bind h
    injection h with _ h
    rw [← h]
    obtain ⟨r, t1, h2, h1⟩ := Py.ok_of_bind h1
    obtain ⟨_, t2, h3, h1⟩ := Py.ok_of_bind h1
    have hsys := (sysEvent_steps (K := K) fuel C.sys ev.proc s).sysgood fun _ a => keepOptions_of_sys a
    rw [h2] at hsys
    have ha2 : Rep t1 t2 [] ∧ t2.useSysgood = t1.useSysgood := by
      by_cases hd : displayed C.enter r = true
      · rw [if_pos hd] at h3
        exact eventDisplay_rep h3
      · rw [if_neg hd] at h3
        injection h3 with _ h3
        rw [← h3]
        exact ⟨Rep.refl t1, rfl⟩
    have ha3 := procSyscall_rep h1
    exact ⟨((sysEvent_rep hz fuel C.sys ev.proc s t1 r hg (hr ev rfl) h2).trans (.of ha2.1)).trans (.of ha3.1),
      by rw [ha3.2, ha2.2, hsys], trivial⟩
  | error e =>
    cases e with
    | event ev =>
      cases ev with
      | exit o a b =>
        obtain ⟨_, u, h1, h⟩ := Py.ok_of_bind h
        injection h with _ h
        rw [← h]
        unfold processExited at h1
        split at h1
        · exact ⟨.of (eventDisplay_rep h1).1, (eventDisplay_rep h1).2, trivial⟩
        · injection h1 with _ h1
          rw [← h1]
          exact ⟨.of (Rep.refl s), rfl, trivial⟩
      | signal o m =>
        obtain ⟨_, u, h1, h⟩ := Py.ok_of_bind h
        obtain ⟨_, v, h2, h⟩ := Py.ok_of_bind h
        injection h with _ h
        rw [← h]
        have ha := eventDisplay_rep h1
        have hb := procSyscall_rep h2
        exact ⟨.of (ha.1.trans hb.1), by rw [hb.2, ha.2], trivial⟩
      | newProcess q =>
        obtain ⟨_, u, h1, h⟩ := Py.ok_of_bind h
        injection h with _ h
        rw [← h]
        obtain ⟨_, t1, h2, h1⟩ := Py.ok_of_bind h1
        have ha := prepareProcess_rep h2
        have h1 : (match (t1.heap q).parent with
          | some p => procSyscall K p 0 t1
          | none => (.error .attribute, t1)) = (.ok (), u) := h1
        cases hp : (t1.heap q).parent with
        | none => rw [hp] at h1; cases h1
        | some p =>
          rw [hp] at h1
          have hb := procSyscall_rep h1
          exact ⟨.of (ha.1.trans hb.1), by rw [hb.2, ha.2], trivial⟩
      | execution o =>
        obtain ⟨_, u, h1, h⟩ := Py.ok_of_bind h
        injection h with _ h
        rw [← h]
        have hb := procSyscall_rep h1
        exact ⟨.of hb.1, hb.2, trivial⟩
    | _ => cases h

/-- The signals that the answers to an event hand to processes. -/
theorem answers_signals {v : DSt} {r : Except Exc Event} (hok : ∀ ev, r = .ok ev → ∃ q, ev = .signal q 0x85)
    (hne : ∀ q m, r = .error (.event (.signal q m)) → m ≠ 0x85) :
    (answers v r).filterMap signalSent = (toldBy v r).filter OtherSignal := by
  cases r with
  | ok ev =>
    obtain ⟨q, rfl⟩ := hok ev rfl
    have hr : (toldBy v (.ok (.signal q 0x85))).filter OtherSignal = [] := rfl
    rw [hr]
    show (if ExecTrap v q then [Call.syscall q (v.heap q).pid 0, Call.syscall q (v.heap q).pid 0]
      else [Call.syscall q (v.heap q).pid 0]).filterMap signalSent = []
    split <;> rfl
  | error e =>
    cases e with
    | event ev =>
      cases ev with
      | signal o m =>
        have hm := hne o m rfl
        show [Call.syscall o (v.heap o).pid (passed m)].filterMap signalSent = [((v.heap o).pid, m)].filter OtherSignal
        unfold passed
        by_cases h5 : m = 5
        · rw [if_pos h5, h5]; rfl
        · rw [if_neg h5]
          by_cases h0 : m = 0
          · rw [h0]; rfl
          · have h1 : signalSent (.syscall o (v.heap o).pid m) = some ((v.heap o).pid, m) := if_neg h0
            have h2 : OtherSignal ((v.heap o).pid, m) = true := by
              unfold OtherSignal
              simp [h0, h5, hm]
            simp [h1, h2]
      | newProcess q =>
        show (Call.syscall q (v.heap q).pid 0 :: _).filterMap signalSent = []
        cases (v.heap q).parent <;> rfl
      | _ => rfl
    | _ => rfl

theorem waitSyscall_raised {fuel : Nat} {s v : DSt} (hs : s.useSysgood = true) (hz : NoZero K) (hg : Good s) {q m : Nat}
    (h : waitSyscall K fuel none s = (.error (.event (.signal q m)), v)) : m ≠ 0x85 := by
  have h : waitSignals K fuel [if s.useSysgood then SIGTRAP ||| 0x80 else SIGTRAP] none s = (.error (.event (.signal q m)), v) := h
  rw [hs] at h
  have h : waitSignals K fuel [0x85] none s = (.error (.event (.signal q m)), v) := h
  rcases Py.error_of_bind h with h1 | ⟨e, u, h1, h2⟩
  · exact absurd rfl (waitProcessEvent_notSig hz fuel none (by simp) true s hg h1 q m)
  · intro hm
    rw [hm] at h2
    cases e with
    | none => cases h2
    | some e =>
      cases e with
      | signal q' m' =>
        have h2 : (if ([0x85] : List Nat).contains m' || ([0x85] : List Nat).isEmpty then Py.pure (.signal q' m') else Py.raise (.event (.signal q' m')) : Py DSt Event) u =
          (.error (.event (.signal q 0x85)), v) := h2
        by_cases hc : (([0x85] : List Nat).contains m' || ([0x85] : List Nat).isEmpty) = true
        · rw [if_pos hc] at h2; cases h2
        · rw [if_neg hc] at h2
          injection h2 with h2 _
          injection h2 with h2
          injection h2 with h2
          injection h2 with _ h2
          rw [h2] at hc
          exact hc (by decide)
      | _ => cases h2

theorem turns_signals (hz : NoZero K) {fuel : Nat} {C : StraceCfg} {s : DSt} {code : Nat}
    {es : List (Except Exc Event × DSt)} {t : DSt} {c : Nat} (h : Turns K fuel C s code es t c) (hs : Good s) (hu : s.useSysgood = true) :
    t.useSysgood = true ∧ ∃ l, Rep s t l ∧ (es.flatMap fun x => answers x.2 x.1).filterMap signalSent = l.filter OtherSignal := by
  induction h with
  | nil => exact ⟨hu, [], Rep.refl s, rfl⟩
  | @snoc es t v w c c' r h hne hwait hh ih =>
    obtain ⟨hut, l, hl, hf⟩ := ih
    have hgt := (turns_acts hz h hs).1
    have hgv := hgt.waitSyscall hz fuel
    rw [hwait] at hgv
    have hok : ∀ ev, r = .ok ev → ∃ q, ev = .signal q 0x85 ∧ q < v.next := by
      intro ev he
      subst he
      obtain ⟨o, hev, _, _, ho, _⟩ := waitSyscall_ok hz hgt fuel ev hwait
      rw [hut] at hev
      exact ⟨o, hev, ho⟩
    obtain ⟨⟨l2, hl2, hf2⟩, huw, hc⟩ := straceHandle_rep hz fuel C r c c' v w hgv
      (fun ev he => by obtain ⟨q, rfl, hq⟩ := hok ev he; exact hq) hh
    have huv := waitSyscall_sysgood (K := K) fuel t
    rw [hwait] at huv
    have hw : waitSignals K fuel [if t.useSysgood then SIGTRAP ||| 0x80 else SIGTRAP] none t = (r, v) := hwait
    have hl1 := waitSignals_told hz fuel _ none (by simp) t hgt hw hc
    have ha := answers_signals (v := v) (r := r) (fun ev he => by obtain ⟨q, h, _⟩ := hok ev he; exact ⟨q, h⟩)
      (fun q m he => by rw [he] at hwait; exact waitSyscall_raised hut hz hgt hwait)
    refine ⟨by rw [huw, huv, hut], l ++ toldBy v r ++ l2, (hl.trans hl1).trans hl2, ?_⟩
    rw [List.flatMap_append, List.filterMap_append, List.filter_append, List.filter_append, hf, hf2, ← ha]
    simp

theorem passedOnIn_acting (g : List Entry) : passedOnIn g = (acting g).filterMap signalSent := by
  unfold passedOnIn acting
  rw [List.filterMap_filter]
  congr 1
  funext c
  cases c <;> rfl

/-- **C122.** In a complete run of `syscallTrace` the signals handed to processes are, in order, those whose stops the kernel
reported, except for `SIGTRAP` and the mark of system calls: none is lost, repeated, invented, reordered or handed to another process. The
first stop of each new process is left out of account. -/
theorem C122_pass_partial (K : Kern) (hz : RealPids K) (fuel : Nat) (C : StraceCfg) (s t : DSt) (hs : Reach K s) (o code : Nat)
    (h : syscallTrace K fuel C o s = (.ok code, t)) :
    ∃ g l, t.log = s.log ++ g ∧ StopsIn g l ∧ passedOnIn g = l.filter OtherSignal := by
  obtain ⟨_, u, h1, h2⟩ := Py.ok_of_bind h
  obtain ⟨es, hes, _⟩ := straceLoop_turns fuel C fuel 0 0 u u t code [] .nil h2
  have hg := (reach_good hz hs).prepareProcess (K := K) o
  rw [h1] at hg
  have hp := prepareProcess_rep h1
  obtain ⟨_, l, hl, hf⟩ := turns_signals hz hes hg (by rw [hp.2]; exact reach_sysgood hs)
  obtain ⟨_, ha, _⟩ := turns_acts hz hes hg
  obtain ⟨g, hg1, hg2⟩ := (prepareProcess_acts h1).1.trans ha
  obtain ⟨g', hg1', hr⟩ := hp.1.trans hl
  have : g = g' := List.append_cancel_left (hg1.symm.trans hg1')
  subst this
  refine ⟨g, l, hg1, hr, ?_⟩
  rw [passedOnIn_acting, hg2]
  exact hf

example : RealPids ending ∧ Reach ending (one ending) ∧ (syscallTrace ending 9 readCfg 0 (one ending)).1 = .ok 3 ∧
    passedOnIn (syscallTrace ending 9 readCfg 0 (one ending)).2.log = [(7, 10)] :=
  ⟨fun _ _ _ _ h => (by cases h), one_reach _, by decide +kernel, by decide +kernel⟩

/-- Process 7 gets `SIGTRAP` once it is resumed, and exits when it is resumed again. -/
def trapped : Kern := fun log c =>
  match c with
  | .waitpid (some p) _ _ =>
    if (log.filter fun e => decide (e.call = .syscall 0 7 0)).length = 2 then .ok p 0x0300
    else if log.any fun e => decide (e.call = .syscall 0 7 0) then .ok p 0x057f
    else .ok p 0x137f
  | c => calm log c

/-- A signal `SIGTRAP` sent to the process by another one is taken away from it. -/
theorem C122_trap_refuted : ∃ (K : Kern) (C : StraceCfg) (s t : DSt) (code : Nat) (g : List Entry), RealPids K ∧ Reach K s ∧
    syscallTrace K 9 C 0 s = (.ok code, t) ∧ t.log = s.log ++ g ∧ (∃ e ∈ g, stopOf e = some (7, 5)) ∧ passedOnIn g = [] := by
  refine ⟨trapped, readCfg, one trapped, (syscallTrace trapped 9 readCfg 0 (one trapped)).2, 3,
    (syscallTrace trapped 9 readCfg 0 (one trapped)).2.log.drop (one trapped).log.length, fun _ _ _ _ h => (by cases h), one_reach _, ?_, ?_, ?_, ?_⟩
  · have : (syscallTrace trapped 9 readCfg 0 (one trapped)).1 = .ok 3 := by decide +kernel
    rw [← this]
  · decide +kernel
  · decide +kernel
  · decide +kernel

/-- `SIGUSR1` reaches process 7 before the `SIGSTOP` of attaching does. -/
def early : Kern := fun log c =>
  match c with
  | .waitpid (some p) _ _ =>
    if log.any fun e => decide (e.call = .syscall 0 7 19) then .ok p 0x0300
    else if log.any fun e => decide (e.call = .syscall 0 7 0) then .ok p 0x137f
    else .ok p 0x0a7f
  | c => calm log c

/-- `strace.py -p`: a signal that arrives while the tracer attaches is displayed and lost; the `SIGSTOP` of attaching is handed to
the process in its place. -/
theorem C122_first_refuted : ∃ (K : Kern) (C : StraceCfg) (t : DSt) (code : Nat), RealPids K ∧
    straceMain K 9 C 7 false newDebugger = (.ok (some code), t) ∧ t.log.filterMap stopOf = [(7, 10), (7, 19)] ∧ passedOnIn t.log = [(7, 19)] := by
  refine ⟨early, readCfg, (straceMain early 9 readCfg 7 false newDebugger).2, 3, fun _ _ _ _ h => (by cases h), ?_, ?_, ?_⟩
  · have : (straceMain early 9 readCfg 7 false newDebugger).1 = .ok (some 3) := by decide +kernel
    rw [← this]
  · decide +kernel
  · decide +kernel

end PT
