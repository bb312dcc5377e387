import Verif.Lemmas.Debugger3

/-! Exact results of waiting for one process: the main induction. -/

namespace PT

variable {K : Kern}

theorem notSig_ptrace {n : Option Nat} : (∀ q m, Exc.ptrace n ≠ .event (.signal q m)) := by
  intro q m h; cases h

/-- What `processStatus` does for a registered object. -/
theorem processStatus_out {W : WaitPid} (hz : NoZero K)
    (hW : ∀ wanted s, wanted ≠ 0 → RegInv s → WOut K wanted true s (W wanted true s).1 (W wanted true s).2)
    (wanted : Nat) (blocking : Bool) (s : DSt) (hr : RegInv s) (o : Nat) (st : Int)
    (hg : dictGet s.dict wanted = some o) (hk : K s.log (waitCall s wanted blocking o) = .ok wanted st) :
    WOut K wanted blocking s
      (Py.bind (processStatus K W o st) (fun e => Py.pure (some e)) (logCall K (waitCall s wanted blocking o) s)).1
      (Py.bind (processStatus K W o st) (fun e => Py.pure (some e)) (logCall K (waitCall s wanted blocking o) s)).2 := by
  have hx1 := Ext.logCall K (waitCall s wanted blocking o) s
  have hr1 := hr.logCall K (waitCall s wanted blocking o)
  cases hc : Spec.waitMeaning st with
  | exited c =>
    have : Py.bind (processStatus K W o st) (fun e => Py.pure (some e)) (logCall K (waitCall s wanted blocking o) s)
        = (.ok (some (.exit o none (some c))), gone o (logCall K (waitCall s wanted blocking o) s)) := by
      unfold processStatus
      rw [classify_kind, hc]
      simp only [Py.bind, notRunning_run]
      rfl
    rw [this]
    exact ⟨hg, Or.inl ⟨st, hk, Or.inl ⟨c, hc, rfl, rfl⟩⟩, rfl⟩
  | killed n =>
    have : Py.bind (processStatus K W o st) (fun e => Py.pure (some e)) (logCall K (waitCall s wanted blocking o) s)
        = (.ok (some (.exit o (some n) none)), gone o (logCall K (waitCall s wanted blocking o) s)) := by
      unfold processStatus
      rw [classify_kind, hc]
      simp only [Py.bind, notRunning_run]
      rfl
    rw [this]
    exact ⟨hg, Or.inl ⟨st, hk, Or.inr ⟨n, hc, rfl, rfl⟩⟩, rfl⟩
  | unknown =>
    have : Py.bind (processStatus K W o st) (fun e => Py.pure (some e)) (logCall K (waitCall s wanted blocking o) s)
        = (.error (.ptrace none), logCall K (waitCall s wanted blocking o) s) := by
      unfold processStatus
      rw [classify_kind, hc]
      rfl
    rw [this]
    exact ⟨hx1, notSig_ptrace, by (intro o a b e; cases e), by (intro e; cases e), by (intro o e; cases e)⟩
  | signal m =>
    have : Py.bind (processStatus K W o st) (fun e => Py.pure (some e)) (logCall K (waitCall s wanted blocking o) s)
        = (.ok (some (.signal o m)), setProc (logCall K (waitCall s wanted blocking o) s) o
            { s.heap o with isStopped := true }) := by
      unfold processStatus
      rw [classify_kind, hc]
      rfl
    rw [this]
    exact ⟨hg, st, hk, hc, rfl⟩
  | event ev =>
    by_cases hev : ev = PTRACE_EVENT_FORK ∨ ev = PTRACE_EVENT_VFORK ∨ ev = PTRACE_EVENT_CLONE
    · have hrun : Py.bind (processStatus K W o st) (fun e => Py.pure (some e)) (logCall K (waitCall s wanted blocking o) s)
        = match ptraceRes (K (logCall K (waitCall s wanted blocking o) s).log (.geteventmsg o (s.heap o).pid)) with
          | .error e => (.error e, logCall K (.geteventmsg o (s.heap o).pid) (logCall K (waitCall s wanted blocking o) s))
          | .ok pid => Py.bind (addProcess K W pid true (some o) (decide (ev = PTRACE_EVENT_CLONE)))
              (fun q => Py.pure (some (.newProcess q)))
              (logCall K (.geteventmsg o (s.heap o).pid) (logCall K (waitCall s wanted blocking o) s)) := by
        unfold processStatus
        rw [classify_kind, hc]
        dsimp only
        unfold ptraceEvent
        unfold Py.bind
        dsimp only
        rw [if_pos hev, ptraceCall_run]
        have hh : (logCall K (waitCall s wanted blocking o) s).heap o = s.heap o := rfl
        rw [hh]
        cases ptraceRes (K (logCall K (waitCall s wanted blocking o) s).log (.geteventmsg o (s.heap o).pid)) with
        | error e => rfl
        | ok pid =>
          dsimp only
          generalize addProcess K W pid true (some o) (decide (ev = PTRACE_EVENT_CLONE)) _ = x
          obtain ⟨r, t⟩ := x
          cases r <;> rfl
      rw [hrun]
      have hx2 := hx1.trans (Ext.logCall K (.geteventmsg o (s.heap o).pid) (logCall K (waitCall s wanted blocking o) s))
      have hr2 := hr1.logCall K (.geteventmsg o (s.heap o).pid)
      cases hkk : K (logCall K (waitCall s wanted blocking o) s).log (.geteventmsg o (s.heap o).pid) with
      | err n => exact ⟨hx2, notSig_ptrace, by (intro o a b e; cases e), by (intro e; cases e), by (intro o e; cases e)⟩
      | interrupt => exact ⟨hx2, by (intro q m h; cases h), by (intro o a b e; cases e), by (intro e; cases e), by (intro o e; cases e)⟩
      | ok pid mst =>
        have hp : pid ≠ 0 := by
          intro h0
          subst h0
          exact hz _ _ _ _ hkk
        have hout := addProcess_out hW pid hp true (some o) (decide (ev = PTRACE_EVENT_CLONE)) _ hr2
        dsimp only [ptraceRes]
        unfold Py.bind
        generalize addProcess K W pid true (some o) (decide (ev = PTRACE_EVENT_CLONE)) _ = x at hout ⊢
        obtain ⟨r, t⟩ := x
        have hout := hout r t rfl
        cases r with
        | ok q => exact ⟨o, st, ev, pid, mst, hg, hk, hc, hev, hkk, hout⟩
        | error e =>
          obtain ⟨⟨g1, g2, g3, g4, g5⟩, _⟩ := hout
          exact ⟨hx2.trans g1, g2, g3, g4, g5⟩
    · by_cases hex : ev = PTRACE_EVENT_EXEC
      · have : Py.bind (processStatus K W o st) (fun e => Py.pure (some e)) (logCall K (waitCall s wanted blocking o) s)
          = (.ok (some (.execution o)), logCall K (waitCall s wanted blocking o) s) := by
          unfold processStatus
          rw [classify_kind, hc]
          dsimp only
          unfold ptraceEvent Py.bind
          dsimp only
          rw [if_neg hev, if_pos hex]
          rfl
        rw [this]
        exact ⟨hg, st, hk, by rw [hc, hex], rfl⟩
      · have : Py.bind (processStatus K W o st) (fun e => Py.pure (some e)) (logCall K (waitCall s wanted blocking o) s)
          = (.error (.ptrace none), logCall K (waitCall s wanted blocking o) s) := by
          unfold processStatus
          rw [classify_kind, hc]
          dsimp only
          unfold ptraceEvent Py.bind
          dsimp only
          rw [if_neg hev, if_neg hex]
        rw [this]
        exact ⟨hx1, notSig_ptrace, by (intro o a b e; cases e), by (intro e; cases e), by (intro o e; cases e)⟩

/-- Waiting for one registered process. -/
theorem waitEventPid_out (hz : NoZero K) : ∀ (n wanted : Nat) (blocking : Bool) (s : DSt), wanted ≠ 0 →
    RegInv s → WOut K wanted blocking s (waitEventPid K n wanted blocking s).1 (waitEventPid K n wanted blocking s).2 := by
  intro n
  induction n with
  | zero =>
    intro wanted blocking s _ _
    exact ⟨Ext.refl s, by (intro q m h; cases h), by (intro o a b e; cases e), by (intro e; cases e), by (intro o e; cases e)⟩
  | succ n ih =>
    intro wanted blocking s hw hr
    cases hg : dictGet s.dict wanted with
    | none =>
      have : waitEventPid K (n + 1) wanted blocking s = (.error (.ptrace none), s) := by
        unfold waitEventPid waitpidRaw
        rw [if_pos hw, hg]
        dsimp only
        unfold waitExcept
        rw [if_neg (by intro e; cases e)]
      rw [this]
      exact ⟨Ext.refl s, notSig_ptrace, by (intro o a b e; cases e), by (intro e; cases e), by (intro o e; cases e)⟩
    | some o =>
      have hx1 := Ext.logCall K (waitCall s wanted blocking o) s
      have hrun : waitEventPid K (n + 1) wanted blocking s =
          match osRes (K s.log (waitCall s wanted blocking o)) with
          | .ok r => (match checkPid wanted blocking r (logCall K (waitCall s wanted blocking o) s) with
            | (.ok r, s') => waitReply K (waitEventPid K n) (waitEventPid K n wanted blocking) blocking r s'
            | (.error e, s') => waitExcept K wanted e s')
          | .error e => waitExcept K wanted e (logCall K (waitCall s wanted blocking o) s) := by
        rw [waitEventPid]
        unfold waitpidRaw
        dsimp only
        rw [if_pos hw, hg]
        dsimp only
        unfold Py.bind
        rw [osCall_run]
        unfold waitCall
        cases osRes (K s.log (.waitpid (some wanted) (!blocking) (s.heap o).isThread)) <;> rfl
      rw [hrun]
      cases hk : K s.log (waitCall s wanted blocking o) with
      | interrupt => exact ⟨hx1, by (intro q m h; cases h), by (intro o a b e; cases e), by (intro e; cases e), by (intro o e; cases e)⟩
      | err m =>
        dsimp only [osRes]
        unfold waitExcept
        by_cases hm : m = ECHILD
        · subst hm
          rw [if_pos rfl]
          have hgg : dictGet (logCall K (waitCall s wanted blocking o) s).dict wanted = some o := hg
          rw [hgg]
          have : Py.bind (processTerminated K o) (fun e => Py.pure (some e)) (logCall K (waitCall s wanted blocking o) s)
              = (.ok (some (.exit o none none)), gone o (logCall K (waitCall s wanted blocking o) s)) := by
            unfold processTerminated
            simp only [Py.bind, notRunning_run]
            rfl
          dsimp only
          rw [this]
          exact ⟨hg, Or.inr ⟨hk, rfl, rfl⟩, rfl⟩
        · rw [if_neg (by intro e; injection e with e; exact hm e)]
          exact ⟨hx1, by (intro q m h; cases h), by (intro o a b e; cases e), by (intro e; cases e), by (intro o e; cases e)⟩
      | ok v st =>
        dsimp only [osRes]
        unfold checkPid
        by_cases hb : ((blocking || decide ((v, st).1 ≠ 0)) && decide (wanted ≠ 0) && decide ((v, st).1 ≠ wanted)) = true
        · rw [if_pos hb]
          dsimp only [Py.raise]
          unfold waitExcept
          rw [if_neg (by intro e; cases e)]
          exact ⟨hx1, notSig_ptrace, by (intro o a b e; cases e), by (intro e; cases e), by (intro o e; cases e)⟩
        · rw [if_neg hb]
          dsimp only [Py.pure]
          unfold waitReply
          by_cases hn : (!blocking && decide ((v, st).1 = 0)) = true
          · rw [if_pos hn]
            have : blocking = false ∧ v = 0 := by simpa using hn
            exact ⟨this.1, o, hg, ⟨st, by rw [hk, this.2]⟩, rfl⟩
          · rw [if_neg hn]
            have hv : v = wanted := by
              by_contra hne
              have hb' : (blocking || decide (v ≠ 0)) = false := by
                simpa [hw, hne] using hb
              apply hn
              simpa using hb'
            subst hv
            have hgg : dictGet (logCall K (waitCall s v blocking o) s).dict v = some o := hg
            dsimp only
            rw [hgg]
            exact processStatus_out hz (fun w s hw hr => ih w true s hw hr) v blocking s hr o st hg hk

end PT
