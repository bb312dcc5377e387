import Verif.Spec.Errors
import Verif.Lemmas.Strace
import Verif.Lemmas.GdbKeep

/-! Which exceptions leave the functions of the library. -/

namespace PT

open PT.Spec

variable {K : Kern}

/-- The kernel told of a registered process between the two states. -/
def Twice (s t : DSt) : Prop := ∃ g, t.log = s.log ++ g ∧ ToldTwice g

theorem Twice.after {s t u : DSt} (h : Twice s t) (hu : Old t u) : Twice s u := by
  obtain ⟨g, hg, e, he, h⟩ := h
  obtain ⟨g', hg'⟩ := hu.log
  exact ⟨g ++ g', by rw [hg', hg, List.append_assoc], e, List.mem_append_left _ he, h⟩

theorem Twice.before {s t u : DSt} (hs : Old s t) (h : Twice t u) : Twice s u := by
  obtain ⟨g', hg'⟩ := hs.log
  obtain ⟨g, hg, e, he, h⟩ := h
  exact ⟨g' ++ g, by rw [hg, hg', List.append_assoc], e, List.mem_append_right _ he, h⟩

/-- The process was created by another one. -/
def HasParent (t : DSt) (q : Nat) : Prop := q < t.next ∧ ∃ p, (t.heap q).parent = some p

theorem HasParent.after {t u : DSt} {q : Nat} (h : HasParent t q) (hu : Old t u) : HasParent u q :=
  ⟨Nat.lt_of_lt_of_le h.1 hu.next, by rw [hu.parent q h.1]; exact h.2⟩

/-- The result of a run from `s`: exceptions come from outside, or from a process told of twice. -/
structure CleanRun {α : Type} (s : DSt) (x : Except Exc α × DSt) : Prop where
  old : Old s x.2
  err : ∀ e, x.1 = .error e → FromOutside e ∨ (e = .key ∧ Twice s x.2)
  par : ∀ q, x.1 = .error (.event (.newProcess q)) → HasParent x.2 q

theorem CleanRun.ok {α : Type} {s t : DSt} (a : α) (h : Old s t) : CleanRun s (Except.ok a, t) :=
  ⟨h, (fun _ h => nomatch h), (fun _ h => nomatch h)⟩

theorem CleanRun.pure {α : Type} (a : α) (s : DSt) : CleanRun s (Py.pure a s) := .ok a (Old.refl s)

theorem CleanRun.bind {α β : Type} {m : Py DSt α} {f : α → Py DSt β} {s : DSt} (hm : CleanRun s (m s))
    (hf : ∀ a t, m s = (.ok a, t) → Old s t → CleanRun t (f a t)) : CleanRun s (Py.bind m f s) := by
  unfold Py.bind
  generalize hx : m s = x at hm
  obtain ⟨r, t⟩ := x
  cases r with
  | ok a =>
    have h := hf a t hx hm.old
    exact ⟨hm.old.trans h.old, fun e he => (h.err e he).imp id fun h' => ⟨h'.1, h'.2.before hm.old⟩, h.par⟩
  | error e =>
    refine ⟨hm.old, fun e' he => ?_, fun q he => ?_⟩
    · injection he with he
      subst he
      exact hm.err _ rfl
    · injection he with he
      subst he
      exact hm.par q rfl

/-- What is raised again at the end. -/
theorem CleanRun.reraise {α β : Type} {m : Py DSt Unit} {s u : DSt} {e : Exc} (h : CleanRun s ((.error e : Except Exc α), u))
    (hm : CleanRun u (m u)) : CleanRun s (Py.bind m (fun _ => (Py.raise e : Py DSt β)) u) := by
  unfold Py.bind
  generalize hx : m u = x at hm
  obtain ⟨r, t⟩ := x
  cases r with
  | ok a =>
    refine ⟨h.old.trans hm.old, fun e' he => ?_, fun q he => ?_⟩
    · injection he with he
      subst he
      exact (h.err _ rfl).imp id fun h' => ⟨h'.1, h'.2.after hm.old⟩
    · injection he with he
      subst he
      exact (h.par q rfl).after hm.old
  | error e1 =>
    refine ⟨h.old.trans hm.old, fun e' he => ?_, fun q he => ?_⟩
    · injection he with he
      subst he
      exact (hm.err _ rfl).imp id fun h' => ⟨h'.1, h'.2.before h.old⟩
    · injection he with he
      subst he
      exact hm.par q rfl

theorem clean_err {α : Type} {e : Exc} {s t : DSt} (h : Old s t) (he : FromOutside e := by exact trivial)
    (hn : ∀ q, e ≠ .event (.newProcess q) := by (intro q h; cases h)) : CleanRun s ((.error e : Except Exc α), t) :=
  ⟨h, fun _ h' => by injection h' with h'; subst h'; exact Or.inl he, fun q h' => by injection h' with h'; exact absurd h' (hn q)⟩

theorem clean_ptraceCall (c : Call) (s : DSt) : CleanRun s (ptraceCall K c s) := by
  rw [ptraceCall_run]
  cases K s.log c with
  | ok v st => exact .ok v (Old.logCall c s)
  | err e => exact clean_err (Old.logCall c s)
  | interrupt => exact clean_err (Old.logCall c s)

theorem clean_osCall (c : Call) (s : DSt) : CleanRun s (osCall K c s) := by
  rw [osCall_run]
  cases K s.log c with
  | ok v st => exact .ok _ (Old.logCall c s)
  | err e => exact clean_err (Old.logCall c s)
  | interrupt => exact clean_err (Old.logCall c s)

theorem clean_void {α : Type} {m : Py DSt α} {s : DSt} (h : CleanRun s (m s)) : CleanRun s (void m s) :=
  h.bind fun _ t _ _ => .pure () t

theorem clean_voidPt (c : Call) (s : DSt) : CleanRun s (Py.bind (ptraceCall K c) (fun _ => Py.pure ()) s) :=
  (clean_ptraceCall c s).bind fun _ t _ _ => .pure () t

theorem clean_stopped (o : Nat) (b : Bool) (s : DSt) : CleanRun s (updProc o (fun p => { p with isStopped := b }) s) :=
  .ok () (Old.setProc s o { s.heap o with isStopped := b } ⟨rfl, rfl, rfl, rfl, id⟩)

theorem clean_unattach (o : Nat) (b : Bool) (s : DSt) : CleanRun s (updProc o (fun p => { p with isAttached := b }) s) :=
  .ok () (Old.setProc s o { s.heap o with isAttached := b } ⟨rfl, rfl, rfl, rfl, id⟩)

theorem clean_updSys (o : Nat) (f : SysState → SysState) (s : DSt) : CleanRun s (updSys o f s) :=
  .ok () (Old.setProc s o _ ⟨rfl, rfl, rfl, rfl, id⟩)

theorem clean_delete (o : Nat) (s : DSt) : CleanRun s (deleteProcess o s) := .ok () (Old.unreg o s)

theorem clean_detach (o : Nat) (s : DSt) : CleanRun s (detach K o s) := by
  unfold detach
  split
  · refine (clean_unattach o false s).bind fun _ t _ _ => CleanRun.bind ?_ fun _ u _ _ => clean_delete o u
    split
    · exact clean_voidPt _ t
    · exact .pure () t
  · exact .ok () (Old.refl s)

theorem clean_notRunning (o : Nat) (s : DSt) : CleanRun s (notRunning K o s) := by
  refine CleanRun.bind ?_ fun _ t _ _ => clean_detach o t
  exact .ok () (Old.setProc s o { s.heap o with running := false } ⟨rfl, rfl, rfl, rfl, fun _ => rfl⟩)

theorem clean_cont (o n : Nat) (s : DSt) : CleanRun s (procCont K o n s) :=
  (clean_ptraceCall _ s).bind fun _ t _ _ => clean_stopped o false t

theorem clean_syscall (o n : Nat) (s : DSt) : CleanRun s (procSyscall K o n s) :=
  (clean_ptraceCall _ s).bind fun _ t _ _ => clean_stopped o false t

theorem clean_kill (o n : Nat) (s : DSt) : CleanRun s (procKill K o n s) :=
  (clean_osCall _ s).bind fun _ t _ _ => .pure () t

theorem clean_attach (o : Nat) (s : DSt) : CleanRun s (procAttach K o s) := by
  unfold procAttach
  split
  · exact .ok () (Old.refl s)
  · exact (clean_ptraceCall _ s).bind fun _ t _ _ => clean_unattach o true t

theorem clean_display (o : Nat) (s : DSt) : CleanRun s (eventDisplay K o s) := clean_voidPt _ s

/-- What waiting for a process gives. -/
structure WClean (W : WaitPid) : Prop where
  clean : ∀ p b s, p ≠ 0 → CleanRun s (W p b s)
  some : ∀ p s t, p ≠ 0 → W p true s ≠ (.ok none, t)
  par : ∀ p b s q t, p ≠ 0 → W p b s = (.ok (Option.some (.newProcess q)), t) → HasParent t q

theorem clean_filter (signals : List Nat) {r : Option Event} {s : DSt} (hr : r ≠ none)
    (hp : ∀ q, r = some (.newProcess q) → HasParent s q) : CleanRun s (filterEvent signals r s) := by
  cases r with
  | none => exact absurd rfl hr
  | some ev =>
    cases ev with
    | signal o m =>
      unfold filterEvent
      dsimp only
      split
      · exact .pure _ s
      · exact clean_err (Old.refl s)
    | exit o a b => exact clean_err (Old.refl s)
    | execution o => exact clean_err (Old.refl s)
    | newProcess q =>
      refine ⟨Old.refl s, fun e he => ?_, fun q' he => ?_⟩
      · injection he with he
        subst he
        exact Or.inl trivial
      · injection he with he
        injection he with he
        injection he with he
        subst he
        exact hp q rfl

theorem clean_addExcept (o : Nat) {α : Type} {e : Exc} {s u : DSt} (h : CleanRun s ((.error e : Except Exc α), u)) :
    CleanRun s (addProcessExcept K o e u) := by
  have hgen : CleanRun s (Py.bind (updProc o fun p => { p with isAttached := false }) (fun _ =>
      Py.bind (detach K o) fun _ => (Py.raise e : Py DSt Unit)) u) := by
    have := h.reraise (β := Unit) (m := Py.bind (updProc o fun p => { p with isAttached := false }) fun _ => detach K o)
      ((clean_unattach o false u).bind fun _ t _ _ => clean_detach o t)
    exact this
  have hok : ∀ m : Py DSt Unit, CleanRun u (m u) → CleanRun s (m u) := fun m hm =>
    ⟨h.old.trans hm.old, fun e he => (hm.err e he).imp id fun h' => ⟨h'.1, h'.2.before h.old⟩, hm.par⟩
  unfold addProcessExcept
  split
  · exact hok _ (.pure () u)
  · exact hok _ (clean_display _ u)
  · exact hgen

theorem clean_addWait {W : WaitPid} (hW : WClean W) (o pid : Nat) (hp : pid ≠ 0) (s : DSt) :
    CleanRun s (addProcessWait K W o pid s) := by
  have h : CleanRun s (waitSignalsPid W [SIGTRAP, SIGSTOP] pid s) := by
    refine (hW.clean pid true s hp).bind fun r t hx _ => clean_filter _ ?_ ?_
    · rintro rfl
      exact hW.some pid s t hp hx
    · rintro q rfl
      exact hW.par pid true s q t hp hx
  unfold addProcessWait
  generalize waitSignalsPid W [SIGTRAP, SIGSTOP] pid s = x at h
  obtain ⟨r, t⟩ := x
  cases r with
  | ok a => exact .ok () h.old
  | error e => exact clean_addExcept o h

theorem clean_addProcess {W : WaitPid} (hW : WClean W) (pid : Nat) (isAttached : Bool) (parent : Option Nat)
    (isThread : Bool) (hp : pid ≠ 0) (s : DSt) (hd : dictHas s.dict pid = false) :
    CleanRun s (addProcess K W pid isAttached parent isThread s) ∧
    ∀ q t p, parent = some p → addProcess K W pid isAttached parent isThread s = (.ok q, t) → HasParent t q := by
  have hnew : CleanRun s (newProc K pid isAttached parent isThread s) ∧
      ∀ q t, newProc K pid isAttached parent isThread s = (.ok q, t) → q < t.next ∧ (t.heap q).parent = parent := by
    unfold newProc
    cases isAttached with
    | true =>
      refine ⟨.ok _ (old_add s s (Old.refl s) rfl _ s.dict s.list), fun q t h => ?_⟩
      injection h with h1 h2
      injection h1 with h1
      subst h1 h2
      exact ⟨Nat.lt_succ_self _, by show ((setProc s s.next _).heap s.next).parent = _; rw [setProc_same]; rfl⟩
    | false =>
      simp only [Bool.false_eq_true, if_false]
      unfold Py.bind
      rw [ptraceCall_run]
      cases K s.log (.attach s.next pid) with
      | ok v st =>
        refine ⟨.ok _ (old_add s _ (Old.logCall (K := K) (.attach s.next pid) s) rfl _ s.dict s.list), fun q t h => ?_⟩
        injection h with h1 h2
        injection h1 with h1
        subst h1 h2
        exact ⟨Nat.lt_succ_self _, by
          show ((setProc (logCall K _ s) s.next _).heap s.next).parent = _; rw [setProc_same]; rfl⟩
      | err e => exact ⟨clean_err (Old.logCall _ s), (fun q t h => nomatch h)⟩
      | interrupt => exact ⟨clean_err (Old.logCall _ s), (fun q t h => nomatch h)⟩
  have hreg : ∀ o t, CleanRun t (register pid o t) := fun o t =>
    .ok () (Old.of_heap (Nat.le_refl _) ⟨[], by simp⟩ fun _ _ => ⟨rfl, rfl, rfl, rfl, id⟩)
  have hopt : ∀ o t, CleanRun t (addProcessOptions K o t) := by
    intro o t
    unfold addProcessOptions
    split
    · exact clean_voidPt _ t
    · exact .ok () (Old.refl t)
  have hrest : ∀ o t, CleanRun t (Py.bind (register pid o) (fun _ =>
      Py.bind (addProcessWait K W o pid) fun _ =>
      Py.bind (addProcessOptions K o) fun _ =>
      Py.pure o) t) := fun o t =>
    (hreg o t).bind fun _ u _ _ => (clean_addWait hW o pid hp u).bind fun _ v _ _ => (hopt o v).bind fun _ w _ _ => .pure o w
  unfold addProcess
  rw [hd]
  simp only [Bool.false_eq_true, if_false]
  refine ⟨hnew.1.bind fun o t _ _ => hrest o t, fun q t p hpar h => ?_⟩
  obtain ⟨o, u, h1, h2⟩ := Py.ok_of_bind h
  have hn := hnew.2 o u h1
  have hold := (hrest o u).old
  rw [h2] at hold
  have : q = o := by
    obtain ⟨_, _, _, h3⟩ := Py.ok_of_bind h2
    obtain ⟨_, _, _, h4⟩ := Py.ok_of_bind h3
    obtain ⟨_, _, _, h5⟩ := Py.ok_of_bind h4
    injection h5 with h5
    injection h5 with h5
    exact h5.symm
  subst this
  exact HasParent.after ⟨hn.1, p, by rw [hn.2, hpar]⟩ hold

theorem dictHas_mem {d : List (Nat × Nat)} {k : Nat} (h : dictHas d k = true) : ∃ o, (k, o) ∈ d := by
  unfold dictHas at h
  cases hg : dictGet d k with
  | none => simp_all
  | some o => exact ⟨o, dictGet_some hg⟩

theorem clean_ptraceEvent (hz : NoZero K) {W : WaitPid} (hW : WClean W) (o : Nat) (event : Int) (s : DSt) :
    CleanRun s (ptraceEvent K W o event s) ∧
    ∀ q t, ptraceEvent K W o event s = (.ok (.newProcess q), t) → HasParent t q := by
  unfold ptraceEvent
  split
  · unfold Py.bind
    rw [ptraceCall_run]
    cases hk : K s.log (.geteventmsg o (s.heap o).pid) with
    | err e => exact ⟨clean_err (Old.logCall _ s), (fun q t h => nomatch h)⟩
    | interrupt => exact ⟨clean_err (Old.logCall _ s), (fun q t h => nomatch h)⟩
    | ok v st =>
      have hv : v ≠ 0 := by rintro rfl; exact hz _ _ _ _ hk
      have hl := Old.logCall (K := K) (.geteventmsg o (s.heap o).pid) s
      dsimp only [ptraceRes]
      cases hd : dictHas (logCall K (.geteventmsg o (s.heap o).pid) s).dict v with
      | true =>
        have : addProcess K W v true (some o) (decide (event = PTRACE_EVENT_CLONE))
            (logCall K (.geteventmsg o (s.heap o).pid) s) = (.error .key, logCall K (.geteventmsg o (s.heap o).pid) s) := by
          unfold addProcess
          rw [hd]; rfl
        rw [this]
        refine ⟨⟨hl, fun e he => ?_, (fun q he => nomatch he)⟩, (fun q t h => nomatch h)⟩
        injection he with he
        subst he
        obtain ⟨q, hq⟩ := dictHas_mem hd
        exact Or.inr ⟨rfl, _, rfl, _, List.mem_singleton.2 rfl, o, (s.heap o).pid, v, st, q, rfl, hk, hq⟩
      | false =>
        have h := clean_addProcess (K := K) hW v true (some o) (decide (event = PTRACE_EVENT_CLONE)) hv _ hd
        generalize hx : addProcess K W v true (some o) (decide (event = PTRACE_EVENT_CLONE))
            (logCall K (.geteventmsg o (s.heap o).pid) s) = x at h
        obtain ⟨r, t⟩ := x
        cases r with
        | error e =>
          refine ⟨⟨hl.trans h.1.old, fun e' he => ?_, fun q he => ?_⟩, (fun q t h => nomatch h)⟩
          · injection he with he
            subst he
            exact (h.1.err _ rfl).imp id fun h' => ⟨h'.1, h'.2.before hl⟩
          · injection he with he
            subst he
            exact h.1.par q rfl
        | ok q =>
          refine ⟨.ok _ (hl.trans h.1.old), fun q' t' he => ?_⟩
          injection he with h1 h2
          injection h1 with h1
          injection h1 with h1
          subst h1 h2
          exact h.2 q t o rfl rfl
  · split
    · exact ⟨.ok _ (Old.refl s), (fun q t h => nomatch h)⟩
    · exact ⟨clean_err (Old.refl s), (fun q t h => nomatch h)⟩

theorem clean_status (hz : NoZero K) {W : WaitPid} (hW : WClean W) (o : Nat) (status : Int) (s : DSt) :
    CleanRun s (processStatus K W o status s) ∧
    ∀ q t, processStatus K W o status s = (.ok (.newProcess q), t) → HasParent t q := by
  have hend : ∀ a b, CleanRun s (Py.bind (notRunning K o) (fun _ => Py.pure (Event.exit o a b)) s) ∧
      ∀ q t, Py.bind (notRunning K o) (fun _ => Py.pure (Event.exit o a b)) s = (.ok (.newProcess q), t) → HasParent t q := by
    intro a b
    refine ⟨(clean_notRunning o s).bind fun _ t _ _ => .pure _ t, fun q t h => ?_⟩
    obtain ⟨_, _, _, h⟩ := Py.ok_of_bind h
    cases h
  unfold processStatus
  cases classify true status with
  | exited code => exact hend _ _
  | killed signum => exact hend _ _
  | unknown => exact ⟨clean_err (Old.refl s), (fun q t h => nomatch h)⟩
  | event event => exact clean_ptraceEvent hz hW o event s
  | signal signum =>
    refine ⟨(clean_stopped o true s).bind fun _ t _ _ => .pure _ t, fun q t h => ?_⟩
    obtain ⟨_, _, _, h⟩ := Py.ok_of_bind h
    cases h

theorem clean_then {α : Type} {m : Py DSt α} {s t : DSt} (h1 : Old s t) (h : CleanRun t (m t)) : CleanRun s (m t) :=
  ⟨h1.trans h.old, fun e he => (h.err e he).imp id fun h' => ⟨h'.1, h'.2.before h1⟩, h.par⟩

theorem waitpidRaw_dict (wanted : Nat) (blocking : Bool) (s : DSt) : (waitpidRaw K wanted blocking s).2.dict = s.dict ∧
    ((waitpidRaw K wanted blocking s).1 = .error (.os ECHILD) → wanted ≠ 0 → ∃ o, dictGet s.dict wanted = some o) := by
  have hb : ∀ c, (Py.bind (osCall K c) (checkPid wanted blocking) s).2.dict = s.dict := by
    intro c
    unfold Py.bind
    rw [osCall_run]
    cases K s.log c with
    | ok v st => dsimp only [osRes]; unfold checkPid; split <;> rfl
    | err e => rfl
    | interrupt => rfl
  unfold waitpidRaw
  split
  · rename_i hw
    split
    · exact ⟨rfl, (fun h => nomatch h)⟩
    · rename_i o ho
      exact ⟨hb _, fun _ _ => ⟨o, ho⟩⟩
  · rename_i hw
    exact ⟨hb _, fun _ h => absurd h hw⟩

theorem clean_waitpidRaw (wanted : Nat) (blocking : Bool) (s : DSt) : CleanRun s (waitpidRaw K wanted blocking s) := by
  have hb : ∀ c, CleanRun s (Py.bind (osCall K c) (checkPid wanted blocking) s) := by
    intro c
    refine (clean_osCall c s).bind fun r t _ _ => ?_
    unfold checkPid
    split
    · exact clean_err (Old.refl t)
    · exact .pure r t
  unfold waitpidRaw
  split
  · split
    · exact clean_err (Old.refl s)
    · exact hb _
  · exact hb _

theorem clean_waitEventPid (hz : NoZero K) : ∀ n, WClean (waitEventPid K n)
  | 0 => ⟨fun _ _ s _ => clean_err (Old.refl s),
      (fun _ _ _ _ h => nomatch h), (fun _ _ _ _ _ _ h => nomatch h)⟩
  | n + 1 => by
    have ih := clean_waitEventPid hz n
    have key : ∀ p b s, p ≠ 0 → CleanRun s (waitEventPid K (n + 1) p b s) ∧
        (b = true → ∀ t, waitEventPid K (n + 1) p b s ≠ (.ok none, t)) ∧
        ∀ q t, waitEventPid K (n + 1) p b s = (.ok (some (.newProcess q)), t) → HasParent t q := by
      intro p b s hp
      have h1 := clean_waitpidRaw (K := K) p b s
      have h2 := waitpidRaw_dict (K := K) p b s
      rw [waitEventPid]
      dsimp only
      generalize waitpidRaw K p b s = x at h1 h2
      obtain ⟨r, u⟩ := x
      cases r with
      | ok r =>
        dsimp only
        unfold waitReply
        split
        · rename_i hc
          refine ⟨.ok _ h1.old, fun hb => ?_, (fun q t h => nomatch h)⟩
          simp [hb] at hc
        · split
          · rename_i o ho
            have hs := clean_status (K := K) hz ih o r.2 u
            refine ⟨clean_then h1.old (hs.1.bind fun e t _ _ => .pure _ t), fun _ t h => ?_, fun q t h => ?_⟩
            · obtain ⟨_, _, _, h⟩ := Py.ok_of_bind h
              cases h
            · obtain ⟨_, _, h, h'⟩ := Py.ok_of_bind h
              cases h'
              exact hs.2 q t h
          · exact ⟨clean_then h1.old (ih.clean p b u hp), fun hb t h => by subst hb; exact ih.some p u t hp h,
              fun q t h => ih.par p b u q t hp h⟩
      | error e =>
        dsimp only
        unfold waitExcept
        split
        · rename_i he
          subst he
          obtain ⟨o, ho⟩ := h2.2 rfl hp
          have : dictGet u.dict p = some o := by rw [h2.1]; exact ho
          rw [this]
          dsimp only
          have ht : CleanRun u (Py.bind (processTerminated K o) (fun e => Py.pure (some e)) u) :=
            ((clean_notRunning o u).bind fun _ t _ _ => .pure _ t).bind fun e t _ _ => .pure _ t
          refine ⟨clean_then h1.old ht, fun _ t h => ?_, fun q t h => ?_⟩
          · obtain ⟨_, _, _, h⟩ := Py.ok_of_bind h
            cases h
          · obtain ⟨_, _, h, h'⟩ := Py.ok_of_bind h
            cases h'
            obtain ⟨_, _, _, h⟩ := Py.ok_of_bind h
            cases h
        · refine ⟨⟨h1.old, fun e' he => ?_, fun q he => ?_⟩, (fun _ t h => nomatch h), (fun q t h => nomatch h)⟩
          · injection he with he
            subst he
            exact h1.err _ rfl
          · injection he with he
            subst he
            exact h1.par q rfl
    exact ⟨fun p b s hp => (key p b s hp).1, fun p s t hp => (key p true s hp).2.1 rfl t,
      fun p b s q t hp => (key p b s hp).2.2 q t⟩

/-- The result of a wait in a debugger with a process. -/
structure WaitOut (s : DSt) (x : Except Exc (Option Event) × DSt) (blocking : Bool) : Prop where
  clean : CleanRun s x
  some : blocking = true → x.1 ≠ .ok none
  par : ∀ q, x.1 = .ok (Option.some (.newProcess q)) → HasParent x.2 q

theorem OnlyLog.old {s t : DSt} (h : OnlyLog s t) : Old s t := by
  obtain ⟨g, rfl⟩ := h
  exact Old.of_heap (Nat.le_refl _) ⟨g, rfl⟩ fun _ _ => ⟨rfl, rfl, rfl, rfl, id⟩

theorem waited_event (hz : NoZero K) {s : DSt} (hg : Good s) (fuel : Nat) (pid : Option Nat) (hp : pid ≠ some 0)
    (hne : pid = none → s.list ≠ []) (blocking : Bool) :
    WaitOut s (waitProcessEvent K fuel pid blocking s) blocking := by
  have hW := clean_waitEventPid hz (K := K) fuel
  cases pid with
  | some p =>
    have hp0 : p ≠ 0 := fun h => hp (by rw [h])
    refine ⟨hW.clean p blocking s hp0, fun hb h => ?_, fun q h => hW.par p blocking s q _ hp0 (Prod.ext h rfl)⟩
    subst hb
    exact hW.some p s _ hp0 (Prod.ext h rfl)
  | none =>
    generalize hx : waitProcessEvent K fuel none blocking s = x
    obtain ⟨r, t⟩ := x
    rcases waitAny_out hz fuel blocking s hg.reg hg.pid fuel s (OnlyLog.refl s) _ t hx with
      ⟨rfl, hb, h1⟩ | ⟨hn, pid, hpid, b, u, hu, hwt⟩ | ⟨h0, ⟨rfl, h1⟩ | rfl | rfl | ⟨e, rfl⟩⟩
    · exact ⟨.ok _ h1.old, (fun hb' => by rw [hb] at hb'; cases hb'), (fun q h => nomatch h)⟩
    · have hp0 := hg.pid.keys pid hpid
      have hc := hW.clean pid b u hp0
      have hq := fun q => hW.par pid b u q t hp0
      rw [hwt] at hc
      refine ⟨clean_then (m := fun _ => (r, t)) hu.old hc, fun _ h => hn h, fun q h => hq q ?_⟩
      have h : r = _ := h
      rw [hwt, h]
    · exfalso
      refine hne rfl ?_
      rw [List.eq_nil_iff_forall_not_mem]
      intro o ho
      have := (hg.reg.agree _ _).2 ⟨ho, rfl⟩
      rw [h1] at this
      cases this
    · exact ⟨clean_err h0.old, (fun _ h => nomatch h), (fun q h => nomatch h)⟩
    · exact ⟨clean_err h0.old, (fun _ h => nomatch h), (fun q h => nomatch h)⟩
    · exact ⟨clean_err h0.old, (fun _ h => nomatch h), (fun q h => nomatch h)⟩

theorem clean_waitSignals (hz : NoZero K) {s : DSt} (hg : Good s) (fuel : Nat) (signals : List Nat) (pid : Option Nat)
    (hp : pid ≠ some 0) (hne : pid = none → s.list ≠ []) : CleanRun s (waitSignals K fuel signals pid s) := by
  have h := waited_event hz hg fuel pid hp hne true
  refine h.clean.bind fun r t hx _ => clean_filter _ ?_ ?_
  · rintro rfl
    rw [hx] at h
    exact h.some rfl rfl
  · rintro q rfl
    rw [hx] at h
    exact h.par q rfl

/-- `waitSignals` of one process needs no registry. -/
theorem clean_waitSignalsOf (hz : NoZero K) (s : DSt) (fuel : Nat) (signals : List Nat) (pid : Nat)
    (hp : pid ≠ 0) : CleanRun s (waitSignals K fuel signals (some pid) s) := by
  have hW := clean_waitEventPid hz (K := K) fuel
  refine (hW.clean pid true s hp).bind fun r t hx _ => clean_filter _ ?_ ?_
  · rintro rfl
    exact hW.some pid s t hp hx
  · rintro q rfl
    exact hW.par pid true s q t hp hx

/-- The object exists and its pid is not 0. -/
def NamedObj (s : DSt) (o : Nat) : Prop := o < s.next ∧ (s.heap o).pid ≠ 0

theorem NamedObj.after {s t : DSt} {o : Nat} (h : NamedObj s o) (ht : Old s t) : NamedObj t o :=
  ⟨Nat.lt_of_lt_of_le h.1 ht.next, by rw [ht.pid o h.1]; exact h.2⟩

theorem clean_waitExit (hz : NoZero K) (fuel o : Nat) : ∀ n s, NamedObj s o → CleanRun s (waitExit K fuel o n s)
  | 0, s, _ => clean_err (Old.refl s)
  | n + 1, s, ho => by
    have hW := clean_waitEventPid hz (K := K) fuel
    rw [waitExit]
    refine (hW.clean _ true s ho.2).bind fun r t hx h1 => ?_
    cases r with
    | none => exact absurd hx (hW.some _ s t ho.2)
    | some ev =>
      cases ev with
      | exit => exact .pure () t
      | signal q m =>
        refine CleanRun.bind ?_ fun _ u _ h2 => clean_waitExit hz fuel o n u ((ho.after h1).after h2)
        split <;> exact clean_cont o _ t
      | execution q => exact clean_err (Old.refl t)
      | newProcess q =>
        refine ⟨Old.refl t, fun e he => ?_, fun q' he => ?_⟩
        · injection he with he
          subst he
          exact Or.inl trivial
        · injection he with he
          injection he with he
          injection he with he
          subst he
          exact hW.par _ true s q t ho.2 hx

theorem clean_terminate (hz : NoZero K) (fuel o : Nat) (wait : Bool) (s : DSt) (ho : NamedObj s o) :
    CleanRun s (terminate K fuel o wait s) := by
  unfold terminate
  split
  · exact .ok true (Old.refl s)
  · refine CleanRun.bind ?_ fun done t _ h1 => ?_
    · have h : CleanRun s ((if (s.heap o).isStopped then procCont K o SIGKILL else procKill K o SIGKILL) s) := by
        split
        · exact clean_cont o _ s
        · exact clean_kill o _ s
      unfold terminateKill
      generalize (if (s.heap o).isStopped then procCont K o SIGKILL else procKill K o SIGKILL) s = x at h
      obtain ⟨r, t⟩ := x
      cases r with
      | ok a => exact .ok _ h.old
      | error e =>
        dsimp only
        split
        · exact .ok _ h.old
        · refine ⟨h.old, fun e' he => ?_, fun q he => ?_⟩
          · injection he with he
            subst he
            exact h.err _ rfl
          · injection he with he
            subst he
            exact h.par q rfl
    · split
      · exact .pure false t
      · refine CleanRun.bind ?_ fun _ u _ _ => (clean_notRunning o u).bind fun _ v _ _ => .pure true v
        split
        · exact .pure () t
        · exact clean_waitExit hz fuel o fuel t (ho.after h1)

theorem clean_quitLoop (hz : NoZero K) (fuel : Nat) : ∀ os s, (∀ o ∈ os, NamedObj s o) → CleanRun s (quitLoop K fuel os s)
  | [], s, _ => .pure () s
  | o :: os, s, h => (clean_terminate hz fuel o true s (h o List.mem_cons_self)).bind fun _ t _ h1 =>
      (clean_detach o t).bind fun _ u _ h2 =>
        clean_quitLoop hz fuel os u fun o' ho => ((h o' (List.mem_cons_of_mem _ ho)).after h1).after h2

theorem clean_quit (hz : NoZero K) (fuel : Nat) {s : DSt} (h : ∀ o ∈ s.list, NamedObj s o) : CleanRun s (quit K fuel s) :=
  clean_quitLoop hz fuel _ s fun o ho => h o (List.mem_reverse.1 ho)

theorem Good.named {s : DSt} (h : Good s) : ∀ o ∈ s.list, NamedObj s o := fun o ho =>
  ⟨h.pid.list o ho, h.pid.obj o (h.pid.list o ho)⟩

/-! ### the calls of the library -/

theorem clean_onObj {α : Type} {m : Py DSt α} {o : Nat} {s : DSt} (h : o < s.next → CleanRun s (m s)) :
    CleanRun s (onObj o m s) := by
  unfold onObj
  split
  · rename_i ho
    exact clean_void (h ho)
  · exact .ok () (Old.refl s)

/-! ### `strace.py` -/

theorem clean_sysEvent (hz : NoZero K) (fuel : Nat) (C : SysCfg) (o : Nat) (s : DSt) (ho : NamedObj s o) :
    CleanRun s (sysEvent K fuel C o s) := by
  unfold sysEvent
  split
  · refine CleanRun.bind ?_ fun _ t _ h1 => CleanRun.bind ?_ fun _ u _ _ => (clean_updSys o _ u).bind fun _ v _ _ => .pure _ v
    · unfold sysResult
      split
      · exact (clean_ptraceCall _ s).bind fun _ t _ _ => clean_updSys o _ t
      · exact .ok () (Old.refl s)
    · unfold sysExecTrap
      split
      · refine (clean_syscall o 0 t).bind fun _ u _ _ => clean_void (clean_waitSignalsOf hz u fuel _ _ ?_)
        exact (ho.after h1).2
      · exact .ok () (Old.refl t)
  · refine (clean_ptraceCall _ s).bind fun regs t _ _ => (clean_updSys o _ t).bind fun _ u _ _ =>
      CleanRun.bind ?_ fun _ v _ _ => (clean_updSys o _ v).bind fun _ w _ _ => .ok _ (Old.refl w)
    split
    · exact clean_void (clean_ptraceCall _ u)
    · exact clean_updSys o _ u

theorem clean_straceSyscall (hz : NoZero K) (fuel : Nat) (C : StraceCfg) (o : Nat) (s : DSt) (ho : NamedObj s o) :
    CleanRun s (straceSyscall K fuel C o s) := by
  refine (clean_sysEvent hz fuel C.sys o s ho).bind fun r t _ _ => CleanRun.bind ?_ fun _ u _ _ => clean_syscall o 0 u
  split
  · exact clean_display o t
  · exact .pure () t

theorem clean_processExited (C : StraceCfg) (o : Nat) (s : DSt) : CleanRun s (processExited K C o s) := by
  unfold processExited
  split
  · exact clean_display o s
  · exact .ok () (Old.refl s)

theorem clean_prepare (o : Nat) (s : DSt) : CleanRun s (prepareProcess K o s) :=
  (clean_syscall o 0 s).bind fun _ t _ _ => clean_updSys o _ t

theorem clean_straceNew (q : Nat) (s : DSt) (h : HasParent s q) : CleanRun s (straceNewProcess K q s) := by
  refine (clean_prepare q s).bind fun _ t _ h1 => ?_
  obtain ⟨_, p, hp⟩ := h.after h1
  rw [hp]
  exact clean_syscall p 0 t

theorem clean_turn (hz : NoZero K) {s : DSt} (hg : Good s) (hne : s.list ≠ []) (fuel : Nat) (C : StraceCfg) (code : Nat) :
    CleanRun s (straceTurn K fuel C code s) := by
  have hw : CleanRun s (waitSyscall K fuel none s) :=
    clean_waitSignals hz hg fuel _ none (fun h => nomatch h) fun _ => hne
  have hgw := hg.waitSyscall (K := K) hz fuel
  have hok := fun ev v => waitSyscall_ok (K := K) (v := v) hz hg fuel ev
  unfold straceTurn
  generalize waitSyscall K fuel none s = x at hw hgw hok
  obtain ⟨r, v⟩ := x
  refine ?_
  show CleanRun s (straceHandle K fuel C r code v)
  have hold : Old s v := hw.old
  cases r with
  | ok ev =>
    obtain ⟨o, rfl, _, _, ho, _⟩ := hok ev v rfl
    exact clean_then hold ((clean_straceSyscall hz fuel C o v ⟨ho, hgw.pid.obj o ho⟩).bind fun _ t _ _ => .pure _ t)
  | error e =>
    have hre : CleanRun s ((Py.raise e : Py DSt Nat) v) :=
      ⟨hold, fun e' he => by injection he with he; subst he; exact hw.err _ rfl,
        fun q he => by injection he with he; subst he; exact hw.par q rfl⟩
    cases e with
    | event ev =>
      cases ev with
      | exit o a b => exact clean_then hold ((clean_processExited C o v).bind fun _ t _ _ => .pure _ t)
      | signal o m =>
        exact clean_then hold ((clean_display o v).bind fun _ t _ _ => (clean_syscall o m t).bind fun _ u _ _ => .pure _ u)
      | newProcess q => exact clean_then hold ((clean_straceNew q v (hw.par q rfl)).bind fun _ t _ _ => .pure _ t)
      | execution o => exact clean_then hold ((clean_syscall o 0 v).bind fun _ t _ _ => .pure _ t)
    | _ => exact hre

theorem Good.straceTurn (hz : NoZero K) {s : DSt} (hg : Good s) (fuel : Nat) (C : StraceCfg) (code : Nat) :
    Good (PT.straceTurn K fuel C code s).2 := by
  refine (hg.waitSyscall hz fuel).straceHandle hz fuel C _ (fun ev hr => ?_) code
  obtain ⟨o, rfl, _, _, ho, _⟩ := waitSyscall_ok (K := K) hz hg fuel ev (Prod.ext hr rfl)
  exact ho

theorem clean_loop (hz : NoZero K) (fuel : Nat) (C : StraceCfg) : ∀ n code s, Good s →
    CleanRun s (straceLoop K fuel C n code s) ∧ Good (straceLoop K fuel C n code s).2
  | 0, _, s, hg => ⟨clean_err (Old.refl s), hg⟩
  | n + 1, code, s, hg => by
    rw [straceLoop]
    dsimp only
    by_cases hl : length s = 0
    · rw [if_pos hl]
      exact ⟨.ok _ (Old.refl s), hg⟩
    · rw [if_neg hl]
      have hgt := hg.straceTurn (K := K) hz fuel C code
      refine ⟨(clean_turn hz hg (fun h => hl (by unfold length; rw [h]; rfl)) fuel C code).bind fun c t hx _ =>
        (clean_loop hz fuel C n c t ?_).1, Good.bind hgt fun c t _ ht => (clean_loop hz fuel C n c t ht).2⟩
      rw [hx] at hgt
      exact hgt

theorem clean_createProcess (hz : NoZero K) {s : DSt} (hg : Good s) (fuel pid : Nat) (isAttached : Bool) (hp : pid ≠ 0)
    (hd : dictHas s.dict pid = false) :
    CleanRun s (createProcess K fuel pid isAttached s) ∧ Good (createProcess K fuel pid isAttached s).2 := by
  have h := (clean_addProcess (K := K) (clean_waitEventPid hz fuel) pid isAttached none false hp s hd).1
  have hg' := hg.op (K := K) hz fuel (.addProcess pid isAttached none false) hp
  have hv : (runOp K fuel (.addProcess pid isAttached none false) s).2 =
      (addProcess K (waitEventPid K fuel) pid isAttached none false s).2 := void_snd _ s
  rw [hv] at hg'
  unfold createProcess
  generalize addProcess K (waitEventPid K fuel) pid isAttached none false s = x at h hg'
  obtain ⟨r, t⟩ := x
  cases r with
  | ok o => exact ⟨.ok _ h.old, hg'⟩
  | error e =>
    have hre : CleanRun s ((.error e : Except Exc (Option Nat)), t) :=
      ⟨h.old, fun e' he => by injection he with he; subst he; exact h.err _ rfl,
        fun q he => by injection he with he; subst he; exact h.par q rfl⟩
    cases e with
    | event ev =>
      cases ev with
      | exit o a b => exact ⟨.ok _ h.old, hg'⟩
      | _ => exact ⟨hre, hg'⟩
    | ptrace e => exact ⟨.ok _ h.old, hg'⟩
    | _ => exact ⟨hre, hg'⟩

theorem clean_straceRun (hz : NoZero K) {s : DSt} (hg : Good s) (fuel : Nat) (C : StraceCfg) (pid : Nat) (isAttached : Bool)
    (hp : pid ≠ 0) (hd : dictHas s.dict pid = false) :
    CleanRun s (straceRun K fuel C pid isAttached s) ∧ Good (straceRun K fuel C pid isAttached s).2 := by
  have hc := clean_createProcess hz hg fuel pid isAttached hp hd
  have key : ∀ o t, Good t → CleanRun t (Py.bind (syscallTrace K fuel C o) (fun code => Py.pure (some code)) t) ∧
      Good (Py.bind (syscallTrace K fuel C o) (fun code => Py.pure (some code)) t).2 := by
    intro o t ht
    have hl := fun u hu => clean_loop (K := K) hz fuel C fuel 0 u hu
    refine ⟨CleanRun.bind ((clean_prepare o t).bind fun _ u hx _ => (hl u ?_).1) fun c v _ _ => .pure _ v,
      Good.bind (Good.bind (ht.prepareProcess o) fun _ u _ hu => (hl u hu).2) fun _ _ _ hv => hv⟩
    have := ht.prepareProcess (K := K) o
    rw [hx] at this
    exact this
  constructor
  · refine hc.1.bind fun o t hx _ => ?_
    have hgt := hc.2
    rw [hx] at hgt
    cases o with
    | none => exact .pure none t
    | some o => exact (key o t hgt).1
  · refine Good.bind hc.2 fun o t _ ht => ?_
    cases o with
    | none => exact ht
    | some o => exact (key o t ht).2

theorem clean_straceExcept (C : StraceCfg) (e : Exc) (s : DSt) : CleanRun s (straceExcept K C e s) := by
  unfold straceExcept
  split
  · exact (clean_processExited C _ s).bind fun _ t _ _ => .pure _ t
  · exact .pure _ s
  · exact clean_err (Old.refl s)
  · exact .pure _ s

theorem Good.straceExcept {s : DSt} (hg : Good s) (C : StraceCfg) (e : Exc) : Good (PT.straceExcept K C e s).2 := by
  unfold PT.straceExcept
  split
  · refine Good.bind ?_ fun _ _ _ ht => ht
    unfold processExited
    split
    · exact hg.eventDisplay _
    · exact hg
  · exact hg
  · exact hg
  · exact hg

theorem clean_straceMain (hz : NoZero K) {s : DSt} (hg : Good s) (fuel : Nat) (C : StraceCfg) (pid : Nat) (isAttached : Bool)
    (hp : pid ≠ 0) (hd : dictHas s.dict pid = false) : CleanRun s (straceMain K fuel C pid isAttached s) := by
  have h := clean_straceRun hz hg fuel C pid isAttached hp hd
  unfold straceMain
  generalize straceRun K fuel C pid isAttached s = x at h
  obtain ⟨r, t⟩ := x
  dsimp only
  refine clean_then (m := Py.bind (match r with | .ok code => Py.pure code | .error e => straceExcept K C e) fun code =>
    Py.bind (quit K fuel) fun _ => Py.pure code) h.1.old ?_
  have hm : CleanRun t ((match r with | .ok code => Py.pure code | .error e => straceExcept K C e) t) ∧
      Good ((match r with | .ok code => Py.pure code | .error e => straceExcept K C e) t).2 := by
    cases r with
    | ok code => exact ⟨.pure code t, h.2⟩
    | error e => exact ⟨clean_straceExcept C e t, h.2.straceExcept C e⟩
  refine hm.1.bind fun code u hx _ => (clean_quit hz fuel ?_).bind fun _ v _ _ => .pure _ v
  have := hm.2
  rw [hx] at this
  exact this.named

end PT
