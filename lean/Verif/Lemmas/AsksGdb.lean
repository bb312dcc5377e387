import Verif.Lemmas.Asks3
import Verif.Lemmas.GdbErrors
import Verif.Spec.AsksGdb

/-! Requests are made to stopped processes: gdb.py with one process. -/

namespace PT
open Spec

variable {α β : Type} {K : Kern} {s : DSt}

/-- The kernel tells the truth, and there is one process. -/
def Law (log : List Entry) : Prop := Lawful log ∧ SoloLog log

theorem Law.init {log g : List Entry} (h : Law (log ++ g)) : Law log := ⟨h.1.init, fun e he => h.2 e (List.mem_append.2 (.inl he))⟩

theorem Law.before {s t : DSt} (h : Old s t) (hl : Law t.log) : Law s.log := by
  obtain ⟨g, hg⟩ := h.log
  rw [hg] at hl
  exact hl.init

theorem Law.last {log : List Entry} {e : Entry} (h : Law (log ++ [e])) : SoloEntry e := h.2 e (by simp)

abbrev Cor (s : DSt) : Prop := Core (fun _ => True) (fun _ => False) none s

/-- At most one process is registered. -/
structure Half (s : DSt) : Prop where
  core : Cor s
  one : ∀ i ∈ s.list, ∀ j ∈ s.list, i = j
  att : ∀ i ∈ s.list, (s.heap i).isAttached = true

/-- And it is stopped. -/
structure Full (s : DSt) : Prop extends Half s where
  rest : ∀ i ∈ s.list, AtRest i s.log

/-- The result of some code. -/
structure SoloKept (s : DSt) (x : Except Exc α × DSt) (Q : α → DSt → Prop) : Prop where
  old : Old s x.2
  asks : Law x.2.log → AsksWhen (fun _ => True) x.2.log
  val : ∀ a, x.1 = .ok a → Law x.2.log → Q a x.2
  exc : ∀ e, x.1 = .error e → Law x.2.log → Full x.2

section
variable {Q : α → DSt → Prop}

theorem SoloKept.ok {a : α} {t : DSt} (ho : Old s t) (ha : Law t.log → AsksWhen (fun _ => True) t.log) (hq : Law t.log → Q a t) : SoloKept s (.ok a, t) Q :=
  ⟨ho, ha, fun b hb h => by cases hb; exact hq h, fun _ hb => by cases hb⟩

theorem SoloKept.err {e : Exc} {t : DSt} (ho : Old s t) (hq : Law t.log → Full t) : SoloKept s ((.error e : Except Exc α), t) Q :=
  ⟨ho, fun h => (hq h).core.asks, fun _ hb => (by cases hb), fun _ _ h => hq h⟩

theorem SoloKept.cases {x : Except Exc α × DSt} (ho : Old s x.2) (h : Law s.log → SoloKept s x Q) : SoloKept s x Q := by
  by_cases hl : Law s.log
  · exact h hl
  · have hn : ¬ Law x.2.log := fun hx => hl (hx.before ho)
    exact ⟨ho, fun h => (hn h).elim, fun _ _ h => (hn h).elim, fun _ _ h => (hn h).elim⟩

theorem SoloKept.bind {m : Py DSt β} {f : β → Py DSt α} {Q' : β → DSt → Prop} (h : SoloKept s (m s) Q')
    (hf : ∀ b t, Old s t → (Law t.log → Q' b t) → SoloKept t (f b t) Q) : SoloKept s (Py.bind m f s) Q := by
  unfold Py.bind
  rcases hm : m s with ⟨r, t⟩
  rw [hm] at h
  cases r with
  | ok b =>
    have h2 := hf b t h.old (h.val b rfl)
    exact ⟨h.old.trans h2.old, h2.asks, h2.val, h2.exc⟩
  | error e => exact ⟨h.old, h.asks, fun _ hx => (by cases hx), fun x hx => h.exc x (by cases hx; rfl)⟩

theorem SoloKept.weaken {x : Except Exc α × DSt} {Q' : α → DSt → Prop} (h : SoloKept s x Q') (hq : ∀ a t, Q' a t → Q a t) : SoloKept s x Q :=
  ⟨h.old, h.asks, fun a ha hl => hq a _ (h.val a ha hl), h.exc⟩

theorem kept_pure (h : Law s.log → Full s) (a : α) (hq : Law s.log → Q a s) : SoloKept s ((Py.pure a : Py DSt α) s) Q :=
  .ok (.refl s) (fun hl => (h hl).core.asks) hq

end

theorem Full.silent {c : Call} (h : Full s) (hc : muteCall c = true) (ha : ∀ o, asks c = some o → o ∈ s.list) : Full (logCall K c s) where
  core := h.core.muteCall c hc fun _ o ho => h.rest o (ha o ho)
  one := h.one
  att := h.att
  rest := fun i hi => halted_silent hc (h.rest i hi)

/-- A request that neither lets go nor waits. -/
theorem kept_mute (c : Call) (hc : muteCall c = true) (h : Law s.log → Full s) (ha : Law s.log → ∀ o, asks c = some o → o ∈ s.list) :
    SoloKept s (ptraceCall K c s) (fun _ t => t = logCall K c s ∧ Full t) := by
  rw [ptraceCall_run]
  have hF : Law (logCall K c s).log → Full (logCall K c s) := fun hl => (h (hl.before (.logCall c s))).silent hc (ha (hl.before (.logCall c s)))
  cases hr : K s.log c with
  | ok v st => exact .ok (.logCall _ _) (fun hl => (hF hl).core.asks) fun hl => ⟨rfl, hF hl⟩
  | err n => exact .err (.logCall _ _) hF
  | interrupt => exact .err (.logCall _ _) hF

theorem kept_os (c : Call) (hc : muteCall c = true) (h : Law s.log → Full s) (ha : asks c = none) : SoloKept s (osCall K c s) (fun _ t => t = logCall K c s ∧ Full t) := by
  rw [osCall_run]
  have hF : Law (logCall K c s).log → Full (logCall K c s) := fun hl => (h (hl.before (.logCall c s))).silent hc fun o ho => by rw [ha] at ho; cases ho
  cases hr : K s.log c with
  | ok v st => exact .ok (.logCall _ _) (fun hl => (hF hl).core.asks) fun hl => ⟨rfl, hF hl⟩
  | err n => exact .err (.logCall _ _) hF
  | interrupt => exact .err (.logCall _ _) hF

theorem Half.setProc (h : Half s) (o : Nat) (q : Proc) (hq : q.isAttached = (s.heap o).isAttached) (hc : Cor (setProc s o q)) : Half (setProc s o q) :=
  ⟨hc, h.one, fun i hi => by
    rw [setProc_heap]
    split
    · rename_i e; rw [hq, ← e]; exact h.att i hi
    · exact h.att i hi⟩

/-- Attributes of the calls. -/
theorem kept_updSys (o : Nat) (f : SysState → SysState) (h : Law s.log → Full s) :
    SoloKept s (updSys o f s) (fun _ t => Full t ∧ t.list = s.list) := by
  have hF : Law s.log → Full (setProc s o { s.heap o with ss := f (s.heap o).ss }) := fun hl =>
    ⟨(h hl).toHalf.setProc o _ rfl ((h hl).core.mild o _ rfl id rfl rfl), (h hl).rest⟩
  exact .ok (Old.setProc s o _ ⟨rfl, rfl, rfl, rfl, id⟩) (fun hl => (hF hl).core.asks) fun hl => ⟨hF hl, rfl⟩

theorem resume_diverge {c : Call} {o : Nat} {q : Proc → Proc} {e : Exc} (h : (Py.bind (ptraceCall K c) (fun _ => updProc o q) s).1 = .error e) : e ≠ .diverge := by
  unfold Py.bind at h
  rw [ptraceCall_run] at h
  cases hr : K s.log c <;> rw [hr] at h <;> cases h <;> exact fun h => nomatch h

/-- A request that lets the process go on. -/
theorem kept_resume {o : Nat} {c : Call} (hc : resumes o c) (h : Law s.log → Full s) (ho : Law s.log → o ∈ s.list) :
    SoloKept s (Py.bind (ptraceCall K c) (fun _ => updProc o fun p => { p with isStopped := false }) s) (fun _ t => Half t ∧ t.list = s.list) := by
  have hold : Old s (Py.bind (ptraceCall K c) (fun _ => updProc o fun p => { p with isStopped := false }) s).2 := by
    unfold Py.bind
    rw [ptraceCall_run]
    cases ptraceRes (K s.log c) with
    | ok v => exact (Old.logCall (K := K) c s).trans (Old.setProc _ o _ ⟨rfl, rfl, rfl, rfl, id⟩)
    | error e => exact Old.logCall (K := K) c s
  refine SoloKept.cases hold fun hl => ?_
  have hA := asked_resume (K := K) (B := fun _ => True) (D := fun _ => False) hc (fun _ => (h hl).core) fun _ _ => (h hl).rest o (ho hl)
  refine ⟨hold, fun hx => hA.asks hx.1, fun a ha hx => ⟨⟨hA.inv (by rw [ha]; exact fun h => nomatch h) hx.1, ?_, ?_⟩, (hA.val a ha hx.1).2.1⟩, fun e he hx =>
    ⟨⟨hA.inv (by rw [he]; intro h'; injection h' with h'; exact resume_diverge he h') hx.1, ?_, ?_⟩, ?_⟩⟩
  · rw [(hA.val a ha hx.1).2.1]; exact (h hl).one
  · rw [(hA.val a ha hx.1).2.1]
    unfold Py.bind at ha ⊢
    rw [ptraceCall_run] at ha ⊢
    cases hr : ptraceRes (K s.log c) with
    | error e => rw [hr] at ha; cases ha
    | ok v =>
      intro i hi
      show ((PT.setProc (logCall K c s) o { s.heap o with isStopped := false }).heap i).isAttached = true
      rw [setProc_heap]
      split
      · rename_i e; show (s.heap o).isAttached = true; rw [← e]; exact (h hl).att i hi
      · exact (h hl).att i hi
  · rw [(hA.exc e he hx.1).2]; exact (h hl).one
  · rw [(hA.exc e he hx.1).2]
    unfold Py.bind at he ⊢
    rw [ptraceCall_run] at he ⊢
    cases hr : ptraceRes (K s.log c) with
    | ok v => rw [hr] at he; cases he
    | error e => exact (h hl).att
  · rw [(hA.exc e he hx.1).2]
    unfold Py.bind at he ⊢
    rw [ptraceCall_run] at he ⊢
    cases hr : ptraceRes (K s.log c) with
    | ok v => rw [hr] at he; cases he
    | error e =>
      intro i hi
      refine AtRest.snoc ((h hl).rest i hi) ?_ ?_
      · rintro ⟨⟨v, st, hv⟩, -⟩
        have hv : K s.log c = .ok v st := hv
        rw [hv] at hr
        cases hr
      · rintro ⟨w, nh, wl, p, st, hx, _⟩
        have hx : c = .waitpid w nh wl := hx
        rcases hc with ⟨p, n, rfl⟩ | ⟨p, n, rfl⟩ <;> cases hx

theorem kept_cont {o : Nat} (n : Nat) (h : Law s.log → Full s) (ho : Law s.log → o ∈ s.list) :
    SoloKept s (procCont K o n s) (fun _ t => Half t ∧ t.list = s.list) := kept_resume (.inl ⟨_, _, rfl⟩) h ho

theorem kept_syscall {o : Nat} (n : Nat) (h : Law s.log → Full s) (ho : Law s.log → o ∈ s.list) :
    SoloKept s (procSyscall K o n s) (fun _ t => Half t ∧ t.list = s.list) := kept_resume (.inr ⟨_, _, rfl⟩) h ho

/-! ### waiting -/

/-- What waiting for the only process can give. -/
inductive SoloRes (K : Kern) (p o : Nat) (c : Call) (s : DSt) : Except Exc (Option Event) × DSt → Prop where
  | exit (a : Option Nat) (b : Option Nat) (h : ∀ v st, K s.log c = .ok v st → v = p) : SoloRes K p o c s (.ok (some (.exit o a b)), gone o (logCall K c s))
  | signal (m : Nat) (st : Int) (h : K s.log c = .ok p st) (hm : waitMeaning st = .signal m) :
      SoloRes K p o c s (.ok (some (.signal o m)), setProc (logCall K c s) o { s.heap o with isStopped := true })
  | event (m : Int) (st : Int) (h : K s.log c = .ok p st) (hm : waitMeaning st = .event m) (r : Except Exc (Option Event))
      (hr : r = .ok (some (.execution o)) ∨ ∃ n, r = .error (.ptrace n)) : SoloRes K p o c s (r, logCall K c s)
  | message (m : Int) (st : Int) (h : K s.log c = .ok p st) (hm : waitMeaning st = .event m) (n : Option Nat) :
      SoloRes K p o c s (.error (.ptrace n), logCall K (.geteventmsg o (s.heap o).pid) (logCall K c s))

theorem solo_run {p o : Nat} (hp : p ≠ 0) (hg : dictGet s.dict p = some o) (n : Nat) (hl : Law (waitEventPid K (n + 1) p true s).2.log) :
    SoloRes K p o (.waitpid (some p) false (s.heap o).isThread) s (waitEventPid K (n + 1) p true s) := by
  have hrest : ∀ (x : Except Exc (Nat × Int)) (t : DSt), Old t (match (x, t) with
      | (.ok r, s') => waitReply K (waitEventPid K n) (waitEventPid K n p true) true r s'
      | (.error e, s') => waitExcept K p e s').2 := fun x t => by
    cases x with
    | ok r => exact askOld (waitReply_sat (S := askRules K) (fun _ _ _ => trivial) (fun p b _ => wait_sat n p b) (wait_sat n p true) true r) t
    | error e => exact askOld (waitExcept_sat (S := askRules K) (fun _ _ _ => trivial) p e) t
  have hrun : waitEventPid K (n + 1) p true s = (match waitpidRaw K p true s with
      | (.ok r, s') => waitReply K (waitEventPid K n) (waitEventPid K n p true) true r s'
      | (.error e, s') => waitExcept K p e s') := rfl
  have hr : waitpidRaw K p true s = Py.bind (osCall K (.waitpid (some p) false (s.heap o).isThread)) (checkPid p true) s := by
    unfold waitpidRaw
    rw [if_pos hp, hg]
    rfl
  rw [hrun, hr] at hl ⊢
  unfold Py.bind at hl ⊢
  rw [osCall_run] at hl ⊢
  generalize hcall : Call.waitpid (some p) false (s.heap o).isThread = c at hl ⊢
  have hlast : Law (logCall K c s).log → WaitOK s.log ⟨c, K s.log c, s.dict⟩ ∧ SoloEntry ⟨c, K s.log c, s.dict⟩ := fun hx => ⟨Lawful.last hx.1, Law.last hx⟩
  cases hk : K s.log c with
  | interrupt =>
    rw [hk] at hl
    have hw := (hlast (hl.before (hrest (.error .interrupt) (logCall K c s)))).2
    exact absurd hk hw.1
  | err e =>
    rw [hk] at hl
    have hw := (hlast (hl.before (hrest (.error (.os e)) (logCall K c s)))).1
    rw [hk, ← hcall] at hw
    have he : e = 10 := hw
    subst he
    have hrun : waitExcept K p (.os 10) (logCall K c s) = (.ok (some (.exit o none none)), gone o (logCall K c s)) := by
      unfold waitExcept
      rw [if_pos (show Exc.os 10 = Exc.os ECHILD from rfl)]
      show (match dictGet s.dict p with
        | some o => Py.bind (processTerminated K o) (fun e => Py.pure (some e)) (logCall K c s)
        | none => (.error .key, logCall K c s)) = _
      rw [hg]
      dsimp only [processTerminated, Py.bind]
      rw [notRunning_run]
      rfl
    show SoloRes K p o c s (waitExcept K p (.os 10) (logCall K c s))
    rw [hrun]
    exact .exit none none fun v st hx => by rw [hk] at hx; cases hx
  | ok v st =>
    rw [hk] at hl
    have hs : ∃ x, checkPid p true (v, st) (logCall K c s) = (x, logCall K c s) := by
      unfold checkPid
      split
      · exact ⟨_, rfl⟩
      · exact ⟨_, rfl⟩
    have hlt : Law (logCall K c s).log := by
      obtain ⟨x, hx⟩ := hs
      refine hl.before ?_
      show Old (logCall K c s) (match checkPid p true (v, st) (logCall K c s) with
        | (.ok r, s') => waitReply K (waitEventPid K n) (waitEventPid K n p true) true r s'
        | (.error e, s') => waitExcept K p e s').2
      rw [hx]
      exact hrest x _
    have hw := (hlast hlt).1
    rw [hk, ← hcall] at hw
    have hw : v = p ∧ waitMeaning st ≠ .unknown ∨ false = true ∧ v = 0 := hw
    rcases hw with ⟨rfl, hst⟩ | ⟨hb, _⟩
    swap
    · cases hb
    have hchk : checkPid v true (v, st) (logCall K c s) = (.ok (v, st), logCall K c s) := by
      unfold checkPid
      rw [if_neg (by simp)]
      rfl
    have hrep : waitReply K (waitEventPid K n) (waitEventPid K n v true) true (v, st) (logCall K c s) =
        Py.bind (processStatus K (waitEventPid K n) o st) (fun e => Py.pure (some e)) (logCall K c s) := by
      unfold waitReply
      rw [if_neg (by simp [hp])]
      show (match dictGet s.dict v with
        | some o => Py.bind (processStatus K (waitEventPid K n) o st) (fun e => Py.pure (some e)) (logCall K c s)
        | none => waitEventPid K n v true (logCall K c s)) = _
      rw [hg]
    have hall : (match (match osRes (Reply.ok v st) with
          | .ok a => checkPid v true a (logCall K c s)
          | .error e => ((.error e : Except Exc (Nat × Int)), logCall K c s)) with
        | (.ok r, s') => waitReply K (waitEventPid K n) (waitEventPid K n v true) true r s'
        | (.error e, s') => waitExcept K v e s') = Py.bind (processStatus K (waitEventPid K n) o st) (fun e => Py.pure (some e)) (logCall K c s) := by
      show (match checkPid v true (v, st) (logCall K c s) with
        | (.ok r, s') => waitReply K (waitEventPid K n) (waitEventPid K n v true) true r s'
        | (.error e, s') => waitExcept K v e s') = _
      rw [hchk]
      exact hrep
    replace hl : Law (Py.bind (processStatus K (waitEventPid K n) o st) (fun e => Py.pure (some e)) (logCall K c s)).2.log := by rw [← hall]; exact hl
    have goal : SoloRes K v o c s (Py.bind (processStatus K (waitEventPid K n) o st) (fun e => Py.pure (some e)) (logCall K c s)) := by
      unfold processStatus at hl ⊢
      rw [classify_kind] at hl ⊢
      have hend : ∀ a b, SoloRes K v o c s (Py.bind (Py.bind (notRunning K o) fun _ => Py.pure (Event.exit o a b)) (fun e => Py.pure (some e)) (logCall K c s)) := by
        intro a b
        unfold Py.bind
        rw [notRunning_run]
        exact .exit a b fun v' st' hx => by rw [hk] at hx; cases hx; rfl
      cases hmean : waitMeaning st with
      | unknown => exact absurd hmean hst
      | exited code => exact hend _ _
      | killed m => exact hend _ _
      | signal m => exact .signal m st hk hmean
      | event m =>
        rw [hmean] at hl
        show SoloRes K v o c s (Py.bind (ptraceEvent K (waitEventPid K n) o m) (fun e => Py.pure (some e)) (logCall K c s))
        replace hl : Law (Py.bind (ptraceEvent K (waitEventPid K n) o m) (fun e => Py.pure (some e)) (logCall K c s)).2.log := hl
        by_cases h1 : m = PTRACE_EVENT_FORK ∨ m = PTRACE_EVENT_VFORK ∨ m = PTRACE_EVENT_CLONE
        · have hev : ∀ t, t.heap = s.heap → Py.bind (ptraceEvent K (waitEventPid K n) o m) (fun e => Py.pure (some e)) t = Py.bind (ptraceCall K (.geteventmsg o (s.heap o).pid)) (fun newPid =>
              Py.bind (Py.bind (addProcess K (waitEventPid K n) newPid true (some o) (decide (m = PTRACE_EVENT_CLONE))) fun q => Py.pure (.newProcess q))
                fun e => Py.pure (some e)) t := fun t ht => by
            unfold ptraceEvent Py.bind
            dsimp only
            rw [if_pos h1, ht]
            cases ptraceCall K (.geteventmsg o (s.heap o).pid) t with
            | mk r u => cases r <;> rfl
          rw [hev (logCall K c s) rfl] at hl ⊢
          unfold Py.bind at hl ⊢
          rw [ptraceCall_run] at hl ⊢
          cases hg2 : K (logCall K c s).log (.geteventmsg o (s.heap o).pid) with
          | err e => exact .message m st hk hmean _
          | interrupt =>
            rw [hg2] at hl
            exact absurd hg2 (Law.last (log := (logCall K c s).log) hl).1
          | ok np st2 =>
            rw [hg2] at hl
            have hold := askOld (K := K) (Sat.bind (Sat.bind (addProcess_sat (fun _ _ _ => trivial) (fun p b _ => wait_sat n p b) np (.inr trivial) true (some o) (decide (m = PTRACE_EVENT_CLONE)) (fun _ _ => trivial)
              (fun _ _ _ => trivial)) fun q => Sat.pure (Event.newProcess q)) fun e => Sat.pure (some e)) (logCall K (.geteventmsg o (s.heap o).pid) (logCall K c s))
            have := Law.last (log := (logCall K c s).log) (hl.before hold)
            exact absurd hg2 (this.2 np st2)
        · have hev : Py.bind (ptraceEvent K (waitEventPid K n) o m) (fun e => Py.pure (some e)) (logCall K c s) =
              ((if m = PTRACE_EVENT_EXEC then .ok (some (.execution o)) else .error (.ptrace none)), logCall K c s) := by
            unfold ptraceEvent Py.bind
            dsimp only
            rw [if_neg h1]
            by_cases h2 : m = PTRACE_EVENT_EXEC
            · rw [if_pos h2, if_pos h2]; rfl
            · rw [if_neg h2, if_neg h2]
          rw [hev]
          refine .event m st hk hmean _ ?_
          split
          · exact .inl rfl
          · exact .inr ⟨_, rfl⟩
    rw [← hall] at goal
    exact goal

/-- The only process is over. -/
theorem Half.gone {o : Nat} {u : DSt} (h : Half s) (ho : o ∈ s.list) (hl : u.list = s.list) (ha : (u.heap o).isAttached = (s.heap o).isAttached) (hc : Cor (PT.gone o u)) :
    Full (PT.gone o u) ∧ (PT.gone o u).list = [] := by
  have he : (PT.gone o u).list = [] := by
    have : (PT.gone o u).list = s.list.erase o := by
      unfold PT.gone
      rw [if_pos (ha.trans (h.att o ho)), ← hl]
      rfl
    rw [this]
    refine List.eq_nil_iff_forall_not_mem.2 fun i hi => ?_
    have h1 := h.one i (List.mem_of_mem_erase hi) o ho
    rw [h1] at hi
    exact (List.Nodup.mem_erase_iff h.core.reg.nodup).1 hi |>.1 rfl
  exact ⟨⟨⟨hc, fun i hi => (by rw [he] at hi; cases hi), fun i hi => by rw [he] at hi; cases hi⟩, fun i hi => by rw [he] at hi; cases hi⟩, he⟩

theorem Full.gone {o : Nat} (h : Full s) (ho : o ∈ s.list) : Full (PT.gone o s) :=
  (h.toHalf.gone ho rfl rfl (Core.gone h.core.reg h.core.asks (fun i hi hne => absurd (h.one i hi o ho) hne) (fun i hi hne => absurd (h.one i hi o ho) hne)
    h.core.seen h.core.left)).1

theorem kept_wait (n p : Nat) (h : Law s.log → Half s) (hf : Law s.log → dictGet s.dict p = none → Full s) :
    SoloKept s (waitEventPid K (n + 1) p true s) (fun r t => Full t ∧ ∃ ev, r = some ev ∧ ∀ q m, ev = .signal q m → t.list = s.list) := by
  have hold : Old s (waitEventPid K (n + 1) p true s).2 := askOld (wait_sat (K := K) (n + 1) p true) s
  refine SoloKept.cases hold fun hl => ?_
  by_cases hlx : Law (waitEventPid K (n + 1) p true s).2.log
  swap
  · exact ⟨hold, fun hx => (hlx hx).elim, fun _ _ hx => (hlx hx).elim, fun _ _ hx => (hlx hx).elim⟩
  have hh := h hl
  by_cases hp : p = 0
  · · exfalso
      have hrun : waitEventPid K (n + 1) p true s = (match waitpidRaw K p true s with
          | (.ok r, s') => waitReply K (waitEventPid K n) (waitEventPid K n p true) true r s'
          | (.error e, s') => waitExcept K p e s') := rfl
      have hr : ∃ x, waitpidRaw K p true s = (x, logCall K (.waitpid none false false) s) := by
        unfold waitpidRaw
        rw [if_neg (by simp [hp])]
        unfold Py.bind
        rw [osCall_run]
        cases osRes (K s.log (.waitpid none (!true) false)) with
        | error e => exact ⟨_, rfl⟩
        | ok r =>
          dsimp only [checkPid]
          split
          · exact ⟨_, rfl⟩
          · exact ⟨_, rfl⟩
      obtain ⟨x, hr⟩ := hr
      rw [hrun, hr] at hlx
      have hno : Law (logCall K (.waitpid none false false) s).log := by
        refine hlx.before ?_
        cases x with
        | ok r => exact askOld (waitReply_sat (S := askRules K) (fun _ _ _ => trivial) (fun p b _ => wait_sat n p b) (wait_sat n p true) true r) _
        | error e => exact askOld (waitExcept_sat (S := askRules K) (fun _ _ _ => trivial) p e) _
      have hx : WaitOK s.log ⟨.waitpid none false false, K s.log (.waitpid none false false), s.dict⟩ := Lawful.last hno.1
      exact hx
  · cases hg : dictGet s.dict p with
    | none =>
      · have hr : waitpidRaw K p true s = (.error (.ptrace none), s) := by
          unfold waitpidRaw
          rw [if_pos hp, hg]
        have hrun : waitEventPid K (n + 1) p true s = (.error (.ptrace none), s) := by
          show (match waitpidRaw K p true s with
            | (.ok r, s') => waitReply K (waitEventPid K n) (waitEventPid K n p true) true r s'
            | (.error e, s') => waitExcept K p e s') = _
          rw [hr]
          rfl
        rw [hrun]
        exact .err (.refl s) fun _ => hf hl hg
    | some o =>
      have hs := solo_run (K := K) hp hg n hlx
      have hm := dictGet_some hg
      have ho := (hh.core.owner hm).1
      have hone : ∀ i ∈ s.list, i = o := fun i hi => hh.one i hi o ho
      have hsame : ∀ c, setProc (logCall K c s) o (s.heap o) = logCall K c s := fun c => by
        unfold setProc
        congr 1
        funext i
        show (if i = o then s.heap o else s.heap i) = s.heap i
        split
        · rename_i e
          rw [e]
        · rfl
      generalize hx : waitEventPid K (n + 1) p true s = x at hs hold hlx ⊢
      have hev : ∀ m st, K s.log (.waitpid (some p) false (s.heap o).isThread) = .ok p st → waitMeaning st = .event m →
          Full (logCall K (.waitpid (some p) false (s.heap o).isThread) s) := fun m st hk hmean => by
        obtain ⟨h1, h2, _⟩ := hh.core.told (K := K) hp hm (fun _ hx => by cases hx) hk (.inr ⟨m, hmean⟩) (s.heap o) rfl rfl rfl
          (.inr ⟨rfl, fun n hx => by rw [hmean] at hx; cases hx⟩)
        rw [hsame] at h1
        exact ⟨⟨h1, hh.one, hh.att⟩, fun i hi => by rw [hone i hi]; exact h2⟩
      cases hs with
      | exit a b hv =>
        obtain ⟨h1, _⟩ := hh.core.ended (K := K) (c := .waitpid (some p) false (s.heap o).isThread) ⟨_, _, rfl⟩ hm (fun _ hx => by cases hx) hv
        have h2 := hh.gone (u := logCall K (.waitpid (some p) false (s.heap o).isThread) s) ho rfl rfl h1
        exact .ok hold (fun _ => h1.asks) fun _ => ⟨h2.1, _, rfl, fun _ _ hx => by cases hx⟩
      | signal m st hk hmean =>
        obtain ⟨h1, h2, _⟩ := hh.core.told (K := K) hp hm (fun _ hx => by cases hx) hk (.inl ⟨m, hmean⟩) { s.heap o with isStopped := true } rfl rfl rfl (.inl rfl)
        refine .ok hold (fun _ => h1.asks) fun _ => ⟨⟨⟨h1, hh.one, fun i hi => ?_⟩, fun i hi => ?_⟩, _, rfl, fun _ _ _ => rfl⟩
        · rw [setProc_heap]
          split
          · exact hh.att o ho
          · exact hh.att i hi
        · rw [hone i hi]
          exact h2
      | event m st hk hmean r hr =>
        have hF := hev m st hk hmean
        rcases hr with rfl | ⟨n, rfl⟩
        · exact .ok hold (fun _ => hF.core.asks) fun _ => ⟨hF, _, rfl, fun _ _ hx => by cases hx⟩
        · exact .err hold fun _ => hF
      | message m st hk hmean n =>
        exact .err hold fun _ => (hev m st hk hmean).silent rfl fun i hi => by cases hi; exact ho

theorem kept_filter (sigs : List Nat) (r : Option Event) {l : List Nat} (h : Law s.log → Full s ∧ ∃ ev, r = some ev ∧ ∀ q m, ev = .signal q m → s.list = l) :
    SoloKept s (filterEvent sigs r s) (fun _ t => Full t ∧ t.list = l) := by
  unfold filterEvent
  split
  · rename_i q m
    split
    · refine .ok (.refl s) (fun hl => (h hl).1.core.asks) fun hl => ⟨(h hl).1, ?_⟩
      obtain ⟨_, ev, he, hq⟩ := h hl
      exact hq q m (by cases he; rfl)
    · exact .err (.refl s) fun hl => (h hl).1
  · exact .err (.refl s) fun hl => (h hl).1
  · exact .err (.refl s) fun hl => (h hl).1

theorem kept_signals (fuel : Nat) (sigs : List Nat) (p : Nat) (h : Law s.log → Half s) (hf : Law s.log → dictGet s.dict p = none → Full s) :
    SoloKept s (waitSignals K (fuel + 1) sigs (some p) s) (fun _ t => Full t ∧ t.list = s.list) :=
  SoloKept.bind (m := waitEventPid K (fuel + 1) p true) (kept_wait fuel p h hf) fun r _ _ hq => kept_filter sigs r hq

theorem Half.get (h : Half s) {o : Nat} (ho : o ∈ s.list) : dictGet s.dict (s.heap o).pid = some o := dictGet_of_mem h.core.reg.keys (h.core.getOf ho)

theorem kept_signalsOf (fuel : Nat) (sigs : List Nat) {o : Nat} (h : Law s.log → Half s) (ho : Law s.log → o ∈ s.list) :
    SoloKept s (waitSignals K (fuel + 1) sigs (some (s.heap o).pid) s) (fun _ t => Full t ∧ t.list = s.list) :=
  kept_signals fuel sigs _ h fun hl hn => by rw [(h hl).get (ho hl)] at hn; cases hn

theorem Half.dict (h : Half s) {o : Nat} (ho : o ∈ s.list) : s.dict.map Prod.fst = [(s.heap o).pid] := by
  have hall : ∀ x ∈ s.dict, x = ((s.heap o).pid, o) := fun ⟨p, i⟩ hx => by
    obtain ⟨h1, h2⟩ := h.core.owner hx
    have := h.one i h1 o ho
    subst this
    rw [h2]
  have hm := h.core.getOf ho
  have hk := h.core.reg.keys
  generalize s.dict = d at hall hm hk
  cases d with
  | nil => cases hm
  | cons x d =>
    cases d with
    | nil => rw [hall x (by simp)]; rfl
    | cons y d =>
      rw [hall x (by simp), hall y (by simp)] at hk
      simp at hk

theorem kept_any (fuel : Nat) (sigs : List Nat) {o : Nat} (h : Law s.log → Half s) (ho : Law s.log → o ∈ s.list) :
    SoloKept s (waitSignals K (fuel + 1) sigs none s) (fun _ t => Full t ∧ t.list = s.list) := by
  by_cases hl : Law s.log
  · unfold waitSignals waitProcessEvent
    · have hrun : waitAny K (fuel + 1) (fuel + 1) true s = waitEventPid K (fuel + 1) (s.heap o).pid true s := by
        rw [waitAny]
        dsimp only
        rw [(h hl).dict (ho hl)]
      refine SoloKept.bind (m := waitAny K (fuel + 1) (fuel + 1) true) (Q' := fun r t => Full t ∧ ∃ ev, r = some ev ∧ ∀ q m, ev = .signal q m → t.list = s.list) ?_ fun r t _ hq => kept_filter sigs r hq
      rw [hrun]
      exact kept_wait _ _ h fun hl hn => by rw [(h hl).get (ho hl)] at hn; cases hn
  · refine SoloKept.cases ?_ fun hx => (hl hx).elim
    exact askOld (waitSignals_sat (S := askRules K) (fun _ _ _ => trivial) (fun _ => trivial) (fun _ _ _ _ => .inr trivial) (fuel + 1) sigs none (.inr trivial)) s

/-! ### system calls -/

theorem kept_inspect {o : Nat} (p : Nat) (h : Law s.log → Full s) (ho : Law s.log → o ∈ s.list) :
    SoloKept s (ptraceCall K (.inspect o p) s) (fun _ t => Full t ∧ t.list = s.list) :=
  (kept_mute _ rfl h fun hl i hi => by cases hi; exact ho hl).weaken fun _ t ht => ⟨ht.2, ht.1 ▸ rfl⟩

theorem kept_void {m : Py DSt β} {P : DSt → Prop} (h : SoloKept s (m s) (fun _ t => P t)) (hp : ∀ t, P t → Half t) : SoloKept s (void m s) (fun _ t => P t) :=
  SoloKept.bind h fun _ t _ hq => .ok (.refl t) (fun hl => (hp t (hq hl)).core.asks) hq

theorem kept_sysEnter (C : SysCfg) {o : Nat} (h : Law s.log → Full s) (ho : Law s.log → o ∈ s.list) : SoloKept s (sysEnter K C o s) (fun _ t => Full t) := by
  unfold sysEnter
  refine SoloKept.bind (kept_inspect _ h ho) fun regs t h1 hq => ?_
  have ho1 : Law t.log → o ∈ t.list := fun hl => by rw [(hq hl).2]; exact ho (hl.before h1)
  refine SoloKept.bind (kept_updSys o _ fun hl => (hq hl).1) fun _ u h2 hu => ?_
  have ho2 : Law u.log → o ∈ u.list := fun hl => by rw [(hu hl).2]; exact ho1 (hl.before h2)
  refine SoloKept.bind (Q' := fun _ t => Full t) ?_ fun _ v h3 hv => ?_
  · split
    · exact kept_void (P := Full) ((kept_inspect _ (fun hl => (hu hl).1) ho2).weaken fun _ _ hx => hx.1) fun _ hx => hx.toHalf
    · exact (kept_updSys o _ fun hl => (hu hl).1).weaken fun _ _ hx => hx.1
  · refine SoloKept.bind (kept_updSys o _ hv) fun _ w h4 hw => ?_
    exact .ok (.refl w) (fun hl => (hw hl).1.core.asks) fun hl => (hw hl).1

theorem kept_sysExit (fuel : Nat) {o : Nat} (h : Law s.log → Full s) (ho : Law s.log → o ∈ s.list) : SoloKept s (sysExit K (fuel + 1) o s) (fun _ t => Full t) := by
  unfold sysExit
  refine SoloKept.bind (Q' := fun _ t => Full t ∧ t.list = s.list) ?_ fun _ t h1 hq => ?_
  · unfold sysResult
    split
    · refine SoloKept.bind (kept_inspect _ h ho) fun v t h1 hq => ?_
      exact ⟨(kept_updSys o _ fun hl => (hq hl).1).old, (kept_updSys o _ fun hl => (hq hl).1).asks,
        fun a ha hl => ⟨((kept_updSys o _ fun hl => (hq hl).1).val a ha hl).1, ((kept_updSys o _ fun hl => (hq hl).1).val a ha hl).2.trans
          (hq (hl.before (kept_updSys o _ fun hl => (hq hl).1).old)).2⟩, (kept_updSys o _ fun hl => (hq hl).1).exc⟩
    · exact .ok (.refl s) (fun hl => (h hl).core.asks) fun hl => ⟨h hl, rfl⟩
  · have ho1 : Law t.log → o ∈ t.list := fun hl => by rw [(hq hl).2]; exact ho (hl.before h1)
    refine SoloKept.bind (Q' := fun _ t => Full t) ?_ fun _ u h2 hu => ?_
    · unfold sysExecTrap
      split
      · refine SoloKept.bind (kept_syscall 0 (fun hl => (hq hl).1) ho1) fun _ u h2 hu => ?_
        have hpid : Law t.log → (t.heap o).pid = (u.heap o).pid := fun hl => (h2.pid o ((hq hl).1.core.reg.alloc o (ho1 hl))).symm
        refine kept_void (P := Full) ((kept_signals fuel _ _ (fun hl => (hu hl).1) fun hl hn => ?_).weaken fun _ _ hx => hx.1) fun _ hx => hx.toHalf
        have hlt := hl.before h2
        rw [hpid hlt, (hu hl).1.get (by rw [(hu hl).2]; exact ho1 hlt)] at hn
        cases hn
      · exact .ok (.refl t) (fun hl => (hq hl).1.core.asks) fun hl => (hq hl).1
    · refine SoloKept.bind (kept_updSys o _ hu) fun _ v _ hv => ?_
      exact .ok (.refl v) (fun hl => (hv hl).1.core.asks) fun hl => (hv hl).1

theorem kept_sysEvent (fuel : Nat) (C : SysCfg) {o : Nat} (h : Law s.log → Full s) (ho : Law s.log → o ∈ s.list) : SoloKept s (sysEvent K (fuel + 1) C o s) (fun _ t => Full t) := by
  unfold sysEvent
  split
  · exact kept_sysExit fuel h ho
  · exact kept_sysEnter C h ho

theorem kept_display (p : Nat) (h : Law s.log → Full s) : SoloKept s (eventDisplay K p s) (fun _ t => Full t ∧ t.list = s.list) :=
  SoloKept.bind (m := ptraceCall K (.display p (s.heap p).pid)) (kept_mute _ rfl h fun _ _ hx => by cases hx) fun _ t _ hq =>
    .ok (.refl t) (fun hl => (hq hl).2.core.asks) fun hl => ⟨(hq hl).2, (hq hl).1 ▸ rfl⟩

/-! ### `interrupt` -/

theorem kept_interruptSend : ∀ (os : List Nat) {s : DSt}, (Law s.log → Full s) → (Law s.log → ∀ o ∈ os, o ∈ s.list) → SoloKept s (interruptSend K os s) (fun _ t => Full t)
  | [], s, h, _ => .ok (.refl s) (fun hl => (h hl).core.asks) h
  | o :: os, s, h, hos => by
    rw [interruptSend]
    dsimp only
    have hrest : ∀ t, Old s t → (Law t.log → Full t ∧ t.list = s.list) → SoloKept t (interruptSend K os t) (fun _ t => Full t) := fun t h1 hq =>
      kept_interruptSend os (fun hl => (hq hl).1) fun hl i hi => by rw [(hq hl).2]; exact hos (hl.before h1) i (List.mem_cons_of_mem _ hi)
    split
    · exact hrest s (.refl s) fun hl => ⟨h hl, rfl⟩
    · refine SoloKept.bind (kept_inspect _ h fun hl => hos hl o List.mem_cons_self) fun v t h1 hq => ?_
      split
      · exact hrest t h1 hq
      · refine SoloKept.bind (Q' := fun _ u => Full u ∧ u.list = t.list) (m := procKill K o SIGINT) ?_ fun _ u h2 hu => ?_
        · exact SoloKept.bind (m := osCall K (.kill o (t.heap o).pid SIGINT)) (kept_os _ rfl (fun hl => (hq hl).1) rfl) fun _ w _ hw =>
            .ok (.refl w) (fun hl => (hw hl).2.core.asks) fun hl => ⟨(hw hl).2, (hw hl).1 ▸ rfl⟩
        · refine SoloKept.bind (hrest u (h1.trans h2) fun hl => ⟨(hu hl).1, (hu hl).2.trans (hq (hl.before h2)).2⟩) fun _ w _ hw => ?_
          exact .ok (.refl w) (fun hl => (hw hl).core.asks) hw

theorem kept_interruptWait (fuel : Nat) : ∀ (os : List Nat) {s : DSt}, (Law s.log → Full s) → SoloKept s (interruptWait K (fuel + 1) os s) (fun _ t => Full t)
  | [], s, h => .ok (.refl s) (fun hl => (h hl).core.asks) h
  | o :: os, s, h => by
    rw [interruptWait]
    refine SoloKept.bind (Q' := fun _ t => Full t) ?_ fun _ t _ hq => kept_interruptWait fuel os hq
    have hw := kept_signals (K := K) fuel [SIGINT] (s.heap o).pid (fun hl => (h hl).toHalf) fun hl _ => h hl
    generalize waitSignals K (fuel + 1) [SIGINT] (some (s.heap o).pid) s = x at hw
    obtain ⟨r, t⟩ := x
    have hold : Old s t := hw.old
    cases r with
    | ok ev => exact .ok hold hw.asks fun hl => (hw.val ev rfl hl).1
    | error e =>
      have hre : SoloKept s ((.error e, t) : Except Exc Unit × DSt) (fun _ t => Full t) :=
        ⟨hold, hw.asks, fun _ hx => (by cases hx), fun e' he => hw.exc e' (by cases he; rfl)⟩
      cases e with
      | event ev =>
        cases ev with
        | signal q n =>
          have hd := kept_display (K := K) q (s := t) fun hl => hw.exc _ rfl hl
          exact ⟨hold.trans hd.old, hd.asks, fun a ha hl => (hd.val a ha hl).1, hd.exc⟩
        | _ => exact hre
      | interrupt => exact .ok hold hw.asks fun hl => hw.exc _ rfl hl
      | _ => exact hre

/-! ### the commands -/

/-- The result of some code of gdb.py. -/
structure GKept (s : DSt) (x : Except Exc α × GSt) (Q : α → GSt → Prop) : Prop where
  old : Old s x.2.dbg
  asks : Law x.2.dbg.log → AsksWhen (fun _ => True) x.2.dbg.log
  val : ∀ a, x.1 = .ok a → Law x.2.dbg.log → Q a x.2
  exc : ∀ e, x.1 = .error e → Law x.2.dbg.log → Full x.2.dbg

section
variable {Q : α → GSt → Prop} {g : GSt}

theorem GKept.ok {a : α} {t : GSt} (ho : Old s t.dbg) (hf : Law t.dbg.log → Full t.dbg) (hq : Law t.dbg.log → Q a t) : GKept s (.ok a, t) Q :=
  ⟨ho, fun hl => (hf hl).core.asks, fun b hb h => by cases hb; exact hq h, fun _ hb => by cases hb⟩

theorem GKept.err {e : Exc} {t : GSt} (ho : Old s t.dbg) (hq : Law t.dbg.log → Full t.dbg) : GKept s ((.error e : Except Exc α), t) Q :=
  ⟨ho, fun h => (hq h).core.asks, fun _ hb => (by cases hb), fun _ _ h => hq h⟩

theorem GKept.lift {m : Py DSt α} {P : α → DSt → Prop} (h : SoloKept g.dbg (m g.dbg) P) : GKept g.dbg (PT.lift m g) (fun a t => P a t.dbg ∧ t.process = g.process) :=
  ⟨h.old, h.asks, fun a ha hl => ⟨h.val a ha hl, rfl⟩, h.exc⟩

theorem GKept.bind {m : Py GSt β} {f : β → Py GSt α} {Q' : β → GSt → Prop} (h : GKept s (m g) Q')
    (hf : ∀ b t, m g = (.ok b, t) → Old s t.dbg → (Law t.dbg.log → Q' b t) → GKept t.dbg (f b t) Q) : GKept s (Py.bind m f g) Q := by
  unfold Py.bind
  rcases hm : m g with ⟨r, t⟩
  rw [hm] at h
  cases r with
  | ok b =>
    have h2 := hf b t hm h.old (h.val b rfl)
    exact ⟨h.old.trans h2.old, h2.asks, h2.val, h2.exc⟩
  | error e => exact ⟨h.old, h.asks, fun _ hx => (by cases hx), fun x hx => h.exc x (by cases hx; rfl)⟩

theorem GKept.weaken {x : Except Exc α × GSt} {Q' : α → GSt → Prop} (h : GKept s x Q') (hq : ∀ a t, Q' a t → Q a t) : GKept s x Q :=
  ⟨h.old, h.asks, fun a ha hl => hq a _ (h.val a ha hl), h.exc⟩

theorem GKept.from {x : Except Exc α × GSt} {t : DSt} (ho : Old s t) (h : GKept t x Q) : GKept s x Q := ⟨ho.trans h.old, h.asks, h.val, h.exc⟩

theorem GKept.broken {x : Except Exc α × GSt} (ho : Old s x.2.dbg) (h : ¬ Law x.2.dbg.log) : GKept s x Q :=
  ⟨ho, fun hl => (h hl).elim, fun _ _ hl => (h hl).elim, fun _ _ hl => (h hl).elim⟩

end

end PT
