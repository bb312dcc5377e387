import Verif.Model.BsdLife
import Verif.Spec.Bsd
import Verif.Lemmas.Debugger8
import Verif.Lemmas.Py
import Verif.Props.Status

/-! C117: the end of a process on FreeBSD and OpenBSD. -/

namespace PT
open Spec
variable {K : Kern}

/-- Object `o` has number `pid`; it is registered under it as long as it is attached. -/
structure BInv (o pid : Nat) (d : DSt) : Prop where
  num : (d.heap o).pid = pid
  reg : (dictGet d.dict pid = some o ∧ (d.heap o).isAttached = true) ∨ (dictGet d.dict pid = none ∧ (d.heap o).isAttached = false)

/-- The log grows and the invariant is kept. -/
def BRel (o pid : Nat) (d e : DSt) : Prop := (∃ g, e.log = d.log ++ g) ∧ (BInv o pid d → BInv o pid e)

theorem BRel.refl (o pid : Nat) (d : DSt) : BRel o pid d d := ⟨⟨[], by simp⟩, id⟩

theorem BRel.trans {o pid : Nat} {d e f : DSt} (h1 : BRel o pid d e) (h2 : BRel o pid e f) : BRel o pid d f := by
  obtain ⟨⟨g, hg⟩, a⟩ := h1
  obtain ⟨⟨k, hk⟩, b⟩ := h2
  exact ⟨⟨g ++ k, by rw [hk, hg, List.append_assoc]⟩, b ∘ a⟩

theorem brel_log (o pid : Nat) (c : Call) (d : DSt) : BRel o pid d (logCall K c d) := ⟨⟨_, rfl⟩, fun h => ⟨h.num, h.reg⟩⟩

theorem brel_set (o pid q : Nat) (p : Proc) (d : DSt) (h1 : p.pid = (d.heap q).pid) (h2 : p.isAttached = (d.heap q).isAttached) :
    BRel o pid d (setProc d q p) := by
  refine ⟨⟨[], by simp [setProc]⟩, fun h => ?_⟩
  have hh : ((setProc d q p).heap o).pid = (d.heap o).pid ∧ ((setProc d q p).heap o).isAttached = (d.heap o).isAttached := by
    rw [setProc_heap]
    split
    · rename_i ho; subst ho; exact ⟨h1, h2⟩
    · exact ⟨rfl, rfl⟩
  refine ⟨by rw [hh.1]; exact h.num, ?_⟩
  rw [hh.2]
  exact h.reg

theorem dictGet_dictDel_self {d : List (Nat × Nat)} {k : Nat} : dictGet (dictDel d k) k = none := by
  unfold dictGet dictDel
  rw [Option.map_eq_none_iff, List.find?_eq_none]
  intro e he
  simp only [List.mem_filter] at he
  simpa using he.2

theorem gone_binv {o pid : Nat} {d : DSt} (h : BInv o pid d) : BInv o pid (gone o d) ∧ dictGet (gone o d).dict pid = none ∧ ((gone o d).heap o).running = false := by
  unfold gone
  by_cases ha : (d.heap o).isAttached = true
  · rw [if_pos ha]
    have h1 : (unreg o (setProc d o { d.heap o with running := false, isAttached := false })).heap o = { d.heap o with running := false, isAttached := false } := by
      unfold unreg; exact setProc_same _ _ _
    have h2 : dictGet (unreg o (setProc d o { d.heap o with running := false, isAttached := false })).dict pid = none := by
      unfold unreg
      simp only [setProc_same, h.num]
      exact dictGet_dictDel_self
    exact ⟨⟨by rw [h1]; exact h.num, Or.inr ⟨h2, by rw [h1]⟩⟩, h2, by rw [h1]⟩
  · rw [if_neg ha]
    have h2 : dictGet d.dict pid = none := by
      rcases h.reg with h | h
      · exact absurd h.2 ha
      · exact h.1
    refine ⟨⟨by rw [setProc_same]; exact h.num, Or.inr ⟨h2, ?_⟩⟩, h2, by rw [setProc_same]⟩
    rw [setProc_same]
    simpa using ha

theorem brel_gone (o pid : Nat) (d : DSt) : BRel o pid d (gone o d) := ⟨⟨[], by rw [gone_log]; simp⟩, fun h => (gone_binv h).1⟩

/-- The call made to wait for a process. -/
def bsdCall (d : DSt) (o pid : Nat) (blocking : Bool) : Call := .waitpid (some pid) (!blocking) (d.heap o).isThread

/-- `_waitpid` asks the kernel once if the process is registered, and not at all otherwise. -/
theorem waitpidRaw_cases (pid : Nat) (hp : pid ≠ 0) (blocking : Bool) (d : DSt) :
    (dictGet d.dict pid = none ∧ waitpidRaw K pid blocking d = (.error (.ptrace none), d)) ∨
    (∃ o, dictGet d.dict pid = some o ∧ (waitpidRaw K pid blocking d).2 = logCall K (bsdCall d o pid blocking) d ∧
      (∀ v st, (waitpidRaw K pid blocking d).1 = .ok (v, st) → K d.log (bsdCall d o pid blocking) = .ok v st ∧ (v = pid ∨ (v = 0 ∧ blocking = false))) ∧
      (∀ st, K d.log (bsdCall d o pid blocking) = .ok pid st → (waitpidRaw K pid blocking d).1 = .ok (pid, st)) ∧
      (∀ e, (waitpidRaw K pid blocking d).1 = .error e → e = .os ECHILD → K d.log (bsdCall d o pid blocking) = .err ECHILD) ∧
      (K d.log (bsdCall d o pid blocking) = .err ECHILD → (waitpidRaw K pid blocking d).1 = .error (.os ECHILD)) ∧
      (K d.log (bsdCall d o pid blocking) = .interrupt → (waitpidRaw K pid blocking d).1 = .error .interrupt)) := by
  unfold waitpidRaw
  rw [if_pos hp]
  cases hg : dictGet d.dict pid with
  | none => exact Or.inl ⟨rfl, rfl⟩
  | some o =>
    refine Or.inr ⟨o, rfl, ?_⟩
    simp only
    unfold Py.bind
    rw [osCall_run]
    unfold bsdCall
    cases hr : K d.log (.waitpid (some pid) (!blocking) (d.heap o).isThread) with
    | err n =>
      refine ⟨rfl, (fun v st h => by cases h), (fun st h => by cases h), (fun e h he => ?_), (fun h => ?_), (fun h => by cases h)⟩
      · simp only [osRes] at h
        injection h with h
        rw [he] at h
        injection h with h
        rw [h]
      · injection h with h
        rw [h]; rfl
    | interrupt =>
      refine ⟨rfl, (fun v st h => by cases h), (fun st h => by cases h), (fun e h he => ?_), (fun h => by cases h), (fun _ => rfl)⟩
      injection h with h
      rw [he] at h
      cases h
    | ok v st =>
      simp only [osRes]
      unfold checkPid
      by_cases hv : v = pid
      · subst hv
        simp only [ne_eq, not_true_eq_false, decide_false, Bool.and_false, Bool.false_eq_true, if_false, Py.pure]
        refine ⟨trivial, ?_, ?_, (fun e h => by cases h), (fun h => by cases h), (fun h => by cases h)⟩
        · intro v' st' h
          injection h with h
          injection h with h1 h2
          subst h1; subst h2
          exact ⟨rfl, Or.inl rfl⟩
        · intro st' h
          injection h with _ h
          rw [h]
      · by_cases h0 : v = 0 ∧ blocking = false
        · obtain ⟨rfl, rfl⟩ := h0
          simp only [ne_eq, not_true_eq_false, decide_false, Bool.or_self, Bool.false_and, Bool.false_eq_true, if_false, Py.pure]
          refine ⟨trivial, ?_, ?_, (fun e h => by cases h), (fun h => by cases h), (fun h => by cases h)⟩
          · intro v' st' h
            injection h with h
            injection h with h1 h2
            subst h1; subst h2
            exact ⟨rfl, Or.inr ⟨rfl, trivial⟩⟩
          · intro st' h
            injection h with h _
            exact absurd h.symm hp
        · have hc : ((blocking || decide (v ≠ 0)) && decide (pid ≠ 0) && decide (v ≠ pid)) = true := by
            simp only [hp, hv, ne_eq, not_false_eq_true, decide_true, Bool.and_true]
            cases blocking
            · simp only [Bool.false_or, decide_eq_true_eq]; exact fun h => h0 ⟨h, rfl⟩
            · rfl
          simp only [hc, if_true, Py.raise]
          refine ⟨trivial, (fun v st h => by cases h), ?_, ?_, (fun h => by cases h), (fun h => by cases h)⟩
          · intro st' h
            injection h with h _
            exact absurd h hv
          · intro e h he
            injection h with h
            rw [he] at h
            cases h

theorem onDbg_run {α : Type} {m : Py DSt α} {s : BsdSt} {r : Except Exc α} {d : DSt} (h : m s.dbg = (r, d)) : onDbg m s = (r, { s with dbg := d }) := by
  unfold onDbg; rw [h]

theorem waitExcept_rel (o pid : Nat) (e : Exc) (d : DSt) (h : BInv o pid d) : BRel o pid d (waitExcept K pid e d).2 := by
  unfold waitExcept
  split
  · rcases h.reg with ⟨hg, _⟩ | ⟨hg, _⟩
    · rw [hg]
      simp only
      unfold processTerminated Py.bind
      rw [notRunning_run]
      exact brel_gone o pid d
    · rw [hg]; exact BRel.refl _ _ _
  · exact BRel.refl _ _ _

theorem procCont_rel (o pid n : Nat) (d : DSt) : BRel o pid d (procCont K o n d).2 := by
  unfold procCont Py.bind
  rw [ptraceCall_run]
  cases ptraceRes (K d.log (.cont o (d.heap o).pid (filterSignal n))) with
  | error e => exact brel_log _ _ _ _
  | ok v => exact (brel_log (K := K) o pid _ d).trans (brel_set o pid o _ _ rfl rfl)

theorem waitExit_rel {W : Nat → Bool → Py BsdSt (Option Event)} {o pid : Nat} (hW : ∀ b s, BInv o pid s.dbg → BRel o pid s.dbg (W pid b s).2.dbg) :
    ∀ (n : Nat) (s : BsdSt), BInv o pid s.dbg → BRel o pid s.dbg (bsdWaitExit K W o n s).2.dbg := by
  intro n
  induction n with
  | zero => intro s _; exact BRel.refl _ _ _
  | succ n ih =>
    intro s hs
    unfold bsdWaitExit
    have h1 := hW true s hs
    rw [hs.num]
    cases hw : W pid true s with
    | mk r t =>
    rw [hw] at h1
    cases r with
    | error e => rw [Py.run_bind_error hw]; exact h1
    | ok ev =>
      rw [Py.run_bind_ok hw]
      match ev with
      | none => exact h1
      | some (.exit _ _ _) => exact h1
      | some (.newProcess _) => exact h1
      | some (.execution _) => exact h1
      | some (.signal _ signum) =>
        simp only
        have h2 : BRel o pid t.dbg (onDbg (if signum ≠ SIGTRAP ∧ signum ≠ SIGSTOP then procCont K o signum else procCont K o 0) t).2.dbg := by
          unfold onDbg
          split
          · exact procCont_rel _ _ _ _
          · exact procCont_rel _ _ _ _
        cases hc : onDbg (if signum ≠ SIGTRAP ∧ signum ≠ SIGSTOP then procCont K o signum else procCont K o 0) t with
        | mk r u =>
        rw [hc] at h2
        cases r with
        | error e => rw [Py.run_bind_error hc]; exact h1.trans h2
        | ok x =>
          rw [Py.run_bind_ok hc]
          exact (h1.trans h2).trans (ih u (h2.2 (h1.2 hs)))

/-- What the report of a status says, whatever the second wait does. -/
theorem bsdStatus_rel {o pid : Nat} {wx : Py BsdSt Unit} (hx : ∀ s, BInv o pid s.dbg → BRel o pid s.dbg (wx s).2.dbg) (st : Int) (s : BsdSt)
    (hs : BInv o pid s.dbg) : BRel o pid s.dbg (bsdStatus K wx o st s).2.dbg ∧
      ∀ ev, (bsdStatus K wx o st s).1 = .ok ev → Told o (.ok pid st) ev ∧
        (∀ q a b, ev = .exit q a b → dictGet (bsdStatus K wx o st s).2.dbg.dict pid = none ∧ ((bsdStatus K wx o st s).2.dbg.heap o).running = false) := by
  unfold bsdStatus classify
  by_cases h1 : wIfExited st = true
  · rw [if_pos h1]
    simp only
    unfold bsdExited
    have hx' : BRel o pid s.dbg ((if s.exited o then Py.pure () else
        fun s => wx { s with exited := fun i => if i = o then true else s.exited i }) s).2.dbg := by
      split
      · exact BRel.refl _ _ _
      · exact hx _ hs
    cases hw : (if s.exited o then Py.pure () else
        fun s => wx { s with exited := fun i => if i = o then true else s.exited i }) s with
    | mk r t =>
    rw [hw] at hx'
    cases r with
    | error e => rw [Py.run_bind_error hw]; exact ⟨hx', fun ev h => by cases h⟩
    | ok u =>
      rw [Py.run_bind_ok hw, Py.run_bind_ok (onDbg_run (notRunning_run K o t.dbg))]
      refine ⟨hx'.trans (brel_gone o pid t.dbg), fun ev h => ?_⟩
      injection h with h
      subst h
      refine ⟨.exit pid _ st ?_ ?_, fun _ _ _ _ => (gone_binv (hx'.2 hs)).2⟩
      · have := wTermSig_eq st
        unfold wIfExited at h1
        have h1 := of_decide_eq_true h1
        omega
      · exact wExitStatus_eq st
  · rw [if_neg h1]
    have hne : wTermSig st ≠ 0 := fun h => h1 (by unfold wIfExited; exact decide_eq_true h)
    have hts := wTermSig_eq st
    by_cases h2 : wIfSignaled st = true
    · rw [if_pos h2]
      simp only
      rw [Py.run_bind_ok (onDbg_run (notRunning_run K o s.dbg))]
      refine ⟨brel_gone o pid s.dbg, fun ev h => ?_⟩
      injection h with h
      subst h
      refine ⟨.killed pid _ st ?_ hts, fun _ _ _ _ => (gone_binv hs).2⟩
      unfold wIfSignaled at h2
      have h2 := of_decide_eq_true h2
      omega
    · rw [if_neg h2]
      by_cases h3 : wIfStopped st = true
      · simp only [h3, Bool.not_true, Bool.false_eq_true, if_false, Bool.false_and]
        refine ⟨brel_set o pid o _ _ rfl rfl, fun ev h => ?_⟩
        injection h with h
        subst h
        refine ⟨.stopped pid _ st ?_ (wExitStatus_eq st), fun _ _ _ h => by cases h⟩
        unfold wIfStopped at h3
        exact of_decide_eq_true h3
      · have h3 : wIfStopped st = false := by simpa using h3
        simp only [h3, Bool.not_false, if_true]
        exact ⟨BRel.refl _ _ _, fun ev h => by cases h⟩

/-- The main lemma: the first answer of the kernel determines the event. -/
theorem bsdWaitPid_rel (o pid : Nat) (hp : pid ≠ 0) : ∀ (n : Nat) (b : Bool) (s : BsdSt), BInv o pid s.dbg →
    BRel o pid s.dbg (bsdWaitPid K n pid b s).2.dbg ∧
    ∀ ev, (bsdWaitPid K n pid b s).1 = .ok (some ev) → Told o (K s.dbg.log (bsdCall s.dbg o pid b)) ev ∧
      (∀ q x y, ev = .exit q x y → dictGet (bsdWaitPid K n pid b s).2.dbg.dict pid = none ∧ ((bsdWaitPid K n pid b s).2.dbg.heap o).running = false) := by
  intro n
  induction n with
  | zero => intro b s _; exact ⟨BRel.refl _ _ _, fun ev h => by cases h⟩
  | succ n ih =>
    intro b s hs
    unfold bsdWaitPid
    rcases waitpidRaw_cases (K := K) pid hp b s.dbg with ⟨hg, hr⟩ | ⟨q, hg, h2, hok, _, herr, _, _⟩
    · rw [hr]
      simp only
      refine ⟨waitExcept_rel o pid _ s.dbg hs, fun ev h => ?_⟩
      have : (waitExcept K pid (.ptrace none) s.dbg).1 = .error (.ptrace none) := by
        unfold waitExcept; rw [if_neg (by decide)]
      have h' : (waitExcept K pid (.ptrace none) s.dbg).1 = .ok (some ev) := h
      rw [this] at h'; cases h'
    · have hq : q = o := by
        rcases hs.reg with ⟨h, _⟩ | ⟨h, _⟩
        · rw [h] at hg; injection hg with hg; exact hg.symm
        · rw [h] at hg; cases hg
      subst hq
      cases hw : waitpidRaw K pid b s.dbg with
      | mk r d =>
      rw [hw] at h2 hok herr
      simp only at h2 hok herr
      subst h2
      have hl : BRel q pid s.dbg (logCall K (bsdCall s.dbg q pid b) s.dbg) := brel_log _ _ _ _
      have hi := hl.2 hs
      cases r with
      | error e =>
        simp only
        refine ⟨hl.trans (waitExcept_rel q pid e _ hi), fun ev h => ?_⟩
        have h' : (waitExcept K pid e (logCall K (bsdCall s.dbg q pid b) s.dbg)).1 = .ok (some ev) := h
        unfold onDbg
        generalize hd : logCall K (bsdCall s.dbg q pid b) s.dbg = d at hi h' ⊢
        unfold waitExcept at h' ⊢
        by_cases he : e = .os ECHILD
        · rw [if_pos he] at h' ⊢
          have hgd : dictGet d.dict pid = some q := by rw [← hd]; exact hg
          rw [hgd] at h' ⊢
          simp only at h' ⊢
          unfold processTerminated at h' ⊢
          rw [Py.run_bind_ok (a := Event.exit q none none) (u := gone q d) (by rw [Py.run_bind_ok (notRunning_run K q d)]; rfl)] at h' ⊢
          injection h' with h'
          injection h' with h'
          subst h'
          rw [herr e rfl he]
          exact ⟨.noChild, fun _ _ _ _ => (gone_binv hi).2⟩
        · rw [if_neg he] at h'; cases h'
      | ok r =>
        obtain ⟨v, st⟩ := r
        simp only
        obtain ⟨hk, hv⟩ := hok v st rfl
        by_cases h0 : (!b && decide (v = 0)) = true
        · rw [if_pos h0]
          exact ⟨hl, fun ev h => by cases h⟩
        · rw [if_neg h0]
          have hv : v = pid := by
            rcases hv with hv | ⟨hv, hb⟩
            · exact hv
            · exact absurd (by simp [hv, hb]) h0
          subst hv
          have hgd : dictGet (logCall K (bsdCall s.dbg q v b) s.dbg).dict v = some q := hg
          rw [hgd]
          simp only
          have hx : ∀ s : BsdSt, BInv q v s.dbg → BRel q v s.dbg (bsdWaitExit K (bsdWaitPid K n) q n s).2.dbg :=
            fun s hs => waitExit_rel (fun b s hs => (ih b s hs).1) n s hs
          obtain ⟨h3, h4⟩ := bsdStatus_rel (K := K) hx st { s with dbg := logCall K (bsdCall s.dbg q v b) s.dbg } hi
          cases hb : bsdStatus K (bsdWaitExit K (bsdWaitPid K n) q n) q st { s with dbg := logCall K (bsdCall s.dbg q v b) s.dbg } with
          | mk r u =>
          rw [hb] at h3 h4
          cases r with
          | error e => rw [Py.run_bind_error hb]; exact ⟨hl.trans h3, fun ev h => by cases h⟩
          | ok ev =>
            rw [Py.run_bind_ok hb]
            refine ⟨hl.trans h3, fun ev' h => ?_⟩
            injection h with h
            injection h with h
            subst h
            rw [hk]
            exact h4 ev rfl

/-- **C117** Waiting for a process reports what the first answer of the kernel says, whatever the second one is. -/
theorem C117_event (K : Kern) (n o pid : Nat) (hp : pid ≠ 0) (b : Bool) (s : BsdSt) (hs : BInv o pid s.dbg) (ev : Event)
    (h : (bsdWaitPid K n pid b s).1 = .ok (some ev)) :
    Told o (K s.dbg.log (.waitpid (some pid) (!b) (s.dbg.heap o).isThread)) ev := ((bsdWaitPid_rel o pid hp n b s hs).2 ev h).1

/-- **C117** After the end of a process has been reported the debugger knows it no more. -/
theorem C117_gone (K : Kern) (n o pid : Nat) (hp : pid ≠ 0) (b : Bool) (s : BsdSt) (hs : BInv o pid s.dbg) (q : Nat) (x y : Option Nat)
    (h : (bsdWaitPid K n pid b s).1 = .ok (some (.exit q x y))) :
    q = o ∧ (∀ i, (pid, i) ∉ (bsdWaitPid K n pid b s).2.dbg.dict) ∧ ((bsdWaitPid K n pid b s).2.dbg.heap o).running = false ∧
      ((bsdWaitPid K n pid b s).2.dbg.heap o).isAttached = false := by
  obtain ⟨hr, he⟩ := bsdWaitPid_rel (K := K) o pid hp n b s hs
  obtain ⟨ht, hg⟩ := he _ h
  obtain ⟨hd, hrun⟩ := hg _ _ _ rfl
  refine ⟨by (generalize K s.dbg.log (bsdCall s.dbg o pid b) = r at ht; cases ht <;> rfl), fun i hi => ?_, hrun, ?_⟩
  · unfold dictGet at hd
    rw [Option.map_eq_none_iff, List.find?_eq_none] at hd
    exact hd _ hi (by simp)
  · rcases (hr.2 hs).reg with ⟨h, _⟩ | ⟨_, h⟩
    · rw [hd] at h; cases h
    · exact h

/-- A wait that is told that the process is over, when it has been waited for before, reports the end and asks once. -/
theorem bsdWaitPid_over (o pid : Nat) (hp : pid ≠ 0) (n : Nat) (b : Bool) (s : BsdSt) (hg : dictGet s.dbg.dict pid = some o)
    (hx : s.exited o = true) (h : Over pid (K s.dbg.log (bsdCall s.dbg o pid b))) :
    ∃ x y, bsdWaitPid K (n + 1) pid b s = (.ok (some (.exit o x y)), { s with dbg := gone o (logCall K (bsdCall s.dbg o pid b) s.dbg) }) := by
  rcases waitpidRaw_cases (K := K) pid hp b s.dbg with ⟨hn, _⟩ | ⟨q, hq, h2, _, hok, _, herr, _⟩
  · rw [hn] at hg; cases hg
  · rw [hg] at hq
    injection hq with hq
    subst hq
    unfold bsdWaitPid
    cases hw : waitpidRaw K pid b s.dbg with
    | mk r d =>
    rw [hw] at h2 hok herr
    simp only at h2 hok herr
    subst h2
    generalize hd : logCall K (bsdCall s.dbg o pid b) s.dbg = d
    have hgd : dictGet d.dict pid = some o := by rw [← hd]; exact hg
    cases hr : K s.dbg.log (bsdCall s.dbg o pid b) with
    | interrupt => rw [hr] at h; exact absurd h (fun h => h)
    | err e =>
      rw [hr] at h
      have he : e = ECHILD := h
      rw [he] at hr
      rw [herr hr]
      refine ⟨none, none, ?_⟩
      simp only
      unfold onDbg waitExcept
      rw [if_pos rfl, hgd]
      simp only
      unfold processTerminated
      rw [Py.run_bind_ok (a := Event.exit o none none) (u := gone o d) (by rw [Py.run_bind_ok (notRunning_run K o d)]; rfl)]
      rfl
    | ok v st =>
      rw [hr] at h
      obtain ⟨rfl, hst⟩ := h
      rw [hok st hr]
      simp only
      rw [if_neg (by simp [hp]), hgd]
      simp only
      have hts := wTermSig_eq st
      unfold bsdStatus classify
      by_cases h1 : wIfExited st = true
      · rw [if_pos h1]
        simp only
        refine ⟨none, some (wExitStatus st), ?_⟩
        unfold bsdExited
        rw [Py.run_bind_ok (a := Event.exit o none (some (wExitStatus st))) (u := { s with dbg := gone o d })]
        · rfl
        · simp only [hx, if_true]
          show Py.bind (onDbg (notRunning K o)) _ _ = _
          rw [Py.run_bind_ok (onDbg_run (notRunning_run K o d))]
          rfl
      · rw [if_neg h1]
        have h2 : wIfSignaled st = true := by
          unfold wIfExited at h1
          unfold wIfSignaled
          have h1 : ¬ wTermSig st = 0 := fun h => h1 (decide_eq_true h)
          exact decide_eq_true (by omega)
        rw [if_pos h2]
        simp only
        refine ⟨some (wTermSig st), none, ?_⟩
        rw [Py.run_bind_ok (a := Event.exit o (some (wTermSig st)) none) (u := { s with dbg := gone o d })]
        · rfl
        · rw [Py.run_bind_ok (onDbg_run (notRunning_run K o d))]
          rfl

/-- **C117 (partial)** A process that exits is waited for exactly twice, the second time blocking, and its code is reported, when the kernel
answers the second wait with an end or with `ECHILD`. -/
theorem C117_twice_partial (K : Kern) (n o pid code : Nat) (hp : pid ≠ 0) (hc : code < 256) (b : Bool) (s : BsdSt)
    (hs : BInv o pid s.dbg) (hg : dictGet s.dbg.dict pid = some o) (hx : s.exited o = false)
    (h1 : K s.dbg.log (.waitpid (some pid) (!b) (s.dbg.heap o).isThread) = .ok pid (stExit code))
    (h2 : Over pid (K (s.dbg.log ++ [⟨.waitpid (some pid) (!b) (s.dbg.heap o).isThread, .ok pid (stExit code), s.dbg.dict⟩])
      (.waitpid (some pid) false (s.dbg.heap o).isThread))) :
    (bsdWaitPid K (n + 2) pid b s).1 = .ok (some (.exit o none (some code))) ∧
    (bsdWaitPid K (n + 2) pid b s).2.dbg.log.map (fun e => e.call) = s.dbg.log.map (fun e => e.call) ++
      [.waitpid (some pid) (!b) (s.dbg.heap o).isThread, .waitpid (some pid) false (s.dbg.heap o).isThread] := by
  have hclass := C22_exit false code hc
  rcases waitpidRaw_cases (K := K) pid hp b s.dbg with ⟨hn, _⟩ | ⟨q, hq, hw2, _, hok, _, _, _⟩
  · rw [hn] at hg; cases hg
  · rw [hg] at hq
    injection hq with hq
    subst hq
    obtain ⟨d, hd⟩ : ∃ d, d = logCall K (bsdCall s.dbg o pid b) s.dbg := ⟨_, rfl⟩
    have hw : waitpidRaw K pid b s.dbg = (.ok (pid, stExit code), d) := by
      rw [hd, ← hw2]
      exact Prod.ext (hok _ h1) rfl
    have hgd : dictGet d.dict pid = some o := by rw [hd]; exact hg
    have hlog : d.log = s.dbg.log ++ [⟨.waitpid (some pid) (!b) (s.dbg.heap o).isThread, .ok pid (stExit code), s.dbg.dict⟩] := by
      rw [hd, ← h1]; rfl
    have hheap : d.heap o = s.dbg.heap o := by rw [hd]; rfl
    have hsec : bsdCall d o pid true = .waitpid (some pid) false (s.dbg.heap o).isThread := by unfold bsdCall; rw [hheap]; rfl
    obtain ⟨x, y, hov⟩ := bsdWaitPid_over (K := K) o pid hp n true { dbg := d, exited := fun i => if i = o then true else s.exited i } hgd
      (by simp) (by simp only; rw [hsec, hlog]; exact h2)
    have hwx : bsdWaitExit K (bsdWaitPid K (n + 1)) o (n + 1) { dbg := d, exited := fun i => if i = o then true else s.exited i } =
        (.ok (), { dbg := gone o (logCall K (bsdCall d o pid true) d), exited := fun i => if i = o then true else s.exited i }) := by
      unfold bsdWaitExit
      simp only
      rw [hheap, hs.num, Py.run_bind_ok hov]
      rfl
    have hst : bsdStatus K (bsdWaitExit K (bsdWaitPid K (n + 1)) o (n + 1)) o (stExit code) { s with dbg := d } =
        (.ok (.exit o none (some code)), { dbg := gone o (gone o (logCall K (bsdCall d o pid true) d)), exited := fun i => if i = o then true else s.exited i }) := by
      unfold bsdStatus
      rw [hclass]
      simp only
      unfold bsdExited
      simp only [hx, Bool.false_eq_true, if_false]
      rw [Py.run_bind_ok (m := fun s : BsdSt => bsdWaitExit K (bsdWaitPid K (n + 1)) o (n + 1) { s with exited := fun i => if i = o then true else s.exited i }) hwx,
        Py.run_bind_ok (onDbg_run (notRunning_run K o _))]
      rfl
    have hfin : bsdWaitPid K (n + 2) pid b s = (.ok (some (.exit o none (some code))),
        { dbg := gone o (gone o (logCall K (bsdCall d o pid true) d)), exited := fun i => if i = o then true else s.exited i }) := by
      unfold bsdWaitPid
      rw [hw]
      simp only
      rw [if_neg (by simp [hp]), hgd]
      simp only
      rw [Py.run_bind_ok hst]
      rfl
    rw [hfin]
    refine ⟨rfl, ?_⟩
    simp only [gone_log]
    show (d.log ++ [_]).map _ = _
    rw [hlog, hsec]
    simp

/-! ### Kernels -/

/-- A debugger that watches process 7. -/
def bsdOne : BsdSt :=
  { dbg := { heap := fun i => if i = 0 then { pid := 7, running := true, isAttached := true } else {}, next := 1, dict := [(7, 0)], list := [0],
             options := 0, traceFork := false, traceExec := false, traceClone := false, useSysgood := false, log := [] },
    exited := fun _ => false }

theorem bsdOne_inv : BInv 0 7 bsdOne.dbg := ⟨rfl, Or.inl ⟨rfl, rfl⟩⟩

/-- Process 7 exits with code 3; then there is no such child. -/
def bsdExit3 : Kern := fun log c =>
  match c with
  | .waitpid (some _) _ _ => if log.isEmpty then .ok 7 (stExit 3) else .err 10
  | _ => .ok 0 0

/-- The same, but the first wait after the exit is interrupted by Ctrl-C. -/
def bsdCtrlC : Kern := fun log c =>
  match c with
  | .waitpid (some _) _ _ => if log.isEmpty then .ok 7 (stExit 3) else if log.length = 1 then .interrupt else .err 10
  | _ => .ok 0 0

example := C117_event bsdExit3 5 0 7 (by decide) true bsdOne bsdOne_inv (.exit 0 none (some 3)) (by decide)

example := C117_gone bsdExit3 5 0 7 (by decide) true bsdOne bsdOne_inv 0 none (some 3) (by decide)

example : BInv 0 7 bsdOne.dbg ∧ (bsdWaitPid bsdExit3 5 7 true bsdOne).1 = .ok (some (.exit 0 none (some 3))) ∧
    bsdOne.exited 0 = false ∧ bsdExit3 bsdOne.dbg.log (.waitpid (some 7) false false) = .ok 7 (stExit 3) ∧
    Over 7 (bsdExit3 (bsdOne.dbg.log ++ [⟨.waitpid (some 7) false false, .ok 7 (stExit 3), bsdOne.dbg.dict⟩]) (.waitpid (some 7) false false)) :=
  ⟨bsdOne_inv, by decide, rfl, rfl, rfl⟩

/-- **C117 (refuted)** A wait that must not block blocks when the process has exited: its second wait is a blocking one. -/
theorem C117_poll_refuted : ∃ (K : Kern) (s : BsdSt), BInv 0 7 s.dbg ∧ ∃ e ∈ (bsdWaitPid K 5 7 false s).2.dbg.log, e.call = .waitpid (some 7) false false :=
  ⟨bsdExit3, bsdOne, bsdOne_inv, by decide⟩

/-- **C117 (refuted)** The exit code is lost when the second wait is interrupted: the process is then reported as gone without a code. -/
theorem C117_lost_refuted : ∃ (K : Kern) (s : BsdSt), BInv 0 7 s.dbg ∧ K s.dbg.log (.waitpid (some 7) false false) = .ok 7 (stExit 3) ∧
    (bsdWaitPid K 5 7 true s).1 = .error .interrupt ∧
    (bsdWaitPid K 5 7 true (bsdWaitPid K 5 7 true s).2).1 = .ok (some (.exit 0 none none)) :=
  ⟨bsdCtrlC, bsdOne, bsdOne_inv, rfl, by decide, by decide⟩

end PT
