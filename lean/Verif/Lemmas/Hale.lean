import Verif.Lemmas.GdbSpares

/-! Processes that are registered are attached and running, if the kernel tells first stops by signals. -/

namespace PT
open Spec

variable {α β : Type} {K : Kern} {N : Nat → Prop} {s t : DSt}

structure Hale (s : DSt) : Prop where
  well : ∀ o ∈ s.list, o < s.next ∧ (s.heap o).isAttached = true ∧ (s.heap o).running = true
  reg : ∀ p o, (p, o) ∈ s.dict → o ∈ s.list ∧ (s.heap o).pid = p
  nodup : s.list.Nodup
  old : ∀ x ∈ s.log, ∀ q o, (q, o) ∈ x.dict → o < s.next

theorem plain_before {a b : List Entry} (h : PlainLog (a ++ b)) : PlainLog a :=
  ⟨fun e he => h.1 e (List.mem_append_left _ he), fun l e m hx => h.2 l e (m ++ b) (by rw [hx]; simp)⟩

theorem After.plain (h : After s t) (ht : PlainLog t.log) : PlainLog s.log := by
  obtain ⟨g, hg⟩ := h.later.log
  rw [hg] at ht
  exact plain_before ht

theorem Mourned.weaken {M : Nat → Prop} (h : Mourned N s) (hM : ∀ n, M n → N n) : Mourned M s :=
  ⟨h.dead, fun b e a hx o p n hc hn => h.log b e a hx o p n hc (hM n hn), h.own, h.uniq, h.det⟩

/-- What is known of a state: no signal but SIGINT was sent in vain, and none at all with such a kernel. -/
structure Fit (s : DSt) : Prop where
  most : Mourned (fun n => n ≠ 2) s
  all : PlainLog s.log → Mourned (fun _ => True) s ∧ Hale s

structure Out (s : DSt) (x : Except Exc α × DSt) : Prop where
  most : Mourned (fun n => n ≠ 2) x.2
  after : After s x.2
  all : PlainLog x.2.log → Mourned (fun _ => True) x.2 ∧ Hale x.2

/-- Code that sends no signal. -/
theorem Out.of {x : Except Exc α × DSt} (h : Fit s) (hm : ∀ N, Mourned N s → Mourn N s x) (hh : Mourned (fun _ => False) s → Hale s → PlainLog x.2.log → Hale x.2) : Out s x :=
  have h1 := hm _ h.most
  ⟨h1.inv, h1.after, fun hp =>
    have h2 := h.all (h1.after.plain hp)
    ⟨(hm _ h2.1).inv, hh (h2.1.weaken fun _ hx => hx.elim) h2.2 hp⟩⟩

theorem Out.fit {x : Except Exc α × DSt} (h : Out s x) : Fit x.2 := ⟨h.most, h.all⟩

theorem Out.bind {m : Py DSt β} {f : β → Py DSt α} (h : Out s (m s)) (hf : ∀ b t, Fit t → After s t → Out t (f b t)) : Out s (Py.bind m f s) := by
  unfold Py.bind
  rcases hm : m s with ⟨r, t⟩
  rw [hm] at h
  cases r with
  | ok b =>
    have h2 := hf b t h.fit h.after
    exact ⟨h2.most, h.after.trans h2.after, h2.all⟩
  | error e => exact ⟨h.most, h.after, h.all⟩

theorem Out.bindEq {m : Py DSt β} {f : β → Py DSt α} (h : Out s (m s)) (hf : ∀ b t, m s = (.ok b, t) → Fit t → Out t (f b t)) : Out s (Py.bind m f s) := by
  unfold Py.bind
  rcases hm : m s with ⟨r, t⟩
  rw [hm] at h
  cases r with
  | ok b =>
    have h2 := hf b t hm h.fit
    exact ⟨h2.most, h.after.trans h2.after, h2.all⟩
  | error e => exact ⟨h.most, h.after, h.all⟩

theorem Out.base {x : Except Exc α × DSt} (h : Out t x) (hn : After s t) : Out s x := ⟨h.most, hn.trans h.after, h.all⟩

theorem out_same (h : Fit s) (r : Except Exc α) : Out s (r, s) := .of h (fun _ hn => mourn_same hn r) fun _ hh _ => hh
theorem out_pure (h : Fit s) (a : α) : Out s (Py.pure a s) := out_same h _
theorem out_raise (h : Fit s) (e : Exc) : Out s (Py.raise e s : Except Exc α × DSt) := out_same h _

/-! ### steps -/

theorem Hale.logCall (h : Hale s) (c : Call) : Hale (logCall K c s) := by
  refine ⟨h.well, h.reg, h.nodup, fun x hx q o hm => ?_⟩
  rcases List.mem_append.1 hx with hx | hx
  · exact h.old x hx q o hm
  · rw [List.mem_singleton.1 hx] at hm
    exact (h.well o (h.reg q o hm).1).1

theorem Hale.setProc (h : Hale s) (o : Nat) (q : Proc) (hp : q.pid = (s.heap o).pid) (hq : o ∈ s.list → q.isAttached = true ∧ q.running = true) : Hale (setProc s o q) := by
  refine ⟨fun i hi => ⟨(h.well i hi).1, ?_⟩, fun p i hm => ⟨(h.reg p i hm).1, ?_⟩, h.nodup, h.old⟩
  · rw [setProc_heap]
    split
    · rename_i e
      exact hq (e ▸ hi)
    · exact (h.well i hi).2
  · rw [setProc_heap]
    split
    · rename_i e
      rw [hp, ← e]
      exact (h.reg p i hm).2
    · exact (h.reg p i hm).2

/-- The end of a registered process. -/
theorem Hale.end (h : Hale s) {o : Nat} (ho : o ∈ s.list) : ∃ t, notRunning K o s = (.ok (), t) ∧ Hale t ∧ o ∉ t.list := by
  have hw := h.well o ho
  rcases detach_cases (K := K) o (PT.setProc s o { s.heap o with running := false }) with ⟨hx, _⟩ | ⟨_, _, e⟩ | ⟨_, hx, _⟩ | ⟨_, hx, _⟩
  · rw [setProc_heap, if_pos rfl] at hx
    exact absurd (hw.2.1.symm.trans hx) (by decide)
  · refine ⟨_, e, ⟨fun i hi => ?_, fun p i hm => ?_, h.nodup.erase o, h.old⟩, h.nodup.not_mem_erase⟩
    · have hi : i ∈ s.list.erase o := hi
      have hne : i ≠ o := fun hx => h.nodup.not_mem_erase (hx ▸ hi)
      have hh := h.well i (List.mem_of_mem_erase hi)
      refine ⟨hh.1, ?_⟩
      show ((PT.setProc (PT.setProc s o _) o _).heap i).isAttached = true ∧ ((PT.setProc (PT.setProc s o _) o _).heap i).running = true
      rw [setProc_heap, if_neg hne, setProc_heap, if_neg hne]
      exact hh.2
    · have hm := (mem_dictDel _).1 hm
      rw [setProc_heap, if_pos rfl, setProc_heap, if_pos rfl] at hm
      have hh := h.reg p i hm.1
      have hne : i ≠ o := fun hx => hm.2 (by rw [← hh.2, hx])
      refine ⟨(List.mem_erase_of_ne hne).2 hh.1, ?_⟩
      show ((PT.setProc (PT.setProc s o _) o _).heap i).pid = p
      rw [setProc_heap, if_neg hne, setProc_heap, if_neg hne]
      exact hh.2
  · rw [setProc_heap, if_pos rfl] at hx
    cases hx
  · rw [setProc_heap, if_pos rfl] at hx
    cases hx

theorem Hale.add (h : Hale s) (pid : Nat) (a : Bool) (parent : Option Nat) (th : Bool) :
    Hale { PT.setProc s s.next (freshProc pid a parent th) with
      next := s.next + 1, dict := dictSet s.dict pid s.next, list := s.list ++ [s.next] } := by
  have hne : ∀ i ∈ s.list, i ≠ s.next := fun i hi => Nat.ne_of_lt (h.well i hi).1
  refine ⟨fun i hi => ?_, fun p i hm => ?_, ?_, fun x hx q o hm => Nat.lt_succ_of_lt (h.old x hx q o hm)⟩
  · show i < s.next + 1 ∧ ((PT.setProc s s.next (freshProc pid a parent th)).heap i).isAttached = true ∧ ((PT.setProc s s.next (freshProc pid a parent th)).heap i).running = true
    rw [setProc_heap]
    have hi : i ∈ s.list ++ [s.next] := hi
    rcases List.mem_append.1 hi with hi | hi
    · rw [if_neg (hne i hi)]
      exact ⟨Nat.lt_succ_of_lt (h.well i hi).1, (h.well i hi).2⟩
    · rw [List.mem_singleton.1 hi, if_pos rfl]
      exact ⟨Nat.lt_succ_self _, rfl, rfl⟩
  · show i ∈ s.list ++ [s.next] ∧ ((PT.setProc s s.next (freshProc pid a parent th)).heap i).pid = p
    have hm : (p, i) ∈ dictSet s.dict pid s.next := hm
    rw [setProc_heap]
    rcases (mem_dictSet _).1 hm with he | ⟨_, hm⟩
    · rw [(Prod.mk.inj he).2, (Prod.mk.inj he).1, if_pos rfl]
      exact ⟨List.mem_append_right _ List.mem_cons_self, rfl⟩
    · have hh := h.reg p i hm
      rw [if_neg (hne i hh.1)]
      exact ⟨List.mem_append_left _ hh.1, hh.2⟩
  · refine List.nodup_append.2 ⟨h.nodup, by simp, fun i hi j hj => ?_⟩
    rw [List.mem_singleton.1 hj]
    exact hne i hi

theorem out_ptrace (h : Fit s) (c : Call) (hw : ∀ w nh wl, c ≠ .waitpid w nh wl) (hk : ∀ o p n, c ≠ .kill o p n)
    (hd : ∀ o p, c ≠ .detach o p := by intro _ _ hx; cases hx) : Out s (ptraceCall K c s) :=
  .of h (fun _ hn => mourn_ptrace hn c hw hk hd) fun _ hh _ => (by rw [ptraceCall_run]; exact hh.logCall c)

theorem out_sleep (h : Fit s) : Out s (osCall K .sleep s) := .of h (fun _ hn => mourn_sleep hn) fun _ hh _ => (by rw [osCall_run]; exact hh.logCall _)

theorem out_upd (h : Fit s) (o : Nat) (f : Proc → Proc) (hp : (f (s.heap o)).pid = (s.heap o).pid) (hw : (f (s.heap o)).wasAttached = (s.heap o).wasAttached)
    (hq : (f (s.heap o)).running = (s.heap o).running) (ha : (f (s.heap o)).isAttached = (s.heap o).isAttached) : Out s (updProc o f s) :=
  .of h (fun _ hn => mourn_upd hn o f hp hw fun hx => hq.trans hx) fun _ hh _ => (hh.setProc o _ hp fun ho => by rw [hq, ha]; exact (hh.well o ho).2)

theorem out_cont (h : Fit s) (o n : Nat) : Out s (procCont K o n s) :=
  Out.bind (out_ptrace h _ (fun _ _ _ hx => nomatch hx) (fun _ _ _ hx => nomatch hx)) fun _ _ ht _ => out_upd ht o _ rfl rfl rfl rfl

theorem out_syscall (h : Fit s) (o n : Nat) : Out s (procSyscall K o n s) :=
  Out.bind (out_ptrace h _ (fun _ _ _ hx => nomatch hx) (fun _ _ _ hx => nomatch hx)) fun _ _ ht _ => out_upd ht o _ rfl rfl rfl rfl

theorem out_singleStep (h : Fit s) (o : Nat) : Out s (procSingleStep K o s) :=
  Out.bind (out_ptrace h _ (fun _ _ _ hx => nomatch hx) (fun _ _ _ hx => nomatch hx)) fun _ _ ht _ => out_pure ht ()

theorem out_setoptions (h : Fit s) (o n : Nat) : Out s (procSetoptions K o n s) :=
  Out.bind (out_ptrace h _ (fun _ _ _ hx => nomatch hx) (fun _ _ _ hx => nomatch hx)) fun _ _ ht _ => out_pure ht ()

theorem out_display (h : Fit s) (o : Nat) : Out s (eventDisplay K o s) :=
  Out.bind (out_ptrace h _ (fun _ _ _ hx => nomatch hx) (fun _ _ _ hx => nomatch hx)) fun _ _ ht _ => out_pure ht ()

theorem out_terminated (h : Fit s) {p o : Nat} (ho : (p, o) ∈ s.dict) : Out s (processTerminated K o s) :=
  .of h (fun _ hn => mourn_terminated hn o) fun _ hh _ => (by
    obtain ⟨t, ht, h1, _⟩ := hh.end (K := K) (hh.reg _ _ ho).1
    unfold processTerminated Py.bind
    rw [ht]
    exact h1)

/-! ### waits -/

/-- The ways in which a wait for a registered process ends. -/
inductive WaitedFor (b : Bool) (o : Nat) : Except Exc (Option Event) × DSt → Prop where
  | nothing (t : DSt) (hb : b = false) : WaitedFor b o (.ok none, t)
  | signal (t : DSt) (n : Nat) : WaitedFor b o (.ok (some (.signal o n)), t)
  | exit (t : DSt) (c d : Option Nat) (ho : o ∉ t.list) : WaitedFor b o (.ok (some (.exit o c d)), t)
  | interrupt (t : DSt) : WaitedFor b o (.error .interrupt, t)

/-- The request of a wait for a process. -/
abbrev askFor (s : DSt) (p o : Nat) (b : Bool) : Call := .waitpid (some p) (!b) (s.heap o).isThread

/-- A wait for a registered process; `Q` is proved for its result if it is proved for the result of an event. -/
theorem wait_hale (n : Nat) {p o : Nat} (hp : p ≠ 0) (b : Bool) (ho : dictGet s.dict p = some o) (h : Hale s) (Q : Except Exc (Option Event) × DSt → Prop)
    (hQ : ∀ x, Hale x.2 → WaitedFor b o x → Q x)
    (hE : ∀ c st, K s.log (askFor s p o b) = .ok p st → waitMeaning st = .event c →
      PlainLog (Py.bind (ptraceEvent K (waitEventPid K n) o c) (fun e => Py.pure (some e)) (logCall K (askFor s p o b) s)).2.log →
      Q (Py.bind (ptraceEvent K (waitEventPid K n) o c) (fun e => Py.pure (some e)) (logCall K (askFor s p o b) s)))
    (hl : PlainLog (waitEventPid K (n + 1) p b s).2.log) : Q (waitEventPid K (n + 1) p b s) := by
  have hreg := h.reg p o (dictGet_some ho)
  revert hl
  unfold waitEventPid waitpidRaw
  simp only [if_pos hp, ho]
  unfold Py.bind
  rw [osCall_run]
  have hlast : ∀ {l : List Entry}, (∃ g, l = (s.log ++ [(⟨.waitpid (some p) (!b) (s.heap o).isThread, K s.log (.waitpid (some p) (!b) (s.heap o).isThread), s.dict⟩ : Entry)]) ++ g) →
      PlainLog l → TruthfulEntry ⟨.waitpid (some p) (!b) (s.heap o).isThread, K s.log (.waitpid (some p) (!b) (s.heap o).isThread), s.dict⟩ := fun ⟨g, hg⟩ hl => by
    rw [hg] at hl
    exact hl.1 _ (by simp)
  have hend : ∃ t, notRunning K o (logCall K (.waitpid (some p) (!b) (s.heap o).isThread) s) = (.ok (), t) ∧ Hale t ∧ o ∉ t.list := (h.logCall _).end (s := logCall K _ s) hreg.1
  cases hr : K s.log (.waitpid (some p) (!b) (s.heap o).isThread) with
  | interrupt =>
    simp only [osRes]
    unfold waitExcept
    rw [if_neg (by intro hx; cases hx)]
    exact fun _ => hQ _ (h.logCall _) (.interrupt _)
  | err e =>
    simp only [osRes]
    unfold waitExcept
    split
    · have hd : dictGet (logCall K (.waitpid (some p) (!b) (s.heap o).isThread) s).dict p = some o := ho
      rw [hd]
      obtain ⟨t, e1, e2, e3⟩ := hend
      simp only [processTerminated, Py.bind, e1, Py.pure]
      exact fun _ => hQ _ (e2) (.exit _ _ _ e3)
    · rename_i he
      intro hl
      have hx := (hlast ⟨[], by simp [logCall]⟩ hl)
      rw [hr] at hx
      exact absurd (congrArg Exc.os hx) he
  | ok v st =>
    simp only [osRes]
    unfold checkPid
    split
    · rename_i r s' e
      split at e
      · cases e
      · rename_i hc
        injection e with e1 e2
        injection e1 with e1
        subst e1 e2
        unfold waitReply
        split
        · rename_i hz
          have hb : b = false := by
            simp at hz
            exact hz.1
          exact fun _ => hQ _ (h.logCall _) (.nothing _ hb)
        · rename_i hz
          have hv : v = p := by
            by_cases hv : v = p
            · exact hv
            · simp [hp, hv] at hc
              simp [hc] at hz
          subst hv
          have hd : dictGet (logCall K (.waitpid (some v) (!b) (s.heap o).isThread) s).dict v = some o := ho
          rw [hd]
          dsimp only
          unfold processStatus
          rw [classify_kind]
          obtain ⟨t, e1, e2, e3⟩ := hend
          cases hm' : waitMeaning st with
          | exited c =>
            simp only [Py.bind, e1, Py.pure]
            exact fun _ => hQ _ (e2) (.exit _ _ _ e3)
          | killed c =>
            simp only [Py.bind, e1, Py.pure]
            exact fun _ => hQ _ (e2) (.exit _ _ _ e3)
          | signal c =>
            exact fun _ => hQ _ ((h.logCall (K := K) (.waitpid (some v) (!b) (s.heap o).isThread)).setProc o _ rfl fun hx => (h.well o hx).2) (.signal _ _)
          | unknown =>
            intro hl
            have hx := (hlast ⟨[], by simp [logCall, Py.bind, Py.raise]⟩ hl)
            rw [hr] at hx
            rcases hx with hx | hx
            · exact absurd hm' hx.2
            · exact absurd hx.2 hp
          | event c =>
            exact hE c st hr hm'
    · rename_i r s' e
      split at e
      · rename_i hx
        injection e with e1 e2
        injection e1 with e1
        subst e1 e2
        unfold waitExcept
        rw [if_neg (by intro hx; cases hx)]
        intro hl
        have hy := (hlast ⟨[], by simp [logCall]⟩ hl)
        rw [hr] at hy
        simp at hx
        rcases hy with hy | hy
        · exact absurd hy.1 hx.2
        · cases b with
          | true => cases hy.1
          | false =>
            have := hy.2
            subst this
            simp at hx
      · cases e

/-- The entry of a wait in a later log. -/
theorem event_first {p o : Nat} {b : Bool} {st c : Int} {l : List Entry} (hg : ∃ g, l = (logCall K (askFor s p o b) s).log ++ g) (hl : PlainLog l) (hp : p ≠ 0)
    (hr : K s.log (askFor s p o b) = .ok p st) (hc : waitMeaning st = .event c) : ∃ i, (p, i) ∈ s.dict ∧ ∃ x ∈ s.log, StopTold i x := by
  obtain ⟨g, hg⟩ := hg
  exact hl.2 s.log ⟨askFor s p o b, K s.log (askFor s p o b), s.dict⟩ g (by rw [hg]; simp [logCall]) _ _ _ p st c rfl hr hp hc

/-- An event is not an end. -/
theorem event_mourned {p o : Nat} {b : Bool} {st c : Int} (h : Mourned N s) (hr : K s.log (askFor s p o b) = .ok p st) (hc : waitMeaning st = .event c) :
    Mourned N (logCall K (askFor s p o b) s) := h.call _ (fun q _ hq => by
  rcases hq.2 with ⟨_, _, _, _, _, _, hx, hov⟩ | ⟨_, _, _, hx⟩
  · have hx := hr.symm.trans hx
    injection hx with _ hx
    subst hx
    rcases hov with ⟨_, hov⟩ | ⟨_, hov⟩ <;> (rw [hc] at hov; cases hov)
  · have hx := hr.symm.trans hx
    cases hx) fun _ _ _ hx => nomatch hx

/-- The first wait for a process. -/
theorem wait_first (n : Nat) {p o : Nat} (hp : p ≠ 0) (b : Bool) (ho : dictGet s.dict p = some o) (h : Hale s) (hm : Mourned (fun _ => False) s)
    (hnew : ∀ x ∈ s.log, ∀ q, (q, o) ∉ x.dict) (hl : PlainLog (waitEventPid K (n + 1) p b s).2.log) :
    Hale (waitEventPid K (n + 1) p b s).2 ∧ WaitedFor b o (waitEventPid K (n + 1) p b s) := by
  refine wait_hale n hp b ho h (fun x => Hale x.2 ∧ WaitedFor b o x) (fun x h1 h2 => ⟨h1, h2⟩) (fun c st hr hc hl => ?_) hl
  have ha := (Mourn.bind (mourn_ptraceEvent (K := K) (mourn_waitEventPid (K := K) n) (event_mourned hm hr hc) o c) fun ev u hu _ => mourn_pure hu (some ev)).after.later.log
  obtain ⟨i, hi, x, hx, hs⟩ := event_first ha hl hp hr hc
  rw [hm.uniq p i o hi (dictGet_some ho)] at hs
  obtain ⟨_, _, _, q, _, _, _, _, hq, _⟩ := hs
  exact absurd hq (hnew x hx q)

theorem wait_any_log (n : Nat) (b : Bool) (s : DSt) :
    ∃ g, (waitEventPid K (n + 1) 0 b s).2.log = (s.log ++ [(⟨.waitpid none (!b) false, K s.log (.waitpid none (!b) false), s.dict⟩ : Entry)]) ++ g := by
  have hw : ∀ (s : DSt) (a : Act), waitActs (Rules.plain K fun _ _ => True).Z a → (Rules.plain K fun _ _ => True).P s a := fun _ _ _ => trivial
  have hW : ∀ p b, p ≠ 0 ∨ (Rules.plain K fun _ _ => True).Z → Sat (Rules.plain K fun _ _ => True) (waitEventPid K n p b) := fun p b _ => waitEventPid_sat hw n p b (.inr trivial)
  have key : Steps K (fun _ _ => True) (logCall K (.waitpid none (!b) false) s) (waitEventPid K (n + 1) 0 b s).2 := by
    unfold waitEventPid waitpidRaw
    rw [if_neg (fun hx => hx rfl)]
    unfold Py.bind
    rw [osCall_run]
    cases osRes (K s.log (.waitpid none (!b) false)) with
    | error e => exact waitExcept_sat (S := Rules.plain K fun _ _ => True) hw 0 e _ trivial
    | ok r =>
      dsimp only
      unfold checkPid
      rw [if_neg (by simp)]
      exact waitReply_sat (S := Rules.plain K fun _ _ => True) hw hW (hW 0 b (.inr trivial)) b r _ trivial
  exact key.old.log

/-- What is left when `addProcess` fails: nothing is detached. -/
theorem unattach_run (o : Nat) (e : Exc) (t : DSt) :
    Py.bind (updProc o fun p => { p with isAttached := false }) (fun _ => Py.bind (detach K o) fun _ => (Py.raise e : Py DSt Unit)) t =
      (.error e, setProc t o { t.heap o with isAttached := false }) := by
  have h2 : detach K o (setProc t o { t.heap o with isAttached := false }) = (.ok (), setProc t o { t.heap o with isAttached := false }) := by
    rcases detach_cases (K := K) o (setProc t o { t.heap o with isAttached := false }) with ⟨_, e⟩ | ⟨hx, _⟩ | ⟨hx, _⟩ | ⟨hx, _⟩
    · exact e
    all_goals
      rw [setProc_heap, if_pos rfl] at hx
      cases hx
  unfold Py.bind updProc
  dsimp only
  rw [h2]
  rfl

theorem out_filterEvent (h : Fit s) (signals : List Nat) (e : Option Event) : Out s (filterEvent signals e s) := by
  unfold filterEvent
  split
  · split
    · exact out_pure h _
    · exact out_raise h _
  · exact out_raise h _
  · exact out_raise h _

theorem out_newProc (h : Fit s) (pid : Nat) (a : Bool) (parent : Option Nat) (th : Bool) :
    Out s (Py.bind (newProc K pid a parent th) (fun o => Py.bind (register pid o) fun _ => Py.pure o) s) := by
  refine .of h (fun _ hn => mourn_newProc hn pid a parent th) fun _ hh _ => ?_
  cases a with
  | true => exact hh.add pid true parent th
  | false =>
    have hrun := ptraceCall_run (K := K) (.attach s.next pid) s
    simp only [Py.bind, newProc, hrun, Bool.false_eq_true, if_false]
    cases hr : K s.log (.attach s.next pid) with
    | ok v st => exact (hh.logCall (K := K) (.attach s.next pid)).add pid false parent th
    | err e => exact hh.logCall _
    | interrupt => exact hh.logCall _

theorem newProc_new {pid o : Nat} {a : Bool} {parent : Option Nat} {th : Bool}
    (h : Py.bind (newProc K pid a parent th) (fun o => Py.bind (register pid o) fun _ => Py.pure o) s = (.ok o, t)) :
    t.dict = dictSet s.dict pid o ∧ o = s.next ∧ (t.log = s.log ∨ t.log = (logCall K (.attach s.next pid) s).log) := by
  cases a with
  | true =>
    injection h with h1 h2
    injection h1 with h1
    rw [← h2, ← h1]
    exact ⟨rfl, rfl, .inl rfl⟩
  | false =>
    have hrun := ptraceCall_run (K := K) (.attach s.next pid) s
    simp only [Py.bind, newProc, hrun, Bool.false_eq_true, if_false] at h
    cases hr : K s.log (.attach s.next pid) with
    | ok v st =>
      rw [hr] at h
      injection h with h1 h2
      injection h1 with h1
      rw [← h2, ← h1]
      exact ⟨rfl, rfl, .inr rfl⟩
    | err e => rw [hr] at h; cases h
    | interrupt => rw [hr] at h; cases h

/-- The wait for the first stop: if it ends by the end of the process, this is not registered any more. -/
theorem out_addWait (n : Nat) (h : Fit s) {o pid : Nat} (ho : dictGet s.dict pid = some o) (hnew : PlainLog s.log → ∀ x ∈ s.log, ∀ q, (q, o) ∉ x.dict) :
    Out s (addProcessWait K (waitEventPid K (n + 1)) o pid s) := by
  refine .of h (fun _ hn => mourn_addWait (mourn_waitEventPid (n + 1)) hn o pid) fun hm hh hl => ?_
  have hnew := hnew ((mourn_addWait (K := K) (mourn_waitEventPid (n + 1)) hm o pid).after.plain hl)
  have hW := mourn_waitEventPid (K := K) (n + 1) pid true s hm
  by_cases hp : pid = 0
  · exfalso
    subst hp
    have ha : After (waitEventPid K (n + 1) 0 true s).2 (addProcessWait K (waitEventPid K (n + 1)) o 0 s).2 := by
      unfold addProcessWait waitSignalsPid Py.bind
      rcases hx : waitEventPid K (n + 1) 0 true s with ⟨r, u⟩
      rw [hx] at hW
      cases r with
      | error e => exact (mourn_addExcept hW.inv o e).after
      | ok ev =>
        have hf := mourn_filterEvent hW.inv [SIGTRAP, SIGSTOP] ev
        dsimp only
        rcases hy : filterEvent [SIGTRAP, SIGSTOP] ev u with ⟨r, v⟩
        rw [hy] at hf
        cases r with
        | ok _ => exact hf.after
        | error e => exact hf.after.trans (mourn_addExcept hf.inv o e).after
    obtain ⟨g, hg⟩ := wait_any_log (K := K) n true s
    have hl := ha.plain hl
    rw [hg] at hl
    exact hl.1 ⟨.waitpid none (!true) false, K s.log (.waitpid none (!true) false), s.dict⟩ (by simp)
  · have hw := wait_first (K := K) n hp true ho hh hm hnew
    revert hl
    unfold addProcessWait waitSignalsPid Py.bind
    generalize waitEventPid K (n + 1) pid true s = x at hw hW
    have key : PlainLog x.2.log → Hale x.2 ∧ WaitedFor true o x := hw
    intro hl
    have ha : PlainLog x.2.log := by
      obtain ⟨r, u⟩ := x
      cases r with
      | error e => exact (mourn_addExcept hW.inv o e).after.plain hl
      | ok ev =>
        have hf := mourn_filterEvent hW.inv [SIGTRAP, SIGSTOP] ev
        dsimp only at hl
        rcases hy : filterEvent [SIGTRAP, SIGSTOP] ev u with ⟨r, v⟩
        rw [hy] at hf hl
        cases r with
        | ok _ => exact hf.after.plain hl
        | error e => exact (hf.after.trans (mourn_addExcept hf.inv o e).after).plain hl
    obtain ⟨hH, hX⟩ := key ha
    cases hX with
    | nothing t hb => cases hb
    | interrupt t => exact hH
    | signal t k =>
      have hf : (∃ ev, filterEvent [SIGTRAP, SIGSTOP] (some (.signal o k)) t = (.ok ev, t)) ∨
          filterEvent [SIGTRAP, SIGSTOP] (some (.signal o k)) t = (.error (.event (.signal o k)), t) := by
        unfold filterEvent
        dsimp only
        split
        · exact .inl ⟨_, rfl⟩
        · exact .inr rfl
      dsimp only
      rcases hf with ⟨ev, hf⟩ | hf <;> rw [hf]
      · exact hH
      · show Hale (eventDisplay K o t).2
        unfold eventDisplay Py.bind
        rw [ptraceCall_run]
        cases ptraceRes (K t.log (.display o (t.heap o).pid)) <;> exact hH.logCall _
    | exit t c d hno =>
      show Hale (Py.bind (updProc o fun p => { p with isAttached := false }) (fun _ => Py.bind (detach K o) fun _ => (Py.raise _ : Py DSt Unit)) t).2
      rw [unattach_run]
      exact Hale.setProc hH o _ rfl fun hx => absurd hx hno

theorem out_add (n : Nat) (h : Fit s) (pid : Nat) (a : Bool) (parent : Option Nat) (th : Bool) : Out s (addProcess K (waitEventPid K (n + 1)) pid a parent th s) := by
  unfold addProcess
  split
  · exact out_same h _
  · have hassoc : Py.bind (newProc K pid a parent th) (fun o =>
        Py.bind (register pid o) fun _ =>
        Py.bind (addProcessWait K (waitEventPid K (n + 1)) o pid) fun _ =>
        Py.bind (addProcessOptions K o) fun _ =>
        Py.pure o) =
      Py.bind (Py.bind (newProc K pid a parent th) (fun o =>
        Py.bind (register pid o) fun _ => Py.pure o)) fun o =>
        Py.bind (addProcessWait K (waitEventPid K (n + 1)) o pid) fun _ =>
        Py.bind (addProcessOptions K o) fun _ =>
        Py.pure o := by
      rw [py_bind_assoc]
      congr 1
    rw [hassoc]
    refine Out.bindEq (out_newProc (K := K) h pid a parent th) fun o t hx ht => ?_
    have hd : dictGet t.dict pid = some o := by
      rw [(newProc_new hx).1]
      cases hg : dictGet (dictSet s.dict pid o) pid with
      | none => exact absurd ((mem_dictSet _).2 (.inl rfl)) (dictGet_none.1 hg o)
      | some v =>
        rcases (mem_dictSet _).1 (dictGet_some hg) with he | ⟨hne, _⟩
        · rw [(Prod.mk.inj he).2]
        · exact absurd rfl hne
    have hnew : PlainLog t.log → ∀ x ∈ t.log, ∀ q, (q, o) ∉ x.dict := fun hp x hxm q hq => by
      obtain ⟨_, rfl, hlog⟩ := newProc_new hx
      have hs : Hale s := by
        refine (h.all ?_).2
        rcases hlog with e | e <;> rw [e] at hp
        · exact hp
        · exact plain_before hp
      rcases hlog with e | e <;> rw [e] at hxm
      · exact Nat.lt_irrefl _ (hs.old x hxm q _ hq)
      · exact Nat.lt_irrefl _ ((hs.logCall (K := K) (.attach s.next pid)).old x hxm q _ hq)
    refine Out.bind (out_addWait n ht hd hnew) fun _ u hu _ => ?_
    refine Out.bind ?_ fun _ v hv _ => out_pure hv o
    unfold addProcessOptions
    split
    · exact out_setoptions hu o _
    · exact out_same hu _

theorem wait_keeps_hale (n p : Nat) (b : Bool) (h : Fit s) (hl : PlainLog (waitEventPid K (n + 2) p b s).2.log) : Hale (waitEventPid K (n + 2) p b s).2 := by
  obtain ⟨hm, hh⟩ := h.all ((mourn_waitEventPid (K := K) (n + 2) p b s h.most).after.plain hl)
  by_cases hp : p = 0
  · exfalso
    subst hp
    revert hl
    obtain ⟨g, hg⟩ := wait_any_log (K := K) (n + 1) b s
    rw [hg]
    exact fun hl => hl.1 ⟨.waitpid none (!b) false, K s.log (.waitpid none (!b) false), s.dict⟩ (by simp)
  · cases ho : dictGet s.dict p with
    | some o =>
      refine wait_hale (n + 1) hp b ho hh (fun x => Hale x.2) (fun x h1 _ => h1) (fun c st hr hc hl => ?_) hl
      have hf : Fit (logCall K (askFor s p o b) s) := ⟨event_mourned h.most hr hc, fun _ => ⟨event_mourned hm hr hc, hh.logCall _⟩⟩
      refine ((Out.bind (s := logCall K (askFor s p o b) s) ?_ fun e t ht _ => out_pure ht (some e)).all hl).2
      unfold ptraceEvent
      split
      · exact Out.bind (out_ptrace hf _ (fun _ _ _ hx => nomatch hx) (fun _ _ _ hx => nomatch hx)) fun q t ht _ => Out.bind (out_add n ht q true (some o) _) fun q u hu _ => out_pure hu _
      · split
        · exact out_same hf _
        · exact out_same hf _
    | none =>
      have he : waitEventPid K (n + 2) p b s = (.error (.ptrace none), s) := by
        unfold waitEventPid waitpidRaw
        rw [if_pos hp, ho]
        dsimp only
        unfold waitExcept
        rw [if_neg (by intro hx; cases hx)]
      rw [he]
      exact hh

theorem out_waitEventPid (n p : Nat) (b : Bool) (h : Fit s) : Out s (waitEventPid K (n + 2) p b s) :=
  have h1 := mourn_waitEventPid (K := K) (n + 2) p b s h.most
  ⟨h1.inv, h1.after, fun hl => ⟨(mourn_waitEventPid (K := K) (n + 2) p b s (h.all (h1.after.plain hl)).1).inv, wait_keeps_hale n p b h hl⟩⟩

theorem out_poll (n : Nat) : ∀ (pids : List Nat) (s : DSt), Fit s → Out s (pollPids (waitEventPid K (n + 2)) pids s)
  | [], s, h => out_pure h none
  | p :: ps, s, h => by
    refine Out.bind (out_waitEventPid n p false h) fun e t ht _ => ?_
    cases e with
    | none => exact out_poll n ps t ht
    | some ev => exact out_pure ht _

theorem out_waitAny (fuel : Nat) (b : Bool) : ∀ (n : Nat) (s : DSt), Fit s → Out s (waitAny K (fuel + 2) n b s)
  | 0, _, h => out_same h _
  | n + 1, s, h => by
    unfold waitAny
    split
    · exact out_same h _
    · exact out_waitEventPid fuel _ b h
    · refine Out.bind (out_poll fuel _ s h) fun e t ht _ => ?_
      cases e with
      | some ev => exact out_pure ht _
      | none =>
        dsimp only
        split
        · exact Out.bind (out_sleep ht) fun _ u hu _ => out_waitAny fuel b n u hu
        · exact out_pure ht _

theorem out_waitEvent (fuel : Nat) (h : Fit s) (pid : Option Nat) (b : Bool) : Out s (waitProcessEvent K (fuel + 2) pid b s) := by
  cases pid with
  | some p => exact out_waitEventPid fuel p b h
  | none => exact out_waitAny fuel b _ s h

theorem out_waitSignals (fuel : Nat) (h : Fit s) (signals : List Nat) (pid : Option Nat) : Out s (waitSignals K (fuel + 2) signals pid s) :=
  Out.bind (out_waitEvent fuel h pid true) fun e _ ht _ => out_filterEvent ht signals e

/-- Also when the wait does not end. -/
theorem fit_waitSignals (fuel : Nat) (h : Fit s) (signals : List Nat) (p : Nat) : Fit (waitSignals K (fuel + 2) signals (some p) s).2 ∧ After s (waitSignals K (fuel + 2) signals (some p) s).2 := by
  have h1 := mourn_waitSignals (K := K) (fuel + 2) h.most signals (some p)
  refine ⟨⟨h1.inv, fun hl => ?_⟩, h1.after⟩
  have h2 := h.all (h1.after.plain hl)
  refine ⟨(mourn_waitSignals (K := K) (fuel + 2) h2.1 signals (some p)).inv, ?_⟩
  have hw := wait_keeps_hale (K := K) fuel p true h
  revert hl
  show PlainLog (Py.bind (waitEventPid K (fuel + 2) p true) (filterEvent signals) s).2.log → Hale (Py.bind (waitEventPid K (fuel + 2) p true) (filterEvent signals) s).2
  unfold Py.bind
  rcases hx : waitEventPid K (fuel + 2) p true s with ⟨r, t⟩
  rw [hx] at hw
  cases r with
  | error e => exact hw
  | ok ev =>
    have hf : (filterEvent signals ev t).2 = t := by
      unfold filterEvent
      repeat' split
      all_goals rfl
    dsimp only
    rw [hf]
    exact hw

theorem out_waitSyscall (fuel : Nat) (h : Fit s) (process : Option Nat) : Out s (waitSyscall K (fuel + 2) process s) :=
  out_waitSignals fuel h _ _

theorem out_void {m : Py DSt α} (h : Out s (m s)) : Out s (void m s) := Out.bind h fun _ _ ht _ => out_pure ht ()

theorem out_updSys (h : Fit s) (o : Nat) (f : SysState → SysState) : Out s (updSys o f s) := out_upd h o _ rfl rfl rfl rfl

theorem out_sysEnter (h : Fit s) (C : SysCfg) (o : Nat) : Out s (sysEnter K C o s) := by
  unfold sysEnter
  refine Out.bind (out_ptrace h (.inspect o (s.heap o).pid) (fun _ _ _ hx => nomatch hx) (fun _ _ _ hx => nomatch hx)) fun r t ht _ => ?_
  refine Out.bind (out_updSys ht o _) fun _ u hu _ => ?_
  refine Out.bind ?_ fun _ v hv _ => Out.bind (out_updSys hv o _) fun _ w hw _ => out_same hw _
  split
  · exact out_void (out_ptrace hu _ (fun _ _ _ hx => nomatch hx) (fun _ _ _ hx => nomatch hx))
  · exact out_updSys hu o _

theorem out_sysExit (fuel : Nat) (h : Fit s) (o : Nat) : Out s (sysExit K (fuel + 2) o s) := by
  unfold sysExit
  refine Out.bind ?_ fun _ t ht _ => Out.bind ?_ fun _ u hu _ =>
    Out.bind (out_updSys hu o _) fun _ v hv _ => out_pure hv _
  · unfold sysResult
    split
    · exact Out.bind (out_ptrace h _ (fun _ _ _ hx => nomatch hx) (fun _ _ _ hx => nomatch hx)) fun _ u hu _ => out_updSys hu o _
    · exact out_same h _
  · unfold sysExecTrap
    split
    · exact Out.bind (out_syscall ht o 0) fun _ u hu _ => out_void (out_waitSignals fuel hu _ _)
    · exact out_same ht _

theorem out_sysEvent (fuel : Nat) (h : Fit s) (C : SysCfg) (o : Nat) : Out s (sysEvent K (fuel + 2) C o s) := by
  unfold sysEvent
  split
  · exact out_sysExit fuel h o
  · exact out_sysEnter h C o

theorem out_create (fuel : Nat) (h : Fit s) (pid : Nat) (a : Bool) : Out s (createProcess K (fuel + 2) pid a s) := by
  have ha := out_add (K := K) (fuel + 1) h pid a none false
  unfold createProcess
  split <;> rename_i e <;> rw [e] at ha
  · exact (out_same ha.fit _).base ha.after
  · exact (out_same ha.fit _).base ha.after
  · exact (out_same ha.fit _).base ha.after
  · exact ⟨ha.most, ha.after, ha.all⟩

/-! ### Control-C -/

theorem out_kill (h : Fit s) {o : Nat} (ho : PlainLog s.log → o ∈ s.list) : Out s (procKill K o SIGINT s) := by
  have h1 := mourn_kill (K := K) h.most o SIGINT fun hx => absurd rfl hx
  refine ⟨h1.inv, h1.after, fun hp => ?_⟩
  have hq := h1.after.plain hp
  have h2 := h.all hq
  refine ⟨(mourn_kill (K := K) h2.1 o SIGINT fun _ => (h2.2.well o (ho hq)).2.2).inv, ?_⟩
  unfold procKill Py.bind
  rw [osCall_run]
  cases osRes (K s.log (.kill o (s.heap o).pid SIGINT)) <;> exact h2.2.logCall _

theorem kill_list (o n : Nat) (s : DSt) : (procKill K o n s).2.list = s.list := by
  unfold procKill Py.bind
  rw [osCall_run]
  cases osRes (K s.log (.kill o (s.heap o).pid n)) <;> rfl

theorem out_interruptSend : ∀ (os : List Nat) (s : DSt), Fit s → (∀ o ∈ os, o ∈ s.list) → Out s (interruptSend K os s)
  | [], _, h, _ => out_pure h _
  | o :: os, s, h, hos => by
    have hrest : ∀ {u : DSt}, u.list = s.list → ∀ q ∈ os, q ∈ u.list := fun hu q hq => hu ▸ hos q (List.mem_cons_of_mem _ hq)
    unfold interruptSend
    split
    · exact out_interruptSend os s h (hrest rfl)
    · refine Out.bindEq (out_ptrace h _ (fun _ _ _ hx => nomatch hx) (fun _ _ _ hx => nomatch hx)) fun v t hx ht => ?_
      have hl : t.list = s.list := by
        rw [ptraceCall_run] at hx
        exact (congrArg (fun x => x.2.list) hx).symm
      split
      · exact out_interruptSend os t ht (hrest hl)
      · refine Out.bindEq (out_kill ht fun _ => hl ▸ hos o List.mem_cons_self) fun _ u hx hu => ?_
        have hl2 : u.list = s.list := by
          have := kill_list (K := K) o SIGINT t
          rw [hx] at this
          exact this.trans hl
        exact Out.bind (out_interruptSend os u hu (hrest hl2)) fun ws v hv _ => out_pure hv _

theorem out_interruptWait (fuel : Nat) : ∀ (os : List Nat) (s : DSt), Fit s → Out s (interruptWait K (fuel + 2) os s)
  | [], _, h => out_pure h ()
  | o :: os, s, h => by
    refine Out.bind ?_ fun _ t ht _ => out_interruptWait fuel os t ht
    have hw := out_waitSignals (K := K) fuel h [SIGINT] (some (s.heap o).pid)
    split <;> rename_i e <;> rw [e] at hw
    · exact (out_same hw.fit _).base hw.after
    · exact (out_display hw.fit _).base hw.after
    · exact (out_same hw.fit _).base hw.after
    · exact ⟨hw.most, hw.after, hw.all⟩

end PT
