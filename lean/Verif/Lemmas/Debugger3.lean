import Verif.Lemmas.Wait
import Verif.Lemmas.Debugger2

/-! Exact results of waiting for one process. -/

namespace PT

/-- State after `_notRunning`. -/
def gone (o : Nat) (s : DSt) : DSt :=
  if (s.heap o).isAttached then
    unreg o (setProc s o { s.heap o with running := false, isAttached := false })
  else setProc s o { s.heap o with running := false }

theorem setProc_setProc (s : DSt) (o : Nat) (p q : Proc) : setProc (setProc s o p) o q = setProc s o q := by
  unfold setProc
  congr 1
  funext i
  by_cases h : i = o
  · simp [h]
  · simp [h]

theorem setProc_same (s : DSt) (o : Nat) (p : Proc) : (setProc s o p).heap o = p := by
  simp [setProc]

theorem notRunning_run (K : Kern) (o : Nat) (s : DSt) : notRunning K o s = (.ok (), gone o s) := by
  have h0 : notRunning K o s = detach K o (setProc s o { s.heap o with running := false }) := rfl
  rw [h0]
  have hh : (setProc s o { s.heap o with running := false }).heap o = { s.heap o with running := false } :=
    setProc_same _ _ _
  unfold gone
  rcases detach_cases (K := K) o (setProc s o { s.heap o with running := false }) with
    ⟨ha, h⟩ | ⟨ha, _, h⟩ | ⟨_, hr, _⟩ | ⟨_, hr, _⟩
  · rw [hh] at ha
    have ha : (s.heap o).isAttached = false := ha
    rw [h, if_neg (by simp [ha])]
  · rw [hh] at ha
    have ha : (s.heap o).isAttached = true := ha
    rw [h, if_pos ha, hh, setProc_setProc]
  · rw [hh] at hr; cases hr
  · rw [hh] at hr; cases hr

/-- What waiting leaves behind when no registered process ended: old objects are untouched, new ones
may have been registered after the old ones. -/
structure Ext (s t : DSt) : Prop where
  next : s.next ≤ t.next
  heap : ∀ o, o < s.next → t.heap o = s.heap o
  dict : ∃ d, t.dict = s.dict ++ d
  list : ∃ l, t.list = s.list ++ l
  options : t.options = s.options
  log : ∃ g, t.log = s.log ++ g

theorem Ext.refl (s : DSt) : Ext s s :=
  ⟨Nat.le_refl _, fun _ _ => rfl, ⟨[], by simp⟩, ⟨[], by simp⟩, rfl, ⟨[], by simp⟩⟩

theorem Ext.trans {s t u : DSt} (h1 : Ext s t) (h2 : Ext t u) : Ext s u := by
  obtain ⟨d1, hd1⟩ := h1.dict
  obtain ⟨d2, hd2⟩ := h2.dict
  obtain ⟨l1, hl1⟩ := h1.list
  obtain ⟨l2, hl2⟩ := h2.list
  obtain ⟨g1, hg1⟩ := h1.log
  obtain ⟨g2, hg2⟩ := h2.log
  refine ⟨Nat.le_trans h1.next h2.next, ?_, ⟨d1 ++ d2, by rw [hd2, hd1, List.append_assoc]⟩,
    ⟨l1 ++ l2, by rw [hl2, hl1, List.append_assoc]⟩, by rw [h2.options, h1.options],
    ⟨g1 ++ g2, by rw [hg2, hg1, List.append_assoc]⟩⟩
  intro o ho
  rw [h2.heap o (Nat.lt_of_lt_of_le ho h1.next), h1.heap o ho]

theorem Ext.logCall (K : Kern) (c : Call) (s : DSt) : Ext s (logCall K c s) :=
  ⟨Nat.le_refl _, fun _ _ => rfl, ⟨[], by simp [PT.logCall]⟩, ⟨[], by simp [PT.logCall]⟩, rfl, ⟨_, rfl⟩⟩

/-- Changing an object that is new with respect to `s`. -/
theorem Ext.setProc {s t : DSt} (h : Ext s t) {o : Nat} (ho : s.next ≤ o) (p : Proc) :
    Ext s (setProc t o p) := by
  refine ⟨h.next, ?_, h.dict, h.list, h.options, h.log⟩
  intro i hi
  rw [setProc_heap, if_neg (by omega)]
  exact h.heap i hi

theorem dictDel_append_fresh {d d' : List (Nat × Nat)} {k : Nat} (h : dictHas d k = false) :
    dictDel (d ++ d') k = d ++ dictDel d' k := by
  unfold dictDel
  rw [List.filter_append]
  congr 1
  rw [List.filter_eq_self]
  intro e he
  simp
  intro hk
  exact dictHas_false.1 h e.2 (by rw [← hk]; exact he)

/-- A new object that ends leaves the old ones registered. -/
theorem Ext.gone {s t : DSt} (h : Ext s t) {o : Nat} (ho : s.next ≤ o) (hreg : RegInv s)
    (hp : dictHas s.dict (t.heap o).pid = false) : Ext s (gone o t) := by
  unfold PT.gone
  by_cases ha : (t.heap o).isAttached = true
  · rw [if_pos ha]
    have h1 := h.setProc ho { t.heap o with running := false, isAttached := false }
    obtain ⟨d, hd⟩ := h1.dict
    obtain ⟨l, hl⟩ := h1.list
    refine ⟨h1.next, h1.heap, ⟨dictDel d (t.heap o).pid, ?_⟩, ⟨l.erase o, ?_⟩, h1.options, h1.log⟩
    · show dictDel _ ((PT.setProc t o _).heap o).pid = _
      rw [setProc_same, hd, dictDel_append_fresh hp]
    · show List.erase _ o = _
      rw [hl]
      apply List.erase_append_right
      intro hin
      have := hreg.alloc o hin
      omega
  · rw [if_neg ha]
    exact h.setProc ho _

/-- The `waitpid` request made for a registered process. -/
def waitCall (s : DSt) (wanted : Nat) (blocking : Bool) (o : Nat) : Call :=
  .waitpid (some wanted) (!blocking) (s.heap o).isThread

/-- What a successful `addProcess` leaves behind. -/
structure AddOK (s t : DSt) (pid : Nat) (isAttached : Bool) (parent : Option Nat) (isThread : Bool)
    (q : Nat) : Prop where
  ext : Ext s t
  fresh : q = s.next
  lt : q < t.next
  heap : t.heap q = freshProc pid isAttached parent isThread
  reg : dictGet t.dict pid = some q
  mem : q ∈ t.list
  opts : s.options ≠ 0 → ∃ g v st d,
    t.log = s.log ++ g ++ [⟨.setoptions q pid s.options, .ok v st, d⟩]

/-- What a failing `addProcess` leaves behind. -/
structure AddErr (s t : DSt) (e : Exc) : Prop where
  ext : Ext s t
  noSignal : ∀ q m, e ≠ .event (.signal q m)
  exit : ∀ o a b, e = .event (.exit o a b) → s.next ≤ o
  noIndex : e ≠ .index
  exec : ∀ o, e = .event (.execution o) → o ∈ t.list

/-- Result of waiting for the registered process `wanted` (see `waitEventPid_out`). -/
def WOut (K : Kern) (wanted : Nat) (blocking : Bool) (s : DSt) (r : Except Exc (Option Event)) (t : DSt) : Prop :=
  match r with
  | .error e => Ext s t ∧ (∀ q m, e ≠ .event (.signal q m)) ∧
      (∀ o a b, e = .event (.exit o a b) → s.next ≤ o) ∧ e ≠ .index ∧
      (∀ o, e = .event (.execution o) → o ∈ t.list)
  | .ok none => blocking = false ∧ ∃ o, dictGet s.dict wanted = some o ∧
      (∃ st, K s.log (waitCall s wanted blocking o) = .ok 0 st) ∧ t = logCall K (waitCall s wanted blocking o) s
  | .ok (some (.signal o m)) => dictGet s.dict wanted = some o ∧ ∃ st,
      K s.log (waitCall s wanted blocking o) = .ok wanted st ∧ Spec.waitMeaning st = .signal m ∧
      t = setProc (logCall K (waitCall s wanted blocking o) s) o { s.heap o with isStopped := true }
  | .ok (some (.exit o signum code)) => dictGet s.dict wanted = some o ∧
      ((∃ st, K s.log (waitCall s wanted blocking o) = .ok wanted st ∧
          ((∃ c, Spec.waitMeaning st = .exited c ∧ signum = none ∧ code = some c) ∨
           (∃ n, Spec.waitMeaning st = .killed n ∧ signum = some n ∧ code = none))) ∨
        (K s.log (waitCall s wanted blocking o) = .err ECHILD ∧ signum = none ∧ code = none)) ∧
      t = gone o (logCall K (waitCall s wanted blocking o) s)
  | .ok (some (.execution o)) => dictGet s.dict wanted = some o ∧ ∃ st,
      K s.log (waitCall s wanted blocking o) = .ok wanted st ∧
      Spec.waitMeaning st = .event PTRACE_EVENT_EXEC ∧ t = logCall K (waitCall s wanted blocking o) s
  | .ok (some (.newProcess q)) => ∃ o st event pid mst, dictGet s.dict wanted = some o ∧
      K s.log (waitCall s wanted blocking o) = .ok wanted st ∧ Spec.waitMeaning st = .event event ∧
      (event = PTRACE_EVENT_FORK ∨ event = PTRACE_EVENT_VFORK ∨ event = PTRACE_EVENT_CLONE) ∧
      K (logCall K (waitCall s wanted blocking o) s).log (.geteventmsg o (s.heap o).pid) = .ok pid mst ∧
      AddOK (logCall K (.geteventmsg o (s.heap o).pid) (logCall K (waitCall s wanted blocking o) s)) t
        pid true (some o) (decide (event = PTRACE_EVENT_CLONE)) q

/-- State after the object is created and registered. -/
def started (s : DSt) (pid : Nat) (isAttached : Bool) (parent : Option Nat) (isThread : Bool) : DSt :=
  { setProc s s.next (freshProc pid isAttached parent isThread) with
          next := s.next + 1
          dict := dictSet s.dict pid s.next
          list := s.list ++ [s.next] }

theorem started_ext (s : DSt) (pid : Nat) (isAttached : Bool) (parent : Option Nat) (isThread : Bool)
    (hd : dictHas s.dict pid = false) : Ext s (started s pid isAttached parent isThread) := by
  have hset : dictSet s.dict pid s.next = s.dict ++ [(pid, s.next)] :=
    dictSet_fresh (fun e he hp => dictHas_false.1 hd e.2 (by rw [← hp]; exact he))
  refine ⟨Nat.le_succ _, ?_, ⟨[(pid, s.next)], hset⟩, ⟨[s.next], rfl⟩, rfl, ⟨[], by simp [started, setProc]⟩⟩
  intro o ho
  show (if o = s.next then _ else s.heap o) = s.heap o
  rw [if_neg (by omega)]

theorem started_heap (s : DSt) (pid : Nat) (isAttached : Bool) (parent : Option Nat) (isThread : Bool) :
    (started s pid isAttached parent isThread).heap s.next = freshProc pid isAttached parent isThread := by
  show (if s.next = s.next then _ else _) = _
  rw [if_pos rfl]

theorem started_get (s : DSt) (pid : Nat) (isAttached : Bool) (parent : Option Nat) (isThread : Bool)
    (hr : RegInv s) (hd : dictHas s.dict pid = false) :
    dictGet (started s pid isAttached parent isThread).dict pid = some s.next :=
  dictGet_of_mem (hr.add pid isAttached parent isThread hd).keys ((mem_dictSet _).2 (Or.inl rfl))

theorem Ext.get {s t : DSt} (h : Ext s t) {pid o : Nat} (hg : dictGet s.dict pid = some o) :
    dictGet t.dict pid = some o := by
  obtain ⟨d, hd⟩ := h.dict
  unfold dictGet at hg ⊢
  rw [hd, List.find?_append]
  cases hf : s.dict.find? (fun e => decide (e.1 = pid)) with
  | none => rw [hf] at hg; cases hg
  | some e => rw [hf] at hg; rw [Option.some_or]; exact hg

theorem detach_noop (K : Kern) (o : Nat) (s : DSt) (h : (s.heap o).isAttached = false) :
    detach K o s = (.ok (), s) := by
  unfold detach
  rw [if_neg (by simp [h])]

/-- The generic `except:` clause of `addProcess`. -/
theorem addProcessExcept_generic (K : Kern) (o : Nat) (e : Exc) (s : DSt) (h1 : e ≠ .interrupt)
    (h2 : ∀ q m, e ≠ .event (.signal q m)) : addProcessExcept K o e s =
      (.error e, setProc s o { s.heap o with isAttached := false }) := by
  have gen : (Py.bind (updProc o fun p => { p with isAttached := false }) fun _ =>
      Py.bind (detach K o) fun _ => (Py.raise e : Py DSt Unit)) s =
      (.error e, setProc s o { s.heap o with isAttached := false }) := by
    have hd := detach_noop K o (setProc s o { s.heap o with isAttached := false })
      (by rw [setProc_same])
    simp only [Py.bind, updProc, hd]
    rfl
  unfold addProcessExcept
  split
  · exact absurd rfl h1
  · exact absurd rfl (h2 _ _)
  · exact gen

theorem eventDisplay_run (K : Kern) (o : Nat) (s : DSt) : (∃ r, eventDisplay K o s =
    (r, logCall K (.display o (s.heap o).pid) s) ∧
    ∀ e, r = .error e → (∀ q m, e ≠ .event (.signal q m)) ∧
      (e = .interrupt ∨ ∃ n, e = .ptrace (some n))) := by
  unfold eventDisplay Py.bind
  rw [ptraceCall_run]
  cases hk : K s.log (.display o (s.heap o).pid) with
  | ok v st => exact ⟨.ok (), rfl, by intro e he; cases he⟩
  | err n =>
    refine ⟨.error (.ptrace (some n)), rfl, ?_⟩
    intro e he
    cases he
    exact ⟨by (intro q m h; cases h), Or.inr ⟨n, rfl⟩⟩
  | interrupt =>
    refine ⟨.error .interrupt, rfl, ?_⟩
    intro e he
    cases he
    exact ⟨by (intro q m h; cases h), Or.inl rfl⟩

theorem setProc_id (s : DSt) (o : Nat) (p : Proc) (h : s.heap o = p) : setProc s o p = s := by
  unfold setProc
  cases s
  congr 1
  funext i
  by_cases hi : i = o
  · rw [if_pos hi, hi]; exact h.symm
  · rw [if_neg hi]

theorem started_regInv (s : DSt) (pid : Nat) (isAttached : Bool) (parent : Option Nat) (isThread : Bool)
    (hr : RegInv s) (hd : dictHas s.dict pid = false) : RegInv (started s pid isAttached parent isThread) :=
  hr.add pid isAttached parent isThread hd

/-- `addProcess` after the object is registered: the wait for the first stop. -/
theorem addProcessWait_out {K : Kern} {W : WaitPid}
    (hW : ∀ wanted s, wanted ≠ 0 → RegInv s → WOut K wanted true s (W wanted true s).1 (W wanted true s).2)
    (pid : Nat) (hp : pid ≠ 0) (isAttached : Bool) (parent : Option Nat) (isThread : Bool) (s : DSt)
    (hr : RegInv s) (hd : dictHas s.dict pid = false) (r : Except Exc Unit) (t : DSt) :
    addProcessWait K W s.next pid (started s pid isAttached parent isThread) = (r, t) →
    match r with
    | .ok _ => Ext (started s pid isAttached parent isThread) t
    | .error e => AddErr s t e ∧
        (∀ a b, e = .event (.exit s.next a b) → ∀ o, (pid, o) ∉ t.dict) ∧
        ((∀ a b, e ≠ .event (.exit s.next a b)) → (pid, s.next) ∈ t.dict) := by
  have hnx : (started s pid isAttached parent isThread).next = s.next + 1 := rfl
  have hext := started_ext s pid isAttached parent isThread hd
  have hri := started_regInv s pid isAttached parent isThread hr hd
  have hget := started_get s pid isAttached parent isThread hr hd
  have hheap := started_heap s pid isAttached parent isThread
  generalize started s pid isAttached parent isThread = s1 at *
  intro h
  have hw := hW pid s1 hp hri
  unfold addProcessWait waitSignalsPid Py.bind at h
  generalize W pid true s1 = x at hw h
  obtain ⟨rw1, s2⟩ := x
  change WOut K pid true s1 rw1 s2 at hw
  have hgen : ∀ (e : Exc) (s2 : DSt), Ext s s2 → e ≠ .interrupt → (∀ q m, e ≠ .event (.signal q m)) →
      (r, t) = addProcessExcept K s.next e s2 → r = .error e ∧ t.dict = s2.dict ∧ Ext s t ∧ t.list = s2.list := by
    intro e s2 hx h1 h2 he
    rw [addProcessExcept_generic K _ e s2 h1 h2] at he
    injection he with he1 he2
    refine ⟨he1, by rw [he2]; rfl, ?_⟩
    rw [he2]
    exact ⟨hx.setProc (Nat.le_refl _) _, rfl⟩
  cases rw1 with
  | error e =>
    obtain ⟨hx, hns, hex, hni, hec⟩ := hw
    have h : addProcessExcept K s.next e s2 = (r, t) := h
    by_cases hi : e = .interrupt
    · subst hi
      injection h with h1 h2
      subst h1 h2
      exact hx
    · obtain ⟨hr1, hd1, hx1, hl1⟩ := hgen e s2 (hext.trans hx) hi hns h.symm
      subst hr1
      refine ⟨⟨hx1, hns, fun o a b he => by (have := hex o a b he; omega), hni, fun o he => by (rw [hl1]; exact hec o he)⟩, ?_, ?_⟩
      · intro a b he
        have := hex _ _ _ he
        omega
      · intro _
        rw [hd1]
        exact dictGet_some (hx.get hget)
  | ok ev =>
    cases ev with
    | none => exact absurd hw.1 (by simp)
    | some ev =>
      cases ev with
      | signal o m =>
        obtain ⟨ho, st, hk, hc, hs2⟩ := hw
        rw [hget] at ho
        injection ho with ho
        subst ho
        have hx2 : Ext s1 s2 := by
          rw [hs2, hheap]
          have : setProc (logCall K (waitCall s1 pid true s.next) s1) s.next
              { freshProc pid isAttached parent isThread with isStopped := true } =
              logCall K (waitCall s1 pid true s.next) s1 := setProc_id _ _ _ hheap
          rw [this]
          exact Ext.logCall K _ s1
        by_cases hm : ([SIGTRAP, SIGSTOP].contains m || [SIGTRAP, SIGSTOP].isEmpty) = true
        · have hf : filterEvent [SIGTRAP, SIGSTOP] (some (.signal s.next m)) s2 =
              (.ok (.signal s.next m), s2) := by
            unfold filterEvent
            exact congrFun (if_pos hm) s2
          dsimp only at h
          rw [hf] at h
          injection h with h1 h2
          subst h1 h2
          exact hx2
        · have hf : filterEvent [SIGTRAP, SIGSTOP] (some (.signal s.next m)) s2 =
              (.error (.event (.signal s.next m)), s2) := by
            unfold filterEvent
            exact congrFun (if_neg hm) s2
          dsimp only at h
          rw [hf] at h
          have h : eventDisplay K s.next s2 = (r, t) := h
          obtain ⟨r', hr', hr2⟩ := eventDisplay_run K s.next s2
          rw [hr'] at h
          injection h with h1 h2
          subst h1 h2
          have hx3 := hx2.trans (Ext.logCall K (.display s.next (s2.heap s.next).pid) s2)
          cases r' with
          | ok _ => exact hx3
          | error e =>
            obtain ⟨g1, g2⟩ := hr2 e rfl
            refine ⟨⟨hext.trans hx3, g1, ?_, ?_, ?_⟩, ?_, fun _ => dictGet_some (hx3.get hget)⟩
            · intro o a b he
              rcases g2 with g2 | ⟨n, g2⟩ <;> rw [g2] at he <;> cases he
            · rcases g2 with g2 | ⟨n, g2⟩ <;> rw [g2] <;> (intro he; cases he)
            · intro o he
              rcases g2 with g2 | ⟨n, g2⟩ <;> rw [g2] at he <;> cases he
            · intro a b he
              rcases g2 with g2 | ⟨n, g2⟩ <;> rw [g2] at he <;> cases he
      | exit o a b =>
        obtain ⟨ho, _, hs2⟩ := hw
        rw [hget] at ho
        injection ho with ho
        subst ho
        have hlog := Ext.logCall K (waitCall s1 pid true s.next) s1
        have hpid : ((logCall K (waitCall s1 pid true s.next) s1).heap s.next).pid = pid := by
          show (s1.heap s.next).pid = pid
          rw [hheap]; rfl
        have hx2 : Ext s s2 := by
          rw [hs2]
          exact (hext.trans hlog).gone (Nat.le_refl _) hr (by rw [hpid]; exact hd)
        obtain ⟨hr1, hd1, hx1, hl1⟩ := hgen _ s2 hx2 (by intro e; cases e) (by intro q m e; cases e) h.symm
        subst hr1
        refine ⟨⟨hx1, by (intro q m e; cases e), by (intro o a b e; cases e; exact Nat.le_refl _), by (intro e; cases e), by (intro o e; cases e)⟩, ?_, ?_⟩
        · intro _ _ _ q hq
          rw [hd1, hs2] at hq
          unfold gone at hq
          rw [if_pos (by show (s1.heap s.next).isAttached = true; rw [hheap]; rfl)] at hq
          have := (mem_dictDel _).1 hq
          apply this.2
          rw [setProc_same]
          exact hpid.symm
        · intro hne
          exact absurd rfl (hne a b)
      | execution o =>
        obtain ⟨ho, st, _, _, hs2⟩ := hw
        have hx2 : Ext s1 s2 := by rw [hs2]; exact Ext.logCall K _ s1
        obtain ⟨hr1, hd1, hx1, hl1⟩ := hgen _ s2 (hext.trans hx2) (by intro e; cases e) (by intro q m e; cases e) h.symm
        subst hr1
        refine ⟨⟨hx1, by (intro q m e; cases e), by (intro o a b e; cases e), by (intro e; cases e), by (intro q e; cases e; rw [hl1, hs2]; exact ((hri.agree pid o).1 (dictGet_some ho)).1)⟩, by (intro a b e; cases e), ?_⟩
        intro _
        rw [hd1]
        exact dictGet_some (hx2.get hget)
      | newProcess q =>
        obtain ⟨o, st, event, np, mst, ho, _, _, _, _, hadd⟩ := hw
        have hx2 : Ext s1 s2 := ((Ext.logCall K _ s1).trans (Ext.logCall K _ _)).trans hadd.ext
        obtain ⟨hr1, hd1, hx1, hl1⟩ := hgen _ s2 (hext.trans hx2) (by intro e; cases e) (by intro q m e; cases e) h.symm
        subst hr1
        refine ⟨⟨hx1, by (intro q m e; cases e), by (intro o a b e; cases e), by (intro e; cases e), by (intro o e; cases e)⟩, by (intro a b e; cases e), ?_⟩
        intro _
        rw [hd1]
        exact dictGet_some (hx2.get hget)

/-- Result of `addProcess`. -/
def AddOut (K : Kern) (s t : DSt) (pid : Nat) (isAttached : Bool) (parent : Option Nat) (isThread : Bool)
    (r : Except Exc Nat) : Prop :=
  match r with
  | .ok q => AddOK s t pid isAttached parent isThread q
  | .error e => AddErr s t e ∧ (dictHas s.dict pid = false → (dictGet t.dict pid = none ↔
      (isAttached = false ∧ ∀ v st, K s.log (.attach s.next pid) ≠ .ok v st) ∨
      ∃ a b, e = .event (.exit s.next a b)))

/-- `addProcess` with the first stop awaited by `W`. -/
theorem addProcess_out {K : Kern} {W : WaitPid}
    (hW : ∀ wanted s, wanted ≠ 0 → RegInv s → WOut K wanted true s (W wanted true s).1 (W wanted true s).2)
    (pid : Nat) (hp : pid ≠ 0) (isAttached : Bool) (parent : Option Nat) (isThread : Bool) (s : DSt)
    (hr : RegInv s) (r : Except Exc Nat) (t : DSt) :
    addProcess K W pid isAttached parent isThread s = (r, t) →
    AddOut K s t pid isAttached parent isThread r := by
  intro h
  unfold addProcess at h
  by_cases hd : dictHas s.dict pid = true
  · rw [if_pos hd] at h
    injection h with h1 h2
    subst h1 h2
    exact ⟨⟨Ext.refl s, by (intro q m e; cases e), by (intro o a b e; cases e), by (intro e; cases e), by (intro o e; cases e)⟩,
      fun hf => by rw [hd] at hf; cases hf⟩
  · rw [if_neg hd] at h
    have hd : dictHas s.dict pid = false := by simpa using hd
    have main : ∀ s0, Ext s s0 → s0.next = s.next → RegInv s0 → dictHas s0.dict pid = false →
        ¬ (isAttached = false ∧ ∀ v st, K s.log (.attach s.next pid) ≠ .ok v st) →
        Py.bind (addProcessWait K W s0.next pid) (fun _ => Py.bind (addProcessOptions K s0.next) fun _ =>
          Py.pure s0.next) (started s0 pid isAttached parent isThread) = (r, t) →
        AddOut K s t pid isAttached parent isThread r := by
      intro s0 hx0 hn hr0 hd0 hatt h
      have hout := addProcessWait_out hW pid hp isAttached parent isThread s0 hr0 hd0
      have hget := started_get s0 pid isAttached parent isThread hr0 hd0
      have hheap := started_heap s0 pid isAttached parent isThread
      have hsx := started_ext s0 pid isAttached parent isThread hd0
      have hsn : (started s0 pid isAttached parent isThread).next = s0.next + 1 := rfl
      have hsl : s0.next ∈ (started s0 pid isAttached parent isThread).list :=
        List.mem_append.2 (Or.inr (List.mem_singleton.2 rfl))
      generalize started s0 pid isAttached parent isThread = s1 at *
      unfold Py.bind at h
      generalize addProcessWait K W s0.next pid s1 = x at hout h
      obtain ⟨r1, s2⟩ := x
      have hout := hout r1 s2 rfl
      cases r1 with
      | error e =>
        injection h with h1 h2
        subst h1 h2
        obtain ⟨⟨g1, g2, g3, g4, g7⟩, g5, g6⟩ := hout
        refine ⟨⟨hx0.trans g1, g2, by (intro o a b he; have := g3 o a b he; omega), g4, g7⟩, fun _ => ?_⟩
        rw [hn] at g5 g6
        constructor
        · intro hnone
          right
          by_contra hne
          have := g6 (fun a b he => hne ⟨a, b, he⟩)
          exact dictGet_none.1 hnone _ this
        · rintro (h | ⟨a, b, he⟩)
          · exact absurd h hatt
          · exact dictGet_none.2 (g5 a b he)
      | ok _ =>
        have hx : Ext s1 s2 := hout
        have hheap2 : s2.heap s0.next = freshProc pid isAttached parent isThread := by
          rw [hx.heap _ (by omega), hheap]
        have hopt : s2.options = s.options := by rw [hx.options, hsx.options, hx0.options]
        have hxx := (hx0.trans hsx).trans hx
        obtain ⟨l, hl⟩ := hx.list
        have hmem : s0.next ∈ s2.list := by rw [hl]; exact List.mem_append.2 (Or.inl hsl)
        have hregd : ∀ e : Exc, (∀ a b, e ≠ .event (.exit s.next a b)) → (dictGet s2.dict pid = none ↔
            (isAttached = false ∧ ∀ v st, K s.log (.attach s.next pid) ≠ .ok v st) ∨
            ∃ a b, e = .event (.exit s.next a b)) := by
          intro e he
          constructor
          · intro hnone
            rw [hx.get hget] at hnone
            cases hnone
          · rintro (h | ⟨a, b, h⟩)
            · exact absurd h hatt
            · exact absurd h (he a b)
        dsimp only at h
        unfold addProcessOptions at h
        by_cases ho : s2.options ≠ 0
        · rw [if_pos ho] at h
          unfold procSetoptions Py.bind at h
          rw [ptraceCall_run, hheap2] at h
          have hpid : (freshProc pid isAttached parent isThread).pid = pid := rfl
          rw [hpid] at h
          have hx3 := hxx.trans (Ext.logCall K (.setoptions s0.next pid s2.options) s2)
          cases hk : K s2.log (.setoptions s0.next pid s2.options) with
          | ok v st =>
            rw [hk] at h
            injection h with h1 h2
            subst h1 h2
            refine ⟨hx3, hn, ?_, hheap2, (hx.get hget), hmem, ?_⟩
            · have := hx.next
              show s0.next < s2.next
              omega
            · intro _
              obtain ⟨g, hg⟩ := hxx.log
              refine ⟨g, v, st, s2.dict, ?_⟩
              show s2.log ++ [_] = _
              rw [hk, hg, hopt]
          | err n =>
            rw [hk] at h
            injection h with h1 h2
            subst h1 h2
            exact ⟨⟨hx3, by (intro q m e; cases e), by (intro o a b e; cases e), by (intro e; cases e), by (intro o e; cases e)⟩,
              fun _ => hregd _ (by (intro a b e; cases e))⟩
          | interrupt =>
            rw [hk] at h
            injection h with h1 h2
            subst h1 h2
            exact ⟨⟨hx3, by (intro q m e; cases e), by (intro o a b e; cases e), by (intro e; cases e), by (intro o e; cases e)⟩,
              fun _ => hregd _ (by (intro a b e; cases e))⟩
        · rw [if_neg ho] at h
          injection h with h1 h2
          subst h1 h2
          refine ⟨hxx, hn, ?_, hheap2, (hx.get hget), hmem, ?_⟩
          · have := hx.next
            show s0.next < s2.next
            omega
          · intro hne
            rw [hopt] at ho
            exact absurd hne ho
    cases isAttached with
    | true => exact main s (Ext.refl s) rfl hr hd (by simp) h
    | false =>
      have hx0 := Ext.logCall K (.attach s.next pid) s
      have hr0 := hr.logCall K (.attach s.next pid)
      have hnew : newProc K pid false parent isThread s =
          match ptraceRes (K s.log (.attach s.next pid)) with
          | .ok _ => (.ok s.next, { setProc (logCall K (.attach s.next pid) s) s.next
              (freshProc pid false parent isThread) with next := s.next + 1 })
          | .error e => (.error e, logCall K (.attach s.next pid) s) := by
        unfold newProc
        rw [if_neg (by simp), py_bind_assoc]
        unfold Py.bind
        rw [ptraceCall_run]
        cases ptraceRes (K s.log (.attach s.next pid)) <;> rfl
      have he : ∀ e, ptraceRes (K s.log (.attach s.next pid)) = .error e →
          (∀ q m, e ≠ .event (.signal q m)) ∧ (∀ o a b, e ≠ .event (.exit o a b)) ∧ e ≠ .index ∧ (∀ o, e ≠ .event (.execution o)) := by
        intro e hk
        cases hkk : K s.log (.attach s.next pid) with
        | ok v st => rw [hkk] at hk; cases hk
        | err n => rw [hkk] at hk; cases hk; exact ⟨by (intro q m e; cases e), by (intro o a b e; cases e), by (intro e; cases e), by (intro o e; cases e)⟩
        | interrupt => rw [hkk] at hk; cases hk; exact ⟨by (intro q m e; cases e), by (intro o a b e; cases e), by (intro e; cases e), by (intro o e; cases e)⟩
      unfold Py.bind at h
      rw [hnew] at h
      cases hk : ptraceRes (K s.log (.attach s.next pid)) with
      | error e =>
        rw [hk] at h
        injection h with h1 h2
        subst h1 h2
        refine ⟨⟨hx0, (he e hk).1, fun o a b e' => absurd e' ((he e hk).2.1 o a b), (he e hk).2.2.1,
          fun o e' => absurd e' ((he e hk).2.2.2 o)⟩, fun _ => ?_⟩
        constructor
        · intro _
          exact Or.inl ⟨rfl, ptraceRes_err hk⟩
        · intro _
          exact dictGet_none.2 (dictHas_false.1 hd)
      | ok v =>
        rw [hk] at h
        obtain ⟨st, hst⟩ := ptraceRes_ok hk
        exact main (logCall K (.attach s.next pid) s) hx0 rfl hr0 hd (fun hh => hh.2 _ _ hst) h

end PT
