import Verif.Lemmas.Gdb

/-! Invariants of the command line debugger. -/

namespace PT
open Spec
variable {K : Kern}

/-- Each remembered signal stopped its process, and none was delivered to it since. -/
def Held (g : GSt) : Prop :=
  ∀ o n, g.last o = some n → o < g.dbg.next ∧ Waiting g.dbg.log (g.dbg.heap o).pid o n

/-- State before a command. -/
structure Ready (g : GSt) : Prop where
  good : Good g.dbg
  mem : g.process ∈ g.dbg.list
  held : Held g

/-- State after a command. -/
structure Safe {α : Type} (x : Except Exc α × GSt) : Prop where
  good : Good x.2.dbg
  mem : x.2.process ∈ x.2.dbg.list ∨ ∃ o a b, x.1 = .error (.event (.exit o a b))
  held : Held x.2
  signal : ∀ o n, x.1 = .error (.event (.signal o n)) → o ∈ x.2.dbg.list ∧ Waiting x.2.dbg.log (x.2.dbg.heap o).pid o n
  exec : ∀ o, x.1 = .error (.event (.execution o)) → o ∈ x.2.dbg.list

theorem Ready.lt {g : GSt} (h : Ready g) : g.process < g.dbg.next := h.good.reg.alloc _ h.mem

theorem Ready.safe {α : Type} {g : GSt} (h : Ready g) (a : α) : Safe ((.ok a, g) : Except Exc α × GSt) :=
  ⟨h.good, Or.inl h.mem, h.held, by (intro o n h; cases h), by (intro o h; cases h)⟩

theorem Safe.ready {α : Type} {a : α} {g : GSt} (h : Safe ((.ok a, g) : Except Exc α × GSt)) : Ready g :=
  ⟨h.good, h.mem.elim id (fun ⟨_, _, _, h⟩ => by cases h), h.held⟩

theorem Safe.bind {α β : Type} {m : Py GSt α} {f : α → Py GSt β} {g : GSt} (hm : Safe (m g))
    (hf : ∀ a t, m g = (.ok a, t) → Ready t → Safe (f a t)) : Safe (Py.bind m f g) := by
  unfold Py.bind
  generalize hx : m g = x at hm
  obtain ⟨r, t⟩ := x
  cases r with
  | error e =>
    refine ⟨hm.good, ?_, hm.held, ?_, ?_⟩
    · rcases hm.mem with h | ⟨o, a, b, h⟩
      · exact Or.inl h
      · injection h with h; exact Or.inr ⟨o, a, b, by rw [h]⟩
    · intro o n h; injection h with h; exact hm.signal o n (by rw [h])
    · intro o h; injection h with h; exact hm.exec o (by rw [h])
  | ok a => exact hf a t hx hm.ready

theorem Held.fine {g : GSt} (h : Held g) {α : Type} {x : Except Exc α × DSt} (hx : Fine g.dbg x) :
    Held { g with dbg := x.2 } := by
  intro o n hl
  obtain ⟨h1, h2⟩ := h o n hl
  obtain ⟨l, hl, hm⟩ := hx.log
  refine ⟨Nat.lt_of_lt_of_le h1 hx.next, ?_⟩
  show Waiting x.2.log (x.2.heap o).pid o n
  rw [hx.pid o h1, hl]
  exact Waiting.more h2 fun e he => hm e he o

theorem lift_eq {α : Type} {m : Py DSt α} {g t : GSt} {r : Except Exc α} (h : PT.lift m g = (r, t)) :
    m g.dbg = (r, t.dbg) ∧ t = { g with dbg := t.dbg } := by
  have h : ((m g.dbg).1, ({ g with dbg := (m g.dbg).2 } : GSt)) = (r, t) := h
  injection h with h1 h2
  subst h2
  exact ⟨Prod.ext h1 rfl, rfl⟩

theorem Safe.lift {α : Type} {m : Py DSt α} {g : GSt} (h : Ready g) (hm : Fine g.dbg (m g.dbg)) : Safe (PT.lift m g) := by
  refine ⟨hm.good, ?_, h.held.fine hm, hm.signal, hm.exec⟩
  rcases hm.grow with ⟨l, hl⟩ | ⟨o, a, b, h⟩
  · left
    show g.process ∈ (m g.dbg).2.list
    rw [hl]
    exact List.mem_append.2 (Or.inl h.mem)
  · exact Or.inr ⟨o, a, b, h⟩

theorem Safe.look {g : GSt} (h : Ready g) : Safe (PT.look K g) :=
  Safe.lift h (Fine.ptraceCall h.good _ (by intro _ _ _ h; cases h))

theorem Safe.switch {g : GSt} (h : Ready g) {o : Nat} (ho : o ∈ g.dbg.list) : Safe (switchProcess o g) :=
  ⟨h.good, Or.inl ho, h.held, by (intro o n h; cases h), by (intro o h; cases h)⟩

theorem Safe.processSignal {g : GSt} (h : Good g.dbg) (hh : Held g) {o n : Nat} (ho : o ∈ g.dbg.list)
    (hw : Waiting g.dbg.log (g.dbg.heap o).pid o n) (t : GSt) (ht : PT.processSignal K o n g = (.ok (), t)) :
    Ready t := by
  obtain ⟨_, u, h1, h2⟩ := Py.ok_of_bind ht
  have hf : Fine g.dbg (eventDisplay K o g.dbg) := Fine.eventDisplay h o
  obtain ⟨he, hu⟩ := lift_eq h1
  have h2 : ((.ok (), { u with process := o, last := fun i => if i = o then some n else u.last i }) : Except Exc Unit × GSt) = (.ok (), t) := h2
  injection h2 with _ h2
  subst h2
  have hl : u.dbg.list = g.dbg.list := eventDisplay_list he
  rw [he] at hf
  refine ⟨hf.good, by (show o ∈ u.dbg.list; rw [hl]; exact ho), ?_⟩
  intro i m hi
  have hi : (if i = o then some n else u.last i) = some m := hi
  by_cases hio : i = o
  · subst hio
    rw [if_pos rfl] at hi
    injection hi with hi
    subst hi
    have hlt := h.reg.alloc i ho
    obtain ⟨l, hl, hm⟩ := hf.log
    refine ⟨Nat.lt_of_lt_of_le hlt hf.next, ?_⟩
    show Waiting u.dbg.log (u.dbg.heap i).pid i n
    have hpid := hf.pid i hlt
    rw [hpid, hl]
    exact Waiting.more hw fun e he => hm e he i
  · rw [if_neg hio, hu] at hi
    have := (hh.fine hf) i m hi
    exact this

/-- The call of `procCont`. -/
def contCall (s : DSt) (o n : Nat) : Call := .cont o (s.heap o).pid (filterSignal n)

theorem procCont_out (o n : Nat) (s : DSt) : procCont K o n s =
    match ptraceRes (K s.log (contCall s o n)) with
    | .ok _ => (.ok (), setProc (logCall K (contCall s o n) s) o { s.heap o with isStopped := false })
    | .error e => (.error e, logCall K (contCall s o n) s) := by
  unfold procCont Py.bind
  rw [ptraceCall_run]
  unfold contCall
  cases ptraceRes (K s.log (.cont o (s.heap o).pid (filterSignal n))) <;> rfl

theorem Safe.continueProcess {g : GSt} (h : Ready g) (o n : Nat) : Safe (PT.continueProcess K o n g) := by
  unfold PT.continueProcess
  split
  · generalize pendingSignal g o n = m
    unfold Py.bind PT.lift
    rw [procCont_out]
    cases hk : ptraceRes (K g.dbg.log (contCall g.dbg o m)) with
    | error e =>
      have hev : ∀ ev, e ≠ .event ev := by
        intro ev
        cases hk2 : K g.dbg.log (contCall g.dbg o m) <;> rw [hk2] at hk <;> cases hk <;> (intro h; cases h)
      refine ⟨h.good.log _, Or.inl h.mem, ?_, ?_, ?_⟩
      · intro i k hi
        obtain ⟨h1, h2⟩ := h.held i k hi
        refine ⟨h1, Waiting.more h2 ?_⟩
        intro e' he' hd
        rw [List.mem_singleton.1 he'] at hd
        obtain ⟨_, _, v, st, _, _, hr⟩ := hd
        have hr : K g.dbg.log (contCall g.dbg o m) = .ok v st := hr
        rw [hr] at hk
        cases hk
      · intro i k hi; injection hi with hi; exact absurd hi (hev _)
      · intro i hi; injection hi with hi; exact absurd hi (hev _)
    | ok v =>
      refine ⟨(h.good.log _).stopped o false, Or.inl h.mem, ?_, ?_, ?_⟩
      · intro i k hi
        have hi : (if i = o then none else g.last i) = some k := hi
        by_cases hio : i = o
        · rw [if_pos hio] at hi; cases hi
        · rw [if_neg hio] at hi
          obtain ⟨h1, h2⟩ := h.held i k hi
          refine ⟨h1, ?_⟩
          show Waiting (g.dbg.log ++ [_]) ((if i = o then _ else g.dbg.heap i) : Proc).pid i k
          rw [if_neg hio]
          refine Waiting.more h2 ?_
          intro e' he' hd
          rw [List.mem_singleton.1 he'] at hd
          obtain ⟨_, _, v, st, hc, _, _⟩ := hd
          have hc : contCall g.dbg o m = _ := hc
          injection hc with hc
          exact hio hc.symm
      · intro i k hi; cases hi
      · intro i hi; cases hi
  · exact Safe.lift h (Fine.procCont h.good o)

theorem Safe.contAll (n : Nat) : ∀ (os : List Nat) (g : GSt), Ready g → Safe (PT.contAll K n os g) := by
  intro os
  induction os with
  | nil => intro g h; exact h.safe ()
  | cons o os ih =>
    intro g h
    refine Safe.bind (Safe.lift h (Fine.updSys h.good o _)) fun _ t _ ht => ?_
    refine Safe.bind ?_ fun _ u _ hu => ih u hu
    split
    · exact Safe.continueProcess ht o n
    · exact Safe.continueProcess ht o 0

/-- Events returned by `waitSignals`. -/
theorem waitSignals_lift (hz : NoZero K) {g t : GSt} (h : Ready g) (fuel : Nat) (signals : List Nat) (wanted : Option Nat)
    (hw : wanted ≠ some 0) (ev : Event) (hx : lift (waitSignals K fuel signals wanted) g = (.ok ev, t)) :
    ∃ o n, ev = .signal o n ∧ o ∈ t.dbg.list ∧ Waiting t.dbg.log (t.dbg.heap o).pid o n := by
  obtain ⟨he, ht⟩ := lift_eq hx
  obtain ⟨o, n, h1, _, h2, h3⟩ := (waitSignals_fine hz h.good fuel signals wanted hw).2.1 ev t.dbg he
  exact ⟨o, n, h1, h2, h3⟩

/-- Library code that raises no event. -/
theorem processSignal_error {g t : GSt} {o n : Nat} {e : Exc} (h : processSignal K o n g = (.error e, t)) :
    eventDisplay K o g.dbg = (.error e, t.dbg) ∧ t = { g with dbg := t.dbg } ∧ ∀ ev, e ≠ .event ev := by
  rcases Py.error_of_bind h with h1 | ⟨_, u, h1, h2⟩
  · obtain ⟨he, ht⟩ := lift_eq h1
    refine ⟨he, ht, ?_⟩
    obtain ⟨r, hr, hr2⟩ := eventDisplay_run K o g.dbg
    rw [hr] at he
    injection he with he _
    intro ev hev
    rcases (hr2 e he).2 with h | ⟨k, h⟩ <;> rw [h] at hev <;> cases hev
  · cases h2

theorem Safe.gdbCont (hz : NoZero K) {g : GSt} (h : Ready g) (fuel n : Nat) : Safe (PT.gdbCont K fuel n g) := by
  refine Safe.bind (Safe.contAll n _ g h) fun _ t _ ht => ?_
  refine Safe.bind (Safe.lift ht (waitSignals_fine hz ht.good fuel [] none (by intro h; cases h)).1) fun ev u hx hu => ?_
  obtain ⟨o, m, rfl, ho, hw⟩ := waitSignals_lift hz ht fuel [] none (by intro h; cases h) ev hx
  unfold contSignal
  dsimp only
  split
  · exact Safe.bind (Safe.look hu) fun _ v _ hv => hv.safe true
  · generalize hy : PT.processSignal K o m u = y
    obtain ⟨r, v⟩ := y
    cases r with
    | ok _ =>
      rw [Py.run_bind_ok hy]
      exact (Safe.processSignal hu.good hu.held ho hw v hy).safe true
    | error e =>
      rw [Py.run_bind_error hy]
      obtain ⟨h1, h2, h3⟩ := processSignal_error hy
      have hf : Fine u.dbg (eventDisplay K o u.dbg) := Fine.eventDisplay hu.good o
      have hs := Safe.lift hu hf
      rw [h2]
      unfold PT.lift at hs
      rw [h1] at hs
      refine ⟨hs.good, ?_, hs.held, ?_, ?_⟩
      · exact hs.mem.elim Or.inl fun ⟨a, b, c, h⟩ => by (injection h with h; exact absurd h (h3 _))
      · intro i k hi; injection hi with hi; exact absurd hi (h3 _)
      · intro i hi; injection hi with hi; exact absurd hi (h3 _)

theorem Safe.forget {α : Type} {r : Except Exc α} {t : GSt} (h : Safe (r, t)) (o : Nat) : Safe (r, (PT.forget o t).2) := by
  refine ⟨h.good, h.mem, ?_, h.signal, h.exec⟩
  intro i k hi
  have hi : (if i = o then none else t.last i) = some k := hi
  by_cases hio : i = o
  · rw [if_pos hio] at hi; cases hi
  · rw [if_neg hio] at hi
    exact h.held i k hi

/-- Exceptions other than events. -/
theorem Ready.error {α : Type} {g : GSt} (h : Ready g) (e : Exc) (he : ∀ ev, e ≠ .event ev) :
    Safe ((.error e, g) : Except Exc α × GSt) := by
  refine ⟨h.good, Or.inl h.mem, h.held, ?_, ?_⟩
  · intro i k hi; injection hi with hi; exact absurd hi (he _)
  · intro i hi; injection hi with hi; exact absurd hi (he _)

/-- `parseInteger` raises no event of a process. -/
def NoEvent (G : GdbCfg) : Prop := ∀ s text ev, G.parse s text ≠ .error (.event ev)

theorem Safe.argError {g : GSt} (h : Ready g) (e : Exc) (he : ∀ ev, e ≠ .event ev) : Safe (PT.argError e g) := by
  unfold PT.argError
  split
  · exact h.safe false
  · exact h.error e he

theorem parseSignum_noEvent (signals : List (Str × Nat)) (parse : Str → Except Exc Int)
    (hp : ∀ t ev, parse t ≠ .error (.event ev)) (command : Str) (e : Exc)
    (h : parseSignum signals parse command = .error e) : ∀ ev, e ≠ .event ev := by
  intro ev he
  subst he
  unfold parseSignum at h
  split at h
  · cases h
  · split at h
    · cases h
    · split at h
      · cases h
      · cases h
      · rename_i he
        injection h with h
        exact hp _ _ (h ▸ he)

theorem Safe.gdbSignal (hz : NoZero K) {g : GSt} (h : Ready g) (fuel : Nat) (G : GdbCfg) (hG : NoEvent G) (arg : Str) :
    Safe (PT.gdbSignal K fuel G arg g) := by
  unfold PT.gdbSignal
  split
  · rename_i e he
    refine Safe.argError h e (parseSignum_noEvent _ _ ?_ arg e he)
    intro t ev hp
    cases hx : G.parse g.dbg t with
    | ok n => rw [hx] at hp; cases hp
    | error e' =>
      rw [hx] at hp
      injection hp with hp
      exact hG _ _ _ (by rw [hx, hp])
  · exact Safe.forget (Safe.gdbCont hz h fuel _) _

theorem Safe.gdbAttach (hz : NoZero K) (ha : NoAttachZero K) {g : GSt} (h : Ready g) (fuel : Nat) (G : GdbCfg) (hG : NoEvent G) (arg : Str) :
    Safe (PT.gdbAttach K fuel G arg g) := by
  unfold PT.gdbAttach
  split
  · rename_i e he
    exact Safe.argError h e fun ev hev => hG _ _ _ (by rw [he, hev])
  · rename_i pid hp
    have hf := addProcess_fine hz ha h.good fuel pid
    refine Safe.bind (Safe.lift h hf.1) fun o t ht hr => ?_
    refine Safe.bind (Safe.switch hr ?_) fun _ u _ hu => hu.safe true
    exact hf.2 o t.dbg (lift_eq ht).1

theorem Safe.stepWait (hz : NoZero K) {g : GSt} (h : Ready g) (fuel : Nat) (b : Bool) : Safe (PT.stepWait K fuel b g) := by
  have hp : some (g.dbg.heap g.process).pid ≠ some 0 := by
    intro h0
    injection h0 with h0
    exact h.good.pid.obj _ h.lt h0
  obtain ⟨hf, _, hexit⟩ := waitSignals_fine hz h.good fuel [SIGTRAP] (some (g.dbg.heap g.process).pid) hp
  have hs := Safe.lift h hf
  unfold PT.stepWait
  have hx : PT.lift (waitSignals K fuel [SIGTRAP] (some (g.dbg.heap g.process).pid)) g =
    ((waitSignals K fuel [SIGTRAP] (some (g.dbg.heap g.process).pid) g.dbg).1,
      { g with dbg := (waitSignals K fuel [SIGTRAP] (some (g.dbg.heap g.process).pid) g.dbg).2 }) := rfl
  rw [hx] at hs ⊢
  generalize waitSignals K fuel [SIGTRAP] (some (g.dbg.heap g.process).pid) g.dbg = y at *
  obtain ⟨r, t⟩ := y
  dsimp only at hs ⊢
  cases r with
  | ok ev =>
    dsimp only
    split
    · exact Safe.bind (Safe.look hs.ready) fun _ u _ hu => hu.safe true
    · exact hs.ready.safe true
  | error e =>
    dsimp only
    have hraise : Safe ((.error e, { g with dbg := t }) : Except Exc Bool × GSt) := by
      refine ⟨hs.good, ?_, hs.held, ?_, ?_⟩
      · rcases hs.mem with h | ⟨o, a, b, h⟩
        · exact Or.inl h
        · injection h with h; exact Or.inr ⟨o, a, b, by rw [h]⟩
      · intro o n h; injection h with h; exact hs.signal o n (by rw [h])
      · intro o h; injection h with h; exact hs.exec o (by rw [h])
    split
    · rename_i hb
      have hrun : (t.heap g.process).running = true := (Bool.and_eq_true_iff.1 hb).2
      have hmem : g.process ∈ t.list := by
        have hgrow : ∀ l, t.list = g.dbg.list ++ l → g.process ∈ t.list := by
          intro l hl; rw [hl]; exact List.mem_append.2 (Or.inl h.mem)
        rcases hf.grow with ⟨l, hl⟩ | ⟨o, a, b', he⟩
        · exact hgrow l hl
        · have he : Except.error e = _ := he
          rcases hexit o a b' t (by rw [he]) with ⟨l, hl⟩ | ⟨hr, pid, hd, hpid⟩
          · exact hgrow l hl
          · have hpid := hpid _ rfl
            have h1 := (h.good.reg.agree pid g.process).2 ⟨h.mem, hpid.symm⟩
            have : o = g.process := by
              have h2 := dictGet_of_mem h.good.reg.keys hd
              have h3 := dictGet_of_mem h.good.reg.keys h1
              rw [h2] at h3
              injection h3
            rw [this] at hr
            rw [hr] at hrun
            cases hrun
      have hready : Ready { g with dbg := t } := ⟨hs.good, hmem, hs.held⟩
      have hlook := Fine.ptraceCall (K := K) hs.good (.inspect g.process (t.heap g.process).pid) (by intro _ _ _ h; cases h)
      refine Safe.bind (Safe.look hready) fun v u hu hru => ?_
      have hu1 : u = { g with dbg := (ptraceCall K (.inspect g.process (t.heap g.process).pid) t).2 } := (congrArg Prod.snd hu).symm
      have hlist : u.dbg.list = t.list := by rw [hu1, ptraceCall_run]; rfl
      refine ⟨hru.good, Or.inl hru.mem, hru.held, ?_, ?_⟩
      · intro o n hi
        injection hi with hi
        have h1 := hs.signal o n (by rw [hi])
        refine ⟨by (show o ∈ u.dbg.list; rw [hlist]; exact h1.1), ?_⟩
        obtain ⟨l, hl, hm⟩ := hlook.log
        have hlt := hs.good.reg.alloc o h1.1
        show Waiting u.dbg.log (u.dbg.heap o).pid o n
        rw [hu1]
        show Waiting (ptraceCall K (.inspect g.process (t.heap g.process).pid) t).2.log
          ((ptraceCall K (.inspect g.process (t.heap g.process).pid) t).2.heap o).pid o n
        rw [hlook.pid o hlt, hl]
        exact Waiting.more h1.2 fun e he => hm e he o
      · intro o hi
        injection hi with hi
        have h1 := hs.exec o (by rw [hi])
        show o ∈ u.dbg.list
        rw [hlist]
        exact h1
    · exact hraise

theorem Safe.gdbStep (hz : NoZero K) {g : GSt} (h : Ready g) (fuel : Nat) (enter : Bool) : Safe (PT.gdbStep K fuel enter g) := by
  unfold PT.gdbStep
  split
  · exact Safe.bind (Safe.lift h (Fine.procSingleStep h.good _)) fun _ t _ ht => Safe.stepWait hz ht fuel false
  · refine Safe.bind (Safe.look h) fun v t _ ht => ?_
    split
    · exact ht.safe false
    · exact Safe.bind (Safe.lift ht (Fine.procCont ht.good _)) fun _ u _ hu => Safe.stepWait hz hu fuel true

theorem Safe.gdbSys (hz : NoZero K) {g : GSt} (h : Ready g) (fuel : Nat) (G : GdbCfg) : Safe (PT.gdbSys K fuel G g) := by
  refine Safe.bind (Safe.lift h (Fine.procSyscall h.good _ 0)) fun _ t _ ht => ?_
  refine Safe.bind (Safe.lift ht ?_) fun _ u _ hu => ?_
  · refine (waitSignals_fine hz ht.good fuel _ _ ?_).1
    intro h0
    injection h0 with h0
    exact ht.good.pid.obj _ ht.lt h0
  · exact Safe.bind (Safe.lift hu (Fine.sysEvent hz hu.good fuel G.sys _ hu.lt)) fun _ v _ hv => hv.safe true

theorem indexOf_some {o : Nat} : ∀ {l : List Nat}, o ∈ l → ∃ i, indexOf o l = some i ∧ ∃ h : i < l.length, l[i] = o := by
  intro l
  induction l with
  | nil => intro h; cases h
  | cons x xs ih =>
    intro h
    unfold indexOf
    by_cases hx : x = o
    · rw [if_pos hx]; exact ⟨0, rfl, by simp, hx⟩
    · rw [if_neg hx]
      rcases List.mem_cons.1 h with rfl | h
      · exact absurd rfl hx
      · obtain ⟨i, h1, h2, h3⟩ := ih h
        exact ⟨i + 1, by rw [h1]; rfl, by simpa using h2, by simpa using h3⟩

/-- `switch` without argument goes to the next process of the list. -/
theorem gdbSwitchNext_run {g : GSt} (h : g.process ∈ g.dbg.list) : ∃ i, ∃ hi : i < g.dbg.list.length, g.dbg.list[i] = g.process ∧
    ∃ (ok : Bool) (hj : (i + 1) % g.dbg.list.length < g.dbg.list.length), gdbSwitchNext g =
      (.ok ok, { g with process := g.dbg.list[(i + 1) % g.dbg.list.length] }) := by
  obtain ⟨i, h1, hi, h2⟩ := indexOf_some h
  have hj : (i + 1) % g.dbg.list.length < g.dbg.list.length := Nat.mod_lt _ (by omega)
  refine ⟨i, hi, h2, ?_⟩
  unfold gdbSwitchNext
  by_cases h3 : g.dbg.list.length = 1
  · rw [if_pos h3]
    refine ⟨false, hj, ?_⟩
    have : g.dbg.list[(i + 1) % g.dbg.list.length] = g.process := by
      rw [← h2]
      congr 1
      omega
    rw [this]
  · rw [if_neg h3, h1]
    refine ⟨true, hj, ?_⟩
    dsimp only
    rw [List.getElem?_eq_getElem hj]
    rfl

theorem Safe.gdbSwitch {g : GSt} (h : Ready g) (G : GdbCfg) (hG : NoEvent G) (arg : Str) : Safe (PT.gdbSwitch G arg g) := by
  unfold PT.gdbSwitch
  split
  · obtain ⟨i, hi, h2, ok, hj, hrun⟩ := gdbSwitchNext_run h.mem
    rw [hrun]
    exact ⟨h.good, Or.inl (List.getElem_mem hj), h.held, by (intro o n h; cases h), by (intro o h; cases h)⟩
  · split
    · rename_i e he
      exact Safe.argError h e fun ev hev => hG _ _ _ (by rw [he, hev])
    · split
      · rename_i o ho
        refine Safe.bind (Safe.switch h ?_) fun _ u _ hu => hu.safe true
        exact ((h.good.reg.agree _ o).1 (dictGet_some ho)).1
      · exact h.safe false

theorem Safe.runCommand (hz : NoZero K) (ha : NoAttachZero K) {g : GSt} (h : Ready g) (fuel : Nat) (G : GdbCfg) (hG : NoEvent G)
    (c : Command) : Safe (PT.runCommand K fuel G c g) := by
  cases c with
  | cont => exact Safe.gdbCont hz h fuel 0
  | signal arg => exact Safe.gdbSignal hz h fuel G hG arg
  | attach arg => exact Safe.gdbAttach hz ha h fuel G hG arg
  | step enter => exact Safe.gdbStep hz h fuel enter
  | «until» arg =>
    show Safe (gdbUntil K fuel G arg g)
    unfold gdbUntil
    split
    · rename_i e he
      exact Safe.argError h e fun ev hev => hG _ _ _ (by rw [he, hev])
    · exact Safe.gdbStep hz h fuel false
  | sys => exact Safe.gdbSys hz h fuel G
  | switch arg => exact Safe.gdbSwitch h G hG arg
  | look => exact Safe.bind (Safe.look h) fun _ t _ ht => ht.safe _
  | info => exact h.safe true
  | unknown => exact h.safe false

theorem Safe.gdbExecute (hz : NoZero K) (ha : NoAttachZero K) {g : GSt} (h : Ready g) (fuel : Nat) (G : GdbCfg) (hG : NoEvent G)
    (c : Str) : Safe (PT.gdbExecute K fuel G c g) := Safe.runCommand hz ha h fuel G hG _

/-! ### events -/

theorem interruptSend_fine : ∀ (os : List Nat) (s : DSt), Good s → Fine s (interruptSend K os s) := by
  intro os
  induction os with
  | nil => intro s h; exact Fine.pure h []
  | cons o os ih =>
    intro s h
    unfold interruptSend
    split
    · exact ih s h
    · refine Fine.bind (Fine.ptraceCall h _ (by intro _ _ _ h; cases h)) fun v t _ ht _ => ?_
      split
      · exact ih t ht
      · exact Fine.bind (Fine.procKill ht o SIGINT) fun _ u _ hu _ => Fine.bind (ih u hu) fun _ w _ hw _ => Fine.pure hw _

theorem interruptSend_mem : ∀ (os : List Nat) (s t : DSt) (ws : List Nat), interruptSend K os s = (.ok ws, t) → ∀ o ∈ ws, o ∈ os := by
  intro os
  induction os with
  | nil => intro s t ws h; injection h with h _; injection h with h; rw [← h]; exact fun o h => h
  | cons o os ih =>
    intro s t ws h
    unfold interruptSend at h
    split at h
    · exact fun i hi => List.mem_cons_of_mem _ (ih s t ws h i hi)
    · obtain ⟨v, u, _, h⟩ := Py.ok_of_bind h
      split at h
      · exact fun i hi => List.mem_cons_of_mem _ (ih u t ws h i hi)
      · obtain ⟨_, u2, _, h⟩ := Py.ok_of_bind h
        obtain ⟨rest, u3, h1, h⟩ := Py.ok_of_bind h
        injection h with h _
        injection h with h
        rw [← h]
        intro i hi
        rcases List.mem_cons.1 hi with rfl | hi
        · exact List.mem_cons_self
        · exact List.mem_cons_of_mem _ (ih _ _ _ h1 i hi)

/-- Library code that succeeds and delivers no signal. -/
structure Calm (s t : DSt) : Prop where
  good : Good t
  next : s.next ≤ t.next
  pid : ∀ o, o < s.next → (t.heap o).pid = (s.heap o).pid
  log : ∃ g, t.log = s.log ++ g ∧ Mute g
  grow : ∃ l, t.list = s.list ++ l

theorem Fine.calm {α : Type} {s t : DSt} {r : Except Exc α} (h : Fine s (r, t)) (hr : ∀ o a b, r ≠ .error (.event (.exit o a b))) :
    Calm s t := ⟨h.good, h.next, h.pid, h.log, h.grow.elim id fun ⟨o, a, b, h⟩ => absurd h (hr o a b)⟩

theorem Calm.trans {s t u : DSt} (h1 : Calm s t) (h2 : Calm t u) : Calm s u := by
  obtain ⟨g1, e1, m1⟩ := h1.log
  obtain ⟨g2, e2, m2⟩ := h2.log
  obtain ⟨l1, f1⟩ := h1.grow
  obtain ⟨l2, f2⟩ := h2.grow
  refine ⟨h2.good, Nat.le_trans h1.next h2.next, ?_, ⟨g1 ++ g2, by rw [e2, e1, List.append_assoc], ?_⟩,
    ⟨l1 ++ l2, by rw [f2, f1, List.append_assoc]⟩⟩
  · intro o ho
    rw [h2.pid o (Nat.lt_of_lt_of_le ho h1.next), h1.pid o ho]
  · intro e he
    rcases List.mem_append.1 he with he | he
    · exact m1 e he
    · exact m2 e he

theorem Calm.refl {s : DSt} (h : Good s) : Calm s s :=
  ⟨h, Nat.le_refl _, fun _ _ => rfl, ⟨[], by simp, by (intro e he; cases he)⟩, ⟨[], by simp⟩⟩

theorem Calm.ready {g : GSt} {t : DSt} (h : Ready g) (hc : Calm g.dbg t) : Ready { g with dbg := t } := by
  have hf : Fine g.dbg ((.ok (), t) : Except Exc Unit × DSt) := ⟨hc.good, hc.next, hc.pid, hc.log, Or.inl hc.grow,
    by (intro o n h; cases h), by (intro o h; cases h)⟩
  obtain ⟨l, hl⟩ := hc.grow
  exact ⟨hc.good, by (show g.process ∈ t.list; rw [hl]; exact List.mem_append.2 (Or.inl h.mem)), h.held.fine hf⟩

theorem interruptWait_calm (hz : NoZero K) (fuel : Nat) : ∀ (os : List Nat) (s t : DSt), Good s → (∀ o ∈ os, o < s.next) →
    interruptWait K fuel os s = (.ok (), t) → Calm s t := by
  intro os
  induction os with
  | nil => intro s t h _ ht; injection ht with _ ht; rw [← ht]; exact Calm.refl h
  | cons o os ih =>
    intro s t h hos ht
    obtain ⟨_, u, h1, h2⟩ := Py.ok_of_bind ht
    have hp : some (s.heap o).pid ≠ some 0 := by
      intro h0
      injection h0 with h0
      exact h.pid.obj _ (hos o List.mem_cons_self) h0
    have hf := (waitSignals_fine hz h fuel [SIGINT] (some (s.heap o).pid) hp).1
    have hu : Calm s u := by
      generalize waitSignals K fuel [SIGINT] (some (s.heap o).pid) s = x at h1 hf
      obtain ⟨r, w⟩ := x
      have hdisp : ∀ q, eventDisplay K q w = (.ok (), u) → Calm w u := by
        intro q hq
        have := Fine.eventDisplay (K := K) hf.good q
        rw [hq] at this
        exact this.calm (by intro o a b h; cases h)
      split at h1
      · rename_i ev v he
        injection he with he1 he2
        injection h1 with _ h1
        subst h1 he2
        exact hf.calm (by intro o a b h; rw [h] at he1; cases he1)
      · rename_i q n v he
        injection he with he1 he2
        subst he2
        exact (hf.calm (by intro o a b h; rw [h] at he1; cases he1)).trans (hdisp q h1)
      · rename_i v he
        injection he with he1 he2
        injection h1 with _ h1
        subst h1 he2
        exact hf.calm (by intro o a b h; rw [h] at he1; cases he1)
      · cases h1
    exact hu.trans (ih u t hu.good (fun i hi => Nat.lt_of_lt_of_le (hos i (List.mem_cons_of_mem _ hi)) hu.next) h2)

theorem gdbInterrupt_calm (hz : NoZero K) (fuel : Nat) {g t : GSt} (h : Good g.dbg) (ht : gdbInterrupt K fuel g = (.ok (), t)) :
    t = { g with dbg := t.dbg } ∧ Calm g.dbg t.dbg := by
  obtain ⟨h2, h1⟩ := lift_eq (m := Py.bind (interruptSend K (iterate g.dbg)) (interruptWait K fuel)) ht
  refine ⟨h1, ?_⟩
  obtain ⟨ws, u, h3, h4⟩ := Py.ok_of_bind h2
  have hf := interruptSend_fine (K := K) (iterate g.dbg) g.dbg h
  have hm := interruptSend_mem _ _ _ _ h3
  rw [h3] at hf
  have hc := hf.calm (by intro o a b h; cases h)
  refine hc.trans (interruptWait_calm hz fuel ws u t.dbg hc.good ?_ h4)
  intro o ho
  exact Nat.lt_of_lt_of_le (h.reg.alloc o (hm o ho)) hc.next

/-- State at the prompt. -/
structure Prompt (g : GSt) : Prop where
  good : Good g.dbg
  mem : g.dbg.list = [] ∨ g.process ∈ g.dbg.list
  held : Held g

theorem Ready.prompt {g : GSt} (h : Ready g) : Prompt g := ⟨h.good, Or.inr h.mem, h.held⟩

theorem nextProcess_prompt {g t : GSt} (h : Good g.dbg) (hh : Held g) (ht : nextProcess g = (.ok (), t)) : Prompt t := by
  unfold nextProcess at ht
  split at ht
  · rename_i o os hl
    injection ht with _ ht
    rw [← ht]
    refine ⟨h, Or.inr ?_, hh⟩
    have hl : g.dbg.list = o :: os := hl
    show o ∈ g.dbg.list
    rw [hl]; exact List.mem_cons_self
  · rename_i hl
    injection ht with _ ht
    rw [← ht]
    exact ⟨h, Or.inl hl, hh⟩

theorem notRunning_gone (o : Nat) (s : DSt) : processTerminated K o s = (.ok (.exit o none none), gone o s) := by
  unfold processTerminated
  simp only [Py.bind, notRunning_run]
  rfl

theorem Good.gone (hz : NoZero K) {s : DSt} (h : Good s) {o : Nat} (ho : o < s.next) : Good (PT.gone o s) := by
  have := h.op (K := K) hz 0 (.processTerminated o) (by exact trivial)
  have hv : runOp K 0 (.processTerminated o) s = void (processTerminated K o) s := if_pos ho
  rw [hv, void_snd, notRunning_gone] at this
  exact this

theorem gone_list (o : Nat) (s : DSt) : (gone o s).list = s.list ∨ (gone o s).list = s.list.erase o := by
  unfold gone
  split
  · exact Or.inr rfl
  · exact Or.inl rfl

theorem gone_pid (o : Nat) (s : DSt) (i : Nat) : ((gone o s).heap i).pid = (s.heap i).pid := by
  unfold gone
  split
  · show ((setProc s o _).heap i).pid = _
    unfold setProc
    dsimp only
    split
    · rename_i h; rw [h]
    · rfl
  · unfold setProc
    dsimp only
    split
    · rename_i h; rw [h]
    · rfl

theorem gone_next (o : Nat) (s : DSt) : (gone o s).next = s.next := by
  unfold gone
  split <;> rfl

theorem gdbDeleteProcess_prompt (hz : NoZero K) {g t : GSt} (pid : Nat) (h : Ready g) (ht : gdbDeleteProcess K pid g = (.ok (), t)) :
    Prompt t := by
  unfold gdbDeleteProcess at ht
  split at ht
  · injection ht with _ ht; rw [← ht]; exact h.prompt
  · rename_i o ho
    have hlt : o < g.dbg.next := h.good.reg.alloc o ((h.good.reg.agree pid o).1 (dictGet_some ho)).1
    have hrun : lift (processTerminated K o) g = (.ok (.exit o none none), { g with dbg := gone o g.dbg }) := by
      unfold lift; rw [notRunning_gone]
    rw [Py.run_bind_ok hrun] at ht
    have hh : Held { g with dbg := gone o g.dbg } := by
      intro i n hi
      obtain ⟨h1, h2⟩ := h.held i n hi
      refine ⟨by (show i < (gone o g.dbg).next; rw [gone_next]; exact h1), ?_⟩
      show Waiting (gone o g.dbg).log ((gone o g.dbg).heap i).pid i n
      rw [gone_pid, gone_log]
      exact h2
    split at ht
    · exact nextProcess_prompt (h.good.gone hz (K := K) hlt) hh ht
    · rename_i hne
      injection ht with _ ht
      rw [← ht]
      refine ⟨h.good.gone hz (K := K) hlt, Or.inr ?_, hh⟩
      show g.process ∈ (gone o g.dbg).list
      rcases gone_list o g.dbg with hl | hl
      · rw [hl]; exact h.mem
      · rw [hl, List.mem_erase_of_ne (fun h => hne h.symm)]; exact h.mem

theorem gdbExcept_prompt (hz : NoZero K) (fuel : Nat) (G : GdbCfg) {g t : GSt} (e : Exc) (h : Safe ((.error e, g) : Except Exc Bool × GSt))
    (ht : gdbExcept K fuel G e g = (.ok (), t)) : Prompt t := by
  have hmem : (∀ o a b, e ≠ .event (.exit o a b)) → Ready g := fun he =>
    ⟨h.good, h.mem.elim id (fun ⟨o, a, b, h⟩ => by (injection h with h; exact absurd h (he o a b))), h.held⟩
  cases e with
  | interrupt =>
    obtain ⟨h1, h2⟩ := gdbInterrupt_calm hz fuel h.good ht
    rw [h1]
    exact (Calm.ready (hmem (by intro o a b h; cases h)) h2).prompt
  | event ev =>
    cases ev with
    | newProcess q =>
      injection ht with _ ht
      rw [← ht]
      exact (hmem (by intro o a b h; cases h)).prompt
    | signal o n =>
      obtain ⟨h1, h2⟩ := h.signal o n rfl
      exact (Safe.processSignal h.good h.held h1 h2 t ht).prompt
    | exit o a b => exact nextProcess_prompt h.good h.held ht
    | execution o =>
      have h1 : o ∈ g.dbg.list := h.exec o rfl
      have ht : gdbInterrupt K fuel { g with process := o } = (.ok (), t) := ht
      obtain ⟨h3, h2⟩ := gdbInterrupt_calm (g := { g with process := o }) hz fuel h.good ht
      rw [h3]
      exact (Calm.ready (g := { g with process := o }) ⟨h.good, h1, h.held⟩ h2).prompt
  | ptrace errno =>
    have hr := hmem (by intro o a b h; cases h)
    have ht : (if errno = some ESRCH then gdbDeleteProcess K (G.errPid g.dbg) g else (.ok (), g)) = (.ok (), t) := ht
    split at ht
    · exact gdbDeleteProcess_prompt hz _ hr ht
    · injection ht with _ ht; rw [← ht]; exact hr.prompt
  | _ => cases ht

/-! ### the main loop -/

theorem runs_safe (hz : NoZero K) (ha : NoAttachZero K) (fuel : Nat) (G : GdbCfg) (hG : NoEvent G) {g t : GSt} {cs : List Str}
    {r : Except Exc Bool} (h : Runs (gdbExecute K fuel G) g cs r t) (hg : Ready g) : Safe (r, t) := by
  induction h with
  | nil s => exact hg.safe true
  | fail h => rw [← h]; exact Safe.gdbExecute hz ha hg fuel G hG _
  | raised h => rw [← h]; exact Safe.gdbExecute hz ha hg fuel G hG _
  | step h rest ih =>
    refine ih (Safe.ready (a := true) ?_)
    rw [← h]
    exact Safe.gdbExecute hz ha hg fuel G hG _

theorem mainLine_prompt (hz : NoZero K) (ha : NoAttachZero K) (fuel : Nat) (G : GdbCfg) (hG : NoEvent G) {g g' : GSt}
    {p p' : Option Str} {command : Str} {quit : Bool} (hg : Ready g)
    (h : mainLine (gdbExecute K fuel G) (gdbExcept K fuel G) G.space command (p, g) = (.ok quit, (p', g'))) : Prompt g' := by
  unfold mainLine at h
  split at h
  · injection h with _ h; injection h with _ h; rw [← h]; exact hg.prompt
  · obtain ⟨ran, rest, _, hr, _⟩ := runLine_runs (gdbExecute K fuel G) G.space (splitOn ';' command) g
    have hs := runs_safe hz ha fuel G hG hr hg
    dsimp only at h
    generalize runLine (gdbExecute K fuel G) G.space (splitOn ';' command) g = x at h hs
    obtain ⟨r, t⟩ := x
    cases r with
    | ok ok =>
      injection h with _ h; injection h with _ h; rw [← h]
      exact hs.ready.prompt
    | error e =>
      dsimp only at h
      generalize hx : gdbExcept K fuel G e t = x at h
      obtain ⟨r2, u⟩ := x
      cases r2 with
      | ok _ =>
        injection h with _ h; injection h with _ h; rw [← h]
        exact gdbExcept_prompt hz fuel G e hs hx
      | error e2 => cases h

theorem gdbLoop_prompt (hz : NoZero K) (ha : NoAttachZero K) (fuel : Nat) (G : GdbCfg) (hG : NoEvent G) {g g' : GSt}
    {p p' : Option Str} {input : Input} {quit : Bool} (hg : Ready g)
    (h : gdbLoop K fuel G input (p, g) = (.ok quit, (p', g'))) : Prompt g' := by
  unfold gdbLoop mainLoop at h
  cases input with
  | eof => injection h with _ h; injection h with _ h; rw [← h]; exact hg.prompt
  | interrupt =>
    dsimp only at h
    generalize hx : gdbInterrupt K fuel g = x at h
    obtain ⟨r, u⟩ := x
    cases r with
    | ok _ =>
      injection h with _ h; injection h with _ h; rw [← h]
      obtain ⟨h3, h2⟩ := gdbInterrupt_calm hz fuel hg.good hx
      rw [h3]
      exact (Calm.ready hg h2).prompt
    | error e => cases h
  | line text =>
    dsimp only at h
    split at h
    · split at h
      · split at h
        · injection h with _ h; injection h with _ h; rw [← h]; exact hg.prompt
        · exact mainLine_prompt hz ha fuel G hG hg h
      · injection h with _ h; injection h with _ h; rw [← h]; exact hg.prompt
    · exact mainLine_prompt hz ha fuel G hG hg h

theorem greach_prompt (hz : NoZero K) (ha : NoAttachZero K) {fuel : Nat} {G : GdbCfg} (hG : NoEvent G) {g : GSt}
    (h : GReach K fuel G g) : Prompt g := by
  induction h with
  | start h ho => exact ⟨reach_good hz h, Or.inr ho, by (intro o n h; cases h)⟩
  | turn h hne run ih =>
    exact gdbLoop_prompt hz ha _ _ hG ⟨ih.good, ih.mem.elim (fun h => absurd h hne) id, ih.held⟩ run

end PT
