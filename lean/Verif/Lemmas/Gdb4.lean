import Verif.Lemmas.Gdb3

/-! Commands that neither continue nor signal, and what `cont` stores. -/

namespace PT
open Spec
variable {K : Kern}

/-- Nothing is delivered and `last_signal` is the same. -/
def Kept (g t : GSt) : Prop := t.last = g.last ∧ ∃ l, t.dbg.log = g.dbg.log ++ l ∧ Mute l

theorem Kept.refl (g : GSt) : Kept g g := ⟨rfl, [], by simp, by (intro e he; cases he)⟩

theorem Kept.trans {g t u : GSt} (h1 : Kept g t) (h2 : Kept t u) : Kept g u := by
  obtain ⟨a1, l1, b1, c1⟩ := h1
  obtain ⟨a2, l2, b2, c2⟩ := h2
  refine ⟨a2.trans a1, l1 ++ l2, by rw [b2, b1, List.append_assoc], ?_⟩
  intro e he
  rcases List.mem_append.1 he with he | he
  · exact c1 e he
  · exact c2 e he

theorem Kept.bind {α β : Type} {m : Py GSt α} {f : α → Py GSt β} {g : GSt} (hm : Kept g (m g).2)
    (hs : Safe (m g)) (hf : ∀ a t, m g = (.ok a, t) → Ready t → Kept t (f a t).2) : Kept g (Py.bind m f g).2 := by
  unfold Py.bind
  generalize hx : m g = x at *
  obtain ⟨r, t⟩ := x
  cases r with
  | error e => exact hm
  | ok a => exact hm.trans (hf a t rfl hs.ready)

theorem Kept.lift {α : Type} {m : Py DSt α} {g : GSt} (hm : Fine g.dbg (m g.dbg)) : Kept g (PT.lift m g).2 :=
  ⟨rfl, hm.log⟩

theorem Kept.look {g : GSt} (h : Ready g) : Kept g (PT.look K g).2 :=
  Kept.lift (Fine.ptraceCall h.good _ (by intro _ _ _ h; cases h))

theorem Kept.stepWait (hz : NoZero K) {g : GSt} (h : Ready g) (fuel : Nat) (b : Bool) : Kept g (PT.stepWait K fuel b g).2 := by
  have hp : some (g.dbg.heap g.process).pid ≠ some 0 := by
    intro h0
    injection h0 with h0
    exact h.good.pid.obj _ h.lt h0
  have hf := (waitSignals_fine hz h.good fuel [SIGTRAP] (some (g.dbg.heap g.process).pid) hp).1
  have hk := Kept.lift hf
  have hs := Safe.lift h hf
  unfold PT.stepWait
  generalize PT.lift (waitSignals K fuel [SIGTRAP] (some (g.dbg.heap g.process).pid)) g = x at *
  obtain ⟨r, t⟩ := x
  have hlook : ∀ {α : Type} (f : Nat → Py GSt α), (∀ v u, (f v u).2 = u) → Kept t (Py.bind (PT.look K) f t).2 := by
    intro α f hf
    have h1 : Kept t (PT.look K t).2 := Kept.lift (Fine.ptraceCall hs.good _ (by intro _ _ _ h; cases h))
    unfold Py.bind
    generalize PT.look K t = y at h1
    obtain ⟨r2, u⟩ := y
    cases r2 with
    | error e => exact h1
    | ok v => show Kept t (f v u).2; rw [hf]; exact h1
  cases r with
  | ok ev =>
    dsimp only
    refine hk.trans ?_
    split
    · exact hlook _ (fun _ _ => rfl)
    · exact Kept.refl _
  | error e =>
    dsimp only
    refine hk.trans ?_
    split
    · exact hlook _ (fun _ _ => rfl)
    · exact Kept.refl _

theorem Kept.gdbStep (hz : NoZero K) {g : GSt} (h : Ready g) (fuel : Nat) (enter : Bool) : Kept g (PT.gdbStep K fuel enter g).2 := by
  unfold PT.gdbStep
  split
  · have hf := Fine.procSingleStep (K := K) h.good g.process
    exact Kept.bind (Kept.lift hf) (Safe.lift h hf) fun _ t _ ht => Kept.stepWait hz ht fuel false
  · refine Kept.bind (Kept.look h) (Safe.look h) fun v t _ ht => ?_
    split
    · exact Kept.refl _
    · have hf := Fine.procCont (K := K) ht.good t.process
      exact Kept.bind (Kept.lift hf) (Safe.lift ht hf) fun _ u _ hu => Kept.stepWait hz hu fuel true

theorem Kept.argError {g : GSt} (e : Exc) : Kept g (PT.argError e g).2 := by
  unfold PT.argError
  split <;> exact Kept.refl _

/-- All commands but `cont` and `signal`. -/
theorem Kept.runCommand (hz : NoZero K) (ha : NoAttachZero K) {g : GSt} (h : Ready g) (fuel : Nat) (G : GdbCfg)
    (c : Command) (h1 : c ≠ .cont) (h2 : ∀ a, c ≠ .signal a) : Kept g (PT.runCommand K fuel G c g).2 := by
  cases c with
  | cont => exact absurd rfl h1
  | signal arg => exact absurd rfl (h2 arg)
  | attach arg =>
    show Kept g (gdbAttach K fuel G arg g).2
    unfold gdbAttach
    split
    · exact Kept.argError _
    · rename_i pid hp
      have hf := (addProcess_fine hz ha h.good fuel pid).1
      exact Kept.bind (Kept.lift hf) (Safe.lift h hf) fun o t ht hr => ⟨rfl, [], by (show t.dbg.log = _; simp), by (intro e he; cases he)⟩
  | step enter => exact Kept.gdbStep hz h fuel enter
  | «until» arg =>
    show Kept g (gdbUntil K fuel G arg g).2
    unfold gdbUntil
    split
    · exact Kept.argError _
    · exact Kept.gdbStep hz h fuel false
  | sys =>
    have hf := Fine.procSyscall (K := K) h.good g.process 0
    refine Kept.bind (Kept.lift hf) (Safe.lift h hf) fun _ t _ ht => ?_
    have hw : Fine t.dbg (waitSyscall K fuel (some t.process) t.dbg) := by
      refine (waitSignals_fine hz ht.good fuel _ _ ?_).1
      intro h0
      injection h0 with h0
      exact ht.good.pid.obj _ ht.lt h0
    refine Kept.bind (Kept.lift hw) (Safe.lift ht hw) fun _ u _ hu => ?_
    have hx := Fine.sysEvent hz hu.good fuel G.sys _ hu.lt
    exact Kept.bind (Kept.lift hx) (Safe.lift hu hx) fun _ v _ hv => Kept.refl _
  | switch arg =>
    show Kept g (gdbSwitch G arg g).2
    unfold gdbSwitch
    split
    · obtain ⟨i, hi, h2, ok, hj, hrun⟩ := gdbSwitchNext_run h.mem
      rw [hrun]
      exact ⟨rfl, [], by (show g.dbg.log = _; simp), by (intro e he; cases he)⟩
    · split
      · exact Kept.argError _
      · split
        · exact ⟨rfl, [], by (show g.dbg.log = _; simp), by (intro e he; cases he)⟩
        · exact Kept.refl _
  | look => exact Kept.bind (Kept.look h) (Safe.look h) fun _ t _ ht => Kept.refl _
  | info => exact Kept.refl _
  | unknown => exact Kept.refl _

theorem ite_cases {α : Type} {p : Prop} [Decidable p] {a b c : α} (h : (if p then a else b) = c) : (p ∧ a = c) ∨ b = c := by
  by_cases hp : p
  · rw [if_pos hp] at h; exact Or.inl ⟨hp, h⟩
  · rw [if_neg hp] at h; exact Or.inr h

theorem parseCommand_cont {c : Str} (h : parseCommand c = .cont) : c = "cont".toList := by
  unfold parseCommand at h
  rcases ite_cases h with ⟨hp, _⟩ | h
  · exact hp
  · iterate 29 (rcases ite_cases h with ⟨_, h⟩ | h; · cases h)
    cases h

theorem parseCommand_signal {c a : Str} (h : parseCommand c = .signal a) : "signal ".toList <+: c := by
  unfold parseCommand at h
  iterate 24 (rcases ite_cases h with ⟨_, h⟩ | h; · cases h)
  rcases ite_cases h with ⟨hp, _⟩ | h
  · exact List.isPrefixOf_iff_prefix.1 hp
  · iterate 5 (rcases ite_cases h with ⟨_, h⟩ | h; · cases h)
    cases h

theorem runs_kept (hz : NoZero K) (ha : NoAttachZero K) (fuel : Nat) (G : GdbCfg) (hG : NoEvent G) {g t : GSt} {cs : List Str}
    {r : Except Exc Bool} (h : Runs (gdbExecute K fuel G) g cs r t) (hg : Ready g)
    (hq : ∀ c ∈ cs, c ≠ "cont".toList ∧ ¬ ("signal ".toList <+: c)) : Kept g t := by
  have hone : ∀ {g c r t}, Ready g → c ≠ "cont".toList ∧ ¬ ("signal ".toList <+: c) → gdbExecute K fuel G c g = (r, t) → Kept g t := by
    intro g c r t hg hc h
    have := Kept.runCommand hz ha hg fuel G (parseCommand c) (fun h => hc.1 (parseCommand_cont h))
      (fun a h => hc.2 (parseCommand_signal h))
    have h : PT.runCommand K fuel G (parseCommand c) g = (r, t) := h
    rw [h] at this
    exact this
  induction h with
  | nil s => exact Kept.refl _
  | fail h => exact hone hg (hq _ List.mem_cons_self) h
  | raised h => exact hone hg (hq _ List.mem_cons_self) h
  | step h rest ih =>
    refine (hone hg (hq _ List.mem_cons_self) h).trans (ih (Safe.ready (a := true) ?_) fun c hc => hq c (List.mem_cons_of_mem _ hc))
    rw [← h]
    exact Safe.gdbExecute hz ha hg fuel G hG _

theorem processSignal_ok {g t : GSt} {o n : Nat} (h : processSignal K o n g = (.ok (), t)) :
    eventDisplay K o g.dbg = (.ok (), t.dbg) ∧ t.process = o ∧ t.last = fun i => if i = o then some n else g.last i := by
  obtain ⟨_, u, h1, h2⟩ := Py.ok_of_bind h
  obtain ⟨he, hu⟩ := lift_eq h1
  have h2 : ((.ok (), { u with process := o, last := fun i => if i = o then some n else u.last i }) : Except Exc Unit × GSt) = (.ok (), t) := h2
  injection h2 with _ h2
  subst h2
  refine ⟨he, rfl, ?_⟩
  rw [hu]

/-- `gdbExcept` delivers nothing; only a signal changes `last_signal`. -/
theorem gdbExcept_kept (hz : NoZero K) (fuel : Nat) (G : GdbCfg) {g t : GSt} (e : Exc) (h : Good g.dbg)
    (ht : gdbExcept K fuel G e g = (.ok (), t)) :
    (t.last = g.last ∨ ∃ o n, e = .event (.signal o n) ∧ t.process = o ∧ t.last = fun i => if i = o then some n else g.last i) ∧
    ∃ l, t.dbg.log = g.dbg.log ++ l ∧ Mute l := by
  have hnil : ∃ l, g.dbg.log = g.dbg.log ++ l ∧ Mute l := ⟨[], by simp, by (intro e he; cases he)⟩
  have hnext : ∀ {g t : GSt}, nextProcess g = (.ok (), t) → t.last = g.last ∧ t.dbg = g.dbg := by
    intro g t ht
    unfold nextProcess at ht
    split at ht
    · injection ht with _ ht; rw [← ht]; exact ⟨rfl, rfl⟩
    · injection ht with _ ht; rw [← ht]; exact ⟨rfl, rfl⟩
  cases e with
  | interrupt =>
    obtain ⟨h1, h2⟩ := gdbInterrupt_calm hz fuel h ht
    exact ⟨Or.inl (by rw [h1]), h2.log⟩
  | event ev =>
    cases ev with
    | newProcess q => injection ht with _ ht; rw [← ht]; exact ⟨Or.inl rfl, hnil⟩
    | signal o n =>
      obtain ⟨h1, h2, h3⟩ := processSignal_ok ht
      refine ⟨Or.inr ⟨o, n, rfl, h2, h3⟩, ?_⟩
      have hf : Fine g.dbg (eventDisplay K o g.dbg) := Fine.eventDisplay h o
      rw [h1] at hf
      exact hf.log
    | exit o a b =>
      obtain ⟨h1, h2⟩ := hnext ht
      exact ⟨Or.inl h1, by rw [h2]; exact hnil⟩
    | execution o =>
      have ht : gdbInterrupt K fuel { g with process := o } = (.ok (), t) := ht
      obtain ⟨h3, h2⟩ := gdbInterrupt_calm (g := { g with process := o }) hz fuel h ht
      exact ⟨Or.inl (by rw [h3]), h2.log⟩
  | ptrace errno =>
    have ht : (if errno = some ESRCH then gdbDeleteProcess K (G.errPid g.dbg) g else (.ok (), g)) = (.ok (), t) := ht
    split at ht
    · unfold gdbDeleteProcess at ht
      split at ht
      · injection ht with _ ht; rw [← ht]; exact ⟨Or.inl rfl, hnil⟩
      · rename_i o ho
        have hrun : lift (processTerminated K o) g = (.ok (.exit o none none), { g with dbg := gone o g.dbg }) := by
          unfold lift; rw [notRunning_gone]
        rw [Py.run_bind_ok hrun] at ht
        have hlog : (gone o g.dbg).log = g.dbg.log := gone_log o g.dbg
        split at ht
        · obtain ⟨h1, h2⟩ := hnext ht
          exact ⟨Or.inl h1, by rw [h2]; exact ⟨[], by (show (gone o g.dbg).log = _; rw [hlog]; simp), by (intro e he; cases he)⟩⟩
        · injection ht with _ ht; rw [← ht]
          exact ⟨Or.inl rfl, [], by (show (gone o g.dbg).log = _; rw [hlog]; simp), by (intro e he; cases he)⟩
    · injection ht with _ ht; rw [← ht]; exact ⟨Or.inl rfl, hnil⟩
  | _ => cases ht

/-! ### cont -/

theorem gdbCont_parts (hz : NoZero K) {g : GSt} (h : Ready g) (fuel n : Nat) :
    (∃ e t, gdbCont K fuel n g = (.error e, t) ∧ contAll K n g.dbg.list g = (.error e, t)) ∨
    (∃ u, contAll K n g.dbg.list g = (.ok (), u) ∧ Ready u ∧
      ((∃ e t, waitSignals K fuel [] none u.dbg = (.error e, t) ∧ gdbCont K fuel n g = (.error e, { u with dbg := t })) ∨
       (∃ ev t, waitSignals K fuel [] none u.dbg = (.ok ev, t) ∧ gdbCont K fuel n g = contSignal K ev { u with dbg := t } ∧
          Ready { u with dbg := t }))) := by
  have hs := Safe.contAll (K := K) n g.dbg.list g h
  unfold gdbCont
  generalize hx : contAll K n g.dbg.list g = x at hs
  obtain ⟨r, u⟩ := x
  have hx : contAll K n (iterate g.dbg) g = (r, u) := hx
  cases r with
  | error e => exact Or.inl ⟨e, u, Py.run_bind_error hx, rfl⟩
  | ok v =>
    refine Or.inr ⟨u, rfl, hs.ready, ?_⟩
    rw [Py.run_bind_ok hx]
    have hf := (waitSignals_fine hz hs.ready.good fuel [] none (by intro h; cases h)).1
    have hsw := Safe.lift hs.ready hf
    generalize hy : waitSignals K fuel [] none u.dbg = y at hf
    obtain ⟨r2, t⟩ := y
    have hl : lift (waitSignals K fuel [] none) u = (r2, { u with dbg := t }) := by unfold lift; rw [hy]
    rw [hl] at hsw
    cases r2 with
    | error e => exact Or.inl ⟨e, t, rfl, Py.run_bind_error hl⟩
    | ok ev => exact Or.inr ⟨ev, t, rfl, Py.run_bind_ok hl, hsw.ready⟩

theorem look_log {g t : GSt} {r : Except Exc Nat} (h : look K g = (r, t)) :
    (∃ e, t.dbg.log = g.dbg.log ++ [e] ∧ ∃ i p, e.call = .inspect i p) ∧ t.last = g.last ∧ t.process = g.process ∧ t.dbg.list = g.dbg.list ∧
      t.dbg.heap = g.dbg.heap := by
  unfold look lift at h
  rw [ptraceCall_run] at h
  injection h with _ h
  subst h
  exact ⟨⟨_, rfl, _, _, rfl⟩, rfl, rfl, rfl, rfl⟩

theorem eventDisplay_log {o : Nat} {s t : DSt} {r : Except Exc Unit} (h : eventDisplay K o s = (r, t)) :
    (∃ e, t.log = s.log ++ [e] ∧ (∃ i p, e.call = .display i p) ∧ (r = .ok () → Accepted e)) ∧ t.list = s.list ∧ t.heap = s.heap := by
  unfold eventDisplay at h
  cases hk : ptraceRes (K s.log (.display o (s.heap o).pid)) with
  | error e =>
    have h1 : ptraceCall K (.display o (s.heap o).pid) s = (.error e, logCall K (.display o (s.heap o).pid) s) := by
      rw [ptraceCall_run, hk]
    rw [Py.run_bind_error h1] at h
    injection h with h h2
    subst h2
    exact ⟨⟨_, rfl, ⟨_, _, rfl⟩, by (intro hr; rw [hr] at h; cases h)⟩, rfl, rfl⟩
  | ok v =>
    have h1 : ptraceCall K (.display o (s.heap o).pid) s = (.ok v, logCall K (.display o (s.heap o).pid) s) := by
      rw [ptraceCall_run, hk]
    rw [Py.run_bind_ok h1] at h
    injection h with h h2
    subst h2
    exact ⟨⟨_, rfl, ⟨_, _, rfl⟩, fun _ => ptraceRes_accepted hk⟩, rfl, rfl⟩

/-- What `contSignal` does. -/
theorem contSignal_cases {g t : GSt} {o n : Nat} {r : Except Exc Bool} (h : contSignal K (.signal o n) g = (r, t)) :
    (∃ e, t.dbg.log = g.dbg.log ++ [e] ∧ target e.call = none ∧ ((∃ i p, e.call = .display i p) → n ≠ SIGTRAP)) ∧
    t.dbg.list = g.dbg.list ∧ t.dbg.heap = g.dbg.heap ∧
    ((t.last = g.last ∧ (n = SIGTRAP ∨ ∃ e, r = .error e ∧ ∀ ev, e ≠ .event ev)) ∨
      (n ≠ SIGTRAP ∧ r = .ok true ∧ t.process = o ∧ t.last = fun i => if i = o then some n else g.last i)) := by
  unfold contSignal at h
  dsimp only at h
  split at h
  · rename_i hn
    generalize hy : look K g = y at h
    obtain ⟨r2, u⟩ := y
    obtain ⟨⟨e, h1, i, p, hc⟩, h2, h3, h4, h5⟩ := look_log hy
    have htu : t = u := by
      cases r2 with
      | error e => rw [Py.run_bind_error hy] at h; injection h with _ h; exact h.symm
      | ok v => rw [Py.run_bind_ok hy] at h; injection h with _ h; exact h.symm
    subst htu
    exact ⟨⟨e, h1, by rw [hc]; rfl, by (rintro ⟨i2, p2, h⟩; rw [hc] at h; cases h)⟩, h4, h5, Or.inl ⟨h2, Or.inl hn⟩⟩
  · rename_i hn
    generalize hy : processSignal K o n g = y at h
    obtain ⟨r2, u⟩ := y
    cases r2 with
    | error e =>
      rw [Py.run_bind_error hy] at h
      injection h with h h'
      subst h'
      obtain ⟨h1, h2, h3⟩ := processSignal_error hy
      obtain ⟨⟨e2, a1, ⟨i, p, a2⟩, _⟩, a3, a4⟩ := eventDisplay_log h1
      exact ⟨⟨e2, a1, by rw [a2]; rfl, fun _ => hn⟩, a3, a4, Or.inl ⟨by rw [h2], Or.inr ⟨e, h.symm, h3⟩⟩⟩
    | ok v =>
      rw [Py.run_bind_ok hy] at h
      injection h with h h'
      subst h'
      obtain ⟨h1, h2, h3⟩ := processSignal_ok hy
      obtain ⟨⟨e2, a1, ⟨i, p, a2⟩, _⟩, a3, a4⟩ := eventDisplay_log h1
      exact ⟨⟨e2, a1, by rw [a2]; rfl, fun _ => hn⟩, a3, a4, Or.inr ⟨hn, h.symm, h2, h3⟩⟩

theorem contSignal_last {g t : GSt} {o n : Nat} {r : Except Exc Bool} (h : contSignal K (.signal o n) g = (r, t)) (d : Entry)
    (hd : t.dbg.log = g.dbg.log ++ [d]) : ∃ i p, d.call = .display i p ∨ d.call = .inspect i p := by
  unfold contSignal at h
  dsimp only at h
  split at h
  · generalize hy : look K g = y at h
    obtain ⟨r2, u⟩ := y
    obtain ⟨⟨e, h1, i, p, hc⟩, _⟩ := look_log hy
    have htu : t = u := by
      cases r2 with
      | error e => rw [Py.run_bind_error hy] at h; injection h with _ h; exact h.symm
      | ok v => rw [Py.run_bind_ok hy] at h; injection h with _ h; exact h.symm
    rw [htu, h1] at hd
    have := List.singleton_inj.1 (List.append_inj' hd rfl).2
    exact ⟨i, p, Or.inr (by rw [← this]; exact hc)⟩
  · generalize hy : processSignal K o n g = y at h
    obtain ⟨r2, u⟩ := y
    have key : ∃ e, u.dbg.log = g.dbg.log ++ [e] ∧ ∃ i p, e.call = .display i p := by
      cases r2 with
      | error e =>
        obtain ⟨⟨e2, a1, a2, _⟩, _⟩ := eventDisplay_log (processSignal_error hy).1
        exact ⟨e2, a1, a2⟩
      | ok v =>
        obtain ⟨⟨e2, a1, a2, _⟩, _⟩ := eventDisplay_log (processSignal_ok hy).1
        exact ⟨e2, a1, a2⟩
    have htu : t = u := by
      cases r2 with
      | error e => rw [Py.run_bind_error hy] at h; injection h with _ h; exact h.symm
      | ok v => rw [Py.run_bind_ok hy] at h; injection h with _ h; exact h.symm
    obtain ⟨e, h1, i, p, hc⟩ := key
    rw [htu, h1] at hd
    have := List.singleton_inj.1 (List.append_inj' hd rfl).2
    exact ⟨i, p, Or.inl (by rw [← this]; exact hc)⟩

end PT
