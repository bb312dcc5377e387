import Verif.Lemmas.Gdb2

/-! The requests of `cont` and what the commands leave in `last_signal`. -/

namespace PT
open Spec
variable {K : Kern}

theorem pending_owed {g : GSt} {n o : Nat} :
    pendingSignal g o (if o = g.process then n else 0) = owed g n o := by
  unfold pendingSignal owed
  by_cases h : o = g.process
  · rw [if_pos h]
    by_cases hn : n = 0
    · rw [if_pos hn, if_neg (fun h => h.2 hn)]
    · rw [if_neg hn, if_pos ⟨h, hn⟩]
  · have h2 : ¬ (o = g.process ∧ n ≠ 0) := fun h' => h h'.1
    rw [if_neg h2, if_neg h, if_pos rfl]

/-- What `_continueProcess` does. -/
theorem continueProcess_run (o n : Nat) (g : GSt) (m : Nat) (hm : pendingSignal g o n = m) :
    continueProcess K o n g =
    match ptraceRes (K g.dbg.log (contCall g.dbg o m)) with
    | .ok _ => (.ok (), ⟨setProc (logCall K (contCall g.dbg o m) g.dbg) o { g.dbg.heap o with isStopped := false }, g.process,
        fun i => if i = o ∧ m ≠ 0 then none else g.last i⟩)
    | .error e => (.error e, { g with dbg := logCall K (contCall g.dbg o m) g.dbg }) := by
  unfold continueProcess
  rw [hm]
  by_cases h0 : m = 0
  · rw [if_neg (fun h => h h0)]
    subst h0
    unfold lift
    rw [procCont_out]
    cases ptraceRes (K g.dbg.log (contCall g.dbg o 0)) with
    | error e => rfl
    | ok v =>
      have : (fun i => if i = o ∧ (0 : Nat) ≠ 0 then none else g.last i) = g.last := by
        funext i; exact if_neg (fun h => h.2 rfl)
      rw [this]
  · rw [if_pos h0]
    unfold Py.bind lift
    rw [procCont_out]
    cases ptraceRes (K g.dbg.log (contCall g.dbg o m)) with
    | error e => rfl
    | ok v =>
      have : (fun i => if i = o ∧ m ≠ 0 then none else g.last i) = fun i => if i = o then none else g.last i := by
        funext i
        by_cases hi : i = o
        · rw [if_pos ⟨hi, h0⟩, if_pos hi]
        · rw [if_neg (fun h => hi h.1), if_neg hi]
      rw [this]
      rfl

/-- Result of the loop over all processes. -/
structure Sent (n : Nat) (os : List Nat) (g : GSt) (r : Except Exc Unit) (t : GSt) : Prop where
  process : t.process = g.process
  next : t.dbg.next = g.dbg.next
  list : t.dbg.list = g.dbg.list
  pid : ∀ i, (t.dbg.heap i).pid = (g.dbg.heap i).pid
  event : ∀ ev, r ≠ .error (.event ev)
  log : ∃ sent, t.dbg.log = g.dbg.log ++ sent ∧ sent.map Entry.call <+: os.map (resume g n) ∧
    (r = .ok () → sent.map Entry.call = os.map (resume g n) ∧ ∀ e ∈ sent, Accepted e) ∧
    (∀ i, t.last i = g.last i ∨ (t.last i = none ∧ ∃ e ∈ sent, e.call = resume g n i ∧ Accepted e))
  last : r = .ok () → t.last = fun i => if i ∈ os ∧ owed g n i ≠ 0 then none else g.last i

theorem ptraceRes_noEvent {r : Reply} {e : Exc} (h : ptraceRes r = .error e) (ev : Event) : e ≠ .event ev := by
  cases r <;> cases h <;> (intro h; cases h)

theorem ptraceRes_accepted {r : Reply} {v : Nat} (h : ptraceRes r = .ok v) : ∃ v st, r = .ok v st := by
  cases r with
  | ok v st => exact ⟨v, st, rfl⟩
  | err e => cases h
  | interrupt => cases h

theorem contAll_sent (n : Nat) : ∀ (os : List Nat) (g : GSt), os.Nodup → Sent n os g (contAll K n os g).1 (contAll K n os g).2 := by
  intro os
  induction os with
  | nil =>
    intro g _
    refine ⟨rfl, rfl, rfl, fun _ => rfl, by (intro ev h; cases h), ⟨[], by (show g.dbg.log = _; simp), List.prefix_refl _,
      fun _ => ⟨rfl, by (intro e he; cases he)⟩, fun i => Or.inl rfl⟩, fun _ => ?_⟩
    funext i
    exact (if_neg (fun h => by cases h.1)).symm
  | cons o os ih =>
    intro g hnd
    obtain ⟨hno, hnd⟩ := List.nodup_cons.1 hnd
    -- clearing the state of the system call
    let g1 : GSt := { g with dbg := (sysClear o g.dbg).2 }
    have h1 : lift (sysClear o) g = (.ok (), g1) := rfl
    have hpid1 : ∀ i, (g1.dbg.heap i).pid = (g.dbg.heap i).pid := by
      intro i
      show (if i = o then _ else g.dbg.heap i : Proc).pid = _
      split
      · rename_i h; rw [h]
      · rfl
    have how : ∀ i, owed g1 n i = owed g n i := fun _ => rfl
    let m := owed g n o
    have hcall : contCall g1.dbg o m = resume g n o := by
      show Call.cont o (g1.dbg.heap o).pid _ = Call.cont o (g.dbg.heap o).pid _
      rw [hpid1]
      rfl
    have hrun := continueProcess_run (K := K) o (if o = g1.process then n else 0) g1 m pending_owed
    have hstep : contAll K n (o :: os) g = Py.bind (fun g => (if o = g.process then continueProcess K o n else continueProcess K o 0) g)
        (fun _ => contAll K n os) g1 := Py.run_bind_ok h1
    have hif : (if o = g1.process then continueProcess K o n else continueProcess K o 0) g1 =
        continueProcess K o (if o = g1.process then n else 0) g1 := by
      split <;> rfl
    rw [hstep]
    cases hk : ptraceRes (K g1.dbg.log (contCall g1.dbg o m)) with
    | error e =>
      rw [hk] at hrun
      have : Py.bind (fun g => (if o = g.process then continueProcess K o n else continueProcess K o 0) g)
          (fun _ => contAll K n os) g1 = (.error e, { g1 with dbg := logCall K (contCall g1.dbg o m) g1.dbg }) :=
        Py.run_bind_error (hif.trans hrun)
      rw [this]
      refine ⟨rfl, rfl, rfl, hpid1, ?_, ⟨[⟨contCall g1.dbg o m, K g1.dbg.log (contCall g1.dbg o m), g1.dbg.dict⟩], rfl, ?_, ?_, ?_⟩, ?_⟩
      · intro ev h; injection h with h; exact ptraceRes_noEvent hk ev h
      · show [contCall g1.dbg o m] <+: _
        rw [hcall]
        exact ⟨os.map (resume g n), rfl⟩
      · intro h; cases h
      · exact fun i => Or.inl rfl
      · intro h; cases h
    | ok v =>
      rw [hk] at hrun
      let g2 : GSt := ⟨setProc (logCall K (contCall g1.dbg o m) g1.dbg) o { g1.dbg.heap o with isStopped := false }, g1.process,
        fun i => if i = o ∧ m ≠ 0 then none else g1.last i⟩
      have hrun : continueProcess K o (if o = g1.process then n else 0) g1 = (.ok (), g2) := hrun
      have : Py.bind (fun g => (if o = g.process then continueProcess K o n else continueProcess K o 0) g)
          (fun _ => contAll K n os) g1 = contAll K n os g2 := Py.run_bind_ok (hif.trans hrun)
      rw [this]
      have hs := ih g2 hnd
      have hpid2 : ∀ i, (g2.dbg.heap i).pid = (g.dbg.heap i).pid := by
        intro i
        rw [← hpid1 i]
        show (if i = o then _ else g1.dbg.heap i : Proc).pid = _
        split
        · rename_i h; rw [h]
        · rfl
      have hlast2 : ∀ i, i ≠ o → g2.last i = g.last i := fun i hi => if_neg (fun h => hi h.1)
      have how2 : ∀ i, i ≠ o → owed g2 n i = owed g n i := by
        intro i hi
        unfold owed
        rw [hlast2 i hi]
      have hres : ∀ i, i ≠ o → resume g2 n i = resume g n i := by
        intro i hi
        unfold resume
        rw [how2 i hi, hpid2 i]
      have hmap : os.map (resume g2 n) = os.map (resume g n) := by
        apply List.map_congr_left
        intro i hi
        exact hres i (fun h => hno (h ▸ hi))
      obtain ⟨sent, hl, hpre, hok, hlast⟩ := hs.log
      have hacc : Accepted ⟨contCall g1.dbg o m, K g1.dbg.log (contCall g1.dbg o m), g1.dbg.dict⟩ := ptraceRes_accepted hk
      refine ⟨hs.process, hs.next, hs.list, fun i => (hs.pid i).trans (hpid2 i), hs.event,
        ⟨⟨contCall g1.dbg o m, K g1.dbg.log (contCall g1.dbg o m), g1.dbg.dict⟩ :: sent, ?_, ?_, ?_, ?_⟩, ?_⟩
      · rw [hl]
        show (g.dbg.log ++ [_]) ++ sent = _
        rw [List.append_assoc]; rfl
      · rw [List.map_cons, List.map_cons, ← hmap]
        show contCall g1.dbg o m :: _ <+: _
        rw [hcall]
        exact (List.prefix_cons_inj _).2 hpre
      · intro hr
        obtain ⟨h3, h4⟩ := hok hr
        refine ⟨?_, ?_⟩
        · rw [List.map_cons, List.map_cons, h3, hmap]
          show contCall g1.dbg o m :: _ = _
          rw [hcall]
        · intro e he
          rcases List.mem_cons.1 he with rfl | he
          · exact hacc
          · exact h4 e he
      · intro i
        by_cases hio : i = o
        · subst hio
          rcases hlast i with h | ⟨h, _⟩
          · rw [h]
            by_cases hm : m = 0
            · exact Or.inl (if_neg (fun h => h.2 hm))
            · exact Or.inr ⟨if_pos ⟨rfl, hm⟩, _, List.mem_cons_self, hcall, hacc⟩
          · exact Or.inr ⟨h, _, List.mem_cons_self, hcall, hacc⟩
        · rcases hlast i with h | ⟨h, e, he, hc, ha⟩
          · exact Or.inl (h.trans (hlast2 i hio))
          · exact Or.inr ⟨h, e, List.mem_cons_of_mem _ he, hc.trans (hres i hio), ha⟩
      · intro hr
        rw [hs.last hr]
        funext i
        by_cases hio : i = o
        · subst hio
          have : ¬ (i ∈ os ∧ owed g2 n i ≠ 0) := fun h => hno h.1
          rw [if_neg this]
          show (if i = i ∧ m ≠ 0 then none else g.last i) = _
          by_cases hm : m = 0
          · rw [if_neg (fun h => h.2 hm), if_neg (fun h => h.2 hm)]
          · rw [if_pos ⟨rfl, hm⟩, if_pos ⟨List.mem_cons_self, hm⟩]
        · rw [how2 i hio, hlast2 i hio]
          by_cases h : i ∈ os ∧ owed g n i ≠ 0
          · rw [if_pos h, if_pos ⟨List.mem_cons_of_mem _ h.1, h.2⟩]
          · rw [if_neg h, if_neg]
            rintro ⟨h5, h6⟩
            rcases List.mem_cons.1 h5 with h5 | h5
            · exact hio h5
            · exact h ⟨h5, h6⟩

/-- Waiting acts on no process; an accepted signal is the last entry of the log. -/
theorem waitSignals_log (hz : NoZero K) {s : DSt} (hs : Good s) (fuel : Nat) (signals : List Nat) (wanted : Option Nat)
    (hw : wanted ≠ some 0) : (∃ l, (waitSignals K fuel signals wanted s).2.log = s.log ++ l ∧ ∀ e ∈ l, target e.call = none) ∧
    (∀ ev t, waitSignals K fuel signals wanted s = (.ok ev, t) → ∃ o n g e nohang wall st, ev = .signal o n ∧
      o ∈ t.list ∧ t.log = g ++ [e] ∧ e.call = .waitpid (some (t.heap o).pid) nohang wall ∧
      e.reply = .ok (t.heap o).pid st ∧ Spec.waitMeaning st = .signal n) := by
  constructor
  · have hsteps := waitSignals_wait (K := K) (P := fun _ a => a = .call .sleep ∨ waitActs True a) (fun _ _ h => Or.inr h)
      (fun _ => Or.inl rfl) fuel signals wanted s
    exact hsteps.newLog (Q := fun e => target e.call = none) (by
      rintro u a c (rfl | h) hc
      · injection hc with hc; rw [← hc]; rfl
      · exact (waitActs_target h hc).1)
  · intro ev t h
    obtain ⟨r, u, h1, h2⟩ := Py.ok_of_bind h
    obtain ⟨o, n, rfl, rfl, hsame⟩ : ∃ o n, r = some (.signal o n) ∧ ev = .signal o n ∧ t = u := by
      cases r with
      | none => cases h2
      | some r =>
        cases r with
        | signal o n =>
          have h2 : (if signals.contains n || signals.isEmpty then Py.pure (.signal o n) else Py.raise (.event (.signal o n)) : Py DSt Event) u = (.ok ev, t) := h2
          split at h2
          · injection h2 with h2 h3
            injection h2 with h2
            exact ⟨o, n, rfl, h2.symm, h3.symm⟩
          · cases h2
        | _ => cases h2
    subst hsame
    rcases waitProcessEvent_cases hz hs fuel wanted hw _ _ h1 with ⟨pid, b, w, hp0, hp, hu, hout, hne⟩ | ⟨hu, e, he, hev⟩
    · obtain ⟨hg, st, hk, hc, ht⟩ := hout
      have ht : t = setProc (logCall K (waitCall w pid b o) w) o { w.heap o with isStopped := true } := ht
      have hm := ((hu.regInv hs.reg).agree pid o).1 (dictGet_some hg)
      have hpid : (t.heap o).pid = pid := by
        rw [ht, setProc_same]
        exact hm.2
      refine ⟨o, n, w.log, ⟨waitCall w pid b o, .ok pid st, w.dict⟩, !b, (w.heap o).isThread, st, rfl, by (rw [ht]; exact hm.1), ?_, ?_, ?_, hc⟩
      · rw [ht]
        show w.log ++ [⟨_, K w.log (waitCall w pid b o), _⟩] = _
        rw [hk]
      · rw [hpid]; rfl
      · rw [hpid]
    · cases he

end PT
