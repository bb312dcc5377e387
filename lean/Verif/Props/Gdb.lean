import Verif.Props.Strace
import Verif.Lemmas.Gdb4

/-! Properties C43, C44 and C46: signals, switching and command lines of `gdb.py`. -/

namespace PT
open Spec
variable {K : Kern}

/-! Kernels and settings used by the examples. -/

/-- Process 7 stops with `SIGSTOP`; once continued it gets `SIGUSR1`, and once that was delivered
`SIGUSR2`. Process 9 is only ever stopped by `SIGSTOP`, and never reported after that. -/
def usr : Kern := fun log c =>
  match c with
  | .attach _ 0 => .err 3
  | .waitpid (some 7) _ _ =>
    if log.any fun e => decide (e.call = .cont 0 7 10) then .ok 7 0x0c7f
    else if log.any fun e => decide (e.call = .cont 0 7 0) then .ok 7 0x0a7f
    else .ok 7 0x137f
  | c => calm log c

theorem realPids_usr : RealPids usr := by intro log o pid st h; injection h with h _; cases h
theorem noAttachZero_usr : NoAttachZero usr := by intro log o v st h; cases h

/-- No expressions; one signal name. -/
def plainGdb : GdbCfg where
  space c := c == ' '
  parse _ _ := .error .value
  signals := [("SIGUSR1".toList, 10)]
  errPid _ := 7
  sys := readCalls

theorem noEvent_plain : NoEvent plainGdb := by intro s t ev h; cases h

/-- The debugger of process 7. -/
def gdbOne (K : Kern) : GSt := ⟨one K, 0, fun _ => none⟩

theorem gdbOne_reach : GReach usr 9 plainGdb (gdbOne usr) := .start (one_reach usr) (by decide +kernel)

/-- The debugger of the processes 7 and 9. -/
def gdbTwo (K : Kern) : GSt := ⟨two K, 0, fun _ => none⟩

theorem gdbTwo_reach : GReach usr 9 plainGdb (gdbTwo usr) := .start (reach_two usr) (by decide +kernel)

theorem greach_ready (hz : RealPids K) (ha : NoAttachZero K) {fuel : Nat} {G : GdbCfg} (hG : NoEvent G) {g : GSt}
    (h : GReach K fuel G g) (hne : iterate g.dbg ≠ []) : Ready g := by
  have := greach_prompt hz ha hG h
  exact ⟨this.good, this.mem.elim (fun h => absurd h hne) id, this.held⟩

/-! ### C43 -/

/-- **C43** What `cont` sends: one request for each process in the order of registration, each with the
given signal (for the current process only) or the one that interrupted it, until one fails; then it
acts on no process. A signal is dropped only after the request with it was accepted. -/
theorem C43_passed (K : Kern) (hz : RealPids K) (ha : NoAttachZero K) (fuel : Nat) (G : GdbCfg) (hG : NoEvent G) (g t : GSt)
    (hg : GReach K fuel G g) (hne : iterate g.dbg ≠ []) (n : Nat) (r : Except Exc Bool) (h : gdbCont K fuel n g = (r, t)) :
    ∃ sent more, t.dbg.log = g.dbg.log ++ sent ++ more ∧
      sent.map Entry.call <+: (iterate g.dbg).map (resume g n) ∧ (∀ e ∈ more, target e.call = none) ∧
      (((∃ ok, r = .ok ok) ∨ ∃ ev, r = .error (.event ev)) →
        sent.map Entry.call = (iterate g.dbg).map (resume g n) ∧ ∀ e ∈ sent, Accepted e) ∧
      (∀ i, t.last i = none → g.last i = none ∨ ∃ e ∈ sent, e.call = resume g n i ∧ Accepted e) := by
  have hr := greach_ready hz ha hG hg hne
  have hs := contAll_sent (K := K) n g.dbg.list g hr.good.reg.nodup
  have hdrop : ∀ {sent : List Entry} {u : GSt}, (∀ i, u.last i = g.last i ∨ (u.last i = none ∧ ∃ e ∈ sent, e.call = resume g n i ∧ Accepted e)) →
      ∀ i, u.last i = none → g.last i = none ∨ ∃ e ∈ sent, e.call = resume g n i ∧ Accepted e := by
    intro sent u h i hi
    rcases h i with h | ⟨_, h⟩
    · exact Or.inl (by rw [← h]; exact hi)
    · exact Or.inr h
  rcases gdbCont_parts hz hr fuel n with ⟨e, t', h1, h2⟩ | ⟨u, h1, hu, ⟨e, w, h2, h3⟩ | ⟨ev, w, h2, h3, hw⟩⟩
  · rw [h1] at h
    injection h with hr' ht
    subst ht hr'
    rw [h2] at hs
    obtain ⟨sent, hl, hpre, _, hlast⟩ := hs.log
    refine ⟨sent, [], by rw [List.append_nil]; exact hl, hpre, by (intro e he; cases he), ?_, hdrop hlast⟩
    rintro (⟨ok, h⟩ | ⟨ev, h⟩)
    · cases h
    · injection h with h; exact absurd (by rw [h]) (hs.event ev)
  · rw [h3] at h
    injection h with hr' ht
    subst ht
    rw [h1] at hs
    obtain ⟨sent, hl, hpre, hok, hlast⟩ := hs.log
    obtain ⟨l, hl2, hm⟩ := (waitSignals_log hz hu.good fuel [] none (by intro h; cases h)).1
    rw [h2] at hl2
    exact ⟨sent, l, by (rw [← hl]; exact hl2), hpre, hm, fun _ => hok rfl, hdrop (u := { u with dbg := w }) hlast⟩
  · rw [h3] at h
    rw [h1] at hs
    obtain ⟨sent, hl, hpre, hok, hlast⟩ := hs.log
    obtain ⟨⟨l, hl2, hm⟩, hsig⟩ := waitSignals_log hz hu.good fuel [] none (by intro h; cases h)
    obtain ⟨o, m, _, _, _, _, _, rfl, _⟩ := hsig ev w h2
    rw [h2] at hl2
    obtain ⟨⟨e, he, hte, _⟩, _, _, hst⟩ := contSignal_cases h
    refine ⟨sent, l ++ [e], ?_, hpre, ?_, fun _ => hok rfl, ?_⟩
    · rw [he]
      show w.log ++ [e] = _
      rw [hl2, hl]
      simp
    · intro e' he'
      rcases List.mem_append.1 he' with he' | he'
      · exact hm e' he'
      · rw [List.mem_singleton.1 he']; exact hte
    · intro i hi
      rcases hst with ⟨h4, _⟩ | ⟨_, _, _, h4⟩
      · rw [h4] at hi
        exact hdrop (u := u) hlast i hi
      · rw [h4] at hi
        have hi : (if i = o then some m else u.last i) = none := hi
        by_cases hio : i = o
        · rw [if_pos hio] at hi; cases hi
        · rw [if_neg hio] at hi
          exact hdrop (u := u) hlast i hi

/-- The first `cont` sends nothing and `SIGUSR1` arrives; the second `cont` sends it to process 7, and only
to it. -/
example : (gdbCont usr 9 0 (gdbTwo usr)).1 = .ok true ∧
    (iterate (gdbTwo usr).dbg).map (resume (gdbTwo usr) 0) = [.cont 0 7 0, .cont 1 9 0] ∧
    (gdbCont usr 9 0 (gdbCont usr 9 0 (gdbTwo usr)).2).1 = .ok true ∧
    (iterate (gdbCont usr 9 0 (gdbTwo usr)).2.dbg).map (resume (gdbCont usr 9 0 (gdbTwo usr)).2 0)
      = [.cont 0 7 10, .cont 1 9 0] ∧
    (iterate (gdbCont usr 9 0 (gdbTwo usr)).2.dbg).map (resume (gdbCont usr 9 0 (gdbTwo usr)).2 15)
      = [.cont 0 7 15, .cont 1 9 0] := by
  decide +kernel

/-- **C43** After `cont` nothing that was sent is kept: the only signals kept are those of processes that
were sent none, and the one that ended this `cont`. -/
theorem C43_cleared (K : Kern) (hz : RealPids K) (ha : NoAttachZero K) (fuel : Nat) (G : GdbCfg) (hG : NoEvent G) (g t : GSt)
    (hg : GReach K fuel G g) (hne : iterate g.dbg ≠ []) (n : Nat) (r : Except Exc Bool) (h : gdbCont K fuel n g = (r, t))
    (hr : (∃ ok, r = .ok ok) ∨ ∃ ev, r = .error (.event ev)) :
    ∃ kept : Nat → Option Nat, (∀ i, kept i = if i ∈ iterate g.dbg ∧ owed g n i ≠ 0 then none else g.last i) ∧
      (t.last = kept ∨ ∃ m, r = .ok true ∧ t.last = fun i => if i = t.process then some m else kept i) := by
  have hrd := greach_ready hz ha hG hg hne
  have hs := contAll_sent (K := K) n g.dbg.list g hrd.good.reg.nodup
  rcases gdbCont_parts hz hrd fuel n with ⟨e, t', h1, h2⟩ | ⟨u, h1, hu, ⟨e, w, h2, h3⟩ | ⟨ev, w, h2, h3, hw⟩⟩
  · rw [h1] at h
    injection h with hr' ht
    rw [h2] at hs
    subst hr'
    rcases hr with ⟨ok, h⟩ | ⟨ev, h⟩
    · cases h
    · injection h with h; exact absurd (by rw [h]) (hs.event ev)
  · rw [h3] at h
    injection h with hr' ht
    subst ht
    rw [h1] at hs
    have hl := hs.last rfl
    exact ⟨u.last, fun i => by rw [hl]; rfl, Or.inl rfl⟩
  · rw [h3] at h
    rw [h1] at hs
    have hl := hs.last rfl
    obtain ⟨_, hsig⟩ := waitSignals_log hz hu.good fuel [] none (by intro h; cases h)
    obtain ⟨o, m, _, _, _, _, _, rfl, _⟩ := hsig ev w h2
    obtain ⟨_, _, _, hst⟩ := contSignal_cases h
    refine ⟨u.last, fun i => by rw [hl]; rfl, ?_⟩
    rcases hst with ⟨h4, _⟩ | ⟨_, hr2, hp, h4⟩
    · exact Or.inl h4
    · exact Or.inr ⟨m, hr2, by rw [hp]; exact h4⟩

example := C43_cleared usr realPids_usr noAttachZero_usr 9 plainGdb noEvent_plain (gdbTwo usr) _ gdbTwo_reach (by decide +kernel) 0 (.ok true)
  (pair_eq (by decide +kernel)) (.inl ⟨true, rfl⟩)

/-- **C43** Never twice, and to no other process: whatever `cont` is about to send to a process is either
the given signal, or one that stopped this same process and after which it was delivered none. In every
state at the prompt, whatever was typed. -/
theorem C43_once (K : Kern) (hz : RealPids K) (ha : NoAttachZero K) (fuel : Nat) (G : GdbCfg) (hG : NoEvent G) (g : GSt)
    (hg : GReach K fuel G g) (n o : Nat) (h : owed g n o ≠ 0) :
    (o = g.process ∧ owed g n o = n) ∨ Waiting g.dbg.log (g.dbg.heap o).pid o (owed g n o) := by
  have hp := greach_prompt hz ha hG hg
  unfold owed at h ⊢
  by_cases hc : o = g.process ∧ n ≠ 0
  · rw [if_pos hc]; exact Or.inl ⟨hc.1, rfl⟩
  · rw [if_neg hc] at h ⊢
    cases hl : g.last o with
    | none => rw [hl] at h; exact absurd rfl h
    | some m => exact Or.inr (hp.held o m hl).2

/-- State after entering `cont` once: `SIGUSR1` is owed. -/
example : ∃ g p, gdbLoop usr 9 plainGdb (.line "cont".toList) (none, gdbOne usr) = (.ok false, (p, g)) ∧
    GReach usr 9 plainGdb g ∧ owed g 0 0 = 10 := by
  refine ⟨_, _, rfl, .turn (p := none) (input := .line "cont".toList) (p' := some "cont".toList) (quit := false) gdbOne_reach (by decide +kernel) rfl, by decide +kernel⟩

/-- **C43** Other commands keep the signal: a line without `cont` and `signal` delivers no signal, and
changes what is kept only for a process that was stopped by a new signal, which becomes the current
one. -/
theorem C43_kept (K : Kern) (hz : RealPids K) (ha : NoAttachZero K) (fuel : Nat) (G : GdbCfg) (hG : NoEvent G) (g t : GSt)
    (hg : GReach K fuel G g) (hne : iterate g.dbg ≠ []) (p p' : Option Str) (input : Input) (quit : Bool)
    (h : gdbLoop K fuel G input (p, g) = (.ok quit, (p', t)))
    (hq : ∀ line, Entered G.space p input line → Quiet G.space line) :
    (∃ l, t.dbg.log = g.dbg.log ++ l ∧ ∀ e ∈ l, ∀ o, ¬ Delivered o e) ∧
    (t.last = g.last ∨ ∃ m, t.last = fun i => if i = t.process then some m else g.last i) := by
  have hrd := greach_ready hz ha hG hg hne
  have hsame : ∀ {q : Bool} {p'' : Option Str}, ((.ok quit, (p', t)) : Except Exc Bool × (Option Str × GSt)) = (.ok q, (p'', g)) →
      (∃ l, t.dbg.log = g.dbg.log ++ l ∧ ∀ e ∈ l, ∀ o, ¬ Delivered o e) ∧
      (t.last = g.last ∨ ∃ m, t.last = fun i => if i = t.process then some m else g.last i) := by
    intro q p'' h
    injection h with _ h
    injection h with _ h
    rw [h]
    exact ⟨⟨[], by simp, by (intro e he; cases he)⟩, Or.inl rfl⟩
  have hline : ∀ (line : Str) (p'' : Option Str), Quiet G.space line →
      mainLine (gdbExecute K fuel G) (gdbExcept K fuel G) G.space line (p'', g) = (.ok quit, (p', t)) →
      (∃ l, t.dbg.log = g.dbg.log ++ l ∧ ∀ e ∈ l, ∀ o, ¬ Delivered o e) ∧
      (t.last = g.last ∨ ∃ m, t.last = fun i => if i = t.process then some m else g.last i) := by
    intro line p'' hq h
    unfold mainLine at h
    split at h
    · exact hsame h.symm
    · obtain ⟨ran, rest, hcs, hruns, _⟩ := runLine_runs (gdbExecute K fuel G) G.space (splitOn ';' line) g
      have hkept := runs_kept hz ha fuel G hG hruns hrd (fun c hc => hq _ (commands_iff.2 rfl) c (by
        rw [hcs]; exact List.mem_append.2 (Or.inl hc)))
      have hs := runs_safe hz ha fuel G hG hruns hrd
      dsimp only at h
      generalize runLine (gdbExecute K fuel G) G.space (splitOn ';' line) g = x at h hkept hs
      obtain ⟨r, u⟩ := x
      obtain ⟨hk1, l1, hl1, hm1⟩ := hkept
      cases r with
      | ok ok =>
        injection h with _ h; injection h with _ h
        subst h
        exact ⟨⟨l1, hl1, hm1⟩, Or.inl hk1⟩
      | error e =>
        dsimp only at h
        generalize hx : gdbExcept K fuel G e u = x at h
        obtain ⟨r2, w⟩ := x
        cases r2 with
        | error e2 => cases h
        | ok _ =>
          injection h with _ h; injection h with _ h
          subst h
          obtain ⟨h1, l2, hl2, hm2⟩ := gdbExcept_kept hz fuel G e hs.good hx
          refine ⟨⟨l1 ++ l2, by (rw [hl2, hl1, List.append_assoc]), ?_⟩, ?_⟩
          · intro e' he
            rcases List.mem_append.1 he with he | he
            · exact hm1 e' he
            · exact hm2 e' he
          · rcases h1 with h1 | ⟨o, m, _, h2, h3⟩
            · exact Or.inl (h1.trans hk1)
            · refine Or.inr ⟨m, ?_⟩
              rw [h3, h2, hk1]
  unfold gdbLoop mainLoop at h
  cases input with
  | eof => exact hsame h.symm
  | interrupt =>
    dsimp only at h
    generalize hx : gdbInterrupt K fuel g = x at h
    obtain ⟨r, u⟩ := x
    cases r with
    | ok _ =>
      injection h with _ h; injection h with _ h
      subst h
      obtain ⟨h3, h2⟩ := gdbInterrupt_calm hz fuel hrd.good hx
      exact ⟨h2.log, Or.inl (by rw [h3])⟩
    | error e => cases h
  | line text =>
    dsimp only at h
    split at h
    · rename_i hempty
      have hst : Stripped G.space text [] := by
        rw [stripped_iff]; exact List.isEmpty_iff.1 hempty
      split at h
      · rename_i previous
        split at h
        · exact hsame h.symm
        · rename_i hpe
          refine hline previous _ (hq previous (.again hst rfl ?_)) h
          intro hp; rw [hp] at hpe; exact hpe rfl
      · exact hsame h.symm
    · rename_i hne
      refine hline _ p (hq _ (.typed (strip_stripped _ _) ?_)) h
      intro hp; rw [hp] at hne; exact hne rfl

example : Quiet plainGdb.space "regs; switch".toList ∧
    (∃ g, gdbLoop usr 9 plainGdb (.line "regs; switch".toList) (none, gdbTwo usr) = (.ok false, (some "regs; switch".toList, g))) := by
  refine ⟨?_, _, rfl⟩
  intro cs h
  rw [commands_iff] at h
  subst h
  decide +kernel

/-- **C43** A signal event raised out of any command is stored for its process. -/
theorem C43_stored (K : Kern) (fuel : Nat) (G : GdbCfg) (g t : GSt) (o m : Nat)
    (h : gdbExcept K fuel G (.event (.signal o m)) g = (.ok (), t)) :
    t.process = o ∧ owed t 0 o = m ∧ ∀ i, i ≠ o → t.last i = g.last i := by
  obtain ⟨_, h2, h3⟩ := processSignal_ok h
  refine ⟨h2, ?_, ?_⟩
  · unfold owed
    rw [if_neg (fun h => h.2 rfl), h3]
    show (if o = o then some m else _).getD 0 = m
    rw [if_pos rfl]; rfl
  · intro i hi
    rw [h3]
    exact if_neg hi

example : (gdbExcept usr 9 plainGdb (.event (.signal 1 14)) (gdbTwo usr)).1 = .ok () := by decide +kernel

/-- **C43**, the claim for all commands: if the last report of the kernel is that a process was stopped by
a signal, then the next `cont` passes this signal to it. -/
def PassedNext : Prop :=
  ∀ (K : Kern), RealPids K → NoAttachZero K → ∀ (fuel : Nat) (G : GdbCfg), NoEvent G → ∀ (g t : GSt), GReach K fuel G g →
    iterate g.dbg ≠ [] → ∀ (c : Command) (ok : Bool) (o m : Nat), runCommand K fuel G c g = (.ok ok, t) → o ∈ iterate t.dbg →
      Reported t.dbg.log (t.dbg.heap o).pid m → m ≠ SIGTRAP → owed t 0 o = m

/-- **C43** is false for the command `signal`: it drops the signal that arrives while it runs. -/
theorem C43_refuted : ¬ PassedNext := by
  intro h
  have h1 := h usr realPids_usr noAttachZero_usr 9 plainGdb noEvent_plain (gdbOne usr) _ gdbOne_reach (by decide +kernel)
    (.signal "USR1".toList) true 0 12 (by rfl) (by decide +kernel)
    ⟨(one usr).log ++ [⟨.cont 0 7 10, .ok 0 0, [(7, 0)]⟩], ⟨.waitpid (some 7) false false, .ok 7 0x0c7f, [(7, 0)]⟩,
      [⟨.display 0 7, .ok 0 0, [(7, 0)]⟩], by decide +kernel, ⟨false, false, 0x0c7f, rfl, rfl, by decide⟩, by
        intro e he
        rw [List.mem_singleton.1 he]
        exact ⟨⟨0, 7, rfl⟩, 0, 0, rfl⟩⟩ (by decide)
  revert h1
  decide +kernel

/-- **C43**, the claim for `cont`, and for `signal` if another process was stopped. -/
theorem C43_next_partial (K : Kern) (hz : RealPids K) (ha : NoAttachZero K) (fuel : Nat) (G : GdbCfg) (hG : NoEvent G) (g t : GSt)
    (hg : GReach K fuel G g) (hne : iterate g.dbg ≠ []) (c : Command) (ok : Bool) (o m : Nat)
    (hc : c = .cont ∨ (∃ arg, c = .signal arg) ∧ ok = true ∧ o ≠ g.process) (h : runCommand K fuel G c g = (.ok ok, t))
    (ho : o ∈ iterate t.dbg) (hrep : Reported t.dbg.log (t.dbg.heap o).pid m) (hm : m ≠ SIGTRAP) :
    owed t 0 o = m ∧ t.process = o := by
  have hrd := greach_ready hz ha hG hg hne
  have hcont : ∀ (n : Nat) (ok : Bool) (t : GSt), gdbCont K fuel n g = (.ok ok, t) → o ∈ iterate t.dbg →
      Reported t.dbg.log (t.dbg.heap o).pid m → t.last o = some m ∧ t.process = o := by
    intro n ok t h ho hrep
    rcases gdbCont_parts hz hrd fuel n with ⟨e, t', h1, h2⟩ | ⟨u, h1, hu, ⟨e, w, h2, h3⟩ | ⟨ev, w, h2, h3, hw⟩⟩
    · rw [h1] at h; cases h
    · rw [h3] at h; cases h
    · rw [h3] at h
      obtain ⟨_, hsig⟩ := waitSignals_log hz hu.good fuel [] none (by intro h; cases h)
      obtain ⟨q, k, l, e, nohang, wall, st, rfl, hq, hl, hec, her, hcl⟩ := hsig ev w h2
      obtain ⟨⟨d, hd, _, hdn⟩, hlist, hheap, hst⟩ := contSignal_cases h
      have hd : t.dbg.log = l ++ [e] ++ [d] := by rw [← hl]; exact hd
      have hheap : t.dbg.heap = w.heap := hheap
      have hlist : t.dbg.list = w.list := hlist
      obtain ⟨g1, e1, g2, hlog, ⟨nh, wl, st1, he1, he1r, hcl1⟩, hg2⟩ := hrep
      -- the display is the only entry after the report
      have hkey : e1 = e ∧ g2 = [d] ∨ e1 = d := by
        rw [hd] at hlog
        rcases List.eq_nil_or_concat g2 with rfl | ⟨g3, d', rfl⟩
        · right
          have : l ++ [e] ++ [d] = g1 ++ [e1] := hlog
          exact (List.singleton_inj.1 (List.append_inj' this rfl).2).symm
        · left
          have h4 : (l ++ [e]) ++ [d] = (g1 ++ e1 :: g3) ++ [d'] := by rw [hlog]; simp
          obtain ⟨h5, h6⟩ := List.append_inj' h4 rfl
          have h6 : d = d' := List.singleton_inj.1 h6
          rcases List.eq_nil_or_concat g3 with rfl | ⟨g4, d2, rfl⟩
          · have : l ++ [e] = g1 ++ [e1] := h5
            refine ⟨(List.singleton_inj.1 (List.append_inj' this rfl).2).symm, ?_⟩
            rw [h6]; rfl
          · exfalso
            have h7 : l ++ [e] = (g1 ++ e1 :: g4) ++ [d2] := by rw [h5]; simp
            have h8 : e = d2 := List.singleton_inj.1 (List.append_inj' h7 rfl).2
            obtain ⟨⟨i, p, h9⟩, _⟩ := hg2 d2 (by simp)
            rw [← h8, hec] at h9
            cases h9
      rcases hkey with ⟨rfl, rfl⟩ | rfl
      · rw [hec] at he1
        injection he1 with he1
        injection he1 with he1
        rw [hheap] at he1
        rw [her] at he1r
        injection he1r with _ hst'
        rw [← hst', hcl] at hcl1
        injection hcl1 with hcl1
        subst hcl1
        have hoq : o = q := by
          have hr := (hw.good.reg : RegInv w)
          have h5 := (hr.agree _ q).2 ⟨hq, rfl⟩
          have ho' : o ∈ w.list := by rw [← hlist]; exact ho
          have h6 := (hr.agree (w.heap q).pid o).2 ⟨ho', he1.symm⟩
          have h7 := dictGet_of_mem hr.keys h5
          have h8 := dictGet_of_mem hr.keys h6
          rw [h7] at h8
          injection h8 with h8
          exact h8.symm
        rcases hst with ⟨_, h5 | ⟨e, h5, _⟩⟩ | ⟨_, _, h5, h6⟩
        · exact absurd h5 hm
        · cases h5
        · rw [h5, h6, hoq]
          exact ⟨if_pos rfl, rfl⟩
      · exfalso
        obtain ⟨⟨d2, hd2, htd, hdisp⟩, _⟩ := contSignal_cases h
        have h9 : w.log ++ [e1] = w.log ++ [d2] := by
          have : t.dbg.log = w.log ++ [d2] := hd2
          rw [← this, hd, hl]
        have h10 : e1 = d2 := List.singleton_inj.1 (List.append_inj' h9 rfl).2
        obtain ⟨i, p, hlook⟩ : ∃ i p, e1.call = .display i p ∨ e1.call = .inspect i p := by
          rw [h10]; exact contSignal_last h d2 hd2
        rw [he1] at hlook
        rcases hlook with h | h <;> cases h
  have hfin : ∀ t : GSt, t.last o = some m → owed t 0 o = m := by
    intro t h
    unfold owed
    rw [if_neg (fun h => h.2 rfl), h]; rfl
  rcases hc with rfl | ⟨⟨arg, rfl⟩, rfl, hop⟩
  · obtain ⟨h1, h2⟩ := hcont 0 ok t h ho hrep
    exact ⟨hfin t h1, h2⟩
  · have h : gdbSignal K fuel G arg g = (.ok true, t) := h
    unfold gdbSignal at h
    split at h
    · unfold argError at h
      split at h
      · cases h
      · cases h
    · rename_i k hk
      generalize hx : gdbCont K fuel k.toNat g = x at h
      obtain ⟨r, u⟩ := x
      dsimp only at h
      injection h with hr ht
      subst hr
      have hu : t = { u with last := fun i => if i = g.process then none else u.last i } := ht.symm
      obtain ⟨h1, h2⟩ := hcont _ true u hx (by rw [hu] at ho; exact ho) (by rw [hu] at hrep; exact hrep)
      refine ⟨hfin t ?_, by rw [hu]; exact h2⟩
      rw [hu]
      show (if o = g.process then none else u.last o) = some m
      rw [if_neg hop]; exact h1

example : (runCommand usr 9 plainGdb .cont (gdbOne usr)).1 = .ok true ∧
    Reported (runCommand usr 9 plainGdb .cont (gdbOne usr)).2.dbg.log 7 10 := by
  refine ⟨by decide +kernel, (one usr).log ++ [⟨.cont 0 7 0, .ok 0 0, [(7, 0)]⟩], ⟨.waitpid (some 7) false false, .ok 7 0x0a7f, [(7, 0)]⟩,
      [⟨.display 0 7, .ok 0 0, [(7, 0)]⟩], by decide +kernel, ⟨false, false, 0x0a7f, rfl, rfl, by decide⟩, ?_⟩
  intro e he
  rw [List.mem_singleton.1 he]
  exact ⟨⟨0, 7, rfl⟩, 0, 0, rfl⟩

/-! ### C44 -/

theorem switches_at {L : List Nat} : ∀ {g t : GSt} {ps : List Nat}, Switches g ps t → g.dbg.list = L → L.Nodup →
    ∀ i (hi : i < L.length), L[i] = g.process → t.dbg = g.dbg ∧ t.last = g.last ∧
      (∃ h : (i + ps.length) % L.length < L.length, t.process = L[(i + ps.length) % L.length]) ∧
      ∀ k (hk : k < ps.length), ∃ h : (i + 1 + k) % L.length < L.length, ps[k] = L[(i + 1 + k) % L.length] := by
  intro g t ps h hL hnd
  induction h with
  | nil g =>
    intro i hi hp
    refine ⟨rfl, rfl, ⟨Nat.mod_lt _ (by omega), ?_⟩, ?_⟩
    · rw [← hp]
      congr 1
      exact (Nat.mod_eq_of_lt hi).symm
    · intro k hk; cases hk
  | @step g u t ps ok h rest ih =>
    intro i hi hp
    obtain ⟨j, hj, h1, ok2, h2, hrun⟩ := gdbSwitchNext_run (g := g) (by rw [hL, ← hp]; exact List.getElem_mem hi)
    subst hL
    have hij : j = i := (List.Nodup.getElem_inj_iff hnd).1 (h1.trans hp.symm)
    subst hij
    rw [hrun] at h
    injection h with _ h
    subst h
    have hmod : ∀ k, ((j + 1) % g.dbg.list.length + k) % g.dbg.list.length = (j + 1 + k) % g.dbg.list.length :=
      fun k => Nat.mod_add_mod _ _ _
    obtain ⟨a1, a2, ⟨a3, a4⟩, a5⟩ := ih rfl ((j + 1) % g.dbg.list.length) h2 rfl
    refine ⟨a1, a2, ⟨Nat.mod_lt _ (by omega), ?_⟩, ?_⟩
    · rw [a4]
      congr 1
      rw [hmod, List.length_cons]
      congr 1
      omega
    · intro k hk
      refine ⟨Nat.mod_lt _ (by omega), ?_⟩
      cases k with
      | zero => rfl
      | succ k =>
        obtain ⟨b1, b2⟩ := a5 k (by simpa using hk)
        have hk' : k < ps.length := by simpa using hk
        show ps[k]'hk' = _
        rw [b2]
        congr 1
        rw [show (j + 1) % g.dbg.list.length + 1 + k = (j + 1) % g.dbg.list.length + (k + 1) by omega, hmod]

/-- **C44** As many `switch` commands as there are processes visit each of them exactly once and end at the
first one; nothing else changes. -/
theorem C44_cycle (K : Kern) (hz : RealPids K) (ha : NoAttachZero K) (fuel : Nat) (G : GdbCfg) (hG : NoEvent G) (g t : GSt)
    (hg : GReach K fuel G g) (hne : iterate g.dbg ≠ []) (ps : List Nat) (h : Switches g ps t)
    (hn : ps.length = (iterate g.dbg).length) :
    ps.Perm (iterate g.dbg) ∧ ps.Nodup ∧ t = g := by
  have hrd := greach_ready hz ha hG hg hne
  obtain ⟨i, hi, hp⟩ := List.mem_iff_getElem.1 hrd.mem
  obtain ⟨h1, h2, ⟨h3, h4⟩, h5⟩ := switches_at h rfl hrd.good.reg.nodup i hi hp
  have hn : ps.length = g.dbg.list.length := hn
  have hrot : ps = g.dbg.list.rotate (i + 1) := by
    apply List.ext_getElem
    · rw [List.length_rotate]; exact hn
    · intro k hk hk2
      obtain ⟨h6, h7⟩ := h5 k hk
      rw [h7, List.getElem_rotate]
      congr 1
      rw [Nat.add_comm]
  have hperm : ps.Perm g.dbg.list := by rw [hrot]; exact List.rotate_perm _ _
  refine ⟨hperm, (hperm.nodup_iff).2 hrd.good.reg.nodup, ?_⟩
  have hpr : t.process = g.process := by
    rw [h4, ← hp]
    congr 1
    rw [hn, Nat.add_mod_right, Nat.mod_eq_of_lt hi]
  obtain ⟨d, p, l⟩ := t
  obtain ⟨d', p', l'⟩ := g
  cases h1; cases h2; cases hpr
  rfl

example := C44_cycle usr realPids_usr noAttachZero_usr 9 plainGdb noEvent_plain (gdbTwo usr) _ gdbTwo_reach (by decide +kernel) [1, 0]
  (.step (ok := true) (u := { gdbTwo usr with process := 1 }) rfl (.step (ok := true) (u := { gdbTwo usr with process := 0 }) rfl (.nil _)))
  (by decide +kernel)

/-- **C44** The command can always be repeated, and after any number of repetitions the current process is
registered. -/
theorem C44_repeat (K : Kern) (hz : RealPids K) (ha : NoAttachZero K) (fuel : Nat) (G : GdbCfg) (hG : NoEvent G) (g : GSt)
    (hg : GReach K fuel G g) (hne : iterate g.dbg ≠ []) (n : Nat) :
    ∃ ps t, Switches g ps t ∧ ps.length = n ∧ t.process ∈ iterate t.dbg ∧ ∀ p ∈ ps, p ∈ iterate g.dbg := by
  have hrd := greach_ready hz ha hG hg hne
  have key : ∀ n (g : GSt), g.process ∈ g.dbg.list → ∃ ps t, Switches g ps t ∧ ps.length = n ∧ t.process ∈ t.dbg.list ∧
      ∀ p ∈ ps, p ∈ g.dbg.list := by
    intro n
    induction n with
    | zero => intro g h; exact ⟨[], g, .nil g, rfl, h, by (intro p hp; cases hp)⟩
    | succ n ih =>
      intro g h
      obtain ⟨i, hi, h1, ok, h2, hrun⟩ := gdbSwitchNext_run h
      obtain ⟨ps, t, h3, h4, h5, h6⟩ := ih { g with process := g.dbg.list[(i + 1) % g.dbg.list.length] } (List.getElem_mem h2)
      refine ⟨_, t, .step hrun h3, by rw [List.length_cons, h4], h5, ?_⟩
      intro p hp
      rcases List.mem_cons.1 hp with rfl | hp
      · exact List.getElem_mem h2
      · exact h6 p hp
  exact key n g hrd.mem

example : (iterate (gdbTwo usr).dbg).length = 2 ∧ Switches (gdbTwo usr) [1, 0] (gdbTwo usr) :=
  ⟨by decide +kernel, .step (ok := true) (u := { gdbTwo usr with process := 1 }) rfl
    (.step (ok := true) (u := { gdbTwo usr with process := 0 }) rfl (.nil _))⟩

/-- **C44** `switch` with a process number selects the process registered under it, or fails and changes
nothing. -/
theorem C44_number (K : Kern) (hz : RealPids K) (ha : NoAttachZero K) (fuel : Nat) (G : GdbCfg) (hG : NoEvent G) (g t : GSt)
    (hg : GReach K fuel G g) (arg : Str) (harg : arg ≠ []) (ok : Bool)
    (h : gdbSwitch G arg g = (.ok ok, t)) :
    (ok = true ∧ ∃ pid, G.parse g.dbg arg = .ok pid ∧ t = { g with process := t.process } ∧ t.process ∈ iterate t.dbg ∧
      (t.dbg.heap t.process).pid = pid) ∨ (ok = false ∧ t = g) := by
  have hreg := (greach_prompt hz ha hG hg).good.reg
  unfold gdbSwitch at h
  rw [if_neg (by intro h; exact harg (List.isEmpty_iff.1 h))] at h
  split at h
  · unfold argError at h
    split at h
    · injection h with h1 h2; injection h1 with h1; exact Or.inr ⟨h1.symm, h2.symm⟩
    · cases h
  · rename_i pid hp
    split at h
    · rename_i o ho
      have ho' := (hreg.agree pid o).1 (dictGet_some ho)
      injection h with h1 h2
      injection h1 with h1
      subst h2
      exact Or.inl ⟨h1.symm, pid, hp, rfl, ho'.1, ho'.2⟩
    · injection h with h1 h2; injection h1 with h1; exact Or.inr ⟨h1.symm, h2.symm⟩

-- there are no numbers: the command fails
example := C44_number usr realPids_usr noAttachZero_usr 9 plainGdb noEvent_plain (gdbTwo usr) (gdbTwo usr) gdbTwo_reach "9".toList (by decide) false rfl

/-- **C44** At the prompt the current process is registered as long as there is one, whatever was typed and
whichever processes ended. -/
theorem C44_registered (K : Kern) (hz : RealPids K) (ha : NoAttachZero K) (fuel : Nat) (G : GdbCfg) (hG : NoEvent G) (g : GSt)
    (hg : GReach K fuel G g) : iterate g.dbg = [] ∨ g.process ∈ iterate g.dbg :=
  (greach_prompt hz ha hG hg).mem

example : GReach usr 9 plainGdb (gdbTwo usr) ∧ (gdbTwo usr).process ∈ iterate (gdbTwo usr).dbg := ⟨gdbTwo_reach, by decide +kernel⟩

/-! ### C46 -/

theorem mainLoop_entered {σ : Type} (execute : Str → Py σ Bool) (except : Exc → Py σ Unit) (interrupt : Py σ Unit)
    (space : Char → Bool) (p : Option Str) (s : σ) (input : Input) (line : Str) (h : Entered space p input line) :
    mainLoop execute except interrupt space input (p, s) = mainLine execute except space line (p, s) := by
  have hemp : ∀ {l : Str}, l ≠ [] → l.isEmpty = false := by
    intro l h
    cases l with
    | nil => exact absurd rfl h
    | cons a b => rfl
  cases h with
  | @typed text _ h ne =>
    have h1 := stripped_iff.1 h
    unfold mainLoop
    dsimp only
    rw [h1, hemp ne]
    rfl
  | @again text _ h hp ne =>
    have h1 := stripped_iff.1 h
    unfold mainLoop
    dsimp only
    rw [h1, hp]
    dsimp only
    rw [hemp ne]
    rfl

/-- **C46** The commands of the entered line run in order, none after the first that fails or raises; the
line is remembered exactly if all succeeded. For every command interpreter. -/
theorem C46_line {σ : Type} (execute : Str → Py σ Bool) (except : Exc → Py σ Unit) (interrupt : Py σ Unit)
    (space : Char → Bool) (p p' : Option Str) (s s' : σ) (input : Input) (line : Str) (hl : Entered space p input line)
    (hq : line ≠ "quit".toList) (r : Except Exc Bool)
    (h : mainLoop execute except interrupt space input (p, s) = (r, (p', s'))) :
    ∃ ran rest rr t, Commands space line (ran ++ rest) ∧ Runs execute s ran rr t ∧ (rr = .ok true → rest = []) ∧
      (p' = some line ↔ rr = .ok true) ∧ (p' ≠ some line → p' = none) ∧
      (∀ ok, rr = .ok ok → r = .ok false ∧ s' = t) ∧
      (∀ e, rr = .error e → (r, s') = ((except e t).1.map fun _ => false, (except e t).2)) := by
  rw [mainLoop_entered execute except interrupt space p s input line hl] at h
  unfold mainLine at h
  rw [if_neg (show line ≠ quitText from hq)] at h
  obtain ⟨ran, rest, h1, h2, h3⟩ := runLine_runs execute space (splitOn ';' line) s
  dsimp only at h
  refine ⟨ran, rest, _, _, commands_iff.2 h1.symm, h2, h3, ?_⟩
  generalize runLine execute space (splitOn ';' line) s = x at h
  obtain ⟨rr, t⟩ := x
  cases rr with
  | ok ok =>
    injection h with h4 h5
    injection h5 with h5 h6
    subst h4 h5 h6
    refine ⟨?_, ?_, ?_, ?_⟩
    · cases ok
      · exact ⟨fun h => (by cases h), fun h => (by cases h)⟩
      · exact ⟨fun _ => rfl, fun _ => rfl⟩
    · cases ok
      · exact fun _ => rfl
      · exact fun h => absurd rfl h
    · exact fun _ _ => ⟨rfl, rfl⟩
    · intro e he; cases he
  | error e =>
    dsimp only at h
    have hp : p' = none ∧ (r, s') = ((except e t).1.map fun _ => false, (except e t).2) := by
      generalize except e t = y at h
      obtain ⟨r2, u⟩ := y
      cases r2 with
      | ok _ => injection h with h4 h5; injection h5 with h5 h6; subst h4 h5 h6; exact ⟨rfl, rfl⟩
      | error e2 => injection h with h4 h5; injection h5 with h5 h6; subst h4 h5 h6; exact ⟨rfl, rfl⟩
    refine ⟨⟨fun h => (by rw [hp.1] at h; cases h), fun h => (by cases h)⟩, fun _ => hp.1, fun ok h => (by cases h), ?_⟩
    intro e' he
    injection he with he
    subst he
    exact hp.2

-- the second command fails
example := C46_line (σ := List Str) (fun c s => (.ok (decide (c = "info".toList)), s ++ [c])) (fun e => Py.raise e) (Py.pure ()) plainGdb.space none none
  [] ["info".toList, "fail".toList] (.line " info; fail ;info".toList) "info; fail ;info".toList
  (.typed (stripped_iff.2 (by decide +kernel)) (by decide)) (by decide) (.ok false) (by decide +kernel)

/-- **C46** The commands that run, the result and the final state are determined by the line. -/
theorem C46_unique {σ : Type} (execute : Str → Py σ Bool) (s : σ) (cs ran rest ran' rest' : List Str) (r r' : Except Exc Bool)
    (t t' : σ) (h1 : cs = ran ++ rest) (h1' : cs = ran' ++ rest') (h2 : Runs execute s ran r t) (h2' : Runs execute s ran' r' t')
    (h3 : r = .ok true → rest = []) (h3' : r' = .ok true → rest' = []) : ran = ran' ∧ r = r' ∧ t = t' := by
  subst h1
  induction h2 generalizing ran' with
  | nil s =>
    have := h3 rfl
    subst this
    have h4 : ran' = [] := (List.append_eq_nil_iff.1 h1'.symm).1
    subst h4
    cases h2'
    exact ⟨rfl, rfl, rfl⟩
  | fail h =>
    cases h2' with
    | nil => have := h3' rfl; subst this; cases h1'
    | fail h' => injection h1' with h5; subst h5; rw [h] at h'; injection h' with _ h'; exact ⟨rfl, rfl, h'⟩
    | raised h' => injection h1' with h5; subst h5; rw [h] at h'; cases h'
    | step h' => injection h1' with h5; subst h5; rw [h] at h'; cases h'
  | raised h =>
    cases h2' with
    | nil => have := h3' rfl; subst this; cases h1'
    | fail h' => injection h1' with h5; subst h5; rw [h] at h'; cases h'
    | raised h' =>
      injection h1' with h5; subst h5; rw [h] at h'; injection h' with h6 h'; injection h6 with h6; subst h6; exact ⟨rfl, rfl, h'⟩
    | step h' => injection h1' with h5; subst h5; rw [h] at h'; cases h'
  | step h rest2 ih =>
    cases h2' with
    | nil => have := h3' rfl; subst this; cases h1'
    | fail h' => injection h1' with h5; subst h5; rw [h] at h'; cases h'
    | raised h' => injection h1' with h5; subst h5; rw [h] at h'; cases h'
    | step h' r2 =>
      injection h1' with h5 h6
      subst h5
      rw [h] at h'
      injection h' with _ h'
      subst h'
      obtain ⟨h7, h8, h9⟩ := ih _ r2 h3 h6
      exact ⟨by rw [h7], h8, h9⟩

example := C46_unique (σ := List Str) (fun c s => (.ok (decide (c = "info".toList)), s ++ [c])) [] ["info".toList, "fail".toList, "info".toList]
  ["info".toList, "fail".toList] ["info".toList] ["info".toList, "fail".toList] ["info".toList] (.ok false) (.ok false) _ _ rfl rfl
  (.step rfl (.fail rfl)) (.step rfl (.fail rfl)) (fun h => by cases h) (fun h => by cases h)

/-- **C46** A blank line repeats the remembered line as if it was typed again, and does nothing if there is
none. -/
theorem C46_blank {σ : Type} (execute : Str → Py σ Bool) (except : Exc → Py σ Unit) (interrupt : Py σ Unit)
    (space : Char → Bool) (p : Option Str) (s : σ) (text : Str) (hb : Stripped space text []) :
    (∀ line typed, p = some line → line ≠ [] → Stripped space typed line →
      mainLoop execute except interrupt space (.line text) (p, s) = mainLoop execute except interrupt space (.line typed) (p, s)) ∧
    (p = none → mainLoop execute except interrupt space (.line text) (p, s) = (.ok false, (none, s))) := by
  constructor
  · intro line typed hp hne ht
    rw [mainLoop_entered execute except interrupt space p s _ line (.again hb hp hne),
      mainLoop_entered execute except interrupt space p s _ line (.typed ht hne)]
  · intro hp
    have h1 := stripped_iff.1 hb
    unfold mainLoop
    dsimp only
    rw [h1, hp]
    rfl

example := C46_blank (σ := List Str) (fun c s => (.ok (decide (c = "info".toList)), s ++ [c])) (fun e => Py.raise e) (Py.pure ()) plainGdb.space
  (some "info".toList) [] "  ".toList (stripped_iff.2 (by decide +kernel))

/-- **C46** `quit`, the end of the input and an interrupt execute no command; only `quit` forgets the
remembered line. -/
theorem C46_other {σ : Type} (execute : Str → Py σ Bool) (except : Exc → Py σ Unit) (interrupt : Py σ Unit)
    (space : Char → Bool) (p : Option Str) (s : σ) :
    (∀ input, Entered space p input "quit".toList →
      mainLoop execute except interrupt space input (p, s) = (.ok true, (none, s))) ∧
    mainLoop execute except interrupt space .eof (p, s) = (.ok true, (p, s)) ∧
    mainLoop execute except interrupt space .interrupt (p, s) = ((interrupt s).1.map fun _ => false, (p, (interrupt s).2)) := by
  refine ⟨?_, rfl, ?_⟩
  · intro input h
    rw [mainLoop_entered execute except interrupt space p s input _ h]
    unfold mainLine
    rw [if_pos]
    rfl
  · unfold mainLoop
    dsimp only
    generalize interrupt s = y
    obtain ⟨r, u⟩ := y
    cases r <;> rfl

/-- A line with a failing command in the middle: the first two ran. -/
example : Entered plainGdb.space none (.line " info; fail ;info".toList) "info; fail ;info".toList ∧
    Commands plainGdb.space "info; fail ;info".toList ["info".toList, "fail".toList, "info".toList] ∧
    (mainLoop (σ := List Str) (fun c s => (.ok (decide (c = "info".toList)), s ++ [c])) (fun e => Py.raise e) (Py.pure ()) plainGdb.space
      (.line " info; fail ;info".toList) (none, [])).2 = (none, ["info".toList, "fail".toList]) :=
  ⟨.typed (stripped_iff.2 (by decide +kernel)) (by decide), commands_iff.2 (by decide +kernel), by decide +kernel⟩

/-- The line `cont` is remembered and repeated. -/
example : ∃ g, gdbLoop usr 9 plainGdb (.line "cont".toList) (none, gdbOne usr) = (.ok false, (some "cont".toList, g)) ∧
    Entered plainGdb.space (some "cont".toList) (.line "  ".toList) "cont".toList :=
  ⟨_, rfl, .again (stripped_iff.2 (by decide +kernel)) rfl (by decide)⟩

end PT
