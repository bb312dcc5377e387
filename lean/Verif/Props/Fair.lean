import Verif.Spec.Fair
import Verif.Props.Debugger

/-! C113: which of several processes is reported first, and whether every process is reported in the end. -/

namespace PT
open Spec

/-- The first request of a wait that reports an event, and what the reply said. -/
theorem wout_first {K : Kern} {wanted : Nat} {blocking : Bool} {s t : DSt} {ev : Event}
    (h : WOut K wanted blocking s (.ok (some ev)) t) : ∃ o rest, dictGet s.dict wanted = some o ∧
      t.log = s.log ++ ⟨waitCall s wanted blocking o, K s.log (waitCall s wanted blocking o), s.dict⟩ :: rest ∧
      Says wanted o (K s.log (waitCall s wanted blocking o)) ev ∧ EventFor t o ev := by
  cases ev with
  | exit o a b =>
    obtain ⟨h1, h2, ht⟩ := h
    refine ⟨o, [], h1, ?_, ?_, rfl⟩
    · rw [ht, gone_log]; rfl
    · refine ⟨rfl, ?_⟩
      rcases h2 with ⟨st, hk, hc⟩ | ⟨hk, ha, hb⟩
      · exact .inr ⟨st, hk, hc⟩
      · exact .inl ⟨hk, ha, hb⟩
  | signal o m =>
    obtain ⟨h1, st, hk, hc, ht⟩ := h
    exact ⟨o, [], h1, by rw [ht]; rfl, ⟨rfl, st, hk, hc⟩, rfl⟩
  | execution o =>
    obtain ⟨h1, st, hk, hc, ht⟩ := h
    exact ⟨o, [], h1, by rw [ht]; rfl, ⟨rfl, st, hk, hc⟩, rfl⟩
  | newProcess q =>
    obtain ⟨o, st, event, pid, mst, h1, hk, hc, hev, _, hadd⟩ := h
    obtain ⟨g, hg⟩ := hadd.ext.log
    refine ⟨o, ⟨.geteventmsg o (s.heap o).pid, K (logCall K (waitCall s wanted blocking o) s).log (.geteventmsg o (s.heap o).pid), s.dict⟩ :: g,
      h1, ?_, ⟨st, event, hk, hc, hev⟩, by show (t.heap q).parent = some o; rw [hadd.heap]; rfl⟩
    rw [hg]
    show (s.log ++ [_]) ++ [_] ++ g = _
    simp only [List.append_assoc, List.cons_append, List.nil_append]
    rfl

/-- A reply that says something is not the empty one. -/
theorem says_ne {pid o : Nat} {r : Reply} {ev : Event} (hp : pid ≠ 0) (h : Says pid o r ev) : ∀ st, r ≠ .ok 0 st := by
  intro st hr
  subst hr
  cases ev with
  | exit q a b =>
    rcases h.2 with h | ⟨st', h, _⟩
    · cases h.1
    · injection h with h _; exact hp h.symm
  | signal q m => obtain ⟨st', h, _⟩ := h.2; injection h with h _; exact hp h.symm
  | execution q => obtain ⟨st', h, _⟩ := h.2; injection h with h _; exact hp h.symm
  | newProcess q => obtain ⟨st', n, h, _⟩ := h; injection h with h _; exact hp h.symm

/-- Polling: the processes before the one that reports are silent. -/
theorem pollPids_some {K : Kern} (hz : RealPids K) (fuel : Nat) (s : DSt) (hr : RegInv s) (hp : PidInv s) :
    ∀ (es : List (Nat × Nat)) (s1 : DSt), OnlyLog s s1 → (∀ e ∈ es, e ∈ s.dict) →
    ∀ ev t, pollPids (waitEventPid K fuel) (es.map Prod.fst) s1 = (.ok (some ev), t) →
    ∃ pre e post h x rest, es = pre ++ e :: post ∧ Silent s pre h ∧
      x.call = .waitpid (some e.1) true (s.heap e.2).isThread ∧ Says e.1 e.2 x.reply ev ∧ EventFor t e.2 ev ∧
      t.log = s1.log ++ h ++ x :: rest := by
  intro es
  induction es with
  | nil => intro s1 _ _ ev t h; injection h with h _; injection h with h; cases h
  | cons e es ih =>
    intro s1 h1 hes ev t h
    have he := hes e List.mem_cons_self
    have hw := waitEventPid_out hz fuel e.1 false s1 (hp.keys e.1 (List.mem_map.2 ⟨e, he, rfl⟩)) (h1.regInv hr)
    have hget : dictGet s1.dict e.1 = some e.2 := by rw [h1.dict]; exact dictGet_of_mem hr.keys he
    rw [List.map_cons] at h
    unfold pollPids Py.bind at h
    generalize waitEventPid K fuel e.1 false s1 = x at h hw
    obtain ⟨r1, t1⟩ := x
    cases r1 with
    | error e => cases h
    | ok ev1 =>
      cases ev1 with
      | some ev1 =>
        injection h with ha hb
        injection ha with ha
        injection ha with ha
        subst ha hb
        obtain ⟨o, rest, ho, hl, hsay, hev⟩ := wout_first hw
        rw [hget] at ho
        injection ho with ho
        subst ho
        refine ⟨[], e, es, [], _, rest, rfl, ⟨rfl, by simp⟩, ?_, hsay, hev, by simpa using hl⟩
        show Call.waitpid _ _ _ = _
        rw [h1.heap]
        rfl
      | none =>
        obtain ⟨_, o, ho, ⟨st, hst⟩, ht⟩ := hw
        have ht : t1 = logCall K (waitCall s1 e.1 false o) s1 := ht
        rw [hget] at ho
        injection ho with ho
        subst ho
        obtain ⟨pre, e', post, g, x, rest, hes', hsil, hx, hsay, hev, hl⟩ :=
          ih t1 (by rw [ht]; exact h1.trans (OnlyLog.logCall _ s1)) (fun e' he' => hes e' (List.mem_cons_of_mem _ he')) ev t h
        refine ⟨e :: pre, e', post, ⟨waitCall s1 e.1 false e.2, K s1.log (waitCall s1 e.1 false e.2), s1.dict⟩ :: g, x, rest,
          by rw [hes']; rfl, ⟨?_, ?_⟩, hx, hsay, hev, ?_⟩
        · rw [List.map_cons, List.map_cons, hsil.1]
          show waitCall s1 e.1 false e.2 :: _ = _
          unfold waitCall
          rw [h1.heap]
          rfl
        · intro y hy
          rcases List.mem_cons.1 hy with hy | hy
          · rw [hy]; exact ⟨st, hst⟩
          · exact hsil.2 y hy
        · rw [hl, ht]
          show s1.log ++ [_] ++ g ++ _ = _
          simp only [List.append_assoc, List.cons_append, List.nil_append]

/-- The loop with its pauses. -/
theorem waitAny_order {K : Kern} (hz : RealPids K) (fuel : Nat) (blocking : Bool) (s : DSt) (hr : RegInv s) (hp : PidInv s)
    (hlen : 2 ≤ s.dict.length) : ∀ (n : Nat) (s1 : DSt), OnlyLog s s1 → ∀ ev t, waitAny K fuel n blocking s1 = (.ok (some ev), t) →
      ∃ g pre e post h x rest, s.dict = pre ++ e :: post ∧ Rounds s g ∧ (blocking = false → g = []) ∧ Silent s pre h ∧
        x.call = .waitpid (some e.1) true (s.heap e.2).isThread ∧ Says e.1 e.2 x.reply ev ∧ EventFor t e.2 ev ∧
        t.log = s1.log ++ g ++ h ++ x :: rest := by
  intro n
  induction n with
  | zero => intro s1 _ ev t h; cases h
  | succ n ih =>
    intro s1 h1 ev t h
    unfold waitAny at h
    rw [h1.dict] at h
    obtain ⟨e1, e2, es, hd⟩ : ∃ e1 e2 es, s.dict = e1 :: e2 :: es := by
      cases hd : s.dict with
      | nil => rw [hd] at hlen; simp at hlen
      | cons e1 es =>
        cases es with
        | nil => rw [hd] at hlen; simp at hlen
        | cons e2 es => exact ⟨e1, e2, es, rfl⟩
    have hsome := pollPids_some hz fuel s hr hp s.dict s1 h1 (fun _ h => h)
    have hnone := pollPids_none hz fuel s hr hp s.dict s1 h1 (fun _ h => h)
    have hout := pollPids_out hz fuel s hr hp (s.dict.map Prod.fst) s1 h1 (fun _ h => h)
    have h : Py.bind (pollPids (waitEventPid K fuel) (s.dict.map Prod.fst)) (fun e =>
        match e with
        | some ev => Py.pure (some ev)
        | none => if blocking then Py.bind (osCall K .sleep) fun _ => waitAny K fuel n blocking else Py.pure none) s1 =
        (.ok (some ev), t) := by
      rw [hd] at h ⊢
      exact h
    unfold Py.bind at h
    generalize pollPids (waitEventPid K fuel) (s.dict.map Prod.fst) s1 = x at h hsome hnone hout
    obtain ⟨r1, t1⟩ := x
    cases r1 with
    | error e => cases h
    | ok ev1 =>
      cases ev1 with
      | some ev1 =>
        injection h with ha hb
        injection ha with ha
        injection ha with ha
        subst ha hb
        obtain ⟨pre, e, post, g, x, rest, h2, h3, h4, h5, h6, h7⟩ := hsome _ _ rfl
        exact ⟨[], pre, e, post, g, x, rest, h2, .nil, fun _ => rfl, h3, h4, h5, h6, by simpa using h7⟩
      | none =>
        obtain ⟨g0, hl0, hc0, hq0⟩ := hnone _ rfl
        have ht1 : OnlyLog s t1 := by
          rcases hout _ _ rfl with ⟨_, h⟩ | ⟨h, _⟩
          · exact h
          · exact absurd rfl h
        dsimp only at h
        by_cases hb : blocking = true
        · rw [if_pos hb] at h
          rw [osCall_run] at h
          cases hkk : K t1.log .sleep with
          | ok v st =>
            rw [hkk] at h
            obtain ⟨g, pre, e, post, h', x, rest, h2, h3, h4, h5, h6, h7, h8, h9⟩ :=
              ih (logCall K .sleep t1) (ht1.trans (OnlyLog.logCall _ _)) ev t h
            refine ⟨g0 ++ ⟨.sleep, K t1.log .sleep, t1.dict⟩ :: g, pre, e, post, h', x, rest, h2, .round ⟨hc0, hq0⟩ rfl h3,
              (fun hf => by rw [hb] at hf; cases hf), h5, h6, h7, h8, ?_⟩
            rw [h9]
            show t1.log ++ [_] ++ g ++ h' ++ _ = _
            rw [hl0]
            simp only [List.append_assoc, List.cons_append, List.nil_append]
          | err e => rw [hkk] at h; cases h
          | interrupt => rw [hkk] at h; cases h
        · rw [if_neg hb] at h
          injection h with ha _
          injection ha with ha
          cases ha

/-- **C113**, order: with several processes the event is the one of the first process, in the order of the
registry, that has something to report; every process before it was asked and had nothing; a pause is made only after
all were asked in vain, and none without `blocking`. -/
theorem C113_order (K : Kern) (hz : RealPids K) (s : DSt) (hs : Reach K s) (fuel : Nat) (blocking : Bool)
    (hlen : 2 ≤ s.dict.length) (ev : Event) (t : DSt) (h : waitProcessEvent K fuel none blocking s = (.ok (some ev), t)) :
    ∃ g pre e post h x rest, s.dict = pre ++ e :: post ∧ Rounds s g ∧ (blocking = false → g = []) ∧ Silent s pre h ∧
      x.call = .waitpid (some e.1) true (s.heap e.2).isThread ∧ Says e.1 e.2 x.reply ev ∧ EventFor t e.2 ev ∧
      t.log = s.log ++ g ++ h ++ x :: rest :=
  waitAny_order hz fuel blocking s (reach_reg hs) (reach_pid hz hs) hlen fuel s (OnlyLog.refl s) ev t h

/-- The second of the two processes reports, the first does not. -/
def lateNine : Kern := fun log c =>
  match c with
  | .waitpid (some 7) true _ => .ok 0 0
  | .waitpid (some 9) true _ => if log.any fun e => decide (e.call = .sleep) then .ok 9 0x137f else .ok 0 0
  | c => calm log c

example : RealPids lateNine ∧ 2 ≤ (two lateNine).dict.length ∧
    (waitProcessEvent lateNine 5 none true (two lateNine)).1 = .ok (some (.signal 1 19)) ∧
    ((waitProcessEvent lateNine 5 none true (two lateNine)).2.log.drop (two lateNine).log.length).map (fun e => e.call) =
      [.waitpid (some 7) true false, .waitpid (some 9) true false, .sleep, .waitpid (some 7) true false,
       .waitpid (some 9) true false] :=
  ⟨by (intro log o pid st h; injection h with h _; cases h), by decide, by decide, by decide⟩

/-- What a wait adds to the log are replies of the kernel. -/
theorem wait_replies {K : Kern} {fuel : Nat} {blocking : Bool} {s t : DSt} {r : Except Exc (Option Event)} {l : List Entry}
    (h : waitProcessEvent K fuel none blocking s = (r, t)) (hl : t.log = s.log ++ l) :
    ∀ e ∈ l, ∃ k, e.reply = K k e.call := by
  have hst := runOp_any (K := K) fuel (.waitProcessEvent none blocking) s
  have ht : (runOp K fuel (.waitProcessEvent none blocking) s).2 = t := by
    show (void (waitProcessEvent K fuel none blocking) s).2 = t
    unfold void Py.bind
    rw [h]
    cases r <;> rfl
  rw [ht] at hst
  obtain ⟨g, hg, hq⟩ := hst.newLog (Q := fun e => ∃ k, e.reply = K k e.call) (fun u a c _ _ => ⟨u.log, rfl⟩)
  rw [hl] at hg
  rw [List.append_cancel_left hg]
  exact hq

/-- A process that has something to report was not polled in vain. -/
theorem silent_pending {K : Kern} {s : DSt} {es : List (Nat × Nat)} {g : List Entry} (hs : Silent s es g)
    (hk : ∀ e ∈ g, ∃ k, e.reply = K k e.call) {p o : Nat} (hp : Pending K p) : (p, o) ∉ es := by
  intro hm
  have hc : Call.waitpid (some p) true (s.heap o).isThread ∈ g.map (fun e => e.call) := by
    rw [hs.1]; exact List.mem_map.2 ⟨(p, o), hm, rfl⟩
  obtain ⟨e, he, hec⟩ := List.mem_map.1 hc
  obtain ⟨st, hst⟩ := hs.2 e he
  obtain ⟨k, hk⟩ := hk e he
  rw [hec, hst] at hk
  exact hp k _ st hk.symm

/-- **C113**, promptness: if a registered process has something to report, the next wait for any process makes no
pause and reports that process or one registered before it. -/
theorem C113_prompt (K : Kern) (hz : RealPids K) (s : DSt) (hs : Reach K s) (fuel : Nat) (blocking : Bool)
    (before after : List (Nat × Nat)) (p o : Nat) (hd : s.dict = before ++ (p, o) :: after) (hlen : 2 ≤ s.dict.length)
    (hp : Pending K p) (ev : Event) (t : DSt) (h : waitProcessEvent K fuel none blocking s = (.ok (some ev), t)) :
    ∃ pre e post h x rest, before ++ [(p, o)] = pre ++ e :: post ∧ Silent s pre h ∧
      x.call = .waitpid (some e.1) true (s.heap e.2).isThread ∧ Says e.1 e.2 x.reply ev ∧ EventFor t e.2 ev ∧
      t.log = s.log ++ h ++ x :: rest := by
  obtain ⟨g, pre, e, post, g', x, rest, h2, h3, _, h5, h6, h7, h8, h9⟩ := C113_order K hz s hs fuel blocking hlen ev t h
  have hrep := wait_replies h (l := g ++ g' ++ x :: rest) (by rw [h9]; simp)
  have hmem : (p, o) ∈ s.dict := by rw [hd]; simp
  have hg : g = [] := by
    cases h3 with
    | nil => rfl
    | round hs1 _ _ => exact absurd hmem (silent_pending hs1 (fun e he => hrep e (by simp [he])) hp)
  subst hg
  have hpre := silent_pending (o := o) h5 (fun e he => hrep e (by simp [he])) hp
  have hsplit : ∃ post', before ++ [(p, o)] = pre ++ e :: post' := by
    rw [hd] at h2
    rcases List.append_eq_append_iff.1 h2 with ⟨a, ha, hb⟩ | ⟨a, ha, hb⟩
    · cases a with
      | nil =>
        simp only [List.nil_append, List.cons.injEq] at hb
        exact ⟨[], by rw [ha, hb.1]; simp⟩
      | cons y a =>
        simp only [List.cons_append, List.cons.injEq] at hb
        exact absurd (by rw [ha, ← hb.1]; simp) hpre
    · cases a with
      | nil =>
        simp only [List.nil_append, List.cons.injEq] at hb
        exact ⟨[], by rw [ha, ← hb.1]; simp⟩
      | cons y a =>
        simp only [List.cons_append, List.cons.injEq] at hb
        exact ⟨a ++ [(p, o)], by rw [ha, hb.1]; simp⟩
  obtain ⟨post', hpost⟩ := hsplit
  exact ⟨pre, e, post', g', x, rest, hpost, h5, h6, h7, h8, by simpa using h9⟩

/-- **C113**, fairness when it holds: a process that has something to report is reported by the next wait if no
process registered before it has anything to report. -/
theorem C113_fair_partial (K : Kern) (hz : RealPids K) (s : DSt) (hs : Reach K s) (fuel : Nat) (blocking : Bool)
    (before after : List (Nat × Nat)) (p o : Nat) (hd : s.dict = before ++ (p, o) :: after) (hlen : 2 ≤ s.dict.length)
    (hp : Pending K p) (hq : ∀ e ∈ before, NothingFor K e.1) (ev : Event) (t : DSt)
    (h : waitProcessEvent K fuel none blocking s = (.ok (some ev), t)) : EventFor t o ev := by
  obtain ⟨pre, e, post, g, x, rest, hsp, hsil, hx, hsay, hev, hl⟩ :=
    C113_prompt K hz s hs fuel blocking before after p o hd hlen hp ev t h
  have hmem : e ∈ before ++ [(p, o)] := by rw [hsp]; simp
  have hkeys := (reach_pid hz hs).keys
  have he0 : e.1 ≠ 0 := by
    refine hkeys e.1 (List.mem_map.2 ⟨e, ?_, rfl⟩)
    rw [hd]
    rcases List.mem_append.1 hmem with h | h
    · simp [h]
    · rw [List.mem_singleton.1 h]; simp
  obtain ⟨k, hk⟩ := wait_replies h (l := g ++ x :: rest) (by rw [hl]; simp) x (by simp)
  rcases List.mem_append.1 hmem with hb | hb
  · obtain ⟨st, hst⟩ := hq e hb k (s.heap e.2).isThread
    rw [hx, hst] at hk
    exact absurd hk (says_ne he0 hsay st)
  · rw [List.mem_singleton.1 hb] at hev
    exact hev

/-- Process 7 has nothing to report, process 9 always has. -/
def onlyNine : Kern := fun log c =>
  match c with
  | .waitpid (some 7) true _ => .ok 0 0
  | c => calm log c

example := C113_prompt onlyNine (by intro log o pid st h; injection h with h _; cases h) (two onlyNine) (reach_two onlyNine) 5 true [(7, 0)] [] 9 1
  (by decide) (by decide) (by intro log w st h; injection h with h _; cases h) (.signal 1 19) _ (Prod.ext (by decide) rfl)

example : RealPids onlyNine ∧ (two onlyNine).dict = [(7, 0)] ++ (9, 1) :: [] ∧ Pending onlyNine 9 ∧ NothingFor onlyNine 7 ∧
    (waitProcessEvent onlyNine 5 none true (two onlyNine)).1 = .ok (some (.signal 1 19)) :=
  ⟨by (intro log o pid st h; injection h with h _; cases h), by decide,
    by (intro log w st h; injection h with h _; cases h), fun _ _ => ⟨0, rfl⟩, by decide⟩

/-- The caller serves whatever event it gets: it waits for any process and lets the reported one go on. -/
def serve (K : Kern) (fuel : Nat) (s : DSt) : DSt :=
  match waitProcessEvent K fuel none true s with
  | (.ok (some (.signal o _)), t) => (procCont K o 0 t).2
  | (_, t) => t

/-- Serve `n` events. -/
def serveAll (K : Kern) (fuel : Nat) : Nat → DSt → DSt
  | 0, s => s
  | n + 1, s => serveAll K fuel n (serve K fuel s)

/-- States of the two processes under `calm`. -/
structure BothThere (s : DSt) : Prop where
  dict : s.dict = [(7, 0), (9, 1)]
  pid : (s.heap 0).pid = 7
  thread : (s.heap 0).isThread = false

theorem serve_calm (fuel : Nat) (s : DSt) (h : BothThere s) : BothThere (serve calm (fuel + 1) s) ∧
    ∃ g, (serve calm (fuel + 1) s).log = s.log ++ g ∧ g.map (fun e => e.call) = [.waitpid (some 7) true false, .cont 0 7 0] := by
  have hw : waitProcessEvent calm (fuel + 1) none true s =
      (.ok (some (.signal 0 19)), setProc (logCall calm (.waitpid (some 7) true false) s) 0 { s.heap 0 with isStopped := true }) := by
    have hraw : waitpidRaw calm 7 false s = (.ok (7, 0x137f), logCall calm (.waitpid (some 7) true false) s) := by
      unfold waitpidRaw
      rw [h.dict]
      show Py.bind (osCall calm (.waitpid (some 7) true (s.heap 0).isThread)) (checkPid 7 false) s = _
      rw [h.thread]
      rfl
    have hone : waitEventPid calm (fuel + 1) 7 false s =
        (.ok (some (.signal 0 19)), setProc (logCall calm (.waitpid (some 7) true false) s) 0 { s.heap 0 with isStopped := true }) := by
      unfold waitEventPid
      rw [hraw]
      dsimp only
      unfold waitReply
      have hd : dictGet (logCall calm (.waitpid (some 7) true false) s).dict 7 = some 0 := by
        show dictGet s.dict 7 = some 0
        rw [h.dict]
        decide
      dsimp only
      rw [hd]
      have hc : Spec.waitMeaning 0x137f = .signal 19 := by decide
      simp only [processStatus, hc]
      rfl
    show waitAny calm (fuel + 1) (fuel + 1) true s = _
    unfold waitAny
    rw [h.dict]
    have hpoll : pollPids (waitEventPid calm (fuel + 1)) [7, 9] s = (.ok (some (.signal 0 19)),
        setProc (logCall calm (.waitpid (some 7) true false) s) 0 { s.heap 0 with isStopped := true }) := by
      unfold pollPids Py.bind
      rw [hone]
      rfl
    show Py.bind (pollPids (waitEventPid calm (fuel + 1)) [7, 9]) _ s = _
    unfold Py.bind
    rw [hpoll]
    rfl
  unfold serve
  rw [hw]
  dsimp only
  have hc : procCont calm 0 0 (setProc (logCall calm (.waitpid (some 7) true false) s) 0 { s.heap 0 with isStopped := true }) =
      (.ok (), setProc (logCall calm (.cont 0 7 0) (setProc (logCall calm (.waitpid (some 7) true false) s) 0
        { s.heap 0 with isStopped := true })) 0 { s.heap 0 with isStopped := false }) := by
    have hp : ((setProc (logCall calm (.waitpid (some 7) true false) s) 0 { s.heap 0 with isStopped := true }).heap 0).pid = 7 := h.pid
    unfold procCont
    rw [hp]
    rfl
  rw [hc]
  exact ⟨⟨h.dict, h.pid, h.thread⟩, _, List.append_assoc s.log [⟨.waitpid (some 7) true false, .ok 7 0x137f, s.dict⟩]
    [⟨.cont 0 7 0, .ok 0 0, s.dict⟩], rfl⟩

/-- **C113** fails in general: however many events are served, the process registered second is never asked for, though
it has something to report all the time. -/
theorem C113_refuted (n : Nat) : RealPids calm ∧ Pending calm 9 ∧ getitem (serveAll calm 5 n (two calm)) 9 = some 1 ∧
    ∃ g, (serveAll calm 5 n (two calm)).log = (two calm).log ++ g ∧ g.length = 2 * n ∧
      ∀ e ∈ g, ∀ nohang wall, e.call ≠ .waitpid (some 9) nohang wall := by
  have hall : ∀ (n : Nat) (s : DSt), BothThere s → BothThere (serveAll calm 5 n s) ∧
      ∃ g, (serveAll calm 5 n s).log = s.log ++ g ∧ g.length = 2 * n ∧
      ∀ e ∈ g, ∀ nohang wall, e.call ≠ .waitpid (some 9) nohang wall := by
    intro n
    induction n with
    | zero => intro s h; exact ⟨h, [], by simp [serveAll], rfl, by simp⟩
    | succ n ih =>
      intro s h
      obtain ⟨h1, g1, hg1, hc1⟩ := serve_calm 4 s h
      obtain ⟨h2, g2, hg2, hl2, hn2⟩ := ih (serve calm 5 s) h1
      refine ⟨h2, g1 ++ g2, ?_, ?_, ?_⟩
      · show (serveAll calm 5 n (serve calm 5 s)).log = _
        rw [hg2, hg1, List.append_assoc]
      · have := congrArg List.length hc1
        simp only [List.length_map, List.length_cons, List.length_nil] at this
        rw [List.length_append, this, hl2]; omega
      · intro e he nohang wall
        rcases List.mem_append.1 he with he | he
        · have hm : e.call ∈ g1.map (fun e => e.call) := List.mem_map.2 ⟨e, he, rfl⟩
          rw [hc1] at hm
          intro hcall
          rw [hcall] at hm
          simp at hm
        · exact hn2 e he nohang wall
  have h0 : BothThere (two calm) := ⟨by decide, by decide, by decide⟩
  obtain ⟨h1, h2⟩ := hall n _ h0
  refine ⟨realPids_calm, by (intro log w st h; injection h with h _; cases h), ?_, h2⟩
  unfold getitem
  rw [h1.dict]
  decide

end PT
