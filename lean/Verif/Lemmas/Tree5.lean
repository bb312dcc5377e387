import Verif.Lemmas.Tree4

/-! A new process of a tree, and any stop. -/

namespace PT
open PT.Spec

section
variable {K : Kern} {T : Tree} {C : StraceCfg} {events attached : Bool} {options : Nat} {s : DSt} {k : Nat → Nat}

/-- The process that a stop announces has not been seen. -/
theorem Between.fresh (h : Between T C events attached options s k) (hT : T.Good (C.wish events options)) {p c : Nat} (hf : T.Forks p (k p) c) :
    k c = 0 := by
  rcases Nat.eq_zero_or_pos (k c) with h0 | h0
  · exact h0
  · rcases (h.born c).1 h0 with hr | ⟨q, i, hq, hi⟩
    · exact absurd hr (hT.real.2 p _ c hf).2
    · obtain ⟨rfl, rfl⟩ := hT.once p _ q i c hf hq
      omega

/-- A process that is added, awaited and given its options. -/
theorem tree_add (hK : Grows K T) (hT : T.Good (C.wish events options)) (ho : options ≠ 0) {c : Nat} (hb : T.Born c) (hc : c ≠ 0)
    (hlog : goesTo c s.log = 0) (hgood : s.useSysgood = true) (hexec : s.traceExec = events) (hopt : s.options = options)
    (hget : dictGet s.dict c = none) (isAttached : Bool) (parent : Option Nat) {n : DSt} (hn : newProc K c isAttached parent (T.thread c) s = (.ok s.next, n))
    (hnh : ∀ q, n.heap q = if q = s.next then freshProc c isAttached parent (T.thread c) else s.heap q)
    (hnd : n.dict = s.dict) (hnl : n.list = s.list) (hno : n.options = s.options) (hng : n.useSysgood = s.useSysgood)
    (hne : n.traceExec = s.traceExec) (hngo : goesTo c n.log = goesTo c s.log) (fuel : Nat) :
    ∃ t, addProcess K (waitEventPid K (fuel + 1)) c isAttached parent (T.thread c) s = (.ok s.next, t) ∧
      Doing events (T.thread c) c s.next { n with
        dict := dictSet s.dict c s.next
        list := s.list ++ [s.next] } t [.await (T.thread c), .options options] {} ∧ (t.heap s.next).parent = parent := by
  have h4 : Doing events (T.thread c) c s.next { n with
        dict := dictSet s.dict c s.next
        list := s.list ++ [s.next] } { n with
        dict := dictSet s.dict c s.next
        list := s.list ++ [s.next] } [] {} := by
    have hh : n.heap s.next = freshProc c isAttached parent (T.thread c) := by rw [hnh, if_pos rfl]
    have := Doing.zero (events := events) (th := T.thread c) (p := c) (o := s.next) (s := { n with
        dict := dictSet s.dict c s.next
        list := s.list ++ [s.next] }) (hng.trans hgood) (hne.trans hexec) (dictGet_set_self _ _ _ hget)
        (by show (n.heap s.next).pid = c; rw [hh]; rfl) (by show (n.heap s.next).running = true; rw [hh]; rfl)
        (by show (n.heap s.next).isAttached = true; rw [hh]; rfl) (by show (n.heap s.next).isThread = _; rw [hh]; rfl)
    have e : (n.heap s.next).ss = {} := by rw [hh]; rfl
    dsimp only at this
    rw [e] at this
    exact this
  obtain ⟨m, v, hm, hst⟩ : ∃ m v, (m = 5 ∨ m = 19) ∧ (T.stops c)[0]? = some (.signal m, v) := by
    cases hx : T.stops c with
    | nil =>
      have := hT.ends c hb
      rw [hx] at this
      cases this
    | cons x xs =>
      have := hT.fine c hb 0 x (by rw [hx]; rfl)
      obtain ⟨kind, v⟩ := x
      cases kind with
      | signal m => exact ⟨m, v, this, rfl⟩
      | exited => exact this.elim
      | killed => exact this.elim
      | event => exact this.elim
      | unknown => exact this.elim
  obtain ⟨s5, e5, h5⟩ := h4.wait hc hK rfl (n := m) (v := v) (by
    show (T.stops c)[goesTo c n.log + 0]? = _
    rw [hngo, hlog]
    exact hst) fuel
  obtain ⟨w, st, hk⟩ := (hK.accepts s5.log s.next c options).2.2.1
  obtain ⟨s6, e6, h6⟩ := h5.request hk (a := .options options) (fun d => by simp [care]) (fun d q hq => by simp [care, Ne.symm hq])
  refine ⟨s6, ?_, by simpa using h6, ?_⟩
  · unfold addProcess
    rw [if_neg (by rw [dictHas_false.2 (dictGet_none.1 hget)]; simp), Py.run_bind_ok hn]
    have er : register c s.next n = (.ok (), { n with
        dict := dictSet s.dict c s.next
        list := s.list ++ [s.next] }) := by
      unfold register
      rw [hnd, hnl]
    rw [Py.run_bind_ok er, Py.run_bind_ok (a := ()) (u := s5), Py.run_bind_ok (a := ()) (u := s6)]
    · rfl
    · unfold addProcessOptions
      rw [h5.options, show ({ n with
        dict := dictSet s.dict c s.next
        list := s.list ++ [s.next] } : DSt).options = options from hno.trans hopt, if_pos ho]
      unfold procSetoptions
      rw [h5.pid, Py.run_bind_ok e6]
      rfl
    · unfold addProcessWait waitSignalsPid
      rw [Py.run_bind_ok e5]
      rcases hm with rfl | rfl <;> rfl
  · rw [h6.parent]
    show (n.heap s.next).parent = parent
    rw [hnh, if_pos rfl]
    rfl

theorem ptraceCall_more {c : Call} {v : Nat} {t : DSt} (h : ptraceCall K c s = (.ok v, t)) : ∃ e, t.log = s.log ++ [e] := by
  rw [ptraceCall_run] at h
  injection h with _ h
  rw [← h]
  exact ⟨_, rfl⟩

/-- A stop that announces a process. -/
theorem tree_fork (hK : Grows K T) (h : Between T C events attached options s k) (hT : T.Good (C.wish events options)) (hopt : options ≠ 0) {fuel : Nat}
    {p o : Nat} {m : Int} {c : Nat} {st g} (hf : Found K T (fuel + 1) s (waitAny K (fuel + 2) (fuel + 2) true s) p o (.event m) c st g) (hm : m ≠ 4)
    (code : Nat) : ∃ t r u, straceTurn K (fuel + 2) C code s = (.ok code, t) ∧
      Between T C events attached options t (setPos (setPos k p (k p + 1)) c 1) ∧
      Turn K T C events options (fuel + 2) s t k (setPos (setPos k p (k p + 1)) c 1) p o (.event m) c g r u := by
  obtain ⟨h1, h2, hs, hp, hd⟩ := h.found hT hf
  have hforks : T.Forks p (k p) c := ⟨m, hs, hm⟩
  have hb := h.tree p h1
  have hbc : T.Born c := .child hb hforks
  have hc0 := h.fresh hT hforks
  obtain ⟨hcz, hcr⟩ := hT.real.2 p _ c hforks
  have hcp : c ≠ p := by rintro rfl; omega
  have hmm : m = 1 ∨ m = 2 ∨ m = 3 := by
    obtain ⟨-, -, -, hat⟩ := h.obj p o hf.get
    have := hT.fine p hb _ _ hs
    generalize (history (C.wish events options) (T.thread p) ((T.stops p).take (k p))).1 = pl at hat this
    cases pl with
    | outside => rcases this with h | h | h | h <;> omega
    | inside regs => rcases this with h | h | h | h <;> omega
    | unborn => exact hat.elim
    | trap => exact hat.elim
    | over => exact hat.elim
  have hcget : dictGet s.dict c = none := by
    cases hx : dictGet s.dict c with
    | none => rfl
    | some x => have := ((h.mem c).1 ⟨x, hx⟩).1; omega
  -- the parent tells the new process
  obtain ⟨s2, e2, d2⟩ := hd.message hK (kind := .event m) (v := c) (by simpa [h.goes hT h1 h2] using hs)
  obtain ⟨g2, hg2, g2p, g2q⟩ := d2.log
  have hcl : cares c s2.log = [] := by
    rw [hg2, cares_append, g2q c hcp, h.log c, hc0, if_neg (by simp [hcr])]
    rfl
  have hreg2 : RegInv s2 := by
    refine h.reg.congr d2.dict d2.list (Nat.le_of_eq d2.next.symm) (fun q => ?_) fun q => ?_
    · by_cases hq : q = o
      · subst hq; rw [d2.pid, h.pid hf.get]
      · rw [d2.others q hq]
    · by_cases hq : q = o
      · subst hq; exact fun _ => (h.obj p q hf.get).2.1
      · rw [d2.others q hq]; exact id
  have hoq : o ≠ s2.next := by
    rw [d2.next]
    exact Nat.ne_of_lt (h.reg.alloc o ((h.reg.agree p o).1 (dictGet_some hf.get)).1)
  -- the new process is added
  have hth : decide (m = PTRACE_EVENT_CLONE) = T.thread c := by
    have := hT.kind p (k p) c m hs hm
    show decide (m = 3) = _
    by_cases h3 : m = 3
    · rw [this.2 h3]; simp [h3]
    · cases ht : T.thread c with
      | true => exact absurd (this.1 ht) h3
      | false => simp [h3]
  obtain ⟨s6, e6, d6, hpar⟩ := tree_add (C := C) hK hT hopt hbc hcz (s := s2) (by rw [goesTo_eq, hcl]; rfl) d2.good d2.exec (d2.options.trans h.opts)
    (by rw [d2.dict]; exact hcget) true (some o) (n := { setProc s2 s2.next (freshProc c true (some o) (T.thread c)) with
      next := s2.next + 1 }) rfl (fun q => rfl) rfl rfl rfl rfl rfl rfl fuel
  have hev : processStatus K (waitEventPid K (fuel + 1)) o st { s with log := s.log ++ g } = (.ok (.newProcess s2.next), s6) := by
    unfold processStatus
    rw [classify_kind, hf.status]
    dsimp only
    unfold ptraceEvent
    rw [if_pos (show m = PTRACE_EVENT_FORK ∨ m = PTRACE_EVENT_VFORK ∨ m = PTRACE_EVENT_CLONE from hmm), hd.pid, Py.run_bind_ok e2, hth, Py.run_bind_ok e6]
    rfl
  have w : waitSyscall K (fuel + 2) none s = (.error (.event (.newProcess s2.next)), s6) := hf.wait h.good hev
  -- it goes on
  obtain ⟨s7, e7, d7⟩ := d6.go hK 0
  obtain ⟨s8, e8, d8⟩ := d7.setSys (f := fun ss => { ss with hasCallback := true })
  have hpar8 : (s8.heap s2.next).parent = some o := d8.parent.trans (by
    show (if s2.next = s2.next then freshProc c true (some o) (T.thread c) else s2.heap s2.next).parent = _
    rw [if_pos rfl]
    rfl)
  have hx8 : ∀ x, x ≠ s2.next → s8.heap x = s2.heap x := fun x hx => (d8.others x hx).trans (if_neg hx)
  have hdict8 : s8.dict = dictSet s.dict c s2.next := d8.dict.trans (by show dictSet s2.dict c s2.next = _; rw [d2.dict])
  have hgetp : dictGet s8.dict p = some o := by rw [hdict8, dictGet_set_ne _ _ hcget (Ne.symm hcp)]; exact hf.get
  -- and so does its parent
  have d8' : Doing events (T.thread p) p o s8 s8 [] (s8.heap o).ss := Doing.zero d8.good d8.exec hgetp (by rw [hx8 o hoq]; exact d2.pid)
    (by rw [hx8 o hoq]; exact d2.running) (by rw [hx8 o hoq]; exact d2.attached) (by rw [hx8 o hoq]; exact d2.thread)
  obtain ⟨s9, e9, d9⟩ := d8'.go hK 0
  have hss9 : (s9.heap o).ss = (s.heap o).ss := by rw [d9.ss, hx8 o hoq, d2.ss]
  obtain ⟨g8, hg8, g8c, g8q⟩ := d8.log
  obtain ⟨g9, hg9, g9p, g9q⟩ := d9.log
  have hlog9 : s9.log = s.log ++ g2 ++ g8 ++ g9 := by
    rw [hg9, hg8]
    show s2.log ++ g8 ++ g9 = _
    rw [hg2]
  have hdict9 : s9.dict = dictSet s.dict c s2.next := d9.dict.trans hdict8
  have hreg9 : RegInv s9 := by
    have r1 := hreg2.add c true (some o) (T.thread c) (by rw [d2.dict]; exact dictHas_false.2 (dictGet_none.1 hcget))
    have r8 : RegInv s8 := by
      refine r1.congr d8.dict d8.list (Nat.le_of_eq d8.next.symm) (fun q => ?_) fun q => ?_
      · by_cases hq : q = s2.next
        · subst hq
          rw [d8.pid]
          show c = (if s2.next = s2.next then freshProc c true (some o) (T.thread c) else s2.heap s2.next).pid
          rw [if_pos rfl]
          rfl
        · rw [d8.others q hq]
      · by_cases hq : q = s2.next
        · subst hq
          intro _
          show (if s2.next = s2.next then freshProc c true (some o) (T.thread c) else s2.heap s2.next).isAttached = true
          rw [if_pos rfl]
          rfl
        · rw [d8.others q hq]; exact id
    refine r8.congr d9.dict d9.list (Nat.le_of_eq d9.next.symm) (fun q => ?_) fun q => ?_
    · by_cases hq : q = o
      · subst hq; rw [d9.pid, hx8 q hoq, d2.pid]
      · rw [d9.others q hq]
    · by_cases hq : q = o
      · subst hq; intro _; rw [hx8 q hoq]; exact d2.attached
      · rw [d9.others q hq]; exact id
  have hturn : Turn K T C events options (fuel + 2) s s9 k (setPos (setPos k p (k p + 1)) c 1) p o (.event m) c g
      (.error (.event (.newProcess s2.next))) s6 := by
    refine ⟨w, ?_, fun hx => absurd (hx m rfl) hm, ?_, ?_, ?_, Or.inr (Or.inr ⟨m, rfl, hm, rfl, ?_⟩)⟩
    · show if m = 4 then _ else _
      rw [if_neg hm]
      exact ⟨_, rfl, d6.pid⟩
    · obtain ⟨e, he⟩ := ptraceCall_more e2
      obtain ⟨g6, hg6, -, -⟩ := d6.log
      refine ⟨[e] ++ g6, ?_⟩
      rw [hg6]
      show s2.log ++ g6 = _
      rw [he]
      simp
    · intro q o' hqp hkq hq
      have hqc : q ≠ c := by rintro rfl; omega
      rw [hdict9, dictGet_set_ne _ _ hcget hqc] at hq
      have ho1 : o' ≠ o := by
        rintro rfl
        exact hqp ((h.pid hq).symm.trans (h.pid hf.get))
      have ho2 : o' ≠ s2.next := by
        rw [d2.next]
        exact Nat.ne_of_lt (h.reg.alloc o' ((h.reg.agree q o').1 (dictGet_some hq)).1)
      exact ⟨hq, by rw [d9.others o' ho1, hx8 o' ho2, d2.others o' ho1]⟩
    · intro o' hq
      rw [hdict9, dictGet_set_ne _ _ hcget (Ne.symm hcp), hf.get] at hq
      exact ⟨(Option.some.inj hq).symm, Or.inl hss9⟩
    · rw [hlog9, reported_append, reported_append, reported_append, reported_only g2q, reported_only g8q, reported_only g9q, g2p, g8c, g9p]
      simp
  refine ⟨s9, .error (.event (.newProcess s2.next)), s6, ?_, ?_, hturn⟩
  · unfold straceTurn
    rw [w]
    unfold straceHandle
    dsimp only
    rw [Py.run_bind_ok (a := ()) (u := s9)]
    · rfl
    · unfold straceNewProcess
      rw [Py.run_bind_ok (a := ()) (u := s8)]
      · rw [hpar8]
        exact e9
      · unfold prepareProcess
        rw [Py.run_bind_ok e7, e8]
  -- everything is as it should be
  have hk'c : setPos (setPos k p (k p + 1)) c 1 c = 1 := setPos_self _ _ _
  have hk'p : setPos (setPos k p (k p + 1)) c 1 p = k p + 1 := by rw [setPos_ne _ _ (Ne.symm hcp), setPos_self]
  have hk'q : ∀ q, q ≠ c → q ≠ p → setPos (setPos k p (k p + 1)) c 1 q = k q := fun q hqc hqp => by
    rw [setPos_ne _ _ hqc, setPos_ne _ _ hqp]
  have hsucc := history_succ (W := C.wish events options) (th := T.thread p) hs
  have hone : (oneStop (C.wish events options) (T.thread p) (history (C.wish events options) (T.thread p) ((T.stops p).take (k p))).1 (.event m, c)) =
      ((history (C.wish events options) (T.thread p) ((T.stops p).take (k p))).1, [.await (T.thread p), .message, .go 0]) := by
    obtain ⟨-, -, -, hat⟩ := h.obj p o hf.get
    generalize (history (C.wish events options) (T.thread p) ((T.stops p).take (k p))).1 = pl at hat
    cases pl with
    | outside => simp only [oneStop]; rw [if_neg hm]
    | inside regs => simp only [oneStop]; rw [if_neg hm]
    | unborn => exact hat.elim
    | trap => exact hat.elim
    | over => exact hat.elim
  rw [hone] at hsucc
  have hplace := (h.obj p o hf.get).2.2.2
  have hlt : k p + 1 < (T.stops p).length := by
    rcases Nat.lt_or_eq_of_le (show k p + 1 ≤ (T.stops p).length from h2) with hc | hc
    · exact hc
    · rw [hc, List.take_length] at hsucc
      have he := hT.ends p hb
      rw [hsucc] at he
      dsimp only at he
      rw [he] at hplace
      exact hplace.elim
  -- the first stop of the new process
  obtain ⟨x, hx⟩ : ∃ x, (T.stops c)[0]? = some x := by
    cases hx : T.stops c with
    | nil =>
      have := hT.ends c hbc
      rw [hx] at this
      cases this
    | cons x xs => exact ⟨x, rfl⟩
  have hsuccc := history_succ (W := C.wish events options) (th := T.thread c) hx
  rw [List.take_zero] at hsuccc
  have honec : oneStop (C.wish events options) (T.thread c) (history (C.wish events options) (T.thread c) []).1 x =
      (.outside, [.await (T.thread c), .options options, .go 0]) := rfl
  rw [honec] at hsuccc
  have hltc : 1 < (T.stops c).length := by
    rcases Nat.lt_or_ge 1 (T.stops c).length with hc | hc
    · exact hc
    · rw [List.take_of_length_le (by omega)] at hsuccc
      have he := hT.ends c hbc
      rw [hsuccc] at he
      cases he
  refine ⟨hreg9, d9.good, d9.exec, ?_, ?_, ?_, ?_, ?_, ?_, ?_⟩
  · rw [d9.options, d8.options]
    exact d2.options.trans h.opts
  · intro q
    by_cases hqc : q = c
    · subst hqc; rw [hk'c]; omega
    by_cases hqp : q = p
    · subst hqp; rw [hk'p]; exact h2
    rw [hk'q q hqc hqp]
    exact h.le q
  · intro q
    rw [hdict9]
    by_cases hqc : q = c
    · subst hqc
      rw [hk'c, dictGet_set_self _ _ _ hcget]
      exact ⟨fun _ => ⟨by omega, hltc⟩, fun _ => ⟨_, rfl⟩⟩
    rw [dictGet_set_ne _ _ hcget hqc, h.mem]
    by_cases hqp : q = p
    · subst hqp; rw [hk'p]; omega
    rw [hk'q q hqc hqp]
  · intro q o' hq
    rw [hdict9] at hq
    by_cases hqc : q = c
    · subst hqc
      rw [dictGet_set_self _ _ _ hcget] at hq
      injection hq with hq
      subst hq
      rw [hk'c, d9.others _ (Ne.symm hoq), hsuccc]
      exact ⟨d8.running, d8.attached, d8.thread, by rw [d8.ss]; exact ⟨rfl, rfl⟩⟩
    rw [dictGet_set_ne _ _ hcget hqc] at hq
    by_cases hqp : q = p
    · subst hqp
      rw [hf.get] at hq
      injection hq with hq
      subst hq
      rw [hk'p, hss9, hsucc]
      exact ⟨d9.running, d9.attached, d9.thread, hplace⟩
    have ho1 : o' ≠ o := by
      rintro rfl
      exact hqp ((h.pid hq).symm.trans (h.pid hf.get))
    have ho2 : o' ≠ s2.next := by
      rw [d2.next]
      exact Nat.ne_of_lt (h.reg.alloc o' ((h.reg.agree q o').1 (dictGet_some hq)).1)
    rw [hk'q q hqc hqp, d9.others o' ho1, hx8 o' ho2, d2.others o' ho1]
    exact h.obj q o' hq
  · intro q
    rw [hlog9, cares_append, cares_append, cares_append, h.log q]
    by_cases hqc : q = c
    · subst hqc
      rw [hk'c, hc0, g2q q hcp, g8c, g9q q hcp, hsuccc]
      simp [history, filterSignal]
    by_cases hqp : q = p
    · subst hqp
      rw [hk'p, g2p, g8q q hqc, g9p, hsucc]
      simp [filterSignal]
    rw [hk'q q hqc hqp, g2q q hqp, g8q q hqc, g9q q hqp]
    simp
  · intro q hq
    by_cases hqc : q = c
    · subst hqc; exact hbc
    by_cases hqp : q = p
    · subst hqp; exact hb
    rw [hk'q q hqc hqp] at hq
    exact h.tree q hq
  · intro q
    by_cases hqc : q = c
    · subst hqc
      rw [hk'c]
      exact ⟨fun _ => Or.inr ⟨p, k p, hforks, by rw [hk'p]; omega⟩, fun _ => by omega⟩
    have e0 : 0 < setPos (setPos k p (k p + 1)) c 1 q ↔ 0 < k q := by
      by_cases hqp : q = p
      · subst hqp; rw [hk'p]; omega
      · rw [hk'q q hqc hqp]
    rw [e0, h.born]
    constructor
    · rintro (hr | ⟨q', i, hq', hi⟩)
      · exact Or.inl hr
      · refine Or.inr ⟨q', i, hq', ?_⟩
        by_cases h1 : q' = c
        · subst h1; omega
        by_cases h2 : q' = p
        · subst h2; rw [hk'p]; omega
        rw [hk'q q' h1 h2]; exact hi
    · rintro (hr | ⟨q', i, hq', hi⟩)
      · exact Or.inl hr
      · refine Or.inr ⟨q', i, hq', ?_⟩
        by_cases h1 : q' = c
        · subst h1
          rw [hk'c] at hi
          have hi0 : i = 0 := by omega
          subst hi0
          obtain ⟨n, hn, -⟩ := hq'
          rw [hx] at hn
          injection hn with hn
          subst hn
          exact (hT.fine q' hbc 0 _ hx).elim
        by_cases h2 : q' = p
        · subst h2
          rw [hk'p] at hi
          rcases Nat.lt_or_ge i (k q') with hc | hc
          · exact hc
          · have hik : i = k q' := by omega
            subst hik
            obtain ⟨n, hn, -⟩ := hq'
            rw [hs] at hn
            injection hn with hn
            injection hn with _ hn
            exact absurd hn.symm hqc
        rw [hk'q q' h1 h2] at hi
        exact hi

end

end PT
