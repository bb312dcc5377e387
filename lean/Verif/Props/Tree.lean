import Verif.Lemmas.Tree5

/-! Property theorems C128: strace.py follows a tree of processes. -/

namespace PT
open PT.Spec

section
variable {K : Kern} {T : Tree} {C : StraceCfg} {events attached : Bool} {options : Nat} {s : DSt} {k : Nat → Nat}

/-- One turn has dealt with a stop of a process that was left. -/
def Turned (K : Kern) (T : Tree) (C : StraceCfg) (events attached : Bool) (options fuel code : Nat) (s : DSt) (k : Nat → Nat) : Prop :=
  ∃ code' t k' p o kind v st g r u, straceTurn K (fuel + 2) C code s = (.ok code', t) ∧ Between T C events attached options t k' ∧
    (∀ q, k q ≤ k' q) ∧ T.Born p ∧ k p < k' p ∧ Found K T (fuel + 1) s (waitAny K (fuel + 2) (fuel + 2) true s) p o kind v st g ∧
    Turn K T C events options (fuel + 2) s t k k' p o kind v g r u

/-- One turn deals with the stop that was told. -/
theorem tree_turn_found (hK : Grows K T) (h : Between T C events attached options s k) (hT : T.Good (C.wish events options)) (hopt : options ≠ 0)
    {fuel p o : Nat} {kind : StatusKind} {v : Nat} {st : Int} {g : List Entry}
    (hf : Found K T (fuel + 1) s (waitAny K (fuel + 2) (fuel + 2) true s) p o kind v st g) (code : Nat) :
    Turned K T C events attached options fuel code s k := by
  obtain ⟨h1, h2, hs, hp, hd⟩ := h.found hT hf
  have hb := h.tree p h1
  obtain ⟨-, -, -, hat⟩ := h.obj p o hf.get
  have hcan := hT.fine p hb _ _ hs
  have hgo := h.goes hT h1 h2
  have hsucc := history_succ (W := C.wish events options) (th := T.thread p) hs
  have mono : ∀ n, k p < n → ∀ q, k q ≤ setPos k p n q := by
    intro n hn q
    unfold setPos
    split
    · rename_i hq; subst hq; omega
    · exact Nat.le_refl _
  -- stops that do not end the process and make no new one
  have on : ∀ {as : List Care} {ss : SysState} {code' : Nat} {t : DSt} {r : Except Exc Event} {u : DSt},
      straceTurn K (fuel + 2) C code s = (.ok code', t) → waitSyscall K (fuel + 2) none s = (r, u) → Answer u o kind v r →
      Doing events (T.thread p) p o s u [.await (T.thread p)] (s.heap o).ss → u.log = s.log ++ g →
      Doing events (T.thread p) p o s t as ss → awaitCares as = 1 →
      (ss = (s.heap o).ss ∨ Outside ss ∨ (Outside (s.heap o).ss ∧ ∀ c, ss.syscall = some c → c = ⟨(s.log ++ g).length, v, none⟩)) →
      (∀ m, kind = .event m → m = 4) →
      (history (C.wish events options) (T.thread p) ((T.stops p).take (k p + 1))).2 =
        (history (C.wish events options) (T.thread p) ((T.stops p).take (k p))).2 ++ as →
      AtPlace C (history (C.wish events options) (T.thread p) ((T.stops p).take (k p + 1))).1 ss → (∀ c, ¬T.Forks p (k p) c) →
      Turned K T C events attached options fuel code s k := by
    intro as ss code' t r u e w hans du hul hd' has hss hkind hh ha hfk
    refine ⟨code', t, _, p, o, kind, v, st, g, r, u, e, h.on hT h1 (Nat.lt_succ_self _) h2 hd' hh ha (fun i c hi1 hi2 => ?_),
      mono _ (Nat.lt_succ_self _), hb, ?_, hf, w, hans, fun _ => ⟨hul, du.ss, du.pid, du.next⟩, ⟨[], by rw [hul, List.append_nil]⟩,
      hd'.kept h, hd'.own hss, Or.inl ⟨rfl, ?_, hkind⟩⟩
    · rw [show i = k p by omega]; exact hfk c
    · rw [setPos_self]; omega
    · obtain ⟨l, hl, l1, l2⟩ := hd'.log
      rw [hl, reported_append, reported_only l2, l1, has]
      rfl
  cases kind with
  | unknown =>
    generalize (history (C.wish events options) (T.thread p) ((T.stops p).take (k p))).1 = pl at hat hcan
    cases pl <;> first | exact hat.elim | exact hcan.elim
  | exited c =>
    obtain ⟨code', t, r, u, e, hbt, ht⟩ := tree_exit hK h hT hf (Or.inl ⟨c, rfl⟩) code
    exact ⟨code', t, _, p, o, _, v, st, g, r, u, e, hbt, mono _ h2, hb, by rw [setPos_self]; exact h2, hf, ht⟩
  | killed n =>
    obtain ⟨code', t, r, u, e, hbt, ht⟩ := tree_exit hK h hT hf (Or.inr ⟨n, rfl⟩) code
    exact ⟨code', t, _, p, o, _, v, st, g, r, u, e, hbt, mono _ h2, hb, by rw [setPos_self]; exact h2, hf, ht⟩
  | event m =>
    by_cases hm : m = 4
    · subst hm
      have hev : processStatus K (waitEventPid K (fuel + 1)) o st { s with log := s.log ++ g } = (.ok (.execution o), { s with log := s.log ++ g }) := by
        unfold processStatus
        rw [classify_kind, hf.status]
        rfl
      have w : waitSyscall K (fuel + 2) none s = (.error (.event (.execution o)), { s with log := s.log ++ g }) := hf.wait h.good hev
      obtain ⟨s2, e2, d2⟩ := hd.go hK 0
      refine on (code' := code) ?_ w rfl hd rfl d2 (by simp) (Or.inl rfl) (fun m hm => by injection hm with hm; exact hm.symm) ?_ ?_ ?_
      · unfold straceTurn
        rw [w]
        unfold straceHandle
        dsimp only
        rw [Py.run_bind_ok e2]
        rfl
      · rw [hsucc]
        generalize (history (C.wish events options) (T.thread p) ((T.stops p).take (k p))).1 = pl at hat
        cases pl <;> first | exact hat.elim | rfl
      · rw [hsucc]
        generalize (history (C.wish events options) (T.thread p) ((T.stops p).take (k p))).1 = pl at hat
        cases pl <;> first | exact hat.elim | exact hat
      · rintro c ⟨n, hn, hn4⟩
        rw [hs] at hn
        injection hn with hn
        injection hn with hn
        injection hn with hn
        exact hn4 hn.symm
    · obtain ⟨t, r, u, e, hbt, ht⟩ := tree_fork hK h hT hopt hf hm code
      have hc0 := h.fresh hT ⟨m, hs, hm⟩
      have hvp : v ≠ p := by rintro rfl; omega
      refine ⟨code, t, _, p, o, _, v, st, g, r, u, e, hbt, fun q => ?_, hb, ?_, hf, ht⟩
      · unfold setPos
        split
        · rename_i hq; subst hq; omega
        · split
          · rename_i hq; subst hq; omega
          · exact Nat.le_refl _
      · rw [setPos_ne _ _ (Ne.symm hvp), setPos_self]; omega
  | signal n =>
    have nofork : ∀ c, ¬T.Forks p (k p) c := by
      rintro c ⟨m, hm, -⟩
      rw [hs] at hm
      injection hm with hm
      injection hm with hm
      cases hm
    have hev : processStatus K (waitEventPid K (fuel + 1)) o st { s with log := s.log ++ g } =
        (.ok (.signal o n), setProc { s with log := s.log ++ g } o { ({ s with log := s.log ++ g } : DSt).heap o with isStopped := true }) := by
      unfold processStatus
      rw [classify_kind, hf.status]
      rfl
    have w := hf.wait h.good hev
    have d1 := hd.stopped
    have hl1 : (setProc { s with log := s.log ++ g } o { ({ s with log := s.log ++ g } : DSt).heap o with isStopped := true }).log = s.log ++ g := rfl
    have noevent : ∀ m, StatusKind.signal n = .event m → m = 4 := by intro m hm; cases hm
    generalize setProc { s with log := s.log ++ g } o { ({ s with log := s.log ++ g } : DSt).heap o with isStopped := true } = s1 at w d1 hl1
    have hstop : (T.stops p)[goesTo p s.log + goCares [Care.await (T.thread p)]]? = some (.signal n, v) := by simpa [hgo] using hs
    by_cases hn : n = 133
    · subst hn
      have w' : waitSyscall K (fuel + 2) none s = (.ok (.signal o 133), s1) := w
      have turn : ∀ {t : DSt}, straceSyscall K (fuel + 2) C o s1 = (.ok (), t) → straceTurn K (fuel + 2) C code s = (.ok code, t) := by
        intro t e
        unfold straceTurn
        rw [w']
        unfold straceHandle
        dsimp only [Event.proc]
        rw [Py.run_bind_ok e]
        rfl
      generalize hpl : (history (C.wish events options) (T.thread p) ((T.stops p).take (k p))).1 = pl at hat hcan hsucc
      cases pl with
      | outside =>
        obtain ⟨t, ss', e, d, hin, hsame⟩ := tree_start (C := C) hK d1 hat hstop (fuel + 2)
        rw [hl1] at hsame
        exact on (turn e) w' rfl d1 hl1 d (by split <;> (try split) <;> simp) (Or.inr (Or.inr ⟨hat, hsame⟩)) noevent (by rw [hsucc]; rfl)
          (by rw [hsucc]; exact hin) nofork
      | inside regs =>
        by_cases hx : C.sys.name regs = execveName ∧ events = false
        · obtain ⟨hx1, hx2⟩ := hx
          subst hx2
          -- the trap is the next stop
          have hone : oneStop (C.wish false options) (T.thread p) (.inside regs) (.signal 133, v) =
              (.trap regs, .await (T.thread p) :: (if C.view.shown regs then [.look] else []) ++ [.go 0]) := by
            simp only [oneStop]
            rw [if_pos trivial, if_pos (show ((C.wish false options).exec regs && !(C.wish false options).events) = true by simp [StraceCfg.wish, hx1])]
            rfl
          rw [hone] at hsucc
          have hlt : k p + 1 < (T.stops p).length := by
            rcases Nat.lt_or_eq_of_le (show k p + 1 ≤ (T.stops p).length from h2) with hc | hc
            · exact hc
            · rw [hc, List.take_length] at hsucc
              have he := hT.ends p hb
              rw [hsucc] at he
              cases he
          have hs2 : (T.stops p)[k p + 1]? = some (T.stops p)[k p + 1] := List.getElem?_eq_getElem hlt
          generalize (T.stops p)[k p + 1] = x at hs2
          have hcan2 := hT.fine p hb _ _ hs2
          rw [hsucc] at hcan2
          obtain ⟨kind2, v2⟩ := x
          have hk2 : kind2 = .signal 5 := by
            cases kind2 with
            | signal m => exact congrArg StatusKind.signal hcan2
            | exited => exact hcan2.elim
            | killed => exact hcan2.elim
            | event => exact hcan2.elim
            | unknown => exact hcan2.elim
          subst hk2
          obtain ⟨t, ss', e, d, hout⟩ := tree_exec (C := C) hp hK rfl d1 hat hx1 hstop (by simpa [hgo] using hs2) (fuel + 1)
          have hsucc2 := history_succ (W := C.wish false options) (th := T.thread p) hs2
          rw [hsucc] at hsucc2
          have hone2 : oneStop (C.wish false options) (T.thread p) (.trap regs) (.signal 5, v2) =
              (.outside, .await (T.thread p) :: (if C.view.shown regs then [.print] else []) ++ [.go 0]) := rfl
          dsimp only at hsucc2
          rw [hone2] at hsucc2
          refine ⟨code, t, _, p, o, _, v, st, g, _, s1, turn e, h.on hT h1 (n := k p + 1 + 1) (by omega) hlt d ?_ (by rw [hsucc2]; exact hout)
            (fun i c hi1 hi2 => ?_), mono _ (by omega), hb, by rw [setPos_self]; omega, hf, w', rfl, fun _ => ⟨hl1, d1.ss, d1.pid, d1.next⟩,
            ⟨[], by rw [hl1, List.append_nil]⟩, d.kept h, d.own (Or.inr (Or.inl hout)),
            Or.inr (Or.inl ⟨rfl, ⟨regs, hpl, hx1, rfl⟩, ⟨v2, hs2⟩, rfl, ?_⟩)⟩
          · rw [hsucc2]
            simp
          · rcases Nat.lt_or_ge (k p) i with hc | hc
            · rintro ⟨m, hm, -⟩
              rw [show i = k p + 1 by omega, hs2] at hm
              injection hm with hm
              injection hm with hm
              cases hm
            · rw [show i = k p by omega]
              exact nofork c
          · obtain ⟨l, hl, l1, l2⟩ := d.log
            rw [hl, reported_append, reported_only l2, l1]
            cases C.view.shown regs <;> simp [List.replicate]
        · have hone : oneStop (C.wish events options) (T.thread p) (.inside regs) (.signal 133, v) =
              (.outside, .await (T.thread p) :: (if C.view.shown regs then [.look, .print] else []) ++ [.go 0]) := by
            simp only [oneStop]
            rw [if_pos trivial, if_neg]
            · rfl
            · intro hc
              have hc' : (decide (C.sys.name regs = execveName) && !events) = true := hc
              simp only [Bool.and_eq_true, decide_eq_true_eq, Bool.not_eq_true'] at hc'
              exact hx hc'
          rw [hone] at hsucc
          obtain ⟨t, ss', e, d, hout⟩ := tree_end (C := C) hK d1 hat (fun hx1 => by
            cases hev : events with
            | true => rfl
            | false => exact absurd ⟨hx1, hev⟩ hx) hstop (fuel + 2)
          exact on (turn e) w' rfl d1 hl1 d (by split <;> simp) (Or.inr (Or.inl hout)) noevent (by rw [hsucc]; simp) (by rw [hsucc]; exact hout) nofork
      | unborn => exact hat.elim
      | trap => exact hat.elim
      | over => exact hat.elim
    · have w' : waitSyscall K (fuel + 2) none s = (.error (.event (.signal o n)), s1) := by
        rw [w]
        unfold filterEvent
        dsimp only
        rw [if_neg (by simp [hn])]
        rfl
      obtain ⟨t, e, d⟩ := tree_signal (C := C) hK d1 n (fuel + 2) code
      refine on (code' := 128 + n) ?_ w' ?_ d1 hl1 d (by simp) (Or.inl rfl) noevent ?_ ?_ nofork
      · unfold straceTurn
        rw [w']
        exact e
      · show _ = if n = 133 then _ else _
        rw [if_neg hn]
      · rw [hsucc]
        generalize (history (C.wish events options) (T.thread p) ((T.stops p).take (k p))).1 = pl at hat
        cases pl with
        | outside => simp only [oneStop]; rw [if_neg hn]; rfl
        | inside => simp only [oneStop]; rw [if_neg hn]; rfl
        | unborn => exact hat.elim
        | trap => exact hat.elim
        | over => exact hat.elim
      · rw [hsucc]
        generalize (history (C.wish events options) (T.thread p) ((T.stops p).take (k p))).1 = pl at hat
        cases pl with
        | outside => simp only [oneStop]; rw [if_neg hn]; exact hat
        | inside => simp only [oneStop]; rw [if_neg hn]; exact hat
        | unborn => exact hat.elim
        | trap => exact hat.elim
        | over => exact hat.elim

/-- One turn deals with a stop of a process that is left, whichever it is. -/
theorem tree_turn (hK : Grows K T) {patience : Nat} (hL : Lively K T patience) (h : Between T C events attached options s k)
    (hT : T.Good (C.wish events options)) (hopt : options ≠ 0) (hne : s.dict ≠ []) {fuel : Nat} (hfuel : patience < fuel + 2) (code : Nat) :
    Turned K T C events attached options fuel code s k := by
  obtain ⟨p, o, kind, v, st, g, hf⟩ := wait_any hK hL (fuel + 1) (fuel + 2) s (h.settled hT) hne (h.left hT) (by omega) (by omega)
  exact tree_turn_found hK h hT hopt hf code

theorem sum_lt {f g : Nat → Nat} {p : Nat} : ∀ {l : List Nat}, p ∈ l → (∀ q, f q ≤ g q) → f p < g p → (l.map f).sum < (l.map g).sum
  | [], h, _, _ => by cases h
  | x :: l, h, hle, hlt => by
    have tail : (l.map f).sum ≤ (l.map g).sum := by
      clear h
      induction l with
      | nil => simp
      | cons y l ih => simp only [List.map_cons, List.sum_cons]; have := hle y; omega
    simp only [List.map_cons, List.sum_cons]
    rcases List.mem_cons.1 h with rfl | h
    · omega
    · have := sum_lt h hle hlt
      have := hle x
      omega

/-- The loop deals with all stops that are left. -/
theorem tree_loop (hK : Grows K T) {patience : Nat} (hL : Lively K T patience) (hT : T.Good (C.wish events options)) (hopt : options ≠ 0)
    {fuel : Nat} (hfuel : patience < fuel + 2) {pids : List Nat} (hpids : ∀ p, T.Born p → p ∈ pids) :
    ∀ (n : Nat) (s : DSt) (k : Nat → Nat) (code : Nat), Between T C events attached options s k →
      (pids.map fun p => (T.stops p).length - k p).sum < n →
      ∃ code' t k', straceLoop K (fuel + 2) C n code s = (.ok code', t) ∧ Between T C events attached options t k' ∧ t.list = []
  | 0, _, _, _, _, hn => absurd hn (by omega)
  | n + 1, s, k, code, h, hn => by
    by_cases hl : s.list = []
    · refine ⟨code, s, k, ?_, h, hl⟩
      show (if length s = 0 then _ else _) = _
      rw [if_pos (by unfold length; rw [hl]; rfl)]
    · have hne : s.dict ≠ [] := by
        intro hd
        obtain ⟨o, os, ho⟩ := List.exists_cons_of_ne_nil hl
        have := (h.reg.agree (s.heap o).pid o).2 ⟨by rw [ho]; simp, rfl⟩
        rw [hd] at this
        cases this
      obtain ⟨code', t, k', p, _, _, _, _, _, _, _, e, hb, hle, hp, hlt, _, _⟩ := tree_turn hK hL h hT hopt hne hfuel code
      have hs : (pids.map fun p => (T.stops p).length - k' p).sum < (pids.map fun p => (T.stops p).length - k p).sum := by
        refine sum_lt (hpids p hp) (fun q => ?_) ?_
        · have := hle q; omega
        · have := hb.le p; omega
      obtain ⟨code'', u, k'', e2, hb2, hl2⟩ := tree_loop hK hL hT hopt hfuel hpids n t k' code' hb (by omega)
      refine ⟨code'', u, k'', ?_, hb2, hl2⟩
      show (if length s = 0 then _ else _) = _
      rw [if_neg (by unfold length; intro hc; exact hl (List.length_eq_zero_iff.1 hc)), Py.run_bind_ok e, e2]

/-- The debugger before it has a process, with the options `--fork`, `--trace-exec` and `--trace-clone` of strace.py. -/
def treeState (fork exec clone : Bool) : DSt :=
  let s := newDebugger
  let s := if fork then (traceFork s).2 else s
  let s := if exec then (traceExec s).2 else s
  if clone then (traceClone s).2 else s

/-- The same options as `ptrace(2)` numbers them: good, fork and vfork, clone, exec. -/
def treeOptions (fork exec clone : Bool) : Nat := 1 + (if fork then 2 + 4 else 0) + (if clone then 8 else 0) + if exec then 16 else 0

theorem treeState_eq (fork exec clone : Bool) : treeState fork exec clone = { newDebugger with
    options := treeOptions fork exec clone
    traceFork := fork
    traceExec := exec
    traceClone := clone } := by
  cases fork <;> cases exec <;> cases clone <;> rfl

theorem treeOptions_ne (fork exec clone : Bool) : treeOptions fork exec clone ≠ 0 := by unfold treeOptions; omega

/-- The first process is there and goes on. -/
theorem tree_begin (hK : Grows K T) {fork exec clone : Bool} (hT : T.Good (C.wish exec (treeOptions fork exec clone))) (attached : Bool) (fuel : Nat) :
    ∃ t, Py.bind (createProcess K (fuel + 1) T.root attached) (fun o => match o with
        | some o => prepareProcess K o
        | none => Py.pure ()) (treeState fork exec clone) = (.ok (), t) ∧
      createProcess K (fuel + 1) T.root attached (treeState fork exec clone) = (.ok (some 0), (createProcess K (fuel + 1) T.root attached (treeState fork exec clone)).2) ∧
      Between T C exec attached (treeOptions fork exec clone) t (setPos (fun _ => 0) T.root 1) := by
  have hs : treeState fork exec clone = { newDebugger with
    options := treeOptions fork exec clone
    traceFork := fork
    traceExec := exec
    traceClone := clone } := treeState_eq fork exec clone
  generalize treeState fork exec clone = s at hs
  have snext : s.next = 0 := by rw [hs]; rfl
  have sdict : s.dict = [] := by rw [hs]; rfl
  have slist : s.list = [] := by rw [hs]; rfl
  have slog : s.log = [] := by rw [hs]; rfl
  have sopt : s.options = treeOptions fork exec clone := by rw [hs]
  have sgood : s.useSysgood = true := by rw [hs]; rfl
  have sexec : s.traceExec = exec := by rw [hs]
  have sreg : RegInv s := by
    rw [hs]
    exact regInv_new.congr rfl rfl (Nat.le_refl _) (fun _ => rfl) fun _ => id
  have hget : dictGet s.dict T.root = none := by rw [sdict]; rfl
  -- the object
  obtain ⟨n, g, hn, hnx, hnh, hnd, hnl, hno, hng, hne, hnlog, hg1, hg2⟩ : ∃ n g, newProc K T.root attached none (T.thread T.root) s = (.ok s.next, n) ∧
      n.next = s.next + 1 ∧ (∀ q, n.heap q = if q = s.next then freshProc T.root attached none (T.thread T.root) else s.heap q) ∧ n.dict = s.dict ∧
      n.list = s.list ∧ n.options = s.options ∧ n.useSysgood = s.useSysgood ∧ n.traceExec = s.traceExec ∧ n.log = g ∧
      cares T.root g = (if attached = false then [.attach] else []) ∧ ∀ q, q ≠ T.root → cares q g = [] := by
    cases attached with
    | true =>
      exact ⟨{ setProc s s.next (freshProc T.root true none (T.thread T.root)) with
        next := s.next + 1 }, [], rfl, rfl, fun q => rfl, rfl, rfl, rfl, rfl, rfl, slog, rfl, fun _ _ => rfl⟩
    | false =>
      obtain ⟨v, st, hk⟩ := (hK.accepts s.log s.next T.root 0).2.2.2.1
      have e1 : ptraceCall K (.attach s.next T.root) s = (.ok v, { s with log := s.log ++ [⟨.attach s.next T.root, .ok v st, s.dict⟩] }) := by
        unfold ptraceCall sysc Py.bind
        dsimp only
        rw [hk]
        rfl
      refine ⟨{ setProc { s with log := s.log ++ [⟨.attach s.next T.root, .ok v st, s.dict⟩] } s.next (freshProc T.root false none (T.thread T.root)) with
        next := s.next + 1 }, [⟨.attach s.next T.root, .ok v st, s.dict⟩], ?_, rfl, fun q => rfl, rfl, rfl, rfl, rfl, rfl, ?_, ?_, ?_⟩
      · unfold newProc
        rw [Py.run_bind_ok (a := ()) (u := { s with log := s.log ++ [⟨.attach s.next T.root, .ok v st, s.dict⟩] })]
        simp only [Bool.false_eq_true, if_false]
        rw [Py.run_bind_ok e1]
        rfl
      · show s.log ++ _ = _; rw [slog]; rfl
      · simp [cares, care]
      · intro q hq; simp [cares, care, Ne.symm hq]
  obtain ⟨t, e1, d1, -⟩ := tree_add (C := C) hK hT (treeOptions_ne fork exec clone) .root hT.real.1 (s := s) (by rw [slog]; rfl) sgood sexec sopt hget attached none hn hnh
    hnd hnl hno hng hne (by
      rw [hnlog, slog, goesTo_eq, goesTo_eq, hg1]
      split <;> rfl) fuel
  have ec : createProcess K (fuel + 1) T.root attached s = (.ok (some 0), t) := by
    unfold createProcess
    rw [show (false : Bool) = T.thread T.root from hT.main.symm, e1, snext]
  obtain ⟨s2, e2, d2⟩ := d1.go hK 0
  obtain ⟨s3, e3, d3⟩ := d2.setSys (f := fun ss => { ss with hasCallback := true })
  refine ⟨s3, ?_, by rw [ec], ?_⟩
  · rw [Py.run_bind_ok ec]
    dsimp only
    unfold prepareProcess
    rw [snext] at e2 e3
    rw [Py.run_bind_ok e2, e3]
  have hd3 : s3.dict = [(T.root, s.next)] := d3.dict.trans (by
    show dictSet s.dict T.root s.next = _
    rw [sdict]; rfl)
  have hreg : RegInv s3 := by
    have r1 := sreg.add T.root attached none (T.thread T.root) (by rw [sdict]; rfl)
    refine r1.congr d3.dict d3.list (by rw [d3.next]; show s.next + 1 ≤ n.next; rw [hnx]) (fun q => ?_) fun q => ?_
    · by_cases hq : q = s.next
      · subst hq
        rw [d3.pid]
        show _ = (if s.next = s.next then freshProc T.root attached none (T.thread T.root) else s.heap s.next).pid
        rw [if_pos rfl]
        rfl
      · rw [d3.others q hq]
        show (n.heap q).pid = (if q = s.next then freshProc T.root attached none (T.thread T.root) else s.heap q).pid
        rw [hnh]
    · by_cases hq : q = s.next
      · subst hq
        intro _
        show (if s.next = s.next then freshProc T.root attached none (T.thread T.root) else s.heap s.next).isAttached = true
        rw [if_pos rfl]
        rfl
      · rw [d3.others q hq]
        show (n.heap q).isAttached = true → (if q = s.next then freshProc T.root attached none (T.thread T.root) else s.heap q).isAttached = true
        rw [hnh]
        exact id
  obtain ⟨x, hx⟩ : ∃ x, (T.stops T.root)[0]? = some x := by
    cases hx : T.stops T.root with
    | nil =>
      have := hT.ends T.root .root
      rw [hx] at this
      cases this
    | cons x xs => exact ⟨x, rfl⟩
  have hsucc := history_succ (W := C.wish exec (treeOptions fork exec clone)) (th := T.thread T.root) hx
  rw [List.take_zero] at hsucc
  have hone : oneStop (C.wish exec (treeOptions fork exec clone)) (T.thread T.root) (history (C.wish exec (treeOptions fork exec clone)) (T.thread T.root) []).1 x =
      (.outside, [.await (T.thread T.root), .options (treeOptions fork exec clone), .go 0]) := rfl
  rw [hone] at hsucc
  have hlt : 1 < (T.stops T.root).length := by
    rcases Nat.lt_or_ge 1 (T.stops T.root).length with hc | hc
    · exact hc
    · rw [List.take_of_length_le (by omega)] at hsucc
      have he := hT.ends T.root .root
      rw [hsucc] at he
      cases he
  obtain ⟨g3, hg3, g3c, g3q⟩ := d3.log
  have hlog3 : s3.log = g ++ g3 := hg3.trans (by show n.log ++ g3 = _; rw [hnlog])
  refine ⟨hreg, d3.good, d3.exec, ?_, ?_, ?_, ?_, ?_, ?_, ?_⟩
  · rw [d3.options]; exact hno.trans sopt
  · intro q
    unfold setPos
    split
    · rename_i hq; subst hq; omega
    · exact Nat.zero_le _
  · intro q
    rw [hd3]
    by_cases hq : q = T.root
    · subst hq
      rw [setPos_self]
      exact ⟨fun _ => ⟨by omega, hlt⟩, fun _ => ⟨s.next, by simp [dictGet]⟩⟩
    · rw [setPos_ne _ _ hq]
      simp [dictGet, Ne.symm hq]
  · intro q o hq
    rw [hd3] at hq
    by_cases hqr : q = T.root
    · subst hqr
      have ho : o = s.next := by simpa [dictGet] using hq.symm
      subst ho
      rw [setPos_self, hsucc]
      exact ⟨d3.running, d3.attached, d3.thread, by rw [d3.ss]; exact ⟨rfl, rfl⟩⟩
    · simp [dictGet, Ne.symm hqr] at hq
  · intro q
    rw [hlog3, cares_append]
    by_cases hqr : q = T.root
    · subst hqr
      rw [hg1, g3c, setPos_self, hsucc]
      cases attached <;> simp [filterSignal, history]
    · rw [hg2 q hqr, g3q q hqr, setPos_ne _ _ hqr, if_neg (by simp [hqr])]
      rfl
  · intro q hq
    unfold setPos at hq
    split at hq
    · rename_i hqr; subst hqr; exact .root
    · exact absurd hq (Nat.lt_irrefl 0)
  · intro q
    constructor
    · intro hq
      unfold setPos at hq
      split at hq
      · rename_i hqr; exact Or.inl hqr
      · exact absurd hq (Nat.lt_irrefl 0)
    · rintro (rfl | ⟨q', i, hf, hi⟩)
      · rw [setPos_self]; omega
      · unfold setPos at hi
        split at hi
        · rename_i hqr
          subst hqr
          have hi0 : i = 0 := by omega
          subst hi0
          obtain ⟨m, hm, -⟩ := hf
          rw [hx] at hm
          injection hm with hm
          subst hm
          exact (hT.fine T.root .root 0 _ hx).elim
        · exact absurd hi (Nat.not_lt_zero i)

/-- **C128** (the tree is one that can happen, the kernel refuses nothing). For every tree of processes, every choice of the options, every kernel that
lets the processes make their stops, in whatever order: strace.py does for every process of the tree exactly what a tracer has to do at its stops, nothing
for any other process, and it ends when all of them have ended. -/
theorem C128_tree_partial (K : Kern) (T : Tree) (C : StraceCfg) (fork exec clone attached : Bool)
    (hT : T.Good (C.wish exec (treeOptions fork exec clone))) (hK : Grows K T) (patience : Nat) (hL : Lively K T patience) (pids : List Nat)
    (hpids : ∀ p, T.Born p → p ∈ pids) (fuel : Nat) (hf1 : patience < fuel) (hf2 : (pids.map fun p => (T.stops p).length).sum < fuel) :
    ∃ code t, straceMain K fuel C T.root attached (treeState fork exec clone) = (.ok (some code), t) ∧ t.list = [] ∧ t.dict = [] ∧
      ∀ p, (T.Born p → cares p t.log = T.cares (C.wish exec (treeOptions fork exec clone)) attached p) ∧ (¬T.Born p → cares p t.log = []) := by
  have hlen : 2 ≤ (T.stops T.root).length := by
    cases hx : T.stops T.root with
    | nil =>
      have := hT.ends T.root .root
      rw [hx] at this
      cases this
    | cons x xs =>
      cases xs with
      | nil =>
        have := hT.ends T.root .root
        rw [hx] at this
        cases this
      | cons y ys => simp
  have hroot : (T.stops T.root).length ≤ (pids.map fun p => (T.stops p).length).sum := by
    have := hpids T.root .root
    clear hpids hf2
    induction pids with
    | nil => cases this
    | cons x xs ih =>
      simp only [List.map_cons, List.sum_cons]
      rcases List.mem_cons.1 this with h | h
      · rw [← h]; omega
      · have := ih h; omega
  obtain ⟨fuel, rfl⟩ : ∃ m, fuel = m + 2 := ⟨fuel - 2, by omega⟩
  obtain ⟨s1, e1, e0, h1⟩ := tree_begin hK hT attached (fuel + 1)
  obtain ⟨code, t, k, e2, h2, hl⟩ := tree_loop hK hL hT (treeOptions_ne fork exec clone) hf1 hpids (fuel + 2) s1 _ 0 h1 (by
    refine Nat.lt_of_le_of_lt ?_ hf2
    clear hpids hf2 hroot
    induction pids with
    | nil => simp
    | cons x xs ih => simp only [List.map_cons, List.sum_cons]; omega)
  have hd : t.dict = [] := by
    rcases hx : t.dict with _ | ⟨x, xs⟩
    · rfl
    · have := ((h2.reg.agree x.1 x.2).1 (by rw [hx]; simp)).1
      rw [hl] at this
      cases this
  refine ⟨code, t, ?_, hl, hd, fun p => ⟨fun hb => ?_, fun hb => ?_⟩⟩
  · have e3 : straceRun K (fuel + 2) C T.root attached (treeState fork exec clone) = (.ok (some code), t) := by
      unfold straceRun
      rw [Py.run_bind_ok e0]
      dsimp only
      rw [Py.run_bind_ok e0] at e1
      dsimp only at e1
      rw [Py.run_bind_ok (a := code) (u := t)]
      · rfl
      · unfold syscallTrace
        rw [Py.run_bind_ok e1, e2]
    unfold straceMain
    rw [e3]
    dsimp only
    rw [Py.run_bind_ok (m := Py.pure (some code)) (a := some code) (u := t) rfl, Py.run_bind_ok (a := ()) (u := t)]
    · rfl
    · unfold quit
      rw [hl]
      rfl
  · have hfull : ∀ q, 0 < k q → k q = (T.stops q).length := by
      intro q hq
      rcases Nat.lt_or_eq_of_le (h2.le q) with hc | hc
      · obtain ⟨o, ho⟩ := (h2.mem q).2 ⟨hq, hc⟩
        rw [hd] at ho
        cases ho
      · exact hc
    have hpos : 0 < k p := by
      induction hb with
      | root => exact (h2.born _).2 (Or.inl rfl)
      | child hb hf ih =>
        refine (h2.born _).2 (Or.inr ⟨_, _, hf, ?_⟩)
        rw [hfull _ ih]
        obtain ⟨n, hn, -⟩ := hf
        exact (List.getElem?_eq_some_iff.1 hn).1
    rw [h2.log, hfull p hpos, List.take_length]
    rfl
  · have h0 : k p = 0 := by
      rcases Nat.eq_zero_or_pos (k p) with hc | hc
      · exact hc
      · exact absurd (h2.tree p hc) hb
    have hr : p ≠ T.root := by rintro rfl; exact hb .root
    rw [h2.log, h0, if_neg (by simp [hr])]
    rfl

end

/-! ## a tree of three -/

instance (pl : Place) (x : Report) : Decidable (CanStop pl x) := by
  obtain ⟨kind, v⟩ := x
  cases pl <;> cases kind <;> unfold CanStop <;> infer_instance

deriving instance DecidableEq for Place

/-- A kernel with the processes of a tree. A process that is asked without waiting tells its stop when nothing has happened for some time. -/
def treeKern (T : Tree) (delay : Nat → Nat) : Kern := fun log c =>
  match c with
  | .waitpid (some p) nohang _ =>
    if nohang && decide ((log.reverse.takeWhile idle).length < delay p) then .ok 0 0
    else match (T.stops p)[goesTo p log]? with
      | some (kind, _) => .ok p (statusOf kind)
      | none => .err 10
  | .waitpid none _ _ => .err 10
  | .inspect _ p | .geteventmsg _ p =>
    match (T.stops p)[goesTo p log]? with
    | some (_, v) => .ok v 0
    | none => .err 3
  | _ => .ok 0 0

theorem treeKern_grows (T : Tree) (delay : Nat → Nat) (h : ∀ p, ∀ x ∈ T.stops p, waitMeaning (statusOf x.1) = x.1) : Grows (treeKern T delay) T where
  wait log p kind v nohang hs := by
    unfold treeKern
    dsimp only
    rw [hs]
    cases nohang with
    | false => exact Or.inr ⟨statusOf kind, rfl, h p _ (List.mem_of_getElem? hs)⟩
    | true =>
      by_cases hd : (log.reverse.takeWhile idle).length < delay p
      · rw [if_pos (by simp [hd])]
        exact Or.inl ⟨rfl, 0, rfl⟩
      · rw [if_neg (by simp [hd])]
        exact Or.inr ⟨statusOf kind, rfl, h p _ (List.mem_of_getElem? hs)⟩
  look log p kind v o hs := by
    unfold treeKern
    dsimp only
    rw [hs]
    exact ⟨⟨0, rfl⟩, 0, rfl⟩
  accepts log o p n := ⟨⟨0, 0, rfl⟩, ⟨0, 0, rfl⟩, ⟨0, 0, rfl⟩, ⟨0, 0, rfl⟩, 0, 0, rfl⟩

theorem treeKern_lively (T : Tree) (h0 : T.stops 0 = []) (delay : Nat → Nat) (patience : Nat) (hd : ∀ p, delay p ≤ patience) :
    Lively (treeKern T delay) T patience := by
  rintro log hrun ⟨p, p1, p2⟩
  refine ⟨p, p1, p2, fun g hg wall st => ?_⟩
  have hp : p ≠ 0 := by rintro rfl; rw [h0] at p2; cases p2
  unfold treeKern
  dsimp only
  rw [if_neg (by
    rw [idle_run hg]
    have := hd p
    simp
    omega)]
  split
  · rintro ⟨⟩; exact hp rfl
  · intro h; cases h

/-- Process 10 makes process 11 with `fork` (57) and ends with code 3. Process 11 makes thread 12 with `clone` (56), begins a program with `execve` (59)
and ends with code 7. Thread 12 gets a signal in a call that is not shown and is killed. -/
def threeTree (exec : Bool) : Tree where
  root := 10
  stops p :=
    if p = 10 then [(.signal 5, 0), (.signal 133, 57), (.event 1, 11), (.signal 133, 11), (.signal 133, 231), (.exited 3, 0)]
    else if p = 11 then [(.signal 19, 0), (.signal 133, 56), (.event 3, 12), (.signal 133, 12), (.signal 133, 59)] ++
      (if exec then [(.event 4, 0), (.signal 133, 0)] else [(.signal 133, 0), (.signal 5, 0)]) ++ [(.exited 7, 0)]
    else if p = 12 then [(.signal 19, 0), (.signal 133, 3), (.signal 10, 0), (.signal 133, 0), (.signal 133, 1), (.killed 9, 0)]
    else []
  thread p := p = 12

theorem threeTree_forks (exec : Bool) {p i c : Nat} (h : (threeTree exec).Forks p i c) : (p = 10 ∧ i = 2 ∧ c = 11) ∨ (p = 11 ∧ i = 2 ∧ c = 12) := by
  obtain ⟨n, hn, hne⟩ := h
  have hi : i < 8 := by
    have := (List.getElem?_eq_some_iff.1 hn).1
    have hl : ((threeTree exec).stops p).length ≤ 8 := by
      unfold threeTree
      dsimp only
      cases exec <;> (repeat' split) <;> simp
    omega
  unfold threeTree at hn
  dsimp only at hn
  have key : ∀ i < 8, ∀ x, ([(.signal 5, 0), (.signal 133, 57), (.event 1, 11), (.signal 133, 11), (.signal 133, 231), (.exited 3, 0)] : List Report)[i]? =
      some x → (∃ n, x.1 = .event n ∧ n ≠ 4) → i = 2 ∧ x.2 = 11 := by
    intro i hi x hx ⟨n, h1, h2⟩
    match i, hi with
    | 0, _ | 1, _ | 3, _ | 4, _ | 5, _ => simp at hx; subst hx; cases h1
    | 2, _ => simp at hx; subst hx; exact ⟨rfl, rfl⟩
    | 6, _ | 7, _ => simp at hx
  have key2 : ∀ i < 8, ∀ x, ([(.signal 19, 0), (.signal 133, 56), (.event 3, 12), (.signal 133, 12), (.signal 133, 59)] ++
      (if exec then [(.event 4, 0), (.signal 133, 0)] else [(.signal 133, 0), (.signal 5, 0)]) ++ [(.exited 7, 0)] : List Report)[i]? =
      some x → (∃ n, x.1 = .event n ∧ n ≠ 4) → i = 2 ∧ x.2 = 12 := by
    intro i hi x hx ⟨n, h1, h2⟩
    cases exec <;> match i, hi with
    | 0, _ | 1, _ | 3, _ | 4, _ | 6, _ | 7, _ => simp at hx; subst hx; cases h1
    | 2, _ => simp at hx; subst hx; exact ⟨rfl, rfl⟩
    | 5, _ => simp at hx; subst hx; first | (cases h1; done) | (cases h1; exact absurd rfl h2)
  have key3 : ∀ i < 8, ∀ x, ([(.signal 19, 0), (.signal 133, 3), (.signal 10, 0), (.signal 133, 0), (.signal 133, 1), (.killed 9, 0)] : List Report)[i]? =
      some x → (∃ n, x.1 = .event n ∧ n ≠ 4) → False := by
    intro i hi x hx ⟨n, h1, h2⟩
    match i, hi with
    | 0, _ | 1, _ | 2, _ | 3, _ | 4, _ | 5, _ => simp at hx; subst hx; cases h1
    | 6, _ | 7, _ => simp at hx
  split at hn
  · rename_i hp
    obtain ⟨a, b⟩ := key i hi _ hn ⟨n, rfl, hne⟩
    exact Or.inl ⟨hp, a, b⟩
  split at hn
  · rename_i hp
    obtain ⟨a, b⟩ := key2 i hi _ hn ⟨n, rfl, hne⟩
    exact Or.inr ⟨hp, a, b⟩
  split at hn
  · exact (key3 i hi _ hn ⟨n, rfl, hne⟩).elim
  · simp at hn

theorem threeTree_born (exec : Bool) {p : Nat} (h : (threeTree exec).Born p) : p ∈ [10, 11, 12] := by
  cases h with
  | root => simp [threeTree]
  | child _ hf =>
    rcases threeTree_forks exec hf with ⟨-, -, rfl⟩ | ⟨-, -, rfl⟩ <;> simp

theorem fine_of_all {W : Wish} {th : Bool} {stops : List Report}
    (h : ∀ i : Fin stops.length, CanStop (history W th (stops.take i)).1 stops[i]) (i : Nat) (x : Report) (hx : stops[i]? = some x) :
    CanStop (history W th (stops.take i)).1 x := by
  obtain ⟨hi, rfl⟩ := List.getElem?_eq_some_iff.1 hx
  exact h ⟨i, hi⟩

theorem threeTree_good (enter fork exec clone : Bool) : (threeTree exec).Good ((followCfg enter).wish exec (treeOptions fork exec clone)) where
  fine p hp := by
    refine fine_of_all ?_
    have := threeTree_born exec hp
    simp only [List.mem_cons, List.not_mem_nil, or_false] at this
    rcases this with rfl | rfl | rfl <;> cases enter <;> cases fork <;> cases exec <;> cases clone <;> decide +kernel
  ends p hp := by
    have := threeTree_born exec hp
    simp only [List.mem_cons, List.not_mem_nil, or_false] at this
    rcases this with rfl | rfl | rfl <;> cases enter <;> cases fork <;> cases exec <;> cases clone <;> decide +kernel
  real := by
    refine ⟨by simp [threeTree], fun p i c h => ?_⟩
    rcases threeTree_forks exec h with ⟨-, -, rfl⟩ | ⟨-, -, rfl⟩ <;> simp [threeTree]
  once p i q j c h1 h2 := by
    rcases threeTree_forks exec h1 with ⟨rfl, rfl, rfl⟩ | ⟨rfl, rfl, rfl⟩ <;>
      rcases threeTree_forks exec h2 with ⟨rfl, rfl, h⟩ | ⟨rfl, rfl, h⟩ <;> first | exact ⟨rfl, rfl⟩ | cases h
  main := by simp [threeTree]
  kind p i c n h hne := by
    have hf := threeTree_forks exec ⟨n, h, hne⟩
    rcases hf with ⟨rfl, rfl, rfl⟩ | ⟨rfl, rfl, rfl⟩
    · have : n = 1 := by simpa [threeTree] using h.symm
      subst this
      simp [threeTree]
    · have : n = 3 := by cases exec <;> simpa [threeTree] using h.symm
      subst this
      simp [threeTree]

theorem threeTree_status (exec : Bool) (p : Nat) : ∀ x ∈ (threeTree exec).stops p, waitMeaning (statusOf x.1) = x.1 := by
  unfold threeTree
  dsimp only
  cases exec <;> (repeat' split) <;> decide +kernel

example (enter fork exec clone attached : Bool) (a b : Nat) : ∃ code t,
    straceMain (treeKern (threeTree exec) fun p => if p = 11 then a else b) (a + b + 30) (followCfg enter) 10 attached (treeState fork exec clone) =
      (.ok (some code), t) ∧ t.list = [] ∧ t.dict = [] ∧ ∀ p,
      ((threeTree exec).Born p → cares p t.log = (threeTree exec).cares ((followCfg enter).wish exec (treeOptions fork exec clone)) attached p) ∧
      (¬(threeTree exec).Born p → cares p t.log = []) :=
  C128_tree_partial _ (threeTree exec) _ fork exec clone attached (threeTree_good enter fork exec clone)
    (treeKern_grows _ _ (threeTree_status exec)) (a + b) (treeKern_lively _ rfl _ _ (fun p => by split <;> omega)) [10, 11, 12]
    (fun _ => threeTree_born exec) _ (by omega) (by cases exec <;> simp [threeTree])

/-- What is done for the thread: it is awaited with `__WALL`, and its last call is shown though it does not end. -/
example : (threeTree true).cares ((followCfg false).wish true 31) true 12 =
    [.await true, .options 31, .go 0] ++ [.await true, .look, .go 0] ++ [.await true, .print, .go 10] ++ [.await true, .go 0] ++
    [.await true, .look, .look, .go 0] ++ [.await true, .print] := by decide +kernel

/-- **C128 refuted** for the exit code: it is that of the process that ends last. The same tree, followed twice, gives two codes. -/
theorem C128_code_refuted : ∃ K K', Grows K (threeTree true) ∧ Lively K (threeTree true) 40 ∧ Grows K' (threeTree true) ∧ Lively K' (threeTree true) 40 ∧
    (straceMain K 80 (followCfg false) 10 true (treeState true true true)).1 = .ok (some 3) ∧
    (straceMain K' 80 (followCfg false) 10 true (treeState true true true)).1 = .ok (some 7) :=
  ⟨treeKern (threeTree true) fun p => if p = 10 then 40 else 0, treeKern (threeTree true) fun p => if p = 11 then 40 else 0,
    treeKern_grows _ _ (threeTree_status true), treeKern_lively _ rfl _ _ (fun p => by split <;> omega),
    treeKern_grows _ _ (threeTree_status true), treeKern_lively _ rfl _ _ (fun p => by split <;> omega),
    by decide +kernel, by decide +kernel⟩

/-- Process 10 makes process 11, which is killed before it has stopped for the first time. -/
def stillborn : Tree where
  root := 10
  stops p :=
    if p = 10 then [(.signal 5, 0), (.signal 133, 57), (.event 1, 11), (.signal 133, 11), (.exited 3, 0)]
    else if p = 11 then [(.killed 9, 0)]
    else []
  thread _ := false

/-- **C128 refuted** for a process that is killed before its first stop: strace.py takes this for the end of a process it follows and never lets the
parent go on after the stop that announced the child. -/
theorem C128_killed_refuted : Grows (treeKern stillborn fun _ => 0) stillborn ∧
    ∀ t, (Py.bind (createProcess (treeKern stillborn fun _ => 0) 20 10 true) (fun _ => Py.bind (prepareProcess (treeKern stillborn fun _ => 0) 0) fun _ =>
      straceLoop (treeKern stillborn fun _ => 0) 20 (followCfg false) 2 0) (treeState true true true)).2 = t →
      cares 10 t.log = [.await false, .options 31, .go 0] ++ [.await false, .look, .look, .go 0] ++ [.await false, .message] ∧ t.dict = [(10, 0)] := by
  refine ⟨treeKern_grows _ _ fun p => ?_, ?_⟩
  · unfold stillborn
    dsimp only
    (repeat' split) <;> decide +kernel
  · rintro t rfl
    decide +kernel

end PT
