import Verif.Lemmas.Tree3

/-! The end of a process of a tree, and a new one. -/

namespace PT
open PT.Spec

theorem dictGet_set_self (d : List (Nat × Nat)) (c q : Nat) (h : dictGet d c = none) : dictGet (dictSet d c q) c = some q := by
  rw [dictSet_fresh (fun e he hc => dictGet_none.1 h e.2 (by rw [← hc]; exact he))]
  unfold dictGet at h ⊢
  rw [List.find?_append]
  cases hf : d.find? (fun e => decide (e.1 = c)) with
  | none => simp
  | some x => rw [hf] at h; cases h

theorem dictGet_set_ne (d : List (Nat × Nat)) {c x : Nat} (q : Nat) (h : dictGet d c = none) (hx : x ≠ c) :
    dictGet (dictSet d c q) x = dictGet d x := by
  rw [dictSet_fresh (fun e he hc => dictGet_none.1 h e.2 (by rw [← hc]; exact he))]
  unfold dictGet
  rw [List.find?_append]
  cases hf : d.find? (fun e => decide (e.1 = x)) with
  | none => simp [Ne.symm hx]
  | some y => simp

section
variable {K : Kern} {T : Tree} {C : StraceCfg} {events attached : Bool} {options : Nat} {s : DSt} {k : Nat → Nat}

/-- Nothing has happened since. -/
theorem Doing.zero {th : Bool} {p o : Nat} (hgood : s.useSysgood = true) (hexec : s.traceExec = events) (hget : dictGet s.dict p = some o)
    (hpid : (s.heap o).pid = p) (hrun : (s.heap o).running = true) (hatt : (s.heap o).isAttached = true) (hth : (s.heap o).isThread = th) :
    Doing events th p o s s [] (s.heap o).ss :=
  ⟨fun _ _ => rfl, rfl, rfl, rfl, rfl, hgood, hexec, hget, hpid, hrun, hatt, hth, rfl, rfl, [], by simp, rfl, fun _ _ => rfl⟩

/-- The last stop of a process. -/
theorem tree_exit (hK : Grows K T) (h : Between T C events attached options s k) (hT : T.Good (C.wish events options)) {fuel : Nat} {p o : Nat}
    {kind v st g} (hf : Found K T fuel s (waitAny K (fuel + 1) (fuel + 1) true s) p o kind v st g)
    (hk : (∃ c, kind = .exited c) ∨ ∃ n, kind = .killed n) (code : Nat) :
    ∃ code' t r u, straceTurn K (fuel + 1) C code s = (.ok code', t) ∧ Between T C events attached options t (setPos k p (T.stops p).length) ∧
      Turn K T C events options (fuel + 1) s t k (setPos k p (T.stops p).length) p o kind v g r u := by
  obtain ⟨h1, h2, hs, hp, hd⟩ := h.found hT hf
  obtain ⟨g0, hg0, g1, g2⟩ := hd.log
  have hg0' : g = g0 := by simpa using hg0
  subst hg0'
  generalize ht : ({ s with log := s.log ++ g } : DSt) = t at hd
  have htl : t.log = s.log ++ g := by rw [← ht]
  -- the process is forgotten
  obtain ⟨u, hu, u1, u2, u3, u4, u5, u6, u7, u8, u9, u10, u11⟩ : ∃ u, notRunning K o t = (.ok (), u) ∧ u.list = s.list.erase o ∧
      u.dict = dictDel s.dict p ∧ (u.heap o).ss = (s.heap o).ss ∧ (u.heap o).pid = p ∧ (u.heap o).isAttached = false ∧
      (∀ q, q ≠ o → u.heap q = s.heap q) ∧ u.next = s.next ∧ u.log = s.log ++ g ∧ u.useSysgood = true ∧ u.traceExec = events ∧
      u.options = s.options := by
    have e : notRunning K o t = deleteProcess o (setProc (setProc t o { t.heap o with running := false }) o
        { { t.heap o with running := false } with isAttached := false }) := by
      unfold notRunning
      rw [show Py.bind (updProc o fun p => { p with running := false }) (fun _ => detach K o) t =
        detach K o (setProc t o { t.heap o with running := false }) from rfl]
      unfold detach
      have ea : ((setProc t o { t.heap o with running := false }).heap o) = { t.heap o with running := false } := if_pos rfl
      rw [ea, if_pos (show ({ t.heap o with running := false } : Proc).isAttached = true from hd.attached)]
      show deleteProcess o (setProc (setProc t o { t.heap o with running := false }) o
        { (setProc t o { t.heap o with running := false }).heap o with isAttached := false }) = _
      rw [ea]
    have eh : ∀ q, (setProc (setProc t o { t.heap o with running := false }) o
        { { t.heap o with running := false } with isAttached := false }).heap q =
        if q = o then { { t.heap o with running := false } with isAttached := false } else t.heap q := by
      intro q
      simp only [setProc_heap]
      split <;> rfl
    refine ⟨_, e, ?_, ?_, ?_, ?_, ?_, ?_, ?_, ?_, ?_, ?_, ?_⟩
    · show t.list.erase o = _; rw [hd.list]
    · show dictDel t.dict _ = _
      rw [eh, if_pos rfl, hd.dict]
      show dictDel s.dict (t.heap o).pid = _
      rw [hd.pid]
    · show (Proc.ss (_)) = _; dsimp only; rw [eh, if_pos rfl]; exact hd.ss
    · show (Proc.pid (_)) = _; dsimp only; rw [eh, if_pos rfl]; exact hd.pid
    · show (Proc.isAttached (_)) = _; dsimp only; rw [eh, if_pos rfl]
    · intro q hq
      dsimp only
      rw [eh, if_neg hq]
      exact hd.others q hq
    · exact hd.next
    · exact htl
    · exact hd.good
    · exact hd.exec
    · exact hd.options
  -- the event
  obtain ⟨a, b, hev, hans⟩ : ∃ a b, processStatus K (waitEventPid K fuel) o st { s with log := s.log ++ g } = (.ok (.exit o a b), u) ∧
      Answer u o kind v (.error (.event (.exit o a b))) := by
    rw [ht]
    unfold processStatus
    rw [classify_kind, hf.status]
    rcases hk with ⟨c, rfl⟩ | ⟨n, rfl⟩
    · exact ⟨none, some c, (Py.run_bind_ok hu).trans rfl, rfl⟩
    · exact ⟨some n, none, (Py.run_bind_ok hu).trans rfl, rfl⟩
  have w : waitSyscall K (fuel + 1) none s = (.error (.event (.exit o a b)), u) := hf.wait h.good hev
  -- the place
  have hb := h.tree p h1
  obtain ⟨-, -, -, hat⟩ := h.obj p o hf.get
  have hsucc := history_succ (W := C.wish events options) (th := T.thread p) hs
  have hone : (oneStop (C.wish events options) (T.thread p) (history (C.wish events options) (T.thread p) ((T.stops p).take (k p))).1 (kind, v)) =
      (.over, .await (T.thread p) :: if (s.heap o).ss.nextExit && !C.enter && (s.heap o).ss.syscall.isSome then [.print] else []) := by
    generalize (history (C.wish events options) (T.thread p) ((T.stops p).take (k p))).1 = pl at hat
    cases pl with
    | outside =>
      rw [hat.1]
      rcases hk with ⟨c, rfl⟩ | ⟨n, rfl⟩ <;> rfl
    | inside regs =>
      have e1 : (s.heap o).ss.syscall.isSome = C.view.shown regs := by
        cases hsh : C.view.shown regs with
        | true => obtain ⟨c, hc, -⟩ := hat.shown hsh; rw [hc]; rfl
        | false => rw [hat.hidden hsh]; rfl
      rw [hat.exit, e1]
      have e2 : (true && !C.enter && C.view.shown regs) = (C.view.shown regs && !C.view.enter) := by
        rw [show C.view.enter = C.enter from rfl]
        cases C.view.shown regs <;> cases C.enter <;> rfl
      rw [e2]
      rcases hk with ⟨c, rfl⟩ | ⟨n, rfl⟩ <;> rfl
    | unborn => exact hat.elim
    | trap => exact hat.elim
    | over => exact hat.elim
  rw [hone] at hsucc
  have hlast : k p + 1 = (T.stops p).length := by
    rcases Nat.lt_or_eq_of_le (show k p + 1 ≤ (T.stops p).length from h2) with hc | hc
    · have := hT.fine p hb (k p + 1) _ (List.getElem?_eq_getElem hc)
      rw [hsucc] at this
      exact this.elim
    · exact hc
  have hfork : ∀ c, ¬T.Forks p (k p) c := by
    rintro c ⟨n, hn, -⟩
    rw [hs] at hn
    injection hn with hn
    injection hn with hn
    rcases hk with ⟨c, rfl⟩ | ⟨n, rfl⟩ <;> cases hn
  rw [hlast, List.take_length] at hsucc
  have fin : ∀ (t' : DSt) (l : List Entry), (t' = { u with log := u.log ++ l }) → cares p l =
      (if (s.heap o).ss.nextExit && !C.enter && (s.heap o).ss.syscall.isSome then [Care.print] else []) → (∀ q, q ≠ p → cares q l = []) →
      Between T C events attached options t' (setPos k p (T.stops p).length) := by
    rintro t' l rfl hl hl2
    refine h.off h1 hlast hf.get u4 u5 u6 u7 u2 u1 u9 u10 u11 (g := g ++ l) (by show u.log ++ l = _; rw [u8, List.append_assoc]) rfl ?_ ?_ hfork
    · intro q hq
      rw [cares_append, g2 q hq, hl2 q hq]
      rfl
    · rw [cares_append, g1, hl, hsucc]
      rfl
  have key2 : ∃ t' l, processExited K C o u = (.ok (), t') ∧ Between T C events attached options t' (setPos k p (T.stops p).length) ∧
      t' = { u with log := u.log ++ l } ∧ reported l = [] := by
    unfold processExited
    rw [u3]
    split
    · rename_i hc
      obtain ⟨w, st, hk⟩ := (hK.accepts u.log o p 0).2.1
      have e : displaySyscall K o u = (.ok (), { u with log := u.log ++ [⟨.display o p, .ok w st, u.dict⟩] }) := by
        unfold displaySyscall eventDisplay ptraceCall sysc Py.bind
        rw [u4]
        dsimp only
        rw [hk]
        rfl
      refine ⟨_, _, e, fin _ _ rfl ?_ ?_, rfl, rfl⟩
      · rw [if_pos hc]
        simp [cares, care]
      · intro q hq
        simp [cares, care, Ne.symm hq]
    · rename_i hc
      refine ⟨u, [], rfl, fin u [] (by simp) ?_ fun _ _ => rfl, by simp, rfl⟩
      rw [if_neg hc]
      rfl
  obtain ⟨t', l, e2, hbt, ht', hl⟩ := key2
  refine ⟨b.getD code, t', _, u, ?_, hbt, w, hans, fun _ => ⟨u8, u3, u4, u7⟩, ⟨[], by rw [u8, List.append_nil]⟩, ?_, ?_, Or.inl ⟨by rw [hlast], ?_, ?_⟩⟩
  rotate_left
  · intro q o' hq _ hget
    rw [ht'] at hget ⊢
    have hget : dictGet u.dict q = some o' := hget
    rw [u2, dictGet_del hq] at hget
    refine ⟨hget, ?_⟩
    show (u.heap o').ss = _
    rw [u6 o' (by
      rintro rfl
      exact hq ((h.pid hget).symm.trans (h.pid hf.get)))]
  · intro o' hget
    rw [ht'] at hget
    have hget : dictGet u.dict p = some o' := hget
    have hdel : dictGet u.dict p = none := by
      rw [dictGet_none, u2]
      intro v hv
      exact ((mem_dictDel _).1 hv).2 rfl
    rw [hdel] at hget
    cases hget
  · rw [ht']
    show reported (u.log ++ l) = _
    rw [u8, reported_append, reported_append, hl, reported_only g2, g1]
    simp
  · intro m hm
    rcases hk with ⟨c, rfl⟩ | ⟨n, rfl⟩ <;> cases hm
  unfold straceTurn
  rw [w]
  unfold straceHandle
  dsimp only
  rw [Py.run_bind_ok e2]
  rfl

end

end PT
