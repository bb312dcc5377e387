import Verif.Spec.Gdb
import Verif.Lemmas.Strace2
import Mathlib.Data.List.Rotate

/-! What library code run by the command line debugger leaves behind. -/

namespace PT
open Spec
variable {K : Kern}

/-! ### command lines -/

theorem runLine_runs {σ : Type} (execute : Str → Py σ Bool) (space : Char → Bool) : ∀ (ps : List Str) (s : σ),
    ∃ ran rest, ps.map (strip space) = ran ++ rest ∧
      Runs execute s ran (runLine execute space ps s).1 (runLine execute space ps s).2 ∧
      ((runLine execute space ps s).1 = .ok true → rest = []) := by
  intro ps
  induction ps with
  | nil => intro s; exact ⟨[], [], rfl, .nil s, fun _ => rfl⟩
  | cons c cs ih =>
    intro s
    unfold runLine Py.bind
    generalize hx : execute (strip space c) s = x
    obtain ⟨r, t⟩ := x
    cases r with
    | error e => exact ⟨[strip space c], cs.map (strip space), rfl, .raised hx, fun h => (by cases h)⟩
    | ok b =>
      cases b with
      | false => exact ⟨[strip space c], cs.map (strip space), rfl, .fail hx, fun h => (by cases h)⟩
      | true =>
        obtain ⟨ran, rest, h1, h2, h3⟩ := ih t
        exact ⟨strip space c :: ran, rest, by rw [List.map_cons, h1]; rfl, .step hx h2, h3⟩

theorem commands_iff {space : Char → Bool} {line : Str} {cs : List Str} :
    Commands space line cs ↔ cs = (splitOn ';' line).map (strip space) := by
  constructor
  · rintro ⟨ps, h1, h2, h3⟩
    rw [pieces_iff.1 h1]
    apply List.ext_getElem
    · rw [List.length_map, h2]
    · intro i hi hj
      have hp : i < ps.length := by rw [← h2]; exact hi
      rw [List.getElem_map]
      exact (stripped_iff.1 (h3 i hp hi)).symm
  · rintro rfl
    refine ⟨_, splitOn_pieces _ _, List.length_map _, ?_⟩
    intro i h1 h2
    rw [List.getElem_map]
    exact strip_stripped space _

theorem strip_idem (space : Char → Bool) (t : Str) : strip space (strip space t) = strip space t := by
  apply stripped_iff.1
  obtain ⟨_, h1, h2⟩ := strip_stripped space t
  exact ⟨⟨[], [], by simp, by simp, by simp⟩, h1, h2⟩

/-! ### library code -/

/-- Nothing in this part of the log delivers a signal with `PTRACE_CONT`. -/
def Mute (g : List Entry) : Prop := ∀ e ∈ g, ∀ o, ¬ Delivered o e

theorem mute_of_target {g : List Entry} (h : ∀ e ∈ g, target e.call = none) : Mute g := by
  rintro e he o ⟨pid, n, v, st, hc, _⟩
  have := h e he
  rw [hc] at this
  cases this

theorem Waiting.more {log : List Entry} {pid o n : Nat} (h : Waiting log pid o n) {g : List Entry} (hg : ∀ e ∈ g, ¬ Delivered o e) :
    Waiting (log ++ g) pid o n := by
  obtain ⟨g1, e, g2, rfl, h1, h2⟩ := h
  refine ⟨g1, e, g2 ++ g, by simp, h1, ?_⟩
  intro e' he
  rcases List.mem_append.1 he with he | he
  · exact h2 e' he
  · exact hg e' he

/-- Library code run from `s` that delivers no signal: the registry stays consistent, only the end of a
process shortens it, and the processes of raised events are registered. -/
structure Fine {α : Type} (s : DSt) (x : Except Exc α × DSt) : Prop where
  good : Good x.2
  next : s.next ≤ x.2.next
  pid : ∀ o, o < s.next → (x.2.heap o).pid = (s.heap o).pid
  log : ∃ g, x.2.log = s.log ++ g ∧ Mute g
  grow : (∃ l, x.2.list = s.list ++ l) ∨ ∃ o a b, x.1 = .error (.event (.exit o a b))
  signal : ∀ o n, x.1 = .error (.event (.signal o n)) → o ∈ x.2.list ∧ Waiting x.2.log (x.2.heap o).pid o n
  exec : ∀ o, x.1 = .error (.event (.execution o)) → o ∈ x.2.list

theorem Fine.bind {α β : Type} {m : Py DSt α} {f : α → Py DSt β} {s : DSt} (hm : Fine s (m s))
    (hf : ∀ a t, m s = (.ok a, t) → Good t → s.next ≤ t.next → Fine t (f a t)) : Fine s (Py.bind m f s) := by
  unfold Py.bind
  generalize hx : m s = x at hm
  obtain ⟨r, t⟩ := x
  cases r with
  | error e =>
    refine ⟨hm.good, hm.next, hm.pid, hm.log, ?_, ?_, ?_⟩
    · rcases hm.grow with h | ⟨o, a, b, h⟩
      · exact Or.inl h
      · injection h with h; exact Or.inr ⟨o, a, b, by rw [h]⟩
    · intro o n h; injection h with h; exact hm.signal o n (by rw [h])
    · intro o h; injection h with h; exact hm.exec o (by rw [h])
  | ok a =>
    have h2 := hf a t hx hm.good hm.next
    show Fine s (f a t)
    obtain ⟨g1, e1, m1⟩ := hm.log
    obtain ⟨g2, e2, m2⟩ := h2.log
    have e1 : t.log = s.log ++ g1 := e1
    refine ⟨h2.good, Nat.le_trans hm.next h2.next, ?_, ⟨g1 ++ g2, by rw [e2, e1, List.append_assoc], ?_⟩, ?_,
      h2.signal, h2.exec⟩
    · intro o ho
      rw [h2.pid o (Nat.lt_of_lt_of_le ho hm.next)]
      exact hm.pid o ho
    · intro e he
      rcases List.mem_append.1 he with he | he
      · exact m1 e he
      · exact m2 e he
    · rcases h2.grow with ⟨l2, h⟩ | h
      · rcases hm.grow with ⟨l1, h1⟩ | ⟨_, _, _, h1⟩
        · have h1 : t.list = s.list ++ l1 := h1
          exact Or.inl ⟨l1 ++ l2, by rw [h, h1, List.append_assoc]⟩
        · cases h1
      · exact Or.inr h

theorem Fine.pure {α : Type} {s : DSt} (h : Good s) (a : α) : Fine s (Py.pure a s : Except Exc α × DSt) :=
  ⟨h, Nat.le_refl _, fun _ _ => rfl, ⟨[], by (simp [Py.pure]), by (intro e he; cases he)⟩, Or.inl ⟨[], by simp [Py.pure]⟩,
    by (intro o n h; cases h), by (intro o h; cases h)⟩

/-- One request, not one that delivers a signal. -/
theorem Fine.ptraceCall {s : DSt} (h : Good s) (c : Call) (hc : ∀ o pid n, c = .cont o pid n → n = 0) :
    Fine s (PT.ptraceCall K c s) := by
  rw [ptraceCall_run]
  have he : ∀ e, ptraceRes (K s.log c) = .error e → ∀ ev, e ≠ .event ev := by
    intro e h ev
    cases hk : K s.log c <;> rw [hk] at h <;> cases h <;> (intro h; cases h)
  refine ⟨h.log c, Nat.le_refl _, fun _ _ => rfl, ⟨_, rfl, ?_⟩, Or.inl ⟨[], by simp [logCall]⟩, ?_, ?_⟩
  · intro e hm o hd
    rw [List.mem_singleton.1 hm] at hd
    obtain ⟨pid, n, v, st, h1, h2, _⟩ := hd
    exact h2 (hc _ _ _ h1)
  · intro o n h; exact absurd rfl (he _ h _)
  · intro o h; exact absurd rfl (he _ h _)

theorem Fine.osCall {s : DSt} (h : Good s) (c : Call) (hc : ∀ o pid n, c ≠ .cont o pid n) :
    Fine s (PT.osCall K c s) := by
  rw [osCall_run]
  have he : ∀ e, osRes (K s.log c) = .error e → ∀ ev, e ≠ .event ev := by
    intro e h ev
    cases hk : K s.log c <;> rw [hk] at h <;> cases h <;> (intro h; cases h)
  refine ⟨h.log c, Nat.le_refl _, fun _ _ => rfl, ⟨_, rfl, ?_⟩, Or.inl ⟨[], by simp [logCall]⟩, ?_, ?_⟩
  · intro e hm o hd
    rw [List.mem_singleton.1 hm] at hd
    obtain ⟨pid, n, v, st, h1, h2, _⟩ := hd
    exact hc _ _ _ h1
  · intro o n h; exact absurd rfl (he _ h _)
  · intro o h; exact absurd rfl (he _ h _)

theorem Fine.updProc {s : DSt} (o : Nat) (p : Proc → Proc) (hg : Good (setProc s o (p (s.heap o))))
    (hp : (p (s.heap o)).pid = (s.heap o).pid) : Fine s (PT.updProc o p s) := by
  refine ⟨hg, Nat.le_refl _, ?_, ⟨[], by (simp [PT.updProc, setProc]), by (intro e he; cases he)⟩,
    Or.inl ⟨[], by simp [PT.updProc, setProc]⟩, by (intro o n h; cases h), by (intro o h; cases h)⟩
  intro i _
  show (if i = o then p (s.heap o) else s.heap i).pid = _
  by_cases hi : i = o
  · rw [if_pos hi, hi]; exact hp
  · rw [if_neg hi]

theorem Fine.updSys {s : DSt} (h : Good s) (o : Nat) (f : SysState → SysState) : Fine s (PT.updSys o f s) :=
  Fine.updProc o _ (h.sys o _) rfl

theorem Fine.procSyscall {s : DSt} (h : Good s) (o n : Nat) : Fine s (PT.procSyscall K o n s) :=
  Fine.bind (Fine.ptraceCall h _ (by intro _ _ _ h; cases h)) fun _ t _ ht _ => Fine.updProc o _ (ht.stopped o false) rfl

theorem Fine.procCont {s : DSt} (h : Good s) (o : Nat) : Fine s (PT.procCont K o 0 s) :=
  Fine.bind (Fine.ptraceCall h _ (by intro _ _ _ h; injection h with _ _ h; exact h.symm)) fun _ t _ ht _ =>
    Fine.updProc o _ (ht.stopped o false) rfl

theorem Fine.procSingleStep {s : DSt} (h : Good s) (o : Nat) : Fine s (PT.procSingleStep K o s) :=
  Fine.bind (Fine.ptraceCall h _ (by intro _ _ _ h; cases h)) fun _ t _ ht _ => Fine.pure ht _

theorem Fine.procKill {s : DSt} (h : Good s) (o n : Nat) : Fine s (PT.procKill K o n s) :=
  Fine.bind (Fine.osCall h _ (by intro _ _ _ h; cases h)) fun _ t _ ht _ => Fine.pure ht _

theorem Fine.eventDisplay {s : DSt} (h : Good s) (o : Nat) : Fine s (PT.eventDisplay K o s) :=
  Fine.bind (Fine.ptraceCall h _ (by intro _ _ _ h; cases h)) fun _ t _ ht _ => Fine.pure ht _

/-! ### waiting -/

/-- What waiting for any or one registered process gives. -/
theorem waitProcessEvent_cases (hz : NoZero K) {s : DSt} (hs : Good s) (fuel : Nat) (wanted : Option Nat)
    (hw : wanted ≠ some 0) (r : Except Exc (Option Event)) (t : DSt) (h : waitProcessEvent K fuel wanted true s = (r, t)) :
    (∃ pid b u, pid ≠ 0 ∧ (∀ p, wanted = some p → pid = p) ∧ OnlyLog s u ∧ WOut K pid b u r t ∧ r ≠ .ok none) ∨
    (OnlyLog s t ∧ ∃ e, r = .error e ∧ ∀ ev, e ≠ .event ev) := by
  unfold waitProcessEvent at h
  cases wanted with
  | some p =>
    have hp : p ≠ 0 := by intro h0; exact hw (by rw [h0])
    have hout := waitEventPid_out hz fuel p true s hp hs.reg
    have h : waitEventPid K fuel p true s = (r, t) := h
    rw [h] at hout
    refine Or.inl ⟨p, true, s, hp, by (intro q hq; injection hq), OnlyLog.refl s, hout, ?_⟩
    intro hr
    have hr : r = .ok none := hr
    rw [hr] at hout
    exact absurd hout.1 (by decide)
  | none =>
    rcases waitAny_out hz fuel true s hs.reg hs.pid fuel s (OnlyLog.refl s) r t h with
      ⟨_, h1, _⟩ | ⟨hne, pid, hpid, b, u, hu, hwt⟩ | ⟨hu, h1 | h1 | h1 | ⟨e, h1⟩⟩
    · cases h1
    · have hout := waitEventPid_out hz fuel pid b u (hs.pid.keys pid hpid) (hu.regInv hs.reg)
      rw [hwt] at hout
      exact Or.inl ⟨pid, b, u, hs.pid.keys pid hpid, by (intro p hp; cases hp), hu, hout, hne⟩
    · exact Or.inr ⟨hu, _, h1.1, by (intro ev h; cases h)⟩
    · exact Or.inr ⟨hu, _, h1, by (intro ev h; cases h)⟩
    · exact Or.inr ⟨hu, _, h1, by (intro ev h; cases h)⟩
    · exact Or.inr ⟨hu, _, h1, by (intro ev h; cases h)⟩

theorem filterEvent_state (signals : List Nat) (e : Option Event) (u : DSt) : (filterEvent signals e u).2 = u := by
  cases e with
  | none => rfl
  | some e =>
    cases e with
    | signal o m =>
      show ((if (signals.contains m || signals.isEmpty) = true then Py.pure (.signal o m)
        else Py.raise (.event (.signal o m)) : Py DSt Event) u).2 = u
      split <;> rfl
    | _ => rfl

/-- The event that `filterEvent` returns or raises is the one given. -/
theorem filterEvent_event (signals : List Nat) (e : Option Event) (u : DSt) (ev : Event) :
    (filterEvent signals e u).1 = .ok ev ∨ (filterEvent signals e u).1 = .error (.event ev) → e = some ev := by
  cases e with
  | none => rintro (h | h) <;> cases h
  | some e =>
    cases e with
    | signal o m =>
      show ((if (signals.contains m || signals.isEmpty) = true then Py.pure (.signal o m)
        else Py.raise (.event (.signal o m)) : Py DSt Event) u).1 = .ok ev ∨ ((if (signals.contains m || signals.isEmpty) = true then Py.pure (.signal o m)
        else Py.raise (.event (.signal o m)) : Py DSt Event) u).1 = .error (.event ev) → _
      split <;> (rintro (h | h) <;> cases h <;> rfl)
    | _ => rintro (h | h) <;> cases h <;> rfl

theorem filterEvent_ok (signals : List Nat) (e : Option Event) (u : DSt) (ev : Event)
    (h : (filterEvent signals e u).1 = .ok ev) : ∃ o n, ev = .signal o n ∧ (signals.contains n || signals.isEmpty) = true := by
  cases e with
  | none => cases h
  | some e =>
    cases e with
    | signal o m =>
      have h : ((if (signals.contains m || signals.isEmpty) = true then Py.pure (.signal o m)
        else Py.raise (.event (.signal o m)) : Py DSt Event) u).1 = .ok ev := h
      split at h
      · injection h with h
        exact ⟨o, m, h.symm, by assumption⟩
      · cases h
    | _ => cases h

/-- The stop reported for object `o` is the last entry of the log. -/
theorem wout_signal {wanted o n : Nat} {b : Bool} {u t : DSt} (hr : RegInv u) (h : WOut K wanted b u (.ok (some (.signal o n))) t) :
    o ∈ t.list ∧ Waiting t.log (t.heap o).pid o n := by
  obtain ⟨hg, st, hk, hc, ht⟩ := h
  have ht : t = setProc (logCall K (waitCall u wanted b o) u) o { u.heap o with isStopped := true } := ht
  have hm := (hr.agree wanted o).1 (dictGet_some hg)
  have hpid : (t.heap o).pid = wanted := by
    rw [ht, setProc_same]
    exact hm.2
  refine ⟨by rw [ht]; exact hm.1, u.log, ⟨waitCall u wanted b o, .ok wanted st, u.dict⟩, [], ?_, ⟨!b, (u.heap o).isThread, st, ?_, ?_, hc⟩, ?_⟩
  · rw [ht]
    show u.log ++ [⟨_, K u.log (waitCall u wanted b o), _⟩] = _
    rw [hk]
  · rw [hpid]; rfl
  · rw [hpid]
  · intro e he; cases he

/-- `waitSignals`. -/
theorem waitSignals_fine (hz : NoZero K) {s : DSt} (hs : Good s) (fuel : Nat) (signals : List Nat) (wanted : Option Nat)
    (hw : wanted ≠ some 0) : Fine s (waitSignals K fuel signals wanted s) ∧
    (∀ ev t, waitSignals K fuel signals wanted s = (.ok ev, t) → ∃ o n, ev = .signal o n ∧
      (signals.contains n || signals.isEmpty) = true ∧ o ∈ t.list ∧ Waiting t.log (t.heap o).pid o n) ∧
    (∀ o a b t, waitSignals K fuel signals wanted s = (.error (.event (.exit o a b)), t) →
      (∃ l, t.list = s.list ++ l) ∨ ((t.heap o).running = false ∧ ∃ pid, (pid, o) ∈ s.dict ∧ ∀ p, wanted = some p → pid = p)) := by
  have hgood := hs.waitSignals hz fuel signals wanted hw
  have hsteps := waitSignals_wait (K := K) (P := fun _ a => a = .call .sleep ∨ waitActs True a) (fun _ _ h => Or.inr h)
    (fun _ => Or.inl rfl) fuel signals wanted s
  obtain ⟨l, hl, hm⟩ := hsteps.newLog (Q := fun e => target e.call = none) (by
    rintro u a c (rfl | h) hc
    · injection hc with hc; rw [← hc]; rfl
    · exact (waitActs_target h hc).1)
  have hold := hsteps.old
  have hrun : ∀ r t, waitProcessEvent K fuel wanted true s = (.ok r, t) →
      waitSignals K fuel signals wanted s = ((filterEvent signals r t).1, t) := by
    intro r t h
    have : waitSignals K fuel signals wanted s = filterEvent signals r t := Py.run_bind_ok h
    rw [this]
    exact Prod.ext rfl (filterEvent_state signals r t)
  have herr : ∀ e t, waitProcessEvent K fuel wanted true s = (.error e, t) →
      waitSignals K fuel signals wanted s = (.error e, t) := fun e t h => Py.run_bind_error h
  generalize hx : waitProcessEvent K fuel wanted true s = x at hrun herr
  obtain ⟨r, t⟩ := x
  have hcs := waitProcessEvent_cases hz hs fuel wanted hw r t hx
  generalize hy : waitSignals K fuel signals wanted s = y at *
  obtain ⟨ry, ty⟩ := y
  have key : (ty = t) := by
    cases r with
    | ok r => have := hrun r t rfl; injection this
    | error e => have := herr e t rfl; injection this
  subst key
  have hfine : (∃ l, ty.list = s.list ++ l) ∨ (∃ o a b, ry = .error (.event (.exit o a b)) ∧ (ty.heap o).running = false ∧
      ∃ pid, (pid, o) ∈ s.dict ∧ ∀ p, wanted = some p → pid = p) := by
    rcases hcs with ⟨pid, b, u, hp0, hp, hu, hout, hne⟩ | ⟨hu, _⟩
    · cases r with
      | error e =>
        obtain ⟨l, hl⟩ := hout.1.list
        exact Or.inl ⟨l, by rw [← hu.list]; exact hl⟩
      | ok e =>
        cases e with
        | none => exact absurd rfl hne
        | some ev =>
          cases ev with
          | signal o m =>
            obtain ⟨_, st, _, _, ht⟩ := hout
            have ht : ty = setProc (logCall K (waitCall u pid b o) u) o { u.heap o with isStopped := true } := ht
            exact Or.inl ⟨[], by rw [ht, List.append_nil, ← hu.list]; rfl⟩
          | execution o =>
            obtain ⟨_, st, _, _, ht⟩ := hout
            have ht : ty = logCall K (waitCall u pid b o) u := ht
            exact Or.inl ⟨[], by rw [ht, List.append_nil, ← hu.list]; rfl⟩
          | newProcess q =>
            obtain ⟨o, st, event, p, mst, _, _, _, _, _, hadd⟩ := hout
            obtain ⟨l, hl⟩ := hadd.ext.list
            have hl : ty.list = u.list ++ l := hl
            exact Or.inl ⟨l, by rw [hl, hu.list]⟩
          | exit o a b' =>
            obtain ⟨hg, _, ht⟩ := hout
            have ht : ty = gone o (logCall K (waitCall u pid b o) u) := ht
            have := hrun _ ty rfl
            injection this with this
            refine Or.inr ⟨o, a, b', this, ?_, pid, by rw [← hu.dict]; exact dictGet_some hg, hp⟩
            rw [ht]
            unfold gone
            split
            · show ((setProc _ o _).heap o).running = false
              rw [setProc_same]
            · rw [setProc_same]
    · exact Or.inl ⟨[], by rw [List.append_nil]; exact hu.list⟩
  have hsig : ∀ o n, (ry = .ok (.signal o n) ∨ ry = .error (.event (.signal o n))) →
      o ∈ ty.list ∧ Waiting ty.log (ty.heap o).pid o n := by
    intro o n h
    rcases hcs with ⟨pid, b, u, hp0, hp, hu, hout, hne⟩ | ⟨hu, e, he, hev⟩
    · cases r with
      | error e =>
        have := herr e ty rfl
        injection this with this
        rw [this] at h
        rcases h with h | h
        · cases h
        · injection h with h
          exact absurd h (hout.2.1 o n)
      | ok e =>
        have := hrun e ty rfl
        injection this with this
        rw [this] at h
        have := filterEvent_event signals e ty _ h
        subst this
        exact wout_signal (hu.regInv hs.reg) hout
    · subst he
      have := herr e ty rfl
      injection this with this
      rw [this] at h
      rcases h with h | h
      · cases h
      · injection h with h
        exact absurd h (hev _)
  refine ⟨⟨hgood, hold.next, hold.pid, ⟨l, hl, mute_of_target hm⟩, ?_, fun o n h => hsig o n (Or.inr h), ?_⟩, ?_, ?_⟩
  · rcases hfine with h | ⟨o, a, b, h, _⟩
    · exact Or.inl h
    · exact Or.inr ⟨o, a, b, h⟩
  · intro o h
    have h : ry = .error (.event (.execution o)) := h
    rcases hcs with ⟨pid, b, u, hp0, hp, hu, hout, hne⟩ | ⟨hu, e, he, hev⟩
    · cases r with
      | error e =>
        have := herr e ty rfl
        injection this with this
        rw [this] at h
        injection h with h
        exact hout.2.2.2.2 o h
      | ok e =>
        have := hrun e ty rfl
        injection this with this
        rw [this] at h
        have := filterEvent_event signals e ty _ (Or.inr h)
        subst this
        obtain ⟨hg, st, _, _, ht⟩ := hout
        have ht : ty = logCall K (waitCall u pid b o) u := ht
        rw [ht]
        exact (((hu.regInv hs.reg).agree pid o).1 (dictGet_some hg)).1
    · subst he
      have := herr e ty rfl
      injection this with this
      rw [this] at h
      injection h with h
      exact absurd h (hev _)
  · intro ev t h
    injection h with h1 h2
    subst h2
    have hok : ∃ o n, ev = .signal o n ∧ (signals.contains n || signals.isEmpty) = true := by
      cases r with
      | error e => have := herr e ty rfl; injection this with this; rw [this] at h1; cases h1
      | ok e =>
        have := hrun e ty rfl
        injection this with this
        rw [this] at h1
        exact filterEvent_ok signals e ty ev h1
    obtain ⟨o, n, rfl, hn⟩ := hok
    exact ⟨o, n, rfl, hn, hsig o n (Or.inl h1)⟩
  · intro o a b t h
    injection h with h1 h2
    subst h2
    rcases hfine with h | ⟨o', a', b', h, hr, hp⟩
    · exact Or.inl h
    · rw [h1] at h
      injection h with h
      injection h with h
      injection h with h
      subst h
      exact Or.inr ⟨hr, hp⟩

/-- `addProcess` for a process that is not attached yet. -/
theorem addProcess_fine (hz : NoZero K) (ha : NoAttachZero K) {s : DSt} (hs : Good s) (fuel pid : Nat) :
    Fine s (addProcess K (waitEventPid K fuel) pid false none false s) ∧
    ∀ q t, addProcess K (waitEventPid K fuel) pid false none false s = (.ok q, t) → q ∈ t.list := by
  by_cases hp : pid = 0
  · subst hp
    have hnone : dictHas s.dict 0 = false := by
      rw [dictHas_false]
      intro v hv
      exact hs.pid.keys 0 (List.mem_map.2 ⟨_, hv, rfl⟩) rfl
    have hrun : addProcess K (waitEventPid K fuel) 0 false none false s =
        Py.bind (ptraceCall K (.attach s.next 0)) (fun _ => fun _ => addProcess K (waitEventPid K fuel) 0 false none false s) s := by
      have hnew : newProc K 0 false none false s =
          match ptraceRes (K s.log (.attach s.next 0)) with
          | .ok _ => (.ok s.next, { setProc (logCall K (.attach s.next 0) s) s.next
              (freshProc 0 false none false) with next := s.next + 1 })
          | .error e => (.error e, logCall K (.attach s.next 0) s) := by
        unfold newProc
        rw [if_neg (by simp), py_bind_assoc]
        unfold Py.bind
        rw [ptraceCall_run]
        cases ptraceRes (K s.log (.attach s.next 0)) <;> rfl
      have hadd : addProcess K (waitEventPid K fuel) 0 false none false s =
          Py.bind (newProc K 0 false none false) (fun o =>
            Py.bind (register 0 o) fun _ => Py.bind (addProcessWait K (waitEventPid K fuel) o 0) fun _ =>
            Py.bind (addProcessOptions K o) fun _ => Py.pure o) s := by
        unfold addProcess
        rw [hnone, if_neg (by decide)]
      cases hk : K s.log (.attach s.next 0) with
      | ok v st => exact absurd hk (ha _ _ _ _)
      | err n =>
        rw [hk] at hnew
        rw [hadd, Py.run_bind_error hnew, Py.run_bind_error (by rw [ptraceCall_run, hk]; rfl)]
      | interrupt =>
        rw [hk] at hnew
        rw [hadd, Py.run_bind_error hnew, Py.run_bind_error (by rw [ptraceCall_run, hk]; rfl)]
    have hno : ∀ a t, ptraceCall K (.attach s.next 0) s ≠ (.ok a, t) := by
      intro a t h
      obtain ⟨⟨st, hk⟩, _⟩ := ptraceCall_ok h
      exact ha _ _ _ _ hk
    rw [hrun]
    refine ⟨Fine.bind (Fine.ptraceCall hs _ (by intro _ _ _ h; cases h)) (fun a t h => absurd h (hno a t)), ?_⟩
    intro q t h
    obtain ⟨a, u, h1, _⟩ := Py.ok_of_bind h
    exact absurd h1 (hno a u)
  · have hgood : Good (addProcess K (waitEventPid K fuel) pid false none false s).2 := by
      have := hs.op (K := K) hz fuel (.addProcess pid false none false) hp
      have hv : (runOp K fuel (.addProcess pid false none false) s).2 =
        (addProcess K (waitEventPid K fuel) pid false none false s).2 := void_snd _ s
      rw [hv] at this
      exact this
    let P : DSt → Act → Prop := fun _ a => waitActs True a ∨ (∃ o p, a = .call (.attach o p)) ∨ ∃ o p q r, a = .add o p false q r
    have hsteps : Steps K P s (addProcess K (waitEventPid K fuel) pid false none false s).2 :=
      addProcess_sat (S := Rules.plain K P) (fun _ _ h => Or.inl h)
        (waitEventPid_sat (S := Rules.plain K P) (fun _ _ h => Or.inl h) fuel) pid (Or.inr (by exact trivial)) false none false
        (fun _ _ => Or.inr (Or.inr ⟨_, _, _, _, rfl⟩)) (fun _ _ _ => Or.inr (Or.inl ⟨_, _, rfl⟩)) s (by exact trivial)
    obtain ⟨l, hl, hm⟩ := hsteps.newLog (Q := fun e => ∀ o pid n, e.call ≠ .cont o pid n) (by
      rintro u a c (h | ⟨o, p, rfl⟩ | ⟨o, p, q, r, rfl⟩) hc
      · intro o pid n hcc
        have := (waitActs_target h hc).1
        have hcc : c = _ := hcc
        rw [hcc] at this
        cases this
      · injection hc with hc
        intro o pid n hcc
        have hcc : c = _ := hcc
        rw [hcc] at hc
        cases hc
      · injection hc with hc
        intro o pid n hcc
        have hcc : c = _ := hcc
        rw [hcc] at hc
        cases hc)
    have hold := hsteps.old
    generalize hx : addProcess K (waitEventPid K fuel) pid false none false s = x at *
    obtain ⟨r, t⟩ := x
    have hout := addProcess_out (fun w s hw hr => waitEventPid_out hz fuel w true s hw hr) pid hp false none false s hs.reg r t hx
    refine ⟨⟨hgood, hold.next, hold.pid, ⟨l, hl, ?_⟩, ?_, ?_, ?_⟩, ?_⟩
    · rintro e he o ⟨p, n, v, st, hc, _⟩
      exact hm e he o p n hc
    · cases r with
      | ok q => exact Or.inl hout.ext.list
      | error e => exact Or.inl hout.1.ext.list
    · intro o n h
      have h : r = _ := h
      subst h
      exact absurd rfl (hout.1.noSignal o n)
    · intro o h
      have h : r = _ := h
      subst h
      exact hout.1.exec o rfl
    · intro q t' h
      injection h with h1 h2
      subst h1 h2
      exact hout.mem

theorem Fine.sysEvent (hz : NoZero K) {s : DSt} (h : Good s) (fuel : Nat) (C : SysCfg) (o : Nat) (ho : o < s.next) :
    Fine s (PT.sysEvent K fuel C o s) := by
  unfold PT.sysEvent
  have hcall : ∀ {s : DSt}, Good s → Fine s (PT.ptraceCall K (.inspect o (s.heap o).pid) s) := fun h =>
    Fine.ptraceCall h _ (by intro _ _ _ h; cases h)
  split
  · refine Fine.bind ?_ fun _ t h1 ht hn => ?_
    · unfold sysResult
      split
      · exact Fine.bind (hcall h) fun _ _ _ ht _ => Fine.updSys ht o _
      · exact Fine.pure h ()
    · refine Fine.bind ?_ fun _ u _ hu _ => Fine.bind (Fine.updSys hu o _) fun _ _ _ hw _ => Fine.pure hw _
      unfold sysExecTrap
      split
      · refine Fine.bind (Fine.procSyscall ht o 0) fun _ u _ hu _ => ?_
        refine Fine.bind (waitSignals_fine hz hu _ _ _ ?_).1 fun _ _ _ hw _ => Fine.pure hw _
        intro h0
        injection h0 with h0
        exact ht.pid.obj o (Nat.lt_of_lt_of_le ho hn) h0
      · exact Fine.pure ht ()
  · refine Fine.bind (hcall h) fun _ t _ ht _ => Fine.bind (Fine.updSys ht o _) fun _ u _ hu _ => ?_
    refine Fine.bind ?_ fun _ v _ hv _ => Fine.bind (Fine.updSys hv o _) fun _ _ _ hw _ => Fine.pure hw _
    split
    · exact Fine.bind (Fine.ptraceCall hu _ (by intro _ _ _ h; cases h)) fun _ _ _ hw _ => Fine.pure hw _
    · exact Fine.updSys hu o _

end PT
