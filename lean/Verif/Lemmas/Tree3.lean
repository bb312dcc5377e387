import Verif.Lemmas.Tree2
import Verif.Lemmas.Quit
import Verif.Spec.TreeLines

/-! The state of strace.py between two stops of a tree of processes. -/

namespace PT
open PT.Spec

/-- Waits among these. -/
def awaitCares (as : List Care) : Nat := as.countP fun a => match a with
  | .await _ => true
  | _ => false

theorem awaits_eq (p : Nat) (log : List Entry) : awaits p log = awaitCares (cares p log) := rfl
theorem goesTo_eq (p : Nat) (log : List Entry) : goesTo p log = goCares (cares p log) := rfl

@[simp] theorem awaitCares_append (l m : List Care) : awaitCares (l ++ m) = awaitCares l + awaitCares m := List.countP_append
@[simp] theorem awaitCares_nil : awaitCares [] = 0 := rfl
@[simp] theorem awaitCares_go (n : Nat) (l : List Care) : awaitCares (.go n :: l) = awaitCares l := by simp [awaitCares]
@[simp] theorem awaitCares_await (b : Bool) (l : List Care) : awaitCares (.await b :: l) = awaitCares l + 1 := by simp [awaitCares]
@[simp] theorem awaitCares_look (l : List Care) : awaitCares (.look :: l) = awaitCares l := by simp [awaitCares]
@[simp] theorem awaitCares_print (l : List Care) : awaitCares (.print :: l) = awaitCares l := by simp [awaitCares]
@[simp] theorem awaitCares_message (l : List Care) : awaitCares (.message :: l) = awaitCares l := by simp [awaitCares]
@[simp] theorem awaitCares_attach (l : List Care) : awaitCares (.attach :: l) = awaitCares l := by simp [awaitCares]
@[simp] theorem awaitCares_options (n : Nat) (l : List Care) : awaitCares (.options n :: l) = awaitCares l := by simp [awaitCares]

/-- Every stop is awaited once, and the process goes on once if it is not over. -/
theorem oneStop_counts (W : Wish) (th : Bool) (pl : Place) (x : Report) (h : CanStop pl x) :
    awaitCares (oneStop W th pl x).2 = 1 ∧ ((oneStop W th pl x).1 ≠ .over → goCares (oneStop W th pl x).2 = 1) := by
  obtain ⟨kind, v⟩ := x
  cases pl <;> cases kind <;> simp only [oneStop] <;> simp only [CanStop] at h
  all_goals first
    | exact h.elim
    | (refine ⟨?_, fun hne => ?_⟩ <;> first | exact absurd rfl hne | (repeat' split) <;> simp)

section
variable {W : Wish} {th : Bool} {stops : List Report}

theorem history_succ {i : Nat} {x : Report} (h : stops[i]? = some x) : history W th (stops.take (i + 1)) =
    ((oneStop W th (history W th (stops.take i)).1 x).1, (history W th (stops.take i)).2 ++ (oneStop W th (history W th (stops.take i)).1 x).2) := by
  unfold history
  rw [List.take_add_one, h, Option.toList_some, List.foldl_append]
  rfl

/-- The history of a process whose stops can happen. -/
theorem history_counts (hf : ∀ i x, stops[i]? = some x → CanStop (history W th (stops.take i)).1 x) : ∀ k, k ≤ stops.length →
    awaitCares (history W th (stops.take k)).2 = k ∧ ((history W th (stops.take k)).1 ≠ .over → goCares (history W th (stops.take k)).2 = k)
  | 0, _ => by simp [history]
  | k + 1, hk => by
    obtain ⟨x, hx⟩ : ∃ x, stops[k]? = some x := ⟨stops[k], List.getElem?_eq_getElem (by omega)⟩
    obtain ⟨h1, h2⟩ := history_counts hf k (by omega)
    have hc := hf k x hx
    obtain ⟨h3, h4⟩ := oneStop_counts W th _ x hc
    rw [history_succ hx]
    refine ⟨by simp [h1, h3], fun hne => ?_⟩
    dsimp only at hne ⊢
    rw [goCares_append, h4 hne, h2]
    intro ho
    rw [ho] at hc
    exact hc

end

/-! ### stops told -/

theorem reported_append (g l : List Entry) : reported (g ++ l) = reported g ++ reported l := List.filterMap_append

theorem cares_cons (q : Nat) (e : Entry) (g : List Entry) : cares q (e :: g) = (care q e).toList ++ cares q g := by
  unfold cares
  rw [List.filterMap_cons]
  cases care q e <;> rfl

theorem reported_cons (e : Entry) (g : List Entry) : reported (e :: g) = reported [e] ++ reported g := reported_append [e] g

/-- An entry tells a stop of `q` exactly if `q` was awaited by it. -/
theorem reported_one (e : Entry) : (∃ q wall, reported [e] = [q] ∧ care q e = some (.await wall)) ∨
    (reported [e] = [] ∧ ∀ q wall, care q e ≠ some (.await wall)) := by
  obtain ⟨c, r, d⟩ := e
  cases c with
  | waitpid pid nohang wall =>
    cases pid with
    | none =>
      refine Or.inr ⟨by cases r <;> rfl, fun q w h => ?_⟩
      cases r <;> cases h
    | some q =>
      cases r with
      | ok n st =>
        cases n with
        | zero => exact Or.inr ⟨rfl, fun q w h => by cases h⟩
        | succ n => exact Or.inl ⟨q, wall, rfl, by simp [care]⟩
      | err n => exact Or.inl ⟨q, wall, rfl, by simp [care]⟩
      | interrupt => exact Or.inl ⟨q, wall, rfl, by simp [care]⟩
  | sleep => exact Or.inr ⟨rfl, fun q w h => by cases r <;> cases h⟩
  | _ =>
    refine Or.inr ⟨rfl, fun q w h => ?_⟩
    simp only [care] at h
    split at h <;> cases h

/-- Only one process was dealt with. -/
theorem reported_only {p : Nat} : ∀ {g : List Entry}, (∀ q, q ≠ p → cares q g = []) → reported g = List.replicate (awaitCares (cares p g)) p
  | [], _ => rfl
  | e :: g, h => by
    have hg : ∀ q, q ≠ p → cares q g = [] := by
      intro q hq
      have := h q hq
      rw [cares_cons] at this
      exact (List.append_eq_nil_iff.1 this).2
    rw [reported_cons, reported_only hg, cares_cons]
    rcases reported_one e with ⟨q, wall, h1, h2⟩ | ⟨h1, h2⟩
    · have hq : q = p := by
        apply Classical.byContradiction
        intro hq
        have := h q hq
        rw [cares_cons, h2] at this
        cases this
      subst hq
      rw [h1, h2]
      simp [List.replicate_succ]
    · rw [h1]
      cases hc : care p e with
      | none => simp
      | some a =>
        have : awaitCares [a] = 0 := by
          cases a with
          | await w => exact absurd hc (h2 p w)
          | _ => rfl
        rw [List.nil_append, Option.toList_some, awaitCares_append, this, Nat.zero_add]

/-- What is kept for a process at a place. -/
def AtPlace (C : StraceCfg) : Place → SysState → Prop
  | .outside, ss => Outside ss
  | .inside regs, ss => InCall C regs ss
  | _, _ => False

/-- What the user asked of strace.py. -/
def StraceCfg.wish (C : StraceCfg) (events : Bool) (options : Nat) : Wish :=
  ⟨C.view, fun regs => decide (C.sys.name regs = execveName), events, options⟩

/-- `k p` stops of process `p` have been dealt with, for every `p`, and the debugger knows the processes that are left. -/
structure Between (T : Tree) (C : StraceCfg) (events attached : Bool) (options : Nat) (s : DSt) (k : Nat → Nat) : Prop where
  reg : RegInv s
  good : s.useSysgood = true
  exec : s.traceExec = events
  opts : s.options = options
  le : ∀ p, k p ≤ (T.stops p).length
  mem : ∀ p, (∃ o, dictGet s.dict p = some o) ↔ 0 < k p ∧ k p < (T.stops p).length
  obj : ∀ p o, dictGet s.dict p = some o → (s.heap o).running = true ∧ (s.heap o).isAttached = true ∧ (s.heap o).isThread = T.thread p ∧
    AtPlace C (history (C.wish events options) (T.thread p) ((T.stops p).take (k p))).1 (s.heap o).ss
  log : ∀ p, cares p s.log = (if p = T.root ∧ attached = false then [.attach] else []) ++
    (history (C.wish events options) (T.thread p) ((T.stops p).take (k p))).2
  tree : ∀ p, 0 < k p → T.Born p
  born : ∀ p, 0 < k p ↔ p = T.root ∨ ∃ q i, T.Forks q i p ∧ i < k q

section
variable {K : Kern} {T : Tree} {C : StraceCfg} {events attached : Bool} {options : Nat} {s : DSt} {k : Nat → Nat}

theorem Between.pid (h : Between T C events attached options s k) {p o : Nat} (hd : dictGet s.dict p = some o) : (s.heap o).pid = p :=
  ((h.reg.agree p o).1 (dictGet_some hd)).2

theorem Between.goes (h : Between T C events attached options s k) (hT : T.Good (C.wish events options)) {p : Nat} (hp : 0 < k p)
    (hl : k p < (T.stops p).length) : goesTo p s.log = k p := by
  have hb := h.tree p hp
  have hx : (T.stops p)[k p]? = some (T.stops p)[k p] := List.getElem?_eq_getElem hl
  have hc := hT.fine p hb _ _ hx
  have := (history_counts (hT.fine p hb) (k p) (h.le p)).2 (by
    intro ho
    rw [ho] at hc
    exact hc)
  rw [goesTo_eq, h.log, goCares_append, this]
  split <;> simp

theorem Between.awaits (h : Between T C events attached options s k) (hT : T.Good (C.wish events options)) {p : Nat} (hp : 0 < k p) :
    awaits p s.log = k p := by
  have := (history_counts (hT.fine p (h.tree p hp)) (k p) (h.le p)).1
  rw [awaits_eq, h.log, awaitCares_append, this]
  split <;> simp

theorem Between.real (h : Between T C events attached options s k) (hT : T.Good (C.wish events options)) {p : Nat} (hp : 0 < k p) : p ≠ 0 := by
  rcases (h.born p).1 hp with rfl | ⟨q, i, hf, -⟩
  · exact hT.real.1
  · exact (hT.real.2 q i p hf).1

theorem Between.settled (h : Between T C events attached options s k) (hT : T.Good (C.wish events options)) : Settled T s := by
  refine ⟨fun p o hd => ?_, fun p hp => ?_⟩
  · obtain ⟨h1, h2⟩ := (h.mem p).1 ⟨o, hd⟩
    refine ⟨h.real hT h1, (h.obj p o hd).2.2.1, (T.stops p)[k p], ?_⟩
    rw [h.goes hT h1 h2]
    exact List.getElem?_eq_getElem h2
  · obtain ⟨x, hx, rfl⟩ := List.mem_map.1 hp
    exact ⟨x.2, dictGet_of_mem h.reg.keys hx⟩

theorem Between.left (h : Between T C events attached options s k) (hT : T.Good (C.wish events options)) (p : Nat) :
    (∃ o, dictGet s.dict p = some o) ↔ 0 < PT.Spec.awaits p s.log ∧ PT.Spec.awaits p s.log < (T.stops p).length := by
  rw [h.mem]
  rcases Nat.eq_zero_or_pos (k p) with h0 | h0
  · have : PT.Spec.awaits p s.log = 0 := by
      rw [awaits_eq, h.log, h0]
      simp only [history, List.take_zero, List.foldl_nil, List.append_nil]
      split <;> simp
    rw [this, h0]
  · rw [h.awaits hT h0]

/-- The next stop of a process that is left. -/
theorem Between.found (h : Between T C events attached options s k) (hT : T.Good (C.wish events options)) {fuel : Nat} {r} {p o : Nat} {kind v st g}
    (hf : Found K T fuel s r p o kind v st g) : 0 < k p ∧ k p < (T.stops p).length ∧ (T.stops p)[k p]? = some (kind, v) ∧ p ≠ 0 ∧
      Doing events (T.thread p) p o s { s with log := s.log ++ g } [.await (T.thread p)] (s.heap o).ss := by
  obtain ⟨h1, h2⟩ := (h.mem p).1 ⟨o, hf.get⟩
  have hs := hf.stop
  rw [h.goes hT h1 h2] at hs
  obtain ⟨o1, o2, o3, o4⟩ := h.obj p o hf.get
  refine ⟨h1, h2, hs, h.real hT h1, fun q _ => rfl, rfl, rfl, rfl, rfl, h.good, h.exec, hf.get, h.pid hf.get, o1, o2, o3, rfl, rfl, g, rfl, ?_, ?_⟩
  · rw [hf.idle, if_pos rfl]
  · intro q hq
    rw [hf.idle, if_neg hq]

/-- `k`, but `n` for `p`. -/
def setPos (k : Nat → Nat) (p n : Nat) : Nat → Nat := fun q => if q = p then n else k q

theorem setPos_self (k : Nat → Nat) (p n : Nat) : setPos k p n p = n := if_pos rfl
theorem setPos_ne (k : Nat → Nat) {p q : Nat} (n : Nat) (h : q ≠ p) : setPos k p n q = k q := if_neg h

/-- Stops that make no new process. -/
theorem born_setPos (h : Between T C events attached options s k) {p n : Nat} (hp : 0 < k p) (hn : k p ≤ n)
    (hfork : ∀ i c, k p ≤ i → i < n → ¬T.Forks p i c) (q : Nat) :
    0 < setPos k p n q ↔ q = T.root ∨ ∃ q' i, T.Forks q' i q ∧ i < setPos k p n q' := by
  have h1 : 0 < setPos k p n q ↔ 0 < k q := by
    unfold setPos
    split
    · rename_i hq; subst hq; omega
    · rfl
  rw [h1, h.born]
  constructor
  · rintro (hr | ⟨q', i, hf, hi⟩)
    · exact Or.inl hr
    · refine Or.inr ⟨q', i, hf, ?_⟩
      unfold setPos
      split
      · rename_i hq; subst hq; omega
      · exact hi
  · rintro (hr | ⟨q', i, hf, hi⟩)
    · exact Or.inl hr
    · refine Or.inr ⟨q', i, hf, ?_⟩
      unfold setPos at hi
      split at hi
      · rename_i hq
        subst hq
        rcases Nat.lt_or_ge i (k q') with hc | hc
        · exact hc
        · exact absurd hf (hfork i q hc hi)
      · exact hi

/-- After stops that do not end the process and make no new one. -/
theorem Between.on (h : Between T C events attached options s k) (hT : T.Good (C.wish events options)) {p o n : Nat} {t : DSt} {as : List Care}
    {ss : SysState} (hp : 0 < k p) (hn : k p < n) (hl : n ≤ (T.stops p).length) (hd : Doing events (T.thread p) p o s t as ss)
    (hh : (history (C.wish events options) (T.thread p) ((T.stops p).take n)).2 =
      (history (C.wish events options) (T.thread p) ((T.stops p).take (k p))).2 ++ as)
    (ha : AtPlace C (history (C.wish events options) (T.thread p) ((T.stops p).take n)).1 ss)
    (hfork : ∀ i c, k p ≤ i → i < n → ¬T.Forks p i c) : Between T C events attached options t (setPos k p n) := by
  have hlt : n < (T.stops p).length := by
    rcases Nat.lt_or_eq_of_le hl with hc | hc
    · exact hc
    · rw [hc, List.take_length, hT.ends p (h.tree p hp)] at ha
      exact ha.elim
  have hpid : (s.heap o).pid = p := h.pid hd.get
  obtain ⟨g, hg, g1, g2⟩ := hd.log
  refine ⟨h.reg.congr hd.dict hd.list (Nat.le_of_eq hd.next.symm) ?_ ?_, hd.good, hd.exec, hd.options.trans h.opts, ?_, ?_, ?_, ?_, ?_, ?_⟩
  · intro q
    by_cases hq : q = o
    · subst hq; rw [hd.pid, hpid]
    · rw [hd.others q hq]
  · intro q
    by_cases hq : q = o
    · subst hq; exact fun _ => (h.obj p q hd.get).2.1
    · rw [hd.others q hq]; exact id
  · intro q
    unfold setPos
    split
    · rename_i hq; subst hq; exact hl
    · exact h.le q
  · intro q
    rw [hd.dict, h.mem]
    unfold setPos
    split
    · rename_i hq; subst hq
      have := (h.mem q).1 ⟨o, hd.get⟩
      omega
    · rfl
  · intro q o' hq
    rw [hd.dict] at hq
    by_cases hqp : q = p
    · subst hqp
      rw [hd.get] at hq
      injection hq with hq
      subst hq
      rw [setPos_self, hd.ss]
      exact ⟨hd.running, hd.attached, hd.thread, ha⟩
    · have ho : o' ≠ o := by
        rintro rfl
        exact hqp ((h.pid hq).symm.trans hpid)
      rw [setPos_ne k n hqp, hd.others o' ho]
      exact h.obj q o' hq
  · intro q
    rw [hg, cares_append, h.log q]
    by_cases hqp : q = p
    · subst hqp
      rw [setPos_self, g1, hh, List.append_assoc]
    · rw [setPos_ne k n hqp, g2 q hqp, List.append_nil]
  · intro q hq
    unfold setPos at hq
    split at hq
    · rename_i hqp; subst hqp; exact h.tree q hp
    · exact h.tree q hq
  · exact born_setPos h hp (Nat.le_of_lt hn) hfork

/-- After the last stop of a process. -/
theorem Between.off (h : Between T C events attached options s k) {p o : Nat} {t : DSt} {as : List Care}
    (hp : 0 < k p) (hk : k p + 1 = (T.stops p).length) (hget : dictGet s.dict p = some o) (hpid : (t.heap o).pid = p)
    (hatt : (t.heap o).isAttached = false) (hothers : ∀ q, q ≠ o → t.heap q = s.heap q) (hnext : t.next = s.next)
    (hdict : t.dict = dictDel s.dict p) (hlist : t.list = s.list.erase o) (hgood : t.useSysgood = true) (hexec : t.traceExec = events)
    (hopt : t.options = s.options) {g : List Entry} (hg : t.log = s.log ++ g) (g1 : cares p g = as) (g2 : ∀ q, q ≠ p → cares q g = [])
    (hh : (history (C.wish events options) (T.thread p) (T.stops p)).2 =
      (history (C.wish events options) (T.thread p) ((T.stops p).take (k p))).2 ++ as)
    (hfork : ∀ c, ¬T.Forks p (k p) c) : Between T C events attached options t (setPos k p (T.stops p).length) := by
  have hpid0 : (s.heap o).pid = p := h.pid hget
  have hreg : RegInv t := by
    have r1 := h.reg.setProc o (t.heap o) (hpid.trans hpid0.symm) (by rw [hatt]; intro e; cases e)
    have r2 := r1.unreg o (by rw [setProc_heap, if_pos rfl]; exact hatt) (Or.inl ((h.reg.agree p o).1 (dictGet_some hget)).1)
    refine r2.congr ?_ ?_ (Nat.le_of_eq hnext.symm) ?_ ?_
    · rw [hdict]
      show _ = dictDel s.dict ((setProc s o (t.heap o)).heap o).pid
      rw [setProc_heap, if_pos rfl, hpid]
    · rw [hlist]; rfl
    · intro q
      show _ = ((setProc s o (t.heap o)).heap q).pid
      rw [setProc_heap]
      by_cases hq : q = o
      · rw [if_pos hq, hq]
      · rw [if_neg hq, hothers q hq]
    · intro q
      show _ → ((setProc s o (t.heap o)).heap q).isAttached = true
      rw [setProc_heap]
      by_cases hq : q = o
      · rw [if_pos hq, hq]; exact id
      · rw [if_neg hq, hothers q hq]; exact id
  have hdel : dictGet t.dict p = none := by
    rw [dictGet_none, hdict]
    intro v hv
    exact ((mem_dictDel _).1 hv).2 rfl
  refine ⟨hreg, hgood, hexec, hopt.trans h.opts, ?_, ?_, ?_, ?_, ?_, ?_⟩
  · intro q
    unfold setPos
    split
    · rename_i hq; subst hq; exact Nat.le_refl _
    · exact h.le q
  · intro q
    by_cases hq : q = p
    · subst hq
      rw [hdel, setPos_self]
      simp
    · rw [hdict, dictGet_del hq, setPos_ne k _ hq]
      exact h.mem q
  · intro q o' hq
    by_cases hqp : q = p
    · subst hqp
      rw [hdel] at hq
      cases hq
    · rw [hdict, dictGet_del hqp] at hq
      have ho : o' ≠ o := by
        rintro rfl
        exact hqp ((h.pid hq).symm.trans hpid0)
      rw [setPos_ne k _ hqp, hothers o' ho]
      exact h.obj q o' hq
  · intro q
    rw [hg, cares_append, h.log q]
    by_cases hqp : q = p
    · subst hqp
      rw [setPos_self, g1, List.take_length, hh, List.append_assoc]
    · rw [setPos_ne k _ hqp, g2 q hqp, List.append_nil]
  · intro q hq
    unfold setPos at hq
    split at hq
    · rename_i hqp; subst hqp; exact h.tree q hp
    · exact h.tree q hq
  · refine born_setPos h hp (by omega) fun i c h1 h2 => ?_
    rw [show i = k p by omega]
    exact hfork c

/-- What the debugger answers for a stop. -/
def Answer (u : DSt) (o : Nat) (kind : StatusKind) (v : Nat) (r : Except Exc Event) : Prop :=
  match kind with
  | .signal n => r = if n = 133 then .ok (.signal o 133) else .error (.event (.signal o n))
  | .exited c => r = .error (.event (.exit o none (some c)))
  | .killed n => r = .error (.event (.exit o (some n) none))
  | .event m => if m = 4 then r = .error (.event (.execution o)) else ∃ q, r = .error (.event (.newProcess q)) ∧ (u.heap q).pid = v
  | .unknown => False

/-- One turn of the loop from `s` to `t`: a stop of process `p` was answered, and nothing happened to the calls of other processes. -/
structure Turn (K : Kern) (T : Tree) (C : StraceCfg) (events : Bool) (options fuel : Nat) (s t : DSt) (k k' : Nat → Nat) (p o : Nat)
    (kind : StatusKind) (v : Nat) (g : List Entry) (r : Except Exc Event) (u : DSt) : Prop where
  wait : waitSyscall K fuel none s = (r, u)
  answer : Answer u o kind v r
  seen : (∀ m, kind = .event m → m = 4) → u.log = s.log ++ g ∧ (u.heap o).ss = (s.heap o).ss ∧ (u.heap o).pid = p ∧ u.next = s.next
  pre : ∃ l, u.log = s.log ++ g ++ l
  kept : ∀ q o', q ≠ p → 0 < k q → dictGet t.dict q = some o' → dictGet s.dict q = some o' ∧ (t.heap o').ss = (s.heap o').ss
  own : ∀ o', dictGet t.dict p = some o' → o' = o ∧ ((t.heap o).ss = (s.heap o).ss ∨ Outside (t.heap o).ss ∨
    (Outside (s.heap o).ss ∧ ∀ c, (t.heap o).ss.syscall = some c → c = ⟨(s.log ++ g).length, v, none⟩))
  shape : (k' = setPos k p (k p + 1) ∧ reported t.log = reported s.log ++ [p] ∧ ∀ m, kind = .event m → m = 4) ∨
    (kind = .signal 133 ∧ (∃ regs, (history (C.wish events options) (T.thread p) ((T.stops p).take (k p))).1 = .inside regs ∧
        C.sys.name regs = execveName ∧ events = false) ∧ (∃ v2, (T.stops p)[k p + 1]? = some (.signal 5, v2)) ∧
      k' = setPos k p (k p + 2) ∧ reported t.log = reported s.log ++ [p, p]) ∨
    (∃ m, kind = .event m ∧ m ≠ 4 ∧ k' = setPos (setPos k p (k p + 1)) v 1 ∧ reported t.log = reported s.log ++ [p, v])

theorem Doing.kept {th : Bool} {p o : Nat} {t : DSt} {as : List Care} {ss : SysState} (hd : Doing events th p o s t as ss)
    (h : Between T C events attached options s k) (q o' : Nat) (hq : q ≠ p) (_ : 0 < k q) (hget : dictGet t.dict q = some o') :
    dictGet s.dict q = some o' ∧ (t.heap o').ss = (s.heap o').ss := by
  rw [hd.dict] at hget
  refine ⟨hget, ?_⟩
  rw [hd.others o' (by
    rintro rfl
    exact hq ((h.pid hget).symm.trans (h.pid hd.get)))]

theorem Doing.own {th : Bool} {p o v : Nat} {t : DSt} {as : List Care} {ss : SysState} {g : List Entry} (hd : Doing events th p o s t as ss)
    (h : ss = (s.heap o).ss ∨ Outside ss ∨ (Outside (s.heap o).ss ∧ ∀ c, ss.syscall = some c → c = ⟨(s.log ++ g).length, v, none⟩)) (o' : Nat)
    (hget : dictGet t.dict p = some o') : o' = o ∧ ((t.heap o).ss = (s.heap o).ss ∨ Outside (t.heap o).ss ∨
    (Outside (s.heap o).ss ∧ ∀ c, (t.heap o).ss.syscall = some c → c = ⟨(s.log ++ g).length, v, none⟩)) := by
  rw [hd.dict, hd.get] at hget
  rw [hd.ss]
  exact ⟨(Option.some.inj hget).symm, h⟩

end

end PT
