import Verif.Model.Strace
import Verif.Lemmas.Debugger8
import Verif.Lemmas.Wait
import Verif.Lemmas.Py
import Verif.Spec.Tree

/-! Following many processes: what is done for one process leaves the others alone. -/

namespace PT
open PT.Spec

/-- Requests to go on among these. -/
def goCares (as : List Care) : Nat := as.countP fun a => match a with
  | .go _ => true
  | _ => false

theorem cares_append (p : Nat) (l m : List Entry) : cares p (l ++ m) = cares p l ++ cares p m := List.filterMap_append

theorem goesTo_append (p : Nat) (l m : List Entry) : goesTo p (l ++ m) = goesTo p l + goCares (cares p m) := by
  unfold goesTo goCares
  rw [cares_append, List.countP_append]
  rfl

@[simp] theorem goCares_append (l m : List Care) : goCares (l ++ m) = goCares l + goCares m := List.countP_append
@[simp] theorem goCares_nil : goCares [] = 0 := rfl
@[simp] theorem goCares_go (n : Nat) (l : List Care) : goCares (.go n :: l) = goCares l + 1 := by simp [goCares]
@[simp] theorem goCares_await (b : Bool) (l : List Care) : goCares (.await b :: l) = goCares l := by simp [goCares]
@[simp] theorem goCares_look (l : List Care) : goCares (.look :: l) = goCares l := by simp [goCares]
@[simp] theorem goCares_print (l : List Care) : goCares (.print :: l) = goCares l := by simp [goCares]
@[simp] theorem goCares_message (l : List Care) : goCares (.message :: l) = goCares l := by simp [goCares]
@[simp] theorem goCares_attach (l : List Care) : goCares (.attach :: l) = goCares l := by simp [goCares]
@[simp] theorem goCares_options (n : Nat) (l : List Care) : goCares (.options n :: l) = goCares l := by simp [goCares]

/-- Since state `s0`, process `p`, which is object `o`, was dealt with as `as` says; nothing else happened. -/
structure Doing (events thread : Bool) (p o : Nat) (s0 s : DSt) (as : List Care) (ss : SysState) : Prop where
  others : ∀ q, q ≠ o → s.heap q = s0.heap q
  next : s.next = s0.next
  dict : s.dict = s0.dict
  list : s.list = s0.list
  options : s.options = s0.options
  good : s.useSysgood = true
  exec : s.traceExec = events
  get : dictGet s0.dict p = some o
  pid : (s.heap o).pid = p
  running : (s.heap o).running = true
  attached : (s.heap o).isAttached = true
  thread : (s.heap o).isThread = thread
  ss : (s.heap o).ss = ss
  parent : (s.heap o).parent = (s0.heap o).parent
  log : ∃ g, s.log = s0.log ++ g ∧ cares p g = as ∧ ∀ q, q ≠ p → cares q g = []

section
variable {K : Kern} {T : Tree} {events thread : Bool} {p o : Nat} {s0 s : DSt} {as : List Care} {ss : SysState} {C : StraceCfg}

theorem Doing.goes (h : Doing events thread p o s0 s as ss) : goesTo p s.log = goesTo p s0.log + goCares as := by
  obtain ⟨g, hg, ha, -⟩ := h.log
  rw [hg, goesTo_append, ha]

/-- One more request. -/
theorem Doing.more {c : Call} {r : Reply} {a : Care} (h : Doing events thread p o s0 s as ss) (ha : ∀ d, care p ⟨c, r, d⟩ = some a)
    (hq : ∀ d q, q ≠ p → care q ⟨c, r, d⟩ = none) : Doing events thread p o s0 { s with log := s.log ++ [⟨c, r, s.dict⟩] } (as ++ [a]) ss := by
  obtain ⟨g, hg, h1, h2⟩ := h.log
  refine ⟨h.others, h.next, h.dict, h.list, h.options, h.good, h.exec, h.get, h.pid, h.running, h.attached, h.thread, h.ss, h.parent,
    g ++ [⟨c, r, s.dict⟩], by simp [hg], ?_, ?_⟩
  · rw [cares_append, h1]
    simp [cares, ha]
  · intro q hqp
    rw [cares_append, h2 q hqp]
    simp [cares, hq _ q hqp]

/-- A request that is accepted. -/
theorem Doing.request {c : Call} {v : Nat} {st : Int} {a : Care} (h : Doing events thread p o s0 s as ss) (hk : K s.log c = .ok v st)
    (ha : ∀ d, care p ⟨c, .ok v st, d⟩ = some a) (hq : ∀ d q, q ≠ p → care q ⟨c, .ok v st, d⟩ = none) :
    ∃ t, ptraceCall K c s = (.ok v, t) ∧ Doing events thread p o s0 t (as ++ [a]) ss := by
  refine ⟨_, ?_, h.more ha hq⟩
  unfold ptraceCall sysc Py.bind
  dsimp only
  rw [hk]
  rfl

/-- Attributes that are not followed here. -/
theorem Doing.update {f : Proc → Proc} (h : Doing events thread p o s0 s as ss) (hf : ∀ x, (f x).pid = x.pid ∧ (f x).running = x.running ∧
    (f x).isAttached = x.isAttached ∧ (f x).isThread = x.isThread ∧ (f x).parent = x.parent) : Doing events thread p o s0 (updProc o f s).2 as (f (s.heap o)).ss := by
  obtain ⟨h1, h2, h3, h4, h5⟩ := hf (s.heap o)
  have e : (updProc o f s).2.heap o = f (s.heap o) := if_pos rfl
  exact ⟨fun q hq => (if_neg hq).trans (h.others q hq), h.next, h.dict, h.list, h.options, h.good, h.exec, h.get, by rw [e, h1, h.pid],
    by rw [e, h2, h.running], by rw [e, h3, h.attached], by rw [e, h4, h.thread], by rw [e], by rw [e, h5, h.parent], h.log⟩

theorem Doing.go (h : Doing events thread p o s0 s as ss) (hK : Grows K T) (n : Nat) :
    ∃ t, procSyscall K o n s = (.ok (), t) ∧ Doing events thread p o s0 t (as ++ [.go (filterSignal n)]) ss := by
  obtain ⟨v, st, hk⟩ := (hK.accepts s.log o p (filterSignal n)).1
  obtain ⟨t, h1, h2⟩ := h.request hk (a := .go (filterSignal n)) (fun d => by simp [care]) (fun d q hq => by simp [care, Ne.symm hq])
  have h3 := h2.update (f := fun p => { p with isStopped := false }) fun p => ⟨rfl, rfl, rfl, rfl, rfl⟩
  dsimp only at h3
  rw [h2.ss] at h3
  refine ⟨_, ?_, h3⟩
  unfold procSyscall
  rw [h.pid, Py.run_bind_ok h1]
  rfl

theorem Doing.show (h : Doing events thread p o s0 s as ss) (hK : Grows K T) :
    ∃ t, eventDisplay K o s = (.ok (), t) ∧ Doing events thread p o s0 t (as ++ [.print]) ss := by
  obtain ⟨v, st, hk⟩ := (hK.accepts s.log o p 0).2.1
  obtain ⟨t, h1, h2⟩ := h.request hk (a := .print) (fun d => by simp [care]) (fun d q hq => by simp [care, Ne.symm hq])
  refine ⟨t, ?_, h2⟩
  unfold eventDisplay
  rw [h.pid, Py.run_bind_ok h1]
  rfl

theorem Doing.look (h : Doing events thread p o s0 s as ss) (hK : Grows K T) {kind : StatusKind} {regs : Nat}
    (hs : (T.stops p)[goesTo p s0.log + goCares as]? = some (kind, regs)) : ∃ t, ptraceCall K (.inspect o p) s = (.ok regs, t) ∧
      Doing events thread p o s0 t (as ++ [.look]) ss := by
  obtain ⟨st, hk⟩ := (hK.look s.log p kind regs o (by rw [h.goes]; exact hs)).1
  exact h.request hk (fun d => by simp [care]) (fun d q hq => by simp [care, Ne.symm hq])

theorem Doing.message (h : Doing events thread p o s0 s as ss) (hK : Grows K T) {kind : StatusKind} {v : Nat}
    (hs : (T.stops p)[goesTo p s0.log + goCares as]? = some (kind, v)) : ∃ t, ptraceCall K (.geteventmsg o p) s = (.ok v, t) ∧
      Doing events thread p o s0 t (as ++ [.message]) ss := by
  obtain ⟨st, hk⟩ := (hK.look s.log p kind v o (by rw [h.goes]; exact hs)).2
  exact h.request hk (fun d => by simp [care]) (fun d q hq => by simp [care, Ne.symm hq])

theorem Doing.setSys {f : SysState → SysState} (h : Doing events thread p o s0 s as ss) :
    ∃ t, updSys o f s = (.ok (), t) ∧ Doing events thread p o s0 t as (f ss) := by
  have := h.update (f := fun p => { p with ss := f p.ss }) fun p => ⟨rfl, rfl, rfl, rfl, rfl⟩
  dsimp only at this
  rw [h.ss] at this
  exact ⟨_, rfl, this⟩

/-- One process asked for its status has something to report. -/
theorem wait_found (hp : p ≠ 0) (hd : dictGet s.dict p = some o) {st : Int} (fuel : Nat) (b : Bool)
    (hk : K s.log (.waitpid (some p) (!b) (s.heap o).isThread) = .ok p st) :
    waitEventPid K (fuel + 1) p b s = Py.bind (processStatus K (waitEventPid K fuel) o st) (fun e => Py.pure (some e))
      { s with log := s.log ++ [⟨.waitpid (some p) (!b) (s.heap o).isThread, .ok p st, s.dict⟩] } := by
  have e1 : waitpidRaw K p b s = (.ok (p, st), { s with log := s.log ++ [⟨.waitpid (some p) (!b) (s.heap o).isThread, .ok p st, s.dict⟩] }) := by
    unfold waitpidRaw
    rw [if_pos hp, hd]
    dsimp only
    rw [Py.run_bind_ok (a := (p, st)) (u := { s with log := s.log ++ [⟨.waitpid (some p) (!b) (s.heap o).isThread, .ok p st, s.dict⟩] })]
    · unfold checkPid
      simp
    · unfold osCall sysc Py.bind
      dsimp only
      rw [hk]
      rfl
  unfold waitEventPid
  rw [e1]
  dsimp only [waitReply]
  rw [hd, if_neg (by simp [hp])]

/-- One process asked for its status has nothing to report. -/
theorem wait_vain (hp : p ≠ 0) (hd : dictGet s.dict p = some o) {st : Int} (fuel : Nat)
    (hk : K s.log (.waitpid (some p) true (s.heap o).isThread) = .ok 0 st) :
    waitEventPid K (fuel + 1) p false s =
      (.ok none, { s with log := s.log ++ [⟨.waitpid (some p) true (s.heap o).isThread, .ok 0 st, s.dict⟩] }) := by
  have e1 : waitpidRaw K p false s = (.ok (0, st), { s with log := s.log ++ [⟨.waitpid (some p) true (s.heap o).isThread, .ok 0 st, s.dict⟩] }) := by
    unfold waitpidRaw
    rw [if_pos hp, hd]
    dsimp only
    rw [Py.run_bind_ok (a := (0, st)) (u := { s with log := s.log ++ [⟨.waitpid (some p) true (s.heap o).isThread, .ok 0 st, s.dict⟩] })]
    · unfold checkPid
      simp
    · unfold osCall sysc Py.bind
      dsimp only
      rw [Bool.not_false, hk]
      rfl
  unfold waitEventPid
  rw [e1]
  dsimp only [waitReply]
  simp

/-- Every registered process has a stop to come, and is a process of the tree. -/
structure Settled (T : Tree) (s : DSt) : Prop where
  ready : ∀ p o, dictGet s.dict p = some o → p ≠ 0 ∧ (s.heap o).isThread = T.thread p ∧ ∃ x, (T.stops p)[goesTo p s.log]? = some x
  keys : ∀ p, p ∈ s.dict.map Prod.fst → ∃ o, dictGet s.dict p = some o

/-- Process `p` has reported a stop, after other processes were asked in vain. -/
structure Found (K : Kern) (T : Tree) (fuel : Nat) (s : DSt) (r : Except Exc (Option Event) × DSt) (p o : Nat) (kind : StatusKind) (v : Nat) (st : Int)
    (g : List Entry) : Prop where
  get : dictGet s.dict p = some o
  stop : (T.stops p)[goesTo p s.log]? = some (kind, v)
  status : waitMeaning st = kind
  idle : ∀ q, cares q g = if q = p then [.await (T.thread p)] else []
  result : r = Py.bind (processStatus K (waitEventPid K fuel) o st) (fun e => Py.pure (some e)) { s with log := s.log ++ g }

theorem idle_cares {g : List Entry} (h : ∀ e ∈ g, idle e = true) (q : Nat) : cares q g = [] := by
  unfold cares
  rw [List.filterMap_eq_nil_iff]
  intro e he
  have := h e he
  unfold PT.Spec.idle at this
  unfold care
  split at this
  · rename_i h1 h2; rw [h1, h2]; rfl
  · rename_i h1; rw [h1]
  · cases this

theorem Settled.idle {g : List Entry} (h : Settled T s) (hg : ∀ e ∈ g, idle e = true) : Settled T { s with log := s.log ++ g } := by
  refine ⟨fun p o hd => ?_, h.keys⟩
  obtain ⟨h1, h2, h3⟩ := h.ready p o hd
  refine ⟨h1, h2, ?_⟩
  rw [goesTo_append, idle_cares hg]
  exact h3

theorem Found.before {fuel : Nat} {r : Except Exc (Option Event) × DSt} {kind : StatusKind} {v : Nat} {st : Int} {g g' : List Entry}
    (hg : ∀ e ∈ g, PT.Spec.idle e = true) (h : Found K T fuel { s with log := s.log ++ g } r p o kind v st g') :
    Found K T fuel s r p o kind v st (g ++ g') := by
  refine ⟨h.get, ?_, h.status, ?_, ?_⟩
  · have := h.stop
    rw [goesTo_append, idle_cares hg] at this
    exact this
  · intro q
    rw [cares_append, idle_cares hg]
    exact h.idle q
  · rw [h.result]
    simp

/-- Asking one process. -/
theorem ask_one (hK : Grows K T) (hr : Settled T s) (hd : dictGet s.dict p = some o) (fuel : Nat) (b : Bool) :
    (b = false ∧ ∃ e, idle e = true ∧ waitEventPid K (fuel + 1) p b s = (.ok none, { s with log := s.log ++ [e] }) ∧
      ∃ st wall, K s.log (.waitpid (some p) true wall) = .ok 0 st) ∨
    ∃ kind v st g, Found K T fuel s (waitEventPid K (fuel + 1) p b s) p o kind v st g := by
  obtain ⟨h1, h2, ⟨kind, v⟩, h3⟩ := hr.ready p o hd
  rcases hK.wait s.log p kind v (!b) h3 with ⟨hb, st, hk⟩ | ⟨st, hk, hm⟩
  · have hb : b = false := by simpa using hb
    subst hb
    rw [← h2] at hk
    refine Or.inl ⟨rfl, _, ?_, wait_vain h1 hd fuel hk, st, _, hk⟩
    rfl
  · rw [← h2] at hk
    refine Or.inr ⟨kind, v, st, [⟨.waitpid (some p) (!b) (s.heap o).isThread, .ok p st, s.dict⟩], hd, h3, hm, fun q => ?_, wait_found h1 hd fuel b hk⟩
    unfold cares care
    cases p with
    | zero => exact absurd rfl h1
    | succ p =>
      by_cases hq : q = p + 1
      · subst hq
        simp [h2]
      · simp [hq, Ne.symm hq]

/-- Asking some processes, one after the other. -/
theorem ask_all (hK : Grows K T) (fuel : Nat) : ∀ (pids : List Nat) (s : DSt), Settled T s → (∀ q ∈ pids, q ∈ s.dict.map Prod.fst) →
    (∃ g, (∀ e ∈ g, idle e = true) ∧ g.length = pids.length ∧ pollPids (waitEventPid K (fuel + 1)) pids s = (.ok none, { s with log := s.log ++ g }) ∧
      ∀ q ∈ pids, ∃ g' st wall, (∀ e ∈ g', idle e = true) ∧ K (s.log ++ g') (.waitpid (some q) true wall) = .ok 0 st) ∨
    ∃ p o kind v st g, Found K T fuel s (pollPids (waitEventPid K (fuel + 1)) pids s) p o kind v st g
  | [], s, _, _ => Or.inl ⟨[], by simp, rfl, by simp [pollPids, Py.pure], by simp⟩
  | q :: pids, s, hr, hq => by
    obtain ⟨o, hd⟩ := hr.keys q (hq q (by simp))
    rcases ask_one (K := K) hK hr hd fuel false with ⟨-, e, he, h1, st0, wall0, h2⟩ | ⟨kind, v, st, g, hf⟩
    · have hidle : ∀ x ∈ [e], idle x = true := by simpa using he
      have hp : pollPids (waitEventPid K (fuel + 1)) (q :: pids) s = pollPids (waitEventPid K (fuel + 1)) pids { s with log := s.log ++ [e] } := by
        show Py.bind (waitEventPid K (fuel + 1) q false) _ s = _
        rw [Py.run_bind_ok h1]
      rw [hp]
      rcases ask_all hK fuel pids { s with log := s.log ++ [e] } (hr.idle hidle) (fun x hx => hq x (by simp [hx])) with
        ⟨g, g1, g2, g3, g4⟩ | ⟨p, o, kind, v, st, g, hf⟩
      · refine Or.inl ⟨e :: g, ?_, by simp [g2], ?_, fun q' hq' => ?_⟩
        · intro x hx
          rcases List.mem_cons.1 hx with rfl | hx
          · exact he
          · exact g1 x hx
        · rw [g3]
          simp
        · rcases List.mem_cons.1 hq' with rfl | hq'
          · exact ⟨[], st0, wall0, by simp, by simpa using h2⟩
          · obtain ⟨g', st, wall, a1, a2⟩ := g4 q' hq'
            refine ⟨e :: g', st, wall, ?_, by simpa using a2⟩
            intro x hx
            rcases List.mem_cons.1 hx with rfl | hx
            · exact he
            · exact a1 x hx
      · exact Or.inr ⟨p, o, kind, v, st, _, hf.before hidle⟩
    · refine Or.inr ⟨q, o, kind, v, st, g, hf.get, hf.stop, hf.status, hf.idle, ?_⟩
      show Py.bind (waitEventPid K (fuel + 1) q false) _ s = _
      have h := hf.result
      unfold Py.bind at h ⊢
      rw [h]
      dsimp only
      generalize processStatus K (waitEventPid K fuel) o st { s with log := s.log ++ g } = x
      obtain ⟨x, u⟩ := x
      cases x <;> rfl

/-- The run of idle entries at the end grows with the entries. -/
theorem idle_run {log g : List Entry} (hg : ∀ e ∈ g, idle e = true) :
    ((log ++ g).reverse.takeWhile idle).length = g.length + (log.reverse.takeWhile idle).length := by
  rw [List.reverse_append, List.takeWhile_append_of_pos (by simpa using hg)]
  simp

/-- Waiting until some process reports a stop. -/
theorem wait_any (hK : Grows K T) {patience : Nat} (hL : Lively K T patience) (fuel : Nat) : ∀ (n : Nat) (s : DSt), Settled T s → s.dict ≠ [] →
    (∀ p, (∃ o, dictGet s.dict p = some o) ↔ 0 < awaits p s.log ∧ awaits p s.log < (T.stops p).length) →
    patience < n + (s.log.reverse.takeWhile idle).length → 0 < n →
    ∃ p o kind v st g, Found K T fuel s (waitAny K (fuel + 1) n true s) p o kind v st g
  | 0, s, _, _, _, _, hn => absurd hn (by omega)
  | n + 1, s, hr, hne, hal, hn, _ => by
    unfold waitAny
    split
    · rename_i h
      exact absurd (List.map_eq_nil_iff.1 h) hne
    · rename_i pid h
      obtain ⟨o, hd⟩ := hr.keys pid (by rw [h]; simp)
      rcases ask_one (K := K) hK hr hd fuel true with ⟨hb, -⟩ | ⟨kind, v, st, g, hf⟩
      · cases hb
      · exact ⟨pid, o, kind, v, st, g, hf⟩
    · rcases ask_all hK fuel (s.dict.map Prod.fst) s hr (fun q hq => hq) with ⟨g, g1, g2, g3, g4⟩ | ⟨p, o, kind, v, st, g, hf⟩
      · rw [Py.run_bind_ok g3]
        dsimp only
        rw [if_pos rfl]
        obtain ⟨v, st, hk⟩ := (hK.accepts (s.log ++ g) 0 0 0).2.2.2.2
        have e1 : osCall K .sleep { s with log := s.log ++ g } = (.ok (v, st), { s with log := s.log ++ (g ++ [⟨.sleep, .ok v st, s.dict⟩]) }) := by
          unfold osCall sysc Py.bind
          dsimp only
          rw [hk]
          simp [Py.pure]
        rw [Py.run_bind_ok e1]
        have hi : ∀ e ∈ g ++ [⟨.sleep, .ok v st, s.dict⟩], idle e = true := by
          intro e he
          rcases List.mem_append.1 he with he | he
          · exact g1 e he
          · rw [List.mem_singleton.1 he]; rfl
        have hn0 : 0 < n := by
          rcases Nat.eq_zero_or_pos n with rfl | h
          · exfalso
            obtain ⟨x, xs, hx⟩ := List.exists_cons_of_ne_nil hne
            have hm : x.1 ∈ s.dict.map Prod.fst := by rw [hx]; simp
            obtain ⟨p, p1, p2, p3⟩ := hL s.log (by omega) ⟨x.1, (hal x.1).1 (hr.keys _ hm)⟩
            obtain ⟨o, ho⟩ := (hal p).2 ⟨p1, p2⟩
            obtain ⟨g', st, wall, a1, a2⟩ := g4 p (List.mem_map.2 ⟨(p, o), dictGet_some ho, rfl⟩)
            exact p3 g' a1 wall st a2
          · exact h
        obtain ⟨p, o, kind, w, st', g', hf⟩ := wait_any hK hL fuel n _ (hr.idle hi) hne (fun p => by
          show _ ↔ 0 < awaits p (s.log ++ _) ∧ awaits p (s.log ++ _) < _
          unfold awaits
          rw [cares_append, idle_cares hi, List.append_nil]
          exact hal p) (by
          show _ < n + ((s.log ++ _).reverse.takeWhile idle).length
          rw [idle_run hi]
          simp
          omega) hn0
        exact ⟨p, o, kind, w, st', _, hf.before hi⟩
      · refine ⟨p, o, kind, v, st, g, hf.get, hf.stop, hf.status, hf.idle, ?_⟩
        have h := hf.result
        unfold Py.bind at h ⊢
        rw [h]
        dsimp only
        generalize processStatus K (waitEventPid K fuel) o st { s with log := s.log ++ g } = x
        obtain ⟨x, u⟩ := x
        cases x <;> rfl

end

end PT
