import Verif.Model.GdbMain
import Verif.Spec.Watch
import Verif.Props.Follow
import Verif.Lemmas.Gdb
import Verif.Lemmas.Proc

/-! C129: a session of gdb.py with a program of one process. -/

namespace PT
open PT.Spec

/-- A command that tells something, or is not known. -/
def IdleText (c : Str) : Prop := c ≠ [] ∧ c ≠ quitText ∧ ';' ∉ c ∧ (parseCommand c = .info ∨ parseCommand c = .unknown)

/-- What the user types. -/
def Types (G : GdbCfg) : Input → Move → Prop
  | .line text, .cont => strip G.space text = "cont".toList
  | .line text, .idle => IdleText (strip G.space text)
  | .line text, .again => strip G.space text = []
  | .interrupt, .interrupt => True
  | _, _ => False

/-- What an empty line repeats. -/
def Repeats (G : GdbCfg) (prev : Bool) (p : Option Str) : Prop :=
  if prev then p = some "cont".toList else p = none ∨ ∃ c, p = some c ∧ IdleText c ∧ strip G.space c = c

section
variable {K : Kern} {G : GdbCfg} {pid : Nat} {stops : List StatusKind} {events : Bool} {cs : List Call} {ss : SysState} {g : GSt}

/-- Number of requests to go on among these. -/
def resumesOf (cs : List Call) : Nat := cs.countP fun c => match c with
  | .cont _ _ _ => true
  | _ => false

theorem resumes_eq (log : List Entry) : resumes log = resumesOf (log.map Entry.call) := by
  unfold resumes resumesOf
  rw [List.countP_map]
  rfl

/-- The user is at the prompt, the process was stopped by the signal `pending` (0: none). -/
structure AtPrompt (events : Bool) (pid : Nat) (g : GSt) (cs : List Call) (pending : Nat) : Prop where
  here : ∃ ss, Here events pid g.dbg cs ss
  stopped : (g.dbg.heap 0).isStopped = true
  process : g.process = 0
  last : (g.last 0).getD 0 = pending

/-- The process goes on with the pending signal. -/
theorem contAll_run (hK : RunsOn K pid stops) {pending : Nat} (h : AtPrompt events pid g cs pending) :
    ∃ t ss, contAll K 0 (iterate g.dbg) g = (.ok (), ⟨t, 0, if pending = 0 then g.last else fun i => if i = 0 then none else g.last i⟩) ∧
      Here events pid t (cs ++ [letGo pid (filterSignal pending)]) ss := by
  obtain ⟨ss, hh⟩ := h.here
  obtain ⟨t1, e1, h1⟩ := hh.setSys (f := fun ss => { ss with syscall := none, name := none, nextExit := false })
  have hgo : ∀ n, ∃ t ss, procCont K 0 n t1 = (.ok (), t) ∧ Here events pid t (cs ++ [letGo pid (filterSignal n)]) ss := by
    intro n
    obtain ⟨v, st, hk⟩ := (hK.accepts t1.log 0 (filterSignal n)).1
    obtain ⟨t, h2, h3⟩ := h1.request hk
    have h4 := h3.update (f := fun p => { p with isStopped := false }) fun p => ⟨rfl, rfl, rfl, rfl⟩
    refine ⟨_, _, ?_, h4⟩
    unfold procCont
    rw [h1.pid, Py.run_bind_ok h2]
    rfl
  have hp : pendingSignal { g with dbg := t1 } 0 0 = pending := by
    unfold pendingSignal
    rw [if_pos rfl]
    exact h.last
  have e1' : lift (sysClear 0) g = (.ok (), { g with dbg := t1 }) := by
    unfold lift sysClear
    rw [e1]
  obtain ⟨t, ss', e2, h2⟩ := hgo pending
  refine ⟨t, ss', ?_, h2⟩
  unfold iterate
  rw [hh.list, contAll, Py.run_bind_ok e1']
  rw [Py.run_bind_ok (a := ()) (u := ⟨t, 0, if pending = 0 then g.last else fun i => if i = 0 then none else g.last i⟩)]
  · rfl
  · rw [if_pos h.process.symm]
    unfold continueProcess
    rw [hp]
    by_cases hz : pending = 0
    · rw [if_neg (by simp [hz]), if_pos hz]
      subst hz
      unfold lift
      dsimp only
      rw [e2, h.process]
    · rw [if_pos hz, if_neg hz]
      rw [Py.run_bind_ok (a := ()) (u := ⟨t, 0, g.last⟩) (by
        unfold lift
        dsimp only
        rw [e2, h.process])]
      rfl

theorem filterSignal_handedOn (n : Nat) : filterSignal (handedOn n) = handedOn n := by
  unfold filterSignal handedOn SIGTRAP
  by_cases h : n = 5
  · rw [if_pos h]; rfl
  · rw [if_neg h, if_neg h]

theorem waitAny_one {s : DSt} (h : Here events pid s cs ss) {fuel : Nat} {r : Option Event} {t : DSt}
    (hw : waitEventPid K (fuel + 1) pid true s = (.ok r, t)) : waitSignals K (fuel + 1) [] none s = filterEvent [] r t := by
  unfold waitSignals waitProcessEvent
  dsimp only
  rw [Py.run_bind_ok (a := r) (u := t) (by unfold waitAny; rw [h.dict]; exact hw)]

/-- `cont`, and the process is stopped by a signal. -/
theorem cont_signal (hp : pid ≠ 0) (hK : RunsOn K pid stops) {pending n : Nat} (h : AtPrompt events pid g cs pending)
    (hf : filterSignal pending = pending) (hs : stops[resumesOf cs + 1]? = some (.signal n)) (fuel : Nat) :
    ∃ t, gdbCont K (fuel + 1) 0 g = (.ok true, t) ∧
      AtPrompt events pid t (cs ++ [letGo pid pending, await pid, if n = 5 then Spec.look pid else print pid]) (handedOn n) := by
  obtain ⟨d1, ss1, e1, h1⟩ := contAll_run hK h
  rw [hf] at h1
  obtain ⟨st, hw, hm⟩ := hK.wait d1.log (.signal n) (by
    rw [resumes_eq, h1.log]
    unfold resumesOf at hs ⊢
    rw [List.countP_append]
    exact hs)
  obtain ⟨d2, e2, h2, i2⟩ := h1.waitSignal_of hp hw hm fuel
  have e3 := waitAny_one h1 e2
  have e4 : filterEvent [] (some (Event.signal 0 n)) d2 = (.ok (.signal 0 n), d2) := by
    unfold filterEvent
    simp [Py.pure]
  unfold gdbCont
  rw [Py.run_bind_ok e1]
  generalize hl : (if pending = 0 then g.last else fun i => if i = 0 then none else g.last i) = last
  have hlast : (last 0).getD 0 = 0 := by
    rw [← hl]
    split
    · rw [h.last]; assumption
    · rfl
  rw [Py.run_bind_ok (a := Event.signal 0 n) (u := ⟨d2, 0, last⟩) (by
    unfold lift
    dsimp only
    rw [e3, e4])]
  unfold contSignal handedOn
  dsimp only
  by_cases h5 : n = 5
  · subst h5
    rw [if_pos (show (5 : Nat) = SIGTRAP from rfl), if_pos rfl, if_pos rfl]
    obtain ⟨v, st, hk⟩ := (hK.accepts d2.log 0 0).2.2.2.2
    obtain ⟨d3, e5, h3⟩ := h2.request hk
    have i3 : (d3.heap 0).isStopped = true := by
      unfold ptraceCall sysc Py.bind at e5
      dsimp only at e5
      rw [hk] at e5
      injection e5 with _ e5
      rw [← e5]
      exact i2
    refine ⟨⟨d3, 0, last⟩, ?_, ⟨_, by simpa [Spec.look] using h3⟩, i3, rfl, hlast⟩
    rw [Py.run_bind_ok (a := v) (u := ⟨d3, 0, last⟩)]
    · rfl
    · unfold PT.look lift
      dsimp only
      rw [h2.pid, e5]
  · rw [if_neg (show n ≠ SIGTRAP from h5), if_neg h5, if_neg h5]
    obtain ⟨v, st, hk⟩ := (hK.accepts d2.log 0 0).2.1
    obtain ⟨d3, e5, h3⟩ := h2.request hk
    have i3 : (d3.heap 0).isStopped = true := by
      unfold ptraceCall sysc Py.bind at e5
      dsimp only at e5
      rw [hk] at e5
      injection e5 with _ e5
      rw [← e5]
      exact i2
    refine ⟨⟨d3, 0, fun i => if i = 0 then some n else last i⟩, ?_, ⟨_, by simpa [print] using h3⟩, i3, rfl, rfl⟩
    have e6 : lift (eventDisplay K 0) ⟨d2, 0, last⟩ = (.ok (), ⟨d3, 0, last⟩) := by
      unfold lift eventDisplay
      dsimp only
      rw [h2.pid, Py.run_bind_ok e5]
      rfl
    rw [Py.run_bind_ok (a := ()) (u := ⟨d3, 0, fun i => if i = 0 then some n else last i⟩)]
    · rfl
    · unfold processSignal
      rw [Py.run_bind_ok e6]
      rfl

/-- `cont`, and the process ends. -/
theorem cont_end (hp : pid ≠ 0) (hK : RunsOn K pid stops) {pending : Nat} (h : AtPrompt events pid g cs pending)
    (hf : filterSignal pending = pending) {kind : StatusKind} {a b : Option Nat}
    (hk : (∃ c, kind = .exited c ∧ a = none ∧ b = some c) ∨ ∃ n, kind = .killed n ∧ a = some n ∧ b = none)
    (hs : stops[resumesOf cs + 1]? = some kind) (fuel : Nat) :
    ∃ t, gdbCont K (fuel + 1) 0 g = (.error (.event (.exit 0 a b)), t) ∧ t.dbg.list = [] ∧
      t.dbg.log.map Entry.call = cs ++ [letGo pid pending, await pid] := by
  obtain ⟨d1, ss1, e1, h1⟩ := contAll_run hK h
  rw [hf] at h1
  obtain ⟨st, hw, hm⟩ := hK.wait d1.log kind (by
    rw [resumes_eq, h1.log]
    unfold resumesOf at hs ⊢
    rw [List.countP_append]
    exact hs)
  obtain ⟨d2, e2, h2, _, _, h3⟩ := h1.waitEnd_of hp hk hw hm fuel
  have e3 := waitAny_one h1 e2
  generalize hl : (if pending = 0 then g.last else fun i => if i = 0 then none else g.last i) = last at e1
  refine ⟨⟨d2, 0, last⟩, ?_, h2, by rw [h3]; simp⟩
  unfold gdbCont
  rw [Py.run_bind_ok e1]
  rw [Py.run_bind_error]
  unfold lift
  dsimp only
  rw [e3]
  rfl

theorem cont_line (K : Kern) (fuel : Nat) (G : GdbCfg) (hG : strip G.space "cont".toList = "cont".toList) (p : Option Str) (g : GSt) :
    (∀ b t, gdbCont K fuel 0 g = (.ok b, t) →
      mainLine (gdbExecute K fuel G) (gdbExcept K fuel G) G.space "cont".toList (p, g) = (.ok false, (if b then some "cont".toList else none, t))) ∧
    (∀ e t u, gdbCont K fuel 0 g = (.error e, t) → gdbExcept K fuel G e t = (.ok (), u) →
      mainLine (gdbExecute K fuel G) (gdbExcept K fuel G) G.space "cont".toList (p, g) = (.ok false, (none, u))) := by
  have hq : ("cont".toList : Str) ≠ quitText := by decide
  have hsp : splitOn ';' ("cont".toList) = ["cont".toList] := by decide
  have hx : gdbExecute K fuel G "cont".toList = gdbCont K fuel 0 := by
    unfold gdbExecute parseCommand
    rw [if_pos rfl]
    rfl
  constructor
  · intro b t e
    unfold mainLine
    rw [if_neg hq, hsp]
    dsimp only
    rw [runLine, hG, hx, Py.run_bind_ok e]
    cases b <;> rfl
  · intro x t u e e'
    unfold mainLine
    rw [if_neg hq, hsp]
    dsimp only
    rw [runLine, hG, hx, Py.run_bind_error e]
    dsimp only
    rw [e']

/-- A command that is not `cont` leaves everything as it is. -/
theorem idle_line (K : Kern) (fuel : Nat) (G : GdbCfg) {c : Str} (hc : IdleText c) (hs : strip G.space c = c) (p : Option Str) (g : GSt) :
    ∃ q, mainLine (gdbExecute K fuel G) (gdbExcept K fuel G) G.space c (p, g) = (.ok false, (q, g)) ∧ Repeats G false q := by
  obtain ⟨_, hq, hsemi, hcmd⟩ := id hc
  unfold mainLine
  rw [if_neg hq, splitOn_none hsemi]
  dsimp only
  rw [runLine, hs]
  unfold gdbExecute
  rcases hcmd with h | h
  · rw [h]
    exact ⟨some c, rfl, Or.inr ⟨c, rfl, hc, hs⟩⟩
  · rw [h]
    exact ⟨none, rfl, Or.inl rfl⟩

theorem interrupt_stopped (K : Kern) (fuel : Nat) {pending : Nat} (h : AtPrompt events pid g cs pending) : gdbInterrupt K fuel g = (.ok (), g) := by
  obtain ⟨ss, hh⟩ := h.here
  unfold gdbInterrupt iterate lift
  have e : interruptSend K g.dbg.list g.dbg = (.ok [], g.dbg) := by
    rw [hh.list]
    unfold interruptSend
    rw [if_pos h.stopped]
    rfl
  rw [Py.run_bind_ok e]
  rfl

/-- A line that lets the process go on is `cont`. -/
theorem loop_resumes (K : Kern) (fuel : Nat) (G : GdbCfg) {input : Input} {m : Move} {prev : Bool} {p : Option Str} (hi : Types G input m)
    (hr : Repeats G prev p) (hm : m.resumes prev = true) (g : GSt) : gdbLoop K fuel G input (p, g) =
      mainLine (gdbExecute K fuel G) (gdbExcept K fuel G) G.space "cont".toList (p, g) := by
  unfold gdbLoop
  cases m with
  | cont =>
    cases input with
    | line text =>
      have h : strip G.space text = "cont".toList := hi
      unfold mainLoop
      dsimp only
      rw [h]
      rfl
    | eof => exact hi.elim
    | interrupt => exact hi.elim
  | again =>
    cases input with
    | line text =>
      have h : strip G.space text = [] := hi
      have hm : prev = true := hm
      subst hm
      have hr : p = some "cont".toList := hr
      subst hr
      unfold mainLoop
      dsimp only
      rw [h]
      rfl
    | eof => exact hi.elim
    | interrupt => exact hi.elim
  | idle => cases hm
  | interrupt => cases hm

/-- Any other line leaves everything as it is. -/
theorem loop_idle (K : Kern) (fuel : Nat) (G : GdbCfg) {input : Input} {m : Move} {prev : Bool} {p : Option Str} (hi : Types G input m)
    (hr : Repeats G prev p) (hm : m.resumes prev = false) {pending : Nat} (h : AtPrompt events pid g cs pending) :
    ∃ q, gdbLoop K fuel G input (p, g) = (.ok false, (q, g)) ∧ Repeats G (m.after prev) q := by
  unfold gdbLoop
  cases m with
  | cont => cases hm
  | idle =>
    cases input with
    | line text =>
      have ht : IdleText (strip G.space text) := hi
      unfold mainLoop
      dsimp only
      rw [if_neg (by rw [List.isEmpty_iff]; exact ht.1)]
      exact idle_line K fuel G ht (strip_idem _ _) p g
    | eof => exact hi.elim
    | interrupt => exact hi.elim
  | again =>
    cases input with
    | line text =>
      have ht : strip G.space text = [] := hi
      have hm : prev = false := hm
      subst hm
      unfold mainLoop
      dsimp only
      rw [ht, if_pos (show ([] : Str).isEmpty = true from rfl)]
      rcases (show p = none ∨ _ from hr) with rfl | ⟨c, rfl, hc, hs⟩
      · exact ⟨none, rfl, Or.inl rfl⟩
      · dsimp only
        rw [if_neg (by rw [List.isEmpty_iff]; exact hc.1)]
        exact idle_line K fuel G hc hs _ g
    | eof => exact hi.elim
    | interrupt => exact hi.elim
  | interrupt =>
    cases input with
    | line text => exact hi.elim
    | eof => exact hi.elim
    | interrupt =>
      refine ⟨p, ?_, hr⟩
      unfold mainLoop
      dsimp only
      rw [interrupt_stopped K fuel h]

theorem resumesOf_step (cs : List Call) (pid pending : Nat) (c : Call) (hc : c = Spec.look pid ∨ c = print pid) :
    resumesOf (cs ++ [letGo pid pending, await pid, c]) = resumesOf cs + 1 := by
  unfold resumesOf
  rw [List.countP_append]
  rcases hc with rfl | rfl <;> rfl

theorem gdbLines_read (K : Kern) (fuel : Nat) (G : GdbCfg) (input : Input) (rest : List Input) {s : Option Str × GSt} (h : length s.2.dbg ≠ 0) :
    gdbLines K fuel G (input :: rest) s =
      Py.bind (gdbLoop K fuel G input) (fun done => if done then Py.pure rest else gdbLines K fuel G rest) s := by
  rw [gdbLines]
  exact if_neg h

theorem gdbLines_done (K : Kern) (fuel : Nat) (G : GdbCfg) (inputs : List Input) {s : Option Str × GSt} (h : length s.2.dbg = 0) :
    gdbLines K fuel G inputs s = (.ok inputs, s) := by
  cases inputs <;> (rw [gdbLines]; exact if_pos h)

theorem session_cons (pid : Nat) (prev : Bool) (pending : Nat) (signals : List Nat) (m : Move) (ms : List Move) :
    session pid prev pending signals (m :: ms) =
      if m.resumes prev then
        match signals with
        | [] => ([letGo pid pending, await pid], some ms)
        | n :: ns =>
          (letGo pid pending :: await pid :: (if n = 5 then Spec.look pid else print pid) :: (session pid true (handedOn n) ns ms).1,
            (session pid true (handedOn n) ns ms).2)
      else session pid (m.after prev) pending signals ms := by
  rw [session.eq_def]
  rfl

theorem session_run (hp : pid ≠ 0) (hK : RunsOn K pid stops) (hG : strip G.space "cont".toList = "cont".toList) {kind : StatusKind}
    {a b : Option Nat} (hk : (∃ c, kind = .exited c ∧ a = none ∧ b = some c) ∨ ∃ n, kind = .killed n ∧ a = some n ∧ b = none) (fuel : Nat) :
    ∀ (inputs : List Input) (moves : List Move) (signals : List Nat) (g : GSt) (p : Option Str) (prev : Bool) (pending : Nat) (cs : List Call),
      List.Forall₂ (Types G) inputs moves → Repeats G prev p → AtPrompt events pid g cs pending → filterSignal pending = pending →
      (∀ i k, (signals.map StatusKind.signal ++ [kind])[i]? = some k → stops[resumesOf cs + 1 + i]? = some k) →
      ∃ rest q t, gdbLines K (fuel + 1) G inputs (p, g) = (.ok rest, (q, t)) ∧
        t.dbg.log.map Entry.call = cs ++ (session pid prev pending signals moves).1 ∧
        (match (session pid prev pending signals moves).2 with
        | some ms => List.Forall₂ (Types G) rest ms ∧ t.dbg.list = []
        | none => rest = [] ∧ ∃ pending', AtPrompt events pid t (cs ++ (session pid prev pending signals moves).1) pending') := by
  intro inputs
  induction inputs with
  | nil =>
    intro moves signals g p prev pending cs hi _ h _ _
    cases hi
    obtain ⟨ss, hh⟩ := id h.here
    refine ⟨[], p, g, ?_, by rw [session]; simp [hh.log], rfl, pending, by rw [session]; simpa using h⟩
    unfold gdbLines
    rw [if_neg (show ¬length g.dbg = 0 by unfold length; rw [hh.list]; decide)]
    rfl
  | cons input inputs ih =>
    intro moves signals g p prev pending cs hi hr h hf hs
    cases hi with
    | @cons _ m _ ms hi his =>
    obtain ⟨ss, hh⟩ := id h.here
    rw [gdbLines_read K (fuel + 1) G input inputs (show length g.dbg ≠ 0 by unfold length; rw [hh.list]; decide)]
    rw [session_cons]
    cases hm : m.resumes prev with
    | false =>
      rw [if_neg (by decide)]
      obtain ⟨q, e, hq⟩ := loop_idle K (fuel + 1) G hi hr hm h
      rw [Py.run_bind_ok e, if_neg (by decide)]
      exact ih ms signals g q _ pending cs his hq h hf hs
    | true =>
      rw [if_pos rfl]
      have e := loop_resumes K (fuel + 1) G hi hr hm g
      cases signals with
      | nil =>
        obtain ⟨t, e1, h1, h2⟩ := cont_end hp hK h hf hk (hs 0 kind rfl) fuel
        have e2 : gdbLoop K (fuel + 1) G input (p, g) = (.ok false, (none, t)) := by
          rw [e, (cont_line K (fuel + 1) G hG p g).2 _ _ t e1]
          unfold gdbExcept nextProcess iterate
          dsimp only
          rw [h1]
        refine ⟨inputs, none, t, ?_, h2, his, h1⟩
        rw [Py.run_bind_ok e2, if_neg (by decide)]
        exact gdbLines_done K (fuel + 1) G inputs (show length t.dbg = 0 by unfold length; rw [h1]; rfl)
      | cons n ns =>
        obtain ⟨t, e1, h1⟩ := cont_signal hp hK h hf (hs 0 (.signal n) rfl) fuel
        have e2 : gdbLoop K (fuel + 1) G input (p, g) = (.ok false, (some "cont".toList, t)) := by
          rw [e, (cont_line K (fuel + 1) G hG p g).1 _ _ e1]
          rfl
        rw [Py.run_bind_ok e2, if_neg (by decide)]
        have hc : resumesOf (cs ++ [letGo pid pending, await pid, if n = 5 then Spec.look pid else print pid]) = resumesOf cs + 1 :=
          resumesOf_step _ _ _ _ (by split <;> simp)
        obtain ⟨rest, q, u, e3, h3, h4⟩ := ih ms ns t _ true (handedOn n) _ his rfl h1 (filterSignal_handedOn n) (fun i k hik => by
          rw [hc]
          have := hs (i + 1) k (by simpa using hik)
          rwa [show resumesOf cs + 1 + 1 + i = resumesOf cs + 1 + (i + 1) by omega])
        refine ⟨rest, q, u, e3, by rw [h3]; simp, ?_⟩
        dsimp only
        cases hss : (session pid true (handedOn n) ns ms).2 with
        | some ms' => rw [hss] at h4; exact h4
        | none =>
          rw [hss] at h4
          obtain ⟨h5, pend, h6⟩ := h4
          exact ⟨h5, pend, by simpa using h6⟩

end

/-! ## the theorems -/

/-- **C129** (one process, no events). For every program, every ending and everything the user types: a session of gdb.py makes exactly the
requests of `session`, and ends by itself when the program ends: what the user types after that is not read, and quitting asks for nothing. -/
theorem C129_run_partial (K : Kern) (G : GdbCfg) (pid : Nat) (hp : pid ≠ 0) (events attached : Bool) (first : Nat) (hn : first = 5 ∨ first = 19)
    (signals : List Nat) (kind : StatusKind) (hk : (∃ c, kind = .exited c) ∨ ∃ n, kind = .killed n)
    (hK : RunsOn K pid (sessionStops first signals kind)) (hG : strip G.space "cont".toList = "cont".toList)
    (inputs : List Input) (moves : List Move) (hi : List.Forall₂ (Types G) inputs moves) (ms : List Move)
    (he : (session pid false 0 signals moves).2 = some ms) (fuel : Nat) :
    ∃ rest t, gdbMain K (fuel + 1) G pid attached inputs (startState events) = (.ok (some rest), t) ∧ List.Forall₂ (Types G) rest ms ∧ t.list = [] ∧
      t.log.map Entry.call = sessionStart pid attached (if events then 17 else 1) ++ (session pid false 0 signals moves).1 := by
  obtain ⟨a, b, hk⟩ : ∃ a b, (∃ c, kind = .exited c ∧ a = none ∧ b = some c) ∨ ∃ n, kind = .killed n ∧ a = some n ∧ b = none := by
    rcases hk with ⟨c, rfl⟩ | ⟨n, rfl⟩
    · exact ⟨none, some c, Or.inl ⟨c, rfl, rfl, rfl⟩⟩
    · exact ⟨some n, none, Or.inr ⟨n, rfl, rfl, rfl⟩⟩
  obtain ⟨s1, ss1, e1, h1, _, i1⟩ := start_step_of (K := K) (events := events) hp attached hn (hK.accepts _ 0 0).2.2.2.1
    (fun log hl => hK.wait log (.signal first) (by rw [resumes_eq, hl]; cases attached <;> rfl)) (fun log => (hK.accepts log 0 _).2.2.1) fuel
  have hz : resumesOf ((if attached then [] else [Call.attach 0 pid]) ++ [await pid, .setoptions 0 pid (if events then 17 else 1)]) = 0 := by
    cases attached <;> rfl
  obtain ⟨rest, q, t, e2, h2, h3⟩ := session_run (events := events) hp hK hG hk fuel inputs moves signals ⟨s1, 0, fun _ => none⟩ none false 0 _ hi
    (Or.inl rfl) ⟨⟨ss1, h1⟩, i1, rfl, rfl⟩ rfl (fun i k hik => by rw [hz, Nat.zero_add, Nat.add_comm 1 i]; exact hik)
  rw [he] at h3
  refine ⟨rest, t.dbg, ?_, h3.1, h3.2, h2⟩
  have e3 : gdbRun K (fuel + 1) G pid attached inputs (startState events) = (.ok rest, t.dbg) := by
    unfold gdbRun
    rw [Py.run_bind_ok e1]
    dsimp only
    rw [e2]
  unfold gdbMain
  rw [e3]
  dsimp only
  rw [Py.run_bind_ok (m := Py.pure (some rest)) (a := some rest) (u := t.dbg) rfl, Py.run_bind_ok (a := ()) (u := t.dbg)]
  · rfl
  · unfold quit
    rw [h3.2]
    rfl

/-- As long as the program has not ended, it is stopped when the user is asked, and has made the stops the user let it make. -/
theorem C129_prompt_partial (K : Kern) (G : GdbCfg) (pid : Nat) (hp : pid ≠ 0) (events attached : Bool) (first : Nat) (hn : first = 5 ∨ first = 19)
    (signals : List Nat) (kind : StatusKind) (hk : (∃ c, kind = .exited c) ∨ ∃ n, kind = .killed n)
    (hK : RunsOn K pid (sessionStops first signals kind)) (hG : strip G.space "cont".toList = "cont".toList)
    (inputs : List Input) (moves : List Move) (hi : List.Forall₂ (Types G) inputs moves)
    (he : (session pid false 0 signals moves).2 = none) (fuel : Nat) :
    ∃ s q t, createProcess K (fuel + 1) pid attached (startState events) = (.ok (some 0), s) ∧
      gdbLines K (fuel + 1) G inputs (none, ⟨s, 0, fun _ => none⟩) = (.ok [], (q, t)) ∧ t.dbg.list = [0] ∧ t.process = 0 ∧
      (t.dbg.heap 0).pid = pid ∧ (t.dbg.heap 0).isStopped = true ∧
      t.dbg.log.map Entry.call = sessionStart pid attached (if events then 17 else 1) ++ (session pid false 0 signals moves).1 := by
  obtain ⟨a, b, hk⟩ : ∃ a b, (∃ c, kind = .exited c ∧ a = none ∧ b = some c) ∨ ∃ n, kind = .killed n ∧ a = some n ∧ b = none := by
    rcases hk with ⟨c, rfl⟩ | ⟨n, rfl⟩
    · exact ⟨none, some c, Or.inl ⟨c, rfl, rfl, rfl⟩⟩
    · exact ⟨some n, none, Or.inr ⟨n, rfl, rfl, rfl⟩⟩
  obtain ⟨s1, ss1, e1, h1, _, i1⟩ := start_step_of (K := K) (events := events) hp attached hn (hK.accepts _ 0 0).2.2.2.1
    (fun log hl => hK.wait log (.signal first) (by rw [resumes_eq, hl]; cases attached <;> rfl)) (fun log => (hK.accepts log 0 _).2.2.1) fuel
  have hz : resumesOf ((if attached then [] else [Call.attach 0 pid]) ++ [await pid, .setoptions 0 pid (if events then 17 else 1)]) = 0 := by
    cases attached <;> rfl
  obtain ⟨rest, q, t, e2, h2, h3⟩ := session_run (events := events) hp hK hG hk fuel inputs moves signals ⟨s1, 0, fun _ => none⟩ none false 0 _ hi
    (Or.inl rfl) ⟨⟨ss1, h1⟩, i1, rfl, rfl⟩ rfl (fun i k hik => by rw [hz, Nat.zero_add, Nat.add_comm 1 i]; exact hik)
  rw [he] at h3
  obtain ⟨rfl, pend, hpr⟩ := h3
  obtain ⟨ss, hh⟩ := hpr.here
  exact ⟨s1, q, t, e1, e2, hh.list, hpr.process, hh.pid, hpr.stopped, h2⟩

/-- The signals the program gets in such a session are those it was stopped by, each one once and in order, signal 5 left out. -/
theorem session_delivered (pid : Nat) : ∀ (moves : List Move) (prev : Bool) (pending : Nat) (signals : List Nat) (ms : List Move),
    (session pid prev pending signals moves).2 = some ms →
    delivered (session pid prev pending signals moves).1 = pending :: signals.map fun n => if n = 5 then 0 else n := by
  intro moves
  induction moves with
  | nil => intro prev pending signals ms h; rw [session] at h; cases h
  | cons m moves ih =>
    intro prev pending signals ms h
    rw [session_cons] at h ⊢
    split
    · rename_i hm
      rw [if_pos hm] at h
      cases signals with
      | nil => rfl
      | cons n ns =>
        dsimp only at h ⊢
        have := ih _ _ _ _ h
        rw [letGo, delivered, await, delivered, List.map_cons]
        · split <;> (simp only [Spec.look, print, delivered]; rw [this]; simp_all [handedOn])
        all_goals (intros; contradiction)
    · rename_i hm
      rw [if_neg hm] at h
      exact ih _ _ _ _ h

theorem C129_delivery_partial (K : Kern) (G : GdbCfg) (pid : Nat) (hp : pid ≠ 0) (events attached : Bool) (first : Nat)
    (hn : first = 5 ∨ first = 19) (signals : List Nat) (kind : StatusKind) (hk : (∃ c, kind = .exited c) ∨ ∃ n, kind = .killed n)
    (hK : RunsOn K pid (sessionStops first signals kind)) (hG : strip G.space "cont".toList = "cont".toList)
    (inputs : List Input) (moves : List Move) (hi : List.Forall₂ (Types G) inputs moves) (ms : List Move)
    (he : (session pid false 0 signals moves).2 = some ms) (fuel : Nat) :
    delivered ((gdbMain K (fuel + 1) G pid attached inputs (startState events)).2.log.map Entry.call) =
      0 :: signals.map fun n => if n = 5 then 0 else n := by
  obtain ⟨rest, t, e, _, _, hl⟩ := C129_run_partial K G pid hp events attached first hn signals kind hk hK hG inputs moves hi ms he fuel
  rw [e, hl]
  have hd : ∀ cs, delivered (sessionStart pid attached (if events then 17 else 1) ++ cs) = delivered cs := by
    intro cs
    cases attached <;> simp [sessionStart, delivered, await]
  rw [hd]
  exact session_delivered _ _ _ _ _ _ he

/-! ## a session, and what goes wrong with events and with two processes -/

/-- A kernel with one process that makes these stops, one after each request to go on. -/
def contKern (pid : Nat) (stops : List StatusKind) : Kern := fun log c =>
  match c, stops[resumes log]? with
  | .waitpid _ _ _, some kind => .ok pid (statusOf kind)
  | .waitpid _ _ _, none => .err 10
  | _, _ => .ok 0 0

theorem contKern_runs (pid : Nat) (stops : List StatusKind) (h : ∀ x ∈ stops, waitMeaning (statusOf x) = x) : RunsOn (contKern pid stops) pid stops where
  wait log kind hs := ⟨statusOf kind, by unfold contKern await; rw [hs], h kind (List.mem_of_getElem? hs)⟩
  accepts log o n := by
    unfold contKern
    cases stops[resumes log]? <;> exact ⟨⟨_, _, rfl⟩, ⟨_, _, rfl⟩, ⟨_, _, rfl⟩, ⟨_, _, rfl⟩, ⟨_, _, rfl⟩⟩

/-- No expressions; the process of an error is the one of the last request. -/
def sessionCfg : GdbCfg where
  space c := c == ' '
  parse _ _ := .error .value
  signals := []
  errPid s := match s.log.getLast? with
    | some ⟨.cont _ pid _, _, _⟩ => pid
    | _ => 0
  sys := { name := fun _ => "read".toList, ignore := fun _ => false }

/-- The program is stopped by `SIGUSR1`, by a trap and by `SIGTERM`; the user types more than is needed. -/
def exInputs : List Input :=
  [.line "help".toList, .line [], .interrupt, .line " cont ".toList, .line [], .line "what".toList, .line [], .line "cont".toList, .interrupt, .line [],
    .line "cont".toList]
def exMoves : List Move := [.idle, .again, .interrupt, .cont, .again, .idle, .again, .cont, .interrupt, .again, .cont]

theorem exInputs_types : List.Forall₂ (Types sessionCfg) exInputs exMoves := by
  have help : IdleText (strip sessionCfg.space "help".toList) := by
    rw [show strip sessionCfg.space "help".toList = "help".toList by decide +kernel]
    exact ⟨by decide, by decide, by decide, Or.inl (by decide +kernel)⟩
  have what : IdleText (strip sessionCfg.space "what".toList) := by
    rw [show strip sessionCfg.space "what".toList = "what".toList by decide +kernel]
    exact ⟨by decide, by decide, by decide, Or.inr (by decide +kernel)⟩
  have c1 : strip sessionCfg.space " cont ".toList = "cont".toList := by decide +kernel
  have c2 : strip sessionCfg.space "cont".toList = "cont".toList := by decide +kernel
  have e : strip sessionCfg.space [] = [] := by decide +kernel
  exact .cons help (.cons e (.cons trivial (.cons c1 (.cons e (.cons what (.cons e (.cons c2 (.cons trivial (.cons e (.cons c2 .nil))))))))))

example : (session 42 false 0 [10, 5, 15] exMoves) =
    ([letGo 42 0, await 42, print 42, letGo 42 10, await 42, Spec.look 42, letGo 42 0, await 42, print 42, letGo 42 15, await 42], some [.cont]) := by decide

example : ∃ rest t, gdbMain (contKern 42 (sessionStops 5 [10, 5, 15] (.killed 15))) (8 + 1) sessionCfg 42 true exInputs (startState true) = (.ok (some rest), t) ∧
    List.Forall₂ (Types sessionCfg) rest [.cont] ∧ t.list = [] ∧
    t.log.map Entry.call = sessionStart 42 true 17 ++ (session 42 false 0 [10, 5, 15] exMoves).1 :=
  C129_run_partial _ _ 42 (by decide) true true 5 (Or.inl rfl) [10, 5, 15] _ (Or.inr ⟨15, rfl⟩) (contKern_runs _ _ (by decide +kernel)) (by decide +kernel)
    exInputs exMoves exInputs_types [.cont] (by decide) 8

example : delivered ((gdbMain (contKern 42 (sessionStops 19 [10, 5, 15] (.exited 3))) (8 + 1) sessionCfg 42 false exInputs (startState false)).2.log.map
    Entry.call) = [0, 10, 0, 15] :=
  C129_delivery_partial _ _ 42 (by decide) false false 19 (Or.inr rfl) [10, 5, 15] _ (Or.inl ⟨3, rfl⟩) (contKern_runs _ _ (by decide +kernel))
    (by decide +kernel) exInputs exMoves exInputs_types [.cont] (by decide) 8

example := C129_prompt_partial (contKern 42 (sessionStops 19 [10, 5, 15, 2, 3] (.exited 3))) sessionCfg 42 (by decide) false false 19 (Or.inr rfl)
  [10, 5, 15, 2, 3] _ (Or.inl ⟨3, rfl⟩) (contKern_runs _ _ (by decide +kernel)) (by decide +kernel) exInputs exMoves exInputs_types (by decide) 8

/-- With `--trace-exec`: after the event the process stays stopped until it is let go on. The user interrupts when nothing more happens. -/
def execKern : Kern := fun log c =>
  match c with
  | .waitpid _ _ _ =>
    if log.any fun e => decide (e.call = .kill 0 42 2) then .interrupt
    else if resumes log = 0 then .ok 42 (statusOf (.signal 5)) else .ok 42 (statusOf (.event 4))
  | _ => .ok 0 0

/-- **C129 refuted** with events for `execve`: gdb.py takes the process for a running one (the event does not mark it as stopped, and the state
letter of a traced process is `t`, C102), sends it `SIGINT` and waits for it. The process was not let go on since the event, so this waits
until the user interrupts it. -/
theorem C129_exec_refuted :
    sessionStart 42 true 17 ++ [letGo 42 0, await 42, Spec.look 42, .kill 0 42 2, await 42] <+:
      (gdbMain execKern 9 sessionCfg 42 true [.line "cont".toList] (startState true)).2.log.map Entry.call := by decide +kernel

/-- How often a process was let go on, and how often it was reported. -/
def goesOn (log : List Entry) (pid : Nat) : Nat := log.countP fun e => match e with
  | ⟨.cont _ p _, .ok _ _, _⟩ => p == pid
  | _ => false
def reports (log : List Entry) (pid : Nat) : Nat := log.countP fun e => match e with
  | ⟨.waitpid _ _ _, .ok p _, _⟩ => p == pid
  | _ => false

/-- Does it run? It stops when it is reported. -/
def isRunning (log : List Entry) (pid : Nat) : Bool := decide (reports log pid ≤ goesOn log pid)

/-- Two processes; each one is stopped first, process 42 later by `SIGUSR1`. As `ptrace(2)` says, a request to a running process is refused with
`ESRCH`. -/
def pairKern : Kern := fun log c =>
  match c with
  | .cont _ pid _ => if isRunning log pid then .err 3 else .ok 0 0
  | .waitpid (some pid) _ _ =>
    if isRunning log pid then
      match (if pid = 42 then [5, 10] else [5])[reports log pid]? with
      | some n => .ok pid (statusOf (.signal n))
      | none => .ok 0 0
    else .ok 0 0
  | _ => .ok 0 0

/-- The debugger of the two processes, its own children. -/
def pairState : GSt :=
  ⟨(createProcess pairKern 9 43 true (createProcess pairKern 9 42 true newDebugger).2).2, 0, fun _ => none⟩

/-- **C129 refuted** with two processes: `cont` sends a request to each process, stopped or not. Process 43 still runs at the second `cont`: the
kernel says `ESRCH`, and gdb.py takes it for dead. It forgets it and does not wait, so at the third `cont` process 42 runs, too, and is
forgotten as well. Now there is no process left and the session is over: both processes run, neither was killed or detached. -/
theorem C129_forgotten_refuted :
    pairState.dbg.list = [0, 1] ∧
    (gdbLines pairKern 9 sessionCfg [.line "cont".toList] (none, pairState)).2.2.dbg.list = [0, 1] ∧
    (gdbLines pairKern 9 sessionCfg [.line "cont".toList, .line []] (none, pairState)).2.2.dbg.list = [0] ∧
    (gdbLines pairKern 9 sessionCfg [.line "cont".toList, .line [], .line "cont".toList, .line "help".toList] (none, pairState)).1 =
      .ok [.line "help".toList] ∧
    (gdbLines pairKern 9 sessionCfg [.line "cont".toList, .line [], .line "cont".toList, .line "help".toList] (none, pairState)).2.2.dbg.list = [] ∧
    (gdbLines pairKern 9 sessionCfg [.line "cont".toList, .line [], .line "cont".toList] (none, pairState)).2.2.dbg.log.map
      (fun e => (e.call, match e.reply with
        | .err n => n
        | _ => 0)) =
      [(await 42, 0), (.setoptions 0 42 1, 0), (await 43, 0), (.setoptions 1 43 1, 0)] ++
      [(.cont 0 42 0, 0), (.cont 1 43 0, 0), (.waitpid (some 42) true false, 0), (.display 0 42, 0)] ++
      [(.cont 0 42 10, 0), (.cont 1 43 0, 3)] ++
      [(.cont 0 42 0, 3)] ∧
    (∀ pid ∈ [42, 43], isRunning (gdbLines pairKern 9 sessionCfg [.line "cont".toList, .line [], .line "cont".toList] (none, pairState)).2.2.dbg.log
      pid = true) := by
  refine ⟨?_, ?_, ?_, ?_, ?_, ?_, ?_⟩ <;> decide +kernel

end PT
