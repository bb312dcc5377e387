import Verif.Lemmas.Prompt

/-! C133: everything a user can type about a program of one process. -/

namespace PT
open PT.Spec

/-- The name of the call with which a new program begins. -/
def isExecve (G : GdbCfg) (regs : Nat) : Bool := decide (G.sys.name regs = execveName)

/-- The commands of a line, as they are typed. -/
def NamesAll (G : GdbCfg) (pid : Nat) (c : Str) (as : List Cmd) : Prop :=
  List.Forall₂ (fun c a => Names G pid (strip G.space c) a) (splitOn ';' c) as

/-- What the user types. -/
def TypedAs (G : GdbCfg) (pid : Nat) : Input → Typed → Prop
  | .line text, .line as => strip G.space text ≠ [] ∧ strip G.space text ≠ quitText ∧ NamesAll G pid (strip G.space text) as
  | .line text, .again => strip G.space text = []
  | .line text, .quit => strip G.space text = quitText
  | .eof, .quit => True
  | .interrupt, .interrupt => True
  | _, _ => False

/-- What an empty line repeats. -/
def WouldRepeat (G : GdbCfg) (pid : Nat) (prev : Option (List Cmd)) (p : Option Str) : Prop :=
  match prev with
  | none => p = none
  | some as => ∃ c, p = some c ∧ c ≠ [] ∧ c ≠ quitText ∧ NamesAll G pid c as

section
variable {K : Kern} {G : GdbCfg} {pid : Nat} {P : Story} {events : Bool} {g : GSt} {T : Table}

/-- What a line does. -/
def Turns (G : GdbCfg) (events : Bool) (pid : Nat) (m : Except Exc Bool × (Option Str × GSt)) : Turn → Prop
  | .prompt prev T => m.1 = .ok false ∧ WouldRepeat G pid prev m.2.1 ∧ Sits events pid G.sys.name m.2.2 T
  | .over T => m.1 = .ok false ∧ m.2.2.dbg.list = [] ∧ m.2.2.dbg.log.map Entry.call = T.made
  | .failed T => (∃ a b, m.1 = .error (.event (.exit 0 a b))) ∧ m.2.2.dbg.list = [] ∧ m.2.2.dbg.log.map Entry.call = T.made
  | .unknown => True

/-- Running after a wait was interrupted, or at the prompt. -/
theorem interrupt_turn (hp : pid ≠ 0) (hK : Plays K pid P) (h : Sits events pid G.sys.name g T) (fuel : Nat) {prev : Option (List Cmd)} {p : Option Str}
    (hpr : WouldRepeat G pid prev p) :
    Turns G events pid (match gdbInterrupt K (fuel + 1) g with
      | (.ok _, u) => (.ok false, (p, u))
      | (.error e', u) => (.error e', (p, u)))
      (match interrupt P pid T with
      | .ready _ T => .prompt prev T
      | .ended T => .failed T
      | _ => .unknown) := by
  have key := interrupt_leads hp hK h fuel
  generalize interrupt P pid T = r at key ⊢
  cases hm : gdbInterrupt K (fuel + 1) g with
  | mk x u =>
    cases x with
    | ok a =>
      rw [Py.run_bind_ok hm] at key
      cases r with
      | ready ok T => exact ⟨rfl, hpr, key.2⟩
      | ended T => obtain ⟨⟨a, b, h1⟩, _⟩ := key; cases h1
      | signal n T => trivial
      | ctrlC T => trivial
      | unknown => trivial
    | error e =>
      rw [Py.run_bind_error hm] at key
      cases r with
      | ready ok T => exact absurd key.1 (by intro h; cases h)
      | ended T =>
        obtain ⟨⟨a, b, h1⟩, h2, h3, _⟩ := key
        exact ⟨⟨a, b, by injection h1 with h1; rw [h1]⟩, h2, h3⟩
      | signal n T => trivial
      | ctrlC T => trivial
      | unknown => trivial

/-- A line. -/
theorem mainLine_turn (hp : pid ≠ 0) (hK : Plays K pid P) (h : Sits events pid G.sys.name g T) (fuel : Nat) {c : Str} {as : List Cmd}
    (hc : c ≠ []) (hq : c ≠ quitText) (hn : NamesAll G pid c as) (p : Option Str) :
    Turns G events pid (mainLine (gdbExecute K (fuel + 1) G) (gdbExcept K (fuel + 1) G) G.space c (p, g))
      (line P pid (isExecve G) events as T) := by
  have key := line_leads (G := G) (events := events) hp hK fuel (splitOn ';' c) as g T h hn
  unfold mainLine line
  rw [if_neg hq]
  dsimp only
  unfold isExecve
  generalize acts P pid (fun regs => decide (G.sys.name regs = execveName)) events as T = r at key ⊢
  generalize runLine (gdbExecute K (fuel + 1) G) G.space (splitOn ';' c) g = m at key ⊢
  obtain ⟨x, t⟩ := m
  cases r with
  | ready ok T1 =>
    obtain ⟨e, h1⟩ := key
    dsimp only at e h1
    subst e
    refine ⟨rfl, ?_, h1⟩
    cases ok with
    | true => exact ⟨c, rfl, hc, hq, hn⟩
    | false => rfl
  | signal n T1 =>
    obtain ⟨e, h1⟩ := key
    dsimp only at e h1
    subst e
    obtain ⟨g2, e2, h2⟩ := sits_signal hK h1 n
    unfold gdbExcept
    dsimp only
    rw [e2]
    exact ⟨rfl, rfl, h2⟩
  | ctrlC T1 =>
    obtain ⟨e, h1⟩ := key
    dsimp only at e h1
    subst e
    have key := interrupt_turn (prev := none) (p := none) hp hK h1 fuel rfl
    unfold gdbExcept
    dsimp only
    generalize interrupt P pid T1 = r at key ⊢
    generalize gdbInterrupt K (fuel + 1) t = m at key ⊢
    obtain ⟨x, u⟩ := m
    cases r <;> cases x <;> exact key
  | ended T1 =>
    obtain ⟨⟨a, b, e⟩, h1, h2, _⟩ := key
    dsimp only at e h1 h2
    subst e
    have e2 : gdbExcept K (fuel + 1) G (.event (.exit 0 a b)) t = (.ok (), t) := by
      unfold gdbExcept nextProcess iterate
      dsimp only
      rw [h1]
    dsimp only
    rw [e2]
    exact ⟨rfl, h1, h2⟩
  | unknown => trivial

/-- One thing typed. -/
theorem loop_turn (hp : pid ≠ 0) (hK : Plays K pid P) (h : Sits events pid G.sys.name g T) (fuel : Nat) {input : Input} {x : Typed}
    (hx : TypedAs G pid input x) (hq : x ≠ .quit) {prev : Option (List Cmd)} {p : Option Str} (hpr : WouldRepeat G pid prev p) :
    Turns G events pid (gdbLoop K (fuel + 1) G input (p, g)) (typed P pid (isExecve G) events prev T x) := by
  unfold gdbLoop
  cases x with
  | line as =>
    cases input with
    | line text =>
      obtain ⟨h1, h2, h3⟩ := hx
      unfold mainLoop
      dsimp only
      rw [if_neg (by rw [List.isEmpty_iff]; exact h1)]
      exact mainLine_turn hp hK h fuel h1 h2 h3 p
    | eof => exact hx.elim
    | interrupt => exact hx.elim
  | again =>
    cases input with
    | line text =>
      have hx : strip G.space text = [] := hx
      unfold mainLoop typed
      dsimp only
      rw [hx, if_pos (show ([] : Str).isEmpty = true from rfl)]
      cases prev with
      | none =>
        have hpr : p = none := hpr
        subst hpr
        exact ⟨rfl, rfl, h⟩
      | some as =>
        obtain ⟨c, rfl, h1, h2, h3⟩ := hpr
        dsimp only
        rw [if_neg (by rw [List.isEmpty_iff]; exact h1)]
        exact mainLine_turn hp hK h fuel h1 h2 h3 _
    | eof => exact hx.elim
    | interrupt => exact hx.elim
  | interrupt =>
    cases input with
    | line text => exact hx.elim
    | eof => exact hx.elim
    | interrupt =>
      have key := interrupt_turn hp hK h fuel hpr
      unfold mainLoop typed
      dsimp only
      generalize interrupt P pid T = r at key ⊢
      generalize gdbInterrupt K (fuel + 1) g = m at key ⊢
      obtain ⟨x, u⟩ := m
      cases r <;> cases x <;> exact key
  | quit => exact absurd rfl hq

theorem loop_quit (K : Kern) (fuel : Nat) (G : GdbCfg) {input : Input} (hx : TypedAs G pid input .quit) (p : Option Str) (g : GSt) :
    ∃ q, gdbLoop K fuel G input (p, g) = (.ok true, (q, g)) := by
  unfold gdbLoop
  cases input with
  | line text =>
    have hx : strip G.space text = quitText := hx
    refine ⟨none, ?_⟩
    unfold mainLoop
    dsimp only
    rw [hx, if_neg (by decide)]
    rfl
  | eof => exact ⟨p, rfl⟩
  | interrupt => exact hx.elim

/-- How the loop goes on. -/
def Courses (G : GdbCfg) (events : Bool) (pid : Nat) (m : Except Exc (List Input) × (Option Str × GSt)) : Course → Prop
  | .asking prev T => m.1 = .ok [] ∧ WouldRepeat G pid prev m.2.1 ∧ Sits events pid G.sys.name m.2.2 T
  | .over rest T quit => (∃ inputs, m.1 = .ok inputs ∧ List.Forall₂ (TypedAs G pid) inputs rest) ∧ m.2.2.dbg.log.map Entry.call = T.made ∧
    if quit then Sits events pid G.sys.name m.2.2 T else m.2.2.dbg.list = []
  | .failed T => (∃ a b, m.1 = .error (.event (.exit 0 a b))) ∧ m.2.2.dbg.list = [] ∧ m.2.2.dbg.log.map Entry.call = T.made
  | .unknown => True

theorem talk_run (hp : pid ≠ 0) (hK : Plays K pid P) (fuel : Nat) : ∀ (inputs : List Input) (xs : List Typed) (g : GSt) (T : Table)
    (prev : Option (List Cmd)) (p : Option Str), List.Forall₂ (TypedAs G pid) inputs xs → WouldRepeat G pid prev p → Sits events pid G.sys.name g T →
    Courses G events pid (gdbLines K (fuel + 1) G inputs (p, g)) (talk P pid (isExecve G) events prev T xs) := by
  intro inputs
  induction inputs with
  | nil =>
    intro xs g T prev p hi hpr h
    cases hi
    obtain ⟨ss, hh, _⟩ := id h.here
    rw [talk]
    unfold gdbLines
    rw [if_neg (show ¬length g.dbg = 0 by unfold length; rw [hh.list]; decide)]
    exact ⟨rfl, hpr, h⟩
  | cons input inputs ih =>
    intro xs g T prev p hi hpr h
    cases hi with
    | @cons _ x _ xs hx hi =>
    obtain ⟨ss, hh, _⟩ := id h.here
    rw [gdbLines_read K (fuel + 1) G input inputs (show length g.dbg ≠ 0 by unfold length; rw [hh.list]; decide), talk]
    by_cases hq : x = .quit
    · rw [if_pos hq]
      subst hq
      obtain ⟨q, e⟩ := loop_quit K (fuel + 1) G hx p g
      rw [Py.run_bind_ok e]
      exact ⟨⟨inputs, rfl, hi⟩, hh.log, h⟩
    · rw [if_neg hq]
      have key := loop_turn (P := P) hp hK h fuel hx hq hpr
      generalize typed P pid (isExecve G) events prev T x = r at key ⊢
      cases hm : gdbLoop K (fuel + 1) G input (p, g) with
      | mk y s =>
        obtain ⟨q, t⟩ := s
        rw [hm] at key
        cases r with
        | prompt prev1 T1 =>
          obtain ⟨e, h1, h2⟩ := key
          dsimp only at e
          subst e
          rw [Py.run_bind_ok hm, if_neg (by decide)]
          exact ih xs t T1 prev1 q hi h1 h2
        | over T1 =>
          obtain ⟨e, h1, h2⟩ := key
          dsimp only at e
          subst e
          rw [Py.run_bind_ok hm, if_neg (by decide),
            gdbLines_done K (fuel + 1) G inputs (show length t.dbg = 0 by unfold length; rw [show t.dbg.list = [] from h1]; rfl)]
          exact ⟨⟨inputs, rfl, hi⟩, h2, h1⟩
        | failed T1 =>
          obtain ⟨⟨a, b, e⟩, h1, h2⟩ := key
          dsimp only at e
          subst e
          rw [Py.run_bind_error hm]
          exact ⟨⟨a, b, rfl⟩, h1, h2⟩
        | unknown => trivial

end

/-- The table of a session that begins. -/
def firstTable (pid : Nat) (attached events : Bool) : Table :=
  ⟨sessionStart pid attached (if events then 17 else 1), 0, none, true⟩

/-- **C133** (one process, no new processes). Whatever happens to the program, also in reaction to what it is given, and whatever the user types,
line by line (`cont`, `signal`, `stepi`, `step`, `until`, `sys`, commands that look or tell or are mistaken, several commands in a line, empty lines, Control-C at the prompt and in a
wait): gdb.py makes exactly the requests of `talk`. When the program is over, so is the session: what the user types after that is not read,
and quitting asks for nothing. If it is over while gdb.py wants to stop it, gdb.py fails. -/
theorem C133_run_partial (K : Kern) (G : GdbCfg) (pid : Nat) (hp : pid ≠ 0) (events attached : Bool) (first : Nat) (hn : first = 5 ∨ first = 19)
    (P : Story) (hK : Plays K pid P) (hf : P.stops (if attached then [] else [.attach 0 pid]) = some (.signal first)) (inputs : List Input) (xs : List Typed)
    (hi : List.Forall₂ (TypedAs G pid) inputs xs) (fuel : Nat) :
    (∀ rest T, talk P pid (isExecve G) events none (firstTable pid attached events) xs = .over rest T false →
      ∃ inputs' t, gdbMain K (fuel + 1) G pid attached inputs (startState events) = (.ok (some inputs'), t) ∧
        List.Forall₂ (TypedAs G pid) inputs' rest ∧ t.list = [] ∧ t.log.map Entry.call = T.made) ∧
    (∀ T, talk P pid (isExecve G) events none (firstTable pid attached events) xs = .failed T →
      ∃ t, gdbMain K (fuel + 1) G pid attached inputs (startState events) = (.ok none, t) ∧ t.list = [] ∧ t.log.map Entry.call = T.made) ∧
    ∀ prev T rest, talk P pid (isExecve G) events none (firstTable pid attached events) xs = .asking prev T ∧ rest = [] ∨
        talk P pid (isExecve G) events none (firstTable pid attached events) xs = .over rest T true →
      ∃ s inputs' q t, createProcess K (fuel + 1) pid attached (startState events) = (.ok (some 0), s) ∧
        gdbLines K (fuel + 1) G inputs (none, ⟨s, 0, fun _ => none⟩) = (.ok inputs', (q, t)) ∧ List.Forall₂ (TypedAs G pid) inputs' rest ∧
        t.dbg.list = [0] ∧ t.process = 0 ∧ (t.dbg.heap 0).pid = pid ∧ (t.dbg.heap 0).isStopped = T.stopped ∧ (t.last 0).getD 0 = T.pending ∧
        (t.dbg.heap 0).ss.nextExit = T.inside.isSome ∧ t.dbg.log.map Entry.call = T.made := by
  obtain ⟨s1, ss1, e1, h1, hx1, i1⟩ := start_step_of (K := K) (events := events) hp attached hn (hK.accepts _ 0 0).2.2.2.1
    (fun log hl => hK.signal log first (by rw [hl]; cases attached <;> exact hf)) (fun log => (hK.accepts log 0 _).2.2.1) fuel
  have hcb : ss1.hasCallback = false := by rw [hx1]
  have hs : Sits events pid G.sys.name ⟨s1, 0, fun _ => none⟩ (firstTable pid attached events) := ⟨⟨ss1, h1, hcb, by rw [hx1]; rfl⟩, i1, rfl, rfl⟩
  have key := talk_run (P := P) hp hK fuel inputs xs _ _ none none hi rfl hs
  generalize talk P pid (isExecve G) events none (firstTable pid attached events) xs = r at key ⊢
  cases hm : gdbLines K (fuel + 1) G inputs (none, ⟨s1, 0, fun _ => none⟩) with
  | mk y st =>
  obtain ⟨q, t⟩ := st
  rw [hm] at key
  have e3 : gdbRun K (fuel + 1) G pid attached inputs (startState events) = (y, t.dbg) := by
    unfold gdbRun
    rw [Py.run_bind_ok e1]
    dsimp only
    rw [hm]
  have hquit : t.dbg.list = [] → quit K (fuel + 1) t.dbg = (.ok (), t.dbg) := fun h => by
    unfold quit
    rw [h]
    rfl
  refine ⟨?_, ?_, ?_⟩
  · rintro rest T rfl
    obtain ⟨⟨inputs', e, h2⟩, h3, h4⟩ := key
    dsimp only at e h3
    subst e
    refine ⟨inputs', t.dbg, ?_, h2, h4, h3⟩
    unfold gdbMain
    rw [e3]
    dsimp only
    rw [Py.run_bind_ok (m := Py.pure (some inputs')) (a := some inputs') (u := t.dbg) rfl, Py.run_bind_ok (hquit h4)]
    rfl
  · rintro T rfl
    obtain ⟨⟨a, b, e⟩, h2, h3⟩ := key
    dsimp only at e h2 h3
    subst e
    refine ⟨t.dbg, ?_, h2, h3⟩
    unfold gdbMain
    rw [e3]
    dsimp only
    rw [Py.run_bind_ok (m := Py.pure none) (a := none) (u := t.dbg) rfl, Py.run_bind_ok (hquit h2)]
    rfl
  · have fin : ∀ T, Sits events pid G.sys.name t T → t.dbg.list = [0] ∧ t.process = 0 ∧ (t.dbg.heap 0).pid = pid ∧
        (t.dbg.heap 0).isStopped = T.stopped ∧ (t.last 0).getD 0 = T.pending ∧ (t.dbg.heap 0).ss.nextExit = T.inside.isSome ∧
        t.dbg.log.map Entry.call = T.made := fun T h => by
      obtain ⟨ss, hh, _, hc⟩ := h.here
      refine ⟨hh.list, h.process, hh.pid, h.stopped, h.last, ?_, hh.log⟩
      rw [hh.ss]
      cases hin : T.inside with
      | none => rw [hin] at hc; exact hc
      | some regs => rw [hin] at hc; exact hc.1
    rintro prev T rest (⟨rfl, rfl⟩ | rfl)
    · obtain ⟨e, h2, h3⟩ := key
      dsimp only at e h2 h3
      subst e
      exact ⟨s1, [], q, t, e1, hm, List.Forall₂.nil, fin T h3⟩
    · obtain ⟨⟨inputs', e, h2⟩, _, h4⟩ := key
      dsimp only at e h2
      subst e
      exact ⟨s1, inputs', q, t, e1, hm, h2, fin T h4⟩

/-- All requests of such a session, before gdb.py quits. -/
theorem run_made (K : Kern) (G : GdbCfg) (pid : Nat) (hp : pid ≠ 0) (events attached : Bool) (first : Nat) (hn : first = 5 ∨ first = 19)
    (P : Story) (hK : Plays K pid P) (hf : P.stops (if attached then [] else [.attach 0 pid]) = some (.signal first)) (inputs : List Input) (xs : List Typed)
    (hi : List.Forall₂ (TypedAs G pid) inputs xs) (fuel : Nat) (made : List Call)
    (hm : (talk P pid (isExecve G) events none (firstTable pid attached events) xs).made = some made) :
    (gdbRun K (fuel + 1) G pid attached inputs (startState events)).2.log.map Entry.call = made := by
  obtain ⟨s1, ss1, e1, h1, hx1, i1⟩ := start_step_of (K := K) (events := events) hp attached hn (hK.accepts _ 0 0).2.2.2.1
    (fun log hl => hK.signal log first (by rw [hl]; cases attached <;> exact hf)) (fun log => (hK.accepts log 0 _).2.2.1) fuel
  have hcb : ss1.hasCallback = false := by rw [hx1]
  have hs : Sits events pid G.sys.name ⟨s1, 0, fun _ => none⟩ (firstTable pid attached events) := ⟨⟨ss1, h1, hcb, by rw [hx1]; rfl⟩, i1, rfl, rfl⟩
  have key := talk_run (P := P) hp hK fuel inputs xs _ _ none none hi rfl hs
  generalize talk P pid (isExecve G) events none (firstTable pid attached events) xs = r at key hm
  have e3 : (gdbRun K (fuel + 1) G pid attached inputs (startState events)).2 =
      (gdbLines K (fuel + 1) G inputs (none, ⟨s1, 0, fun _ => none⟩)).2.2.dbg := by
    unfold gdbRun
    rw [Py.run_bind_ok e1]
  rw [e3]
  cases r with
  | asking prev T =>
    cases hm
    obtain ⟨ss, hh, _⟩ := key.2.2.here
    exact hh.log
  | over rest T q => cases hm; exact key.2.1
  | failed T => cases hm; exact key.2.2
  | unknown => cases hm

/-! ## which signals the program gets -/

section
variable {P : Story} {pid : Nat} {events : Bool} {isExec : Nat → Bool} {T : Table}

theorem delivered_append (cs ds : List Call) : delivered (cs ++ ds) = delivered cs ++ delivered ds := by
  induction cs with
  | nil => rfl
  | cons c cs ih => cases c <;> simp [delivered, ih]

theorem given_append (cs ds : List Call) : given (cs ++ ds) = given cs ++ given ds := by
  unfold given
  rw [delivered_append, List.filter_append]

/-- What a request adds to the signals reported. -/
def tells (P : Story) (made : List Call) (c : Call) : List Nat :=
  match c, P.stops made with
  | .waitpid _ _ _, some (.signal n) => [n]
  | _, _ => []

theorem reported_ask (P : Story) (made : List Call) (c : Call) : reportedBy P (made ++ [c]) = reportedBy P made ++ tells P made c := by
  unfold reportedBy
  rw [List.length_append, List.length_singleton, List.range_succ, List.filterMap_append]
  congr 1
  · refine List.filterMap_congr fun i hi => ?_
    have hl : i < made.length := List.mem_range.mp hi
    rw [List.getElem?_append_left hl, List.take_append_of_le_length (Nat.le_of_lt hl)]
  · simp only [List.filterMap_cons, List.filterMap_nil]
    rw [List.getElem?_append_right (Nat.le_refl _), Nat.sub_self, List.take_left']
    · unfold tells
      rcases P.stops made with _ | x
      · cases c <;> rfl
      · cases x <;> cases c <;> rfl
    · rfl

/-- The signal kept, if there is one for the program. -/
def kept (n : Nat) : List Nat := [n].filter genuine

/-- What the program was given, then what is kept for it, are signals that were reported, in this order. -/
def InOrder (P : Story) (T : Table) : Prop := (given T.made ++ kept T.pending).Sublist (reportedBy P T.made)

/-- The same, if the command was cut by a signal: it will be kept. -/
def ResultInOrder (P : Story) : Result → Prop
  | .ready _ T => InOrder P T
  | .signal n T => InOrder P { T with pending := n }
  | .ctrlC T => InOrder P T
  | .ended T => InOrder P T
  | .unknown => True

theorem inOrder_ask (h : InOrder P T) {c : Call} (h1 : delivered [c] = []) (h2 : tells P T.made c = []) : InOrder P (T.ask c) := by
  unfold InOrder Table.ask at *
  dsimp only
  rw [given_append, reported_ask, h2, show given [c] = [] by unfold given; rw [h1]; rfl]
  simpa using h

theorem given_go (pid n : Nat) : given [letGo pid (handedOn n)] = kept n := by
  unfold given letGo delivered kept handedOn genuine delivered
  by_cases h : n = 5
  · subst h; rfl
  · rw [if_neg h]
    by_cases h0 : n = 0
    · subst h0; rfl
    · simp [h, h0]

theorem attend_inOrder (h : InOrder P T) {wanted : Nat → Bool} {next : Nat → Table → Result}
    (hn : ∀ n, InOrder P { T.ask (await pid) with stopped := true } → InOrder P { T.ask (await pid) with stopped := true, pending := n } →
      ResultInOrder P (next n { T.ask (await pid) with stopped := true })) : ResultInOrder P (attend P pid wanted T next) := by
  have hw : reportedBy P (T.ask (await pid)).made = reportedBy P T.made ++ tells P T.made (await pid) := reported_ask ..
  have hg : given (T.ask (await pid)).made = given T.made := by
    unfold Table.ask
    dsimp only
    rw [given_append]
    exact List.append_nil _
  have h1 : InOrder P (T.ask (await pid)) := by
    unfold InOrder
    rw [hw, hg]
    exact List.Sublist.trans h (List.sublist_append_left _ _)
  unfold attend
  cases hs : P.stops T.made with
  | none => trivial
  | some x =>
    cases x with
    | ctrlC => exact h1
    | exited c => exact h1
    | killed n => exact h1
    | signal n =>
      have h2 : InOrder P { T.ask (await pid) with stopped := true, pending := n } := by
        unfold InOrder
        dsimp only
        rw [hw, hg, show tells P T.made (await pid) = [n] by unfold tells await; rw [hs]]
        refine List.Sublist.append (List.Sublist.trans (List.sublist_append_left _ _) h) ?_
        exact List.filter_sublist
      dsimp only
      split
      · exact hn n h1 h2
      · exact h2

theorem goOn_inOrder (h : InOrder P T) : ResultInOrder P (goOn P pid T.pending T) := by
  unfold goOn
  refine attend_inOrder ?_ ?_
  · unfold InOrder Table.ask at *
    dsimp only
    rw [given_append, given_go, reported_ask]
    simpa [tells, letGo, kept, genuine] using h
  · intro n h1 h2
    dsimp only
    split
    · exact inOrder_ask h1 rfl rfl
    · exact inOrder_ask h2 rfl rfl

theorem result_ask {r : Result} (h : ResultInOrder P r) {c : Call} (h1 : delivered [c] = []) (h2 : ∀ made, tells P made c = []) :
    ResultInOrder P (r.map (·.ask c)) := by
  cases r with
  | ready ok T => exact inOrder_ask h h1 (h2 _)
  | signal n T => exact inOrder_ask (T := { T with pending := n }) h h1 (h2 _)
  | ctrlC T => exact inOrder_ask h h1 (h2 _)
  | ended T => exact inOrder_ask h h1 (h2 _)
  | unknown => trivial

theorem goTo_inOrder (h : InOrder P T) : ResultInOrder P (goTo P pid T) := by
  have h1 : ResultInOrder P (attend P pid (· = 5) { T.ask (letGo pid 0) with stopped := false } fun _ T => .ready true T) := by
    refine attend_inOrder ?_ fun n h1 _ => h1
    unfold InOrder Table.ask at *
    dsimp only
    rw [given_append, reported_ask]
    simpa [tells, letGo, given, delivered] using h
  unfold goTo
  generalize attend P pid (· = 5) { T.ask (letGo pid 0) with stopped := false } (fun _ T => Result.ready true T) = r at h1 ⊢
  have h2 := result_ask h1 (c := Spec.look pid) rfl fun _ => rfl
  cases r with
  | ended T => exact h1
  | _ => exact h2

theorem callStop_inOrder (h : InOrder P T) : ResultInOrder P (callStop P pid isExec events T) := by
  have h1 : InOrder P (T.ask (Spec.look pid)) := inOrder_ask h rfl rfl
  unfold callStop
  cases T.inside with
  | none => exact inOrder_ask h1 (c := Spec.look pid) rfl rfl
  | some regs =>
    dsimp only
    split
    · exact attend_inOrder (T := { (T.ask (Spec.look pid)).ask (go pid 0) with stopped := false }) (inOrder_ask h1 (c := go pid 0) rfl rfl)
        fun n h2 _ => h2
    · exact h1

theorem act_inOrder (h : InOrder P T) (a : Cmd) (ha : ∀ n, a ≠ .signal n) : ResultInOrder P (act P pid isExec events a T) := by
  have hl : InOrder P (T.ask (Spec.look pid)) := inOrder_ask h rfl rfl
  cases a with
  | cont => exact goOn_inOrder h
  | signal n => exact absurd rfl (ha n)
  | stepi => exact attend_inOrder (inOrder_ask h (c := .singlestep 0 pid) rfl rfl) fun n h1 _ => h1
  | step =>
    rw [act]
    split
    · exact hl
    · exact goTo_inOrder hl
  | sys =>
    refine attend_inOrder (T := { T.ask (go pid 0) with stopped := false }) (inOrder_ask h (c := go pid 0) rfl rfl) fun n h1 _ => ?_
    exact callStop_inOrder h1
  | «show» => exact hl
  | tell => exact h
  | wrong => exact h

theorem acts_inOrder : ∀ (as : List Cmd) (T : Table), InOrder P T → (∀ a ∈ as, ∀ n, a ≠ .signal n) →
    ResultInOrder P (acts P pid isExec events as T) := by
  intro as
  induction as with
  | nil => exact fun T h _ => h
  | cons a as ih =>
    intro T h ha
    have h1 := act_inOrder (pid := pid) (isExec := isExec) (events := events) h a (ha a (List.mem_cons_self ..))
    rw [acts]
    generalize act P pid isExec events a T = r at h1 ⊢
    cases r with
    | ready ok T1 =>
      cases ok with
      | true => exact ih T1 h1 fun b hb => ha b (List.mem_cons_of_mem _ hb)
      | false => exact h1
    | _ => exact h1

theorem interrupt_inOrder (h : InOrder P T) : ∀ T', (∃ ok, interrupt P pid T = .ready ok T') ∨ interrupt P pid T = .ended T' → InOrder P T' := by
  have key : ResultInOrder P (interrupt P pid T) ∧ ∀ n T', interrupt P pid T ≠ .signal n T' := by
    have hl : InOrder P (T.ask (Spec.look pid)) := inOrder_ask h rfl rfl
    unfold interrupt
    split
    · exact ⟨h, by intro n T' h; cases h⟩
    · split
      · exact ⟨hl, by intro n T' h; cases h⟩
      · unfold attend
        have hw : InOrder P (((T.ask (Spec.look pid)).ask (.kill 0 pid 2)).ask (await pid)) := by
          have hk : InOrder P ((T.ask (Spec.look pid)).ask (.kill 0 pid 2)) := inOrder_ask hl rfl rfl
          generalize (T.ask (Spec.look pid)).ask (.kill 0 pid 2) = T1 at hk
          unfold InOrder Table.ask at *
          dsimp only
          rw [given_append, reported_ask]
          refine List.Sublist.trans (by simpa [given, delivered, await] using hk) ?_
          exact List.sublist_append_left _ _
        cases P.stops ((T.ask (Spec.look pid)).ask (.kill 0 pid 2)).made with
        | none => exact ⟨trivial, by intro n T' h; cases h⟩
        | some x =>
          cases x with
          | ctrlC => exact ⟨hw, by intro n T' h; cases h⟩
          | exited c => exact ⟨hw, by intro n T' h; cases h⟩
          | killed n => exact ⟨hw, by intro n T' h; cases h⟩
          | signal n =>
            by_cases h2 : n = 2
            · subst h2
              exact ⟨hw, by intro n T' h; cases h⟩
            · simp only [h2, decide_false, Bool.false_eq_true, if_false]
              exact ⟨inOrder_ask (T := { ((T.ask (Spec.look pid)).ask (.kill 0 pid 2)).ask (await pid) with stopped := true }) hw rfl rfl,
                by intro n T' h; cases h⟩
  rintro T' (⟨ok, e⟩ | e)
  · have := key.1
    rw [e] at this
    exact this
  · have := key.1
    rw [e] at this
    exact this

/-- The lines that may be typed or repeated. -/
def NoneGiven (as : List Cmd) : Prop := ∀ a ∈ as, ∀ n, a ≠ .signal n

def TurnInOrder (P : Story) : Turn → Prop
  | .prompt prev T => InOrder P T ∧ ∀ as, prev = some as → NoneGiven as
  | .over T => InOrder P T
  | .failed T => InOrder P T
  | .unknown => True

theorem line_inOrder (h : InOrder P T) {as : List Cmd} (ha : NoneGiven as) : TurnInOrder P (line P pid isExec events as T) := by
  have h1 := acts_inOrder (pid := pid) (isExec := isExec) (events := events) as T h ha
  unfold line
  generalize acts P pid isExec events as T = r at h1 ⊢
  cases r with
  | ready ok T1 =>
    refine ⟨h1, fun as' e => ?_⟩
    cases ok with
    | true => cases e; exact ha
    | false => cases e
  | signal n T1 => exact ⟨inOrder_ask (T := { T1 with pending := n }) h1 rfl rfl, fun as' e => by cases e⟩
  | ended T1 => exact h1
  | unknown => trivial
  | ctrlC T1 =>
    have h2 := interrupt_inOrder (pid := pid) h1
    dsimp only
    generalize interrupt P pid T1 = r at h2 ⊢
    cases r with
    | ready ok T2 => exact ⟨h2 T2 (Or.inl ⟨ok, rfl⟩), fun as' e => by cases e⟩
    | ended T2 => exact h2 T2 (Or.inr rfl)
    | _ => trivial

theorem typed_inOrder (h : InOrder P T) {prev : Option (List Cmd)} (hp : ∀ as, prev = some as → NoneGiven as) {x : Typed}
    (hx : x.givesNone = true) : TurnInOrder P (typed P pid isExec events prev T x) := by
  cases x with
  | line as =>
    refine line_inOrder h fun a ha n e => ?_
    subst e
    unfold Typed.givesNone at hx
    rw [List.all_eq_true] at hx
    cases hx _ ha
  | again =>
    cases prev with
    | none => exact ⟨h, fun as e => by cases e⟩
    | some as => exact line_inOrder h (hp as rfl)
  | interrupt =>
    have h2 := interrupt_inOrder (pid := pid) h
    unfold typed
    dsimp only
    generalize interrupt P pid T = r at h2 ⊢
    cases r with
    | ready ok T2 => exact ⟨h2 T2 (Or.inl ⟨ok, rfl⟩), hp⟩
    | ended T2 => exact h2 T2 (Or.inr rfl)
    | _ => trivial
  | quit => exact ⟨h, fun as e => by cases e⟩

theorem talk_inOrder : ∀ (xs : List Typed) (prev : Option (List Cmd)) (T : Table), InOrder P T → (∀ as, prev = some as → NoneGiven as) →
    (∀ x ∈ xs, x.givesNone = true) → ∀ made, (talk P pid isExec events prev T xs).made = some made →
    (given made ++ kept (talk P pid isExec events prev T xs).pending).Sublist (reportedBy P made) := by
  intro xs
  induction xs with
  | nil =>
    intro prev T h _ _ made e
    cases e
    exact h
  | cons x xs ih =>
    intro prev T h hp hx made e
    rw [talk] at e ⊢
    by_cases hq : x = .quit
    · rw [if_pos hq] at e ⊢
      cases e
      exact h
    · rw [if_neg hq] at e ⊢
      have h1 := typed_inOrder (pid := pid) (isExec := isExec) (events := events) h hp (hx x (List.mem_cons_self ..))
      generalize typed P pid isExec events prev T x = r at h1 e ⊢
      cases r with
      | prompt prev1 T1 => exact ih prev1 T1 h1.1 h1.2 (fun y hy => hx y (List.mem_cons_of_mem _ hy)) made e
      | over T1 => cases e; exact h1
      | failed T1 => cases e; exact h1
      | unknown => cases e

/-! ### nothing is lost when nothing disturbs -/

/-- What the program was given, then what is kept for it, are all signals for it since the first stop. -/
def AllPassed (P : Story) (T : Table) : Prop :=
  1 ≤ (reportedBy P T.made).length ∧ given T.made ++ kept T.pending = ((reportedBy P T.made).drop 1).filter genuine

theorem allPassed_ask (h : AllPassed P T) {c : Call} (h1 : delivered [c] = []) (h2 : tells P T.made c = []) : AllPassed P (T.ask c) := by
  unfold AllPassed Table.ask at *
  dsimp only
  rw [given_append, reported_ask, h2, show given [c] = [] by unfold given; rw [h1]; rfl]
  simpa using h

/-- After a wait. -/
theorem attend_allPassed (h : AllPassed P T) {wanted : Nat → Bool}
    {next : Nat → Table → Result} {r : Result} (hr : attend P pid wanted T next = r) (hc : r.calm = true)
    (Q : Result → Prop) (he : ∀ T', AllPassed P T' → Q (.ended T'))
    (hn : ∀ n, wanted n = true → (n = 5 → AllPassed P { T.ask (await pid) with stopped := true }) →
      (kept T.pending = [] → AllPassed P { T.ask (await pid) with stopped := true, pending := n }) →
      (next n { T.ask (await pid) with stopped := true }).calm = true → Q (next n { T.ask (await pid) with stopped := true })) : Q r := by
  have hw : reportedBy P (T.ask (await pid)).made = reportedBy P T.made ++ tells P T.made (await pid) := reported_ask ..
  have hg : given (T.ask (await pid)).made = given T.made := by
    unfold Table.ask
    dsimp only
    rw [given_append]
    exact List.append_nil _
  have hrep : ∀ l, ((reportedBy P T.made ++ l).drop 1).filter genuine =
      ((reportedBy P T.made).drop 1).filter genuine ++ l.filter genuine := fun l => by
    rw [List.drop_append_of_le_length h.1, List.filter_append]
  unfold attend at hr
  cases hs : P.stops T.made with
  | none => rw [hs] at hr; subst hr; cases hc
  | some x =>
    rw [hs] at hr
    have hplain : (∀ n, x ≠ .signal n) → AllPassed P (T.ask (await pid)) := fun hx => by
      refine ⟨by rw [hw, List.length_append]; have := h.1; omega, ?_⟩
      rw [hw, hg, hrep]
      rw [show tells P T.made (await pid) = [] by unfold tells await; rw [hs]; cases x <;> first | rfl | exact absurd rfl (hx _)]
      simpa [Table.ask] using h.2
    cases x with
    | ctrlC => subst hr; cases hc
    | exited c => subst hr; exact he _ (hplain (by intro n h; cases h))
    | killed n => subst hr; exact he _ (hplain (by intro n h; cases h))
    | signal n =>
      dsimp only at hr
      cases hwn : wanted n with
      | false => rw [if_neg (by rw [hwn]; decide)] at hr; subst hr; cases hc
      | true =>
        rw [if_pos hwn] at hr
        subst hr
        refine hn n hwn (fun h5 => ?_) (fun hk => ?_) hc
        · subst h5
          refine ⟨by dsimp only; rw [hw, List.length_append]; have := h.1; omega, ?_⟩
          dsimp only
          rw [hw, hg, hrep, show tells P T.made (await pid) = [5] by unfold tells await; rw [hs]]
          simpa [genuine, Table.ask] using h.2
        · refine ⟨by dsimp only; rw [hw, List.length_append]; have := h.1; omega, ?_⟩
          dsimp only
          rw [hw, hg, hrep, show tells P T.made (await pid) = [n] by unfold tells await; rw [hs], ← h.2, hk]
          simp [kept]

def ResultAllPassed (P : Story) : Result → Prop
  | .ready _ T => AllPassed P T
  | .ended T => AllPassed P T
  | _ => True

/-- A command that neither gives a signal nor goes on to a system call. -/
def plainCmd : Cmd → Bool
  | .signal _ => false
  | .sys => false
  | _ => true

theorem act_allPassed (h : AllPassed P T) (a : Cmd) (ha : plainCmd a = true)
    (hc : (act P pid isExec events a T).calm = true) : ResultAllPassed P (act P pid isExec events a T) := by
  have hl : AllPassed P (T.ask (Spec.look pid)) := allPassed_ask h rfl rfl
  cases a with
  | cont =>
    have h1 : AllPassed P { T.ask (letGo pid (handedOn T.pending)) with pending := 0, inside := none, stopped := false } := by
      unfold AllPassed Table.ask at *
      dsimp only
      rw [given_append, given_go, reported_ask]
      simpa [tells, letGo, kept, genuine] using h
    rw [act, goOn] at hc ⊢
    refine attend_allPassed h1 rfl hc (ResultAllPassed P) (fun T' h' => h') fun n _ h5 hk _ => ?_
    dsimp only
    split
    · rename_i e
      exact allPassed_ask (h5 e) rfl rfl
    · exact allPassed_ask (hk rfl) (c := print pid) rfl rfl
  | signal n => cases ha
  | stepi =>
    exact attend_allPassed (allPassed_ask h (c := .singlestep 0 pid) rfl rfl) (r := act P pid isExec events .stepi T) rfl hc (ResultAllPassed P)
      (fun T' h' => h') fun n hn h5 _ _ => h5 (by simpa using hn)
  | step =>
    rw [act] at hc ⊢
    split
    · exact hl
    · rename_i hv
      rw [if_neg hv] at hc
      have h1 : AllPassed P { (T.ask (Spec.look pid)).ask (letGo pid 0) with stopped := false } := by
        generalize T.ask (Spec.look pid) = T1 at hl
        unfold AllPassed Table.ask at *
        dsimp only
        rw [given_append, reported_ask]
        simpa [tells, letGo, given, delivered] using hl
      unfold goTo at hc ⊢
      generalize hr : attend P pid (· = 5) { (T.ask (Spec.look pid)).ask (letGo pid 0) with stopped := false }
        (fun _ T => Result.ready true T) = r at hc ⊢
      have hcr : r.calm = true := by cases r <;> first | rfl | exact hc
      have h2 := attend_allPassed h1 hr hcr (ResultAllPassed P) (fun T' h' => h') fun n hn h5 _ _ => h5 (by simpa using hn)
      cases r with
      | ready ok T1 => exact allPassed_ask h2 (c := Spec.look pid) rfl rfl
      | ended T1 => exact h2
      | _ => trivial
  | sys => cases ha
  | «show» => exact hl
  | tell => exact h
  | wrong => exact h

theorem acts_allPassed : ∀ (as : List Cmd) (T : Table), AllPassed P T →
    (∀ a ∈ as, plainCmd a = true) → (acts P pid isExec events as T).calm = true → ResultAllPassed P (acts P pid isExec events as T) := by
  intro as
  induction as with
  | nil => exact fun T h _ _ => h
  | cons a as ih =>
    intro T h ha hc
    have h1 := act_allPassed (pid := pid) (isExec := isExec) (events := events) h a (ha a (List.mem_cons_self ..))
    rw [acts] at hc ⊢
    generalize act P pid isExec events a T = r at h1 hc ⊢
    cases r with
    | ready ok T1 =>
      cases ok with
      | true => exact ih T1 (h1 rfl) (fun b hb => ha b (List.mem_cons_of_mem _ hb)) hc
      | false => exact h1 rfl
    | ended T1 => exact h1 rfl
    | _ => trivial

/-- Control-C at the prompt does nothing: the process is thought to be stopped. -/
def TurnAllPassed (P : Story) : Turn → Prop
  | .prompt prev T => AllPassed P T ∧ T.stopped = true ∧ ∀ as, prev = some as → ∀ a ∈ as, plainCmd a = true
  | .over T => AllPassed P T
  | .failed _ => False
  | .unknown => True

theorem attend_stopped {wanted : Nat → Bool} {next : Nat → Table → Result} {ok : Bool} {T' : Table} (hr : attend P pid wanted T next = .ready ok T')
    (hn : ∀ n ok T', next n { T.ask (await pid) with stopped := true } = .ready ok T' → T'.stopped = true) : T'.stopped = true := by
  unfold attend at hr
  cases hs : P.stops T.made with
  | none => rw [hs] at hr; cases hr
  | some x =>
    rw [hs] at hr
    cases x with
    | signal n =>
      dsimp only at hr
      split at hr
      · exact hn n ok T' hr
      · cases hr
    | _ => cases hr

theorem act_stopped (h : T.stopped = true) (a : Cmd) (ha : plainCmd a = true) {ok : Bool} {T' : Table}
    (hr : act P pid isExec events a T = .ready ok T') : T'.stopped = true := by
  cases a with
  | cont =>
    rw [act, goOn] at hr
    refine attend_stopped hr fun n ok T1 e => ?_
    dsimp only at e
    split at e <;> (cases e; rfl)
  | signal n => cases ha
  | stepi => exact attend_stopped hr fun n ok T1 e => by cases e; rfl
  | step =>
    rw [act] at hr
    split at hr
    · cases hr; exact h
    · unfold goTo at hr
      generalize hx : attend P pid (· = 5) { (T.ask (Spec.look pid)).ask (letGo pid 0) with stopped := false }
        (fun _ T => Result.ready true T) = r at hr
      cases r with
      | ready ok1 T1 =>
        have := attend_stopped hx fun n ok T2 e => by cases e; rfl
        cases hr
        exact this
      | _ => cases hr
  | sys => cases ha
  | «show» => cases hr; exact h
  | tell => cases hr; exact h
  | wrong => cases hr; exact h

theorem acts_stopped : ∀ (as : List Cmd) (T : Table), T.stopped = true → (∀ a ∈ as, plainCmd a = true) → ∀ ok T',
    acts P pid isExec events as T = .ready ok T' → T'.stopped = true := by
  intro as
  induction as with
  | nil =>
    intro T h _ ok T' e
    cases e
    exact h
  | cons a as ih =>
    intro T h ha ok T' e
    have h1 := @act_stopped P pid events isExec T h a (ha a (List.mem_cons_self ..))
    rw [acts] at e
    generalize act P pid isExec events a T = r at h1 e
    cases r with
    | ready ok1 T1 =>
      have h2 := h1 rfl
      cases ok1 with
      | true => exact ih T1 h2 (fun b hb => ha b (List.mem_cons_of_mem _ hb)) ok T' e
      | false => cases e; exact h2
    | _ => cases e

theorem line_allPassed (h : AllPassed P T) (hst : T.stopped = true) {as : List Cmd}
    (ha : ∀ a ∈ as, plainCmd a = true) (hc : (acts P pid isExec events as T).calm = true) :
    TurnAllPassed P (line P pid isExec events as T) := by
  have h1 := acts_allPassed (pid := pid) (isExec := isExec) (events := events) as T h ha hc
  have h2 := acts_stopped (P := P) (pid := pid) (isExec := isExec) (events := events) as T hst ha
  unfold line
  generalize acts P pid isExec events as T = r at h1 h2 hc ⊢
  cases r with
  | ready ok T1 =>
    refine ⟨h1, h2 _ _ rfl, fun as' e => ?_⟩
    cases ok with
    | true => cases e; exact ha
    | false => cases e
  | ended T1 => exact h1
  | unknown => trivial
  | signal n T1 => cases hc
  | ctrlC T1 => cases hc

theorem plain_cmds {as : List Cmd} (h : (Typed.line as).plain = true) : ∀ a ∈ as, plainCmd a = true := by
  intro a ha
  unfold Typed.plain at h
  rw [List.all_eq_true] at h
  have := h a ha
  cases a <;> first | rfl | exact this

theorem talk_allPassed : ∀ (xs : List Typed) (prev : Option (List Cmd)) (T : Table),
    AllPassed P T → T.stopped = true → (∀ as, prev = some as → ∀ a ∈ as, plainCmd a = true) → (∀ x ∈ xs, x.plain = true) →
    calm P pid isExec events prev T xs = true → ∀ made, (talk P pid isExec events prev T xs).made = some made →
    given made ++ kept (talk P pid isExec events prev T xs).pending = ((reportedBy P made).drop 1).filter genuine := by
  intro xs
  induction xs with
  | nil =>
    intro prev T h _ _ _ _ made e
    cases e
    exact h.2
  | cons x xs ih =>
    intro prev T h hst hp hx hc made e
    rw [talk] at e ⊢
    rw [calm, Bool.and_eq_true] at hc
    by_cases hq : x = .quit
    · rw [if_pos hq] at e ⊢
      cases e
      exact h.2
    · rw [if_neg hq] at e ⊢
      have h1 : TurnAllPassed P (typed P pid isExec events prev T x) := by
        cases x with
        | line as => exact line_allPassed h hst (plain_cmds (hx _ (List.mem_cons_self ..))) hc.1
        | again =>
          cases prev with
          | none => exact ⟨h, hst, hp⟩
          | some as => exact line_allPassed h hst (hp as rfl) hc.1
        | interrupt =>
          unfold typed interrupt
          dsimp only
          rw [if_pos hst]
          exact ⟨h, hst, hp⟩
        | quit => exact absurd rfl hq
      have hc := hc.2
      generalize typed P pid isExec events prev T x = r at h1 e hc ⊢
      cases r with
      | prompt prev1 T1 => exact ih prev1 T1 h1.1 h1.2.1 h1.2.2 (fun y hy => hx y (List.mem_cons_of_mem _ hy)) hc made e
      | over T1 => cases e; exact h1.2
      | failed T1 => exact h1.elim
      | unknown => cases e

end

/-! ## the theorems about signals -/

/-- **C133** (one process). Whatever happens and whatever the user types, as long as it is no `signal`: the program is given signals it was stopped
by, none of them twice, and in the order in which they came. -/
theorem C133_order_partial (K : Kern) (G : GdbCfg) (pid : Nat) (hp : pid ≠ 0) (events attached : Bool) (first : Nat) (hn : first = 5 ∨ first = 19)
    (P : Story) (hK : Plays K pid P) (hf : P.stops (if attached then [] else [.attach 0 pid]) = some (.signal first)) (inputs : List Input) (xs : List Typed)
    (hi : List.Forall₂ (TypedAs G pid) inputs xs) (hx : ∀ x ∈ xs, x.givesNone = true) (fuel : Nat) (made : List Call)
    (hm : (talk P pid (isExecve G) events none (firstTable pid attached events) xs).made = some made) :
    (given ((gdbRun K (fuel + 1) G pid attached inputs (startState events)).2.log.map Entry.call)).Sublist (reportedBy P made) := by
  rw [run_made K G pid hp events attached first hn P hK hf inputs xs hi fuel made hm]
  have h0 : InOrder P (firstTable pid attached events) := by
    unfold InOrder firstTable sessionStart
    cases attached <;> exact List.nil_sublist _
  exact List.Sublist.trans (List.sublist_append_left _ _) (talk_inOrder xs none _ h0 (fun as e => by cases e) hx made hm)

/-- **C133** (one process, the steps are not disturbed). With `cont`, `step`, `until`, `stepi`, commands that look or tell or are mistaken, empty
lines and Control-C at the prompt: if steps end with the trap they wait for and no wait is interrupted, every signal for the program that was
reported since its first stop is given to it exactly once and in order, but for the last one, if it is kept for the next `cont`. -/
theorem C133_delivery_partial (K : Kern) (G : GdbCfg) (pid : Nat) (hp : pid ≠ 0) (events attached : Bool) (first : Nat) (hn : first = 5 ∨ first = 19)
    (P : Story) (hK : Plays K pid P) (hf : P.stops (if attached then [] else [.attach 0 pid]) = some (.signal first)) (inputs : List Input) (xs : List Typed)
    (hi : List.Forall₂ (TypedAs G pid) inputs xs) (hx : ∀ x ∈ xs, x.plain = true)
    (hc : calm P pid (isExecve G) events none (firstTable pid attached events) xs = true) (fuel : Nat) (made : List Call)
    (hm : (talk P pid (isExecve G) events none (firstTable pid attached events) xs).made = some made) :
    given ((gdbRun K (fuel + 1) G pid attached inputs (startState events)).2.log.map Entry.call) ++
        [(talk P pid (isExecve G) events none (firstTable pid attached events) xs).pending].filter genuine =
      ((reportedBy P made).drop 1).filter genuine := by
  rw [run_made K G pid hp events attached first hn P hK hf inputs xs hi fuel made hm]
  have h0 : AllPassed P (firstTable pid attached events) := by
    unfold AllPassed firstTable
    dsimp only
    have h1 : reportedBy P (sessionStart pid attached (if events then 17 else 1)) = [first] := by
      unfold sessionStart
      rw [show [await pid, Call.setoptions 0 pid (if events then 17 else 1)] = [await pid] ++ [.setoptions 0 pid (if events then 17 else 1)] from rfl,
        ← List.append_assoc, reported_ask, reported_ask, show tells P (if attached then [] else [.attach 0 pid]) (await pid) = [first] by
          unfold tells await; rw [hf]]
      cases attached <;> rfl
    refine ⟨by rw [h1]; exact Nat.le_refl 1, ?_⟩
    rw [h1]
    cases attached <;> rfl
  exact talk_allPassed xs none _ h0 rfl (fun as e => by cases e) hx hc made hm

/-! ## a kernel that tells a story, examples and refutations -/

/-- A kernel with one process that tells this story. -/
def storyKern (pid : Nat) (P : Story) : Kern := fun log c =>
  match c with
  | .waitpid _ _ _ =>
    match P.stops (log.map Entry.call) with
    | some (.signal n) => .ok pid (statusOf (.signal n))
    | some (.exited c) => .ok pid (statusOf (.exited c))
    | some (.killed n) => .ok pid (statusOf (.killed n))
    | some .ctrlC => .interrupt
    | none => .err 10
  | .inspect _ _ => .ok (P.answer (log.map Entry.call)) 0
  | _ => .ok 0 0

/-- Numbers that a status can tell. -/
def Stop.fits : Stop → Prop
  | .signal n => waitMeaning (statusOf (.signal n)) = .signal n
  | .exited c => waitMeaning (statusOf (.exited c)) = .exited c
  | .killed n => waitMeaning (statusOf (.killed n)) = .killed n
  | .ctrlC => True

theorem storyKern_plays (pid : Nat) (P : Story) (h : ∀ k x, P.stops k = some x → Stop.fits x) : Plays (storyKern pid P) pid P where
  signal log n hs := ⟨statusOf (.signal n), by unfold storyKern await; dsimp only; rw [hs], h _ _ hs⟩
  exited log n hs := ⟨statusOf (.exited n), by unfold storyKern await; dsimp only; rw [hs], h _ _ hs⟩
  killed log n hs := ⟨statusOf (.killed n), by unfold storyKern await; dsimp only; rw [hs], h _ _ hs⟩
  ctrlC log hs := by unfold storyKern await; dsimp only; rw [hs]
  look log o := ⟨0, rfl⟩
  accepts log o n := ⟨⟨_, _, rfl⟩, ⟨_, _, rfl⟩, ⟨_, _, rfl⟩, ⟨_, _, rfl⟩, ⟨_, _, rfl⟩, ⟨_, _, rfl⟩, ⟨_, _, rfl⟩⟩

/-- The story of these stops; all looks find what they look for. -/
def tale (stops : List Stop) : Story := ⟨fun made => stops[made.countP fun c => match c with
  | .waitpid _ _ _ => true
  | _ => false]?, fun _ => 0⟩

theorem tale_plays (pid : Nat) (stops : List Stop) (h : ∀ x ∈ stops, Stop.fits x) : Plays (storyKern pid (tale stops)) pid (tale stops) :=
  storyKern_plays pid _ fun _ x hs => h x (List.mem_of_getElem? hs)

/-- One expression is known, and one signal. -/
def promptCfg : GdbCfg where
  space c := c == ' '
  parse _ text := if text = "0x400".toList then .ok 1024 else if text = " 42".toList then .ok 42 else .error .value
  signals := [("SIGTERM".toList, 15)]
  errPid _ := 42
  sys := { name := fun _ => "read".toList, ignore := fun _ => false }

/-- What some lines mean. -/
theorem type_line (text : Str) (c : Str) (as : List Cmd) (h : strip promptCfg.space text = c) (h1 : c ≠ []) (h2 : c ≠ quitText)
    (h3 : NamesAll promptCfg 42 c as) : TypedAs promptCfg 42 (.line text) (.line as) := by
  subst h
  exact ⟨h1, h2, h3⟩

theorem type_cont : TypedAs promptCfg 42 (.line "cont".toList) (.line [.cont]) :=
  type_line _ "cont".toList _ (by decide +kernel) (by decide) (by decide) (.cons .cont .nil)
theorem type_stepi : TypedAs promptCfg 42 (.line "stepi".toList) (.line [.stepi]) :=
  type_line _ "stepi".toList _ (by decide +kernel) (by decide) (by decide) (.cons .stepi .nil)
theorem type_sys : TypedAs promptCfg 42 (.line " sys ".toList) (.line [.sys]) :=
  type_line _ "sys".toList _ (by decide +kernel) (by decide) (by decide) (.cons .sys .nil)
theorem type_term : TypedAs promptCfg 42 (.line "signal TERM".toList) (.line [.signal 15]) :=
  type_line _ "signal TERM".toList _ (by decide +kernel) (by decide) (by decide)
    (.cons (.signal "TERM".toList 15 (fun _ => rfl)) .nil)
theorem type_many : TypedAs promptCfg 42 (.line "regs; until 0x400 ;switch 42;step".toList) (.line [.show, .step, .tell, .step]) :=
  type_line _ "regs; until 0x400 ;switch 42;step".toList _ (by decide +kernel) (by decide) (by decide)
    (.cons (.show _ (by decide +kernel)) (.cons (.until "0x400".toList (fun _ => ⟨1024, rfl⟩)) (.cons (.switch " 42".toList (by decide) (fun _ => rfl))
      (.cons .step .nil))))
theorem type_wrong : TypedAs promptCfg 42 (.line "what; cont".toList) (.line [.wrong, .cont]) :=
  type_line _ "what; cont".toList _ (by decide +kernel) (by decide) (by decide) (.cons (.wrong _ (by decide +kernel)) (.cons .cont .nil))

/-- A session with all kinds of commands: `SIGUSR1` arrives at the second line, is given at the tenth; a system call starts and ends; Control-C in
the next wait; `SIGTERM` arrives in a step; the program is killed by it at the last line, the user wants to go on. -/
def fullStops : List Stop :=
  [.signal 5, .signal 5, .signal 5, .signal 10, .signal 5, .signal 5, .signal 133, .signal 133, .ctrlC, .signal 2, .signal 15, .killed 15]
def fullInputs : List Input :=
  [.line "regs; until 0x400 ;switch 42;step".toList, .line "cont".toList, .line "stepi".toList, .line [], .line "what; cont".toList, .line [],
    .line " sys ".toList, .line [], .interrupt, .line "cont".toList, .line "stepi".toList, .line "cont".toList, .line "cont".toList]
def fullTyped : List Typed :=
  [.line [.show, .step, .tell, .step], .line [.cont], .line [.stepi], .again, .line [.wrong, .cont], .again, .line [.sys], .again, .interrupt, .line [.cont],
    .line [.stepi], .line [.cont], .line [.cont]]

theorem full_typed : List.Forall₂ (TypedAs promptCfg 42) fullInputs fullTyped := by
  have e : TypedAs promptCfg 42 (.line []) .again := show strip promptCfg.space [] = [] by decide +kernel
  exact .cons type_many (.cons type_cont (.cons type_stepi (.cons e (.cons type_wrong (.cons e (.cons type_sys (.cons e (.cons trivial (.cons type_cont
    (.cons type_stepi (.cons type_cont (.cons type_cont .nil))))))))))))

/-- The requests of this session, after the first three. -/
def fullMade : List Call :=
  [Spec.look 42, Spec.look 42, letGo 42 0, await 42, Spec.look 42, Spec.look 42, letGo 42 0, await 42, Spec.look 42] ++
  [letGo 42 0, await 42, print 42] ++ [.singlestep 0 42, await 42] ++ [.singlestep 0 42, await 42] ++
  [go 42 0, await 42, Spec.look 42, Spec.look 42] ++ [go 42 0, await 42, Spec.look 42] ++
  [letGo 42 10, await 42, Spec.look 42, .kill 0 42 2, await 42] ++ [.singlestep 0 42, await 42, print 42] ++ [letGo 42 15, await 42]

theorem full_talk : talk (tale fullStops) 42 (isExecve promptCfg) true none (firstTable 42 false true) fullTyped =
    .over [.line [.cont]] ⟨sessionStart 42 false 17 ++ fullMade, 0, none, false⟩ false := by rfl

example : ∃ inputs' t, gdbMain (storyKern 42 (tale fullStops)) 9 promptCfg 42 false fullInputs (startState true) = (.ok (some inputs'), t) ∧
    List.Forall₂ (TypedAs promptCfg 42) inputs' [.line [.cont]] ∧ t.list = [] ∧ t.log.map Entry.call = sessionStart 42 false 17 ++ fullMade :=
  (C133_run_partial _ promptCfg 42 (by decide) true false 5 (Or.inl rfl) _ (tale_plays 42 fullStops (by
    intro x hx
    simp only [fullStops, List.mem_cons, List.not_mem_nil, or_false] at hx
    rcases hx with h | h | h | h | h | h | h | h | h | h | h | h <;> subst h <;> trivial)) rfl fullInputs
    fullTyped full_typed 8).1 _ _ full_talk

theorem full_fits : ∀ x ∈ fullStops, Stop.fits x := by
  intro x hx
  simp only [fullStops, List.mem_cons, List.not_mem_nil, or_false] at hx
  rcases hx with h | h | h | h | h | h | h | h | h | h | h | h <;> subst h <;> trivial

example : (given ((gdbRun (storyKern 42 (tale fullStops)) (8 + 1) promptCfg 42 false fullInputs (startState true)).2.log.map Entry.call)).Sublist
    [5, 5, 5, 10, 5, 5, 133, 133, 2, 15] := by
  rw [← show reportedBy (tale fullStops) (sessionStart 42 false 17 ++ fullMade) = [5, 5, 5, 10, 5, 5, 133, 133, 2, 15] by decide +kernel]
  exact C133_order_partial _ promptCfg 42 (by decide) true false 5 (Or.inl rfl) _ (tale_plays 42 fullStops full_fits) rfl fullInputs fullTyped full_typed
    (by decide) 8 (sessionStart 42 false 17 ++ fullMade) (by rw [full_talk]; rfl)

/-- A session in which nothing disturbs. -/
def calmStops : List Stop := [.signal 19, .signal 5, .signal 5, .signal 10, .signal 5, .signal 15, .signal 5, .signal 12]
def calmInputs : List Input :=
  [.line "regs; until 0x400 ;switch 42;step".toList, .line "cont".toList, .line "stepi".toList, .interrupt, .line "cont".toList, .line "what; cont".toList,
    .line "cont".toList, .line []]
def calmWords : List Typed :=
  [.line [.show, .step, .tell, .step], .line [.cont], .line [.stepi], .interrupt, .line [.cont], .line [.wrong, .cont], .line [.cont], .again]

/-- The requests of this session, after the first two. -/
def calmMade : List Call :=
  [Spec.look 42, Spec.look 42, letGo 42 0, await 42, Spec.look 42, Spec.look 42, letGo 42 0, await 42, Spec.look 42] ++
  [letGo 42 0, await 42, print 42] ++ [.singlestep 0 42, await 42] ++ [letGo 42 10, await 42, print 42] ++ [letGo 42 15, await 42, Spec.look 42] ++
  [letGo 42 0, await 42, print 42]

theorem calm_talk : talk (tale calmStops) 42 (isExecve promptCfg) false none (firstTable 42 true false) calmWords =
    .asking (some [.cont]) ⟨sessionStart 42 true 1 ++ calmMade, 12, none, true⟩ := by rfl

theorem calm_typed : List.Forall₂ (TypedAs promptCfg 42) calmInputs calmWords :=
  .cons type_many (.cons type_cont (.cons type_stepi (.cons trivial (.cons type_cont (.cons type_wrong (.cons type_cont
    (.cons (show strip promptCfg.space [] = [] by decide +kernel) .nil)))))))

theorem calm_fits : ∀ x ∈ calmStops, Stop.fits x := by
  intro x hx
  simp only [calmStops, List.mem_cons, List.not_mem_nil, or_false] at hx
  rcases hx with h | h | h | h | h | h | h | h <;> subst h <;> trivial

example : given ((gdbRun (storyKern 42 (tale calmStops)) (8 + 1) promptCfg 42 true calmInputs (startState false)).2.log.map Entry.call) ++ [12] =
    [10, 15, 12] := by
  have := C133_delivery_partial _ promptCfg 42 (by decide) false true 19 (Or.inr rfl) _ (tale_plays 42 calmStops calm_fits) rfl calmInputs calmWords
    calm_typed (by decide) (by decide +kernel) 8 (sessionStart 42 true 1 ++ calmMade) (by rw [calm_talk]; rfl)
  rw [calm_talk, show ((reportedBy (tale calmStops) (sessionStart 42 true 1 ++ calmMade)).drop 1).filter genuine = [10, 15, 12] by
    decide +kernel, show [(Course.asking (some [.cont]) ⟨sessionStart 42 true 1 ++ calmMade, 12, none, true⟩).pending].filter genuine = [12] by
    decide +kernel] at this
  exact this

/-- A program that listens: it is stopped by `SIGTERM` and exits with 3 once it gets it. -/
def listens : Story where
  stops made := if (delivered made).contains 15 then some (.exited 3) else if delivered made = [] then some (.signal 5) else some (.signal 15)
  answer _ := 0

theorem listens_fits : ∀ made x, listens.stops made = some x → Stop.fits x := by
  intro made x h
  unfold listens at h
  dsimp only at h
  split at h
  · cases h; trivial
  · split at h <;> (cases h; trivial)

example : ∃ inputs' t, gdbMain (storyKern 42 listens) (8 + 1) promptCfg 42 true [.line "cont".toList, .line [], .line "cont".toList] (startState true) =
      (.ok (some inputs'), t) ∧ List.Forall₂ (TypedAs promptCfg 42) inputs' [.line [.cont]] ∧ t.list = [] ∧
      t.log.map Entry.call = sessionStart 42 true 17 ++ [letGo 42 0, await 42, print 42, letGo 42 15, await 42] := by
  have e : TypedAs promptCfg 42 (.line []) .again := show strip promptCfg.space [] = [] by decide +kernel
  exact (C133_run_partial _ promptCfg 42 (by decide) true true 5 (Or.inl rfl) _ (storyKern_plays 42 listens listens_fits) rfl _ [.line [.cont], .again, .line [.cont]]
    (.cons type_cont (.cons e (.cons type_cont .nil))) 8).1
    _ ⟨sessionStart 42 true 17 ++ [letGo 42 0, await 42, print 42, letGo 42 15, await 42], 0, none, false⟩ rfl

/-- **C133 refuted**: a signal is lost when a step is cut short by another one. `SIGUSR1` stops the program at `cont` and is kept; `SIGTERM` arrives
in the `stepi`. The next `cont` gives `SIGTERM`; `SIGUSR1` is never given. -/
theorem C133_lost_refuted :
    let log := (gdbRun (storyKern 42 (tale [.signal 5, .signal 10, .signal 15, .exited 0])) 9 promptCfg 42 true
      [.line "cont".toList, .line "stepi".toList, .line "cont".toList] (startState false)).2.log.map Entry.call
    log = sessionStart 42 true 1 ++ [letGo 42 0, await 42, print 42] ++ [.singlestep 0 42, await 42, print 42] ++ [letGo 42 15, await 42] ∧
    given log = [15] ∧ reportedBy (tale [.signal 5, .signal 10, .signal 15, .exited 0]) log = [5, 10, 15] := by
  refine ⟨?_, ?_, ?_⟩ <;> decide +kernel

/-- **C133 refuted**: a signal that arrives while gdb.py stops the program after Control-C is shown, but not kept. -/
theorem C133_interrupted_refuted :
    let log := (gdbRun (storyKern 42 (tale [.signal 5, .ctrlC, .signal 10, .exited 0])) 9 promptCfg 42 true
      [.line "cont".toList, .line "cont".toList] (startState false)).2.log.map Entry.call
    log = sessionStart 42 true 1 ++ [letGo 42 0, await 42, Spec.look 42, .kill 0 42 2, await 42, print 42] ++ [letGo 42 0, await 42] ∧
    given log = [] ∧ reportedBy (tale [.signal 5, .ctrlC, .signal 10, .exited 0]) log = [5, 10] := by
  refine ⟨?_, ?_, ?_⟩ <;> decide +kernel

/-- **C133 refuted**: after Control-C in a `stepi` the prompt is shown although the process runs: it is still thought to be stopped, so it is neither
interrupted nor awaited, and the next `cont` is for a running process. -/
theorem C133_running_refuted :
    (gdbRun (storyKern 42 (tale [.signal 5, .ctrlC, .exited 0])) 9 promptCfg 42 true [.line "stepi".toList, .interrupt, .line "cont".toList]
      (startState false)).2.log.map Entry.call =
    sessionStart 42 true 1 ++ [.singlestep 0 42, await 42] ++ [] ++ [letGo 42 0, await 42] := by decide +kernel

/-- **C133 refuted**: `sys` after a step takes the start of a system call for the end of the previous one. The program stops at the start and at the
end of a first call (the end is reported to `stepi` as a trap), then at the start and at the end of a second one. The third `sys` looks at the
process as at a start, which takes two looks; it is the end of the second call. -/
theorem C133_call_refuted :
    (gdbRun (storyKern 42 (tale [.signal 5, .signal 133, .signal 5, .signal 133, .signal 133])) 9 promptCfg 42 true
      [.line "sys".toList, .line "stepi".toList, .line "sys".toList, .line [], .eof] (startState false)).2.log.map Entry.call =
    sessionStart 42 true 1 ++ [go 42 0, await 42, Spec.look 42, Spec.look 42] ++ [.singlestep 0 42, await 42] ++ [go 42 0, await 42, Spec.look 42] ++
      [go 42 0, await 42, Spec.look 42, Spec.look 42] := by decide +kernel

/-- **C133 refuted**: a program that ends while gdb.py stops it after Control-C. The exception is caught nowhere: gdb.py fails, and the lines that
follow are not read. -/
theorem C133_failed_refuted :
    (gdbMain (storyKern 42 (tale [.signal 5, .ctrlC, .exited 0])) 9 promptCfg 42 true [.line "cont".toList, .line "regs".toList]
      (startState false)).1 = .ok none ∧
    (match (gdbRun (storyKern 42 (tale [.signal 5, .ctrlC, .exited 0])) 9 promptCfg 42 true [.line "cont".toList, .line "regs".toList]
      (startState false)).1 with
    | .error (.event (.exit _ _ _)) => true
    | _ => false) = true := by
  refine ⟨?_, ?_⟩ <;> decide +kernel

end PT
