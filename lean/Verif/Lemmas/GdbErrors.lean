import Verif.Lemmas.Errors
import Verif.Lemmas.Gdb2
import Verif.Model.GdbMain
import Verif.Spec.GdbErrors

/-! Which exceptions leave the commands and the main loop of gdb.py. -/

namespace PT

open PT.Spec

variable {K : Kern} {G : GdbCfg} {A : Prop} {α β : Type}

/-- Where the exception of a run of gdb.py comes from; `A`: a process was attached by a command. -/
def Blame (G : GdbCfg) (A : Prop) (s t : DSt) (e : Exc) : Prop :=
  FromOutside e ∨ (e = .key ∧ (Twice s t ∨ (A ∧ NumberTaken G t))) ∨ ∃ text, G.parse t text = .error e ∧ e ≠ .value

theorem Blame.before {s t u : DSt} {e : Exc} (hs : Old s t) (h : Blame G A t u e) : Blame G A s u e :=
  h.imp id fun h => h.imp (fun h => ⟨h.1, h.2.imp (fun h => h.before hs) id⟩) id

theorem Blame.mono {B : Prop} (hAB : A → B) {s t : DSt} {e : Exc} (h : Blame G A s t e) : Blame G B s t e :=
  h.imp id fun h => h.imp (fun h => ⟨h.1, h.2.imp id fun h => ⟨hAB h.1, h.2⟩⟩) id

/-- The result of a run from `s`. -/
structure GClean (G : GdbCfg) (A : Prop) (s : DSt) (x : Except Exc α × GSt) : Prop where
  old : Old s x.2.dbg
  err : ∀ e, x.1 = .error e → Blame G A s x.2.dbg e

theorem GClean.mono {B : Prop} (hAB : A → B) {s : DSt} {x : Except Exc α × GSt} (h : GClean G A s x) : GClean G B s x :=
  ⟨h.old, fun e he => (h.err e he).mono hAB⟩

theorem GClean.ok {s : DSt} {t : GSt} (a : α) (h : Old s t.dbg) : GClean G A s ((.ok a, t) : Except Exc α × GSt) :=
  ⟨h, fun _ h => nomatch h⟩

theorem GClean.pure (a : α) (g : GSt) : GClean G A g.dbg ((Py.pure a : Py GSt α) g) := .ok a (Old.refl _)

theorem GClean.error {s : DSt} {t : GSt} {e : Exc} (h : Old s t.dbg) (he : Blame G A s t.dbg e) :
    GClean G A s ((.error e, t) : Except Exc α × GSt) :=
  ⟨h, fun _ h' => by injection h' with h'; subst h'; exact he⟩

theorem GClean.from {s : DSt} {t : GSt} (h1 : Old s t.dbg) {x : Except Exc α × GSt} (h : GClean G A t.dbg x) : GClean G A s x :=
  ⟨h1.trans h.old, fun e he => (h.err e he).before h1⟩

theorem GClean.bind {m : Py GSt α} {f : α → Py GSt β} {g : GSt} (hm : GClean G A g.dbg (m g))
    (hf : ∀ a t, m g = (.ok a, t) → Old g.dbg t.dbg → GClean G A t.dbg (f a t)) : GClean G A g.dbg (Py.bind m f g) := by
  unfold Py.bind
  generalize hx : m g = x at hm
  obtain ⟨r, t⟩ := x
  cases r with
  | ok a => exact .from hm.old (hf a t hx hm.old)
  | error e => exact .error hm.old (hm.err e rfl)

theorem GClean.lift {m : Py DSt α} {g : GSt} (h : CleanRun g.dbg (m g.dbg)) : GClean G A g.dbg (PT.lift m g) :=
  ⟨h.old, fun e he => (h.err e he).imp id fun h => Or.inl ⟨h.1, Or.inl h.2⟩⟩

/-- Code of the library, then something else with the same current process. -/
theorem GClean.liftBind {m : Py DSt α} {f : α → Py GSt β} {g : GSt} (hm : CleanRun g.dbg (m g.dbg))
    (hf : ∀ a t, Old g.dbg t.dbg → t.process = g.process → GClean G A t.dbg (f a t)) : GClean G A g.dbg (Py.bind (PT.lift m) f g) := by
  refine GClean.bind (GClean.lift hm) fun a t ht h1 => hf a t h1 ?_
  injection ht with _ ht
  rw [← ht]

theorem gclean_look (g : GSt) : GClean G A g.dbg (look K g) := .lift (m := ptraceCall K _) (clean_ptraceCall _ _)

theorem gclean_signal (o n : Nat) (g : GSt) : GClean G A g.dbg (processSignal K o n g) :=
  .liftBind (clean_display o _) fun _ _ _ _ => .ok () (Old.refl _)

theorem gclean_continue (o n : Nat) (g : GSt) : GClean G A g.dbg (continueProcess K o n g) := by
  unfold continueProcess
  split
  · exact .liftBind (clean_cont o _ _) fun _ _ _ _ => .ok () (Old.refl _)
  · exact .lift (clean_cont o _ _)

theorem gclean_contAll (n : Nat) : ∀ os g, GClean G A g.dbg (contAll K n os g)
  | [], g => .pure () g
  | o :: os, g => by
    refine GClean.liftBind (clean_updSys o _ _) fun _ s _ _ => GClean.bind (g := s) ?_ fun _ t _ _ => gclean_contAll n os t
    split
    · exact gclean_continue o n _
    · exact gclean_continue o 0 _

theorem gclean_cont (hz : NoZero K) {g : GSt} (h : Ready g) (fuel n : Nat) : GClean G A g.dbg (gdbCont K fuel n g) := by
  unfold gdbCont
  refine (gclean_contAll n _ g).bind fun _ t ht _ => ?_
  have hs := Safe.contAll (K := K) n (iterate g.dbg) g h
  rw [ht] at hs
  have hr := hs.ready
  refine GClean.liftBind (clean_waitSignals hz hr.good fuel [] none (fun h => nomatch h) fun _ h0 => ?_) fun ev s _ _ => ?_
  · have := hr.mem
    rw [h0] at this
    cases this
  · unfold contSignal
    split
    · split
      · exact (gclean_look _).bind fun _ u _ _ => .pure true u
      · exact (gclean_signal _ _ _).bind fun _ u _ _ => .pure true u
    · exact .pure true _

theorem gclean_arg {g : GSt} {e : Exc} (h : e ≠ .value → Blame G A g.dbg g.dbg e) : GClean G A g.dbg (argError e g) := by
  unfold argError
  split
  · exact .pure false g
  · rename_i he
    exact .error (Old.refl _) (h he)

theorem parseSignum_error {signals : List (Str × Nat)} {parse : Str → Except Exc Int} {command : Str} {e : Exc}
    (h : parseSignum signals parse command = .error e) : parse command = .error e := by
  unfold parseSignum at h
  split at h
  · cases h
  · split at h
    · cases h
    · split at h
      · cases h
      · rename_i he
        rw [he]
        exact congrArg _ (by injection h)
      · rename_i he
        rw [he]
        exact congrArg _ (by injection h)

theorem gclean_gdbSignal (hz : NoZero K) {g : GSt} (h : Ready g) (fuel : Nat) (arg : Str) : GClean G A g.dbg (gdbSignal K fuel G arg g) := by
  unfold gdbSignal
  split
  · rename_i e he
    refine gclean_arg fun hv => Or.inr (Or.inr ⟨arg, ?_, hv⟩)
    have := parseSignum_error he
    cases hx : G.parse g.dbg arg with
    | ok n => rw [hx] at this; cases this
    | error e' =>
      rw [hx] at this
      injection this with this
      rw [this]
  · have := gclean_cont (G := G) (A := A) hz h fuel
    exact ⟨(this _).old, (this _).err⟩

theorem clean_attachNew (hz : NoZero K) (ha : NoAttachZero K) (fuel pid : Nat) (s : DSt) :
    CleanRun s (addProcess K (waitEventPid K fuel) pid false none false s) ∨
    (addProcess K (waitEventPid K fuel) pid false none false s = (.error .key, s) ∧ ∃ o, (pid, o) ∈ s.dict) := by
  cases hd : dictHas s.dict pid with
  | true =>
    refine Or.inr ⟨?_, dictHas_mem hd⟩
    unfold addProcess
    rw [hd]; rfl
  | false =>
    left
    by_cases hp : pid = 0
    · subst hp
      unfold addProcess
      rw [hd]
      simp only [Bool.false_eq_true, if_false]
      unfold newProc Py.bind
      simp only [Bool.false_eq_true, if_false]
      rw [ptraceCall_run]
      cases hk : K s.log (.attach s.next 0) with
      | ok v st => exact absurd hk (ha _ _ _ _)
      | err e => exact clean_err (Old.logCall _ s)
      | interrupt => exact clean_err (Old.logCall _ s)
    · exact (clean_addProcess (clean_waitEventPid hz fuel) pid false none false hp s hd).1

theorem gclean_attach (hz : NoZero K) (ha : NoAttachZero K) (hA : A) (fuel : Nat) (arg : Str) (g : GSt) : GClean G A g.dbg (gdbAttach K fuel G arg g) := by
  unfold gdbAttach
  split
  · rename_i e he
    exact gclean_arg fun hv => Or.inr (Or.inr ⟨arg, he, hv⟩)
  · rename_i pid hpid
    rcases clean_attachNew hz ha fuel pid g.dbg with h | ⟨h, o, ho⟩
    · exact .liftBind h fun o s _ _ => .ok true (Old.refl _)
    · unfold Py.bind lift
      rw [h]
      exact .error (Old.refl _) (Or.inr (Or.inl ⟨rfl, Or.inr ⟨hA, arg, pid, o, hpid, ho⟩⟩))

theorem gclean_stepWait (hz : NoZero K) (g : GSt) (hn : NamedObj g.dbg g.process) (fuel : Nat) (b : Bool) : GClean G A g.dbg (stepWait K fuel b g) := by
  have h := clean_waitSignalsOf (K := K) hz g.dbg fuel [SIGTRAP] (g.dbg.heap g.process).pid hn.2
  unfold stepWait lift
  generalize waitSignals K fuel [SIGTRAP] (some (g.dbg.heap g.process).pid) g.dbg = x at h
  obtain ⟨r, t⟩ := x
  have ht : Old g.dbg t := h.old
  cases r with
  | ok ev =>
    dsimp only
    split
    · exact .from (t := { g with dbg := t }) ht ((gclean_look _).bind fun _ u _ _ => .pure true u)
    · exact .ok true ht
  | error e =>
    dsimp only
    have he := h.err e rfl
    split
    · unfold Py.bind
      have hl := gclean_look (K := K) (G := G) (A := A) { g with dbg := t }
      generalize look K { g with dbg := t } = y at hl
      obtain ⟨r2, u⟩ := y
      cases r2 with
      | ok v => exact .error (ht.trans hl.old) (he.imp id fun h => Or.inl ⟨h.1, Or.inl (h.2.after hl.old)⟩)
      | error e2 => exact .error (ht.trans hl.old) ((hl.err e2 rfl).before ht)
    · exact .error ht (he.imp id fun h => Or.inl ⟨h.1, Or.inl h.2⟩)

theorem gclean_step (hz : NoZero K) (g : GSt) (hn : NamedObj g.dbg g.process) (fuel : Nat) (enter : Bool) : GClean G A g.dbg (gdbStep K fuel enter g) := by
  unfold gdbStep
  split
  · exact GClean.liftBind (m := procSingleStep K g.process) (clean_voidPt _ _) fun _ s h1 h2 => gclean_stepWait hz s (by rw [h2]; exact hn.after h1) fuel false
  · refine GClean.liftBind (m := ptraceCall K (.inspect g.process (g.dbg.heap g.process).pid)) (clean_ptraceCall _ _) fun v s h1 h1' => ?_
    split
    · exact .pure false _
    · show GClean G A s.dbg (Py.bind (lift (procCont K s.process 0)) _ s)
      exact GClean.liftBind (clean_cont _ _ _) fun _ u h2 h2' =>
        gclean_stepWait hz u (by rw [h2', h1']; exact (hn.after h1).after h2) fuel true

theorem gclean_sys (hz : NoZero K) (g : GSt) (hn : NamedObj g.dbg g.process) (fuel : Nat) : GClean G A g.dbg (gdbSys K fuel G g) := by
  refine GClean.liftBind (m := procSyscall K g.process 0) (clean_syscall _ _ _) fun _ s h1 h1' => ?_
  have hn1 : NamedObj s.dbg s.process := by rw [h1']; exact hn.after h1
  show GClean G A s.dbg (Py.bind (lift (waitSyscall K fuel (some s.process))) _ s)
  refine GClean.liftBind (clean_waitSignalsOf hz _ fuel _ _ hn1.2) fun _ u h2 h2' => ?_
  have hn2 : NamedObj u.dbg u.process := by rw [h2']; exact hn1.after h2
  show GClean G A u.dbg (Py.bind (lift (sysEvent K fuel G.sys u.process)) _ u)
  exact GClean.liftBind (clean_sysEvent hz fuel _ _ _ hn2) fun _ v _ _ => .pure true v

theorem gclean_switch {g : GSt} (h : Ready g) (arg : Str) : GClean G A g.dbg (gdbSwitch G arg g) := by
  unfold gdbSwitch
  split
  · obtain ⟨i, hi, h2, ok, hj, hrun⟩ := gdbSwitchNext_run h.mem
    rw [hrun]
    exact .ok ok (Old.refl _)
  · split
    · rename_i e he
      exact gclean_arg fun hv => Or.inr (Or.inr ⟨arg, he, hv⟩)
    · split
      · exact .ok true (Old.refl _)
      · exact .ok false (Old.refl _)

/-- The command attaches a process. -/
def Attaches (c : Str) : Prop := "attach ".toList <+: c

theorem ite_rest {P : Prop} [Decidable P] {a b x : Command} (ha : P → a ≠ x) (h : (if P then a else b) = x) : b = x := by
  by_cases hp : P
  · rw [if_pos hp] at h
    exact absurd h (ha hp)
  · rwa [if_neg hp] at h

theorem attaches_of_parse {c arg : Str} (h : parseCommand c = .attach arg) : Attaches c := by
  by_contra hn
  have hp : "attach ".toList.isPrefixOf c = true → Command.attach (c.drop 7) ≠ .attach arg := fun hx => absurd (List.isPrefixOf_iff_prefix.1 hx) hn
  unfold parseCommand at h
  repeat first
    | replace h := ite_rest (fun _ => Command.noConfusion) h
    | replace h := ite_rest hp h
  cases h

theorem gclean_execute (hz : NoZero K) (ha : NoAttachZero K) {g : GSt} (h : Ready g) (fuel : Nat) (c : Str) :
    GClean G (Attaches c) g.dbg (gdbExecute K fuel G c g) := by
  have hn : NamedObj g.dbg g.process := h.good.named _ h.mem
  unfold gdbExecute
  cases hc : parseCommand c with
  | cont => exact gclean_cont hz h fuel 0
  | signal arg => exact gclean_gdbSignal hz h fuel arg
  | attach arg => exact gclean_attach hz ha (attaches_of_parse hc) fuel arg g
  | step enter => exact gclean_step hz g hn fuel enter
  | «until» arg =>
    show GClean G _ g.dbg (gdbUntil K fuel G arg g)
    unfold gdbUntil
    split
    · rename_i e he
      exact gclean_arg fun hv => Or.inr (Or.inr ⟨arg, he, hv⟩)
    · exact gclean_step hz g hn fuel false
  | sys => exact gclean_sys hz g hn fuel
  | switch arg => exact gclean_switch h arg
  | look => exact (gclean_look g).bind fun _ t _ _ => .pure _ t
  | info => exact .pure true g
  | unknown => exact .pure false g

theorem clean_interruptSend : ∀ os s, CleanRun s (interruptSend K os s)
  | [], s => .pure [] s
  | o :: os, s => by
    rw [interruptSend]
    dsimp only
    split
    · exact clean_interruptSend os s
    · refine (clean_ptraceCall _ s).bind fun v t _ _ => ?_
      split
      · exact clean_interruptSend os t
      · exact (clean_kill o _ t).bind fun _ u _ _ => (clean_interruptSend os u).bind fun _ w _ _ => .pure _ w

theorem clean_interruptWait (hz : NoZero K) (fuel : Nat) : ∀ os s, (∀ o ∈ os, NamedObj s o) → CleanRun s (interruptWait K fuel os s)
  | [], s, _ => .pure () s
  | o :: os, s, hn => by
    rw [interruptWait]
    refine CleanRun.bind ?_ fun _ t _ h1 => clean_interruptWait hz fuel os t fun o' ho => (hn o' (List.mem_cons_of_mem _ ho)).after h1
    have h := clean_waitSignalsOf (K := K) hz s fuel [SIGINT] (s.heap o).pid (hn o List.mem_cons_self).2
    generalize waitSignals K fuel [SIGINT] (some (s.heap o).pid) s = x at h
    obtain ⟨r, t⟩ := x
    cases r with
    | ok ev => exact .ok () h.old
    | error e =>
      have hre : CleanRun s ((.error e, t) : Except Exc Unit × DSt) :=
        ⟨h.old, fun e' he => by injection he with he; subst he; exact h.err _ rfl,
          fun q he => by injection he with he; subst he; exact h.par q rfl⟩
      cases e with
      | event ev =>
        cases ev with
        | signal q n => exact clean_then (m := eventDisplay K q) h.old (clean_display q t)
        | _ => exact hre
      | interrupt => exact .ok () h.old
      | _ => exact hre

theorem gclean_interrupt (hz : NoZero K) (fuel : Nat) {g : GSt} (hn : ∀ o ∈ g.dbg.list, NamedObj g.dbg o) : GClean G A g.dbg (gdbInterrupt K fuel g) := by
  refine .lift (m := Py.bind (interruptSend K (iterate g.dbg)) (interruptWait K fuel)) ?_
  exact (clean_interruptSend _ _).bind fun ws t ht h1 => clean_interruptWait hz fuel ws t fun o ho =>
    (hn o (interruptSend_mem _ _ _ _ ht o ho)).after h1

theorem gclean_next (g : GSt) : GClean G A g.dbg (nextProcess g) := by
  unfold nextProcess
  split
  · exact .ok () (Old.refl _)
  · exact .ok () (Old.refl _)

theorem gclean_except (hz : NoZero K) (fuel : Nat) {s : DSt} {g : GSt} {e : Exc} (hg : Good g.dbg) (h : GClean G A s ((.error e, g) : Except Exc Bool × GSt)) :
    GClean G A s (gdbExcept K fuel G e g) := by
  have hre : GClean G A s ((.error e, g) : Except Exc Unit × GSt) := .error h.old (h.err e rfl)
  cases e with
  | interrupt => exact .from h.old (gclean_interrupt hz fuel hg.named)
  | event ev =>
    cases ev with
    | newProcess q => exact .ok () h.old
    | signal o n => exact .from h.old (gclean_signal o n g)
    | exit o a b => exact .from h.old (gclean_next g)
    | execution o => exact .from h.old (gclean_interrupt (g := { g with process := o }) hz fuel hg.named)
  | ptrace errno =>
    show GClean G A s ((if errno = some ESRCH then gdbDeleteProcess K (G.errPid g.dbg) g else (.ok (), g)) : Except Exc Unit × GSt)
    split
    · refine .from h.old ?_
      unfold gdbDeleteProcess
      split
      · exact .ok () (Old.refl _)
      · rename_i o _
        refine GClean.liftBind (m := processTerminated K o) ((clean_notRunning o _).bind fun _ t _ _ => .pure _ t) fun _ u _ _ => ?_
        split
        · exact gclean_next _
        · exact .ok () (Old.refl _)
    · exact .ok () h.old
  | _ => exact hre

/-- A command of the line attaches a process. -/
def AttachLine (space : Char → Bool) (line : Str) : Prop := ∃ cs, Commands space line cs ∧ ∃ c ∈ cs, Attaches c

theorem gclean_line (hz : NoZero K) (ha : NoAttachZero K) (hG : NoEvent G) (fuel : Nat) : ∀ ps g, Ready g →
    GClean G (∃ p ∈ ps, Attaches (strip G.space p)) g.dbg (runLine (gdbExecute K fuel G) G.space ps g) ∧ Safe (runLine (gdbExecute K fuel G) G.space ps g)
  | [], g, h => ⟨.pure true g, h.safe true⟩
  | p :: ps, g, h => by
    have h1 := (gclean_execute (G := G) hz ha h fuel (strip G.space p)).mono (B := ∃ p' ∈ p :: ps, Attaches (strip G.space p')) fun hx => ⟨p, List.mem_cons_self, hx⟩
    have h2 := Safe.gdbExecute hz ha h fuel G hG (strip G.space p)
    rw [runLine]
    constructor
    · refine h1.bind fun ok t ht _ => ?_
      rw [ht] at h2
      cases ok with
      | true => exact (gclean_line hz ha hG fuel ps t h2.ready).1.mono fun ⟨p', hp, hx⟩ => ⟨p', List.mem_cons_of_mem _ hp, hx⟩
      | false => exact .pure false t
    · refine h2.bind fun ok t _ hr => ?_
      cases ok with
      | true => exact (gclean_line hz ha hG fuel ps t hr).2
      | false => exact hr.safe false

/-- The same with the state of the main loop. -/
structure LClean (G : GdbCfg) (A : Prop) (s : DSt) (x : Except Exc α × (Option Str × GSt)) : Prop where
  old : Old s x.2.2.dbg
  err : ∀ e, x.1 = .error e → Blame G A s x.2.2.dbg e

theorem GClean.loop {s : DSt} {r : Except Exc α} {t : GSt} {p : Option Str} (h : GClean G A s (r, t)) : LClean G A s (r, (p, t)) := ⟨h.old, h.err⟩

theorem LClean.ok {s : DSt} {t : Option Str × GSt} (a : α) (h : Old s t.2.dbg) : LClean G A s ((.ok a, t) : Except Exc α × _) := ⟨h, fun _ h => nomatch h⟩

theorem lclean_line (hz : NoZero K) (ha : NoAttachZero K) (hG : NoEvent G) (fuel : Nat) (command : Str) (s : Option Str × GSt) (h : Ready s.2)
    (hA : AttachLine G.space command → A) : LClean G A s.2.dbg (mainLine (gdbExecute K fuel G) (gdbExcept K fuel G) G.space command s) ∧
      ∀ c, (mainLine (gdbExecute K fuel G) (gdbExcept K fuel G) G.space command s).2.1 = some c → c = command := by
  have hl := gclean_line (G := G) hz ha hG fuel (splitOn ';' command) s.2 h
  have hl1 := hl.1.mono (B := A) fun ⟨p, hp, hx⟩ => hA ⟨_, commands_iff.2 rfl, _, List.mem_map.2 ⟨p, hp, rfl⟩, hx⟩
  have hs := hl.2
  unfold mainLine
  split
  · exact ⟨.ok true (Old.refl _), fun c hc => nomatch hc⟩
  · generalize runLine (gdbExecute K fuel G) G.space (splitOn ';' command) s.2 = x at hl1 hs
    obtain ⟨r, t⟩ := x
    cases r with
    | ok ok =>
      refine ⟨.ok false hl1.old, fun c hc => ?_⟩
      cases ok with
      | true => injection hc with hc; exact hc.symm
      | false => cases hc
    | error e =>
      dsimp only
      have hx := gclean_except hz fuel hs.good hl1
      generalize gdbExcept K fuel G e t = y at hx
      obtain ⟨r2, u⟩ := y
      cases r2 with
      | ok a => exact ⟨.ok false hx.old, fun c hc => nomatch hc⟩
      | error e2 => exact ⟨GClean.loop (GClean.error hx.old (hx.err e2 rfl)), fun c hc => nomatch hc⟩

theorem lclean_loop (hz : NoZero K) (ha : NoAttachZero K) (hG : NoEvent G) (fuel : Nat) (input : Input) (s : Option Str × GSt) (h : Ready s.2)
    (hp : ∀ c, s.1 = some c → AttachLine G.space c → A) (hi : ∀ text, input = .line text → AttachLine G.space (strip G.space text) → A) :
    LClean G A s.2.dbg (gdbLoop K fuel G input s) ∧ ∀ c, (gdbLoop K fuel G input s).2.1 = some c → AttachLine G.space c → A := by
  unfold gdbLoop mainLoop
  cases input with
  | eof => exact ⟨.ok true (Old.refl _), hp⟩
  | interrupt =>
    dsimp only
    have hx := gclean_interrupt (G := G) (A := A) hz fuel h.good.named
    generalize gdbInterrupt K fuel s.2 = x at hx
    obtain ⟨r, u⟩ := x
    cases r with
    | ok _ => exact ⟨.ok false hx.old, hp⟩
    | error e => exact ⟨GClean.loop (GClean.error hx.old (hx.err e rfl)), hp⟩
  | line text =>
    dsimp only
    have key : ∀ c, (AttachLine G.space c → A) → LClean G A s.2.dbg (mainLine (gdbExecute K fuel G) (gdbExcept K fuel G) G.space c s) ∧
        ∀ c', (mainLine (gdbExecute K fuel G) (gdbExcept K fuel G) G.space c s).2.1 = some c' → AttachLine G.space c' → A := by
      intro c hc
      have hl := lclean_line hz ha hG fuel c s h hc
      exact ⟨hl.1, fun c' hc' => by rw [hl.2 c' hc']; exact hc⟩
    by_cases h1 : (strip G.space text).isEmpty = true
    · rw [if_pos h1]
      cases hs : s.1 with
      | none => exact ⟨.ok false (Old.refl _), hp⟩
      | some c =>
        dsimp only
        by_cases h2 : c.isEmpty = true
        · rw [if_pos h2]; exact ⟨.ok false (Old.refl _), hp⟩
        · rw [if_neg h2]; exact key c (hp c hs)
    · rw [if_neg h1]
      exact key _ (hi text rfl)

theorem lclean_lines (hz : NoZero K) (ha : NoAttachZero K) (hG : NoEvent G) (fuel : Nat) : ∀ (inputs : List Input) (s : Option Str × GSt), Prompt s.2 →
    (∀ c, s.1 = some c → AttachLine G.space c → A) → (∀ text, .line text ∈ inputs → AttachLine G.space (strip G.space text) → A) →
    LClean G A s.2.dbg (gdbLines K fuel G inputs s)
  | [], s, h, hp, hi => by
    rw [gdbLines]
    dsimp only
    split
    · exact .ok _ (Old.refl _)
    · have hl := (lclean_loop (K := K) hz ha hG fuel .eof s ⟨h.good, h.mem.elim (fun h0 => by simp_all [length]) id, h.held⟩ hp (fun _ h => nomatch h)).1
      unfold Py.bind
      generalize gdbLoop K fuel G .eof s = x at hl
      obtain ⟨r, t⟩ := x
      cases r with
      | ok a => exact .ok _ hl.old
      | error e => exact ⟨hl.old, fun e' he => by injection he with he; subst he; exact hl.err _ rfl⟩
  | input :: rest, s, h, hp, hi => by
    rw [gdbLines]
    dsimp only
    split
    · exact .ok _ (Old.refl _)
    · have hr : Ready s.2 := ⟨h.good, h.mem.elim (fun h0 => by simp_all [length]) id, h.held⟩
      have hl := lclean_loop (K := K) hz ha hG fuel input s hr hp (fun text ht => hi text (by rw [ht]; exact List.mem_cons_self))
      unfold Py.bind
      generalize hx : gdbLoop K fuel G input s = x at hl
      obtain ⟨r, t⟩ := x
      cases r with
      | error e => exact ⟨hl.1.old, fun e' he => by injection he with he; subst he; exact hl.1.err _ rfl⟩
      | ok done =>
        dsimp only
        have ht : Prompt t.2 := gdbLoop_prompt (p := s.1) (p' := t.1) hz ha fuel G hG hr hx
        cases done with
        | true => exact .ok _ hl.1.old
        | false =>
          have := lclean_lines hz ha hG fuel rest t ht hl.2 fun text ht' => hi text (List.mem_cons_of_mem _ ht')
          exact ⟨hl.1.old.trans this.old, fun e he => (this.err e he).before hl.1.old⟩

/-! ### the state after it -/

theorem good_interruptWait (hz : NoZero K) (fuel : Nat) : ∀ os s, Good s → (∀ o ∈ os, o < s.next) → Good (PT.interruptWait K fuel os s).2
  | [], _, h, _ => h
  | o :: os, s, h, hos => by
    have hp : some (s.heap o).pid ≠ some 0 := by
      intro h0
      injection h0 with h0
      exact h.pid.obj _ (hos o List.mem_cons_self) h0
    have hf := (waitSignals_fine hz h fuel [SIGINT] (some (s.heap o).pid) hp).1
    have hrest : ∀ t, Good t → s.next ≤ t.next → Good (PT.interruptWait K fuel os t).2 := fun t ht hn =>
      good_interruptWait hz fuel os t ht fun i hi => Nat.lt_of_lt_of_le (hos i (List.mem_cons_of_mem _ hi)) hn
    rw [PT.interruptWait]
    unfold Py.bind
    dsimp only
    generalize waitSignals K fuel [SIGINT] (some (s.heap o).pid) s = x at hf
    obtain ⟨r, t⟩ := x
    cases r with
    | ok ev => exact hrest t hf.good hf.next
    | error e =>
      cases e with
      | event ev =>
        cases ev with
        | signal q n =>
          have hd := Fine.eventDisplay (K := K) hf.good q
          dsimp only at hd ⊢
          generalize eventDisplay K q t = y at hd
          obtain ⟨r2, u⟩ := y
          cases r2 with
          | ok _ => exact hrest u hd.good (Nat.le_trans hf.next hd.next)
          | error _ => exact hd.good
        | _ => exact hf.good
      | interrupt => exact hrest t hf.good hf.next
      | _ => exact hf.good

theorem good_gdbInterrupt (hz : NoZero K) (fuel : Nat) {g : GSt} (h : Good g.dbg) : Good (PT.gdbInterrupt K fuel g).2.dbg := by
  show Good (Py.bind (interruptSend K (iterate g.dbg)) (PT.interruptWait K fuel) g.dbg).2
  have hf := interruptSend_fine (K := K) (iterate g.dbg) g.dbg h
  have hm := interruptSend_mem (K := K) (iterate g.dbg) g.dbg
  unfold Py.bind
  generalize interruptSend K (iterate g.dbg) g.dbg = x at hf hm
  obtain ⟨r, t⟩ := x
  cases r with
  | ok ws => exact good_interruptWait hz fuel ws t hf.good fun o ho => Nat.lt_of_lt_of_le (h.reg.alloc o (hm t ws rfl o ho)) hf.next
  | error e => exact hf.good

theorem good_gdbExcept (hz : NoZero K) (fuel : Nat) {g : GSt} (h : Good g.dbg) (e : Exc) : Good (PT.gdbExcept K fuel G e g).2.dbg := by
  have hnext : ∀ g : GSt, Good g.dbg → Good (nextProcess g).2.dbg := by
    intro g h
    unfold nextProcess
    split <;> exact h
  cases e with
  | interrupt => exact good_gdbInterrupt hz fuel h
  | event ev =>
    cases ev with
    | newProcess q => exact h
    | signal o n =>
      have hd := Fine.eventDisplay (K := K) h o
      show Good (processSignal K o n g).2.dbg
      unfold processSignal Py.bind lift
      generalize eventDisplay K o g.dbg = y at hd
      obtain ⟨r2, u⟩ := y
      cases r2 <;> exact hd.good
    | exit o a b => exact hnext g h
    | execution o => exact good_gdbInterrupt (g := { g with process := o }) hz fuel h
  | ptrace errno =>
    show Good ((if errno = some ESRCH then gdbDeleteProcess K (G.errPid g.dbg) g else (.ok (), g)) : Except Exc Unit × GSt).2.dbg
    split
    · unfold gdbDeleteProcess
      split
      · exact h
      · rename_i o ho
        have hlt : o < g.dbg.next := h.reg.alloc o ((h.reg.agree _ o).1 (dictGet_some ho)).1
        have hrun : lift (processTerminated K o) g = (.ok (.exit o none none), { g with dbg := gone o g.dbg }) := by
          unfold lift; rw [notRunning_gone]
        rw [Py.run_bind_ok hrun]
        have hg := h.gone hz (K := K) hlt
        split
        · exact hnext _ hg
        · exact hg
    · exact h
  | _ => exact h

theorem good_mainLine (hz : NoZero K) (ha : NoAttachZero K) (hG : NoEvent G) (fuel : Nat) (command : Str) (s : Option Str × GSt) (h : Ready s.2) :
    Good (PT.mainLine (gdbExecute K fuel G) (PT.gdbExcept K fuel G) G.space command s).2.2.dbg := by
  have hs := (gclean_line (G := G) hz ha hG fuel (splitOn ';' command) s.2 h).2
  unfold PT.mainLine
  split
  · exact h.good
  · generalize runLine (gdbExecute K fuel G) G.space (splitOn ';' command) s.2 = x at hs
    obtain ⟨r, t⟩ := x
    cases r with
    | ok ok => exact hs.good
    | error e =>
      dsimp only
      have hx := good_gdbExcept (K := K) (G := G) hz fuel hs.good e
      dsimp only at hx
      generalize PT.gdbExcept K fuel G e t = y at hx
      obtain ⟨r2, u⟩ := y
      cases r2 <;> exact hx

theorem good_gdbLoop (hz : NoZero K) (ha : NoAttachZero K) (hG : NoEvent G) (fuel : Nat) (input : Input) (s : Option Str × GSt) (h : Ready s.2) :
    Good (PT.gdbLoop K fuel G input s).2.2.dbg := by
  unfold PT.gdbLoop mainLoop
  cases input with
  | eof => exact h.good
  | interrupt =>
    dsimp only
    have hx := good_gdbInterrupt (K := K) hz fuel h.good
    generalize PT.gdbInterrupt K fuel s.2 = x at hx
    obtain ⟨r, u⟩ := x
    cases r <;> exact hx
  | line text =>
    dsimp only
    have key := fun c => good_mainLine hz ha hG fuel c s h
    by_cases h1 : (strip G.space text).isEmpty = true
    · rw [if_pos h1]
      cases hs : s.1 with
      | none => exact h.good
      | some c =>
        dsimp only
        by_cases h2 : c.isEmpty = true
        · rw [if_pos h2]; exact h.good
        · rw [if_neg h2]; exact key c
    · rw [if_neg h1]
      exact key _

theorem good_gdbLines (hz : NoZero K) (ha : NoAttachZero K) (hG : NoEvent G) (fuel : Nat) : ∀ (inputs : List Input) (s : Option Str × GSt), Prompt s.2 →
    Good (PT.gdbLines K fuel G inputs s).2.2.dbg
  | [], s, h => by
    rw [PT.gdbLines]
    dsimp only
    split
    · exact h.good
    · have hl := good_gdbLoop (K := K) hz ha hG fuel .eof s ⟨h.good, h.mem.elim (fun h0 => by simp_all [length]) id, h.held⟩
      unfold Py.bind
      generalize PT.gdbLoop K fuel G .eof s = x at hl
      obtain ⟨r, t⟩ := x
      cases r <;> exact hl
  | input :: rest, s, h => by
    rw [PT.gdbLines]
    dsimp only
    split
    · exact h.good
    · have hr : Ready s.2 := ⟨h.good, h.mem.elim (fun h0 => by simp_all [length]) id, h.held⟩
      have hl := good_gdbLoop (K := K) hz ha hG fuel input s hr
      unfold Py.bind
      generalize hx : PT.gdbLoop K fuel G input s = x at hl
      obtain ⟨r, t⟩ := x
      cases r with
      | error e => exact hl
      | ok done =>
        dsimp only
        have ht : Prompt t.2 := gdbLoop_prompt (p := s.1) (p' := t.1) hz ha fuel G hG hr hx
        cases done with
        | true => exact hl
        | false => exact good_gdbLines hz ha hG fuel rest t ht

/-- `runDebugger`. -/
theorem gclean_run (hz : NoZero K) (ha : NoAttachZero K) (hG : NoEvent G) {s : DSt} (hg : Good s) (fuel pid : Nat) (isAttached : Bool) (inputs : List Input)
    (hp : pid ≠ 0) (hd : dictHas s.dict pid = false) :
    (∀ e, (gdbRun K fuel G pid isAttached inputs s).1 = .error e → Blame G (TypedAttach G.space inputs) s (gdbRun K fuel G pid isAttached inputs s).2 e) ∧
      Old s (gdbRun K fuel G pid isAttached inputs s).2 ∧ Good (gdbRun K fuel G pid isAttached inputs s).2 := by
  have hc := clean_createProcess (K := K) hz hg fuel pid isAttached hp hd
  unfold gdbRun Py.bind
  have hmem : ∀ o u, createProcess K fuel pid isAttached s = (.ok (some o), u) → o ∈ u.list := by
    intro o u hu
    unfold createProcess at hu
    split at hu
    · rename_i o' t' ho
      injection hu with h1 h2
      injection h1 with h1
      injection h1 with h1
      subst h1 h2
      have hout : AddOK s t' pid isAttached none false o' :=
        addProcess_out (fun wanted s hw hr => waitEventPid_out hz fuel wanted true s hw hr) pid hp isAttached none false s hg.reg _ t' ho
      exact hout.mem
    · cases hu
    · cases hu
    · cases hu
  generalize createProcess K fuel pid isAttached s = x at hc hmem
  obtain ⟨r, u⟩ := x
  cases r with
  | error e' => exact ⟨fun e he => (hc.1.err e (by injection he with he; rw [he])).imp id fun h => Or.inl ⟨h.1, Or.inl h.2⟩, hc.1.old, hc.2⟩
  | ok o =>
    cases o with
    | none => exact ⟨(fun e he => nomatch he), hc.1.old, hc.2⟩
    | some o =>
      have hpr : Prompt ((none, ⟨u, o, fun _ => none⟩) : Option Str × GSt).2 := ⟨hc.2, Or.inr (hmem o u rfl), fun _ _ h => nomatch h⟩
      have hl := lclean_lines (K := K) (A := TypedAttach G.space inputs) hz ha hG fuel inputs (none, ⟨u, o, fun _ => none⟩)
        hpr (fun _ h => nomatch h)
        fun text ht ⟨cs, h1, c, h2, h3⟩ => ⟨text, _, cs, c, ht, stripped_iff.2 rfl, h1, h2, h3⟩
      have hl2 := good_gdbLines (K := K) hz ha hG fuel inputs _ hpr
      dsimp only
      generalize gdbLines K fuel G inputs (none, ⟨u, o, fun _ => none⟩) = y at hl hl2
      obtain ⟨r2, w⟩ := y
      exact ⟨fun e he => (hl.err e he).before hc.1.old, hc.1.old.trans hl.old, hl2⟩

/-- `main`. -/
theorem clean_gdbMain (hz : NoZero K) (ha : NoAttachZero K) (hG : NoEvent G) {s : DSt} (hg : Good s) (fuel pid : Nat) (isAttached : Bool) (inputs : List Input)
    (hp : pid ≠ 0) (hd : dictHas s.dict pid = false) (e : Exc) (h : (gdbMain K fuel G pid isAttached inputs s).1 = .error e) :
    FromOutside e ∨ (e = .key ∧ Twice s (gdbMain K fuel G pid isAttached inputs s).2) := by
  have hc := gclean_run (K := K) hz ha hG hg fuel pid isAttached inputs hp hd
  unfold gdbMain at h ⊢
  generalize gdbRun K fuel G pid isAttached inputs s = x at hc h
  obtain ⟨r, t⟩ := x
  have hq := clean_quit (K := K) hz fuel hc.2.2.named
  have key : ∀ m : Py DSt (Option (List Input)), (∃ a, m t = (.ok a, t)) →
      (Py.bind m (fun rest => Py.bind (quit K fuel) fun _ => Py.pure rest) t).1 = .error e →
      FromOutside e ∨ (e = .key ∧ Twice s (Py.bind m (fun rest => Py.bind (quit K fuel) fun _ => Py.pure rest) t).2) := by
    rintro m ⟨a, hm⟩
    rw [Py.run_bind_ok hm]
    have := hq.bind (f := fun _ => Py.pure a) fun _ u _ _ => .pure a u
    intro he
    exact (this.err e he).imp id fun h => ⟨h.1, h.2.before hc.2.1⟩
  cases r with
  | ok rest => exact key _ ⟨_, rfl⟩ h
  | error e' =>
    cases e' with
    | diverge =>
      injection h with h
      rw [← h]
      exact Or.inl trivial
    | _ => exact key _ ⟨_, rfl⟩ h

end PT
