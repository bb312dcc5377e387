import Verif.Lemmas.Minds
import Verif.Lemmas.Gdb2

/-! gdb.py touches no other process. -/

namespace PT
open Spec

variable {α β : Type} {A : Nat → Prop} {R U : Prop} {K : Kern}

/-- The debugger of gdb.py and its selected process are known. -/
def GMinded (A : Nat → Prop) (R U : Prop) (g : GSt) : Prop := Minded A R U g.dbg ∧ g.process < g.dbg.next

/-- Results of gdb.py. -/
abbrev GTame (A : Nat → Prop) (R U : Prop) (g : GSt) (x : Except Exc α × GSt) (Q : α → GSt → Prop) : Prop := Tame (GMinded A R U) GSt.dbg g x Q

/-- Nothing is said of the value. -/
abbrev AnyG : α → GSt → Prop := fun _ _ => True

section
variable {g : GSt}

theorem gtame_pure (h : GMinded A R U g) (a : α) : GTame A R U g (Py.pure a g) AnyG := .ok h (.refl _) trivial

theorem gtame_lift {m : Py DSt α} {Q : α → DSt → Prop} (h : GMinded A R U g) (hm : DTame A R U g.dbg (m g.dbg) Q) :
    GTame A R U g (lift m g) fun a t => Q a t.dbg :=
  ⟨⟨hm.inv, hm.later.lt h.2⟩, hm.later, hm.val, hm.exc⟩

theorem gtame_look (h : GMinded A R U g) : GTame A R U g (look K g) AnyG :=
  (gtame_lift h (tame_req h.1 h.2 _ rfl rfl)).weaken fun _ _ _ => trivial

theorem gtame_switch (h : GMinded A R U g) {o : Nat} (ho : o < g.dbg.next) : GTame A R U g (switchProcess o g) AnyG := .ok ⟨h.1, ho⟩ (.refl _) trivial

theorem gtame_forget (h : GMinded A R U g) (o : Nat) : GTame A R U g (forget o g) AnyG := .ok ⟨h.1, h.2⟩ (.refl _) trivial

theorem gtame_signal (h : GMinded A R U g) {o : Nat} (ho : o < g.dbg.next) (n : Nat) : GTame A R U g (processSignal K o n g) AnyG :=
  Tame.bind (gtame_lift h (tame_display h.1 ho)) fun _ _ ht hn _ => Tame.bind (gtame_switch ht (hn.lt ho)) fun _ _ hu _ _ => .ok ⟨hu.1, hu.2⟩ (.refl _) trivial

theorem gtame_continue (h : GMinded A R U g) {o : Nat} (ho : o < g.dbg.next) (n : Nat) : GTame A R U g (continueProcess K o n g) AnyG := by
  unfold continueProcess
  split
  · exact Tame.bind (gtame_lift h (tame_cont h.1 ho _)) fun _ _ ht _ _ => gtame_forget ht o
  · exact (gtame_lift h (tame_cont h.1 ho 0)).weaken fun _ _ _ => trivial

theorem gtame_contAll (n : Nat) : ∀ (os : List Nat) (g : GSt), GMinded A R U g → (∀ o ∈ os, o < g.dbg.next) → GTame A R U g (contAll K n os g) AnyG
  | [], _, h, _ => gtame_pure h ()
  | o :: os, g, h, ho => by
    have ho' := ho o List.mem_cons_self
    refine Tame.bind (gtame_lift h (tame_updSys h.1 o _)) fun _ t ht hn _ => Tame.bind (Q' := AnyG) ?_ fun _ u hu hn2 _ =>
      gtame_contAll n os u hu fun q hq => (hn.trans hn2).lt (ho q (List.mem_cons_of_mem _ hq))
    split <;> exact gtame_continue ht (hn.lt ho') _

theorem gtame_waitSignals (fuel : Nat) (h : GMinded A R U g) (signals : List Nat) (pid : Option Nat) (hp : ∀ p, pid = some p → Heard A g.dbg.log p) :
    GTame A R U g (lift (waitSignals K fuel signals pid) g) fun ev t => ev.proc < t.dbg.next := gtame_lift h (tame_waitSignals fuel h.1 signals pid hp)

theorem gtame_cont (fuel n : Nat) (h : GMinded A R U g) : GTame A R U g (gdbCont K fuel n g) AnyG := by
  refine Tame.bind (gtame_contAll n _ g h h.1.list) fun _ t ht _ _ =>
    Tame.bind (gtame_waitSignals fuel ht [] none (fun _ hx => by cases hx)) fun ev u hu _ hq => ?_
  cases ev with
  | signal o m =>
    show GTame A R U u ((if m = SIGTRAP then Py.bind (look K) fun _ => Py.pure true else Py.bind (processSignal K o m) fun _ => Py.pure true) u) AnyG
    split
    · exact Tame.bind (gtame_look hu) fun _ v hv _ _ => gtame_pure hv _
    · exact Tame.bind (gtame_signal hu hq m) fun _ v hv _ _ => gtame_pure hv _
  | exit o a b => exact gtame_pure hu _
  | newProcess o => exact gtame_pure hu _
  | execution o => exact gtame_pure hu _

theorem gtame_argError (h : GMinded A R U g) {e : Exc} (he : ∀ ev, e ≠ .event ev) : GTame A R U g (argError e g) AnyG := by
  unfold argError
  split
  · exact gtame_pure h _
  · exact .err h (.refl _) fun ev hx => (he ev hx).elim

theorem gtame_gdbSignal {G : GdbCfg} (hG : NoEvent G) (fuel : Nat) (arg : Str) (h : GMinded A R U g) : GTame A R U g (gdbSignal K fuel G arg g) AnyG := by
  unfold gdbSignal
  split
  · rename_i e he
    refine gtame_argError h (parseSignum_noEvent _ _ ?_ arg e he)
    intro text ev hx
    cases hp : G.parse g.dbg text with
    | ok v => rw [hp] at hx; cases hx
    | error x => rw [hp] at hx; injection hx with hx; exact hG _ _ _ (by rw [hp, hx])
  · rename_i n _
    have hc := gtame_cont (K := K) fuel n.toNat h
    exact ⟨⟨hc.inv.1, hc.inv.2⟩, hc.later, fun _ _ => trivial, hc.exc⟩

theorem gtame_attach {G : GdbCfg} (hG : NoEvent G) (fuel : Nat) (arg : Str) (ha : ∀ s p, G.parse s arg = .ok p → A p) (h : GMinded A R U g) :
    GTame A R U g (gdbAttach K fuel G arg g) AnyG := by
  unfold gdbAttach
  split
  · rename_i e he
    exact gtame_argError h fun ev hx => by rw [hx] at he; exact hG _ _ _ he
  · rename_i pid hp
    have hA := ha _ _ hp
    exact Tame.bind (gtame_lift h (tame_add (tame_waitEventPid fuel) h.1 pid (.inl hA) false (fun _ => hA) none (.inr fun _ hx => by cases hx) false))
      fun o t ht _ hq => Tame.bind (gtame_switch ht hq) fun _ u hu _ _ => gtame_pure hu _

theorem gtame_stepWait (fuel : Nat) (b : Bool) (h : GMinded A R U g) : GTame A R U g (stepWait K fuel b g) AnyG := by
  have hw := gtame_waitSignals (K := K) fuel h [SIGTRAP] (some (g.dbg.heap g.process).pid) (fun p hx => by cases hx; exact h.1.obj _ h.2)
  unfold stepWait
  split
  · rename_i t e
    rw [e] at hw
    refine Tame.base (t := t) ?_ hw.later
    split
    · exact Tame.bind (gtame_look hw.inv) fun _ v hv _ _ => gtame_pure hv _
    · exact gtame_pure hw.inv _
  · rename_i x t e
    rw [e] at hw
    refine Tame.base (t := t) ?_ hw.later
    have hx := hw.exc x rfl
    split
    · exact Tame.bind (gtame_look hw.inv) fun _ v hv hn _ => .err hv (.refl _) fun ev he => hn.lt (hx ev he)
    · exact .err hw.inv (.refl _) hx

theorem gtame_step (fuel : Nat) (enter : Bool) (h : GMinded A R U g) : GTame A R U g (gdbStep K fuel enter g) AnyG := by
  unfold gdbStep
  split
  · exact Tame.bind (gtame_lift h (tame_singleStep h.1 h.2)) fun _ t ht _ _ => gtame_stepWait fuel false ht
  · refine Tame.bind (gtame_look h) fun v t ht _ _ => ?_
    split
    · exact gtame_pure ht _
    · exact Tame.bind (gtame_lift ht (tame_cont ht.1 ht.2 0)) fun _ u hu _ _ => gtame_stepWait fuel true hu

theorem gtame_until {G : GdbCfg} (hG : NoEvent G) (fuel : Nat) (arg : Str) (h : GMinded A R U g) : GTame A R U g (gdbUntil K fuel G arg g) AnyG := by
  unfold gdbUntil
  split
  · rename_i e he
    exact gtame_argError h fun ev hx => by rw [hx] at he; exact hG _ _ _ he
  · exact gtame_step fuel false h

theorem gtame_sys {G : GdbCfg} (fuel : Nat) (h : GMinded A R U g) : GTame A R U g (gdbSys K fuel G g) AnyG :=
  Tame.bind (gtame_lift h (tame_syscall h.1 h.2 0)) fun _ t ht _ _ =>
  Tame.bind (gtame_lift ht (tame_waitSyscall fuel ht.1 (some t.process) (fun _ hx => by cases hx; exact ht.2))) fun _ u hu _ _ =>
  Tame.bind (gtame_lift hu (tame_sysEvent fuel hu.1 G.sys hu.2)) fun _ v hv _ _ => gtame_pure hv _

theorem gtame_gdbSwitch {G : GdbCfg} (hG : NoEvent G) (arg : Str) (h : GMinded A R U g) : GTame A R U g (gdbSwitch G arg g) AnyG := by
  unfold gdbSwitch
  split
  · unfold gdbSwitchNext
    split
    · exact gtame_pure h _
    · split
      · exact .err h (.refl _) fun ev hx => by cases hx
      · split
        · rename_i o ho
          exact Tame.bind (gtame_switch h (h.1.list o (List.mem_of_getElem? ho))) fun _ t ht _ _ => gtame_pure ht _
        · exact .err h (.refl _) fun ev hx => by cases hx
  · split
    · rename_i e he
      exact gtame_argError h fun ev hx => by rw [hx] at he; exact hG _ _ _ he
    · split
      · rename_i o ho
        exact Tame.bind (gtame_switch h (dictGet_known h.1 ho)) fun _ t ht _ _ => gtame_pure ht _
      · exact gtame_pure h _

/-- The command attaches only what is asked for. -/
def Permits (A : Nat → Prop) (G : GdbCfg) (c : Str) : Prop := ∀ arg, c = "attach ".toList ++ arg → ∀ s p, G.parse s arg = .ok p → A p

theorem ite_skip {p : Prop} [Decidable p] {a b x : Command} (h : (if p then a else b) = x) (ha : a ≠ x) : b = x := by
  split at h
  · exact absurd h ha
  · exact h

theorem parseCommand_attach {c arg : Str} (h : parseCommand c = .attach arg) : c = "attach ".toList ++ arg := by
  have key : "attach ".toList.isPrefixOf c = true ∧ arg = c.drop 7 := by
    unfold parseCommand at h
    iterate 3 replace h := ite_skip h (by intro hx; cases hx)
    by_cases hc : "attach ".toList.isPrefixOf c = true
    · rw [if_pos hc] at h
      injection h with h
      exact ⟨hc, h.symm⟩
    · rw [if_neg hc] at h
      repeat replace h := ite_skip h (by intro hx; cases hx)
      cases h
  obtain ⟨t, ht⟩ := List.isPrefixOf_iff_prefix.1 key.1
  rw [key.2, ← ht]
  rfl

theorem gtame_execute {G : GdbCfg} (hG : NoEvent G) (fuel : Nat) (c : Str) (hc : Permits A G c) (h : GMinded A R U g) :
    GTame A R U g (gdbExecute K fuel G c g) AnyG := by
  unfold gdbExecute
  cases hp : parseCommand c with
  | cont => exact gtame_cont fuel 0 h
  | signal arg => exact gtame_gdbSignal hG fuel arg h
  | attach arg => exact gtame_attach hG fuel arg (hc arg (parseCommand_attach hp)) h
  | step enter => exact gtame_step fuel enter h
  | «until» arg => exact gtame_until hG fuel arg h
  | sys => exact gtame_sys fuel h
  | switch arg => exact gtame_gdbSwitch hG arg h
  | look => exact Tame.bind (gtame_look h) fun _ t ht _ _ => gtame_pure ht _
  | info => exact gtame_pure h _
  | unknown => exact gtame_pure h _

theorem tame_interruptSend : ∀ (os : List Nat) (s : DSt), Minded A R U s → (∀ o ∈ os, o < s.next) →
    DTame A R U s (interruptSend K os s) fun ws t => ∀ o ∈ ws, o < t.next
  | [], _, h, _ => tame_pure h [] fun o ho => by cases ho
  | o :: os, s, h, ho => by
    have ho' := ho o List.mem_cons_self
    have hos : ∀ q ∈ os, q < s.next := fun q hq => ho q (List.mem_cons_of_mem _ hq)
    unfold interruptSend
    split
    · exact tame_interruptSend os s h hos
    · refine Tame.bind (tame_req h ho' _ rfl rfl) fun v t ht hn _ => ?_
      split
      · exact tame_interruptSend os t ht fun q hq => hn.lt (hos q hq)
      · refine Tame.bind (tame_kill ht (hn.lt ho') _) fun _ u hu hn2 _ => ?_
        refine Tame.bind (tame_interruptSend os u hu fun q hq => (hn.trans hn2).lt (hos q hq)) fun ws v hv hn3 hq => tame_pure hv _ fun q hm => ?_
        rcases List.mem_cons.1 hm with rfl | hm
        · exact ((hn.trans hn2).trans hn3).lt ho'
        · exact hq q hm

theorem tame_interruptWait (fuel : Nat) : ∀ (os : List Nat) (s : DSt), Minded A R U s → (∀ o ∈ os, o < s.next) → DTame A R U s (interruptWait K fuel os s) Any
  | [], _, h, _ => tame_pure h () trivial
  | o :: os, s, h, ho => by
    refine Tame.bind (Q' := Any) ?_ fun _ t ht hn _ => tame_interruptWait fuel os t ht fun q hq => hn.lt (ho q (List.mem_cons_of_mem _ hq))
    have hw := tame_waitSignals (K := K) fuel h [SIGINT] (some (s.heap o).pid) (fun p hx => by cases hx; exact h.obj _ (ho o List.mem_cons_self))
    split <;> rename_i e <;> rw [e] at hw
    · exact .ok hw.inv hw.later trivial
    · exact (tame_display hw.inv (hw.exc _ rfl _ rfl)).base hw.later
    · exact .ok hw.inv hw.later trivial
    · exact .err hw.inv hw.later (hw.exc _ rfl)

theorem gtame_interrupt (fuel : Nat) (h : GMinded A R U g) : GTame A R U g (gdbInterrupt K fuel g) AnyG :=
  (gtame_lift h (Tame.bind (tame_interruptSend _ _ h.1 h.1.list) fun ws t ht _ hq => tame_interruptWait fuel ws t ht hq)).weaken fun _ _ _ => trivial

theorem gtame_next (h : GMinded A R U g) : GTame A R U g (nextProcess g) AnyG := by
  unfold nextProcess
  split
  · rename_i o os e
    exact gtame_switch h (h.1.list o (by rw [show g.dbg.list = o :: os from e]; exact List.mem_cons_self))
  · exact gtame_pure h ()

theorem gtame_except {G : GdbCfg} (fuel : Nat) (e : Exc) (he : ExcOK g.dbg.next e) (h : GMinded A R U g) : GTame A R U g (gdbExcept K fuel G e g) AnyG := by
  cases e with
  | event ev =>
    have ho : ev.proc < g.dbg.next := he ev rfl
    cases ev with
    | newProcess o => exact gtame_pure h ()
    | signal o n => exact gtame_signal h ho n
    | exit o a b => exact gtame_next h
    | execution o => exact Tame.bind (gtame_switch h ho) fun _ t ht _ _ => gtame_interrupt fuel ht
  | interrupt => exact gtame_interrupt fuel h
  | ptrace errno =>
    show GTame A R U g ((if errno = some ESRCH then gdbDeleteProcess K (G.errPid g.dbg) g else (.ok (), g))) AnyG
    split
    · unfold gdbDeleteProcess
      split
      · exact gtame_pure h ()
      · rename_i o ho
        refine Tame.bind (gtame_lift h (tame_terminated h.1 (dictGet_known h.1 ho))) fun _ t ht _ _ => ?_
        split
        · exact gtame_next ht
        · exact gtame_pure ht ()
    · exact gtame_pure h ()
  | _ => exact .err h (.refl _) he

theorem gtame_line {G : GdbCfg} (hG : NoEvent G) (fuel : Nat) : ∀ (cs : List Str) (g : GSt), (∀ c ∈ cs, Permits A G (strip G.space c)) → GMinded A R U g →
    GTame A R U g (runLine (gdbExecute K fuel G) G.space cs g) AnyG
  | [], _, _, h => gtame_pure h _
  | c :: cs, g, hc, h => by
    refine Tame.bind (gtame_execute hG fuel _ (hc c List.mem_cons_self) h) fun ok t ht _ _ => ?_
    split
    · exact gtame_line hG fuel cs t (fun d hd => hc d (List.mem_cons_of_mem _ hd)) ht
    · exact gtame_pure ht _

end

/-! ### the main loop -/

/-- The whole line attaches only what is asked for. -/
def PermitsLine (A : Nat → Prop) (G : GdbCfg) (line : Str) : Prop := ∀ c ∈ splitOn ';' line, Permits A G (strip G.space c)

/-- The state of the main loop: the line to repeat attaches only what is asked for. -/
def LMinded (A : Nat → Prop) (R U : Prop) (G : GdbCfg) (s : Option Str × GSt) : Prop := GMinded A R U s.2 ∧ ∀ line, s.1 = some line → PermitsLine A G line

theorem mainLine_known {G : GdbCfg} (hG : NoEvent G) (fuel : Nat) (line : Str) (hl : PermitsLine A G line) (s : Option Str × GSt) (h : LMinded A R U G s) :
    LMinded A R U G (mainLine (gdbExecute K fuel G) (gdbExcept K fuel G) G.space line s).2 := by
  unfold mainLine
  split
  · exact ⟨h.1, fun _ hx => by cases hx⟩
  · have hr := gtame_line (K := K) hG fuel (splitOn ';' line) s.2 hl h.1
    split
    · rename_i ok t e
      rw [e] at hr
      refine ⟨hr.inv, fun l hx => ?_⟩
      cases ok with
      | true => cases hx; exact hl
      | false => cases hx
    · rename_i x t e
      rw [e] at hr
      have he := gtame_except (K := K) (G := G) fuel x (hr.exc x rfl) hr.inv
      split <;> rename_i e2 <;> rw [e2] at he <;> exact ⟨he.inv, fun _ hx => by cases hx⟩

/-- What the input attaches is asked for. -/
def PermitsInput (A : Nat → Prop) (G : GdbCfg) : Input → Prop
  | .line text => PermitsLine A G (strip G.space text)
  | _ => True

theorem gdbLoop_known {G : GdbCfg} (hG : NoEvent G) (fuel : Nat) (x : Input) (hx : PermitsInput A G x) (s : Option Str × GSt) (h : LMinded A R U G s) :
    LMinded A R U G (gdbLoop K fuel G x s).2 := by
  unfold gdbLoop mainLoop
  cases x with
  | eof => exact h
  | interrupt =>
    have hi := gtame_interrupt (K := K) fuel h.1
    dsimp only
    split <;> rename_i e <;> rw [e] at hi <;> exact ⟨hi.inv, h.2⟩
  | line text =>
    dsimp only
    split
    · split
      · rename_i previous hp
        split
        · exact h
        · exact mainLine_known hG fuel previous (h.2 previous hp) s h
      · exact h
    · exact mainLine_known hG fuel _ hx s h

theorem gdbLines_known {G : GdbCfg} (hG : NoEvent G) (fuel : Nat) : ∀ (inputs : List Input) (s : Option Str × GSt), (∀ x ∈ inputs, PermitsInput A G x) →
    LMinded A R U G s → LMinded A R U G (gdbLines K fuel G inputs s).2
  | [], s, _, h => by
    unfold gdbLines
    split
    · exact h
    · have h2 := gdbLoop_known (K := K) hG fuel .eof trivial s h
      unfold Py.bind
      rcases hm : gdbLoop K fuel G .eof s with ⟨r, t⟩
      rw [hm] at h2
      cases r <;> exact h2
  | x :: xs, s, hx, h => by
    unfold gdbLines
    split
    · exact h
    · have h2 := gdbLoop_known (K := K) hG fuel x (hx x List.mem_cons_self) s h
      unfold Py.bind
      rcases hm : gdbLoop K fuel G x s with ⟨r, t⟩
      rw [hm] at h2
      cases r with
      | error e => exact h2
      | ok done =>
        dsimp only
        split
        · exact h2
        · exact gdbLines_known hG fuel xs t (fun y hy => hx y (List.mem_cons_of_mem _ hy)) h2

theorem gdbMain_known {G : GdbCfg} (hG : NoEvent G) (fuel : Nat) (pid : Nat) (hp : A pid) (a : Bool) (inputs : List Input)
    (hi : ∀ x ∈ inputs, PermitsInput A G x) (s : DSt) (h : Minded A R U s) : Minded A R U (gdbMain K fuel G pid a inputs s).2 := by
  have hr : Minded A R U (gdbRun K fuel G pid a inputs s).2 := by
    have hc := tame_create (K := K) fuel h pid hp a
    unfold gdbRun Py.bind
    rcases hx : createProcess K fuel pid a s with ⟨r, t⟩
    rw [hx] at hc
    cases r with
    | error e => exact hc.inv
    | ok o =>
      cases o with
      | none => exact hc.inv
      | some o => exact (gdbLines_known (K := K) hG fuel inputs (none, ⟨t, o, fun _ => none⟩) hi ⟨⟨hc.inv, hc.val _ rfl o rfl⟩, fun _ hx => by cases hx⟩).1.1
  unfold gdbMain
  rcases hx : gdbRun K fuel G pid a inputs s with ⟨r, t⟩
  rw [hx] at hr
  have key : ∀ m : Py DSt (Option (List Input)), DTame A R U t (m t) Any →
      Minded A R U (Py.bind m (fun rest => Py.bind (quit K fuel) fun _ => Py.pure rest) t).2 := fun m hm =>
    (Tame.bind hm fun rest u hu _ _ => Tame.bind (tame_quit (K := K) fuel hu) fun _ v hv _ _ => tame_pure hv rest (Q := Any) trivial).inv
  refine key _ ?_
  cases r with
  | ok rest => exact tame_pure hr _ trivial
  | error e =>
    cases e with
    | diverge => exact .err hr (.refl _) fun ev hx => by cases hx
    | _ => exact tame_pure hr _ trivial

end PT
