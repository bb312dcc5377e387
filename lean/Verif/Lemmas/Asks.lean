import Verif.Lemmas.Debugger3
import Verif.Lemmas.Debugger5
import Verif.Model.Strace
import Verif.Spec.Asks

/-! Requests are made to stopped processes. -/

namespace PT
open Spec

variable {α β : Type} {K : Kern}

/-- TruthfulLog and patient, in one. -/
def WaitOK (before : List Entry) (e : Entry) : Prop :=
  match e.call with
  | .waitpid none _ _ => False
  | .waitpid (some p) nohang _ =>
    match e.reply with
    | .ok v st => v = p ∧ waitMeaning st ≠ .unknown ∨ nohang = true ∧ v = 0
    | .err n => n = 10
    | .interrupt => nohang = true ∨ ∃ o, (p, o) ∈ e.dict ∧ ∃ e' ∈ before, StopTold o e'
  | _ => True

def Lawful (log : List Entry) : Prop := ∀ before e after, log = before ++ e :: after → WaitOK before e

theorem lawful_of {log : List Entry} (h1 : TruthfulLog log) (h2 : PatientLog log) : Lawful log := by
  intro before e after hx
  have g1 := h1 e (by rw [hx]; simp)
  have g2 := h2 before e after hx
  unfold TruthfulEntry at g1
  unfold PatientAt at g2
  unfold WaitOK
  obtain ⟨c, r, d⟩ := e
  dsimp only at g1 g2 ⊢
  cases c with
  | waitpid w nh wl =>
    cases w with
    | none => exact g1
    | some p =>
      cases r with
      | ok v st => exact g1
      | err n => exact g1
      | interrupt =>
        rcases g2 with g2 | ⟨m, hm, rfl, hs⟩
        · exact .inl g2
        · exact .inr ⟨m.2, hm, hs⟩
  | _ => trivial

theorem snoc_split {log before after : List Entry} {e x : Entry} (h : log ++ [e] = before ++ x :: after) :
    (after = [] ∧ x = e ∧ before = log) ∨ ∃ after', after = after' ++ [e] ∧ log = before ++ x :: after' := by
  rcases List.eq_nil_or_concat after with rfl | ⟨l, y, rfl⟩
  · have h := h.symm
    obtain ⟨h1, h2⟩ := List.append_inj' h rfl
    exact .inl ⟨rfl, by simpa using h2, h1⟩
  · rw [List.concat_eq_append] at h ⊢
    rw [show before ++ x :: (l ++ [y]) = (before ++ x :: l) ++ [y] by simp] at h
    obtain ⟨h1, h2⟩ := List.append_inj' h rfl
    exact .inr ⟨l, by rw [List.cons.inj h2 |>.1], h1⟩

theorem Lawful.init {log g : List Entry} (h : Lawful (log ++ g)) : Lawful log := by
  intro before e after hx
  exact h before e (after ++ g) (by rw [hx]; simp)

theorem Lawful.last {log : List Entry} {e : Entry} (h : Lawful (log ++ [e])) : WaitOK log e := h log e [] rfl

/-- The requests are made to stopped processes, as far as they matter (`B`, of the number of calls before). -/
def AsksWhen (B : Nat → Prop) (log : List Entry) : Prop :=
  ∀ before e after, log = before ++ e :: after → B before.length → ∀ o, asks e.call = some o → AtRest o before

theorem asksWhen_all {log : List Entry} : AsksWhen (fun _ => True) log ↔ AsksStopped log :=
  ⟨fun h before e after hx => h before e after hx trivial, fun h before e after hx _ => h before e after hx⟩

theorem AsksWhen.snoc {B : Nat → Prop} {log : List Entry} {e : Entry} (h : AsksWhen B log) (he : B log.length → ∀ o, asks e.call = some o → AtRest o log) :
    AsksWhen B (log ++ [e]) := by
  intro before x after hx hB o ho
  rcases snoc_split hx with ⟨_, rfl, rfl⟩ | ⟨l, _, h2⟩
  · exact he hB o ho
  · exact h before x l h2 hB o ho

theorem AtRest.snoc {log : List Entry} {o : Nat} (h : AtRest o log) {e : Entry} (h1 : ¬ LetGo o e) (h2 : ¬ OverTold o e) : AtRest o (log ++ [e]) := by
  obtain ⟨before, x, after, rfl, hs, hl⟩ := h
  refine ⟨before, x, after ++ [e], by simp, hs, fun e' he => ?_⟩
  rcases List.mem_append.1 he with he | he
  · exact hl e' he
  · rw [List.mem_singleton.1 he]
    exact ⟨h1, h2⟩

theorem AtRest.now {log : List Entry} {o : Nat} {e : Entry} (h : StopTold o e) : AtRest o (log ++ [e]) := ⟨log, e, [], rfl, h, fun _ hx => by cases hx⟩

theorem SignalTold.stop {o : Nat} {e : Entry} (h : SignalTold o e) : StopTold o e := by
  obtain ⟨w, nh, wl, p, st, h1, h2, h3, h4, h5⟩ := h
  exact ⟨w, nh, wl, p, st, h1, h2, h3, h4, .inl h5⟩

theorem AtSignal.back {log : List Entry} {o : Nat} {e : Entry} (h : AtSignal o (log ++ [e])) (hn : ¬ SignalTold o e) : AtSignal o log ∧ ¬ LetGo o e := by
  obtain ⟨before, x, after, hx, hs, hl⟩ := h
  rcases snoc_split hx with ⟨_, rfl, rfl⟩ | ⟨l, rfl, h2⟩
  · exact absurd hs hn
  · exact ⟨⟨before, x, l, h2, hs, fun e' he => hl e' (List.mem_append.2 (.inl he))⟩, (hl e (by simp)).1⟩

/-- Calls that neither let a process go on nor tell anything. -/
def muteCall : Call → Bool
  | .cont _ _ _ => false
  | .syscall _ _ _ => false
  | .singlestep _ _ => false
  | .detach _ _ => false
  | .waitpid _ _ _ => false
  | _ => true

theorem silent_no {e : Entry} (h : muteCall e.call = true) (o : Nat) : ¬ LetGo o e ∧ ¬ OverTold o e ∧ ¬ StopTold o e := by
  refine ⟨?_, ?_, ?_⟩
  · rintro ⟨-, ⟨p, n, hc⟩ | ⟨p, n, hc⟩ | ⟨p, hc⟩ | ⟨p, hc⟩⟩ <;> rw [hc] at h <;> cases h
  · rintro ⟨w, nh, wl, p, st, hc, -⟩
    rw [hc] at h
    cases h
  · rintro ⟨w, nh, wl, p, st, hc, -⟩
    rw [hc] at h
    cases h

/-- Nothing was told of the object yet. -/
def Untold (o : Nat) (log : List Entry) : Prop := ∀ e ∈ log, ¬ StopTold o e

/-- Requests were made to stopped processes, as far as this matters; the flags of the objects are right, but for `X`; running objects are registered, but for those of `D`. -/
structure Core (B : Nat → Prop) (D : Nat → Prop) (X : Option Nat) (s : DSt) : Prop where
  reg : RegInv s
  asks : AsksWhen B s.log
  flag : ∀ o ∈ s.list, (s.heap o).running = true → (s.heap o).isStopped = true → AtRest o s.log ∨ X = some o
  full : ∀ o ∈ s.list, (s.heap o).running = true → AtSignal o s.log → (s.heap o).isStopped = true
  fresh : ∀ o, X = some o → Untold o s.log
  seen : ∀ e ∈ s.log, ∀ p o, (p, o) ∈ e.dict → o < s.next
  left : ∀ o, o < s.next → (s.heap o).running = true → o ∈ s.list ∨ D o

variable {B : Nat → Prop} {D : Nat → Prop} {X : Option Nat} {s : DSt}

theorem Core.owner (h : Core B D X s) {p o : Nat} (hm : (p, o) ∈ s.dict) : o ∈ s.list ∧ (s.heap o).pid = p := (h.reg.agree p o).1 hm

theorem Core.unique (h : Core B D X s) {p a b : Nat} (h1 : (p, a) ∈ s.dict) (h2 : (p, b) ∈ s.dict) : a = b :=
  (Prod.mk.inj (nodup_map_inj h.reg.keys h1 h2 rfl)).2

theorem Core.getOf (h : Core B D X s) {o : Nat} (ho : o ∈ s.list) : ((s.heap o).pid, o) ∈ s.dict := (h.reg.agree _ o).2 ⟨ho, rfl⟩

/-- One more call. -/
theorem Core.call (h : Core B D X s) (c : Call) (ha : B s.log.length → ∀ o, Spec.asks c = some o → AtRest o s.log)
    (hl : ∀ o ∈ s.list, (s.heap o).running = true → (s.heap o).isStopped = true → AtRest o s.log → AtRest o (logCall K c s).log)
    (hf : ∀ o, X = some o → ¬ StopTold o ⟨c, K s.log c, s.dict⟩) (hn : ∀ o, ¬ SignalTold o ⟨c, K s.log c, s.dict⟩) : Core B D X (logCall K c s) where
  reg := h.reg.logCall K c
  asks := AsksWhen.snoc h.asks ha
  flag := fun o ho h1 h2 => (h.flag o ho h1 h2).imp (hl o ho h1 h2) id
  full := fun o ho h1 h2 => h.full o ho h1 (AtSignal.back h2 (hn o)).1
  fresh := fun o ho e he => by
    rcases List.mem_append.1 he with he | he
    · exact h.fresh o ho e he
    · rw [List.mem_singleton.1 he]
      exact hf o ho
  seen := fun e he p o hm => by
    rcases List.mem_append.1 he with he | he
    · exact h.seen e he p o hm
    · rw [List.mem_singleton.1 he] at hm
      exact h.reg.alloc o (h.owner hm).1
  left := fun o ho hr => h.left o ho hr

theorem Core.muteCall (h : Core B D X s) (c : Call) (hc : muteCall c = true) (ha : B s.log.length → ∀ o, Spec.asks c = some o → AtRest o s.log) : Core B D X (logCall K c s) :=
  h.call c ha (fun o _ _ _ hh => AtRest.snoc hh (silent_no hc o).1 (silent_no hc o).2.1) (fun o _ => (silent_no hc o).2.2) fun o hx => (silent_no (e := ⟨c, K s.log c, s.dict⟩) hc o).2.2 (SignalTold.stop hx)

/-- Attributes change that do not matter here. -/
theorem Core.setProc (h : Core B D X s) (o : Nat) (q : Proc) (hp : q.pid = (s.heap o).pid) (ha : q.isAttached = true → (s.heap o).isAttached = true)
    (hr : q.running = true → (s.heap o).running = true) (hs : q.running = true → q.isStopped = true → o ∈ s.list → AtRest o s.log ∨ X = some o)
    (hu : q.running = true → q.isStopped = false → o ∈ s.list → ¬ AtSignal o s.log) : Core B D X (setProc s o q) where
  reg := h.reg.setProc o q hp ha
  asks := h.asks
  flag := fun i hi => by
    rw [setProc_heap]
    split
    · rename_i e
      rw [e]
      exact fun h1 h2 => hs h1 h2 (e ▸ hi)
    · exact h.flag i hi
  full := fun i hi => by
    rw [setProc_heap]
    split
    · rename_i e
      rw [e]
      intro h1 h2
      cases hx : q.isStopped with
      | true => rfl
      | false => exact absurd h2 (hu h1 hx (e ▸ hi))
    · exact h.full i hi
  fresh := h.fresh
  seen := h.seen
  left := fun i hi => by
    rw [setProc_heap]
    split
    · rename_i e
      exact fun h1 => e ▸ h.left o (e ▸ hi) (hr h1)
    · exact h.left i hi

theorem Core.mild (h : Core B D X s) (o : Nat) (q : Proc) (hp : q.pid = (s.heap o).pid) (ha : q.isAttached = true → (s.heap o).isAttached = true)
    (hr : q.running = (s.heap o).running) (hs : q.isStopped = (s.heap o).isStopped) : Core B D X (PT.setProc s o q) :=
  h.setProc o q hp ha (fun hx => hr ▸ hx) (fun h1 h2 ho => h.flag o ho (hr ▸ h1) (hs ▸ h2)) fun h1 h2 ho hx => by
    have := h.full o ho (hr ▸ h1) hx
    rw [← hs, h2] at this
    cases this

theorem Core.unreg (h : Core B D X s) (o : Nat) (ha : (s.heap o).isAttached = false) (ho : o ∈ s.list) (hr : (s.heap o).running = false ∨ D o) :
    Core B D X (unreg o s) where
  reg := h.reg.unreg o ha (.inl ho)
  asks := h.asks
  flag := fun i hi => h.flag i (List.mem_of_mem_erase hi)
  full := fun i hi => h.full i (List.mem_of_mem_erase hi)
  fresh := h.fresh
  seen := h.seen
  left := fun i hi h1 => by
    by_cases e : i = o
    · rcases hr with hr | hr
      · rw [e] at h1
        have h1 : (s.heap o).running = true := h1
        rw [hr] at h1
        cases h1
      · exact .inr (e ▸ hr)
    · exact (h.left i hi h1).imp (fun hx => (List.mem_erase_of_ne e).2 hx) id

theorem gone_heap (o : Nat) (s : DSt) : ((gone o s).heap o).running = false ∧ (∀ i, i ≠ o → (gone o s).heap i = s.heap i) ∧ (gone o s).log = s.log ∧
    (gone o s).next = s.next := by
  unfold gone
  split
  · refine ⟨?_, fun i hi => ?_, rfl, rfl⟩
    · show ((setProc s o _).heap o).running = false
      rw [setProc_same]
    · show (setProc s o _).heap i = _
      rw [setProc_heap, if_neg hi]
  · refine ⟨?_, fun i hi => ?_, rfl, rfl⟩
    · rw [setProc_same]
    · rw [setProc_heap, if_neg hi]

/-- The object is over: nothing is asked of its flags any more. -/
theorem Core.gone {o : Nat} (h : RegInv s) (hA : AsksWhen B s.log)
    (hF : ∀ i ∈ s.list, i ≠ o → (s.heap i).running = true → (s.heap i).isStopped = true → AtRest i s.log)
    (hU : ∀ i ∈ s.list, i ≠ o → (s.heap i).running = true → AtSignal i s.log → (s.heap i).isStopped = true)
    (hS : ∀ e ∈ s.log, ∀ p o, (p, o) ∈ e.dict → o < s.next) (hL : ∀ o, o < s.next → (s.heap o).running = true → o ∈ s.list ∨ D o) :
    Core B D none (PT.gone o s) := by
  obtain ⟨g1, g2, g3, g4⟩ := gone_heap o s
  have hreg : RegInv (PT.gone o s) := by
    unfold PT.gone
    split
    · rename_i ha
      exact (h.setProc o { s.heap o with running := false, isAttached := false } rfl (fun hx => by cases hx)).unreg o (by rw [setProc_same])
        (.inl (h.att o ha))
    · exact h.setProc o _ rfl id
  have hlist : ∀ i, i ≠ o → (i ∈ (PT.gone o s).list ↔ i ∈ s.list) := by
    intro i hi
    unfold PT.gone
    split
    · exact List.mem_erase_of_ne hi
    · exact Iff.rfl
  refine ⟨hreg, g3 ▸ hA, fun i hi h1 h2 => ?_, fun i hi h1 h2 => ?_, fun _ hx => (by cases hx), fun e he p i hm => ?_, fun i hi h1 => ?_⟩
  · by_cases e : i = o
    · rw [e, g1] at h1
      cases h1
    · rw [g2 i e] at h1 h2
      rw [g3]
      exact .inl (hF i ((hlist i e).1 hi) e h1 h2)
  · by_cases e : i = o
    · rw [e, g1] at h1
      cases h1
    · rw [g2 i e] at h1 ⊢
      rw [g3] at h2
      exact hU i ((hlist i e).1 hi) e h1 h2
  · rw [g4]
    exact hS e (g3 ▸ he) p i hm
  · by_cases e : i = o
    · rw [e, g1] at h1
      cases h1
    · rw [g2 i e] at h1
      rw [hlist i e]
      exact hL i (g4 ▸ hi) h1

/-! ### results of code -/

/-- The result of some code. -/
structure Asked (B : Nat → Prop) (D : Nat → Prop) (s : DSt) (x : Except Exc α × DSt) (Q : α → DSt → Prop) (E : Exc → DSt → Prop) : Prop where
  asks : Lawful x.2.log → AsksWhen B x.2.log
  inv : x.1 ≠ .error .diverge → Lawful x.2.log → Core B D none x.2
  old : Old s x.2
  val : ∀ a, x.1 = .ok a → Lawful x.2.log → Q a x.2
  exc : ∀ e, x.1 = .error e → Lawful x.2.log → E e x.2

/-- No promise. -/
def Free {γ : Type} (_ : γ) (_ : DSt) : Prop := True

section
variable {Q : α → DSt → Prop} {E : Exc → DSt → Prop}

theorem Asked.ok {a : α} {t : DSt} (hI : Lawful t.log → Core B D none t) (ho : Old s t) (hq : Lawful t.log → Q a t) : Asked B D s (.ok a, t) Q E :=
  ⟨fun h => (hI h).asks, fun _ => hI, ho, fun b hb h => by cases hb; exact hq h, fun _ hb => by cases hb⟩

theorem Asked.err {e : Exc} {t : DSt} (hI : Lawful t.log → Core B D none t) (ho : Old s t) (he : Lawful t.log → E e t) : Asked B D s ((.error e : Except Exc α), t) Q E :=
  ⟨fun h => (hI h).asks, fun _ => hI, ho, fun b hb => (by cases hb), fun e hb h => by cases hb; exact he h⟩

/-- Nothing is promised when the kernel broke its word. -/
theorem Asked.broken {x : Except Exc α × DSt} {t : DSt} (h : ¬ Lawful t.log) (ho : Old s t) (h2 : Old t x.2) : Asked B D s x Q E := by
  have hn : ¬ Lawful x.2.log := fun hx => by
    obtain ⟨g, hg⟩ := h2.log
    rw [hg] at hx
    exact h (Lawful.init hx)
  exact ⟨fun h => (hn h).elim, fun _ h => (hn h).elim, ho.trans h2, fun _ _ h => (hn h).elim, fun _ _ h => (hn h).elim⟩

theorem Asked.cases {x : Except Exc α × DSt} {t : DSt} (ho : Old s t) (h2 : Old t x.2) (h : Lawful t.log → Asked B D s x Q E) : Asked B D s x Q E := by
  by_cases hl : Lawful t.log
  · exact h hl
  · exact Asked.broken hl ho h2

theorem Asked.bind {m : Py DSt β} {f : β → Py DSt α} {Q' : β → DSt → Prop} (h : Asked B D s (m s) Q' E)
    (hf : ∀ b t, (Lawful t.log → Core B D none t) → Old s t → (Lawful t.log → Q' b t) → Asked B D t (f b t) Q E) : Asked B D s (Py.bind m f s) Q E := by
  unfold Py.bind
  rcases hm : m s with ⟨r, t⟩
  rw [hm] at h
  cases r with
  | ok b =>
    have h2 := hf b t (h.inv (fun hx => by cases hx)) h.old (h.val b rfl)
    exact ⟨h2.asks, h2.inv, h.old.trans h2.old, h2.val, h2.exc⟩
  | error e => exact ⟨h.asks, fun hn => h.inv (fun hx => hn (by cases hx; rfl)), h.old, fun _ hx => (by cases hx), fun x hx => h.exc x (by cases hx; rfl)⟩

theorem Asked.weaken {x : Except Exc α × DSt} {Q' : α → DSt → Prop} {E' : Exc → DSt → Prop} (h : Asked B D s x Q' E') (hq : ∀ a t, Q' a t → Q a t)
    (he : ∀ e t, E' e t → E e t) : Asked B D s x Q E :=
  ⟨h.asks, h.inv, h.old, fun a ha hl => hq a _ (h.val a ha hl), fun e hx hl => he e _ (h.exc e hx hl)⟩

theorem Asked.base {x : Except Exc α × DSt} {t : DSt} (h : Asked B D t x Q E) (ho : Old s t) : Asked B D s x Q E :=
  ⟨h.asks, h.inv, ho.trans h.old, h.val, h.exc⟩

end

/-- A request that neither lets go nor waits. -/
theorem asked_ptrace (h : Lawful s.log → Core B D none s) (c : Call) (hc : muteCall c = true) (ha : B s.log.length → ∀ o, asks c = some o → Lawful s.log → AtRest o s.log) :
    Asked B D s (ptraceCall K c s) (fun _ t => t = logCall K c s) (fun e t => t = logCall K c s ∧ ∀ ev, e ≠ .event ev) := by
  rw [ptraceCall_run]
  have hI : Lawful (logCall K c s).log → Core B D none (logCall K c s) := fun hl =>
    (h (Lawful.init hl)).muteCall c hc fun hB o ho => ha hB o ho (Lawful.init hl)
  cases hr : K s.log c with
  | ok v st => exact .ok hI (.logCall _ _) fun _ => rfl
  | err n => exact .err hI (.logCall _ _) fun _ => ⟨rfl, fun ev hx => by cases hx⟩
  | interrupt => exact .err hI (.logCall _ _) fun _ => ⟨rfl, fun ev hx => by cases hx⟩

theorem asked_pure (h : Lawful s.log → Core B D none s) (a : α) {Q : α → DSt → Prop} {E : Exc → DSt → Prop} (hq : Lawful s.log → Q a s) : Asked B D s (Py.pure a s) Q E :=
  .ok h (.refl _) hq

theorem asked_raise (h : Lawful s.log → Core B D none s) (e : Exc) {Q : α → DSt → Prop} {E : Exc → DSt → Prop} (hq : Lawful s.log → E e s) : Asked B D s (Py.raise e s) Q E :=
  .err h (.refl _) hq

end PT
