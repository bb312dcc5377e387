import Verif.Lemmas.Asks

/-! Requests are made to stopped processes: waiting and adding. -/

namespace PT
open Spec

variable {α β : Type} {K : Kern} {B : Nat → Prop} {D : Nat → Prop} {X : Option Nat} {s : DSt}

/-- No rules. -/
abbrev askRules (K : Kern) : Rules K := Rules.plain K fun _ _ => True

theorem askOld {m : Py DSt α} (h : Sat (askRules K) m) (s : DSt) : Old s (m s).2 := (h s trivial).old

theorem wait_sat (n p : Nat) (b : Bool) : Sat (askRules K) (waitEventPid K n p b) := waitEventPid_sat (fun _ _ _ => trivial) n p b (.inr trivial)

theorem RegInv.unique (h : RegInv s) {p a b : Nat} (h1 : (p, a) ∈ s.dict) (h2 : (p, b) ∈ s.dict) : a = b :=
  (Prod.mk.inj (nodup_map_inj h.keys h1 h2 rfl)).2

/-- What holds of an event that is reported. -/
def EvOK (ev : Event) (t : DSt) : Prop :=
  match ev with
  | .signal q _ => AtRest q t.log ∧ q ∈ t.list
  | .execution q => AtRest q t.log
  | .newProcess q => AtRest q t.log ∧ ∀ p, (t.heap q).parent = some p → AtRest p t.log ∧ p ≠ q
  | .exit _ _ _ => True

/-- Waiting for `p` leaves the others stopped. -/
def CalmWait (p : Nat) (s t : DSt) : Prop := ∀ o, AtRest o s.log → (p, o) ∉ s.dict → AtRest o t.log

/-- The result of waiting for `p`. -/
def WQ (p : Nat) (s : DSt) (r : Option Event) (t : DSt) : Prop :=
  CalmWait p s t ∧ ∀ ev, r = some ev → EvOK ev t ∧ ∀ q m, ev = .signal q m → dictGet s.dict p = some q

def WE (X : Option Nat) (p : Nat) (s : DSt) (e : Exc) (t : DSt) : Prop :=
  CalmWait p s t ∧ (∀ ev, e = .event ev → EvOK ev t ∧ ∀ q m, ev ≠ .signal q m) ∧ (e = .interrupt → ∀ c, X = some c → AtRest c t.log)

/-- Waiting that can be relied on. -/
def GoodWait (B : Nat → Prop) (D : Nat → Prop) (W : WaitPid) : Prop :=
  ∀ X p b s, (Lawful s.log → Core B D X s) → (∀ c, X = some c → b = true ∧ dictGet s.dict p = some c) → Asked B D s (W p b s) (WQ p s) (WE X p s)

/-- Adding leaves the old ones stopped. -/
def KeptRest (s t : DSt) : Prop := ∀ o, o < s.next → AtRest o s.log → AtRest o t.log

theorem Core.halted_lt (h : Core B D X s) {o : Nat} (ho : AtRest o s.log) : o < s.next := by
  obtain ⟨before, e, after, he, ⟨w, nh, wl, p, st, _, _, _, hm, _⟩, _⟩ := ho
  exact h.seen e (by rw [he]; simp) p o hm

/-- A new object. -/
theorem Core.started (h : Core B D none s) (pid : Nat) (a : Bool) (parent : Option Nat) (th : Bool) (hd : dictHas s.dict pid = false) :
    Core B D (some s.next) (started s pid a parent th) := by
  have hne : ∀ i, i ≠ s.next → (PT.started s pid a parent th).heap i = s.heap i := fun i hi => by
    show (if i = s.next then _ else s.heap i) = _
    rw [if_neg hi]
  refine ⟨h.reg.add pid a parent th hd, h.asks, fun i hi h1 h2 => ?_, fun i hi h1 h2 => ?_, fun i hi e he => ?_, fun e he p o hm => ?_, fun i hi h1 => ?_⟩
  · rcases List.mem_append.1 hi with hi | hi
    · have : i ≠ s.next := Nat.ne_of_lt (h.reg.alloc i hi)
      rw [hne i this] at h1 h2
      rcases h.flag i hi h1 h2 with hx | hx
      · exact .inl hx
      · cases hx
    · exact .inr (by rw [List.mem_singleton.1 hi])
  · rcases List.mem_append.1 hi with hi | hi
    · have : i ≠ s.next := Nat.ne_of_lt (h.reg.alloc i hi)
      rw [hne i this] at h1 ⊢
      exact h.full i hi h1 h2
    · rw [List.mem_singleton.1 hi, started_heap]
      rfl
  · rintro ⟨w, nh, wl, p, st, _, _, _, hm, _⟩
    cases hi
    exact absurd (h.seen e he p _ hm) (Nat.lt_irrefl _)
  · exact Nat.lt_succ_of_lt (h.seen e he p o hm)
  · by_cases e : i = s.next
    · exact .inl (List.mem_append.2 (.inr (by simp [e])))
    · rw [hne i e] at h1
      have hi : i < s.next + 1 := hi
      exact (h.left i (by omega) h1).imp (fun hx => List.mem_append.2 (.inl hx)) id

theorem Core.free (h : Core B D X s) (hx : ∀ c, X = some c → AtRest c s.log) : Core B D none s :=
  ⟨h.reg, h.asks, fun o ho h1 h2 => .inl ((h.flag o ho h1 h2).elim id (hx o)), h.full, fun _ hn => (by cases hn), h.seen, h.left⟩

theorem halted_silent {c : Call} (hc : muteCall c = true) {o : Nat} (h : AtRest o s.log) : AtRest o (logCall K c s).log :=
  AtRest.snoc h (silent_no hc o).1 (silent_no hc o).2.1

theorem asked_generic {W : Exc → DSt → Prop} {Q : Unit → DSt → Prop} (c : Nat) (e : Exc) {t : DSt} (ho : Old s t) (h1 : e ≠ .interrupt) (h2 : ∀ q m, e ≠ .event (.signal q m))
    (hA : AsksWhen B t.log) (hI : e ≠ .diverge → Core B D none t) (hE : W e (setProc t c { t.heap c with isAttached := false })) :
    Asked B D s (addProcessExcept K c e t) Q W := by
  rw [addProcessExcept_generic K c e t h1 h2]
  refine ⟨fun _ => hA, fun hn _ => ?_, ho.trans (Old.setProc t c _ ⟨rfl, rfl, rfl, rfl, id⟩), fun _ hx => (by cases hx), fun x hx _ => by cases hx; exact hE⟩
  exact (hI fun he => hn (by rw [he])).mild c _ rfl (fun hx => by cases hx) rfl rfl

theorem EvOK.setProc {ev : Event} {t : DSt} (h : EvOK ev t) (c : Nat) (q : Proc) (hq : q.parent = (t.heap c).parent) : EvOK ev (setProc t c q) := by
  cases ev with
  | signal o m => exact h
  | execution o => exact h
  | exit o a b => trivial
  | newProcess o =>
    refine ⟨h.1, fun p hp => h.2 p ?_⟩
    rw [setProc_heap] at hp
    split at hp
    · rename_i e
      rw [e, ← hq, hp]
    · exact hp

/-- The wait for the first stop of a new process. -/
theorem asked_addWait {W : WaitPid} (hW : GoodWait B D W) (c pid : Nat) (h : Lawful s.log → Core B D (some c) s)
    (hg : dictGet s.dict pid = some c) :
    Asked B D s (addProcessWait K W c pid s) (fun _ t => AtRest c t.log ∧ CalmWait pid s t) (fun e t => CalmWait pid s t ∧ ∀ ev, e = .event ev → EvOK ev t ∧ ∀ q m, ev ≠ .signal q m) := by
  have hw := hW (some c) pid true s h fun x hx => by cases hx; exact ⟨rfl, hg⟩
  have ho2 : Old (W pid true s).2 (addProcessWait K W c pid s).2 := by
    unfold addProcessWait waitSignalsPid Py.bind
    rcases W pid true s with ⟨r, t⟩
    cases r with
    | error e => exact askOld (addProcessExcept_sat (fun _ _ _ => trivial) c e) t
    | ok ev =>
      dsimp only
      have h1 := askOld (filterEvent_sat (S := askRules K) [SIGTRAP, SIGSTOP] ev) t
      generalize filterEvent [SIGTRAP, SIGSTOP] ev t = y at h1 ⊢
      obtain ⟨r2, t2⟩ := y
      cases r2 with
      | error e => exact h1.trans (askOld (addProcessExcept_sat (fun _ _ _ => trivial) c e) t2)
      | ok _ => exact h1
  refine Asked.cases hw.old ho2 fun hl => ?_
  unfold addProcessWait waitSignalsPid Py.bind
  rcases hx : W pid true s with ⟨r, t⟩
  rw [hx] at hw hl
  have hA := hw.asks hl
  cases r with
  | error e =>
    obtain ⟨hc, hev, hint⟩ := hw.exc e rfl hl
    by_cases hi : e = .interrupt
    · subst hi
      exact .ok (fun _ => hw.inv (fun hx => by cases hx) hl) hw.old fun _ => ⟨hint rfl c rfl, hc⟩
    · refine asked_generic c e hw.old hi (fun q m he => (hev _ he).2 q m rfl) hA (fun hd => hw.inv (fun hx => hd (by cases hx; rfl)) hl) ?_
      exact ⟨hc, fun ev he => ⟨(hev ev he).1.setProc c _ rfl, (hev ev he).2⟩⟩
  | ok r =>
    obtain ⟨hc, hev⟩ := hw.val r rfl hl
    have hI := hw.inv (fun hx => by cases hx) hl
    cases r with
    | none => exact asked_generic c .type hw.old (fun hx => by cases hx) (fun _ _ hx => by cases hx) hA (fun _ => hI) ⟨hc, fun ev he => by cases he⟩
    | some ev =>
      obtain ⟨h1, h2⟩ := hev ev rfl
      cases ev with
      | signal q m =>
        have hq := h2 q m rfl
        rw [hg] at hq
        cases hq
        dsimp only [filterEvent]
        cases hm : ([SIGTRAP, SIGSTOP].contains m || [SIGTRAP, SIGSTOP].isEmpty) with
        | true => exact .ok (fun _ => hI) hw.old fun _ => ⟨h1.1, hc⟩
        | false =>
          show Asked B D s (eventDisplay K c t) _ _
          refine Asked.base ?_ hw.old
          have hd := asked_ptrace (K := K) (fun _ => hI) (.display c (t.heap c).pid) rfl (fun _ _ hx => by cases hx)
          have hk : ∀ o, AtRest o t.log → AtRest o (logCall K (.display c (t.heap c).pid) t).log := fun o ho => halted_silent rfl ho
          refine Asked.bind (hd.weaken (fun _ u hu => hu) fun e u hu => ?_) fun _ u hI2 _ hu => ?_
          · exact ⟨fun o ho1 ho2 => hu.1 ▸ hk o (hc o ho1 ho2), fun ev he => (hu.2 ev he).elim⟩
          · exact asked_pure hI2 () fun hl2 => ⟨hu hl2 ▸ hk c h1.1, fun o ho1 ho2 => hu hl2 ▸ hk o (hc o ho1 ho2)⟩
      | exit q a b =>
        exact asked_generic c _ hw.old (fun hx => by cases hx) (fun _ _ hx => by cases hx) hA (fun _ => hI)
          ⟨hc, fun ev he => by cases he; exact ⟨trivial, fun _ _ hx => by cases hx⟩⟩
      | execution q =>
        exact asked_generic c _ hw.old (fun hx => by cases hx) (fun _ _ hx => by cases hx) hA (fun _ => hI)
          ⟨hc, fun ev he => by cases he; exact ⟨h1, fun _ _ hx => by cases hx⟩⟩
      | newProcess q =>
        exact asked_generic c _ hw.old (fun hx => by cases hx) (fun _ _ hx => by cases hx) hA (fun _ => hI)
          ⟨hc, fun ev he => by cases he; exact ⟨EvOK.setProc h1 c _ rfl, fun _ _ hx => by cases hx⟩⟩

/-- What adding a process promises. -/
def AddQ (s : DSt) (parent : Option Nat) (q : Nat) (t : DSt) : Prop := AtRest q t.log ∧ q = s.next ∧ (t.heap q).parent = parent ∧ KeptRest s t

def AddE (s : DSt) (e : Exc) (t : DSt) : Prop := KeptRest s t ∧ ∀ ev, e = .event ev → EvOK ev t ∧ ∀ q m, ev ≠ .signal q m

theorem asked_add {W : WaitPid} (hW : GoodWait B D W) (hS : ∀ p b, Sat (askRules K) (W p b)) (pid : Nat) (a : Bool) (parent : Option Nat) (th : Bool)
    (h : Lawful s.log → Core B D none s) : Asked B D s (addProcess K W pid a parent th s) (AddQ s parent) (AddE s) := by
  refine Asked.cases (.refl s) (askOld (addProcess_sat (fun _ _ _ => trivial) (fun p b _ => hS p b) pid (.inr trivial) a parent th (fun _ _ => trivial)
    (fun _ _ _ => trivial)) s) fun hl => ?_
  have hc := h hl
  unfold addProcess
  cases hd : dictHas s.dict pid with
  | true => exact .err (fun _ => hc) (.refl s) fun _ => ⟨fun _ _ ho => ho, fun ev he => by cases he⟩
  | false =>
    rw [if_neg (by simp)]
    have main : ∀ s0 : DSt, Old s s0 → s0.next = s.next → (Lawful s0.log → Core B D none s0) → dictHas s0.dict pid = false →
        (∀ o, AtRest o s.log → AtRest o s0.log) →
        Asked B D s (Py.bind (addProcessWait K W s0.next pid) (fun _ => Py.bind (addProcessOptions K s0.next) fun _ =>
          Py.pure s0.next) (started s0 pid a parent th)) (AddQ s parent) (AddE s) := by
      intro s0 ho hn hc0 hd0 hk
      rw [hn]
      have hget : ∀ r : RegInv s0, dictGet (started s0 pid a parent th).dict pid = some s.next := fun r => by
        rw [← hn]
        exact started_get s0 pid a parent th r hd0
      have hold : Old s (started s0 pid a parent th) := by
        have := old_add s s0 ho hn (freshProc pid a parent th) (dictSet s0.dict pid s0.next) (s0.list ++ [s0.next])
        unfold PT.started
        rw [hn] at this ⊢
        exact this
      have hfin : ∀ t, Old (started s0 pid a parent th) t → Core B D none s0 → CalmWait pid (started s0 pid a parent th) t → KeptRest s t := by
        intro t _ hcc hx o ho1 ho2
        refine hx o (hk o ho2) fun hm => ?_
        rcases (mem_dictSet _).1 hm with hm | hm
        · cases hm
          omega
        · exact dictHas_false.1 hd0 o hm.2
      have hpar : ∀ t, Old (started s0 pid a parent th) t → (t.heap s.next).parent = parent := by
        intro t ht
        rw [ht.parent s.next (by show s.next < s0.next + 1; omega), ← hn, started_heap]
        rfl
      refine Asked.base ?_ hold
      refine Asked.cases (.refl _) ?_ fun hl0 => ?_
      · refine askOld (K := K) (Sat.bind ?_ fun _ => Sat.bind ?_ fun _ => Sat.pure _) _
        · intro u _
          unfold addProcessWait waitSignalsPid
          have h1 := Sat.bind (hS pid true) (fun ev => filterEvent_sat (S := askRules K) [SIGTRAP, SIGSTOP] ev) u trivial
          generalize Py.bind (W pid true) (filterEvent [SIGTRAP, SIGSTOP]) u = y at h1 ⊢
          obtain ⟨r, t⟩ := y
          cases r with
          | ok _ => exact h1
          | error e => exact h1.trans (addProcessExcept_sat (fun _ _ _ => trivial) _ e t trivial)
        · intro u _
          unfold addProcessOptions
          split
          · exact procSetoptions_sat _ _ (fun _ _ => trivial) u trivial
          · exact .refl u
      have hcc := hc0 hl0
      have hw := asked_addWait (K := K) hW s.next pid (s := started s0 pid a parent th) (fun _ => hn ▸ hcc.started pid a parent th hd0) (hget hcc.reg)
      refine Asked.bind (Q' := fun _ t => AtRest s.next t.log ∧ CalmWait pid (started s0 pid a parent th) t ∧ Old (started s0 pid a parent th) t)
        ⟨hw.asks, hw.inv, hw.old, fun b hb hl => ⟨(hw.val b hb hl).1, (hw.val b hb hl).2, hw.old⟩,
          fun e he hl => ⟨hfin _ hw.old hcc (hw.exc e he hl).1, (hw.exc e he hl).2⟩⟩ fun _ t hI ho1 hq => ?_
      have hkt : ∀ u : DSt, Old t u → (∀ o, AtRest o t.log → AtRest o u.log) → Lawful t.log → AddQ s parent s.next u := fun u hu hk2 hlt =>
        ⟨hk2 _ (hq hlt).1, rfl, hpar u (ho1.trans hu), fun o ho2 ho3 => hk2 o (hfin t ho1 hcc (hq hlt).2.1 o ho2 ho3)⟩
      by_cases hopt : t.options ≠ 0
      · have hrw : ∀ f : Unit → Py DSt Nat, Py.bind (addProcessOptions K s.next) f t = Py.bind (procSetoptions K s.next t.options) f t := fun f => by
          unfold Py.bind addProcessOptions
          rw [if_pos hopt]
        have hs := asked_ptrace (K := K) hI (.setoptions s.next (t.heap s.next).pid t.options) rfl
          (fun _ o ho hlt => by cases ho; exact (hq hlt).1)
        have hk2 : ∀ o, AtRest o t.log → AtRest o (logCall K (.setoptions s.next (t.heap s.next).pid t.options) t).log := fun o ho => halted_silent rfl ho
        have hinit : ∀ u, u = logCall K (.setoptions s.next (t.heap s.next).pid t.options) t → Lawful u.log → Lawful t.log := fun u hu hlu => by
          rw [hu] at hlu
          exact Lawful.init hlu
        rw [hrw]
        unfold procSetoptions
        rw [show (Py.bind (fun s_1 => Py.bind (ptraceCall K (.setoptions s.next (s_1.heap s.next).pid t.options)) (fun _ => Py.pure ()) s_1)
          (fun _ => Py.pure s.next) t : Except Exc Nat × DSt) =
          Py.bind (Py.bind (ptraceCall K (.setoptions s.next (t.heap s.next).pid t.options)) (fun _ => Py.pure ())) (fun _ => Py.pure s.next) t from rfl]
        rw [py_bind_assoc]
        refine Asked.bind (Q' := fun _ u => u = logCall K (.setoptions s.next (t.heap s.next).pid t.options) t ∧ Lawful t.log)
          ⟨hs.asks, hs.inv, hs.old, fun b hb hl => ⟨hs.val b hb hl, hinit _ (hs.val b hb hl) hl⟩, fun e he hl => ?_⟩ fun _ u hI2 hou hu => ?_
        · have h1 := hs.exc e he hl
          have hlt := hinit _ h1.1 hl
          exact ⟨fun o ho2 ho3 => h1.1 ▸ hk2 o (hfin t ho1 hcc (hq hlt).2.1 o ho2 ho3), fun ev hev => (h1.2 ev hev).elim⟩
        · refine asked_pure hI2 s.next fun hlu => ?_
          have h1 := hu hlu
          exact hkt u hou (fun o ho => h1.1 ▸ hk2 o ho) h1.2
      · have hrw : ∀ f : Unit → Py DSt Nat, Py.bind (addProcessOptions K s.next) f t = f () t := fun f => by
          unfold Py.bind addProcessOptions
          rw [if_neg hopt]
        rw [hrw]
        exact asked_pure hI s.next fun hlt => hkt t (.refl t) (fun _ ho => ho) hlt
    cases a with
    | true => exact main s (.refl s) rfl (fun _ => hc) hd fun _ ho => ho
    | false =>
      have hrun : ∀ f : Nat → Py DSt Nat, Py.bind (newProc K pid false parent th) f s =
          match ptraceRes (K s.log (.attach s.next pid)) with
          | .ok _ => f s.next { setProc (logCall K (.attach s.next pid) s) s.next (freshProc pid false parent th) with next := s.next + 1 }
          | .error e => (.error e, logCall K (.attach s.next pid) s) := fun f => by
        unfold newProc
        simp only [Bool.false_eq_true, if_false, Py.bind, ptraceCall_run]
        cases ptraceRes (K s.log (.attach s.next pid)) <;> rfl
      rw [hrun]
      have hI : Lawful (logCall K (.attach s.next pid) s).log → Core B D none (logCall K (.attach s.next pid) s) :=
        fun _ => hc.muteCall _ rfl fun _ _ hx => by cases hx
      have hk : ∀ o, AtRest o s.log → AtRest o (logCall K (.attach s.next pid) s).log := fun o ho => halted_silent rfl ho
      cases hr : K s.log (.attach s.next pid) with
      | ok v st => exact main (logCall K (.attach s.next pid) s) (.logCall _ _) rfl hI hd hk
      | err n => exact .err hI (.logCall _ _) fun _ => ⟨fun o _ ho => hk o ho, fun ev he => by cases he⟩
      | interrupt => exact .err hI (.logCall _ _) fun _ => ⟨fun o _ ho => hk o ho, fun ev he => by cases he⟩

/-! ### waiting -/

/-- The entry of a `waitpid` call. -/
theorem not_letGo_wait {w : Option Nat} {nh wl : Bool} {r : Reply} {d : List (Nat × Nat)} (o : Nat) : ¬ LetGo o ⟨.waitpid w nh wl, r, d⟩ := by
  rintro ⟨-, ⟨p, n, hc⟩ | ⟨p, n, hc⟩ | ⟨p, hc⟩ | ⟨p, hc⟩⟩ <;> cases hc

theorem not_over_stop {e : Entry} {v : Nat} {st : Int} (hr : e.reply = .ok v st)
    (hm : (∃ n, waitMeaning st = .signal n) ∨ ∃ n, waitMeaning st = .event n) (o : Nat) : ¬ OverTold o e := by
  rintro ⟨w, nh, wl, p, st', _, hr', _, _, hx⟩
  rw [hr] at hr'
  cases hr'
  rcases hm with ⟨n, hm⟩ | ⟨n, hm⟩ <;> rcases hx with ⟨k, hx⟩ | ⟨k, hx⟩ <;> rw [hm] at hx <;> cases hx

theorem not_over_none {e : Entry} (hr : ∀ v st, e.reply = .ok v st → v = 0) (o : Nat) : ¬ OverTold o e := by
  rintro ⟨w, nh, wl, p, st', _, hr', h0, _, hx⟩
  exact h0 (hr p st' hr')

theorem not_stop_none {e : Entry} (hr : ∀ v st, e.reply = .ok v st → v = 0) (o : Nat) : ¬ StopTold o e := by
  rintro ⟨w, nh, wl, p, st', _, hr', h0, _, hx⟩
  exact h0 (hr p st' hr')

theorem not_over_other {w : Option Nat} {nh wl : Bool} {v : Nat} {st : Int} {d : List (Nat × Nat)} {o : Nat} (h : (v, o) ∉ d) :
    ¬ OverTold o ⟨.waitpid w nh wl, .ok v st, d⟩ := by
  rintro ⟨_, _, _, p, st', _, hr', _, hm, _⟩
  cases hr'
  exact h hm

/-- The state after a `waitpid` call tells of a stop, and after the flag was set if it is by a signal. -/
theorem Core.told (h : Core B D X s) {p o : Nat} {nh wl : Bool} {st : Int} (hp : p ≠ 0) (ho : (p, o) ∈ s.dict) (hX : ∀ c, X = some c → c = o)
    (hr : K s.log (.waitpid (some p) nh wl) = .ok p st) (hm : (∃ n, waitMeaning st = .signal n) ∨ ∃ n, waitMeaning st = .event n) (q : Proc)
    (h1 : q.pid = (s.heap o).pid) (h2 : q.isAttached = (s.heap o).isAttached) (h3 : q.running = (s.heap o).running)
    (h4 : q.isStopped = true ∨ q.isStopped = (s.heap o).isStopped ∧ ∀ n, waitMeaning st ≠ .signal n) :
    Core B D none (PT.setProc (logCall K (.waitpid (some p) nh wl) s) o q) ∧ AtRest o (logCall K (.waitpid (some p) nh wl) s).log ∧
      ∀ i, AtRest i s.log → AtRest i (logCall K (.waitpid (some p) nh wl) s).log := by
  have hk : ∀ i, AtRest i s.log → AtRest i (logCall K (.waitpid (some p) nh wl) s).log := fun i hi =>
    AtRest.snoc hi (not_letGo_wait i) (not_over_stop hr hm i)
  have hn : AtRest o (logCall K (.waitpid (some p) nh wl) s).log := AtRest.now ⟨some p, nh, wl, p, st, rfl, hr, hp, ho, hm⟩
  have hne : ∀ i, i ≠ o → (PT.setProc (logCall K (.waitpid (some p) nh wl) s) o q).heap i = s.heap i := fun i hi => by
    rw [setProc_heap, if_neg hi]
    rfl
  refine ⟨⟨(h.reg.logCall K _).setProc o q h1 fun hx => h2 ▸ hx, AsksWhen.snoc h.asks (fun _ _ hx => by cases hx), fun i hi h5 h6 => .inl ?_, fun i hi h5 h6 => ?_,
    fun _ hx => (by cases hx), fun e he q i hm => ?_, fun i hi h5 => ?_⟩, hn, hk⟩
  · by_cases e : i = o
    · rw [e]
      exact hn
    · rw [hne i e] at h5 h6
      rcases h.flag i hi h5 h6 with hx | hx
      · exact hk i hx
      · exact absurd (hX i hx) e
  · by_cases e : i = o
    · rw [e] at h5 h6 ⊢
      rw [setProc_same] at h5 ⊢
      rcases h4 with h4 | ⟨h4, h7⟩
      · exact h4
      · rw [h4]
        refine h.full o (h.owner ho).1 (h3 ▸ h5) (AtSignal.back h6 ?_).1
        rintro ⟨_, _, _, v, st', _, hx, _, _, n, hy⟩
        have hx : K s.log (.waitpid (some p) nh wl) = .ok v st' := hx
        rw [hr] at hx
        cases hx
        exact h7 n hy
    · rw [hne i e] at h5 ⊢
      refine h.full i hi h5 (AtSignal.back h6 ?_).1
      rintro ⟨_, _, _, v, st', _, hx, _, hy, _⟩
      have hx : K s.log (.waitpid (some p) nh wl) = .ok v st' := hx
      rw [hr] at hx
      cases hx
      exact e (h.unique hy ho)
  · rcases List.mem_append.1 he with he | he
    · exact h.seen e he q i hm
    · rw [List.mem_singleton.1 he] at hm
      exact h.reg.alloc i (h.owner hm).1
  · by_cases e : i = o
    · rw [e, setProc_same, h3] at h5
      exact e ▸ h.left o (h.reg.alloc o (h.owner ho).1) h5
    · rw [hne i e] at h5
      exact h.left i hi h5

/-- The object is over after the last call. -/
theorem Core.ended (h : Core B D X s) {p o : Nat} {c : Call} (hc : ∃ nh wl, c = .waitpid (some p) nh wl) (ho : (p, o) ∈ s.dict) (hX : ∀ c, X = some c → c = o)
    (hr : ∀ v st, K s.log c = .ok v st → v = p) :
    Core B D none (PT.gone o (logCall K c s)) ∧ ∀ i, AtRest i s.log → (p, i) ∉ s.dict → AtRest i (PT.gone o (logCall K c s)).log := by
  obtain ⟨nh, wl, rfl⟩ := hc
  have hk : ∀ i, AtRest i s.log → (p, i) ∉ s.dict → AtRest i (logCall K (.waitpid (some p) nh wl) s).log := fun i hi hn => by
    refine AtRest.snoc hi (not_letGo_wait i) ?_
    cases hx : K s.log (.waitpid (some p) nh wl) with
    | ok v st => exact not_over_other (by rw [hr v st hx]; exact hn)
    | err n => exact not_over_none (fun _ _ hy => by cases hy) i
    | interrupt => exact not_over_none (fun _ _ hy => by cases hy) i
  refine ⟨Core.gone (h.reg.logCall K _) (AsksWhen.snoc h.asks (fun _ _ hx => by cases hx)) (fun i hi hne h1 h2 => ?_) (fun i hi hne h1 h2 => ?_) (fun e he q i hm => ?_) h.left, fun i hi hn => ?_⟩
  · rcases h.flag i hi h1 h2 with hx | hx
    · exact hk i hx fun hm => hne (h.unique hm ho)
    · exact absurd (hX i hx) hne
  · refine h.full i hi h1 (AtSignal.back h2 ?_).1
    rintro ⟨_, _, _, v, st', _, hx, _, hy, _⟩
    have hv := hr v st' hx
    rw [hv] at hy
    exact hne (h.unique hy ho)
  · rcases List.mem_append.1 he with he | he
    · exact h.seen e he q i hm
    · rw [List.mem_singleton.1 he] at hm
      exact h.reg.alloc i (h.owner hm).1
  · rw [(gone_heap o _).2.2.1]
    exact hk i hi hn

theorem Old.gone (o : Nat) (s : DSt) : Old s (gone o s) := by
  unfold PT.gone
  split
  · exact (Old.setProc s o { s.heap o with running := false, isAttached := false } ⟨rfl, rfl, rfl, rfl, fun _ => rfl⟩).trans (Old.unreg o _)
  · exact Old.setProc s o { s.heap o with running := false } ⟨rfl, rfl, rfl, rfl, fun _ => rfl⟩

/-- An event that the process itself tells of. -/
theorem asked_event {W : WaitPid} (hW : GoodWait B D W) (hS : ∀ p b, Sat (askRules K) (W p b)) {o : Nat} (ev : Int) (h : Core B D none s) (ho : AtRest o s.log) :
    Asked B D s (ptraceEvent K W o ev s) (fun ev t => KeptRest s t ∧ EvOK ev t ∧ ∀ q m, ev ≠ .signal q m) (AddE s) := by
  unfold ptraceEvent
  split
  · have hlt := h.halted_lt ho
    have hk : ∀ i, AtRest i s.log → AtRest i (logCall K (.geteventmsg o (s.heap o).pid) s).log := fun i hi => halted_silent rfl hi
    have hs := asked_ptrace (K := K) (fun _ => h) (.geteventmsg o (s.heap o).pid) rfl (fun _ i hi _ => by cases hi; exact ho)
    refine Asked.bind (hs.weaken (fun _ _ hu => hu) fun e t ht => ⟨fun i _ hi => ht.1 ▸ hk i hi, fun ev he => (ht.2 ev he).elim⟩) fun np t hI hos ht => ?_
    refine Asked.cases (.refl t) (askOld (K := K) (Sat.bind (addProcess_sat (fun _ _ _ => trivial) (fun p b _ => hS p b) np (.inr trivial) _ _ _ (fun _ _ => trivial)
      (fun _ _ _ => trivial)) fun _ => Sat.pure _) t) fun hl => ?_
    have ht := ht hl
    have hadd := asked_add (K := K) hW hS np true (some o) (decide (ev = PTRACE_EVENT_CLONE)) hI
    have hkk : ∀ u, KeptRest t u → KeptRest s u := fun u hu i hi hh => hu i (Nat.lt_of_lt_of_le hi hos.next) (by rw [ht]; exact hk i hh)
    refine Asked.bind (hadd.weaken (fun _ _ hq => hq) fun e u hu => ⟨hkk u hu.1, hu.2⟩) fun q u hI2 hou hq => ?_
    refine asked_pure hI2 _ fun hlu => ?_
    obtain ⟨h1, h2, h3, h4⟩ := hq hlu
    refine ⟨hkk u h4, ⟨h1, fun p hp => ?_⟩, fun _ _ hx => by cases hx⟩
    rw [h3] at hp
    cases hp
    exact ⟨hkk u h4 o hlt ho, by have := hos.next; omega⟩
  · split
    · exact .ok (fun _ => h) (.refl s) fun _ => ⟨fun _ _ hh => hh, ho, fun _ _ hx => by cases hx⟩
    · exact .err (fun _ => h) (.refl s) fun _ => ⟨fun _ _ hh => hh, fun ev he => by cases he⟩

theorem good_wait (n : Nat) : GoodWait B D (waitEventPid K n) := by
  induction n with
  | zero =>
    intro X p b s h hX
    exact ⟨fun hl => (h hl).asks, fun hn => (hn rfl).elim, .refl s, fun _ hx => (by cases hx),
      fun e he _ => by cases he; exact ⟨fun _ hh _ => hh, fun _ hx => (by cases hx), fun hx => by cases hx⟩⟩
  | succ n ih =>
    intro X p b s h hX
    refine Asked.cases (.refl s) (askOld (wait_sat (K := K) (n + 1) p b) s) fun hl => ?_
    have hc := h hl
    have hrest : ∀ (x : Except Exc (Nat × Int)) (t : DSt), Old t (match (x, t) with
        | (.ok r, s') => waitReply K (waitEventPid K n) (waitEventPid K n p b) b r s'
        | (.error e, s') => waitExcept K p e s').2 := fun x t => by
      cases x with
      | ok r => exact askOld (waitReply_sat (S := askRules K) (fun _ _ _ => trivial) (fun p b _ => wait_sat n p b) (wait_sat n p b) b r) t
      | error e => exact askOld (waitExcept_sat (S := askRules K) (fun _ _ _ => trivial) p e) t
    show Asked B D s (match waitpidRaw K p b s with
        | (.ok r, s') => waitReply K (waitEventPid K n) (waitEventPid K n p b) b r s'
        | (.error e, s') => waitExcept K p e s') _ _
    by_cases hp : p = 0
    · have hr : ∃ x, waitpidRaw K p b s = (x, logCall K (.waitpid none (!b) false) s) := by
        unfold waitpidRaw
        rw [if_neg (by simp [hp])]
        unfold Py.bind
        rw [osCall_run]
        cases osRes (K s.log (.waitpid none (!b) false)) with
        | error e => exact ⟨_, rfl⟩
        | ok r =>
          dsimp only [checkPid]
          split
          · exact ⟨_, rfl⟩
          · exact ⟨_, rfl⟩
      obtain ⟨x, hr⟩ := hr
      rw [hr]
      have hno : ¬ Lawful (logCall K (.waitpid none (!b) false) s).log := fun hx => by
        have hx : WaitOK s.log ⟨.waitpid none (!b) false, K s.log (.waitpid none (!b) false), s.dict⟩ := Lawful.last hx
        exact hx
      exact Asked.broken hno (.logCall _ _) (hrest x _)
    · cases hg : dictGet s.dict p with
      | none =>
        have hr : waitpidRaw K p b s = (.error (.ptrace none), s) := by
          unfold waitpidRaw
          rw [if_pos hp, hg]
        rw [hr]
        have hXn : X = none := by
          cases X with
          | none => rfl
          | some c => exact absurd (hX c rfl).2 (by rw [hg]; simp)
        subst hXn
        exact .err (fun _ => hc) (.refl s) fun _ => ⟨fun _ hh _ => hh, fun _ hx => (by cases hx), fun hx => by cases hx⟩
      | some o =>
        have hm := dictGet_some hg
        have hXo : ∀ c, X = some c → c = o := fun c hx => by
          have := (hX c hx).2
          rw [hg] at this
          cases this
          rfl
        have hr : waitpidRaw K p b s = Py.bind (osCall K (.waitpid (some p) (!b) (s.heap o).isThread)) (checkPid p b) s := by
          unfold waitpidRaw
          rw [if_pos hp, hg]
        rw [hr]
        unfold Py.bind
        rw [osCall_run]
        have hold : Old s (logCall K (.waitpid (some p) (!b) (s.heap o).isThread) s) := .logCall _ _
        generalize hcall : Call.waitpid (some p) (!b) (s.heap o).isThread = c at hold ⊢
        have hlast : Lawful (logCall K c s).log → WaitOK s.log ⟨c, K s.log c, s.dict⟩ := fun hx => Lawful.last hx
        cases hk : K s.log c with
        | err e =>
          refine Asked.cases hold (hrest (.error (.os e)) (logCall K c s)) fun hlt => ?_
          have hw := hlast hlt
          rw [hk, ← hcall] at hw
          have he : e = 10 := hw
          subst he
          have hrun : waitExcept K p (.os 10) (logCall K c s) = (.ok (some (.exit o none none)), gone o (logCall K c s)) := by
            unfold waitExcept
            rw [if_pos (show Exc.os 10 = Exc.os ECHILD from rfl)]
            show (match dictGet s.dict p with
              | some o => Py.bind (processTerminated K o) (fun e => Py.pure (some e)) (logCall K c s)
              | none => (.error .key, logCall K c s)) = _
            rw [hg]
            dsimp only [processTerminated, Py.bind]
            rw [notRunning_run]
            rfl
          show Asked B D s (waitExcept K p (.os 10) (logCall K c s)) _ _
          rw [hrun]
          obtain ⟨h1, h2⟩ := hc.ended (K := K) (c := c) ⟨_, _, hcall.symm⟩ hm hXo (fun v st hx => by rw [hk] at hx; cases hx)
          exact .ok (fun _ => h1) (hold.trans (.gone o _)) fun _ => ⟨h2, fun ev hev => by cases hev; exact ⟨trivial, fun _ _ hx => by cases hx⟩⟩
        | interrupt =>
          refine Asked.cases hold (hrest (.error .interrupt) (logCall K c s)) fun hlt => ?_
          have hw := hlast hlt
          rw [hk, ← hcall] at hw
          have hw : (!b) = true ∨ ∃ i, (p, i) ∈ s.dict ∧ ∃ e' ∈ s.log, StopTold i e' := hw
          have hXn : X = none := by
            cases X with
            | none => rfl
            | some i =>
              exfalso
              rcases hw with hw | ⟨j, hj, e', he', hst⟩
              · rw [(hX i rfl).1] at hw
                cases hw
              · have : j = i := (hc.unique hj hm).trans (hXo i rfl).symm
                exact hc.fresh i rfl e' he' (this ▸ hst)
          subst hXn
          have hno : ∀ i, ¬ OverTold i ⟨c, K s.log c, s.dict⟩ := not_over_none (fun v st hx => by
            have hx : K s.log c = .ok v st := hx
            rw [hk] at hx
            cases hx)
          have hkeep : ∀ i, AtRest i s.log → AtRest i (logCall K c s).log := fun i hi =>
            AtRest.snoc hi (by rw [← hcall]; exact not_letGo_wait i) (hno i)
          refine .err (fun _ => hc.call c (fun _ _ hx => by rw [← hcall] at hx; cases hx) (fun i _ _ _ hi => hkeep i hi) (fun _ hx => by cases hx) fun i hx => not_stop_none (fun v st hy => by
              have hy : K s.log c = .ok v st := hy
              rw [hk] at hy
              cases hy) i (SignalTold.stop hx)) hold
            fun _ => ⟨fun i hi _ => hkeep i hi, fun _ hx => (by cases hx), fun _ _ hx => by cases hx⟩
        | ok v st =>
          refine Asked.cases hold ?_ fun hlt => ?_
          · show Old (logCall K c s) (match checkPid p b (v, st) (logCall K c s) with
              | (.ok r, s') => waitReply K (waitEventPid K n) (waitEventPid K n p b) b r s'
              | (.error e, s') => waitExcept K p e s').2
            have hs : ∃ x, checkPid p b (v, st) (logCall K c s) = (x, logCall K c s) := by
              unfold checkPid
              split
              · exact ⟨_, rfl⟩
              · exact ⟨_, rfl⟩
            obtain ⟨x, hx⟩ := hs
            rw [hx]
            exact hrest x _
          have hw := hlast hlt
          rw [hk, ← hcall] at hw
          have hw : v = p ∧ waitMeaning st ≠ .unknown ∨ (!b) = true ∧ v = 0 := hw
          rcases hw with ⟨rfl, hst⟩ | ⟨hb, rfl⟩
          · have hchk : checkPid v b (v, st) (logCall K c s) = (.ok (v, st), logCall K c s) := by
              unfold checkPid
              rw [if_neg (by simp)]
              rfl
            show Asked B D s (match checkPid v b (v, st) (logCall K c s) with
              | (.ok r, s') => waitReply K (waitEventPid K n) (waitEventPid K n v b) b r s'
              | (.error e, s') => waitExcept K v e s') _ _
            rw [hchk]
            have hrep : waitReply K (waitEventPid K n) (waitEventPid K n v b) b (v, st) (logCall K c s) =
                Py.bind (processStatus K (waitEventPid K n) o st) (fun e => Py.pure (some e)) (logCall K c s) := by
              unfold waitReply
              rw [if_neg (by simp [hp])]
              show (match dictGet s.dict v with
                | some o => Py.bind (processStatus K (waitEventPid K n) o st) (fun e => Py.pure (some e)) (logCall K c s)
                | none => waitEventPid K n v b (logCall K c s)) = _
              rw [hg]
            show Asked B D s (waitReply K (waitEventPid K n) (waitEventPid K n v b) b (v, st) (logCall K c s)) _ _
            rw [hrep]
            unfold processStatus
            rw [classify_kind]
            have hend : ∀ e : Event, (∃ a b, e = .exit o a b) → Asked B D s
                (Py.bind (Py.bind (notRunning K o) fun _ => Py.pure e) (fun e => Py.pure (some e)) (logCall K c s)) (WQ v s) (WE X v s) := by
              rintro e ⟨a, b', rfl⟩
              unfold Py.bind
              rw [notRunning_run]
              obtain ⟨h1, h2⟩ := hc.ended (K := K) (c := c) ⟨_, _, hcall.symm⟩ hm hXo (fun v' st' hx => by rw [hk] at hx; cases hx; rfl)
              exact .ok (fun _ => h1) (hold.trans (.gone o _)) fun _ => ⟨h2, fun ev hev => by cases hev; exact ⟨trivial, fun _ _ hx => by cases hx⟩⟩
            cases hmean : waitMeaning st with
            | unknown => exact absurd hmean hst
            | exited code => exact hend _ ⟨_, _, rfl⟩
            | killed m => exact hend _ ⟨_, _, rfl⟩
            | signal m =>
              obtain ⟨h1, h2, h3⟩ := hc.told (K := K) hp hm hXo (by rw [hcall]; exact hk) (.inl ⟨m, hmean⟩) { s.heap o with isStopped := true } rfl rfl rfl (.inl rfl)
              rw [hcall] at h1 h2 h3
              show Asked B D s (.ok (some (Event.signal o m)), setProc (logCall K c s) o { s.heap o with isStopped := true }) _ _
              refine .ok (fun _ => h1) (hold.trans (Old.setProc _ o _ ⟨rfl, rfl, rfl, rfl, id⟩)) fun _ => ⟨fun i hi _ => h3 i hi, fun ev hev => ?_⟩
              cases hev
              exact ⟨⟨h2, (hc.owner hm).1⟩, fun q k hq => by cases hq; exact hg⟩
            | event m =>
              obtain ⟨h1, h2, h3⟩ := hc.told (K := K) hp hm hXo (by rw [hcall]; exact hk) (.inr ⟨m, hmean⟩) (s.heap o) rfl rfl rfl
                (.inr ⟨rfl, fun n hx => by rw [hmean] at hx; cases hx⟩)
              rw [hcall] at h1 h2 h3
              have hsame : setProc (logCall K c s) o (s.heap o) = logCall K c s := by
                unfold setProc
                congr 1
                funext i
                show (if i = o then s.heap o else s.heap i) = s.heap i
                split
                · rename_i e
                  rw [e]
                · rfl
              rw [hsame] at h1
              refine Asked.base ?_ hold
              have hev := asked_event (K := K) ih (fun p b => wait_sat n p b) m h1 h2
              have hcalm : ∀ u, KeptRest (logCall K c s) u → CalmWait v s u := fun u hu i hi _ => hu i (hc.halted_lt hi) (h3 i hi)
              refine Asked.bind (Q' := fun ev t => KeptRest (logCall K c s) t ∧ EvOK ev t ∧ ∀ q m, ev ≠ .signal q m)
                (hev.weaken (fun _ _ hq => hq) fun e u hu => ?_) fun ev u hI2 _ hq => ?_
              · refine ⟨hcalm u hu.1, hu.2, fun _ i hi => ?_⟩
                rw [hXo i hi]
                exact hu.1 o (h1.halted_lt h2) h2
              · refine asked_pure hI2 _ fun hlu => ?_
                obtain ⟨q1, q2, q3⟩ := hq hlu
                exact ⟨hcalm u q1, fun ev' he => by cases he; exact ⟨q2, fun q m hx => (q3 q m hx).elim⟩⟩
          · have hb : b = false := by cases b <;> simp_all
            subst hb
            have hXn : X = none := by
              cases X with
              | none => rfl
              | some c => exact absurd (hX c rfl).1 (by simp)
            subst hXn
            have hno : ∀ i, ¬ OverTold i ⟨c, K s.log c, s.dict⟩ := not_over_none (fun v st hx => by
              have hx : K s.log c = .ok v st := hx
              rw [hk] at hx
              cases hx
              rfl)
            have hkeep : ∀ i, AtRest i s.log → AtRest i (logCall K c s).log := fun i hi =>
              AtRest.snoc hi (by rw [← hcall]; exact not_letGo_wait i) (hno i)
            show Asked B D s (match checkPid p false (0, st) (logCall K c s) with
              | (.ok r, s') => waitReply K (waitEventPid K n) (waitEventPid K n p false) false r s'
              | (.error e, s') => waitExcept K p e s') _ _
            have hchk : checkPid p false (0, st) (logCall K c s) = (.ok (0, st), logCall K c s) := by
              unfold checkPid
              rw [if_neg (by simp)]
              rfl
            rw [hchk]
            exact .ok (fun _ => hc.call c (fun _ _ hx => by rw [← hcall] at hx; cases hx) (fun i _ _ _ hi => hkeep i hi) (fun _ hx => by cases hx) fun i hx => not_stop_none (fun v st hy => by
                have hy : K s.log c = .ok v st := hy
                rw [hk] at hy
                cases hy
                rfl) i (SignalTold.stop hx)) hold
              fun _ => ⟨fun i hi _ => hkeep i hi, fun _ hx => by cases hx⟩

end PT
