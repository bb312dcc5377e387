import Verif.Model.Child
import Verif.Spec.Child
import Verif.Lemmas.Py
import Mathlib.Tactic.ByContra

/-! C62, C63 and C64: creating a child process. -/

namespace PT
open Spec

/-! ## C64 — interrupted calls -/

private theorem noIntr_run {σ α : Type} (call : Py σ α) (fuel : Nat) (s s' : σ) (r : Except Exc α) (h : call s = (r, s'))
    (hr : r ≠ .error (.os 4)) : noIntr call (fuel + 1) s = (r, s') := by
  rw [noIntr]
  simp only [h]
  cases r with
  | ok a => rfl
  | error e =>
    cases e with
    | os n =>
      have : n ≠ EINTR := fun e => hr (by rw [e]; rfl)
      simp only [this, if_false]
    | _ => rfl

private theorem noIntr_again {σ α : Type} (call : Py σ α) (fuel : Nat) (s s1 : σ) (h : call s = (.error (.os 4), s1)) :
    noIntr call (fuel + 1) s = noIntr call fuel s1 := by
  rw [noIntr]
  simp only [h, show (4 : Nat) = EINTR from rfl, if_true]

/-- The loop returns an outcome exactly when it is the first one that is not an interruption, whatever the number of interruptions. -/
theorem C64_retry {σ α : Type} (call : Py σ α) (hd : ∀ s s', call s ≠ (.error .diverge, s')) (s s' : σ) (r : Except Exc α)
    (hr : r ≠ .error .diverge) : (∃ fuel, noIntr call fuel s = (r, s')) ↔ Retried call s r s' := by
  constructor
  · rintro ⟨fuel, h⟩
    induction fuel generalizing s with
    | zero =>
      rw [noIntr] at h
      injection h with h _
      exact absurd h.symm hr
    | succ fuel ih =>
      cases hc : call s with
      | mk r1 s1 =>
      by_cases he : r1 = .error (.os 4)
      · subst he
        rw [noIntr_again call fuel s s1 hc] at h
        exact .again hc (ih s1 h)
      · rw [noIntr_run call fuel s s1 r1 hc he] at h
        injection h with h1 h2
        subst h1 h2
        exact .done hc he
  · intro h
    clear hr
    induction h with
    | done hc he => exact ⟨1, noIntr_run call 0 _ _ _ hc he⟩
    | again hc _ ih =>
      obtain ⟨fuel, hf⟩ := ih
      exact ⟨fuel + 1, by rw [noIntr_again call fuel _ _ hc]; exact hf⟩

/-- The outcome never is an interruption. -/
theorem C64_never {σ α : Type} (call : Py σ α) (fuel : Nat) (s : σ) : (noIntr call fuel s).1 ≠ .error (.os 4) := by
  induction fuel generalizing s with
  | zero => rw [noIntr]; intro h; cases h
  | succ fuel ih =>
    cases hc : call s with
    | mk r1 s1 =>
    by_cases he : r1 = .error (.os 4)
    · subst he
      rw [noIntr_again call fuel s s1 hc]
      exact ih s1
    · rw [noIntr_run call fuel s s1 r1 hc he]
      exact he

/-- The three helpers pass their arguments on. -/
theorem C64_helpers {σ : Type} (waitpid : Nat → Nat → Py σ (Nat × Nat)) (read : Nat → Nat → Py σ Bytes) (write : Nat → Bytes → Py σ Nat)
    (pid options fd size : Nat) (data : Bytes) (s s' : σ) :
    (∀ r, Retried (waitpid pid options) s r s' → ∃ fuel, waitpidNoIntr waitpid fuel pid options s = (r, s')) ∧
    (∀ r, Retried (read fd size) s r s' → ∃ fuel, readNoIntr read fuel fd size s = (r, s')) ∧
    (∀ r, Retried (write fd data) s r s' → ∃ fuel, writeNoIntr write fuel fd data s = (r, s')) := by
  have key : ∀ {α : Type} (call : Py σ α) (s s' : σ) (r : Except Exc α), Retried call s r s' → ∃ fuel, noIntr call fuel s = (r, s') := by
    intro α call s s' r h
    induction h with
    | done hc he => exact ⟨1, noIntr_run call 0 _ _ _ hc he⟩
    | again hc _ ih =>
      obtain ⟨fuel, hf⟩ := ih
      exact ⟨fuel + 1, by rw [noIntr_again call fuel _ _ hc]; exact hf⟩
  exact ⟨fun r h => key _ _ _ _ h, fun r h => key _ _ _ _ h, fun r h => key _ _ _ _ h⟩

/-- A call that is interrupted `n` times (the state counts down) and then answers 7, or fails with 2. -/
def flaky (bad : Bool) : Py Nat Nat := fun n =>
  match n with
  | 0 => (if bad then .error (.os 2) else .ok 7, 0)
  | n + 1 => (.error (.os 4), n)

example := C64_retry (flaky false) (fun s s' h => by cases s <;> cases h) 3 0 (.ok 7) (by simp)

example : Retried (flaky false) 3 (.ok 7) 0 ∧ Retried (flaky true) 1 (.error (.os 2)) 0 :=
  ⟨.again rfl (.again rfl (.again rfl (.done rfl (by simp)))), .again rfl (.done rfl (by simp))⟩

/-! ## C62 — descriptors -/

private theorem put_self (t : FdTable) (fd : Nat) (v : Option Fd) : t.put fd v fd = v := by unfold FdTable.put; rw [if_pos rfl]
private theorem put_ne (t : FdTable) {fd x : Nat} (v : Option Fd) (h : x ≠ fd) : t.put fd v x = t x := by
  unfold FdTable.put; rw [if_neg h]

private theorem fold_close (w : Nat) (pass : List Nat) : ∀ (l : List Nat) (t : FdTable) (x : Nat),
    (l.foldl (fun t fd => if fd = w ∨ fd ∈ pass then t else t.put fd none) t) x =
      if x ∈ l ∧ ¬ (x = w ∨ x ∈ pass) then none else t x := by
  intro l
  induction l with
  | nil => intro t x; simp
  | cons fd l ih =>
    intro t x
    rw [List.foldl_cons, ih]
    by_cases hf : fd = w ∨ fd ∈ pass
    · rw [if_pos hf]
      by_cases hx : x ∈ l ∧ ¬ (x = w ∨ x ∈ pass)
      · rw [if_pos hx, if_pos ⟨List.mem_cons_of_mem _ hx.1, hx.2⟩]
      · rw [if_neg hx]
        by_cases hx' : x ∈ fd :: l ∧ ¬ (x = w ∨ x ∈ pass)
        · rcases List.mem_cons.1 hx'.1 with rfl | h
          · exact absurd hf hx'.2
          · exact absurd ⟨h, hx'.2⟩ hx
        · rw [if_neg hx']
    · rw [if_neg hf]
      by_cases hx : x ∈ l ∧ ¬ (x = w ∨ x ∈ pass)
      · rw [if_pos hx, if_pos ⟨List.mem_cons_of_mem _ hx.1, hx.2⟩]
      · rw [if_neg hx]
        by_cases hxf : x = fd
        · subst hxf
          rw [put_self, if_pos ⟨by simp, hf⟩]
        · rw [put_ne _ _ hxf, if_neg]
          rintro ⟨h1, h2⟩
          rcases List.mem_cons.1 h1 with h | h
          · exact hxf h
          · exact hx ⟨h, h2⟩

private theorem closeOthers_eq (maxfd w : Nat) (pass : List Nat) (t : FdTable) (x : Nat) :
    closeOthers maxfd w pass t x = if 3 ≤ x ∧ x < maxfd ∧ x ≠ w ∧ x ∉ pass then none else t x := by
  unfold closeOthers
  rw [fold_close]
  congr 1
  rw [List.mem_range']
  apply propext
  constructor
  · rintro ⟨⟨i, hi, rfl⟩, h⟩
    exact ⟨by omega, by omega, fun e => h (Or.inl e), fun e => h (Or.inr e)⟩
  · rintro ⟨h1, h2, h3, h4⟩
    refine ⟨⟨x - 3, by omega, by omega⟩, ?_⟩
    rintro (e | e)
    · exact h3 e
    · exact h4 e

private theorem setInheritable_ok : ∀ (fds : List Nat) (t : FdTable), (∀ fd ∈ fds, t fd ≠ none) →
    ∃ t', setInheritable t fds = .ok t' ∧ (∀ x, (t' x).map Fd.desc = (t x).map Fd.desc) ∧
      (∀ x ∈ fds, ∃ f, t' x = some f ∧ f.cloexec = false) ∧ (∀ x, x ∉ fds → t' x = t x) := by
  intro fds
  induction fds with
  | nil => intro t _; exact ⟨t, rfl, fun _ => rfl, (fun x hx => by cases hx), fun _ _ => rfl⟩
  | cons fd fds ih =>
    intro t h
    rw [setInheritable]
    cases hf : t fd with
    | none => exact absurd hf (h fd (by simp))
    | some f =>
      simp only
      have hne : ∀ x ∈ fds, (t.put fd (some { f with cloexec := false })) x ≠ none := by
        intro x hx
        by_cases hxf : x = fd
        · rw [hxf, put_self]; simp
        · rw [put_ne _ _ hxf]; exact h x (List.mem_cons_of_mem _ hx)
      obtain ⟨t', e1, e2, e3, e4⟩ := ih _ hne
      refine ⟨t', e1, ?_, ?_, ?_⟩
      · intro x
        rw [e2 x]
        by_cases hxf : x = fd
        · rw [hxf, put_self, hf]; rfl
        · rw [put_ne _ _ hxf]
      · intro x hx
        by_cases hxm : x ∈ fds
        · exact e3 x hxm
        · rcases List.mem_cons.1 hx with rfl | hx
          · exact ⟨{ f with cloexec := false }, by rw [e4 x hxm, put_self], rfl⟩
          · exact absurd hx hxm
      · intro x hx
        rw [e4 x (fun h => hx (List.mem_cons_of_mem _ h)), put_ne _ _ (fun e => hx (by rw [e]; simp))]

/-- What the environment of a child guarantees: the new descriptors were closed, those to pass and the standard ones are open. -/
structure ChildEnv.Sane (env : ChildEnv) (t : FdTable) (passFds : List Nat) (closeFds : Bool) : Prop where
  pipeNe : env.pipeR ≠ env.pipeW
  pipeR : t env.pipeR = none
  pipeW : t env.pipeW = none
  pass : ∀ fd ∈ passFds, t fd ≠ none
  std : ∀ fd, fd < 3 → t fd ≠ none
  null : ∀ n, env.nullFd = some n → 3 ≤ n ∧ n ≠ env.pipeW ∧ n ∉ passFds ∧ (closeFds = false → passFds = [] → t n = none) ∧ (env.maxfd ≤ n → t n = none)

private theorem redirect_table (env : ChildEnv) (noStdout : Bool) (t : FdTable) (h1 : t 1 ≠ none) (h2 : t 2 ≠ none)
    (hn : ∀ n, env.nullFd = some n → 3 ≤ n) :
    ∃ t', redirect env noStdout t = .ok t' ∧
      (∀ x, x ≠ 1 → x ≠ 2 → (∀ n, noStdout = true → env.nullFd = some n → x ≠ n) → t' x = t x) ∧
      (∀ n, noStdout = true → env.nullFd = some n → t' n = none ∧ t' 1 = some ⟨.null, false⟩ ∧ t' 2 = some ⟨.null, false⟩) ∧
      (noStdout = true → env.nullFd = none → t' 1 = none ∧ t' 2 = none) ∧ (noStdout = false → t' = t) := by
  unfold redirect
  cases noStdout with
  | false => exact ⟨t, rfl, fun _ _ _ _ => rfl, (fun n h => by cases h), (fun h => by cases h), fun _ => rfl⟩
  | true =>
    simp only [if_true]
    cases hnull : env.nullFd with
    | none =>
      simp only
      unfold closeFd
      rw [if_neg h2]
      simp only
      rw [put_ne _ _ (show (1 : Nat) ≠ 2 by omega), if_neg h1]
      refine ⟨_, rfl, ?_, (fun n _ h => by cases h), fun _ _ => ⟨put_self .., ?_⟩, (fun h => by cases h)⟩
      · intro x hx1 hx2 _
        rw [put_ne _ _ hx1, put_ne _ _ hx2]
      · rw [put_ne _ _ (show (2 : Nat) ≠ 1 by omega), put_self]
    | some n =>
      have h3 := hn n hnull
      simp only
      have e1 : dup2 (t.put n (some ⟨.null, true⟩)) n 1 = (t.put n (some ⟨.null, true⟩)).put 1 (some ⟨.null, false⟩) := by
        unfold dup2
        rw [if_neg (by omega), put_self]; rfl
      have e2 : dup2 (dup2 (t.put n (some ⟨.null, true⟩)) n 1) 1 2 =
          ((t.put n (some ⟨.null, true⟩)).put 1 (some ⟨.null, false⟩)).put 2 (some ⟨.null, false⟩) := by
        rw [e1]
        unfold dup2
        rw [if_neg (by omega), put_self]; rfl
      rw [e2]
      refine ⟨_, rfl, ?_, ?_, (fun _ h => by cases h), (fun h => by cases h)⟩
      · intro x hx1 hx2 hx
        have hxn : x ≠ n := by
          apply hx n
          all_goals trivial
        rw [put_ne _ _ hxn, put_ne _ _ hx2, put_ne _ _ hx1, put_ne _ _ hxn]
      · intro m _ hm
        injection hm with hm
        subst hm
        refine ⟨put_self .., ?_, ?_⟩
        · rw [put_ne _ _ (by omega), put_ne _ _ (by omega), put_self]
        · rw [put_ne _ _ (by omega), put_self]

/-- The table of the child before the redirection. -/
private theorem before_redirect {env : ChildEnv} {t : FdTable} {passFds : List Nat} (closeFds : Bool) (hs : env.Sane t passFds closeFds) :
    ∃ t1, setInheritable (((t.put env.pipeR (some ⟨.errRead, true⟩)).put env.pipeW (some ⟨.errWrite, true⟩)).put env.pipeR none) passFds = .ok t1 ∧
      t1 env.pipeW = some ⟨.errWrite, true⟩ ∧ t1 env.pipeR = none ∧
      (∀ x, x ≠ env.pipeR → x ≠ env.pipeW → x ∉ passFds → t1 x = t x) ∧ (∀ x, x ≠ env.pipeW → (t1 x = none ↔ t x = none)) ∧
      (∀ x ∈ passFds, ∃ f, t1 x = some f ∧ f.cloexec = false) := by
  have hwp : env.pipeW ∉ passFds := fun h => hs.pass _ h hs.pipeW
  have hrp : env.pipeR ∉ passFds := fun h => hs.pass _ h hs.pipeR
  generalize hT : ((t.put env.pipeR (some ⟨.errRead, true⟩)).put env.pipeW (some ⟨.errWrite, true⟩)).put env.pipeR none = T
  have hTr : T env.pipeR = none := by rw [← hT, put_self]
  have hTw : T env.pipeW = some ⟨.errWrite, true⟩ := by rw [← hT, put_ne _ _ (Ne.symm hs.pipeNe), put_self]
  have hTx : ∀ x, x ≠ env.pipeR → x ≠ env.pipeW → T x = t x := by
    intro x h1 h2
    rw [← hT, put_ne _ _ h1, put_ne _ _ h2, put_ne _ _ h1]
  have hTp : ∀ fd ∈ passFds, T fd ≠ none := by
    intro fd hfd
    rw [hTx fd (fun e => hrp (e ▸ hfd)) (fun e => hwp (e ▸ hfd))]
    exact hs.pass fd hfd
  obtain ⟨t1, e1, e2, e3, e4⟩ := setInheritable_ok passFds T hTp
  refine ⟨t1, e1, by rw [e4 _ hwp, hTw], by rw [e4 _ hrp, hTr], fun x h1 h2 h3 => by rw [e4 x h3, hTx x h1 h2], ?_, e3⟩
  intro x hx
  have h2 := e2 x
  by_cases hxr : x = env.pipeR
  · rw [hxr, e4 _ hrp, hTr, hs.pipeR]
  · rw [hTx x hxr hx] at h2
    cases h1 : t1 x with
    | none =>
      rw [h1] at h2
      cases h3 : t x with
      | none => simp
      | some f => rw [h3] at h2; cases h2
    | some g =>
      rw [h1] at h2
      cases h3 : t x with
      | none => rw [h3] at h2; cases h2
      | some f => simp

/-- Exactly which descriptors are open before `exec`, whatever was open: also those from `MAXFD` on. -/
theorem C62_exact (env : ChildEnv) (noStdout closeFds : Bool) (passFds : List Nat) (t : FdTable) (hs : env.Sane t passFds closeFds) (htrace : env.traceme = none) (hexec : env.exec = none) :
    ∃ t', createChildChild env noStdout closeFds passFds t = .execed t' ∧
      (∀ fd, 3 ≤ fd → (t' fd ≠ none ↔ fd = env.pipeW ∨ (t fd ≠ none ∧ (fd ∈ passFds ∨ (closeFds = false ∧ passFds = []) ∨ env.maxfd ≤ fd)))) ∧
      (∀ fd, fd < 3 → noStdout = false → fd ∉ passFds → t' fd = t fd) ∧
      (noStdout = true → 0 ∉ passFds → t' 0 = t 0) ∧
      (∀ n, noStdout = true → env.nullFd = some n → t' 1 = some ⟨.null, false⟩ ∧ t' 2 = some ⟨.null, false⟩) ∧
      afterExec t' env.pipeW = none ∧ (∀ fd ∈ passFds, 3 ≤ fd → afterExec t' fd ≠ none) := by
  obtain ⟨t1, e1, e2, e3, e4, e5, e6⟩ := before_redirect closeFds hs
  have hwp : env.pipeW ∉ passFds := fun h => hs.pass _ h hs.pipeW
  have hw3 : 3 ≤ env.pipeW := by
    by_contra h
    exact hs.std env.pipeW (by omega) hs.pipeW
  have hr3 : 3 ≤ env.pipeR := by
    by_contra h
    exact hs.std env.pipeR (by omega) hs.pipeR
  -- the closing loop
  generalize hcl : (if passFds ≠ [] ∧ closeFds = false then true else closeFds) = cl
  have hcliff : cl = false ↔ closeFds = false ∧ passFds = [] := by
    rw [← hcl]
    by_cases h : passFds ≠ [] ∧ closeFds = false
    · rw [if_pos h]
      exact ⟨(fun h => by cases h), fun h2 => absurd h2.2 h.1⟩
    · rw [if_neg h]
      refine ⟨fun h2 => ⟨h2, ?_⟩, fun h2 => h2.1⟩
      by_contra h3
      exact h ⟨h3, h2⟩
  generalize ht2 : (if cl then closeOthers env.maxfd env.pipeW passFds t1 else t1) = t2
  have ht2x : ∀ x, t2 x = if cl = true ∧ 3 ≤ x ∧ x < env.maxfd ∧ x ≠ env.pipeW ∧ x ∉ passFds then none else t1 x := by
    intro x
    rw [← ht2]
    cases cl with
    | true => simp only [if_true]; rw [closeOthers_eq]; simp
    | false => simp
  have hlow : ∀ x, x < 3 → t2 x = t1 x := fun x hx => by rw [ht2x x, if_neg (by omega)]
  have h1ne : ∀ x, x < 3 → t2 x ≠ none := by
    intro x hx
    rw [hlow x hx]
    intro h
    exact hs.std x hx ((e5 x (by omega)).1 h)
  obtain ⟨t3, r1, r2, r3, _, r5⟩ := redirect_table env noStdout t2 (h1ne 1 (by omega)) (h1ne 2 (by omega)) (fun n hn => (hs.null n hn).1)
  have hrun : createChildChild env noStdout closeFds passFds t = .execed t3 := by
    unfold createChildChild childMain
    simp only [hcl, htrace, e1, ht2, r1, hexec]
  -- nothing but 1, 2 and the null descriptor changes
  have hnull : ∀ n, env.nullFd = some n → noStdout = true → (t3 n = none ∧ n ∉ passFds ∧ n ≠ env.pipeW) :=
    fun n hn hno => ⟨(r3 n hno hn).1, (hs.null n hn).2.2.1, (hs.null n hn).2.1⟩
  have hw : t3 env.pipeW = some ⟨.errWrite, true⟩ := by
    rw [r2 env.pipeW (by omega) (by omega) (fun n _ hn => Ne.symm (hs.null n hn).2.1), ht2x, if_neg (by simp), e2]
  refine ⟨t3, hrun, ?_, ?_, ?_, ?_, ?_, ?_⟩
  · intro fd hfd
    by_cases hfw : fd = env.pipeW
    · rw [hfw, hw]; simp
    by_cases hfn : noStdout = true ∧ env.nullFd = some fd
    · rw [(r3 fd hfn.1 hfn.2).1]
      constructor
      · intro h; exact absurd rfl h
      · rintro (h | ⟨h, h' | h' | h'⟩)
        · exact absurd h hfw
        · exact absurd h' (hs.null fd hfn.2).2.2.1
        · exact absurd ((hs.null fd hfn.2).2.2.2.1 h'.1 h'.2) h
        · exact absurd ((hs.null fd hfn.2).2.2.2.2 h') h
    · rw [r2 fd (by omega) (by omega) (fun n h1 h2 e => hfn ⟨h1, e ▸ h2⟩), ht2x fd]
      have h5 := e5 fd hfw
      by_cases hc : cl = true ∧ 3 ≤ fd ∧ fd < env.maxfd ∧ fd ≠ env.pipeW ∧ fd ∉ passFds
      · rw [if_pos hc]
        constructor
        · intro h; exact absurd rfl h
        · rintro (h | ⟨h, h' | h' | h'⟩)
          · exact absurd h hfw
          · exact absurd h' hc.2.2.2.2
          · rw [hcliff.2 h'] at hc
            exact absurd hc.1 (by simp)
          · exact absurd hc.2.2.1 (by omega)
      · rw [if_neg hc, Ne, h5]
        constructor
        · intro h
          refine Or.inr ⟨h, ?_⟩
          by_cases hp : fd ∈ passFds
          · exact Or.inl hp
          · by_cases hm : env.maxfd ≤ fd
            · exact Or.inr (Or.inr hm)
            · refine Or.inr (Or.inl (hcliff.1 ?_))
              cases hcl' : cl with
              | false => rfl
              | true => exact absurd ⟨hcl', hfd, by omega, hfw, hp⟩ hc
        · rintro (h | ⟨h, _⟩)
          · exact absurd h hfw
          · exact h
  · intro fd hfd hno hp
    rw [r5 hno, hlow fd hfd, e4 fd (by omega) (by omega) hp]
  · intro hno hp
    rw [r2 0 (by omega) (by omega) (fun n _ hn => by have := (hs.null n hn).1; omega), hlow 0 (by omega), e4 0 (by omega) (by omega) hp]
  · intro n hno hn
    exact (r3 n hno hn).2
  · unfold afterExec; rw [hw]; rfl
  · intro fd hfd h3
    have hne : ∀ n, noStdout = true → env.nullFd = some n → fd ≠ n := fun n _ hn e => (hs.null n hn).2.2.1 (e ▸ hfd)
    obtain ⟨f, hf, hc⟩ := e6 fd hfd
    have : t3 fd = some f := by
      rw [r2 fd (by omega) (by omega) hne, ht2x fd, if_neg (by rintro ⟨_, _, _, _, h⟩; exact h hfd), hf]
    unfold afterExec
    rw [this]
    simp only [hc]
    simp

/-- Before `exec`: with `close_fds`, exactly 0, 1, 2, the error pipe and the passed descriptors are open, when every open descriptor is
below `MAXFD`; without it (and without passed descriptors) everything that was open still is, and the error pipe. After `exec`: the error
pipe is closed and the passed descriptors are open. -/
theorem C62_partial (env : ChildEnv) (noStdout closeFds : Bool) (passFds : List Nat) (t : FdTable) (hs : env.Sane t passFds closeFds)
    (hmax : ∀ fd, t fd ≠ none → fd < env.maxfd) (htrace : env.traceme = none) (hexec : env.exec = none) :
    ∃ t', createChildChild env noStdout closeFds passFds t = .execed t' ∧
      (∀ fd, 3 ≤ fd → (t' fd ≠ none ↔ fd = env.pipeW ∨ (t fd ≠ none ∧ (fd ∈ passFds ∨ (closeFds = false ∧ passFds = []))))) ∧
      (∀ fd, fd < 3 → noStdout = false → fd ∉ passFds → t' fd = t fd) ∧
      (noStdout = true → 0 ∉ passFds → t' 0 = t 0) ∧
      (∀ n, noStdout = true → env.nullFd = some n → t' 1 = some ⟨.null, false⟩ ∧ t' 2 = some ⟨.null, false⟩) ∧
      afterExec t' env.pipeW = none ∧ (∀ fd ∈ passFds, 3 ≤ fd → afterExec t' fd ≠ none) := by
  obtain ⟨t', h1, h2, h3⟩ := C62_exact env noStdout closeFds passFds t hs htrace hexec
  refine ⟨t', h1, fun fd hfd => ?_, h3⟩
  rw [h2 fd hfd]
  constructor
  · rintro (h | ⟨h, h' | h' | h'⟩)
    · exact Or.inl h
    · exact Or.inr ⟨h, Or.inl h'⟩
    · exact Or.inr ⟨h, Or.inr h'⟩
    · exact absurd (hmax fd h) (by omega)
  · rintro (h | ⟨h, h' | h'⟩)
    · exact Or.inl h
    · exact Or.inr ⟨h, Or.inl h'⟩
    · exact Or.inr ⟨h, Or.inr (Or.inl h')⟩

/-- A process with 0, 1, 2, a log file 3 and a socket 7; both ends of the new pipe are 4 and 5. -/
def demoTable : FdTable := fun fd => if fd ∈ [0, 1, 2, 3, 7] then some ⟨.other fd, fd == 7⟩ else none

/-- Its environment. -/
def demoEnv : ChildEnv where
  maxfd := 1024
  pipeR := 4
  pipeW := 5
  nullFd := some 6
  traceme := none
  exec := none

theorem demo_sane : demoEnv.Sane demoTable [7] true where
  pipeNe := by decide
  pipeR := by decide
  pipeW := by decide
  pass := by decide
  std := by
    intro fd h
    have : fd = 0 ∨ fd = 1 ∨ fd = 2 := by omega
    rcases this with rfl | rfl | rfl <;> decide
  null := by
    intro n h
    injection h with h
    subst h
    decide

example := C62_exact demoEnv true true [7] demoTable demo_sane rfl rfl

theorem demo_max : ∀ fd, demoTable fd ≠ none → fd < demoEnv.maxfd := by
  intro fd h
  unfold demoTable at h
  by_cases hm : fd ∈ [0, 1, 2, 3, 7]
  · simp only [List.mem_cons, List.not_mem_nil, or_false] at hm
    show fd < 1024
    omega
  · rw [if_neg hm] at h
    exact absurd rfl h

/-- The socket is passed on though it was close-on-exec, the log file is closed, the error pipe ends at `exec`. -/
example : ∃ t', createChildChild demoEnv true true [7] demoTable = .execed t' ∧ t' 3 = none ∧ t' 5 ≠ none ∧ afterExec t' 5 = none ∧
    afterExec t' 7 ≠ none ∧ t' 1 = some ⟨.null, false⟩ := by
  obtain ⟨t', h, h1, _, _, h4, h5, h6⟩ := C62_partial demoEnv true true [7] demoTable demo_sane demo_max rfl rfl
  refine ⟨t', h, ?_, (h1 5 (by omega)).2 (Or.inl rfl), h5, h6 7 (by simp) (by omega), (h4 6 rfl rfl).1⟩
  by_contra h3
  rcases (h1 3 (by omega)).1 h3 with h | ⟨_, h | h⟩
  · exact absurd h (by decide)
  · exact absurd h (by decide)
  · exact absurd h.1 (by decide)

/-- Two ways in which a descriptor that is neither standard nor passed reaches the new program: a number not below `MAXFD` (a limit lowered
after it was opened, or raised after the import); and the error pipe itself, when `pass_fds` names its number, which was closed before. -/
theorem C62_refuted :
    (∃ (env : ChildEnv) (t t' : FdTable) (fd : Nat), t fd ≠ none ∧ 3 ≤ fd ∧ fd ≠ env.pipeW ∧ env.Sane t [] true ∧
      createChildChild env false true [] t = .execed t' ∧ afterExec t' fd ≠ none) ∧
    (∃ (env : ChildEnv) (t t' : FdTable), t env.pipeW = none ∧
      createChildChild env false true [env.pipeW] t = .execed t' ∧ afterExec t' env.pipeW ≠ none) := by
  constructor
  · let env : ChildEnv := { demoEnv with maxfd := 3 }
    have hs : env.Sane demoTable [] true :=
      { pipeNe := by decide
        pipeR := by decide
        pipeW := by decide
        pass := by decide
        std := demo_sane.std
        null := by
          intro n h
          injection h with h
          subst h
          decide }
    refine ⟨env, demoTable, _, 3, by decide, by decide, by decide, hs, rfl, ?_⟩
    decide
  · refine ⟨{ demoEnv with maxfd := 8 }, demoTable, _, by decide, rfl, ?_⟩
    decide

/-! ## C63 — failures of the child -/

/-- When `PTRACE_TRACEME` and the flags of the passed descriptors succeed and the standard descriptors are open: `createChild` returns a
pid exactly when `exec` succeeded, and otherwise raises the error of `exec`, after `waitpid`. -/
theorem C63_partial (env : ChildEnv) (noStdout closeFds : Bool) (passFds : List Nat) (t : FdTable) (hs : env.Sane t passFds closeFds)
    (htrace : env.traceme = none) :
    (env.exec = none → createChildParent (createChildChild env noStdout closeFds passFds t) = .pid ∧
      ∃ t', createChildChild env noStdout closeFds passFds t = .execed t') ∧
    (∀ e, env.exec = some e → createChildParent (createChildChild env noStdout closeFds passFds t) = .raised (.exec e) true) := by
  obtain ⟨t1, e1, e2, e3, e4, e5, e6⟩ := before_redirect closeFds hs
  have hw3 : 3 ≤ env.pipeW := by
    by_contra h
    exact hs.std env.pipeW (by omega) hs.pipeW
  generalize hcl : (if passFds ≠ [] ∧ closeFds = false then true else closeFds) = cl
  generalize ht2 : (if cl then closeOthers env.maxfd env.pipeW passFds t1 else t1) = t2
  have ht2x : ∀ x, t2 x = if cl = true ∧ 3 ≤ x ∧ x < env.maxfd ∧ x ≠ env.pipeW ∧ x ∉ passFds then none else t1 x := by
    intro x
    rw [← ht2]
    cases cl with
    | true => simp only [if_true]; rw [closeOthers_eq]; simp
    | false => simp
  have hlow : ∀ x, x < 3 → t2 x ≠ none := by
    intro x hx
    rw [ht2x x, if_neg (by omega)]
    intro h
    exact hs.std x hx ((e5 x (by omega)).1 h)
  obtain ⟨t3, r1, r2, _⟩ := redirect_table env noStdout t2 (hlow 1 (by omega)) (hlow 2 (by omega)) (fun n hn => (hs.null n hn).1)
  have hw : t3 env.pipeW = some ⟨.errWrite, true⟩ := by
    rw [r2 env.pipeW (by omega) (by omega) (fun n _ hn => Ne.symm (hs.null n hn).2.1), ht2x, if_neg (by simp), e2]
  constructor
  · intro hexec
    have : createChildChild env noStdout closeFds passFds t = .execed t3 := by
      unfold createChildChild childMain
      simp only [hcl, htrace, e1, ht2, r1, hexec]
    rw [this]
    exact ⟨rfl, t3, rfl⟩
  · intro e hexec
    have : createChildChild env noStdout closeFds passFds t = .exited (some (.exec e)) := by
      unfold createChildChild childMain
      simp only [hcl, htrace, e1, ht2, r1, hexec]
      unfold report
      rw [hw]
      simp
    rw [this]
    rfl

/-- In every state: an error is raised only for an error that the child met after which it did not run the program, and always after
`waitpid`. -/
theorem C63_sound (env : ChildEnv) (noStdout closeFds : Bool) (passFds : List Nat) (t : FdTable) (e : ChildErr) (reaped : Bool)
    (h : createChildParent (createChildChild env noStdout closeFds passFds t) = .raised e reaped) :
    reaped = true ∧ (∀ t', createChildChild env noStdout closeFds passFds t ≠ .execed t') ∧
    ((∃ n, e = .exec n ∧ env.exec = some n) ∨ (e = .os 9 ∧ noStdout = true ∧ env.nullFd = none)) := by
  cases hc : createChildChild env noStdout closeFds passFds t with
  | execed t' => rw [hc] at h; cases h
  | raised e' => rw [hc] at h; cases h
  | exited w =>
    cases w with
    | none => rw [hc] at h; cases h
    | some e' =>
      rw [hc] at h
      injection h with h1 h2
      subst h1 h2
      refine ⟨rfl, (fun t' h => by cases h), ?_⟩
      unfold createChildChild childMain at hc
      simp only at hc
      generalize (if passFds ≠ [] ∧ closeFds = false then true else closeFds) = cl at hc
      cases htr : env.traceme with
      | some n => rw [htr] at hc; cases hc
      | none =>
        rw [htr] at hc
        simp only at hc
        generalize setInheritable _ passFds = si at hc
        cases si with
        | error e2 => cases hc
        | ok t1 =>
          simp only at hc
          generalize (if cl = true then closeOthers env.maxfd env.pipeW passFds t1 else t1) = t2 at hc
          have key : ∀ (tt : FdTable) (x : ChildErr), report env tt x = .exited (some e') → x = e' := by
            intro tt x hx
            unfold report at hx
            cases hp : tt env.pipeW with
            | none => rw [hp] at hx; cases hx
            | some f =>
              rw [hp] at hx
              simp only at hx
              by_cases hd : f.desc = .errWrite
              · rw [if_pos hd] at hx
                injection hx with hx
                injection hx
              · rw [if_neg hd] at hx
                injection hx with hx
                cases hx
          cases hr : redirect env noStdout t2 with
          | error e2 =>
            rw [hr] at hc
            have := key _ _ hc
            subst this
            right
            unfold redirect at hr
            cases noStdout with
            | false => simp at hr
            | true =>
              simp only [if_true] at hr
              cases hn : env.nullFd with
              | some n => rw [hn] at hr; cases hr
              | none =>
                rw [hn] at hr
                simp only at hr
                refine ⟨?_, rfl, rfl⟩
                unfold closeFd at hr
                by_cases h2 : t2 2 = none
                · rw [if_pos h2] at hr
                  injection hr with hr
                  exact hr.symm
                · rw [if_neg h2] at hr
                  simp only at hr
                  by_cases h1 : (t2.put 2 none) 1 = none
                  · rw [if_pos h1] at hr
                    injection hr with hr
                    exact hr.symm
                  · rw [if_neg h1] at hr
                    cases hr
          | ok t3 =>
            rw [hr] at hc
            simp only at hc
            cases hx : env.exec with
            | none => rw [hx] at hc; cases hc
            | some n =>
              rw [hx] at hc
              exact Or.inl ⟨n, (key _ _ hc).symm, rfl⟩

-- the program does not exist (error 2)
example := C63_sound { demoEnv with exec := some 2 } true true [7] demoTable (.exec 2) true
  ((C63_partial { demoEnv with exec := some 2 } true true [7] demoTable
    { pipeNe := demo_sane.pipeNe, pipeR := demo_sane.pipeR, pipeW := demo_sane.pipeW, pass := demo_sane.pass, std := demo_sane.std,
      null := demo_sane.null } rfl).2 2 rfl)

/-- Three failures that the parent does not hear of; it returns the pid: `PTRACE_TRACEME` is refused, or a descriptor to pass is closed
(both raise outside the `try`, in the child), or standard output was closed so that the pipe got the number 2, which the
redirection replaces before `exec` fails. -/
theorem C63_refuted :
    (∃ env t, env.Sane t [] true ∧ env.traceme = some 1 ∧ (∀ t', createChildChild env true true [] t ≠ .execed t') ∧
      createChildParent (createChildChild env true true [] t) = .pid) ∧
    (∃ env t, env.Sane t [] true ∧ env.traceme = none ∧ (∀ t', createChildChild env true true [9] t ≠ .execed t') ∧
      createChildParent (createChildChild env true true [9] t) = .pid) ∧
    (∃ env t, env.traceme = none ∧ env.exec = some 2 ∧ t env.pipeR = none ∧ t env.pipeW = none ∧
      (∀ t', createChildChild env true true [] t ≠ .execed t') ∧
      createChildParent (createChildChild env true true [] t) = .pid) := by
  have hs : ∀ o x, ({ demoEnv with traceme := o, exec := x } : ChildEnv).Sane demoTable [] true := fun o x =>
    { pipeNe := demo_sane.pipeNe
      pipeR := demo_sane.pipeR
      pipeW := demo_sane.pipeW
      pass := by decide
      std := demo_sane.std
      null := by
        intro n h
        injection h with h
        subst h
        have := demo_sane.null 6 rfl
        exact ⟨this.1, this.2.1, (fun h => by cases h), (fun h => by cases h), this.2.2.2.2⟩ }
  refine ⟨⟨{ demoEnv with traceme := some 1 }, demoTable, hs (some 1) none, rfl, (fun t' h => by cases h), rfl⟩,
    ⟨{ demoEnv with traceme := none }, demoTable, hs none none, rfl, (fun t' h => by cases h), rfl⟩, ?_⟩
  let env : ChildEnv := { maxfd := 3, pipeR := 1, pipeW := 2, nullFd := some 3, traceme := none, exec := some 2 }
  have hrun : createChildChild env true true [] (fun fd => if fd = 0 then some ⟨.other 0, false⟩ else none) = .exited none := rfl
  exact ⟨env, fun fd => if fd = 0 then some ⟨.other 0, false⟩ else none, rfl, rfl, rfl, rfl, (fun t' h => by rw [hrun] at h; cases h), by rw [hrun]; rfl⟩

/-- A program that does not exist (error 2). -/
example : createChildParent (createChildChild { demoEnv with exec := some 2 } true true [7] demoTable) = .raised (.exec 2) true :=
  (C63_partial { demoEnv with exec := some 2 } true true [7] demoTable
    { pipeNe := demo_sane.pipeNe, pipeR := demo_sane.pipeR, pipeW := demo_sane.pipeW, pass := demo_sane.pass, std := demo_sane.std,
      null := demo_sane.null } rfl).2 2 rfl

end PT
