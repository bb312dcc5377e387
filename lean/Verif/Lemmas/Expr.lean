import Verif.Spec.Expr
import Verif.Lemmas.Py
import Verif.Lemmas.Text
import Verif.Lemmas.Split
import Mathlib.Data.Int.Bitwise

namespace PT
open Spec

/-! ### Characters -/

theorem isDec_iff (c : Char) : isDec c = true ↔ '0' ≤ c ∧ c ≤ '9' := by unfold isDec; exact decide_eq_true_iff

theorem char_eq {c d : Char} (h : c.toNat = d.toNat) : c = d := Char.toNat_inj.1 h

theorem le_toNat {c d : Char} : c ≤ d ↔ c.toNat ≤ d.toNat := by
  rw [Char.le_def]; exact UInt32.le_iff_toNat_le

theorem isExprChar_iff (c : Char) : isExprChar c = true ↔ c ∈ arithmetic := by
  have hsub : ∀ d ∈ arithmetic, isExprChar d = true := by decide
  constructor
  · intro h
    unfold isExprChar at h
    rcases Bool.or_eq_true _ _ ▸ h with h | h
    · rw [isDec_iff, le_toNat, le_toNat] at h
      obtain ⟨h1, h2⟩ := h
      have h1 : 48 ≤ c.toNat := h1
      have h2 : c.toNat ≤ 57 := h2
      have : ∀ d ∈ List.range' 48 10, Char.ofNat d ∈ arithmetic := by decide
      have := this c.toNat (by rw [List.mem_range'_1]; omega)
      rwa [Char.ofNat_toNat] at this
    · have hm : c ∈ "()<>+*/&-".toList := by simpa using h
      have : ∀ d ∈ "()<>+*/&-".toList, d ∈ arithmetic := by decide
      exact this c hm
  · exact hsub c

theorem getLast?_append_ne (l : Str) {r : Str} (h : r ≠ []) : (l ++ r).getLast? = r.getLast? := by
  rw [List.getLast?_append, List.getLast?_eq_some_getLast h]
  rfl

theorem mem_takeWhile {p : Char → Bool} {t : Str} {c : Char} (h : c ∈ t.takeWhile p) : p c = true := by
  induction t with
  | nil => cases h
  | cons d ds ih =>
    rw [List.takeWhile_cons] at h
    by_cases hd : p d = true
    · rw [if_pos hd] at h
      rcases List.mem_cons.1 h with rfl | h
      · exact hd
      · exact ih h
    · rw [if_neg hd] at h; cases h

/-! ### `reSub` -/

section
variable {σ : Type} {len : Str → Nat} {f : Str → Py σ Str}

theorem reSub_nil (fuel : Nat) (s : σ) : reSub len f fuel [] s = (.ok [], s) := by
  cases fuel <;> rfl

/-- Without a match nothing changes. -/
theorem reSub_none : ∀ (fuel : Nat) (t : Str) (s : σ), (∀ u, u <:+ t → len u = 0) → reSub len f fuel t s = (.ok t, s) := by
  intro fuel
  induction fuel with
  | zero => intro t s _; rfl
  | succ fuel ih =>
    intro t s h
    cases t with
    | nil => rfl
    | cons c cs =>
      rw [reSub, if_pos (h _ (List.suffix_refl _)),
        Py.run_bind_ok (ih cs s (fun u hu => h u (hu.trans (List.suffix_cons c cs))))]
      rfl

/-- Characters in front of which there is no match are copied. -/
theorem reSub_copy {fuel : Nat} {c : Char} {cs rest : Str} {s t : σ} (h0 : len (c :: cs) = 0)
    (h : reSub len f fuel cs s = (.ok rest, t)) : reSub len f (fuel + 1) (c :: cs) s = (.ok (c :: rest), t) := by
  rw [reSub, if_pos h0, Py.run_bind_ok h]
  rfl

/-- A match is replaced. -/
theorem reSub_match {fuel : Nat} {m cs r rest : Str} {s t u : σ} (hm : m ≠ []) (hl : len (m ++ cs) = m.length)
    (hf : f m s = (.ok r, t)) (h : reSub len f fuel cs t = (.ok rest, u)) :
    reSub len f (fuel + 1) (m ++ cs) s = (.ok (r ++ rest), u) := by
  obtain ⟨c, m', rfl⟩ := List.exists_cons_of_ne_nil hm
  rw [List.cons_append, reSub, ← List.cons_append, hl, if_neg (by simp), List.take_left, List.drop_left,
    Py.run_bind_ok hf, Py.run_bind_ok h]
  rfl

/-- A character that is never part of a match stays. -/
theorem reSub_keeps {c : Char} (hc : ∀ t : Str, c ∉ t.take (len t)) : ∀ (fuel : Nat) (t r : Str) (s u : σ),
    c ∈ t → reSub len f fuel t s = (.ok r, u) → c ∈ r := by
  intro fuel
  induction fuel with
  | zero => intro t r s u hm h; cases h; exact hm
  | succ fuel ih =>
    intro t r s u hm h
    cases t with
    | nil => cases hm
    | cons d cs =>
      rw [reSub] at h
      by_cases h0 : len (d :: cs) = 0
      · rw [if_pos h0] at h
        obtain ⟨rest, w, h1, h2⟩ := Py.ok_of_bind h
        cases h2
        rcases List.mem_cons.1 hm with rfl | hm
        · exact List.mem_cons_self ..
        · exact List.mem_cons_of_mem _ (ih _ _ _ _ hm h1)
      · rw [if_neg h0] at h
        obtain ⟨m, w, h1, h2⟩ := Py.ok_of_bind h
        obtain ⟨rest, w', h3, h4⟩ := Py.ok_of_bind h2
        cases h4
        have : c ∈ (d :: cs).take (len (d :: cs)) ++ (d :: cs).drop (len (d :: cs)) := by rw [List.take_append_drop]; exact hm
        rcases List.mem_append.1 this with hx | hx
        · exact absurd hx (hc _)
        · exact List.mem_append_right _ (ih _ _ _ _ hx h3)

theorem reSub_ne_nil (hf : ∀ (t : Str) (s : σ) r u, len t ≠ 0 → f (t.take (len t)) s = (.ok r, u) → r ≠ []) :
    ∀ (fuel : Nat) (t r : Str) (s u : σ), reSub len f fuel t s = (.ok r, u) → t ≠ [] → r ≠ [] := by
  intro fuel
  cases fuel with
  | zero => intro t r s u h ht; cases h; exact ht
  | succ fuel =>
    intro t r s u h ht
    cases t with
    | nil => exact absurd rfl ht
    | cons d cs =>
      rw [reSub] at h
      by_cases h0 : len (d :: cs) = 0
      · rw [if_pos h0] at h
        obtain ⟨rest, w, h1, h2⟩ := Py.ok_of_bind h
        cases h2
        exact List.cons_ne_nil _ _
      · rw [if_neg h0] at h
        obtain ⟨m, w, h1, h2⟩ := Py.ok_of_bind h
        obtain ⟨rest, w', h3, h4⟩ := Py.ok_of_bind h2
        cases h4
        exact List.append_ne_nil_of_left_ne_nil (hf _ _ _ _ h0 h1) _

/-- If replacements do not end with a certain character, the result ends with it only if the text does. -/
theorem reSub_last {x : Char}
    (hf : ∀ (t : Str) (s : σ) r u, len t ≠ 0 → f (t.take (len t)) s = (.ok r, u) → r ≠ [] ∧ r.getLast? ≠ some x) :
    ∀ (fuel : Nat) (t r : Str) (s u : σ), reSub len f fuel t s = (.ok r, u) → r.getLast? = some x → t.getLast? = some x := by
  intro fuel
  induction fuel with
  | zero => intro t r s u h hr; cases h; exact hr
  | succ fuel ih =>
    intro t r s u h hr
    cases t with
    | nil => cases h; exact hr
    | cons d cs =>
      rw [reSub] at h
      by_cases h0 : len (d :: cs) = 0
      · rw [if_pos h0] at h
        obtain ⟨rest, w, h1, h2⟩ := Py.ok_of_bind h
        cases h2
        by_cases hcs : cs = []
        · subst hcs
          rw [reSub_nil] at h1
          cases h1
          exact hr
        · have hrest := reSub_ne_nil (fun t s r u h1 h2 => (hf t s r u h1 h2).1) _ _ _ _ _ h1 hcs
          rw [List.getLast?_cons_of_ne_nil hrest] at hr
          rw [List.getLast?_cons_of_ne_nil hcs]
          exact ih _ _ _ _ h1 hr
      · rw [if_neg h0] at h
        obtain ⟨m, w, h1, h2⟩ := Py.ok_of_bind h
        obtain ⟨rest, w', h3, h4⟩ := Py.ok_of_bind h2
        cases h4
        by_cases hrest : rest = []
        · subst hrest
          rw [List.append_nil] at hr
          exact absurd hr (hf _ _ _ _ h0 h1).2
        · rw [getLast?_append_ne _ hrest] at hr
          have := ih _ _ _ _ h3 hr
          have hne : (d :: cs).drop (len (d :: cs)) ≠ [] := by
            intro h; rw [h] at this; cases this
          rw [← List.take_append_drop (len (d :: cs)) (d :: cs), getLast?_append_ne _ hne]
          exact this

end

/-! ### Matches -/

theorem take_runLen (p : Char → Bool) (t : Str) : t.take (runLen p t) = t.takeWhile p := by
  unfold runLen
  induction t with
  | nil => rfl
  | cons c cs ih =>
    rw [List.takeWhile_cons]
    by_cases h : p c = true
    · rw [if_pos h, List.length_cons, List.take_succ_cons, ih]
    · rw [if_neg h]; rfl

theorem mem_take_runLen {p : Char → Bool} {t : Str} {c : Char} (h : c ∈ t.take (runLen p t)) : p c = true := by
  rw [take_runLen] at h
  exact mem_takeWhile h

theorem runLen_append {p : Char → Bool} {m rest : Str} (hm : ∀ c ∈ m, p c = true) (hr : ∀ c, rest.head? = some c → p c = false) :
    runLen p (m ++ rest) = m.length := by
  unfold runLen
  rw [List.takeWhile_append_of_pos hm]
  cases rest with
  | nil => simp
  | cons c cs =>
    rw [List.takeWhile_cons, if_neg (by rw [hr c rfl]; decide)]
    simp

theorem mem_take_nameLen {t : Str} {c : Char} (h : c ∈ t.take (nameLen t)) : isName c = true := by
  unfold nameLen at h
  split at h
  · split at h
    · exact mem_take_runLen h
    · cases h
  · cases h

theorem mem_take_dollarLen {t : Str} {c : Char} (h : c ∈ t.take (dollarLen t)) : c = '$' ∨ isName c = true := by
  unfold dollarLen at h
  split at h
  · split at h
    · cases h
    · rw [Nat.add_comm, List.take_succ_cons] at h
      rcases List.mem_cons.1 h with h | h
      · exact .inl h
      · exact .inr (mem_take_nameLen h)
  · cases h

theorem mem_take_hexLen {t : Str} {c : Char} (h : c ∈ t.take (hexLen t)) : c = 'x' ∨ isHex c = true := by
  unfold hexLen at h
  split at h
  · split at h
    · cases h
    · rw [Nat.add_comm, List.take_succ_cons, List.take_succ_cons] at h
      rcases List.mem_cons.1 h with h | h
      · subst h; exact .inr (by decide)
      · rcases List.mem_cons.1 h with h | h
        · exact .inl h
        · exact .inr (mem_take_runLen h)
  · cases h

theorem mem_take_optHexLen {t : Str} {c : Char} (h : c ∈ t.take (optHexLen t)) : c = 'x' ∨ isHex c = true := by
  unfold optHexLen at h
  split at h
  · exact .inr (mem_take_runLen h)
  · exact mem_take_hexLen h

theorem dec_last (n : Nat) : pyDec n ≠ [] ∧ (pyDec n).getLast? ≠ some '\n' := by
  refine ⟨pyDec_ne_nil n, fun h => ?_⟩
  have := pyDec_isDigit n _ (List.mem_of_getLast? h)
  exact absurd this (by decide)

theorem replaceHex_last {m : Str} (hm : m ≠ []) (hc : ∀ c ∈ m, c ≠ '\n') : replaceHex m ≠ [] ∧ (replaceHex m).getLast? ≠ some '\n' := by
  unfold replaceHex
  split
  · exact dec_last _
  · split
    · exact dec_last _
    · exact ⟨hm, fun h => hc _ (List.mem_of_getLast? h) rfl⟩

/-! ### The check of the characters -/

theorem exprMatch_iff {t : Str} (hl : t.getLast? ≠ some '\n') : exprMatch t = true ↔ t ≠ [] ∧ ∀ c ∈ t, c ∈ arithmetic := by
  unfold exprMatch
  rw [if_neg hl]
  simp only [Bool.and_eq_true, decide_eq_true_eq, List.all_eq_true, isExprChar_iff]

theorem doubleSlash_arith {t : Str} (h : ∀ c ∈ t, c ∈ arithmetic) : ∀ c ∈ doubleSlash t, c ∈ arithmetic := by
  intro c hc
  unfold doubleSlash at hc
  rw [List.mem_flatMap] at hc
  obtain ⟨d, hd, hc⟩ := hc
  by_cases hs : d = '/'
  · rw [if_pos hs] at hc
    have : c = '/' := by simpa using hc
    subst this; decide
  · rw [if_neg hs] at hc
    have : c = d := by simpa using hc
    subst this; exact h _ hd

end PT
