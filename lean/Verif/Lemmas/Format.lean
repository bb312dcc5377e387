import Verif.Lemmas.Proc4
import Verif.Model.Format
import Verif.Spec.Format

namespace PT
open Spec

/-! ### Bits -/

theorem and_add_clear : ∀ v m : Nat, (v &&& m) + clearBits v m = v := by
  intro v
  induction v using Nat.strongRecOn with
  | ind v ih =>
    intro m
    by_cases h0 : v = 0
    · subst h0; simp [clearBits]
    have ih := ih (v / 2) (by omega) (m / 2)
    unfold clearBits at *
    have h1 : (v &&& m) / 2 = v / 2 &&& m / 2 := Nat.and_div_two
    have h2 : (v ^^^ (v &&& m)) / 2 = v / 2 ^^^ (v / 2 &&& m / 2) := by rw [Nat.xor_div_two, h1]
    have h3 : (v ^^^ (v &&& m)) % 2 = (v + (v &&& m)) % 2 := Nat.xor_mod_two_eq
    have h4 : (v &&& m) % 2 = 1 → v % 2 = 1 := fun h => (Nat.and_mod_two_eq_one.1 h).1
    rw [← h2, ← h1] at ih
    omega

theorem testBit_clear (v m i : Nat) : (clearBits v m).testBit i = (v.testBit i && !m.testBit i) := by
  unfold clearBits
  rw [Nat.testBit_xor, Nat.testBit_and]
  cases v.testBit i <;> cases m.testBit i <;> rfl

theorem and_eq_zero_iff {v m : Nat} : v &&& m = 0 ↔ ∀ i, (v.testBit i && m.testBit i) = false := by
  constructor
  · intro h i
    rw [← Nat.testBit_and, h, Nat.zero_testBit]
  · intro h
    apply Nat.eq_of_testBit_eq
    intro i
    rw [Nat.testBit_and, h i, Nat.zero_testBit]

theorem clear_and {v m n : Nat} (h : m &&& n = 0) : clearBits v m &&& n = v &&& n := by
  apply Nat.eq_of_testBit_eq
  intro i
  rw [Nat.testBit_and, Nat.testBit_and, testBit_clear]
  have := and_eq_zero_iff.1 h i
  cases hv : v.testBit i <;> cases hm : m.testBit i <;> cases hn : n.testBit i <;> simp_all

/-- What `readBits` lists. -/
theorem readBits_list : ∀ (table : List (Nat × Str)) (v : Nat), DisjointMasks table →
    ∃ r texts, Rest table v r ∧ RestText r texts ∧
      readBits v table = (table.filter fun e => decide (v &&& e.1 ≠ 0)).map Prod.snd ++ texts := by
  intro table
  induction table with
  | nil =>
    intro v _
    refine ⟨v, if v ≠ 0 then [pyDec v] else [], fun i => by simp, ?_, rfl⟩
    by_cases h : v = 0
    · exact Or.inl ⟨h, if_neg (by simpa using h)⟩
    · exact Or.inr ⟨h, _, decNumber_pyDec v, if_pos h⟩
  | cons e table ih =>
    intro v hd
    obtain ⟨mask, item⟩ := e
    obtain ⟨hd1, hd2⟩ := List.pairwise_cons.1 hd
    by_cases hm : v &&& mask = 0
    · obtain ⟨r, texts, h1, h2, h3⟩ := ih v hd2
      refine ⟨r, texts, ?_, h2, ?_⟩
      · intro i
        rw [h1 i, List.any_cons]
        have := and_eq_zero_iff.1 hm i
        cases hv : v.testBit i <;> cases hmm : mask.testBit i <;> simp_all
      · rw [readBits, if_pos hm, List.filter_cons, if_neg (by simpa using hm)]
        exact h3
    · obtain ⟨r, texts, h1, h2, h3⟩ := ih (clearBits v mask) hd2
      refine ⟨r, texts, ?_, h2, ?_⟩
      · intro i
        rw [h1 i, List.any_cons, testBit_clear]
        cases v.testBit i <;> cases mask.testBit i <;> simp
      · rw [readBits, if_neg hm, List.filter_cons, if_pos (by simpa using hm), h3, List.map_cons, List.cons_append]
        have : ∀ e ∈ table, (decide (clearBits v mask &&& e.1 ≠ 0)) = (decide (v &&& e.1 ≠ 0)) := by
          intro e he
          rw [clear_and (hd1 e he)]
        rw [List.filter_congr this]

theorem single_and {v k : Nat} (h : v &&& 2 ^ k ≠ 0) : v &&& 2 ^ k = 2 ^ k := by
  apply Nat.eq_of_testBit_eq
  intro i
  rw [Nat.testBit_and]
  by_cases hik : i = k
  · subst hik
    rw [Nat.testBit_two_pow_self, Bool.and_true]
    cases hv : v.testBit i with
    | true => rfl
    | false =>
      exfalso; apply h
      rw [and_eq_zero_iff]
      intro j
      by_cases hj : j = i
      · subst hj; rw [hv]; rfl
      · rw [Nat.testBit_two_pow_of_ne (fun h => hj h.symm), Bool.and_false]
  · rw [Nat.testBit_two_pow_of_ne (fun h => hik h.symm), Bool.and_false]

theorem Spec.SingleBits.disjoint {table : List (Nat × Str)} (h : SingleBits table) : DisjointMasks table := by
  obtain ⟨h1, h2⟩ := h
  unfold DisjointMasks
  induction h2 with
  | nil => exact .nil
  | @cons e l hx _ ih =>
    refine .cons ?_ (ih fun e he => h1 e (List.mem_cons_of_mem _ he))
    intro y hy
    obtain ⟨j, hj⟩ := h1 e (by simp)
    obtain ⟨k, hk⟩ := h1 y (List.mem_cons_of_mem _ hy)
    have hne : j ≠ k := fun h => hx y hy (by rw [hj, hk, h])
    rw [hj, hk, and_eq_zero_iff]
    intro i
    by_cases hi : i = j
    · rw [hi, Nat.testBit_two_pow_of_ne (fun h => hne h.symm), Bool.and_false]
    · rw [Nat.testBit_two_pow_of_ne (fun h => hi h.symm), Bool.false_and]

/-- The listed masks and the rest sum up to the value. -/
theorem readBits_sum : ∀ (table : List (Nat × Str)) (v : Nat), SingleBits table →
    ∃ r texts, Rest table v r ∧ RestText r texts ∧
      readBits v table = (table.filter fun e => decide (v &&& e.1 ≠ 0)).map Prod.snd ++ texts ∧
      ((table.filter fun e => decide (v &&& e.1 ≠ 0)).map Prod.fst).sum + r = v := by
  intro table v h
  obtain ⟨r, texts, h1, h2, h3⟩ := readBits_list table v h.disjoint
  refine ⟨r, texts, h1, h2, h3, ?_⟩
  clear h2 h3
  induction table generalizing v with
  | nil =>
    have : r = v := Nat.eq_of_testBit_eq (fun i => by rw [h1 i]; simp)
    simpa using this
  | cons e table ih =>
    obtain ⟨mask, item⟩ := e
    have hs : SingleBits table := ⟨fun e he => h.1 e (List.mem_cons_of_mem _ he), (List.pairwise_cons.1 h.2).2⟩
    by_cases hm : v &&& mask = 0
    · rw [List.filter_cons, if_neg (by simpa using hm)]
      refine ih v hs ?_
      intro i
      rw [h1 i, List.any_cons]
      have := and_eq_zero_iff.1 hm i
      cases hv : v.testBit i <;> cases hmm : mask.testBit i <;> simp_all
    · rw [List.filter_cons, if_pos (by simpa using hm), List.map_cons, List.sum_cons]
      have ih := ih (clearBits v mask) hs (by
        intro i
        rw [h1 i, List.any_cons, testBit_clear]
        cases v.testBit i <;> cases mask.testBit i <;> simp)
      have hf : ∀ e ∈ table, (decide (clearBits v mask &&& e.1 ≠ 0)) = (decide (v &&& e.1 ≠ 0)) := by
        intro e he
        rw [clear_and ((List.pairwise_cons.1 h.disjoint).1 e he)]
      rw [List.filter_congr hf] at ih
      obtain ⟨k, hk⟩ := h.1 (mask, item) (by simp)
      have hk : mask = 2 ^ k := hk
      have hv := and_add_clear v mask
      rw [hk] at hm
      have hsm := single_and hm
      rw [← hk] at hsm
      rw [hsm] at hv
      omega

theorem map_inj_mem {α β : Type} {f : α → β} {t : List α} (hf : ∀ x ∈ t, ∀ y ∈ t, f x = f y → x = y) :
    ∀ {l l' : List α}, (∀ x ∈ l, x ∈ t) → (∀ x ∈ l', x ∈ t) → l.map f = l'.map f → l = l' := by
  intro l
  induction l with
  | nil => intro l' _ _ h; cases l' with
    | nil => rfl
    | cons => simp at h
  | cons a l ih =>
    intro l' h1 h2 h
    cases l' with
    | nil => simp at h
    | cons b l' =>
      rw [List.map_cons, List.map_cons] at h
      injection h with h h'
      rw [hf a (h1 a (by simp)) b (h2 b (by simp)) h,
        ih (fun x hx => h1 x (List.mem_cons_of_mem _ hx)) (fun x hx => h2 x (List.mem_cons_of_mem _ hx)) h']

theorem inj_of_nodup {table : List (Nat × Str)} (hn : (table.map Prod.snd).Nodup) :
    ∀ x ∈ table, ∀ y ∈ table, x.2 = y.2 → x = y := by
  induction table with
  | nil => intro x hx; cases hx
  | cons e table ih =>
    rw [List.map_cons, List.nodup_cons] at hn
    intro x hx y hy h
    rcases List.mem_cons.1 hx with hx | hx <;> rcases List.mem_cons.1 hy with hy | hy
    · rw [hx, hy]
    · exfalso; apply hn.1; rw [← hx, h]; exact List.mem_map_of_mem hy
    · exfalso; apply hn.1; rw [← hy, ← h]; exact List.mem_map_of_mem hx
    · exact ih hn.2 x hx y hy h

/-- Different values have different lists. -/
theorem readBits_inj {table : List (Nat × Str)} (h : SingleBits table) (hn : (table.map Prod.snd).Nodup)
    (hd : ∀ e ∈ table, decNumber e.2 = none) {v w : Nat} (he : readBits v table = readBits w table) : v = w := by
  obtain ⟨r, texts, _, h2, h3, h4⟩ := readBits_sum table v h
  obtain ⟨r', texts', _, h2', h3', h4'⟩ := readBits_sum table w h
  rw [h3, h3'] at he
  have hf : ∀ u, ((table.filter fun e => decide (u &&& e.1 ≠ 0)).map Prod.snd).filter (fun t => (decNumber t).isNone) =
      (table.filter fun e => decide (u &&& e.1 ≠ 0)).map Prod.snd := by
    intro u
    rw [List.filter_eq_self]
    intro t ht
    obtain ⟨e, he, rfl⟩ := List.mem_map.1 ht
    rw [hd e (List.mem_filter.1 he).1]; rfl
  have hg : ∀ u, ((table.filter fun e => decide (u &&& e.1 ≠ 0)).map Prod.snd).filter (fun t => (decNumber t).isSome) = [] := by
    intro u
    rw [List.filter_eq_nil_iff]
    intro t ht
    obtain ⟨e, he, rfl⟩ := List.mem_map.1 ht
    rw [hd e (List.mem_filter.1 he).1]; simp
  have hrt : ∀ r texts, RestText r texts → texts.filter (fun t => (decNumber t).isNone) = [] ∧
      texts.filter (fun t => (decNumber t).isSome) = texts := by
    rintro r texts (⟨_, rfl⟩ | ⟨_, t, ht, rfl⟩)
    · exact ⟨rfl, rfl⟩
    · simp [ht]
  have hrr : ∀ {r r' texts}, RestText r texts → RestText r' texts → r = r' := by
    rintro r r' texts (⟨rfl, rfl⟩ | ⟨h0, t, ht, rfl⟩) (⟨rfl, h⟩ | ⟨h0', t', ht', h⟩)
    · rfl
    · cases h
    · cases h
    · cases h; rw [ht] at ht'; exact Option.some.inj ht'
  have e1 := congrArg (List.filter (fun t => (decNumber t).isNone)) he
  rw [List.filter_append, List.filter_append, hf, hf, (hrt r texts h2).1, (hrt r' texts' h2').1, List.append_nil, List.append_nil] at e1
  have e2 := congrArg (List.filter (fun t => (decNumber t).isSome)) he
  rw [List.filter_append, List.filter_append, hg, hg, (hrt r texts h2).2, (hrt r' texts' h2').2, List.nil_append, List.nil_append] at e2
  have e3 := map_inj_mem (inj_of_nodup hn) (fun x hx => (List.mem_filter.1 hx).1) (fun x hx => (List.mem_filter.1 hx).1) e1
  rw [← e2] at h2'
  have e4 := hrr h2 h2'
  rw [← h4, ← h4', e3, e4]

/-- The list is empty only for zero. -/
theorem readBits_nil {table : List (Nat × Str)} {v : Nat} : readBits v table = [] ↔ v = 0 := by
  constructor
  · intro h
    induction table generalizing v with
    | nil => by_contra h0; rw [readBits, if_pos h0] at h; cases h
    | cons e table ih =>
      obtain ⟨mask, item⟩ := e
      rw [readBits] at h
      by_cases hm : v &&& mask = 0
      · rw [if_pos hm] at h; exact ih h
      · rw [if_neg hm] at h; cases h
  · rintro rfl
    induction table with
    | nil => rfl
    | cons e table ih =>
      obtain ⟨mask, item⟩ := e
      rw [readBits, if_pos (by simp)]
      exact ih

/-- A text that ends with a number in parentheses determines the number. -/
theorem paren_inj {a b x y : Str} (hx : '(' ∉ x) (hy : '(' ∉ y) (h : a ++ '(' :: x ++ [')'] = b ++ '(' :: y ++ [')']) : x = y := by
  have h1 : a ++ '(' :: x = b ++ '(' :: y := List.append_cancel_right h
  have h2 := rsplit1_found (sep := '(') (a := a) hx
  rw [h1, rsplit1_found hy] at h2
  injection h2 with h2
  exact (Prod.mk.inj h2).2.symm

theorem pyDec_paren (n : Nat) : '(' ∉ pyDec n := fun h => absurd (pyDec_isDec n _ h) (by decide)

end PT
