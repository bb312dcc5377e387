import Verif.Lemmas.Split
import Verif.Model.Tools
import Verif.Spec.Tools

namespace PT
open Spec

theorem splitOn_joined {sep : Char} (a b : Str) : splitOn sep (a ++ sep :: b) = splitOn sep a ++ splitOn sep b := by
  rw [← pieces_iff]
  obtain ⟨h1, h2, h3⟩ := splitOn_pieces sep a
  obtain ⟨g1, g2, g3⟩ := splitOn_pieces sep b
  refine ⟨fun h => h1 (List.append_eq_nil_iff.1 h).1, fun p hp => ?_, ?_⟩
  · rcases List.mem_append.1 hp with hp | hp
    · exact h2 p hp
    · exact g2 p hp
  · have key : ∀ l l' : List Str, l ≠ [] → l' ≠ [] → [sep].intercalate (l ++ l') = [sep].intercalate l ++ sep :: [sep].intercalate l' := by
      intro l
      induction l with
      | nil => intro l' h; exact absurd rfl h
      | cons x l ih =>
        intro l' _ hl'
        cases l with
        | nil =>
          cases l' with
          | nil => exact absurd rfl hl'
          | cons y l' => simp [List.intercalate]
        | cons y l =>
          have := ih l' (by simp) hl'
          simp only [List.intercalate, List.cons_append, List.intersperse_cons₂, List.flatten_cons, List.append_assoc] at this ⊢
          rw [this]
    rw [key _ _ h1 g1, h3, g3]

/-- With a leading slash the loop of `normpath` walks without symbolic links. -/
theorem normStep_walk {k : Nat} (hk : k ≠ 0) : ∀ (comps dir : List Str), (∀ c ∈ dir, c ≠ ['.', '.']) →
    comps.foldl (normStep k) dir = walk (fun _ => none) dir comps := by
  intro comps
  induction comps with
  | nil => intro dir _; rfl
  | cons c comps ih =>
    intro dir hd
    unfold walk at *
    rw [List.foldl_cons, List.foldl_cons]
    have hstep : normStep k dir c = walkStep (fun _ => none) dir c := by
      unfold normStep walkStep
      by_cases h1 : c = [] ∨ c = ['.']
      · rw [if_pos h1, if_pos h1]
      · rw [if_neg h1, if_neg h1]
        by_cases h2 : c = ['.', '.']
        · rw [if_neg, if_pos h2]
          rintro (h | h | ⟨_, h⟩)
          · exact h h2
          · exact hk h.1
          · exact hd _ (List.mem_of_getLast? h) rfl
        · rw [if_pos (Or.inl h2), if_neg h2]; rfl
    rw [hstep]
    apply ih
    intro x hx
    unfold walkStep at hx
    split at hx
    · exact hd x hx
    · split at hx
      · exact hd x (List.dropLast_subset _ hx)
      · rename_i h2
        rcases List.mem_append.1 hx with hx | hx
        · exact hd x hx
        · rw [List.mem_singleton.1 hx]; exact h2

/-- Components in normal form are walked to themselves. -/
theorem walk_normal {link : List Str → Option (List Str)} : ∀ (comps dir : List Str),
    (∀ c ∈ comps, c ≠ [] ∧ c ≠ ['.'] ∧ c ≠ ['.', '.']) → (∀ n, n ≤ comps.length → link (dir ++ comps.take n) = none) →
    walk link dir comps = dir ++ comps := by
  intro comps
  induction comps with
  | nil => intro dir _ _; simp [walk]
  | cons c comps ih =>
    intro dir hc hl
    have h := hc c (by simp)
    have hs : walkStep link dir c = dir ++ [c] := by
      unfold walkStep
      rw [if_neg (by rintro (h' | h'); exact h.1 h'; exact h.2.1 h'), if_neg h.2.2]
      have := hl 1 (by simp)
      rw [List.take_succ_cons, List.take_zero] at this
      rw [this]; rfl
    have := ih (dir ++ [c]) (fun x hx => hc x (List.mem_cons_of_mem _ hx)) (fun n hn => by
      have := hl (n + 1) (by simp; omega)
      rw [List.take_succ_cons] at this
      rw [List.append_assoc]; exact this)
    unfold walk at *
    rw [List.foldl_cons, hs, this, List.append_assoc]
    rfl

/-- Result of a walk: names only. -/
theorem walk_names : ∀ (comps dir : List Str), (∀ c ∈ dir, c ≠ [] ∧ c ≠ ['.'] ∧ c ≠ ['.', '.'] ∧ '/' ∉ c) → (∀ c ∈ comps, '/' ∉ c) →
    ∀ c ∈ walk (fun _ => none) dir comps, c ≠ [] ∧ c ≠ ['.'] ∧ c ≠ ['.', '.'] ∧ '/' ∉ c := by
  intro comps
  induction comps with
  | nil => intro dir hd _; exact hd
  | cons c comps ih =>
    intro dir hd hc
    unfold walk at *
    rw [List.foldl_cons]
    apply ih _ _ (fun x hx => hc x (List.mem_cons_of_mem _ hx))
    intro x hx
    unfold walkStep at hx
    split at hx
    · exact hd x hx
    · rename_i h1
      split at hx
      · exact hd x (List.dropLast_subset _ hx)
      · rename_i h2
        rcases List.mem_append.1 hx with hx | hx
        · exact hd x hx
        · rw [List.mem_singleton.1 hx]
          exact ⟨fun h => h1 (Or.inl h), fun h => h1 (Or.inr h), h2, hc c (by simp)⟩

/-- Without a symbolic link on the way, a walk is textual, and there is none on the way to its end either. -/
theorem walk_free {link : List Str → Option (List Str)} : ∀ (comps dir : List Str), (∀ n, link (dir.take n) = none) →
    (∀ n, n ≤ comps.length → link (walk (fun _ => none) dir (comps.take n)) = none) →
    walk link dir comps = walk (fun _ => none) dir comps ∧ ∀ n, link ((walk (fun _ => none) dir comps).take n) = none := by
  intro comps
  induction comps with
  | nil => intro dir hd _; exact ⟨rfl, hd⟩
  | cons c comps ih =>
    intro dir hd hc
    have h1 : link (walkStep (fun _ => none) dir c) = none := by
      have := hc 1 (by simp)
      rw [List.take_succ_cons, List.take_zero] at this
      exact this
    have hs : walkStep link dir c = walkStep (fun _ => none) dir c := by
      unfold walkStep at h1 ⊢
      split
      · rfl
      · rename_i h2
        rw [if_neg h2] at h1
        split
        · rfl
        · rename_i h3
          rw [if_neg h3] at h1
          have h1 : link (dir ++ [c]) = none := h1
          rw [h1]
    have hp : ∀ n, link ((walkStep (fun _ => none) dir c).take n) = none := by
      intro n
      unfold walkStep at h1 ⊢
      split
      · exact hd n
      · rename_i h2
        rw [if_neg h2] at h1
        split
        · rw [List.dropLast_eq_take, List.take_take]; exact hd _
        · rename_i h3
          rw [if_neg h3] at h1
          have h1 : link (dir ++ [c]) = none := h1
          show link ((dir ++ [c]).take n) = none
          by_cases hn : n ≤ dir.length
          · rw [List.take_append_of_le_length hn]; exact hd n
          · rw [List.take_of_length_le (by simp; omega)]; exact h1
    have := ih (walkStep (fun _ => none) dir c) hp (fun n hn => by
      have := hc (n + 1) (by simp; omega)
      rw [List.take_succ_cons] at this
      exact this)
    unfold walk at *
    rw [List.foldl_cons, List.foldl_cons, hs]
    exact this

theorem dropWhile_nil_iff {p : Char → Bool} {l : Str} : l.dropWhile p = [] ↔ ∀ c ∈ l, p c = true := by
  induction l with
  | nil => simp
  | cons c l ih =>
    by_cases h : p c = true
    · rw [List.dropWhile_cons_of_pos h, ih]; simp [h]
    · rw [List.dropWhile_cons_of_neg h]; simp [h]

/-- A relative path has a directory part exactly when it has a slash. -/
theorem dirName_iff {p : Str} (h : p.head? ≠ some '/') : dirName p ≠ [] ↔ '/' ∈ p := by
  have hh : (p.reverse.dropWhile (· ≠ '/')).reverse = [] ↔ '/' ∉ p := by
    rw [List.reverse_eq_nil_iff, dropWhile_nil_iff]
    constructor
    · intro hc hm
      have := hc '/' (List.mem_reverse.2 hm)
      simp at this
    · intro hm c hc
      have : c ≠ '/' := fun e => hm (e ▸ List.mem_reverse.1 hc)
      simpa using this
  unfold dirName
  simp only
  by_cases hs : '/' ∈ p
  · have hne : (p.reverse.dropWhile (· ≠ '/')).reverse ≠ [] := fun e => (hh.1 e) hs
    refine ⟨fun _ => hs, fun _ => ?_⟩
    -- the head of the directory part is the head of the path
    obtain ⟨a, ha, _⟩ := dropWhile_split (fun c => decide (c ≠ '/')) p.reverse
    have hp : p = (p.reverse.dropWhile (· ≠ '/')).reverse ++ a.reverse := by
      have := congrArg List.reverse ha
      rw [List.reverse_reverse, List.reverse_append] at this
      exact this
    generalize (p.reverse.dropWhile (· ≠ '/')).reverse = d at hne hp
    cases d with
    | nil => exact absurd rfl hne
    | cons c d =>
      have hc : c ≠ '/' := by
        intro e
        apply h
        rw [hp, e]; rfl
      have hrep : c :: d ≠ List.replicate (c :: d).length '/' := by
        intro e
        rw [List.length_cons, List.replicate_succ] at e
        injection e with e _
        exact hc e
      rw [if_pos ⟨by simp, hrep⟩]
      intro e
      rw [List.reverse_eq_nil_iff, dropWhile_nil_iff] at e
      have := e c (by simp)
      simp at this
      exact hc this
  · have e0 := hh.2 hs
    refine ⟨fun hd => ?_, fun hd => absurd hd hs⟩
    rw [e0] at hd
    simp at hd

theorem pathJoin_inDir {dir name : Str} (h : name.head? ≠ some '/') : InDir dir name (pathJoin dir name) := by
  unfold pathJoin
  rw [if_neg h]
  by_cases h0 : dir = []
  · rw [if_pos (Or.inl h0)]; exact Or.inl ⟨h0, by rw [h0]; rfl⟩
  · by_cases hl : dir.getLast? = some '/'
    · rw [if_pos (Or.inr hl)]
      obtain ⟨d, hd⟩ := List.getLast?_eq_some_iff.1 hl
      exact Or.inr (Or.inl ⟨d, hd, rfl⟩)
    · rw [if_neg (by rintro (h | h); exact h0 h; exact hl h)]
      refine Or.inr (Or.inr ⟨h0, ?_, rfl⟩)
      intro d hd
      apply hl
      rw [hd]; simp

theorem inDir_unique {dir name f f' : Str} (h : InDir dir name f) (h' : InDir dir name f') : f = f' := by
  rcases h with ⟨a, b⟩ | ⟨d, a, b⟩ | ⟨a, b, c⟩ <;> rcases h' with ⟨a', b'⟩ | ⟨d', a', b'⟩ | ⟨a', b', c'⟩
  · rw [b, b']
  · rw [a] at a'; simp at a'
  · exact absurd a a'
  · rw [a'] at a; simp at a
  · rw [b, b']
  · exact absurd a (b' d)
  · exact absurd a' a
  · exact absurd a' (b d')
  · rw [c, c']

end PT
