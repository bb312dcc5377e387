import Verif.Spec.Text
import Verif.Model.Text
import Mathlib.Data.Int.Bitwise

/-! `split` and `strip` agree with their specifications. -/

namespace PT
open Spec

theorem splitOn_ne (sep : Char) (t : Str) : splitOn sep t ≠ [] := by
  cases t with
  | nil => intro h; cases h
  | cons c cs =>
    unfold splitOn
    split
    · intro h; cases h
    · split <;> (intro h; cases h)

theorem splitOn_pieces (sep : Char) (t : Str) : Pieces sep t (splitOn sep t) := by
  induction t with
  | nil => exact ⟨splitOn_ne _ _, by (intro p hp; rw [List.mem_singleton.1 hp]; intro h; cases h), rfl⟩
  | cons c cs ih =>
    obtain ⟨h0, h1, h2⟩ := ih
    refine ⟨splitOn_ne _ _, ?_, ?_⟩
    · intro p hp
      unfold splitOn at hp
      by_cases hc : c = sep
      · rw [if_pos hc] at hp
        rcases List.mem_cons.1 hp with rfl | hp
        · intro h; cases h
        · exact h1 p hp
      · rw [if_neg hc] at hp
        generalize splitOn sep cs = ws at *
        cases ws with
        | nil => exact absurd rfl h0
        | cons w ws =>
          rcases List.mem_cons.1 hp with rfl | hp
          · intro h
            rcases List.mem_cons.1 h with rfl | h
            · exact hc rfl
            · exact h1 w List.mem_cons_self h
          · exact h1 p (List.mem_cons_of_mem _ hp)
    · unfold splitOn
      by_cases hc : c = sep
      · rw [if_pos hc]
        generalize splitOn sep cs = ws at *
        cases ws with
        | nil => exact absurd rfl h0
        | cons w ws =>
          rw [hc, ← h2]
          simp [List.intercalate, List.intersperse]
      · rw [if_neg hc]
        generalize splitOn sep cs = ws at *
        cases ws with
        | nil => exact absurd rfl h0
        | cons w ws =>
          rw [← h2]
          cases ws <;> simp [List.intercalate, List.intersperse]

theorem pieces_cons_sep {sep : Char} {cs : Str} {ps : List Str} (h : Pieces sep (sep :: cs) ps) :
    ∃ qs, ps = [] :: qs ∧ Pieces sep cs qs := by
  obtain ⟨h0, h1, h2⟩ := h
  cases ps with
  | nil => exact absurd rfl h0
  | cons p ps =>
    cases p with
    | cons d p =>
      exfalso
      apply h1 (d :: p) List.mem_cons_self
      cases ps <;> simp [List.intercalate, List.intersperse] at h2 <;> simp [h2.1]
    | nil =>
      cases ps with
      | nil => simp [List.intercalate, List.intersperse] at h2
      | cons q qs =>
        refine ⟨q :: qs, rfl, by simp, fun p hp => h1 p (List.mem_cons_of_mem _ hp), ?_⟩
        simpa [List.intercalate, List.intersperse] using h2

theorem pieces_cons_other {sep c : Char} (hc : c ≠ sep) {cs : Str} {ps : List Str} (h : Pieces sep (c :: cs) ps) :
    ∃ q qs, ps = (c :: q) :: qs ∧ Pieces sep cs (q :: qs) := by
  obtain ⟨h0, h1, h2⟩ := h
  cases ps with
  | nil => exact absurd rfl h0
  | cons p ps =>
    cases p with
    | nil =>
      exfalso
      cases ps with
      | nil => simp [List.intercalate, List.intersperse] at h2
      | cons q qs =>
        simp [List.intercalate, List.intersperse] at h2
        exact hc h2.1.symm
    | cons d p =>
      have hd : d = c ∧ [sep].intercalate (p :: ps) = cs := by
        cases ps <;> simpa [List.intercalate, List.intersperse] using h2
      refine ⟨p, ps, by rw [hd.1], by simp, ?_, hd.2⟩
      intro q hq
      rcases List.mem_cons.1 hq with rfl | hq
      · intro h; exact h1 _ List.mem_cons_self (List.mem_cons_of_mem _ h)
      · exact h1 q (List.mem_cons_of_mem _ hq)

/-- The pieces of a text are unique. -/
theorem pieces_iff {sep : Char} {t : Str} {ps : List Str} : Pieces sep t ps ↔ splitOn sep t = ps := by
  constructor
  · intro h
    induction t generalizing ps with
    | nil =>
      obtain ⟨h0, h1, h2⟩ := h
      cases ps with
      | nil => exact absurd rfl h0
      | cons p ps =>
        cases ps with
        | nil =>
          simp [List.intercalate, List.intersperse] at h2
          rw [h2]; rfl
        | cons q qs => simp [List.intercalate, List.intersperse] at h2
    | cons c cs ih =>
      unfold splitOn
      by_cases hc : c = sep
      · subst hc
        obtain ⟨qs, rfl, hq⟩ := pieces_cons_sep h
        rw [if_pos rfl, ih hq]
      · obtain ⟨q, qs, rfl, hq⟩ := pieces_cons_other hc h
        rw [if_neg hc, ih hq]
  · intro h
    rw [← h]
    exact splitOn_pieces sep t

theorem dropWhile_split (space : Char → Bool) (t : Str) : ∃ a, t = a ++ t.dropWhile space ∧ (∀ c ∈ a, space c = true) ∧
    ∀ c, (t.dropWhile space).head? = some c → space c = false := by
  induction t with
  | nil => exact ⟨[], rfl, by simp, by simp⟩
  | cons c cs ih =>
    rw [List.dropWhile_cons]
    by_cases hc : space c = true
    · rw [if_pos hc]
      obtain ⟨a, h1, h2, h3⟩ := ih
      refine ⟨c :: a, by rw [List.cons_append, ← h1], ?_, h3⟩
      intro d hd
      rcases List.mem_cons.1 hd with rfl | hd
      · exact hc
      · exact h2 d hd
    · rw [if_neg hc]
      refine ⟨[], rfl, by simp, ?_⟩
      intro d hd
      injection hd with hd
      rw [← hd]
      simpa using hc

theorem strip_stripped (space : Char → Bool) (t : Str) : Stripped space t (strip space t) := by
  obtain ⟨a, h1, h2, h3⟩ := dropWhile_split space t
  unfold strip
  generalize t.dropWhile space = u at *
  obtain ⟨b, h4, h5, h6⟩ := dropWhile_split space u.reverse
  generalize u.reverse.dropWhile space = v at *
  have hu : u = v.reverse ++ b.reverse := by
    rw [← List.reverse_append, ← h4, List.reverse_reverse]
  refine ⟨⟨a, b.reverse, ?_, h2, ?_⟩, ?_, ?_⟩
  · rw [List.append_assoc, ← hu]; exact h1
  · intro c hc
    exact h5 c (List.mem_reverse.1 hc)
  · intro c hc
    apply h3
    rw [hu, List.head?_append, hc]
    rfl
  · intro c hc
    apply h6
    rw [List.getLast?_reverse] at hc
    exact hc

theorem dropWhile_prefix (space : Char → Bool) (a y : Str) (ha : ∀ c ∈ a, space c = true)
    (hy : ∀ c, y.head? = some c → space c = false) : (a ++ y).dropWhile space = y := by
  induction a with
  | nil =>
    cases y with
    | nil => rfl
    | cons c y =>
      rw [List.nil_append, List.dropWhile_cons, if_neg]
      rw [hy c rfl]; simp
  | cons c a ih =>
    rw [List.cons_append, List.dropWhile_cons, if_pos (ha c List.mem_cons_self)]
    exact ih fun d hd => ha d (List.mem_cons_of_mem _ hd)

theorem stripped_iff {space : Char → Bool} {t y : Str} : Stripped space t y ↔ strip space t = y := by
  constructor
  · rintro ⟨⟨a, b, rfl, ha, hb⟩, h1, h2⟩
    unfold strip
    cases y with
    | nil =>
      have := dropWhile_prefix space (a ++ b) [] (fun c hc => (List.mem_append.1 hc).elim (ha c) (hb c))
        (by intro c hc; cases hc)
      rw [List.append_nil] at this ⊢
      rw [this]
      rfl
    | cons c y =>
      rw [List.append_assoc, dropWhile_prefix space a _ ha, List.reverse_append,
        dropWhile_prefix space b.reverse, List.reverse_reverse]
      · intro d hd; exact hb d (List.mem_reverse.1 hd)
      · intro d hd
        rw [List.head?_reverse] at hd
        exact h2 d hd
      · intro d hd
        exact h1 d hd
  · intro h
    rw [← h]
    exact strip_stripped space t

theorem sameText_iff {space : Char → Bool} {a b : Str} : SameText space a b ↔ strip space a = strip space b := by
  constructor
  · rintro ⟨y, h1, h2⟩
    rw [stripped_iff.1 h1, stripped_iff.1 h2]
  · exact fun h => ⟨_, stripped_iff.2 rfl, stripped_iff.2 h.symm⟩

end PT
