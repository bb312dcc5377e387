import Verif.Lemmas.Expr2
import Verif.Lemmas.Split
import Verif.Model.Proc
import Verif.Spec.Proc

namespace PT
open Spec

/-! ### Universal newlines -/

theorem newlines_cons {c : Char} {t : Str} (h : c ≠ '\r') : newlines (c :: t) = c :: newlines t := by
  rw [newlines]
  · intro _ hc; exact absurd hc h
  · exact h

theorem newlines_ret {t : Str} (h : t.head? ≠ some '\n') : newlines ('\r' :: t) = '\n' :: newlines t := by
  cases t with
  | nil => rfl
  | cons c t =>
    have : c ≠ '\n' := by simpa using h
    rw [newlines]
    intro u hu; simp at hu; exact this hu.1

theorem translated_iff {t u : Str} : Translated t u ↔ newlines t = u := by
  constructor
  · intro h
    induction h with
    | nil => rfl
    | pair _ ih => rw [newlines, ih]
    | ret hh _ ih => rw [newlines_ret hh, ih]
    | keep hc _ ih => rw [newlines_cons hc, ih]
  · rintro rfl
    induction t using newlines.induct with
    | case1 t ih => exact .pair ih
    | case2 t hn ih =>
      rw [newlines_ret]
      · exact .ret (by cases t with
          | nil => simp
          | cons c t => intro h; exact hn t (by simpa using h)) ih
      · cases t with
        | nil => simp
        | cons c t => intro h; exact hn t (by simpa using h)
    | case3 c t h1 h2 ih =>
      have hc : c ≠ '\r' := fun h => h2 h
      rw [newlines_cons hc]; exact .keep hc ih
    | case4 => exact .nil

theorem newlines_id {t : Str} (h : '\r' ∉ t) : newlines t = t := by
  induction t with
  | nil => rfl
  | cons c t ih =>
    rw [newlines_cons (by rintro rfl; simp at h), ih (by intro hh; exact h (List.mem_cons_of_mem _ hh))]

theorem newlines_append {a b : Str} (h : b.head? ≠ some '\n') : newlines (a ++ b) = newlines a ++ newlines b := by
  induction a using newlines.induct with
  | case1 t ih => simp [newlines, ih]
  | case2 t hn ih =>
    have h1 : t.head? ≠ some '\n' := by
      cases t with
      | nil => simp
      | cons c t => intro h; exact hn t (by simpa using h)
    have h2 : (t ++ b).head? ≠ some '\n' := by
      cases t with
      | nil => simpa using h
      | cons c t => simpa using h1
    rw [List.cons_append, newlines_ret h2, newlines_ret h1, ih]; rfl
  | case3 c t h1 h2 ih =>
    have hc : c ≠ '\r' := fun h => h2 h
    rw [List.cons_append, newlines_cons hc, newlines_cons hc, ih]; rfl
  | case4 => rfl

theorem newlines_mem {c : Char} {t : Str} (h : c ∈ newlines t) : c ∈ t ∨ c = '\n' := by
  induction t using newlines.induct with
  | case1 t ih =>
    rw [newlines] at h
    rcases List.mem_cons.1 h with h | h
    · exact Or.inr h
    · rcases ih h with h | h
      · left; simp [h]
      · exact Or.inr h
  | case2 t hn ih =>
    rw [newlines_ret (by cases t with
          | nil => simp
          | cons c t => intro h; exact hn t (by simpa using h))] at h
    rcases List.mem_cons.1 h with h | h
    · exact Or.inr h
    · rcases ih h with h | h
      · left; simp [h]
      · exact Or.inr h
  | case3 d t h1 h2 ih =>
    have hc : d ≠ '\r' := fun h => h2 h
    rw [newlines_cons hc] at h
    rcases List.mem_cons.1 h with h | h
    · left; simp [h]
    · rcases ih h with h | h
      · left; simp [h]
      · exact Or.inr h
  | case4 => simp [newlines] at h

/-! ### Numbers -/

theorem natOfDec_eq {t : Str} {n : Nat} (h : decNumber t = some n) : natOfDec t = n := by
  have hne : t ≠ [] := by rintro rfl; simp [decNumber] at h
  rw [decNumber, if_neg hne] at h
  have key : ∀ (t : Str) (a n : Nat), t.foldl (fun acc c => match acc, decVal c with
      | some a, some d => some (10 * a + d)
      | _, _ => none) (some a) = some n → t.foldl (fun acc c => 10 * acc + (c.toNat - 48)) a = n := by
    intro t
    induction t with
    | nil => intro a n h; simpa using h
    | cons c cs ih =>
      intro a n h
      rw [List.foldl_cons] at h ⊢
      cases hc : decVal c with
      | none =>
        rw [hc] at h
        rw [foldl_none] at h
        · cases h
        · intro c; rfl
      | some d =>
        rw [hc] at h
        have hd : d = c.toNat - 48 := by
          unfold decVal at hc
          split at hc
          · exact (Option.some.inj hc).symm
          · cases hc
        rw [← hd]
        exact ih _ _ h
  exact key t 0 n h

theorem splitOn_none {sep : Char} {t : Str} (h : sep ∉ t) : splitOn sep t = [t] := by
  apply pieces_iff.1
  exact ⟨by simp, by simpa using h, by simp⟩

theorem isDec_ne {c d : Char} (h : isDec c = true) (hd : isDec d = false) : c ≠ d := by
  rintro rfl; rw [h] at hd; cases hd

theorem pyNat_dec {t : Str} {n : Nat} (h : decNumber t = some n) : pyNat t = some n := by
  obtain ⟨hne, hd⟩ := decNumber_iff.1 ⟨n, h⟩
  have h_ : '_' ∉ t := fun hm => isDec_ne (hd _ hm) (d := '_') (by decide) rfl
  unfold pyNat
  rw [splitOn_none h_]
  simp only [List.all_cons, List.all_nil, Bool.and_true, List.flatten_cons, List.flatten_nil, List.append_nil]
  rw [if_pos (by simp [hne]; exact hd), natOfDec_eq h]

theorem isDec_printable {space : Char → Bool} (hs : PySpace space) {c : Char} (h : isDec c = true) : space c = false := by
  rw [isDec_iff] at h
  refine hs.printable c ?_ ?_
  · have := h.1; rw [le_toNat] at *; have e : ('0':Char).toNat = 48 := rfl; have e2 : ('!':Char).toNat = 33 := rfl; omega
  · have := h.2; rw [le_toNat] at *; have e : ('9':Char).toNat = 57 := rfl; have e2 : ('~':Char).toNat = 126 := rfl; omega

/-- Text of an integer: not empty, and no white space. -/
theorem Spec.IsInt.chars {space : Char → Bool} (hs : PySpace space) {t : Str} {n : Int} (h : IsInt t n) :
    t ≠ [] ∧ ∀ c ∈ t, space c = false ∧ c ≠ '\r' ∧ c ≠ ')' ∧ c ≠ '(' ∧ c ≠ '\n' := by
  have key : ∀ (u : Str) (m : Nat), decNumber u = some m → ∀ c ∈ u, space c = false ∧ c ≠ '\r' ∧ c ≠ ')' ∧ c ≠ '(' ∧ c ≠ '\n' := by
    intro u m hu c hc
    have hd := (decNumber_iff.1 ⟨m, hu⟩).2 c hc
    exact ⟨isDec_printable hs hd, isDec_ne hd (by decide), isDec_ne hd (by decide), isDec_ne hd (by decide), isDec_ne hd (by decide)⟩
  rcases h with ⟨m, hm, _⟩ | ⟨m, u, rfl, hm, _⟩
  · exact ⟨(decNumber_iff.1 ⟨m, hm⟩).1, key t m hm⟩
  · refine ⟨by simp, ?_⟩
    intro c hc
    rcases List.mem_cons.1 hc with rfl | hc
    · exact ⟨hs.printable _ (by decide) (by decide), by decide, by decide, by decide, by decide⟩
    · exact key u m hm c hc

theorem pyInt_int {space : Char → Bool} {t y : Str} {n : Int} (h : IsInt y n) (hy : Stripped space t y) :
    pyInt space t = some n := by
  unfold pyInt
  rw [stripped_iff.1 hy]
  rcases h with ⟨m, hm, rfl⟩ | ⟨m, u, rfl, hm, rfl⟩
  · obtain ⟨hne, hd⟩ := decNumber_iff.1 ⟨m, hm⟩
    cases y with
    | nil => exact absurd rfl hne
    | cons c cs =>
      have hc := hd c (by simp)
      have h1 : c ≠ '-' := isDec_ne hc (by decide)
      have h2 : c ≠ '+' := isDec_ne hc (by decide)
      split
      · next h => simp at h; exact absurd h.1 h1
      · next h => simp at h; exact absurd h.1 h2
      · rw [pyNat_dec hm]; rfl
  · show (pyNat u).map _ = _
    rw [pyNat_dec hm]; rfl

theorem stripped_self {space : Char → Bool} {t : Str} (h : ∀ c ∈ t, space c = false) (a b : Str)
    (ha : ∀ c ∈ a, space c = true) (hb : ∀ c ∈ b, space c = true) : Stripped space (a ++ t ++ b) t := by
  refine ⟨⟨a, b, rfl, ha, hb⟩, ?_, ?_⟩
  · intro c hc; exact h c (List.mem_of_mem_head? (by simpa using hc))
  · intro c hc; exact h c (List.mem_of_getLast? hc)

theorem pyInt_plain {space : Char → Bool} (hs : PySpace space) {t : Str} {n : Int} (h : IsInt t n) : pyInt space t = some n := by
  refine pyInt_int h ?_
  simpa using stripped_self (fun c hc => ((h.chars hs).2 c hc).1) [] [] (by simp) (by simp)

/-! ### Splitting -/

theorem split1_found {sep : Char} {a b : Str} (h : sep ∉ a) : split1 sep (a ++ sep :: b) = some (a, b) := by
  have h1 : (a ++ sep :: b).dropWhile (· ≠ sep) = sep :: b := by
    induction a with
    | nil => simp
    | cons c a ih =>
      have hc : c ≠ sep := by rintro rfl; simp at h
      simp only [List.cons_append]
      rw [List.dropWhile_cons_of_pos (by simpa using hc)]
      exact ih (fun hh => h (List.mem_cons_of_mem _ hh))
  have h2 : (a ++ sep :: b).takeWhile (· ≠ sep) = a := by
    induction a with
    | nil => simp
    | cons c a ih =>
      have hc : c ≠ sep := by rintro rfl; simp at h
      simp only [List.cons_append]
      rw [List.takeWhile_cons_of_pos (by simpa using hc)]
      have hh : sep ∉ a := fun hh => h (List.mem_cons_of_mem _ hh)
      rw [ih hh]
      rw [List.cons_append, List.dropWhile_cons_of_pos (by simpa using hc)] at h1
      exact h1
  unfold split1
  rw [h1, h2]

theorem split1_none {sep : Char} {t : Str} (h : sep ∉ t) : split1 sep t = none := by
  unfold split1
  have : t.dropWhile (· ≠ sep) = [] := by
    induction t with
    | nil => rfl
    | cons c t ih =>
      have hc : c ≠ sep := by rintro rfl; simp at h
      rw [List.dropWhile_cons_of_pos (by simpa using hc)]
      exact ih (fun hh => h (List.mem_cons_of_mem _ hh))
  rw [this]

theorem mem_split {sep : Char} {t : Str} (h : sep ∈ t) : ∃ a b, t = a ++ sep :: b ∧ sep ∉ a := by
  induction t with
  | nil => cases h
  | cons c t ih =>
    by_cases hc : c = sep
    · exact ⟨[], t, by simp [hc], by simp⟩
    · rcases List.mem_cons.1 h with h | h
      · exact absurd h.symm hc
      · obtain ⟨a, b, rfl, ha⟩ := ih h
        refine ⟨c :: a, b, rfl, ?_⟩
        simp only [List.mem_cons, not_or]
        exact ⟨fun h => hc h.symm, ha⟩

theorem rsplit1_found {sep : Char} {a b : Str} (h : sep ∉ b) : rsplit1 sep (a ++ sep :: b) = some (a, b) := by
  unfold rsplit1
  have : (a ++ sep :: b).reverse = b.reverse ++ sep :: a.reverse := by simp
  rw [this, split1_found (by simpa using h)]
  simp

theorem splitOnP_word {p : Char → Bool} {w : Str} (hw : ∀ c ∈ w, p c = false) {c : Char} (hc : p c = true) (t : Str) :
    splitOnP p (w ++ c :: t) = w :: splitOnP p t := by
  induction w with
  | nil => simp [splitOnP, hc]
  | cons d w ih =>
    have hd : p d = false := hw d (by simp)
    rw [List.cons_append, splitOnP, hd, ih (fun c hc => hw c (List.mem_cons_of_mem _ hc))]
    simp

theorem splitWs_word {space : Char → Bool} {w : Str} (hne : w ≠ []) (hw : ∀ c ∈ w, space c = false) {c : Char}
    (hc : space c = true) (t : Str) : splitWs space (w ++ c :: t) = w :: splitWs space t := by
  unfold splitWs
  rw [splitOnP_word hw hc]
  simp [hne]

theorem splitWs_space {space : Char → Bool} {c : Char} (hc : space c = true) (t : Str) :
    splitWs space (c :: t) = splitWs space t := by
  unfold splitWs
  rw [splitOnP]
  simp [hc]

theorem splitWs_words {space : Char → Bool} (hs : PySpace space) : ∀ {texts : List Str},
    (∀ w ∈ texts, w ≠ [] ∧ ∀ c ∈ w, space c = false) → ∀ {w : Str}, w ≠ [] → (∀ c ∈ w, space c = false) →
    splitWs space (w ++ (texts.flatMap (' ' :: ·) ++ ['\n'])) = w :: texts := by
  intro texts
  induction texts with
  | nil =>
    intro _ w hne hw
    rw [List.flatMap_nil, List.nil_append, splitWs_word hne hw hs.newline]
    rfl
  | cons x xs ih =>
    intro h w hne hw
    have hx := h x (by simp)
    rw [List.flatMap_cons, List.cons_append, List.cons_append, splitWs_word hne hw hs.blank, List.append_assoc,
      ih (fun w hw => h w (List.mem_cons_of_mem _ hw)) hx.1 hx.2]

end PT
