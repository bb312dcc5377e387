import Verif.Model.Dict
import Verif.Lemmas.Lists

namespace PT
variable {κ β : Type} [DecidableEq κ]

theorem dictHas_iff {d : List (κ × β)} {k : κ} : dictHas d k = true ↔ ∃ v, (k, v) ∈ d := by
  unfold dictHas
  rw [List.any_eq_true]
  constructor
  · rintro ⟨⟨a, v⟩, he, h⟩
    have : a = k := by simpa using h
    subst this
    exact ⟨v, he⟩
  · rintro ⟨v, h⟩
    exact ⟨(k, v), h, by simp⟩

theorem dictGet_some {d : List (κ × β)} {k : κ} {v : β} (h : dictGet d k = some v) : (k, v) ∈ d := by
  unfold dictGet at h
  cases hf : d.find? (fun e => decide (e.1 = k)) with
  | none => rw [hf] at h; cases h
  | some e =>
    rw [hf] at h
    have h1 := List.mem_of_find?_eq_some hf
    have h2 := List.find?_some hf
    simp at h h2
    rw [← h, ← h2]; exact h1

theorem dictGet_none {d : List (κ × β)} {k : κ} : dictGet d k = none ↔ ∀ v, (k, v) ∉ d := by
  constructor
  · intro h v hv
    unfold dictGet at h
    rw [Option.map_eq_none_iff, List.find?_eq_none] at h
    have := h _ hv
    simp at this
  · intro h
    unfold dictGet
    rw [Option.map_eq_none_iff, List.find?_eq_none]
    intro e he hk
    have hk : e.1 = k := by simpa using hk
    subst hk
    exact h e.2 he

theorem dictGet_of_mem {d : List (κ × β)} {k : κ} {v : β} (hn : (d.map Prod.fst).Nodup) (h : (k, v) ∈ d) :
    dictGet d k = some v := by
  cases hg : dictGet d k with
  | none => exact absurd h (dictGet_none.1 hg v)
  | some w =>
    have := nodup_map_inj hn h (dictGet_some hg) rfl
    injection this with _ h2
    rw [h2]

theorem dictHas_false {d : List (κ × β)} {k : κ} : dictHas d k = false ↔ ∀ v, (k, v) ∉ d := by
  rw [← Bool.not_eq_true, dictHas_iff]
  simp

/-- Membership after `d[key] = value`. -/
theorem mem_dictSet {d : List (κ × β)} {k : κ} {v : β} (e : κ × β) :
    e ∈ dictSet d k v ↔ e = (k, v) ∨ (e.1 ≠ k ∧ e ∈ d) := by
  unfold dictSet
  by_cases h : dictHas d k = true
  · rw [if_pos h]
    obtain ⟨w, hw⟩ := dictHas_iff.1 h
    constructor
    · intro he
      obtain ⟨f, hf, hfe⟩ := List.mem_map.1 he
      by_cases hk : f.1 = k
      · rw [if_pos hk] at hfe; exact Or.inl hfe.symm
      · rw [if_neg hk] at hfe; subst hfe; exact Or.inr ⟨hk, hf⟩
    · rintro (rfl | ⟨h1, h2⟩)
      · exact List.mem_map.2 ⟨(k, w), hw, by simp⟩
      · exact List.mem_map.2 ⟨e, h2, by rw [if_neg h1]⟩
  · rw [if_neg h, List.mem_append, List.mem_singleton]
    have hf := dictHas_false.1 (by simpa using h)
    constructor
    · rintro (he | rfl)
      · exact Or.inr ⟨by rintro rfl; exact hf e.2 he, he⟩
      · exact Or.inl rfl
    · rintro (rfl | ⟨_, h2⟩)
      · exact Or.inr rfl
      · exact Or.inl h2

theorem dictSet_keys (d : List (κ × β)) (k : κ) (v : β) : (dictSet d k v).map Prod.fst =
    if dictHas d k then d.map Prod.fst else d.map Prod.fst ++ [k] := by
  unfold dictSet
  by_cases h : dictHas d k = true
  · rw [if_pos h, if_pos h, List.map_map]
    apply List.map_congr_left
    intro e _
    by_cases hk : e.1 = k
    · simp [hk]
    · simp [hk]
  · rw [if_neg h, if_neg h]; simp

theorem dictSet_nodup {d : List (κ × β)} {k : κ} {v : β} (hn : (d.map Prod.fst).Nodup) :
    ((dictSet d k v).map Prod.fst).Nodup := by
  rw [dictSet_keys]
  by_cases h : dictHas d k = true
  · rw [if_pos h]; exact hn
  · rw [if_neg h, List.nodup_append]
    refine ⟨hn, by simp, ?_⟩
    intro x hx y hy
    simp at hy
    subst hy
    obtain ⟨e, he, rfl⟩ := List.mem_map.1 hx
    rintro rfl
    exact h (dictHas_iff.2 ⟨e.2, he⟩)

theorem dictSet_fresh {d : List (κ × β)} {k : κ} {v : β} (h : ∀ e ∈ d, e.1 ≠ k) :
    dictSet d k v = d ++ [(k, v)] := by
  unfold dictSet
  rw [if_neg]
  rw [dictHas_iff]
  rintro ⟨w, hw⟩
  exact h _ hw rfl

theorem mem_dictDel {d : List (κ × β)} {k : κ} (e : κ × β) : e ∈ dictDel d k ↔ e ∈ d ∧ e.1 ≠ k := by
  unfold dictDel; simp

theorem dictDel_nodup {d : List (κ × β)} {k : κ} (hn : (d.map Prod.fst).Nodup) :
    ((dictDel d k).map Prod.fst).Nodup :=
  hn.sublist (List.Sublist.map _ List.filter_sublist)

end PT
