import Verif.Model.Signals
import Verif.Spec.Signals
import Verif.Lemmas.Dict
import Verif.Lemmas.Text

namespace PT

theorem startsSIG_iff (n : Str) : startsSIG n = true ↔ ∃ rest, n = "SIG".toList ++ rest := by
  unfold startsSIG
  rw [List.isPrefixOf_iff_prefix]
  constructor
  · rintro ⟨r, h⟩; exact ⟨r, h.symm⟩
  · rintro ⟨r, h⟩; exact ⟨r, h.symm⟩

/-- The names with number `n`, in order. -/
def namesOf (dir : List (Str × Nat)) (n : Nat) : List Str :=
  (dir.filter fun e => startsSIG e.1 && decide (e.2 = n)).map Prod.fst

theorem mem_namesOf {dir : List (Str × Nat)} {n : Nat} {s : Str} :
    s ∈ namesOf dir n ↔ (s, n) ∈ dir ∧ startsSIG s = true := by
  unfold namesOf
  simp

/-- What the first loop has collected: the dict maps every number to its names. -/
structure Grouped (acc : List (Nat × List Str)) (f : Nat → List Str) : Prop where
  keys : (acc.map Prod.fst).Nodup
  vals : ∀ n names, (n, names) ∈ acc ↔ names = f n ∧ f n ≠ []

theorem grouped_addName {acc f} (h : Grouped acc f) (name : Str) (n : Nat) :
    Grouped (addName acc name n) (fun m => if m = n then f m ++ [name] else f m) := by
  have hset : addName acc name n = dictSet acc n (f n ++ [name]) := by
    unfold addName
    cases hg : dictGet acc n with
    | none =>
      have h0 : f n = [] := by
        by_contra hne
        exact dictGet_none.1 hg (f n) ((h.vals n (f n)).2 ⟨rfl, hne⟩)
      rw [h0]; rfl
    | some names =>
      have := ((h.vals n names).1 (dictGet_some hg)).1
      rw [this]
  rw [hset]
  refine ⟨dictSet_nodup h.keys, ?_⟩
  intro m names
  rw [mem_dictSet]
  by_cases hm : m = n
  · subst hm
    simp
  · simp [hm, h.vals]

theorem grouped_allNames (dir : List (Str × Nat)) : ∀ {acc f}, Grouped acc f →
    Grouped (allNames dir acc) (fun n => f n ++ namesOf dir n) := by
  induction dir with
  | nil => intro acc f h; simpa [allNames, namesOf] using h
  | cons e dir ih =>
    intro acc f h
    obtain ⟨name, signum⟩ := e
    unfold allNames
    by_cases hs : startsSIG name = true
    · rw [if_pos hs]
      have := ih (grouped_addName h name signum)
      refine cast ?_ this
      congr 1
      funext n
      by_cases hn : n = signum
      · subst hn; simp [namesOf, hs]
      · have : ¬ signum = n := fun e => hn e.symm
        simp [namesOf, hs, hn, this]
    · rw [if_neg hs]
      have := ih h
      refine cast ?_ this
      congr 1
      funext n
      simp [namesOf, hs]

theorem grouped_dir (dir : List (Str × Nat)) : Grouped (allNames dir []) (namesOf dir) := by
  have h0 : Grouped [] (fun _ => []) := ⟨by simp, by intro n names; simp⟩
  have := grouped_allNames dir h0
  simpa using this

theorem pickNames_eq (l : List (Nat × List Str)) : ∀ acc : List (Nat × Str),
    (l.map Prod.fst).Nodup → (∀ e ∈ l, ∀ a ∈ acc, a.1 ≠ e.1) → pickNames l acc =
      acc ++ (l.filter fun e => decide (e.1 ≠ 0)).map fun e => (e.1, pickName e.2) := by
  induction l with
  | nil => intro acc _ _; simp [pickNames]
  | cons e l ih =>
    intro acc hn hd
    obtain ⟨n, names⟩ := e
    rw [List.map_cons, List.nodup_cons] at hn
    unfold pickNames
    by_cases h0 : n = 0
    · rw [if_pos h0, ih acc hn.2 (fun e he => hd e (List.mem_cons_of_mem _ he))]
      simp [h0]
    · rw [if_neg h0, dictSet_fresh (fun a ha => hd _ List.mem_cons_self a ha),
        ih _ hn.2]
      · simp [h0]
      · intro e he a ha
        rcases List.mem_append.1 ha with ha | ha
        · exact hd e (List.mem_cons_of_mem _ he) a ha
        · simp at ha
          subst ha
          rintro rfl
          exact hn.1 (List.mem_map.2 ⟨e, he, rfl⟩)

theorem getSignalNames_eq (dir : List (Str × Nat)) : getSignalNames dir =
    ((allNames dir []).filter fun e => decide (e.1 ≠ 0)).map fun e => (e.1, pickName e.2) := by
  unfold getSignalNames
  rw [pickNames_eq _ _ (grouped_dir dir).keys (by simp)]
  simp

theorem getSignalNames_nodup (dir : List (Str × Nat)) : ((getSignalNames dir).map Prod.fst).Nodup := by
  rw [getSignalNames_eq, List.map_map]
  exact (grouped_dir dir).keys.sublist (List.Sublist.map _ List.filter_sublist)

theorem mem_getSignalNames {dir : List (Str × Nat)} {n : Nat} {name : Str} :
    (n, name) ∈ getSignalNames dir ↔ n ≠ 0 ∧ namesOf dir n ≠ [] ∧ name = pickName (namesOf dir n) := by
  rw [getSignalNames_eq, List.mem_map]
  constructor
  · rintro ⟨⟨m, names⟩, he, heq⟩
    simp only [List.mem_filter, Prod.mk.injEq] at he heq
    obtain ⟨rfl, rfl⟩ := heq
    have := ((grouped_dir dir).vals _ _).1 he.1
    refine ⟨by simpa using he.2, this.2, by rw [this.1]⟩
  · rintro ⟨h0, hne, rfl⟩
    refine ⟨(n, namesOf dir n), ?_, rfl⟩
    rw [List.mem_filter]
    exact ⟨((grouped_dir dir).vals _ _).2 ⟨rfl, hne⟩, by simpa using h0⟩

theorem pickName_mem {names : List Str} (h : names ≠ []) : pickName names ∈ names := by
  unfold pickName
  cases hf : preferredNames.find? (fun p => names.contains p) with
  | none =>
    cases names with
    | nil => exact absurd rfl h
    | cons a t => simp
  | some p => simpa using List.find?_some hf

theorem inverseDict_spec {κ β : Type} [DecidableEq β] (data : List (κ × β)) : ∀ result : List (β × κ),
    (data.map Prod.snd).Nodup → (∀ e ∈ data, ∀ r ∈ result, r.1 ≠ e.2) →
    inverseDict data result = result ++ data.map fun e => (e.2, e.1) := by
  induction data with
  | nil => intro r _ _; simp [inverseDict]
  | cons e data ih =>
    intro r hn hd
    obtain ⟨k, v⟩ := e
    rw [List.map_cons, List.nodup_cons] at hn
    unfold inverseDict
    rw [dictSet_fresh (fun a ha => hd _ List.mem_cons_self a ha), ih _ hn.2]
    · simp
    · intro e he a ha
      rcases List.mem_append.1 ha with ha | ha
      · exact hd e (List.mem_cons_of_mem _ he) a ha
      · simp at ha
        subst ha
        intro h
        have h : v = e.2 := h
        exact hn.1 (List.mem_map.2 ⟨e, he, h.symm⟩)

end PT
