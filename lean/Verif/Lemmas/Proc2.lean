import Verif.Lemmas.Proc

namespace PT
open Spec

theorem mapM_int {space : Char → Bool} (hs : PySpace space) {texts : List Str} {nums : List Int}
    (h : List.Forall₂ IsInt texts nums) : texts.mapM (pyInt space) = some nums := by
  induction h with
  | nil => rfl
  | cons hx _ ih => rw [List.mapM_cons, pyInt_plain hs hx, ih]; rfl

theorem forall₂_left {α β : Type} {R : α → β → Prop} {p : α → Prop} {l : List α} {m : List β} (h : List.Forall₂ R l m)
    (hp : ∀ a b, R a b → p a) : ∀ a ∈ l, p a := by
  induction h with
  | nil => simp
  | cons hx _ ih =>
    intro a ha
    rcases List.mem_cons.1 ha with rfl | ha
    · exact hp _ _ hx
    · exact ih a ha

theorem state_printable {space : Char → Bool} (hs : PySpace space) {c : Char} (h : c ∈ "RSDTtZXxKWPI".toList) :
    space c = false ∧ c ≠ '\r' ∧ c ≠ ')' ∧ c ≠ '\n' := by
  have key : ∀ c ∈ "RSDTtZXxKWPI".toList, '!' ≤ c ∧ c ≤ '~' ∧ c ≠ '\r' ∧ c ≠ ')' ∧ c ≠ '\n' := by decide
  obtain ⟨h1, h2, h3⟩ := key c h
  exact ⟨hs.printable c h1 h2, h3⟩

theorem readStat_line {space : Char → Bool} (hs : PySpace space) {k : KStat} {t : Str} (h : StatLine k t) :
    readStat space (.text t) = .ok
      { pid := k.pid, program := newlines k.comm, state := [k.state], ppid := k.ppid, pgrp := k.pgrp,
        session := k.session, tty_nr := k.tty_nr, tpgid := k.tpgid, utime := k.utime, stime := k.stime, starttime := k.starttime } := by
  obtain ⟨hst, p, texts, hp, htx, rfl⟩ := h
  obtain ⟨hs1, hs2, hs3, hs4⟩ := state_printable hs hst
  have hpc := hp.chars hs
  have hw : ∀ w ∈ texts, w ≠ [] ∧ ∀ c ∈ w, space c = false ∧ c ≠ '\r' ∧ c ≠ ')' ∧ c ≠ '(' ∧ c ≠ '\n' :=
    forall₂_left htx (fun a b h => h.chars hs)
  have hpost : ∀ c ∈ (' ' :: k.state :: (texts.flatMap (' ' :: ·) ++ ['\n'])), c ≠ '\r' ∧ c ≠ ')' := by
    intro c hc
    simp only [List.mem_cons, List.mem_append, List.mem_flatMap, List.not_mem_nil, or_false] at hc
    rcases hc with rfl | rfl | ⟨w, hwm, rfl | hc⟩ | rfl
    · exact ⟨by decide, by decide⟩
    · exact ⟨hs2, hs3⟩
    · exact ⟨by decide, by decide⟩
    · exact ⟨((hw w hwm).2 c hc).2.1, ((hw w hwm).2 c hc).2.2.1⟩
    · exact ⟨by decide, by decide⟩
  have hnl : newlines (p ++ ' ' :: '(' :: (k.comm ++ ')' :: ' ' :: k.state :: (texts.flatMap (' ' :: ·) ++ ['\n']))) =
      (p ++ [' ']) ++ '(' :: newlines k.comm ++ ')' :: ' ' :: k.state :: (texts.flatMap (' ' :: ·) ++ ['\n']) := by
    rw [newlines_append (by simp), newlines_cons (by decide), newlines_cons (by decide), newlines_append (by simp),
      newlines_cons (by decide), newlines_id (t := p) (fun hm => (hpc.2 _ hm).2.1 rfl),
      newlines_id (t := ' ' :: _) (fun hm => (hpost _ hm).1 rfl)]
    simp
  unfold readStat readFile
  simp only []
  rw [hnl]
  unfold parseStat
  rw [rsplit1_found (fun hm => (hpost _ hm).2 rfl)]
  simp only []
  rw [split1_found]
  · simp only []
    rw [pyInt_int (y := p) hp (by
      simpa using stripped_self (fun c hc => (hpc.2 c hc).1) [] [' '] (by simp) (by simp [hs.blank]))]
    simp only []
    rw [splitWs_space hs.blank,
      show k.state :: (texts.flatMap (' ' :: ·) ++ ['\n']) = [k.state] ++ (texts.flatMap (' ' :: ·) ++ ['\n']) from rfl,
      splitWs_words hs (fun w hwm => ⟨(hw w hwm).1, fun c hc => ((hw w hwm).2 c hc).1⟩) (by simp) (by simpa using hs1)]
    simp only []
    rw [mapM_int hs htx]
    rfl
  · intro hm
    simp only [List.mem_append, List.mem_singleton] at hm
    rcases hm with hm | hm
    · exact (hpc.2 _ hm).2.2.2.1 rfl
    · cases hm

/-! ### NUL-terminated lists -/

theorem splitOn_append {sep : Char} {s : Str} (h : sep ∉ s) (t : Str) : splitOn sep (s ++ sep :: t) = s :: splitOn sep t := by
  induction s with
  | nil => simp [splitOn]
  | cons c s ih =>
    have hc : c ≠ sep := by rintro rfl; simp at h
    rw [List.cons_append, splitOn, if_neg hc, ih (fun hh => h (List.mem_cons_of_mem _ hh))]

theorem splitOn_terminated {sep : Char} {l : List Str} (h : ∀ s ∈ l, sep ∉ s) :
    splitOn sep (l.flatMap (· ++ [sep])) = l ++ [[]] := by
  induction l with
  | nil => rfl
  | cons s l ih =>
    rw [List.flatMap_cons, List.append_assoc, List.singleton_append, splitOn_append (h s (by simp)),
      ih (fun s hs => h s (List.mem_cons_of_mem _ hs))]
    rfl

theorem newlines_terminated {sep : Char} (hsep : sep ≠ '\r') (hsep' : sep ≠ '\n') (l : List Str) :
    newlines (l.flatMap (· ++ [sep])) = (l.map newlines).flatMap (· ++ [sep]) := by
  induction l with
  | nil => rfl
  | cons s l ih =>
    rw [List.flatMap_cons, List.append_assoc, newlines_append (by simpa using hsep'), List.singleton_append, newlines_cons hsep, ih]
    simp

theorem readProcList_list {l : List Str} {t : Str} (h : NulList l t) : readProcList (.text t) = .ok (l.map newlines) := by
  obtain ⟨hl, rfl⟩ := h
  unfold readProcList readFile
  simp only []
  rw [newlines_terminated (by decide) (by decide)]
  have hl' : ∀ s ∈ l.map newlines, '\x00' ∉ s := by
    intro s hs hm
    obtain ⟨s', hs', rfl⟩ := List.mem_map.1 hs
    rcases newlines_mem hm with hm | hm
    · exact hl s' hs' hm
    · cases hm
  by_cases h0 : l = []
  · subst h0; rfl
  · rw [if_neg, splitOn_terminated hl']
    · simp
    · cases l with
      | nil => exact absurd rfl h0
      | cons s l => simp

theorem forall₂_map {α β : Type} {R : α → β → Prop} (f : α → β) (h : ∀ a, R a (f a)) (l : List α) : List.Forall₂ R l (l.map f) := by
  induction l with
  | nil => exact .nil
  | cons a l ih => exact .cons (h a) ih

/-! ### Memory mappings -/

theorem takeWhile_run {p : Char → Bool} {a : Str} (h : ∀ c ∈ a, p c = true) {rest : Str} (hr : ∀ c, rest.head? = some c → p c = false) :
    (a ++ rest).takeWhile p = a ∧ (a ++ rest).dropWhile p = rest := by
  induction a with
  | nil =>
    cases rest with
    | nil => exact ⟨rfl, rfl⟩
    | cons c r =>
      have := hr c rfl
      simp [this]
  | cons c a ih =>
    have hc := h c (by simp)
    have := ih (fun c hc => h c (List.mem_cons_of_mem _ hc))
    simp [hc, this.1, this.2]

theorem takeHex_found {sep : Char} (hsep : isHex sep = false) {a rest : Str} {n : Nat} (h : hexNumber a = some n) :
    takeHex sep (a ++ sep :: rest) = some (a, rest) := by
  obtain ⟨hne, hh, _⟩ := hexNumber_some h
  obtain ⟨h1, h2⟩ := takeWhile_run hh (rest := sep :: rest) (by simpa using hsep)
  unfold takeHex
  rw [h1, h2]
  cases a with
  | nil => exact absurd rfl hne
  | cons c a => simp

end PT
