import Verif.Lemmas.Proc3

namespace PT
open Spec

theorem rstrip_id {space : Char → Bool} {t : Str} (h : ∀ c, t.getLast? = some c → space c = false) : rstrip space t = t :=
  rstripped_iff.1 ⟨⟨[], by simp, by simp⟩, h⟩

/-- The head of a line ends with a digit and has no newline. -/
theorem Spec.MapHead.last {space : Char → Bool} (hs : PySpace space) {k : KMap} {t : Str} (h : MapHead k t) :
    (∀ c, t.getLast? = some c → space c = false) ∧ '\n' ∉ t := by
  obtain ⟨_, hnl, a, b, c, d, e, f, ha, hb, hc, hd, he, hf, _, _, rfl⟩ := h
  obtain ⟨hfne, hfd⟩ := decNumber_iff.1 ⟨_, hf⟩
  have hx : ∀ {x : Str} {n : Nat}, hexNumber x = some n → '\n' ∉ x := by
    intro x n hx hm
    have := (hexNumber_some hx).2.1 _ hm
    exact absurd this (by decide)
  constructor
  · intro x hx
    have e1 : (a ++ '-' :: (b ++ ' ' :: (k.perms ++ ' ' :: (c ++ ' ' :: (d ++ ':' :: (e ++ ' ' :: f)))))) =
        (a ++ '-' :: (b ++ ' ' :: (k.perms ++ ' ' :: (c ++ ' ' :: (d ++ ':' :: (e ++ [' '])))))) ++ f := by simp
    rw [e1, getLast?_append_ne _ hfne] at hx
    exact isDec_printable hs (hfd x (List.mem_of_getLast? hx))
  · simp only [List.mem_append, List.mem_cons, not_or]
    refine ⟨hx ha, by decide, hx hb, by decide, hnl, by decide, hx hc, by decide, hx hd, by decide, hx he, by decide, ?_⟩
    intro hm
    exact absurd (hfd _ hm) (by decide)

theorem parseMapLine_line {space : Char → Bool} (hs : PySpace space) {k : KMap} {line : Str} (h : MapLine space k line) :
    '\n' ∉ line ∧ parseMapLine (rstrip space line) = some
      { start := k.start, stop := k.stop, permissions := k.perms, offset := k.offset, major := k.major, minor := k.minor,
        inode := k.inode, pathname := k.path } := by
  obtain ⟨t, ht, h⟩ := h
  obtain ⟨hlast, hnl⟩ := ht.last hs
  cases hp : k.path with
  | none =>
    rw [hp] at h
    obtain ⟨n, rfl⟩ := h
    refine ⟨?_, ?_⟩
    · simp only [List.mem_append, not_or]
      exact ⟨hnl, fun hm => absurd (List.eq_of_mem_replicate hm) (by decide)⟩
    · have : rstrip space (t ++ List.replicate n ' ') = t := rstripped_iff.1
        ⟨⟨_, rfl, fun c hc => by rw [List.eq_of_mem_replicate hc]; exact hs.blank⟩, hlast⟩
      rw [this]
      have := parseMapLine_head (rest := []) ht (by simp)
      rw [List.append_nil] at this
      rw [this]
      rfl
  | some p =>
    rw [hp] at h
    obtain ⟨hne, hpn, hst, n, rfl⟩ := h
    refine ⟨?_, ?_⟩
    · simp only [List.mem_append, List.mem_cons, not_or]
      exact ⟨hnl, by decide, fun hm => absurd (List.eq_of_mem_replicate hm) (by decide), hpn⟩
    · rw [rstrip_id, parseMapLine_head ht (by simp; decide)]
      · have : pathOf (' ' :: (List.replicate n ' ' ++ p)) = some p := by
          unfold pathOf
          simp only [Option.some.injEq]
          rw [dropWhile_prefix]
          · have := (takeWhile_run (p := fun c => decide (c ≠ '\n')) (a := p) (rest := [])
              (by intro c hc; simp; rintro rfl; exact hpn hc) (by simp)).1
            simpa using this
          · intro c hc; simpa using List.eq_of_mem_replicate hc
          · intro c hc
            simp only [decide_eq_false_iff_not]
            rintro rfl
            have := hst.2.1 _ hc
            rw [hs.blank] at this
            cases this
        rw [this]
      · intro c hc
        have e1 : t ++ ' ' :: (List.replicate n ' ' ++ p) = (t ++ ' ' :: List.replicate n ' ') ++ p := by simp
        rw [e1, getLast?_append_ne _ hne] at hc
        exact hst.2.2 c hc

theorem splitOn_two {sep : Char} {l : List Str} (h : ∀ s ∈ l, sep ∉ s) {last : Str} (hl : sep ∉ last) :
    splitOn sep (l.flatMap (· ++ [sep]) ++ last) = l ++ [last] := by
  induction l with
  | nil => simpa using splitOn_none hl
  | cons s l ih =>
    rw [List.flatMap_cons, List.append_assoc, List.append_assoc, List.singleton_append, splitOn_append (h s (by simp)),
      ih (fun s hs => h s (List.mem_cons_of_mem _ hs))]
    rfl

theorem fileLines_eq {u : Str} {lines : List Str} (h : FileLines u lines) : fileLines u = lines := by
  obtain ⟨hl, rfl | ⟨init, last, rfl, hne, rfl⟩⟩ := h
  · unfold fileLines
    rw [splitOn_terminated hl]
    simp
  · unfold fileLines
    rw [splitOn_two (fun s hs => hl s (by simp [hs])) (hl last (by simp))]
    simp [hne]

theorem mapM_option {α β : Type} {f : α → Option β} {l : List α} {m : List β}
    (h : List.Forall₂ (fun a b => f a = some b) l m) : l.mapM f = some m := by
  induction h with
  | nil => rfl
  | cons hx _ ih => rw [List.mapM_cons, hx, ih]; rfl

theorem mapM_option_none {α β : Type} {f : α → Option β} {l : List α} : l.mapM f = none ↔ ∃ a ∈ l, f a = none := by
  induction l with
  | nil => simp
  | cons a l ih =>
    rw [List.mapM_cons]
    cases ha : f a with
    | none => simp [ha]
    | some b =>
      cases hl : l.mapM f with
      | none =>
        obtain ⟨x, hx, hfx⟩ := ih.1 hl
        simp only [Option.bind_eq_bind, Option.bind_some, Option.bind_none, true_iff]
        exact ⟨x, List.mem_cons_of_mem _ hx, hfx⟩
      | some bs =>
        simp only [Option.bind_eq_bind, Option.bind_some, Option.pure_def, reduceCtorEq, false_iff, not_exists, not_and]
        intro x hx hfx
        rcases List.mem_cons.1 hx with rfl | hx
        · rw [ha] at hfx; cases hfx
        · have := ih.2 ⟨x, hx, hfx⟩
          rw [hl] at this; cases this

theorem mapM_option_some {α β : Type} {f : α → Option β} {l : List α} {m : List β} (h : l.mapM f = some m) :
    List.Forall₂ (fun a b => f a = some b) l m := by
  induction l generalizing m with
  | nil => cases h; exact .nil
  | cons a l ih =>
    rw [List.mapM_cons] at h
    cases ha : f a with
    | none => rw [ha] at h; cases h
    | some b =>
      cases hl : l.mapM f with
      | none => rw [ha, hl] at h; cases h
      | some bs =>
        rw [ha, hl] at h
        cases h
        exact .cons ha (ih hl)

/-- A line that starts like a line of the kernel matches. -/
theorem parseMapLine_isMapLine {line : Str} : IsMapLine line ↔ parseMapLine line ≠ none := by
  constructor
  · rintro ⟨k, t, rest, ⟨hlen, hnl, a, b, c, d, e, f, ha, hb, hc, hd, he, hf, hdl, hel, rfl⟩, rfl⟩
    obtain ⟨hfne, hfd⟩ := decNumber_iff.1 ⟨_, hf⟩
    obtain ⟨nf, hnf⟩ := (decNumber_iff (t := f ++ rest.takeWhile isDec)).2 ⟨by simp [hfne], by
      intro c hc
      rcases List.mem_append.1 hc with hc | hc
      · exact hfd c hc
      · exact mem_takeWhile hc⟩
    have hh : MapHead { k with inode := nf } _ := ⟨hlen, hnl, a, b, c, d, e, _, ha, hb, hc, hd, he, hnf, hdl, hel, rfl⟩
    have := parseMapLine_head (rest := rest.dropWhile isDec) hh (by
      intro c hc
      obtain ⟨_, _, _, h'⟩ := dropWhile_split isDec rest
      exact h' c hc)
    have e1 : ∀ x : Str, x ++ rest = x ++ rest.takeWhile isDec ++ rest.dropWhile isDec := by
      intro x; rw [List.append_assoc, List.takeWhile_append_dropWhile]
    simp only [List.append_assoc, List.cons_append, List.takeWhile_append_dropWhile] at this ⊢
    rw [this]
    simp
  · intro h
    obtain ⟨m, hm⟩ := Option.ne_none_iff_exists'.1 h
    obtain ⟨k, t, rest, h1, h2, _⟩ := parseMapLine_some hm
    exact ⟨k, t, rest, h1, h2⟩

/-! ### Environment -/

theorem truncateEnv_spec (limit : Nat) : ∀ (env : List Str) (length : Nat), length ≤ limit →
    (truncateEnv limit length env).1.Sublist env ∧
    length + ((truncateEnv limit length env).1.map List.length).sum ≤ limit ∧
    (truncateEnv limit length env).1.length + (truncateEnv limit length env).2 = env.length ∧
    (length + (env.map List.length).sum ≤ limit → (truncateEnv limit length env).1 = env) := by
  intro env
  induction env with
  | nil => intro length h; simp [truncateEnv]; exact h
  | cons v env ih =>
    intro length h
    rw [truncateEnv]
    by_cases hv : limit < length + v.length
    · rw [if_pos hv]
      obtain ⟨h1, h2, h3, h4⟩ := ih length h
      refine ⟨h1.cons _, h2, ?_, ?_⟩
      · simp only [List.length_cons]; omega
      · intro hh
        simp only [List.map_cons, List.sum_cons] at hh
        omega
    · rw [if_neg hv]
      obtain ⟨h1, h2, h3, h4⟩ := ih (length + v.length) (by omega)
      refine ⟨h1.cons_cons _, ?_, ?_, ?_⟩
      · simp only [List.map_cons, List.sum_cons]; omega
      · simp only [List.length_cons]; omega
      · intro hh
        simp only [List.map_cons, List.sum_cons] at hh
        simp only []
        rw [h4 (by omega)]

theorem mapM_envText {repr : Str → Str} {l : List Str} (h : ∀ v ∈ l, '=' ∈ v) :
    ∃ texts, l.mapM (envText repr) = .ok texts ∧ List.Forall₂ (ShownVar repr) l texts := by
  induction l with
  | nil => exact ⟨[], rfl, .nil⟩
  | cons v l ih =>
    obtain ⟨texts, h1, h2⟩ := ih (fun v hv => h v (List.mem_cons_of_mem _ hv))
    obtain ⟨name, value, rfl, hn⟩ := mem_split (h v (by simp))
    refine ⟨(name ++ '=' :: repr value) :: texts, ?_, .cons ⟨name, value, rfl, hn, rfl⟩ h2⟩
    rw [List.mapM_cons, h1]
    unfold envText
    rw [split1_found hn]
    rfl

/-! ### Search -/

theorem mem_splitOn {sep c : Char} (hc : c ≠ sep) : ∀ {t : Str}, c ∈ t → ∃ g ∈ splitOn sep t, c ∈ g := by
  intro t
  induction t with
  | nil => simp
  | cons d t ih =>
    intro h
    rw [splitOn]
    by_cases hd : d = sep
    · rw [if_pos hd]
      rcases List.mem_cons.1 h with rfl | h
      · exact absurd hd hc
      · obtain ⟨g, h1, h2⟩ := ih h
        exact ⟨g, List.mem_cons_of_mem _ h1, h2⟩
    · rw [if_neg hd]
      cases hs : splitOn sep t with
      | nil => exact absurd hs (splitOn_ne sep t)
      | cons w ws =>
        simp only
        rcases List.mem_cons.1 h with rfl | h
        · exact ⟨c :: w, by simp, by simp⟩
        · obtain ⟨g, h1, h2⟩ := ih h
          rw [hs] at h1
          rcases List.mem_cons.1 h1 with rfl | h1
          · exact ⟨d :: g, by simp, List.mem_cons_of_mem _ h2⟩
          · exact ⟨g, List.mem_cons_of_mem _ h1, h2⟩

theorem pyNat_letter {t : Str} {c : Char} (hm : c ∈ t) (hc : isDec c = false) (h_ : c ≠ '_') : pyNat t = none := by
  unfold pyNat
  obtain ⟨g, h1, h2⟩ := mem_splitOn h_ hm
  simp only
  rw [if_neg]
  intro hall
  have := List.all_eq_true.1 hall g h1
  simp only [Bool.and_eq_true] at this
  have := List.all_eq_true.1 this.2 c h2
  rw [hc] at this
  cases this

theorem pyInt_letter {space : Char → Bool} (hs : PySpace space) {t : Str} {c : Char} (hm : c ∈ t) (h1 : 'a' ≤ c) (h2 : c ≤ 'z') :
    pyInt space t = none := by
  rw [le_toNat] at h1 h2
  have e1 : ('a' : Char).toNat = 97 := rfl
  have e2 : ('z' : Char).toNat = 122 := rfl
  have hsp : space c = false := hs.printable c (by rw [le_toNat]; have : ('!' : Char).toNat = 33 := rfl; omega)
    (by rw [le_toNat]; have : ('~' : Char).toNat = 126 := rfl; omega)
  have hd : isDec c = false := by
    cases h : isDec c with
    | false => rfl
    | true =>
      rw [isDec_iff, le_toNat, le_toNat] at h
      have : ('9' : Char).toNat = 57 := rfl
      omega
  have hne : ∀ d : Char, d.toNat < 97 → c ≠ d := by rintro d hd rfl; omega
  obtain ⟨⟨a, b, ht, ha, hb⟩, _, _⟩ := strip_stripped space t
  have hmem : c ∈ strip space t := by
    rw [ht] at hm
    rcases List.mem_append.1 hm with hm | hm
    · rcases List.mem_append.1 hm with hm | hm
      · rw [ha c hm] at hsp; cases hsp
      · exact hm
    · rw [hb c hm] at hsp; cases hsp
  unfold pyInt
  generalize strip space t = y at hmem
  have hu : c ≠ '_' := hne _ (by decide)
  split
  · rcases List.mem_cons.1 hmem with h | h
    · exact absurd h (hne _ (by decide))
    · rw [pyNat_letter h hd hu]; rfl
  · rcases List.mem_cons.1 hmem with h | h
    · exact absurd h (hne _ (by decide))
    · rw [pyNat_letter h hd hu]; rfl
  · rw [pyNat_letter hmem hd hu]; rfl

theorem entries_pids {space : Char → Bool} (hs : PySpace space) {names : List Str} {es : List (Option Int)}
    (h : List.Forall₂ Entry names es) : names.filterMap (pyInt space) = es.filterMap id := by
  induction h with
  | nil => rfl
  | @cons name e _ _ hx _ ih =>
    cases e with
    | none =>
      obtain ⟨c, hc, h1, h2⟩ := hx
      rw [List.filterMap_cons_none (pyInt_letter hs hc h1 h2), List.filterMap_cons_none rfl, ih]
    | some n =>
      obtain ⟨m, hm, rfl⟩ := hx
      have : pyInt space name = some (m : Int) := pyInt_plain hs (Or.inl ⟨m, hm, rfl⟩)
      rw [List.filterMap_cons_some this, ih]
      rfl

theorem readProcList_first {t w : Str} (h : FirstString t w) (hr : '\r' ∉ t) : ∃ ws, readProcList (.text t) = .ok (w :: ws) := by
  obtain ⟨hne, hw, h⟩ := h
  unfold readProcList readFile
  simp only []
  rw [newlines_id hr, if_neg hne]
  rcases h with rfl | ⟨r, rfl⟩
  · rw [splitOn_none hw]
    refine ⟨[], ?_⟩
    rw [if_neg (by simpa using hne)]
  · rw [splitOn_append hw]
    have := splitOn_ne '\x00' r
    cases hs : splitOn '\x00' r with
    | nil => exact absurd hs this
    | cons x xs =>
      by_cases hl : (w :: x :: xs).getLast? = some []
      · rw [if_pos hl]; exact ⟨_, rfl⟩
      · rw [if_neg hl]; exact ⟨_, rfl⟩

theorem matches_iff {name word : Str} : Matches name word ↔ (word = name ∨ ('/' :: name).isSuffixOf word = true) := by
  unfold Matches
  rw [List.isSuffixOf_iff_suffix]
  constructor
  · rintro (h | ⟨d, h⟩)
    · exact Or.inl h
    · exact Or.inr ⟨d, h.symm⟩
  · rintro (h | ⟨d, h⟩)
    · exact Or.inl h
    · exact Or.inr ⟨d, h.symm⟩

end PT
