import Verif.Lemmas.Tools

/-! C60 and C61: clamping, log levels, and locating a program. -/

namespace PT
open Spec

/-! ## C60 -/

/-- The result is in range, is the value when the value is, and is the nearest bound otherwise. -/
theorem C60_minmax (lo v hi : Int) (h : lo ≤ hi) :
    lo ≤ minmax lo v hi ∧ minmax lo v hi ≤ hi ∧ (lo ≤ v → v ≤ hi → minmax lo v hi = v) ∧
    (v < lo → minmax lo v hi = lo) ∧ (hi < v → minmax lo v hi = hi) := by
  unfold minmax
  omega

example := C60_minmax (-2) 27 10 (by decide)

/-- A log level never leaves DEBUG (10) to ERROR (40), and moves by ten per step inside. -/
theorem C60_level (level delta : Int) :
    10 ≤ changeLogLevel level delta ∧ changeLogLevel level delta ≤ 40 ∧
    (10 ≤ level + 10 * delta → level + 10 * delta ≤ 40 → changeLogLevel level delta = level + 10 * delta) := by
  unfold changeLogLevel minmax DEBUG ERROR
  omega

/-- Starting from one of the four levels, one always stays on one of the four levels. -/
theorem C60_named (level delta : Int) (h : level = 10 ∨ level = 20 ∨ level = 30 ∨ level = 40) :
    changeLogLevel level delta = 10 ∨ changeLogLevel level delta = 20 ∨ changeLogLevel level delta = 30 ∨
      changeLogLevel level delta = 40 := by
  unfold changeLogLevel minmax DEBUG ERROR
  omega

example : changeLogLevel 40 (-1) = 30 ∧ changeLogLevel 10 (-5) = 10 ∧ minmax (-2) 27 10 = 10 := by decide

/-! ## C61 -/

/-- An absolute path is returned unchanged, and so is a bare name without `PATH`. -/
theorem C61_unchanged (cwd : Str) (path : Option Str) (access : Str → Bool) (program : Str) :
    (∀ t, program = '/' :: t → locateProgram cwd path access program = program) ∧
    ('/' ∉ program → path = none ∨ path = some [] → locateProgram cwd path access program = program) := by
  constructor
  · rintro t rfl
    unfold locateProgram isAbs
    rw [if_pos (by rfl)]
  · intro h hp
    have hh : program.head? ≠ some '/' := fun e => h (List.mem_of_head? e)
    have h1 : isAbs program = false := by unfold isAbs; simpa using hh
    have h2 : dirName program = [] := by
      by_contra hd
      exact h ((dirName_iff hh).1 hd)
    unfold locateProgram
    rw [h1, h2]
    rcases hp with rfl | rfl <;> simp

/-- A bare name: the file in the first directory of `PATH` where it can be executed, or the name if there is none. -/
theorem C61_path (cwd paths : Str) (access : Str → Bool) (program : Str) (h : '/' ∉ program) (hp : paths ≠ []) :
    ∃ dirs, Pieces ':' paths dirs ∧
      ((∃ pre dir post file, dirs = pre ++ dir :: post ∧ InDir dir program file ∧ access file = true ∧
          (∀ d ∈ pre, ∀ f, InDir d program f → access f = false) ∧ locateProgram cwd (some paths) access program = file) ∨
       ((∀ d ∈ dirs, ∀ f, InDir d program f → access f = false) ∧ locateProgram cwd (some paths) access program = program)) := by
  have hh : program.head? ≠ some '/' := fun e => h (List.mem_of_head? e)
  have h1 : isAbs program = false := by unfold isAbs; simpa using hh
  have h2 : dirName program = [] := by
    by_contra hd
    exact h ((dirName_iff hh).1 hd)
  have hrun : locateProgram cwd (some paths) access program = searchPath access program (splitOn ':' paths) := by
    unfold locateProgram
    rw [h1, h2]
    cases paths with
    | nil => exact absurd rfl hp
    | cons c t => simp
  refine ⟨splitOn ':' paths, splitOn_pieces ':' paths, ?_⟩
  rw [hrun]
  generalize splitOn ':' paths = dirs
  induction dirs with
  | nil => exact Or.inr ⟨(fun d hd => by cases hd), rfl⟩
  | cons d dirs ih =>
    rw [searchPath]
    by_cases ha : access (pathJoin d program) = true
    · rw [if_pos ha]
      exact Or.inl ⟨[], d, dirs, _, rfl, pathJoin_inDir hh, ha, (fun x hx => by cases hx), rfl⟩
    · rw [if_neg ha]
      have hd : ∀ f, InDir d program f → access f = false := by
        intro f hf
        rw [inDir_unique hf (pathJoin_inDir hh)]
        simpa using ha
      rcases ih with ⟨pre, dir, post, file, e1, e2, e3, e4, e5⟩ | ⟨e1, e2⟩
      · refine Or.inl ⟨d :: pre, dir, post, file, by rw [e1]; rfl, e2, e3, ?_, e5⟩
        intro x hx
        rcases List.mem_cons.1 hx with rfl | hx
        · exact hd
        · exact e4 x hx
      · refine Or.inr ⟨?_, e2⟩
        intro x hx
        rcases List.mem_cons.1 hx with rfl | hx
        · exact hd
        · exact e1 x hx

example := C61_path "/".toList "/bin::/usr/bin/".toList (fun f => decide (f = "/usr/bin/ls".toList)) "ls".toList
  (by decide) (by decide)

/-- A relative path with a directory: an absolute path in normal form, which names the same file as the relative path does from the
working directory when no symbolic link is on the way (the working directory itself is free of them). -/
theorem C61_relative_partial (cwd : Str) (dir : List Str) (path : Option Str) (access : Str → Bool) (program : Str) (comps : List Str)
    (hcwd : IsAbsPath cwd dir) (hcomps : Pieces '/' program comps) (hrel : program.head? ≠ some '/') (hs : '/' ∈ program) :
    ∃ names, IsAbsPath (locateProgram cwd path access program) names ∧
      ∀ link : List Str → Option (List Str), (∀ n, link (dir.take n) = none) →
        (∀ n, n ≤ comps.length → link (walk (fun _ => none) dir (comps.take n)) = none) → walk link [] names = walk link dir comps := by
  obtain ⟨hn, hc⟩ := hcwd
  have h1 : isAbs program = false := by unfold isAbs; simpa using hrel
  have hrun : locateProgram cwd path access program = normPath (pathJoin cwd program) := by
    unfold locateProgram
    rw [h1, if_neg (by decide), if_pos ((dirName_iff hrel).2 hs)]
  have hsplit : splitOn '/' program = comps := pieces_iff.1 hcomps
  have nosep : ∀ c ∈ comps, '/' ∉ c := hcomps.2.1
  refine ⟨walk (fun _ => none) dir comps, ⟨walk_names comps dir hn nosep, ?_⟩, ?_⟩
  · -- the joined path
    have hne : program ≠ [] := fun e => by rw [e] at hs; cases hs
    have hp0 : ∀ c, program.head? = some c → c ≠ '/' := fun c h e => hrel (by rw [h, e])
    obtain ⟨pc, pt, rfl⟩ : ∃ c t, program = c :: t := by
      cases program with
      | nil => exact absurd rfl hne
      | cons c t => exact ⟨c, t, rfl⟩
    have hpc : pc ≠ '/' := hp0 pc rfl
    rw [hrun]
    unfold pathJoin
    rw [if_neg hrel]
    have hlast : cwd.getLast? = some '/' ↔ dir = [] := by
      rw [hc]
      constructor
      · intro h
        by_contra hd
        have hin : ['/'].intercalate dir ≠ [] := by
          cases dir with
          | nil => exact absurd rfl hd
          | cons x dir =>
            have := (hn x (by simp)).1
            cases dir with
            | nil => simpa [List.intercalate] using this
            | cons y dir => simp [List.intercalate, this]
        have hlc : (['/'].intercalate dir).getLast? = some '/' := by
          cases hi : ['/'].intercalate dir with
          | nil => exact absurd hi hin
          | cons x t => rw [hi] at h; rw [List.getLast?_cons_cons] at h; exact h
        have hlast2 : ∀ l : List Str, (∀ c ∈ l, c ≠ [] ∧ '/' ∉ c) → (['/'].intercalate l).getLast? ≠ some '/' := by
          intro l
          induction l with
          | nil => intro _ h; cases h
          | cons x l ih =>
            intro hx h
            cases l with
            | nil =>
              have : ['/'].intercalate [x] = x := by simp [List.intercalate]
              rw [this] at h
              exact (hx x (by simp)).2 (List.mem_of_getLast? h)
            | cons y l =>
              have hyne : ['/'].intercalate (y :: l) ≠ [] := by
                have := (hx y (by simp)).1
                cases l with
                | nil => simpa [List.intercalate] using this
                | cons z l => simp [List.intercalate, this]
              have e : ['/'].intercalate (x :: y :: l) = x ++ '/' :: ['/'].intercalate (y :: l) := by simp [List.intercalate]
              rw [e, List.getLast?_append] at h
              cases hi : ['/'].intercalate (y :: l) with
              | nil => exact hyne hi
              | cons z t =>
                rw [hi, List.getLast?_cons_cons] at h
                have h3 : (z :: t).getLast? = some '/' := by
                  cases hg : (z :: t).getLast? with
                  | none => simp at hg
                  | some q => rw [hg] at h; simpa using h
                rw [← hi] at h3
                exact ih (fun c hc => hx c (List.mem_cons_of_mem _ hc)) h3
        exact hlast2 dir (fun c hc => ⟨(hn c hc).1, (hn c hc).2.2.2⟩) hlc
      · rintro rfl; rfl
    have main : ∀ full : Str, full.head? = some '/' → (∀ t, full ≠ '/' :: '/' :: t) →
        (splitOn '/' full).foldl (normStep 1) [] = walk (fun _ => none) dir comps →
        normPath full = '/' :: ['/'].intercalate (walk (fun _ => none) dir comps) := by
      intro full hf hss hw
      cases full with
      | nil => cases hf
      | cons c t =>
        have hc' : c = '/' := by simpa using hf
        subst hc'
        unfold normPath
        rw [if_neg (by simp)]
        have hpre : (['/', '/'].isPrefixOf ('/' :: t) && !(['/', '/', '/'].isPrefixOf ('/' :: t))) = false := by
          cases t with
          | nil => rfl
          | cons d t =>
            by_cases hd : d = '/'
            · exact absurd (by rw [hd]) (hss t)
            · have : ['/', '/'].isPrefixOf ('/' :: d :: t) = false := by
                simp [List.isPrefixOf, Ne.symm hd]
              rw [this]; rfl
        simp only [List.head?_cons, if_true, hpre, Bool.false_eq_true, if_false]
        rw [hw]
        simp
    by_cases hd : dir = []
    · rw [if_pos (Or.inr (hlast.2 hd))]
      subst hd
      have hcw : cwd = ['/'] := by rw [hc]; rfl
      rw [hcw]
      apply main
      · rfl
      · intro t e
        simp at e
        exact hpc e.1
      · have e : splitOn '/' (['/'] ++ pc :: pt) = [] :: comps := by
          have := splitOn_joined (sep := '/') [] (pc :: pt)
          rw [hsplit] at this
          exact this
        rw [e, List.foldl_cons]
        have : normStep 1 [] [] = [] := by unfold normStep; rw [if_pos (Or.inl rfl)]
        rw [this]
        exact normStep_walk (by omega) comps [] (fun c hc => by cases hc)
    · have hcne : cwd ≠ [] := by rw [hc]; simp
      rw [if_neg (by rintro (h | h); exact hcne h; exact hd (hlast.1 h))]
      apply main
      · rw [hc]; rfl
      · intro t e
        rw [hc] at e
        cases dir with
        | nil => exact hd rfl
        | cons x dir =>
          obtain ⟨h1, _, _, h4⟩ := hn x (by simp)
          cases x with
          | nil => exact h1 rfl
          | cons q x =>
            have hq : q ≠ '/' := fun e => h4 (by rw [e]; simp)
            have : ['/'].intercalate ((q :: x) :: dir) = q :: (x ++ (if dir = [] then [] else '/' :: ['/'].intercalate dir)) := by
              cases dir with
              | nil => simp [List.intercalate]
              | cons y dir => simp [List.intercalate]
            rw [this] at e
            simp at e
            exact hq e.1
      · have e : splitOn '/' (cwd ++ '/' :: pc :: pt) = [] :: (dir ++ comps) := by
          rw [splitOn_joined, hsplit, hc]
          have : splitOn '/' ('/' :: ['/'].intercalate dir) = [] :: dir := by
            have h2 := splitOn_joined (sep := '/') [] (['/'].intercalate dir)
            have h3 : splitOn '/' (['/'].intercalate dir) = dir :=
              pieces_iff.1 ⟨hd, fun p hp => (hn p hp).2.2.2, rfl⟩
            rw [h3] at h2
            exact h2
          rw [this]; rfl
        rw [e, List.foldl_cons]
        have : normStep 1 [] [] = [] := by unfold normStep; rw [if_pos (Or.inl rfl)]
        rw [this, normStep_walk (by omega) (dir ++ comps) [] (fun c hc => by cases hc)]
        have hw : walk (fun _ => none) [] dir = dir := by
          have := walk_normal (link := fun _ => none) dir [] (fun c hc => ⟨(hn c hc).1, (hn c hc).2.1, (hn c hc).2.2.1⟩) (fun _ _ => rfl)
          simpa using this
        unfold walk at hw ⊢
        rw [List.foldl_append, hw]
  · intro link hl1 hl2
    obtain ⟨e1, e2⟩ := walk_free comps dir hl1 hl2
    have h := walk_names comps dir hn nosep
    rw [e1]
    have := walk_normal (link := link) (walk (fun _ => none) dir comps) [] (fun c hc => ⟨(h c hc).1, (h c hc).2.1, (h c hc).2.2.1⟩)
      (fun n _ => e2 n)
    simpa using this

example := C61_relative_partial "/home/me".toList ["home".toList, "me".toList] none (fun _ => false) "../x/./prog".toList
  ["..".toList, "x".toList, ".".toList, "prog".toList] ⟨by decide, by decide⟩ ⟨by decide, by decide⟩ (by decide) (by decide)

/-- With a symbolic link before `..` another file is named: the path is simplified as text. -/
theorem C61_refuted : ∃ (link : List Str → Option (List Str)) (dir names : List Str),
    IsAbsPath "/home".toList dir ∧ IsAbsPath (locateProgram "/home".toList none (fun _ => false) "link/../prog".toList) names ∧
      walk link [] names ≠ walk link dir ["link".toList, "..".toList, "prog".toList] := by
  refine ⟨fun d => if d = ["home".toList, "link".toList] then some ["opt".toList, "bin".toList] else none, ["home".toList],
    ["home".toList, "prog".toList], ⟨by decide, by decide⟩, ⟨by decide, by decide +kernel⟩, by decide⟩

private theorem normStep_roots (n : Nat) (hn : 0 < n) : normStep n = normStep 1 := by
  funext comps comp
  unfold normStep
  have h1 : ¬ (n = 0) := by omega
  simp [h1]

private theorem split_slash (t : Str) : splitOn '/' ('/' :: t) = [] :: splitOn '/' t := splitOn_joined (sep := '/') [] t

/-- Exactly two slashes at the beginning are kept (POSIX gives them a meaning of their own); three are one. -/
theorem C61_root (t : Str) (h : t.head? ≠ some '/') :
    normPath ('/' :: '/' :: t) = '/' :: normPath ('/' :: t) ∧ normPath ('/' :: '/' :: '/' :: t) = normPath ('/' :: t) := by
  have hone : normPath ('/' :: t) = '/' :: ['/'].intercalate ((splitOn '/' t).foldl (normStep 1) []) := by
    unfold normPath
    have : ['/', '/'].isPrefixOf ('/' :: t) = false := by
      cases t with
      | nil => rfl
      | cons c t =>
        have : ¬ '/' = c := fun e => h (by rw [← e]; rfl)
        simp [List.isPrefixOf, this]
    rw [if_neg (by simp)]
    simp only [List.head?_cons, if_true, this, Bool.false_and, Bool.false_eq_true, if_false]
    rw [split_slash, List.foldl_cons]
    simp [normStep]
  rw [hone]
  constructor
  · unfold normPath
    have : ['/', '/', '/'].isPrefixOf ('/' :: '/' :: t) = false := by
      cases t with
      | nil => rfl
      | cons c t =>
        have : ¬ '/' = c := fun e => h (by rw [← e]; rfl)
        simp [List.isPrefixOf, this]
    have h2 : ['/', '/'].isPrefixOf ('/' :: '/' :: t) = true := by simp [List.isPrefixOf]
    rw [if_neg (by simp)]
    simp only [List.head?_cons, if_true, this, h2, Bool.not_false, Bool.and_self]
    rw [split_slash, split_slash, List.foldl_cons, List.foldl_cons, normStep_roots 2 (by omega)]
    have e : normStep 1 [] [] = [] := by simp [normStep]
    rw [e, e, if_neg (by simp [List.replicate])]
    rfl
  · unfold normPath
    have h3 : ['/', '/', '/'].isPrefixOf ('/' :: '/' :: '/' :: t) = true := by simp [List.isPrefixOf]
    rw [if_neg (by simp)]
    simp only [List.head?_cons, if_true, h3, Bool.not_true, Bool.and_false, Bool.false_eq_true, if_false]
    rw [split_slash, split_slash, split_slash, List.foldl_cons, List.foldl_cons, List.foldl_cons]
    have e : normStep 1 [] [] = [] := by simp [normStep]
    rw [e, e, e, if_neg (by simp [List.replicate])]
    rfl

example : normPath "//host/a/../b".toList = "//host/b".toList ∧ normPath "///host/b".toList = "/host/b".toList := by decide +kernel

example : locateProgram "/home/me".toList none (fun _ => false) "../x/./prog".toList = "/home/x/prog".toList := by decide +kernel
example : locateProgram "/".toList (some "/bin::/usr/bin/".toList) (fun f => decide (f = "/usr/bin/ls".toList)) "ls".toList =
    "/usr/bin/ls".toList := by decide +kernel

end PT
