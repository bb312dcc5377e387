import Verif.Lemmas.Proc4

/-! Properties C50 to C54: what is read below `/proc`. -/

namespace PT
open Spec

/-! ### Data of the examples -/

/-- ASCII white space. -/
def asciiSpace (c : Char) : Bool := c == ' ' || (decide (9 ≤ c.toNat) && decide (c.toNat ≤ 13))

theorem asciiSpace_ok : PySpace asciiSpace := by
  refine ⟨by decide, by decide, ?_⟩
  intro c h1 h2
  rw [le_toNat] at h1 h2
  have e : ('!' : Char).toNat = 33 := rfl
  have h3 : c ≠ ' ' := by rintro rfl; have : (' ' : Char).toNat = 32 := rfl; omega
  unfold asciiSpace
  simp [h3]
  omega

/-- A process whose name has a parenthesis and a space. -/
def exStat : KStat :=
  { pid := 42, comm := "a) (b".toList, state := 'S', ppid := 1, pgrp := 42, session := 42, tty_nr := 0, tpgid := -1, flags := 4194560,
    minflt := 1, cminflt := 0, majflt := 0, cmajflt := 0, utime := 7, stime := 8, cutime := 0, cstime := 0, priority := 20,
    nice := 0, num_threads := 1, itrealvalue := 0, starttime := 9000, rest := [1000] }

def exStatLine : Str := "42 (a) (b) S 1 42 42 0 -1 4194560 1 0 0 0 7 8 0 0 20 0 1 0 9000 1000\n".toList

theorem statLine_mk {k : KStat} {t : Str} (p : Str) (texts : List Str) (hst : k.state ∈ "RSDTtZXxKWPI".toList) (hp : IsInt p k.pid)
    (htx : List.Forall₂ IsInt texts k.numbers)
    (ht : t = p ++ ' ' :: '(' :: (k.comm ++ ')' :: ' ' :: k.state :: (texts.flatMap (' ' :: ·) ++ ['\n']))) : StatLine k t :=
  ⟨hst, p, texts, hp, htx, ht⟩

/-- The numbers of `exStat` as text. -/
def exTexts : List Str := ["1", "42", "42", "0", "-1", "4194560", "1", "0", "0", "0", "7", "8", "0", "0", "20", "0", "1", "0", "9000", "1000"].map String.toList

theorem exNumbers (k : KStat) (h : k.numbers = exStat.numbers) : List.Forall₂ IsInt exTexts k.numbers := by
  rw [h]
  have pos : ∀ (t : Str) (m : Nat), decNumber t = some m → IsInt t (m : Int) := fun t m h => Or.inl ⟨m, h, rfl⟩
  exact .cons (pos _ 1 (by decide +kernel)) <| .cons (pos _ 42 (by decide +kernel)) <| .cons (pos _ 42 (by decide +kernel)) <|
    .cons (pos _ 0 (by decide +kernel)) <| .cons (Or.inr ⟨1, ['1'], rfl, by decide +kernel, rfl⟩) <|
    .cons (pos _ 4194560 (by decide +kernel)) <| .cons (pos _ 1 (by decide +kernel)) <| .cons (pos _ 0 (by decide +kernel)) <|
    .cons (pos _ 0 (by decide +kernel)) <| .cons (pos _ 0 (by decide +kernel)) <| .cons (pos _ 7 (by decide +kernel)) <|
    .cons (pos _ 8 (by decide +kernel)) <| .cons (pos _ 0 (by decide +kernel)) <| .cons (pos _ 0 (by decide +kernel)) <|
    .cons (pos _ 20 (by decide +kernel)) <| .cons (pos _ 0 (by decide +kernel)) <| .cons (pos _ 1 (by decide +kernel)) <|
    .cons (pos _ 0 (by decide +kernel)) <| .cons (pos _ 9000 (by decide +kernel)) <| .cons (pos _ 1000 (by decide +kernel)) .nil

theorem exStat_line : StatLine exStat exStatLine :=
  statLine_mk "42".toList exTexts (by decide) (Or.inl ⟨42, by decide +kernel, rfl⟩) (exNumbers exStat rfl) (by decide +kernel)

/-! ### C50 -/

/-- **C50.** From every stat line all fields are read as printed, whatever parentheses, spaces and newlines the
program name has; the name is the printed one after translation of line ends. -/
theorem C50_fields {space : Char → Bool} (hs : PySpace space) {k : KStat} {t : Str} (h : StatLine k t) :
    ∃ r, readStat space (.text t) = .ok r ∧ r.pid = k.pid ∧ Translated k.comm r.program ∧ r.state = [k.state] ∧ r.ppid = k.ppid ∧
      r.pgrp = k.pgrp ∧ r.session = k.session ∧ r.tty_nr = k.tty_nr ∧ r.tpgid = k.tpgid ∧ r.utime = k.utime ∧
      r.stime = k.stime ∧ r.starttime = k.starttime :=
  ⟨_, readStat_line hs h, rfl, translated_iff.2 rfl, rfl, rfl, rfl, rfl, rfl, rfl, rfl, rfl, rfl⟩

example := C50_fields asciiSpace_ok exStat_line

/-- **C50, without carriage returns.** The program name is the printed one. -/
theorem C50_program_partial {space : Char → Bool} (hs : PySpace space) {k : KStat} {t : Str} (h : StatLine k t) (hr : '\r' ∉ k.comm) :
    ∃ r, readStat space (.text t) = .ok r ∧ r.pid = k.pid ∧ r.program = k.comm ∧ r.state = [k.state] := by
  refine ⟨_, readStat_line hs h, rfl, newlines_id hr, rfl⟩

/-- **C50 is false for a name with a carriage return**: it is read as a newline. -/
theorem C50_refuted : ¬ ∀ (space : Char → Bool), PySpace space → ∀ (k : KStat) (t : Str), StatLine k t →
    ∃ r, readStat space (.text t) = .ok r ∧ r.program = k.comm := by
  intro h
  have hl : StatLine { exStat with comm := "a\rb".toList } _ :=
    statLine_mk "42".toList exTexts (by decide) (Or.inl ⟨42, by decide +kernel, rfl⟩) (exNumbers _ rfl) rfl
  obtain ⟨r, h1, h2⟩ := h asciiSpace asciiSpace_ok _ _ hl
  rw [readStat_line asciiSpace_ok hl] at h1
  injection h1 with h1
  rw [← h1] at h2
  exact absurd h2 (by decide)

example : readStat asciiSpace (.text exStatLine) = .ok
    { pid := 42, program := "a) (b".toList, state := "S".toList, ppid := 1, pgrp := 42, session := 42, tty_nr := 0, tpgid := -1,
      utime := 7, stime := 8, starttime := 9000 } := by decide +kernel

example : ∃ r, readStat asciiSpace (.text exStatLine) = .ok r ∧ r.pid = 42 ∧ r.program = "a) (b".toList ∧ r.state = ['S'] :=
  C50_program_partial asciiSpace_ok exStat_line (by decide)

/-! ### C51 -/

/-- The fields of a mapping are the printed ones. -/
def SameMap (k : KMap) (m : Mapping) : Prop :=
  m.start = k.start ∧ m.stop = k.stop ∧ m.permissions = k.perms ∧ m.offset = k.offset ∧ m.major = k.major ∧ m.minor = k.minor ∧
  m.inode = k.inode ∧ m.pathname = k.path

/-- **C51, without carriage returns.** All fields of all lines are read back exactly, in order. -/
theorem C51_fields_partial {space : Char → Bool} (hs : PySpace space) {ks : List KMap} {t : Str} (h : MapsFile space ks t)
    (hr : '\r' ∉ t) : ∃ ms, readMappings space (.text t) = .ok ms ∧ List.Forall₂ SameMap ks ms := by
  obtain ⟨lines, hl, rfl⟩ := h
  have hnl : ∀ l ∈ lines, '\n' ∉ l := by
    refine forall₂_left (R := fun l k => MapLine space k l) (m := ks) ?_ (fun l k h => (parseMapLine_line hs h).1)
    exact List.Forall₂.flip hl
  have hm : ∃ ms, List.Forall₂ (fun line m => parseMapLine (rstrip space line) = some m) lines ms ∧ List.Forall₂ SameMap ks ms := by
    clear hr hnl
    induction hl with
    | nil => exact ⟨[], .nil, .nil⟩
    | cons hx _ ih =>
      obtain ⟨ms, h1, h2⟩ := ih
      exact ⟨_ :: ms, .cons (parseMapLine_line hs hx).2 h1, .cons ⟨rfl, rfl, rfl, rfl, rfl, rfl, rfl, rfl⟩ h2⟩
  obtain ⟨ms, h1, h2⟩ := hm
  refine ⟨ms, ?_, h2⟩
  unfold readMappings readFile
  simp only []
  rw [newlines_id hr, fileLines_eq ⟨hnl, Or.inl rfl⟩]
  unfold parseMaps
  rw [mapM_option h1]

/-- **C51, errors.** `ProcessError` is raised exactly when some line does not start like a mapping; no line is
skipped. -/
theorem C51_error {space : Char → Bool} {t u : Str} {lines : List Str} (ht : Translated t u) (hl : FileLines u lines) :
    ((readMappings space (.text t) = .error .process) ↔ ∃ line ∈ lines, ∃ y, RStripped space line y ∧ ¬ IsMapLine y) ∧
    (∀ ms, readMappings space (.text t) = .ok ms → ms.length = lines.length) := by
  have e : readMappings space (.text t) = parseMaps space lines := by
    unfold readMappings readFile
    simp only []
    rw [translated_iff.1 ht, fileLines_eq hl]
  rw [e]
  unfold parseMaps
  have hn : (∃ line ∈ lines, ∃ y, RStripped space line y ∧ ¬ IsMapLine y) ↔
      (lines.mapM fun line => parseMapLine (rstrip space line)) = none := by
    rw [mapM_option_none]
    constructor
    · rintro ⟨line, hm, y, hy, hno⟩
      refine ⟨line, hm, ?_⟩
      rw [rstripped_iff.1 hy]
      rw [parseMapLine_isMapLine, not_not] at hno
      exact hno
    · rintro ⟨line, hm, hno⟩
      refine ⟨line, hm, _, rstripped_iff.2 rfl, ?_⟩
      rw [parseMapLine_isMapLine, not_not]
      exact hno
  rw [hn]
  cases hmm : lines.mapM fun line => parseMapLine (rstrip space line) with
  | none => simp
  | some ms =>
    refine ⟨by simp, ?_⟩
    intro ms' h
    cases h
    exact (List.Forall₂.length_eq (mapM_option_some hmm)).symm

example := C51_error (space := asciiSpace) (t := "1000-2000 r--p 0 08:01 5\nx".toList) (u := "1000-2000 r--p 0 08:01 5\nx".toList)
  (lines := ["1000-2000 r--p 0 08:01 5".toList, "x".toList]) (translated_iff.2 (by decide +kernel))
  ⟨by decide, Or.inr ⟨["1000-2000 r--p 0 08:01 5".toList], "x".toList, rfl, by decide, by decide +kernel⟩⟩

/-- **C51, no file.** If there is no file with mappings (the process has ended), `ProcessError` is raised; no empty list is given back. -/
theorem C51_missing {space : Char → Bool} : readMappings space .missing = .error .process ∧ ∀ f ms, readMappings space f = .ok ms → ∃ t, f = .text t := by
  refine ⟨rfl, fun f ms h => ?_⟩
  cases f with
  | missing => cases h
  | undecodable => cases h
  | text t => exact ⟨t, rfl⟩

/-- A line of the kernel with a path that has a carriage return. -/
def crMap : KMap :=
  { start := 0x1000, stop := 0x2000, perms := "r--p".toList, offset := 0, major := 8, minor := 1, inode := 5, path := some "/a\rb".toList }

theorem crMap_head (path : Option Str) : MapHead { crMap with path := path } "1000-2000 r--p 0 08:01 5".toList := by
  show MapHead crMap "1000-2000 r--p 0 08:01 5".toList
  exact ⟨rfl, by decide, "1000".toList, "2000".toList, "0".toList, "08".toList, "01".toList, "5".toList, by decide +kernel,
    by decide +kernel, by decide +kernel, by decide +kernel, by decide +kernel, by decide +kernel, by decide, by decide, by decide +kernel⟩

/-- **C51 is false for a path with a carriage return**: the line is cut in two, and `ProcessError` is raised. -/
theorem C51_refuted : ¬ ∀ (space : Char → Bool), PySpace space → ∀ (ks : List KMap) (t : Str), MapsFile space ks t →
    ∃ ms, readMappings space (.text t) = .ok ms ∧ List.Forall₂ SameMap ks ms := by
  intro h
  have hl : MapLine asciiSpace crMap "1000-2000 r--p 0 08:01 5 /a\rb".toList :=
    ⟨_, crMap_head _, by decide, by decide, stripped_iff.2 (by decide +kernel), 0, by decide +kernel⟩
  obtain ⟨ms, h1, _⟩ := h asciiSpace asciiSpace_ok [crMap] _ ⟨[_], .cons hl .nil, rfl⟩
  have : readMappings asciiSpace (.text (["1000-2000 r--p 0 08:01 5 /a\rb".toList].flatMap (· ++ ['\n']))) = .error .process := by
    decide +kernel
  rw [this] at h1
  cases h1

example : readMappings asciiSpace (.text "1000-2000 r--p 0 08:01 5     /a b (deleted)\n3000-4000 rw-p 00000000 00:00 0 \n".toList) = .ok
    [{ start := 0x1000, stop := 0x2000, permissions := "r--p".toList, offset := 0, major := 8, minor := 1, inode := 5,
       pathname := some "/a b (deleted)".toList },
     { start := 0x3000, stop := 0x4000, permissions := "rw-p".toList, offset := 0, major := 0, minor := 0, inode := 0,
       pathname := none }] := by decide +kernel

example : ∃ ms, readMappings asciiSpace (.text "1000-2000 r--p 0 08:01 5  /a b\n".toList) = .ok ms ∧
    List.Forall₂ SameMap [{ crMap with path := some "/a b".toList }] ms :=
  C51_fields_partial asciiSpace_ok ⟨["1000-2000 r--p 0 08:01 5  /a b".toList], .cons ⟨_, crMap_head _, by decide, by decide,
    stripped_iff.2 (by decide +kernel), 1, by decide +kernel⟩ .nil, by decide +kernel⟩ (by decide)

/-- A device number that is too wide. -/
example : readMappings asciiSpace (.text "1000-2000 r--p 0 08:10000 5\n".toList) = .error .process := by decide +kernel

example : FileLines "1000-2000 r--p 0 08:01 5\nx".toList ["1000-2000 r--p 0 08:01 5".toList, "x".toList] :=
  ⟨by decide, Or.inr ⟨["1000-2000 r--p 0 08:01 5".toList], "x".toList, rfl, by decide, by decide +kernel⟩⟩

/-! ### C52 -/

/-- **C52.** The strings of a file are returned, each after translation of line ends; nothing is lost or added. -/
theorem C52_list {l : List Str} {t : Str} (h : NulList l t) :
    ∃ r, readProcList (.text t) = .ok r ∧ List.Forall₂ Translated l r :=
  ⟨_, readProcList_list h, forall₂_map newlines (fun _ => translated_iff.2 rfl) l⟩

example := C52_list (l := ["ls".toList, [], "-l\ra".toList]) (t := "ls\x00\x00-l\ra\x00".toList) ⟨by decide, by decide +kernel⟩

/-- **C52, without carriage returns.** Exactly the list whose NUL-terminated concatenation is the file. -/
theorem C52_exact_partial {l : List Str} {t : Str} (h : NulList l t) (hr : '\r' ∉ t) : readProcList (.text t) = .ok l := by
  rw [readProcList_list h]
  have : ∀ s ∈ l, newlines s = s := by
    intro s hs
    refine newlines_id fun hm => hr ?_
    rw [h.2]
    exact List.mem_flatMap.2 ⟨s, hs, List.mem_append_left _ hm⟩
  rw [List.map_congr_left this, List.map_id']

/-- An empty file is an empty list. -/
theorem C52_empty : readProcList (.text []) = .ok [] := rfl

/-- **C52 is false for a string with a carriage return.** -/
theorem C52_refuted : ¬ ∀ (l : List Str) (t : Str), NulList l t → readProcList (.text t) = .ok l := by
  intro h
  have := h ["a\rb".toList] _ ⟨by decide, rfl⟩
  exact absurd this (by decide)

example : readProcList (.text "ls\x00\x00-l a\x00".toList) = .ok ["ls".toList, [], "-l a".toList] :=
  C52_exact_partial ⟨by decide, by decide +kernel⟩ (by decide)

/-! ### C53 -/

/-- **C53, for variables with an equals sign.** What is shown is a subsequence of the environment in order, of total
length at most the limit; shown plus skipped is the number of variables; everything is shown if it fits; the text
has the shown variables, and the number of skipped ones if there are any. -/
theorem C53_budget_partial (repr : Str → Str) (limit : Nat) (env : List Str) (h : ∀ v ∈ env, '=' ∈ v) :
    ∃ (shown : List Str) (skipped : Nat) (texts : List Str) (tail out : Str), dumpEnv repr limit env = .ok out ∧
      shown.Sublist env ∧ (shown.map List.length).sum ≤ limit ∧ shown.length + skipped = env.length ∧
      ((env.map List.length).sum ≤ limit → shown = env) ∧
      List.Forall₂ (ShownVar repr) shown texts ∧ out = "Process environment: ".toList ++ (", ".toList).intercalate texts ++ tail ∧
      ((skipped = 0 ∧ tail = []) ∨
       (skipped ≠ 0 ∧ ∃ n, decNumber n = some skipped ∧ tail = ", ... (skip ".toList ++ n ++ " vars)".toList)) := by
  obtain ⟨h1, h2, h3, h4⟩ := truncateEnv_spec limit env 0 (Nat.zero_le _)
  obtain ⟨texts, h5, h6⟩ := mapM_envText (repr := repr) (l := (truncateEnv limit 0 env).1) (fun v hv => h v (h1.subset hv))
  refine ⟨_, _, texts, if (truncateEnv limit 0 env).2 ≠ 0 then ", ... (skip ".toList ++ pyDec (truncateEnv limit 0 env).2 ++ " vars)".toList else [],
    _, ?_, h1, by simpa using h2, h3, by simpa using h4, h6, rfl, ?_⟩
  · unfold dumpEnv
    simp only []
    rw [h5]
  · by_cases h0 : (truncateEnv limit 0 env).2 = 0
    · exact Or.inl ⟨h0, if_neg (by simpa using h0)⟩
    · exact Or.inr ⟨h0, _, decNumber_pyDec _, if_pos h0⟩

example := C53_budget_partial (fun v => '\'' :: v ++ ['\'']) 8 ["A=1".toList, "LONG=12345".toList, "B=2".toList] (by decide)

/-- **C53 is false when a variable has no equals sign**: `TypeError` is raised and nothing is shown. -/
theorem C53_refuted : ¬ ∀ (repr : Str → Str) (limit : Nat) (env : List Str), 0 < limit → ∃ out, dumpEnv repr limit env = .ok out := by
  intro h
  obtain ⟨out, h⟩ := h id 10 ["A".toList] (by decide)
  exact absurd h (by
    have : dumpEnv id 10 ["A".toList] = .error .type := by decide +kernel
    rw [this]; simp)

example : dumpEnv (fun v => '\'' :: v ++ ['\'']) 8 ["A=1".toList, "LONG=12345".toList, "B=2".toList] =
    .ok "Process environment: A='1', B='2', ... (skip 1 vars)".toList := by decide +kernel

/-! ### C54 -/

/-- The first command word of a process: the first string of `cmdline`, or the program name in brackets if there is
none; `none` for a process that is gone. The files have no carriage return, and can be decoded. -/
inductive Word (fs : ProcFs) (pid : Int) : Option Str → Prop where
  | cmdline {t w : Str} : fs.cmdline pid = .text t → '\r' ∉ t → FirstString t w → Word fs pid (some w)
  | program {t : Str} {k : KStat} : (fs.cmdline pid = .missing ∨ fs.cmdline pid = .text []) → fs.stat pid = .text t → StatLine k t →
      '\r' ∉ k.comm → Word fs pid (some ('[' :: k.comm ++ [']']))
  | gone : (fs.cmdline pid = .missing ∨ fs.cmdline pid = .text []) → fs.stat pid = .missing → Word fs pid none

theorem readCmdline_word {space : Char → Bool} (hs : PySpace space) {fs : ProcFs} {pid : Int} {w : Option Str} (h : Word fs pid w) :
    (∀ w', w = some w' → ∃ ws, readCmdline space fs pid true = .ok (some (w' :: ws))) ∧
    (w = none → readCmdline space fs pid true = .ok none) := by
  cases h with
  | cmdline h1 h2 h3 =>
    obtain ⟨ws, hw⟩ := readProcList_first h3 h2
    refine ⟨fun w' hw' => ?_, fun h => by cases h⟩
    cases hw'
    refine ⟨ws, ?_⟩
    unfold readCmdline
    rw [h1, hw]
  | program h1 h2 h3 h4 =>
    refine ⟨fun w' hw' => ?_, fun h => by cases h⟩
    cases hw'
    refine ⟨[], ?_⟩
    unfold readCmdline
    rw [h2, readStat_line hs h3]
    simp only [newlines_id h4]
    rcases h1 with h1 | h1 <;> rw [h1] <;> rfl
  | gone h1 h2 =>
    refine ⟨fun w' hw' => (by cases hw'), fun _ => ?_⟩
    unfold readCmdline
    rw [h2]
    rcases h1 with h1 | h1 <;> rw [h1] <;> rfl

theorem searchNames_words {space : Char → Bool} (hs : PySpace space) {fs : ProcFs} {name : Str} {word : Int → Option Str}
    {p : Int → Bool} (hp : ∀ pid, p pid = true ↔ ∃ w, word pid = some w ∧ Matches name w) :
    ∀ pids : List Int, (∀ pid ∈ pids, Word fs pid (word pid)) → searchNames space fs name pids = (pids.filter p, none) := by
  intro pids
  induction pids with
  | nil => intro _; rfl
  | cons pid pids ih =>
    intro h
    have ih := ih (fun pid hpid => h pid (List.mem_cons_of_mem _ hpid))
    have hw := readCmdline_word hs (h pid (by simp))
    rw [searchNames, ih]
    cases hword : word pid with
    | none =>
      have hw := hw.2 hword
      have hpf : p pid = false := by
        cases hpp : p pid with
        | false => rfl
        | true =>
          obtain ⟨w, h1, _⟩ := (hp pid).1 hpp
          rw [hword] at h1; cases h1
      rw [hw, List.filter_cons, hpf]
      rfl
    | some w =>
      obtain ⟨ws, hw⟩ := hw.1 w hword
      rw [hw, List.filter_cons]
      simp only
      by_cases hm : Matches name w
      · rw [if_pos (matches_iff.1 hm), (hp pid).2 ⟨w, hword, hm⟩]
        rfl
      · rw [if_neg (fun h => hm (matches_iff.2 h))]
        have hpf : p pid = false := by
          cases hpp : p pid with
          | false => rfl
          | true =>
            obtain ⟨w', h1, h2⟩ := (hp pid).1 hpp
            rw [hword] at h1; cases h1
            exact absurd h2 hm
        rw [hpf]
        rfl

/-- **C54, when all files can be decoded and have no carriage return.** Exactly the processes whose first command
word matches are yielded, in listing order, and the search for one returns the first or raises `ProcError`. -/
theorem C54_search_partial {space : Char → Bool} (hs : PySpace space) {fs : ProcFs} {es : List (Option Int)}
    (he : List.Forall₂ Entry fs.listing es) {name : Str} {word : Int → Option Str}
    (hw : ∀ pid ∈ es.filterMap id, Word fs pid (word pid))
    {p : Int → Bool} (hp : ∀ pid, p pid = true ↔ ∃ w, word pid = some w ∧ Matches name w) :
    searchProcessesByName space fs name = ((es.filterMap id).filter p, none) ∧
    searchProcessByName space fs name = (match ((es.filterMap id).filter p).head? with
      | some pid => .ok pid
      | none => .error .proc) := by
  have h1 : searchProcessesByName space fs name = ((es.filterMap id).filter p, none) := by
    unfold searchProcessesByName readProcesses
    rw [entries_pids hs he]
    exact searchNames_words hs hp _ hw
  refine ⟨h1, ?_⟩
  unfold searchProcessByName
  rw [h1]
  cases (es.filterMap id).filter p <;> rfl

/-- Two processes; the command line of the first one is not valid UTF-8. -/
def badFs : ProcFs :=
  { listing := ["1".toList, "self".toList, "2".toList]
    cmdline := fun pid => if pid = 1 then .undecodable else .text "/usr/bin/ssh\x00host\x00".toList
    stat := fun _ => .missing }

/-- **C54 is false when the command line of another process cannot be decoded**: the search ends with
`UnicodeDecodeError` before the process that matches. -/
theorem C54_refuted : ∃ fs : ProcFs, fs.cmdline 2 = .text "/usr/bin/ssh\x00host\x00".toList ∧ "2".toList ∈ fs.listing ∧
    searchProcessesByName asciiSpace fs "ssh".toList = ([], some .value) ∧
    searchProcessByName asciiSpace fs "ssh".toList = .error .value :=
  ⟨badFs, by decide, by decide, by decide +kernel, by decide +kernel⟩

/-- Three processes: a program with a path, a kernel thread, and one that is gone. -/
def exFs : ProcFs :=
  { listing := ["1".toList, "self".toList, "42".toList, "7".toList]
    cmdline := fun pid => if pid = 1 then .text "/usr/bin/ssh\x00host\x00".toList else if pid = 42 then .text [] else .missing
    stat := fun pid => if pid = 42 then .text exStatLine else .missing }

def exWord (pid : Int) : Option Str :=
  if pid = 1 then some "/usr/bin/ssh".toList else if pid = 42 then some ("[a) (b]".toList) else none

example : searchProcessesByName asciiSpace exFs "ssh".toList = ([1], none) := by decide +kernel

example : searchProcessesByName asciiSpace exFs "ssh".toList = (([some 1, none, some 42, some 7].filterMap id).filter (· == 1), none) := by
  refine (C54_search_partial asciiSpace_ok (es := [some 1, none, some 42, some 7]) (word := exWord) ?_ ?_ ?_).1
  · exact .cons ⟨1, by decide +kernel, rfl⟩ (.cons ⟨'s', by decide, by decide, by decide⟩ (.cons ⟨42, by decide +kernel, rfl⟩
      (.cons ⟨7, by decide +kernel, rfl⟩ .nil)))
  · intro pid hpid
    have : pid = 1 ∨ pid = 42 ∨ pid = 7 := by simpa using hpid
    rcases this with rfl | rfl | rfl
    · exact .cmdline (t := "/usr/bin/ssh\x00host\x00".toList) rfl (by decide) ⟨by decide, by decide, Or.inr ⟨"host\x00".toList, by decide +kernel⟩⟩
    · exact .program (k := exStat) (t := exStatLine) (Or.inr rfl) rfl exStat_line (by decide)
    · exact .gone (Or.inl rfl) rfl
  · intro pid
    constructor
    · intro h
      have : pid = 1 := by simpa using h
      subst this
      exact ⟨_, rfl, Or.inr ⟨"/usr/bin".toList, by decide +kernel⟩⟩
    · rintro ⟨w, h1, h2⟩
      unfold exWord at h1
      by_cases hp : pid = 1
      · simpa using hp
      · rw [if_neg hp] at h1
        by_cases hq : pid = 42
        · rw [if_pos hq] at h1
          cases h1
          rw [matches_iff] at h2
          exact absurd h2 (by decide +kernel)
        · rw [if_neg hq] at h1; cases h1

end PT
