import Verif.Model.ProcInfo
import Verif.Spec.ProcInfo
import Verif.Props.Proc
import Verif.Lemmas.Format3

/-
C101 — information about a process; C102 — sizes, times and states below `/proc`.
-/

namespace PT
open Spec

/-! ## C101 -/

theorem decInt_pyDecInt_nat (n : Nat) : decNumber (pyDecInt (n : Int)) = some n := decNumber_pyDec n

/-- The state of a process, from a file as the kernel prints it. -/
theorem C101_state {space : Char → Bool} (hs : PySpace space) (pid : Nat) :
    (∃ num, decNumber num = some pid ∧ infoState space pid .missing = (["Process ID: ".toList ++ num], none)) ∧
    (∀ (k : KStat) (t : Str), StatLine k t → ∃ lines, infoState space pid (.text t) = (lines, none) ∧ StateLines pid k lines) := by
  refine ⟨⟨pyDec pid, decNumber_pyDec pid, rfl⟩, fun k t h => ?_⟩
  obtain ⟨r, h1, h2, -, h3, h4, -⟩ := C50_fields hs h
  refine ⟨_, by unfold infoState; rw [h1], pyDec pid, pyDecInt r.ppid, (match stateNames.lookup r.state with
    | some name => " (".toList ++ name ++ [')']
    | none => []), decNumber_pyDec pid, by rw [pyDecInt_decInt, h4], ?_, ?_⟩
  · rw [h3]
    intro w hw
    generalize k.state = st at hw
    simp only [stateWords, List.mem_cons, List.not_mem_nil, or_false, Prod.mk.injEq] at hw
    rcases hw with ⟨rfl, rfl⟩ | ⟨rfl, rfl⟩ | ⟨rfl, rfl⟩ | ⟨rfl, rfl⟩ | ⟨rfl, rfl⟩ <;> decide +kernel
  · rw [h3]
    generalize k.state = st
    cases stateNames.lookup [st] <;> simp

theorem isInt_nat {t : Str} {n : Nat} (h : decNumber t = some n) : IsInt t (n : Int) := Or.inl ⟨n, h, rfl⟩

theorem decNumber_no {t : Str} {n : Nat} (h : decNumber t = some n) {c : Char} (hc : isDec c = false) : c ∉ t := fun hm => by
  have := (decNumber_iff.1 ⟨n, h⟩).2 c hm
  rw [hc] at this
  cases this

theorem splitOn_cons_sep {sep : Char} {a : Str} (h : sep ∉ a) (b : Str) : splitOn sep (a ++ sep :: b) = a :: splitOn sep b := by
  induction a with
  | nil => simp [splitOn]
  | cons c a ih =>
    have hc : c ≠ sep := fun e => h (by rw [e]; exact List.mem_cons_self ..)
    have := ih fun hm => h (List.mem_cons_of_mem _ hm)
    rw [List.cons_append, splitOn, if_neg hc, this]

theorem idField_line {space : Char → Bool} (hs : PySpace space) {key : Str} (hk : key.length = 3) {k : KIds} {line : Str} (h : IdsLine key k line) :
    idField space line = .ok [(k.real : Int), k.effective, k.saved, k.fs] := by
  obtain ⟨a, b, c, d, ha, hb, hc, hd, rfl⟩ := h
  have hdrop : (key ++ ":\t".toList ++ a ++ '\t' :: b ++ '\t' :: c ++ '\t' :: d).drop 5 = a ++ '\t' :: (b ++ '\t' :: (c ++ '\t' :: d)) := by
    have : (key ++ ":\t".toList).length = 5 := by simp [hk]
    rw [show key ++ ":\t".toList ++ a ++ '\t' :: b ++ '\t' :: c ++ '\t' :: d = (key ++ ":\t".toList) ++ (a ++ '\t' :: (b ++ '\t' :: (c ++ '\t' :: d))) by simp,
      ← this, List.drop_left]
  have hn : ∀ {t : Str} {n : Nat}, decNumber t = some n → '\t' ∉ t := fun h => decNumber_no h (by decide)
  unfold idField
  rw [hdrop, splitOn_cons_sep (hn ha), splitOn_cons_sep (hn hb), splitOn_cons_sep (hn hc), splitOn_none (hn hd),
    mapM_int hs (.cons (isInt_nat ha) (.cons (isInt_nat hb) (.cons (isInt_nat hc) (.cons (isInt_nat hd) .nil))))]

theorem isPrefixOf_false {p l : Str} (h : ¬ p <+: l) : p.isPrefixOf l = false := by
  rw [Bool.eq_false_iff]
  exact fun e => h (List.isPrefixOf_iff_prefix.1 e)

theorem statusLoop_skip {space : Char → Bool} {ls : List Str} (h : ∀ l ∈ ls, ¬ "Uid:".toList <+: l ∧ ¬ "Gid:".toList <+: l) (rest : List Str)
    (u g : Option (List Int)) : statusLoop space (ls ++ rest) u g = statusLoop space rest u g := by
  induction ls with
  | nil => rfl
  | cons l ls ih =>
    have hl := h l (List.mem_cons_self ..)
    rw [List.cons_append, statusLoop, isPrefixOf_false hl.1, isPrefixOf_false hl.2]
    simp only [Bool.false_eq_true, if_false]
    exact ih fun x hx => h x (List.mem_cons_of_mem _ hx)

theorem idLine_text (title : Str) (k : KIds) : ∃ line, idLine title (some [(k.real : Int), k.effective, k.saved, k.fs]) = ([line], none) ∧ IdsText title k line := by
  refine ⟨_, rfl, pyDecInt k.real, decInt_pyDecInt_nat _, ?_⟩
  by_cases h : k.real = k.effective
  · left
    refine ⟨h, ?_⟩
    rw [if_neg (by simp [h]), List.append_nil]
  · right
    refine ⟨h, pyDecInt k.effective, decInt_pyDecInt_nat _, ?_⟩
    rw [if_pos (by exact_mod_cast h)]
    simp

theorem idsLine_chars {key : Str} {k : KIds} {line : Str} (h : IdsLine key k line) {c : Char} (hc : isDec c = false) (hk : c ∉ key) (h1 : c ≠ ':') (h2 : c ≠ '\t') :
    c ∉ line := by
  obtain ⟨x, y, z, w, hx, hy, hz, hw, rfl⟩ := h
  have e : ":\t".toList = [':', '\t'] := by decide
  rw [e]
  simp only [List.mem_append, List.mem_cons, List.not_mem_nil, or_false, not_or]
  exact ⟨⟨⟨⟨⟨hk, h1, h2⟩, decNumber_no hx hc⟩, h2, decNumber_no hy hc⟩, h2, decNumber_no hz hc⟩, h2, decNumber_no hw hc⟩

/-- Users and groups, from a file as the kernel prints it. -/
theorem C101_ids {space : Char → Bool} (hs : PySpace space) (user group : KIds) (t : Str) (h : StatusFile user group t) :
    ∃ u g, infoIds space (.text t) = ([u, g], none) ∧ IdsText "User".toList user u ∧ IdsText "Group".toList group g := by
  obtain ⟨l1, u, l2, g, l3, hu, hg, hl, rfl⟩ := h
  have hlines : ∀ l ∈ l1 ++ u :: l2 ++ g :: l3, '\n' ∉ l ∧ '\r' ∉ l := by
    intro l hm
    rw [List.append_assoc, List.cons_append, List.mem_append, List.mem_cons, List.mem_append, List.mem_cons] at hm
    rcases hm with h | rfl | h | rfl | h
    · exact ⟨(hl l (Or.inl h)).1, (hl l (Or.inl h)).2.1⟩
    · exact ⟨idsLine_chars hu (by decide) (by decide) (by decide) (by decide), idsLine_chars hu (by decide) (by decide) (by decide) (by decide)⟩
    · exact ⟨(hl l (Or.inr (Or.inl h))).1, (hl l (Or.inr (Or.inl h))).2.1⟩
    · exact ⟨idsLine_chars hg (by decide) (by decide) (by decide) (by decide), idsLine_chars hg (by decide) (by decide) (by decide) (by decide)⟩
    · exact ⟨(hl l (Or.inr (Or.inr h))).1, (hl l (Or.inr (Or.inr h))).2.1⟩
  have hr : '\r' ∉ (l1 ++ u :: l2 ++ g :: l3).flatMap (· ++ ['\n']) := by
    intro hm
    obtain ⟨l, h1, h2⟩ := List.mem_flatMap.1 hm
    rcases List.mem_append.1 h2 with h2 | h2
    · exact (hlines l h1).2 h2
    · exact absurd h2 (by decide)
  have hf : fileLines (newlines ((l1 ++ u :: l2 ++ g :: l3).flatMap (· ++ ['\n']))) = l1 ++ (u :: (l2 ++ g :: (l3 ++ []))) := by
    rw [newlines_id hr, fileLines_eq ⟨fun l h => (hlines l h).1, Or.inl rfl⟩]
    simp
  have hu' : "Uid:".toList.isPrefixOf u = true := by
    obtain ⟨x, y, z, w, -, -, -, -, rfl⟩ := hu
    rfl
  have hg' : "Uid:".toList.isPrefixOf g = false ∧ "Gid:".toList.isPrefixOf g = true := by
    obtain ⟨x, y, z, w, -, -, -, -, rfl⟩ := hg
    exact ⟨rfl, rfl⟩
  obtain ⟨ul, h1, h2⟩ := idLine_text "User".toList user
  obtain ⟨gl, h3, h4⟩ := idLine_text "Group".toList group
  refine ⟨ul, gl, ?_, h2, h4⟩
  unfold infoIds readFile
  simp only [hf]
  rw [statusLoop_skip fun l h => (hl l (Or.inl h)).2.2, statusLoop, if_pos hu', idField_line hs rfl hu]
  simp only []
  rw [statusLoop_skip fun l h => (hl l (Or.inr (Or.inl h))).2.2, statusLoop, if_neg (by rw [hg'.1]; decide), if_pos hg'.2, idField_line hs rfl hg]
  simp only []
  rw [statusLoop_skip fun l h => (hl l (Or.inr (Or.inr h))).2.2, statusLoop]
  simp only [h1, h3, Printing.andThen]
  rfl

/-- **C101, for variables with an equals sign and texts without carriage returns.** Everything that can be read about a process is shown, in a fixed order,
and a file that cannot be opened only leaves out its own lines. -/
theorem C101_info_partial {space : Char → Bool} (hs : PySpace space) (repr : Str → Str) (pid limit : Nat) (hlim : 0 < limit) (f : InfoFiles) (k : KStat)
    (args env : List Str) (user group : KIds)
    (h1 : f.stat = .missing ∨ ∃ t, f.stat = .text t ∧ StatLine k t)
    (h2 : f.cmdline = .missing ∨ ∃ t, f.cmdline = .text t ∧ NulList args t ∧ '\r' ∉ t)
    (h3 : f.environ = .missing ∨ ∃ t, f.environ = .text t ∧ NulList env t ∧ '\r' ∉ t) (he : ∀ v ∈ env, '=' ∈ v)
    (h5 : f.status = .missing ∨ ∃ t, f.status = .text t ∧ StatusFile user group t) :
    ∃ l1 l2 l3 l4 l5, dumpProcessInfo space repr pid limit f = (l1 ++ l2 ++ l3 ++ l4 ++ l5, none) ∧
      (f.stat = .missing → ∃ num, decNumber num = some pid ∧ l1 = ["Process ID: ".toList ++ num]) ∧
      (f.stat ≠ .missing → StateLines pid k l1) ∧
      (f.cmdline = .missing → l2 = []) ∧
      (f.cmdline ≠ .missing → ∃ t, QuotedList repr args t ∧ l2 = ["Process command line: ".toList ++ t]) ∧
      (f.environ = .missing → l3 = []) ∧
      (f.environ ≠ .missing → ∃ out, dumpEnv repr limit env = .ok out ∧ l3 = [out]) ∧
      (f.cwd = none → l4 = []) ∧ (∀ d, f.cwd = some d → l4 = ["Process working directory: ".toList ++ d]) ∧
      (f.status = .missing → l5 = []) ∧
      (f.status ≠ .missing → ∃ u g, l5 = [u, g] ∧ IdsText "User".toList user u ∧ IdsText "Group".toList group g) := by
  obtain ⟨l1, e1, p1, q1⟩ : ∃ l1, infoState space pid f.stat = (l1, none) ∧
      (f.stat = .missing → ∃ num, decNumber num = some pid ∧ l1 = ["Process ID: ".toList ++ num]) ∧ (f.stat ≠ .missing → StateLines pid k l1) := by
    rcases h1 with h | ⟨t, h, hk⟩
    · obtain ⟨⟨num, ha, hb⟩, -⟩ := C101_state hs pid
      rw [h]
      exact ⟨_, hb, fun _ => ⟨num, ha, rfl⟩, fun hn => absurd rfl hn⟩
    · obtain ⟨-, hb⟩ := C101_state hs pid
      obtain ⟨lines, hc, hd⟩ := hb k t hk
      rw [h]
      exact ⟨_, hc, fun e => (nomatch e), fun _ => hd⟩
  obtain ⟨l2, e2, p2, q2⟩ : ∃ l2, infoCommand repr f.cmdline = (l2, none) ∧ (f.cmdline = .missing → l2 = []) ∧
      (f.cmdline ≠ .missing → ∃ t, QuotedList repr args t ∧ l2 = ["Process command line: ".toList ++ t]) := by
    rcases h2 with h | ⟨t, h, ha, hb⟩
    · rw [h]
      exact ⟨[], rfl, fun _ => rfl, fun hn => absurd rfl hn⟩
    · rw [h]
      refine ⟨["Process command line: ".toList ++ reprList repr args], ?_, fun e => (nomatch e), fun _ => ⟨_, rfl, rfl⟩⟩
      unfold infoCommand
      rw [C52_exact_partial ha hb]
      rfl
  obtain ⟨l3, e3, p3, q3⟩ : ∃ l3, infoEnv repr limit f.environ = (l3, none) ∧ (f.environ = .missing → l3 = []) ∧
      (f.environ ≠ .missing → ∃ out, dumpEnv repr limit env = .ok out ∧ l3 = [out]) := by
    rcases h3 with h | ⟨t, h, ha, hb⟩
    · rw [h]
      exact ⟨[], rfl, fun _ => rfl, fun hn => absurd rfl hn⟩
    · obtain ⟨-, -, -, -, out, ho, -⟩ := C53_budget_partial repr limit env he
      rw [h]
      refine ⟨[out], ?_, fun e => (nomatch e), fun _ => ⟨_, ho, rfl⟩⟩
      unfold infoEnv
      rw [C52_exact_partial ha hb]
      simp only []
      rw [if_neg (by omega), ho]
      rfl
  obtain ⟨l4, e4, p4, q4⟩ : ∃ l4, infoCwd f.cwd = (l4, none) ∧ (f.cwd = none → l4 = []) ∧ (∀ d, f.cwd = some d → l4 = ["Process working directory: ".toList ++ d]) := by
    cases f.cwd with
    | none => exact ⟨[], rfl, fun _ => rfl, fun d h => (nomatch h)⟩
    | some d => exact ⟨_, rfl, fun h => (nomatch h), fun d' h => by cases h; rfl⟩
  obtain ⟨l5, e5, p5, q5⟩ : ∃ l5, infoIds space f.status = (l5, none) ∧ (f.status = .missing → l5 = []) ∧
      (f.status ≠ .missing → ∃ u g, l5 = [u, g] ∧ IdsText "User".toList user u ∧ IdsText "Group".toList group g) := by
    rcases h5 with h | ⟨t, h, hk⟩
    · rw [h]
      exact ⟨[], rfl, fun _ => rfl, fun hn => absurd rfl hn⟩
    · obtain ⟨u, g, ha, hb, hc⟩ := C101_ids hs user group t hk
      rw [h]
      exact ⟨_, ha, fun e => (nomatch e), fun _ => ⟨u, g, rfl, hb, hc⟩⟩
  refine ⟨l1, l2, l3, l4, l5, ?_, p1, q1, p2, q2, p3, q3, p4, q4, p5, q5⟩
  unfold dumpProcessInfo
  rw [e1, e2, e3, e4, e5]
  simp [Printing.andThen]

/-- The part that is lost: a variable without an equals sign ends the command with an exception before the directory and the users are shown. -/
theorem C101_refuted : ∃ f : InfoFiles, f.cwd = some "/".toList ∧
    dumpProcessInfo asciiSpace id 1 160 f = (["Process ID: 1".toList], some .type) :=
  ⟨⟨.missing, .missing, .text "A\x00".toList, some "/".toList, .missing⟩, rfl, by decide +kernel⟩

/-- A process that was stopped by a signal is said to be traced, and one that is stopped because it is traced gets no name. -/
theorem C101_state_refuted : stateNames.lookup [signalStop] = some "traced".toList ∧ stateNames.lookup [tracingStop] = none := by decide +kernel

/-! ## C102 -/

/-- Sizes are numbers of bytes: every number of pages times the size of a page, in order. -/
theorem C102_statm {space : Char → Bool} (hs : PySpace space) (page : Nat) (ns : List Nat) (t : Str) (h : NumberLine ns t) (hr : '\r' ∉ t) :
    readStatm space page (.text t) = .ok (ns.map fun n => ((n * page : Nat) : Int)) := by
  obtain ⟨w, ws, n, ns', rfl, hw, hws, rfl⟩ := h
  have hws' : List.Forall₂ IsInt ws (ns'.map fun (n : Nat) => (n : Int)) := by
    clear hr
    induction hws with
    | nil => exact .nil
    | cons h _ ih => exact .cons h ih
  have hsolid : ∀ x ∈ ws, x ≠ [] ∧ ∀ c ∈ x, space c = false := by
    refine forall₂_left hws' fun a b hab => ?_
    exact ⟨(hab.chars hs).1, fun c hc => ((hab.chars hs).2 c hc).1⟩
  unfold readStatm readFile
  simp only []
  rw [newlines_id hr, List.append_assoc, splitWs_words hs hsolid (hw.chars hs).1 (fun c hc => ((hw.chars hs).2 c hc).1), mapM_int hs (.cons hw hws')]
  simp

/-- A link is read as it is; if it cannot be read, this is `ProcError`. -/
theorem C102_link : (∀ t, readLink (some t) = .ok t) ∧ readLink none = .error .proc := ⟨fun _ => rfl, rfl⟩

/-- The time since the boot. -/
theorem C102_uptime {space : Char → Bool} (hs : PySpace space) (n : Nat) (t : Str) (h : UptimeFile n t) (hr : '\r' ∉ t) :
    getUptime space (.text t) = .ok (n * 10000) := by
  obtain ⟨whole, part, rest, a, b, ha, hb, hl, rfl, rfl⟩ := h
  have hwd := (decNumber_iff.1 ⟨a, ha⟩)
  have hpd := (decNumber_iff.1 ⟨b, hb⟩)
  have hdot : space '.' = false := hs.printable '.' (by decide) (by decide)
  have hw : ∀ c ∈ whole ++ '.' :: part, space c = false := by
    intro c hc
    rcases List.mem_append.1 hc with hc | hc
    · exact isDec_printable hs (hwd.2 c hc)
    · rcases List.mem_cons.1 hc with rfl | hc
      · exact hdot
      · exact isDec_printable hs (hpd.2 c hc)
  have hne : whole ++ '.' :: part ≠ [] := by simp
  -- stripping keeps the first word
  obtain ⟨tail, hstrip⟩ : ∃ tail, strip space (whole ++ '.' :: part ++ ' ' :: rest) = whole ++ '.' :: part ++ tail ∧ (tail = [] ∨ ∃ u, tail = ' ' :: u) := by
    unfold strip
    have hd : (whole ++ '.' :: part ++ ' ' :: rest).dropWhile space = whole ++ '.' :: part ++ ' ' :: rest := by
      cases whole with
      | nil => exact absurd rfl hwd.1
      | cons c w => rw [List.cons_append, List.cons_append, List.dropWhile_cons_of_neg (by rw [hw c (by simp)]; decide)]
    rw [hd, List.reverse_append]
    have key : ∀ r : Str, ∃ tail, ((r.reverse ++ [' ']) ++ (whole ++ '.' :: part).reverse).dropWhile space = tail.reverse ++ (whole ++ '.' :: part).reverse ∧
        (tail = [] ∨ ∃ u, tail = ' ' :: u) := by
      intro r
      have hlast : (whole ++ '.' :: part).reverse.dropWhile space = (whole ++ '.' :: part).reverse := by
        cases hrev : (whole ++ '.' :: part).reverse with
        | nil => rfl
        | cons c w => rw [List.dropWhile_cons_of_neg (by rw [hw c (List.mem_reverse.1 (by rw [hrev]; exact List.mem_cons_self ..))]; decide)]
      rw [List.dropWhile_append]
      by_cases hall : ((r.reverse ++ [' ']).dropWhile space).isEmpty
      · rw [if_pos hall, hlast]
        exact ⟨[], rfl, Or.inl rfl⟩
      · rw [if_neg hall]
        refine ⟨((r.reverse ++ [' ']).dropWhile space).reverse, by rw [List.reverse_reverse], Or.inr ?_⟩
        rw [List.dropWhile_append] at hall ⊢
        by_cases h2 : (r.reverse.dropWhile space).isEmpty
        · rw [if_pos h2, List.dropWhile_cons_of_pos hs.blank] at hall
          exact absurd rfl hall
        · rw [if_neg h2]
          exact ⟨(r.reverse.dropWhile space).reverse, by simp⟩
    obtain ⟨tail, h1, h2⟩ := key rest
    refine ⟨tail, ?_, h2⟩
    rw [List.reverse_cons, h1, List.reverse_append, List.reverse_reverse, List.reverse_reverse]
  have hsplit : ∃ ws, splitWs space (strip space (whole ++ '.' :: part ++ ' ' :: rest)) = (whole ++ '.' :: part) :: ws := by
    rcases hstrip.2 with h | ⟨u, h⟩
    · refine ⟨[], ?_⟩
      rw [hstrip.1, h, List.append_nil]
      unfold splitWs
      have : ∀ w : Str, (∀ c ∈ w, space c = false) → splitOnP space w = [w] := by
        intro w
        induction w with
        | nil => intro _; rfl
        | cons c w ih =>
          intro h
          rw [splitOnP, if_neg (by rw [h c (by simp)]; decide), ih fun x hx => h x (List.mem_cons_of_mem _ hx)]
      rw [this _ hw]
      simp
    · refine ⟨splitWs space u, ?_⟩
      rw [hstrip.1, h, splitWs_word hne hw hs.blank]
  obtain ⟨ws, hsplit⟩ := hsplit
  have hmicro : pyMicroseconds (whole ++ '.' :: part) = some (a * 1000000 + b * 10000) := by
    unfold pyMicroseconds
    rw [split1_found (decNumber_no ha (by decide))]
    simp only []
    rw [if_pos ⟨hwd.1, List.all_eq_true.2 hwd.2, hl, List.all_eq_true.2 hpd.2⟩, natOfDec_eq ha, natOfDec_eq hb]
  unfold getUptime readProc
  simp only []
  rw [newlines_id hr, hsplit]
  simp only [hmicro]
  have : a * 1000000 + b * 10000 = (100 * a + b) * 10000 := by omega
  rw [this]

theorem bootLoop_skip {space : Char → Bool} {offset0 : Int} {ls : List Str} (h : ∀ l ∈ ls, ¬ "btime ".toList <+: l) (rest : List Str) :
    bootLoop space offset0 (ls ++ rest) = bootLoop space offset0 rest := by
  induction ls with
  | nil => rfl
  | cons l ls ih =>
    rw [List.cons_append, bootLoop, isPrefixOf_false (h l (List.mem_cons_self ..))]
    simp only [Bool.false_eq_true, if_false]
    exact ih fun x hx => h x (List.mem_cons_of_mem _ hx)

/-- The date of the boot: the seconds of the file `stat`, moved by the distance between local time and UTC at the beginning of 1970. The file is read once:
later calls give the same date whatever the file. -/
theorem C102_boot {space : Char → Bool} (hs : PySpace space) (offset0 : Int) (n : Nat) (t : Str) (h : BootFile n t) (hr : '\r' ∉ t)
    (h1 : n ≤ 253402300799) (h2 : 0 ≤ n + offset0) (h3 : n + offset0 ≤ 253402300799) :
    ∃ cache, getSystemBoot space offset0 (.text t) none = (.ok (n + offset0), cache) ∧
      ∀ f, getSystemBoot space offset0 f cache = (.ok (n + offset0), cache) := by
  obtain ⟨before, num, after, hn, hb, ha, rfl⟩ := h
  refine ⟨some (n + offset0), ?_, fun f => rfl⟩
  have hd := (decNumber_iff.1 ⟨n, hn⟩)
  have hlines : ∀ l ∈ before ++ ("btime ".toList ++ num) :: after, '\n' ∉ l := by
    intro l hm
    rcases List.mem_append.1 hm with h | h
    · exact (hb l h).1
    · rcases List.mem_cons.1 h with rfl | h
      · intro hc
        rcases List.mem_append.1 hc with hc | hc
        · exact absurd hc (by decide)
        · exact decNumber_no hn (by decide) hc
      · exact ha l h
  have hdrop : ("btime ".toList ++ num).drop 6 = num := List.drop_left (l₁ := "btime ".toList)
  have hts : timestampUNIX offset0 n true = .ok (n + offset0) := by
    unfold timestampUNIX dateInRange
    rw [if_neg (by simp; omega), if_pos rfl, if_pos (by simp; omega)]
  unfold getSystemBoot readProc
  simp only []
  rw [newlines_id hr, fileLines_eq ⟨hlines, Or.inl rfl⟩, bootLoop_skip fun l h => (hb l h).2, bootLoop,
    if_pos (List.isPrefixOf_iff_prefix.2 (List.prefix_append _ _)), hdrop, pyInt_plain hs (isInt_nat hn)]
  simp only [hts]

/-- Without the line, or without the file, this is `ProcError` and the next call reads again. -/
theorem C102_boot_missing {space : Char → Bool} (offset0 : Int) :
    getSystemBoot space offset0 .missing none = (.error .proc, none) ∧
    ∀ (t : Str) (lines : List Str), '\r' ∉ t → FileLines t lines → (∀ l ∈ lines, ¬ "btime ".toList <+: l) →
      getSystemBoot space offset0 (.text t) none = (.error .proc, none) := by
  refine ⟨rfl, fun t lines hr hl hn => ?_⟩
  unfold getSystemBoot readProc
  simp only []
  rw [newlines_id hr, fileLines_eq hl]
  have := bootLoop_skip (space := space) (offset0 := offset0) hn []
  rw [List.append_nil] at this
  rw [this]
  rfl

/-- The date is not the local time of the boot where clocks are moved: the distance of 1970 is used. In London the clocks were one hour ahead of UTC then. -/
theorem C102_boot_refuted : ¬ ∀ (offset : Int → Int), (∀ n, -86400 < offset n ∧ offset n < 86400) → ∀ n : Nat, n < 2147483648 → ∀ t, BootFile n t → '\r' ∉ t →
    (getSystemBoot asciiSpace (offset 0) (.text t) none).1 = .ok (n + offset n) := by
  intro h
  have hb : BootFile 1700000000 "cpu 1\nbtime 1700000000\nprocesses 7\n".toList :=
    ⟨["cpu 1".toList], "1700000000".toList, ["processes 7".toList], by decide +kernel, by decide, by decide, by decide +kernel⟩
  have := h (fun n => if n < 57722400 then 3600 else 0) (fun n => by split <;> omega) 1700000000 (by decide) _ hb (by decide)
  exact absurd this (by decide +kernel)

/-- In UTC the date of a number of seconds is that many seconds after the beginning of 1970. -/
theorem C102_timestamp_partial (offset0 value : Int) (h1 : 0 ≤ value) (h2 : value ≤ 2147483647) : timestampUNIX offset0 value false = .ok value := by
  unfold timestampUNIX dateInRange
  rw [if_neg (by simp; omega), if_neg (by decide)]

/-- Values outside 0..2147483647 are not refused, though the description of `timestampUNIX` says so. -/
theorem C102_timestamp_refuted : ¬ ∀ offset0 value : Int, (value < 0 ∨ 2147483647 < value) → timestampUNIX offset0 value false = .error .value := by
  intro h
  exact absurd (h 0 2147483648 (by decide)) (by decide)

/-- `isTraced` looks at the letter of the state. -/
theorem C102_traced_partial {space : Char → Bool} (hs : PySpace space) (k : KStat) (t : Str) (h : StatLine k t) :
    isTraced space (.text t) = .ok (decide (k.state = signalStop)) ∧ isTraced space .missing = .error .proc := by
  obtain ⟨r, h1, -, -, h3, -⟩ := C50_fields hs h
  unfold isTraced
  rw [h1]
  refine ⟨?_, rfl⟩
  simp only [h3]
  by_cases hk : k.state = 'T' <;> simp [signalStop, hk]

/-- It is false for a traced process that is stopped, and true for a process that was stopped by a signal and is not traced. -/
theorem C102_traced_refuted : ∃ k k' : KStat, ∃ t t' : Str, StatLine k t ∧ k.state = tracingStop ∧ isTraced asciiSpace (.text t) = .ok false ∧
    StatLine k' t' ∧ k'.state = signalStop ∧ isTraced asciiSpace (.text t') = .ok true := by
  have h1 : StatLine { exStat with state := 't' } _ :=
    statLine_mk "42".toList exTexts (by decide) (Or.inl ⟨42, by decide +kernel, rfl⟩) (exNumbers _ rfl) rfl
  have h2 : StatLine { exStat with state := 'T' } _ :=
    statLine_mk "42".toList exTexts (by decide) (Or.inl ⟨42, by decide +kernel, rfl⟩) (exNumbers _ rfl) rfl
  refine ⟨_, _, _, _, h1, rfl, ?_, h2, rfl, ?_⟩
  · rw [(C102_traced_partial asciiSpace_ok _ _ h1).1]; decide
  · rw [(C102_traced_partial asciiSpace_ok _ _ h2).1]; decide

theorem exNumberLine : NumberLine [12, 3] "12 3\n".toList :=
  ⟨"12".toList, ["3".toList], 12, [3], rfl, Or.inl ⟨12, by decide +kernel, rfl⟩, .cons (Or.inl ⟨3, by decide +kernel, rfl⟩) .nil, by decide +kernel⟩

theorem exUptime : UptimeFile 35073547 "350735.47 234388.90\n".toList :=
  ⟨"350735".toList, "47".toList, "234388.90\n".toList, 350735, 47, by decide +kernel, by decide +kernel, by decide, by decide, by decide +kernel⟩
example : getUptime asciiSpace (.text "350735.47 234388.90\n".toList) = .ok 350735470000 := by decide +kernel
example : readStatm asciiSpace 4096 (.text "12 3\n".toList) = .ok [49152, 12288] := by decide +kernel

theorem exStatusFile : StatusFile ⟨1000, 0, 0, 0⟩ ⟨5, 5, 5, 5⟩ "Name:\tsu\nUid:\t1000\t0\t0\t0\nGid:\t5\t5\t5\t5\n".toList :=
  ⟨["Name:\tsu".toList], _, [], _, [], ⟨"1000".toList, "0".toList, "0".toList, "0".toList, by decide +kernel, by decide +kernel, by decide +kernel, by decide +kernel, rfl⟩,
    ⟨"5".toList, "5".toList, "5".toList, "5".toList, by decide +kernel, by decide +kernel, by decide +kernel, by decide +kernel, rfl⟩,
    (by rintro l (h | h | h) <;> first | (rw [List.mem_singleton.1 h]; decide) | cases h), by decide +kernel⟩

example := C101_state asciiSpace_ok 42

example := C101_ids asciiSpace_ok ⟨1000, 0, 0, 0⟩ ⟨5, 5, 5, 5⟩ _ exStatusFile

example := C101_info_partial asciiSpace_ok id 42 160 (by decide) ⟨.text exStatLine, .text "ls\x00-l\x00".toList, .text "A=1\x00".toList, some "/tmp".toList,
    .text "Name:\tsu\nUid:\t1000\t0\t0\t0\nGid:\t5\t5\t5\t5\n".toList⟩ exStat ["ls".toList, "-l".toList] ["A=1".toList] ⟨1000, 0, 0, 0⟩ ⟨5, 5, 5, 5⟩
  (.inr ⟨_, rfl, exStat_line⟩) (.inr ⟨_, rfl, ⟨by decide, by decide +kernel⟩, by decide⟩) (.inr ⟨_, rfl, ⟨by decide, by decide +kernel⟩, by decide⟩) (by decide)
  (.inr ⟨_, rfl, exStatusFile⟩)

example := C102_statm asciiSpace_ok 4096 [12, 3] _ exNumberLine (by decide)

example := C102_uptime asciiSpace_ok 35073547 _ exUptime (by decide)

example := C102_boot asciiSpace_ok 3600 1700000000 "cpu 1 2\nbtime 1700000000\nctxt 5\n".toList
  ⟨["cpu 1 2".toList], "1700000000".toList, ["ctxt 5".toList], by decide +kernel, by simp, by simp, by decide +kernel⟩ (by decide) (by decide) (by decide) (by decide)

example := C102_timestamp_partial (-3600) 1700000000 (by decide) (by decide)

example := C102_traced_partial asciiSpace_ok exStat _ exStat_line

example : dumpProcessInfo asciiSpace id 42 160 ⟨.text exStatLine, .text "ls\x00-l\x00".toList, .text "A=1\x00".toList, some "/tmp".toList,
      .text "Name:\tsu\nUid:\t1000\t0\t0\t0\nGid:\t5\t5\t5\t5\n".toList⟩ =
    (["Process ID: 42 (parent: 1)".toList, "Process state: S (sleeping)".toList, "Process command line: [ls, -l]".toList, "Process environment: A=1".toList,
      "Process working directory: /tmp".toList, "User identifier: 1000 (effective: 0)".toList, "Group identifier: 5".toList], none) := by decide +kernel

end PT
