import Verif.Spec.Classes
import Verif.Model.Classes
import Verif.Lemmas.Strace2
import Verif.Lemmas.ArgText
import Verif.Props.Strace

/-! C123: the classes of calls that `--filename` and `--socket` select. -/

namespace PT

open Spec

/-- Is a call shown with these options? -/
def shownWith (cpu : CallCpu) (space : Char → Bool) (file socket : Bool) (regs : String → Nat) : Option Bool :=
  (onlyFilter (straceTables cpu) space ⟨none, file, socket⟩).map fun only => !ignoreSyscall only none (readSyscall cpu regs).toList

private def pathNames : List String :=
  (prototypes.filter fun p => p.2.2.any fun a => Tables.filenameArguments.contains a.2).map Prod.fst

private theorem path_iff (name : String) : name ∈ pathNames ↔ name ∈ pathCalls ∧ name ∉ pathMissed :=
  ⟨fun h => (by decide +kernel : ∀ n ∈ pathNames, n ∈ pathCalls ∧ n ∉ pathMissed) name h,
   fun h => (by decide +kernel : ∀ n ∈ pathCalls, n ∉ pathMissed → n ∈ pathNames) name h.1 h.2⟩

private theorem i386_networks : ∀ p ∈ Tables.i386, (p.2 ∈ Tables.i386Socket ↔ p.2 ∈ networkCalls) := by decide +kernel

private theorem cpu_networks : ∀ cpu ∈ [cpuX86_64, cpuPowerpc32, cpuPowerpc64, cpuAarch64, cpuRiscv32, cpuRiscv64],
    ∀ p ∈ cpu.names.getD [], (p.2 ∈ cpu.sockets ↔ p.2 ∈ networkCalls ∧ p.2 ∉ networkMissed) := by
  decide +kernel

/-- A name of the tables of this file contains no `<`. -/
private theorem no_bracket : ∀ name ∈ networkCalls ++ callCpus.flatMap CallCpu.sockets, '<' ∉ name.toList := by
  decide +kernel

private theorem toList_mem (l : List String) (x : String) : x.toList ∈ l.map String.toList ↔ x ∈ l := by
  constructor
  · intro h
    obtain ⟨y, hy, h⟩ := List.mem_map.1 h
    rwa [← String.toList_inj.1 h]
  · exact List.mem_map_of_mem

/-- The name of a call: from the table or with brackets. -/
private theorem name_cases (cpu : CallCpu) (regs : String → Nat) :
    (∃ n, (n, readSyscall cpu regs) ∈ cpu.names.getD []) ∨ '<' ∈ (readSyscall cpu regs).toList := by
  unfold readSyscall
  cases h : (cpu.names.getD []).lookup (regs cpu.number) with
  | some name => exact Or.inl ⟨regs cpu.number, mem_of_lookup h⟩
  | none =>
    refine Or.inr ?_
    simp only [String.toList_append]
    exact List.mem_append_left _ (List.mem_append_left _ (by decide))

private theorem selected_iff (cpu : CallCpu) (space : Char → Bool) (file socket : Bool) (name : String) :
    Selected (straceTables cpu) space ⟨none, file, socket⟩ name.toList ↔
      file = true ∧ name ∈ pathNames ∨ socket = true ∧ name ∈ cpu.sockets := by
  unfold Selected
  constructor
  · rintro (⟨t, _, h, _⟩ | ⟨hf, args, hp, a, ha, hm⟩ | ⟨hs, hm⟩)
    · cases h
    · refine Or.inl ⟨hf, ?_⟩
      obtain ⟨p, hp, he⟩ := List.mem_map.1 hp
      injection he with h1 h2
      refine List.mem_map.2 ⟨p, List.mem_filter.2 ⟨hp, ?_⟩, String.toList_inj.1 h1⟩
      rw [← h2] at ha
      obtain ⟨b, hb, he⟩ := List.mem_map.1 ha
      rw [← he] at hm
      exact List.any_eq_true.2 ⟨b, hb, List.contains_iff_mem.2 ((toList_mem _ _).1 hm)⟩
    · exact Or.inr ⟨hs, (toList_mem _ _).1 hm⟩
  · rintro (⟨hf, hm⟩ | ⟨hs, hm⟩)
    · obtain ⟨p, hp, he⟩ := List.mem_map.1 hm
      obtain ⟨hp, ha⟩ := List.mem_filter.1 hp
      obtain ⟨a, ha, hm⟩ := List.any_eq_true.1 ha
      refine Or.inr (Or.inl ⟨hf, p.2.2.map fun a => a.2.toList, ?_, a.2.toList, List.mem_map.2 ⟨a, ha, rfl⟩, ?_⟩)
      · exact List.mem_map.2 ⟨p, hp, by rw [he]⟩
      · exact (toList_mem _ _).2 (List.contains_iff_mem.1 hm)
    · exact Or.inr (Or.inr ⟨hs, (toList_mem _ _).2 hm⟩)

private theorem shownWith_iff (cpu : CallCpu) (space : Char → Bool) (file socket : Bool) (regs : String → Nat)
    (hne : ∃ name : String, file = true ∧ name ∈ pathNames ∨ socket = true ∧ name ∈ cpu.sockets) :
    ∃ b, shownWith cpu space file socket regs = some b ∧ (b = true ↔
      file = true ∧ readSyscall cpu regs ∈ pathNames ∨ socket = true ∧ readSyscall cpu regs ∈ cpu.sockets) := by
  obtain ⟨only, ho⟩ : ∃ only, onlyFilter (straceTables cpu) space ⟨none, file, socket⟩ = some only := ⟨_, rfl⟩
  refine ⟨!ignoreSyscall only none (readSyscall cpu regs).toList, by rw [shownWith, ho]; rfl, ?_⟩
  have hm := onlyFilter_mem _ _ _ _ ho
  rw [← selected_iff cpu space, ← hm]
  obtain ⟨name, hn⟩ := hne
  have h1 := (hm name.toList).2 ((selected_iff cpu space file socket name).2 hn)
  have h2 : only.isEmpty = false := by
    cases only with
    | nil => cases h1
    | cons _ _ => rfl
  rw [← List.contains_iff_mem]
  unfold ignoreSyscall
  rw [h2]
  cases only.contains (readSyscall cpu regs).toList <;> simp

/-- **C123** `--filename` shows the calls with a path name, on every CPU, except those of a fixed list. -/
theorem C123_file_partial (cpu : CallCpu) (space : Char → Bool) (regs : String → Nat) :
    ∃ b, shownWith cpu space true false regs = some b ∧
      (b = true ↔ readSyscall cpu regs ∈ pathCalls ∧ readSyscall cpu regs ∉ pathMissed) := by
  obtain ⟨b, h1, h2⟩ := shownWith_iff cpu space true false regs ⟨"open", Or.inl ⟨rfl, by decide +kernel⟩⟩
  refine ⟨b, h1, h2.trans ?_⟩
  have : (true = true ∧ readSyscall cpu regs ∈ pathNames ∨ false = true ∧ readSyscall cpu regs ∈ cpu.sockets) ↔
      readSyscall cpu regs ∈ pathNames := by simp
  rw [this]
  exact path_iff _

/-- **C123** `--socket` shows the calls of the socket interface except those of a fixed list, on the CPUs other than i386. -/
theorem C123_socket_partial (cpu : CallCpu) (hc : cpu ∈ [cpuX86_64, cpuPowerpc32, cpuPowerpc64, cpuAarch64, cpuRiscv32, cpuRiscv64])
    (space : Char → Bool) (regs : String → Nat) :
    ∃ b, shownWith cpu space false true regs = some b ∧
      (b = true ↔ readSyscall cpu regs ∈ networkCalls ∧ readSyscall cpu regs ∉ networkMissed) := by
  have hs : "socket" ∈ cpu.sockets := by
    revert cpu
    decide +kernel
  obtain ⟨b, h1, h2⟩ := shownWith_iff cpu space false true regs ⟨"socket", Or.inr ⟨rfl, hs⟩⟩
  refine ⟨b, h1, h2.trans ?_⟩
  have : (false = true ∧ readSyscall cpu regs ∈ pathNames ∨ true = true ∧ readSyscall cpu regs ∈ cpu.sockets) ↔
      readSyscall cpu regs ∈ cpu.sockets := by simp
  rw [this]
  have hc' : cpu ∈ callCpus := by
    simp only [callCpus, List.mem_cons, List.not_mem_nil, or_false] at hc ⊢
    tauto
  rcases name_cases cpu regs with ⟨n, hn⟩ | hn
  · exact cpu_networks cpu hc _ hn
  · constructor
    · intro h
      refine absurd hn (no_bracket _ (List.mem_append_right _ (List.mem_flatMap.2 ⟨cpu, hc', h⟩)))
    · exact fun h => absurd hn (no_bracket _ (by simp only [List.mem_append]; tauto))

example := C123_socket_partial cpuAarch64 (by simp) (· == ' ') (fun _ => 203)

/-- **C123** On i386 `--socket` shows exactly the calls of the socket interface: there all of them are sub-calls of `socketcall`. -/
theorem C123_socket_i386 (space : Char → Bool) (regs : String → Nat) :
    ∃ b, shownWith cpuI386 space false true regs = some b ∧ (b = true ↔ readSyscall cpuI386 regs ∈ networkCalls) := by
  obtain ⟨b, h1, h2⟩ := shownWith_iff cpuI386 space false true regs ⟨"socketcall", Or.inr ⟨rfl, by decide⟩⟩
  refine ⟨b, h1, h2.trans ?_⟩
  have : (false = true ∧ readSyscall cpuI386 regs ∈ pathNames ∨ true = true ∧ readSyscall cpuI386 regs ∈ cpuI386.sockets) ↔
      readSyscall cpuI386 regs ∈ cpuI386.sockets := by simp
  rw [this]
  rcases name_cases cpuI386 regs with ⟨n, hn⟩ | hn
  · exact i386_networks _ hn
  · constructor
    · intro h
      refine absurd hn (no_bracket _ (List.mem_append_right _ (List.mem_flatMap.2 ⟨cpuI386, by simp [callCpus], h⟩)))
    · exact fun h => absurd hn (no_bracket _ (by simp only [List.mem_append]; tauto))

/-- **C123** With both options a call is shown iff one of them shows it. -/
theorem C123_both (cpu : CallCpu) (hc : cpu ∈ callCpus) (space : Char → Bool) (regs : String → Nat) :
    ∃ f s, shownWith cpu space true false regs = some f ∧ shownWith cpu space false true regs = some s ∧
      shownWith cpu space true true regs = some (f || s) := by
  have hs : cpu.sockets ≠ [] := by
    simp only [callCpus, List.mem_cons, List.not_mem_nil, or_false] at hc
    rcases hc with rfl | rfl | rfl | rfl | rfl | rfl | rfl <;> exact List.cons_ne_nil _ _
  obtain ⟨x, hx⟩ := List.exists_mem_of_ne_nil _ hs
  obtain ⟨f, h1, h2⟩ := shownWith_iff cpu space true false regs ⟨"open", Or.inl ⟨rfl, by decide +kernel⟩⟩
  obtain ⟨s, h3, h4⟩ := shownWith_iff cpu space false true regs ⟨x, Or.inr ⟨rfl, hx⟩⟩
  obtain ⟨b, h5, h6⟩ := shownWith_iff cpu space true true regs ⟨x, Or.inr ⟨rfl, hx⟩⟩
  refine ⟨f, s, h1, h3, ?_⟩
  rw [h5]
  congr 1
  rw [Bool.eq_iff_iff, h6, Bool.or_eq_true, h2, h4]
  simp

example := C123_both cpuX86_64 (by simp [callCpus]) (· == ' ') (fun _ => 42)

/-- Registers of a call with this number on x86_64. -/
private def withNumber (n : Nat) : String → Nat := fun r => if r = "orig_rax" then n else 0

/-- **C123** is false in full: `--filename` does not show `openat2` and `mount` on x86_64. -/
theorem C123_file_refuted (space : Char → Bool) : ∃ regs regs', readSyscall cpuX86_64 regs = "openat2" ∧
    readSyscall cpuX86_64 regs' = "mount" ∧ "openat2" ∈ pathCalls ∧ "mount" ∈ pathCalls ∧
    shownWith cpuX86_64 space true false regs = some false ∧ shownWith cpuX86_64 space true false regs' = some false := by
  have h1 : readSyscall cpuX86_64 (withNumber 437) = "openat2" := by decide +kernel
  have h2 : readSyscall cpuX86_64 (withNumber 165) = "mount" := by decide +kernel
  refine ⟨withNumber 437, withNumber 165, h1, h2, by decide +kernel, by decide +kernel, ?_, ?_⟩
  · obtain ⟨b, h, hb⟩ := C123_file_partial cpuX86_64 space (withNumber 437)
    rw [h1] at hb
    cases b with
    | false => exact h
    | true => exact absurd (by decide +kernel : "openat2" ∈ pathMissed) (hb.1 rfl).2
  · obtain ⟨b, h, hb⟩ := C123_file_partial cpuX86_64 space (withNumber 165)
    rw [h2] at hb
    cases b with
    | false => exact h
    | true => exact absurd (by decide +kernel : "mount" ∈ pathMissed) (hb.1 rfl).2

/-- **C123** is false in full: `--socket` does not show `accept4` on x86_64. -/
theorem C123_socket_refuted (space : Char → Bool) : ∃ regs, readSyscall cpuX86_64 regs = "accept4" ∧ "accept4" ∈ networkCalls ∧
    shownWith cpuX86_64 space false true regs = some false := by
  have h1 : readSyscall cpuX86_64 (withNumber 288) = "accept4" := by decide +kernel
  refine ⟨withNumber 288, h1, by decide +kernel, ?_⟩
  obtain ⟨b, h, hb⟩ := C123_socket_partial cpuX86_64 (by simp) space (withNumber 288)
  rw [h1] at hb
  cases b with
  | false => exact h
  | true => exact absurd (by decide +kernel : "accept4" ∈ networkMissed) (hb.1 rfl).2

/-- **C123** The names of sub-calls of `socketcall` are no help on i386: the filter sees the name before the replacement, so that a selection by
such names shows nothing, although the call is displayed under that name. -/
theorem C123_subcall_refuted : (∃ (regs : String → Nat) (args : List SysArg), argsEnter (σ := Unit) cpuI386 4 true (fun _ => Py.pure 0)
      (fun _ _ => []) regs () = (.ok ⟨"connect", "long", args⟩, ())) ∧
    ∀ regs, ignoreSyscall ["connect".toList] none (readSyscall cpuI386 regs).toList = true := by
  refine ⟨⟨fun r => if r = "orig_eax" then 102 else if r = "ebx" then 3 else 4096, _, rfl⟩, fun regs => ?_⟩
  have hne : readSyscall cpuI386 regs ≠ "connect" := by
    intro he
    rcases name_cases cpuI386 regs with ⟨n, hn⟩ | hn
    · rw [he] at hn
      exact absurd rfl ((by decide +kernel : ∀ p ∈ Tables.i386, p.2 ≠ "connect") _ hn)
    · rw [he] at hn
      exact absurd hn (by decide)
  unfold ignoreSyscall
  have : (["connect".toList] : List Str).contains (readSyscall cpuI386 regs).toList = false := by
    rw [Bool.eq_false_iff]
    intro h
    have := List.contains_iff_mem.1 h
    exact hne (String.toList_inj.1 (List.mem_singleton.1 this))
  rw [this]
  rfl

/-- The names of the tables are made of letters, digits and `_`. -/
private theorem table_chars : ∀ cpu ∈ callCpus, ∀ p ∈ cpu.names.getD [], ∀ c ∈ p.2.toList, c = '_' ∨ c.isAlphanum = true := by
  decide +kernel

/-- **C123** `--syscalls` with names of calls of this CPU shows exactly those. -/
theorem C123_names (cpu : CallCpu) (hc : cpu ∈ callCpus) (space : Char → Bool) (hsp : ∀ c, space c = true → c ≠ '_' ∧ c.isAlphanum = false)
    (names : List String) (hne : names ≠ []) (hn : ∀ name ∈ names, name ≠ "" ∧ ∃ n, (n, name) ∈ cpu.names.getD []) (regs : String → Nat) :
    ∃ only, onlyFilter (straceTables cpu) space ⟨some ([','].intercalate (names.map String.toList)), false, false⟩ = some only ∧
      (ignoreSyscall only none (readSyscall cpu regs).toList = false ↔ readSyscall cpu regs ∈ names) := by
  have hname : ∀ name ∈ names, name.toList ≠ [] ∧ ',' ∉ name.toList ∧ Stripped space name.toList name.toList := by
    intro name hm
    obtain ⟨h0, n, hp⟩ := hn name hm
    have h1 : name.toList ≠ [] := fun h => h0 (String.toList_inj.1 h)
    have h2 := table_chars cpu hc _ hp
    have hsp' : ∀ c ∈ name.toList, space c = false := by
      intro c hcm
      cases hs : space c with
      | false => rfl
      | true =>
        obtain ⟨g1, g2⟩ := hsp c hs
        rcases h2 c hcm with h | h
        · exact absurd h g1
        · rw [g2] at h; cases h
    refine ⟨h1, fun hcm => ?_, ⟨[], [], by simp, (fun c hcm => by cases hcm), (fun c hcm => by cases hcm)⟩, ?_, ?_⟩
    · rcases h2 _ hcm with h | h
      · exact absurd h (by decide)
      · exact absurd h (by decide)
    · exact fun c hcm => hsp' c (List.mem_of_mem_head? hcm)
    · exact fun c hcm => hsp' c (List.mem_of_getLast? hcm)
  have hp : Pieces ',' ([','].intercalate (names.map String.toList)) (names.map String.toList) := by
    refine ⟨by simpa using hne, ?_, rfl⟩
    intro p hp
    obtain ⟨name, hm, rfl⟩ := List.mem_map.1 hp
    exact (hname name hm).2.1
  have hnamed : ∀ x, Named space (names.map String.toList) x ↔ ∃ name ∈ names, name.toList = x := by
    intro x
    constructor
    · rintro ⟨_, item, hi, hs⟩
      obtain ⟨name, hm, rfl⟩ := List.mem_map.1 hi
      exact ⟨name, hm, by rw [← stripped_iff.1 (hname name hm).2.2, stripped_iff.1 hs]⟩
    · rintro ⟨name, hm, rfl⟩
      exact ⟨(hname name hm).1, name.toList, List.mem_map.2 ⟨name, hm, rfl⟩, (hname name hm).2.2⟩
  obtain ⟨only, ho⟩ := C42_known (straceTables cpu) space _ false false _ hp (by
    intro x hx
    obtain ⟨name, hm, rfl⟩ := (hnamed x).1 hx
    obtain ⟨_, n, hp⟩ := hn name hm
    exact List.mem_map.2 ⟨(n, name), hp, rfl⟩)
  have hmem : ∀ x, x ∈ only ↔ ∃ name ∈ names, name.toList = x := by
    intro x
    rw [onlyFilter_mem _ _ _ _ ho, ← hnamed]
    constructor
    · rintro (⟨t, items, ht, hpi, hx⟩ | ⟨h, _⟩ | ⟨h, _⟩)
      · injection ht with ht
        subst ht
        rw [pieces_iff] at hpi hp
        rw [← hpi, hp] at hx
        exact hx
      · cases h
      · cases h
    · exact fun hx => Or.inl ⟨_, _, rfl, hp, hx⟩
  refine ⟨only, ho, ?_⟩
  have h2 : only.isEmpty = false := by
    cases hnn : names with
    | nil => exact absurd hnn hne
    | cons a as =>
      have := (hmem a.toList).2 ⟨a, by rw [hnn]; simp, rfl⟩
      cases only with
      | nil => cases this
      | cons _ _ => rfl
  have h3 : readSyscall cpu regs ∈ names ↔ (readSyscall cpu regs).toList ∈ only := by
    rw [hmem]
    constructor
    · exact fun h => ⟨_, h, rfl⟩
    · rintro ⟨name, hm, he⟩
      rwa [← String.toList_inj.1 he]
  rw [h3, ← List.contains_iff_mem]
  unfold ignoreSyscall
  rw [h2]
  cases only.contains (readSyscall cpu regs).toList <;> simp

example := C123_names cpuX86_64 (by simp [callCpus]) (· == ' ') (by
    intro c h
    have : c = ' ' := by simpa using h
    subst this
    decide) ["read", "openat"] (by simp) (by
    have : ∀ name ∈ ["read", "openat"], name ≠ "" ∧ ∃ p ∈ cpuX86_64.names.getD [], p.2 = name := by decide +kernel
    intro name h
    obtain ⟨h0, p, hp, rfl⟩ := this name h
    exact ⟨h0, p.1, hp⟩) (fun _ => 257)

/-- **C123** is false for calls without a name: the table of 32 bit PowerPC has empty names (177 is `rt_sigqueueinfo`), and no text given to `--syscalls`
shows such a call. -/
theorem C123_nameless_refuted : ∃ regs, readSyscall cpuPowerpc32 regs = "" ∧ ∀ (space : Char → Bool) (text : Str) (only : List Str),
    onlyFilter (straceTables cpuPowerpc32) space ⟨some text, false, false⟩ = some only → only ≠ [] →
    ignoreSyscall only none (readSyscall cpuPowerpc32 regs).toList = true := by
  have h : readSyscall cpuPowerpc32 (fun _ => 177) = "" := by decide +kernel
  refine ⟨fun _ => 177, h, fun space text only ho hne => ?_⟩
  rw [h]
  have hm : ([] : Str) ∉ only := by
    intro hm
    rcases (onlyFilter_mem _ _ _ _ ho []).1 hm with ⟨_, _, _, _, hx, _⟩ | ⟨h, _⟩ | ⟨h, _⟩
    · exact hx rfl
    · cases h
    · cases h
  unfold ignoreSyscall
  rw [if_pos]
  rw [Bool.and_eq_true]
  refine ⟨?_, ?_⟩
  · cases only with
    | nil => exact absurd rfl hne
    | cons _ _ => rfl
  · rw [Bool.not_eq_true', ← Bool.not_eq_true, List.contains_iff_mem]
    exact hm

example : shownWith cpuX86_64 (· == ' ') true false (withNumber 2) = some true := by decide +kernel
example : shownWith cpuX86_64 (· == ' ') true false (withNumber 0) = some false := by decide +kernel
example : shownWith cpuX86_64 (· == ' ') false true (withNumber 42) = some true := by decide +kernel

end PT
