import Verif.Model.Cpu
import Verif.Spec.Cpu
import Verif.Lemmas.Py

/-
C111: which processor the program believes it runs on. C112: the registers it then takes for the program
counter, the stack pointer and the frame pointer.
-/

namespace PT

open Spec

/-- The eight flags `CPU_PPC32` to `CPU_RISCV64`. -/
def CpuInfo.flags (c : CpuInfo) : List (Family × Bool) :=
  [(.ppc32, c.ppc32), (.ppc64, c.ppc64), (.x86, c.i386), (.x64, c.x86_64), (.arm, c.arm32), (.arm64, c.aarch64),
   (.riscv32, c.riscv32), (.riscv64, c.riscv64)]

/-- The families whose flag is set. -/
def CpuInfo.families (c : CpuInfo) : List Family := (c.flags.filter Prod.snd).map Prod.fst

/-- The families found depend on the name only. -/
theorem families_name (h : CpuHost) (m : Str) (hu : h.uname = some m) (c : CpuInfo) (hc : cpuInfo h = .ok c) :
    c.families =
      if m = "ppc".toList then [.ppc32]
      else if m = "ppc64".toList ∨ m = "ppc64le".toList then [.ppc64]
      else if m = "i386".toList ∨ m = "i686".toList then [.x86]
      else if m = "x86_64".toList ∨ m = "amd64".toList then [.x64]
      else if "arm".toList.isPrefixOf m then [.arm]
      else if m = "aarch64".toList then [.arm64]
      else if m = "riscv32".toList then [.riscv32]
      else if m = "riscv64".toList then [.riscv64]
      else [] := by
  unfold cpuInfo at hc
  rw [hu] at hc
  injection hc with hc
  subst hc
  by_cases h1 : m = "ppc".toList
  · subst h1; rfl
  by_cases h2 : m = "ppc64".toList
  · subst h2; rfl
  by_cases h3 : m = "ppc64le".toList
  · subst h3; rfl
  by_cases h4 : m = "i386".toList
  · subst h4; rfl
  by_cases h5 : m = "i686".toList
  · subst h5; rfl
  by_cases h6 : m = "x86_64".toList
  · subst h6; rfl
  by_cases h7 : m = "amd64".toList
  · subst h7; rfl
  by_cases h8 : m = "aarch64".toList
  · subst h8; rfl
  by_cases h9 : m = "riscv32".toList
  · subst h9; rfl
  by_cases h10 : m = "riscv64".toList
  · subst h10; rfl
  simp only [CpuInfo.families, CpuInfo.flags, h1, h2, h3, h4, h5, h6, h7, h8, h9, h10, or_self, if_false,
    beq_eq_false_iff_ne.2 h1, beq_eq_false_iff_ne.2 h2, beq_eq_false_iff_ne.2 h3, beq_eq_false_iff_ne.2 h4,
    beq_eq_false_iff_ne.2 h5, beq_eq_false_iff_ne.2 h6, beq_eq_false_iff_ne.2 h7, beq_eq_false_iff_ne.2 h8,
    beq_eq_false_iff_ne.2 h9, beq_eq_false_iff_ne.2 h10, Bool.or_self]
  cases "arm".toList.isPrefixOf m <;> rfl

/-- **C111.** Whatever the machine is called, at most one family of processors is found. -/
theorem C111_one (h : CpuHost) (c : CpuInfo) (hc : cpuInfo h = .ok c) : c.families.length ≤ 1 := by
  cases hu : h.uname with
  | some m =>
    rw [families_name h m hu c hc]
    split_ifs <;> decide
  | none =>
    unfold cpuInfo at hc
    rw [hu] at hc
    dsimp only at hc
    have hw : cpuWord h = { bigEndian := h.big, is64 := (cpuWord h).is64, wordSize := (cpuWord h).wordSize, maxUint := (cpuWord h).maxUint } := by
      unfold cpuWord; split_ifs <;> rfl
    rw [hw] at hc
    split_ifs at hc <;> injection hc with hc <;> subst hc <;> exact Nat.le_refl 1

example := C111_one ⟨some "armv7l".toList, "32bit".toList, 4, false⟩ _ rfl

/-- **C111.** The four groups of processors are made of the families. -/
theorem C111_groups (c : CpuInfo) :
    (c.intel = true ↔ .x86 ∈ c.families ∨ .x64 ∈ c.families) ∧ (c.powerpc = true ↔ .ppc32 ∈ c.families ∨ .ppc64 ∈ c.families) ∧
    (c.arm = true ↔ .arm ∈ c.families ∨ .arm64 ∈ c.families) ∧ (c.riscv = true ↔ .riscv32 ∈ c.families ∨ .riscv64 ∈ c.families) := by
  simp [CpuInfo.families, CpuInfo.flags, CpuInfo.intel, CpuInfo.powerpc, CpuInfo.arm, CpuInfo.riscv]

/-- Reading the constants fails only without `uname`, when the size of the machine is neither 32 nor 64 bits. -/
theorem C111_errors (h : CpuHost) (e : Exc) :
    cpuInfo h = .error e ↔ e = .value ∧ h.uname = none ∧ h.bits ≠ "32bit".toList ∧ h.bits ≠ "64bit".toList := by
  unfold cpuInfo
  cases h.uname with
  | some m => simp
  | none =>
    dsimp only
    split_ifs with h1 h2
    · simp [h1]
    · simp only [h2, ne_eq, not_true_eq_false, and_false]
    · simp only [Except.error.injEq, ne_eq, h1, h2, not_false_eq_true, and_self, and_true, eq_comm]

example : cpuInfo ⟨none, "16bit".toList, 2, false⟩ = .error .value := (C111_errors _ _).2 ⟨rfl, rfl, by decide, by decide⟩

/-- The size of a word is the size of a pointer of the interpreter, the greatest unsigned word fits it exactly, and
the byte order is the interpreter's. -/
theorem C111_word (h : CpuHost) (c : CpuInfo) (hp : h.pointer = 4 ∨ h.pointer = 8) (hc : cpuInfo h = .ok c) :
    c.wordSize = h.pointer ∧ c.maxUint = 2 ^ (8 * h.pointer) - 1 ∧ (c.is64 = true ↔ h.pointer = 8) ∧ c.bigEndian = h.big := by
  unfold cpuInfo cpuWord at hc
  cases hu : h.uname with
  | some m =>
    rw [hu] at hc
    injection hc with hc
    subst hc
    rcases hp with hp | hp <;> simp [hp]
  | none =>
    rw [hu] at hc
    dsimp only at hc
    rcases hp with hp | hp <;> simp only [hp] at hc ⊢ <;> split_ifs at hc <;> injection hc with hc <;> subst hc <;> simp at *

example : cpuInfo ⟨some "armv7l".toList, "32bit".toList, 4, false⟩ =
    .ok { bigEndian := false, is64 := false, wordSize := 4, maxUint := 2 ^ 32 - 1, arm32 := true } := by decide +kernel

/-- Every name Linux prints for a family gives that family, except the three below. -/
theorem C111_names_partial (h : CpuHost) (f : Family) (m : Str) (hn : LinuxName f m) (hu : h.uname = some m)
    (h4 : m ≠ "i486".toList) (h5 : m ≠ "i586".toList) (hbe : m ≠ "aarch64_be".toList) :
    ∃ c, cpuInfo h = .ok c ∧ c.families = [f] := by
  have hok : ∃ c, cpuInfo h = .ok c := by unfold cpuInfo; rw [hu]; exact ⟨_, rfl⟩
  obtain ⟨c, hc⟩ := hok
  refine ⟨c, hc, ?_⟩
  rw [families_name h m hu c hc]
  cases hn with
  | i486 => exact absurd rfl h4
  | i586 => exact absurd rfl h5
  | aarch64be => exact absurd rfl hbe
  | arm v =>
    simp
  | _ => rfl

example : ∃ c, cpuInfo ⟨some "armv6l".toList, [], 4, false⟩ = .ok c ∧ c.families = [.arm] :=
  C111_names_partial _ .arm _ (.arm "6l".toList) rfl (by decide) (by decide) (by decide)

/-- A family is found for its own names only; FreeBSD's name of x86-64 and everything beginning with "arm"
count too. -/
theorem C111_sound (h : CpuHost) (c : CpuInfo) (m : Str) (f : Family) (hu : h.uname = some m) (hc : cpuInfo h = .ok c)
    (hf : f ∈ c.families) :
    LinuxName f m ∨ f = .x64 ∧ m = "amd64".toList ∨ f = .arm ∧ ∃ v, m = "arm".toList ++ v := by
  rw [families_name h m hu c hc] at hf
  split_ifs at hf with h1 h2 h3 h4 h5 h6 h7 h8
  · subst h1; rw [List.mem_singleton.1 hf]; exact .inl .ppc
  · rw [List.mem_singleton.1 hf]
    rcases h2 with rfl | rfl
    · exact .inl .ppc64
    · exact .inl .ppc64le
  · rw [List.mem_singleton.1 hf]
    rcases h3 with rfl | rfl
    · exact .inl .i386
    · exact .inl .i686
  · rw [List.mem_singleton.1 hf]
    rcases h4 with rfl | rfl
    · exact .inl .x86_64
    · exact .inr (.inl ⟨rfl, rfl⟩)
  · obtain ⟨v, hv⟩ := List.isPrefixOf_iff_prefix.1 h5
    exact .inr (.inr ⟨List.mem_singleton.1 hf, v, hv.symm⟩)
  · subst h6; rw [List.mem_singleton.1 hf]; exact .inl .aarch64
  · subst h7; rw [List.mem_singleton.1 hf]; exact .inl .riscv32
  · subst h8; rw [List.mem_singleton.1 hf]; exact .inl .riscv64
  · cases hf

example : Family.x64 ∈ (match cpuInfo ⟨some "x86_64".toList, [], 8, false⟩ with | .ok c => c.families | _ => []) := by decide +kernel

/-- Three names of machines that Linux runs on are unknown: i486, i586 and big-endian AArch64. -/
theorem C111_names_refuted :
    ¬ ∀ (h : CpuHost) (f : Family) (m : Str), LinuxName f m → h.uname = some m → h.pointer = f.pointer →
      ∃ c, cpuInfo h = .ok c ∧ c.families = [f] := by
  intro hall
  obtain ⟨c, hc, hf⟩ := hall ⟨some "i586".toList, [], 4, false⟩ .x86 _ .i586 rfl rfl
  rw [families_name _ _ rfl c hc] at hf
  revert hf
  decide

/-- On a machine that is not recognised nothing can be said about its registers: reading or writing the program
counter, the stack pointer or the frame pointer raises `PtraceError` without asking the kernel. -/
theorem C111_unknown (h : CpuHost) (c : CpuInfo) (hc : c.families = []) (k : RegKernel) (s : RegSt) (ip : Int) :
    cpuInfo h = .ok c →
    getInstrPointer c.table k s = (.error (.ptrace none), s) ∧ getStackPointer c.table k s = (.error (.ptrace none), s) ∧
    getFramePointer c.table k s = (.error (.ptrace none), s) ∧ setInstrPointer c.table k ip s = (.error (.ptrace none), s) := by
  intro _
  have hp : c.pointers = (none, none, none) := by
    simp only [CpuInfo.families, CpuInfo.flags, List.map_eq_nil_iff, List.filter_eq_nil_iff, List.mem_cons, List.not_mem_nil,
      or_false, forall_eq_or_imp, forall_eq] at hc
    obtain ⟨h1, h2, h3, h4, h5, h6, h7, h8⟩ := hc
    simp only [Bool.not_eq_true] at h1 h2 h3 h4 h5 h6 h7 h8
    simp [CpuInfo.pointers, CpuInfo.powerpc, CpuInfo.riscv, h1, h2, h3, h4, h5, h6, h7, h8]
  simp [getInstrPointer, getStackPointer, getFramePointer, setInstrPointer, CpuInfo.table, hp, Py.raise]

example : ∃ c, cpuInfo ⟨some "i586".toList, [], 4, false⟩ = .ok c ∧ c.families = [] := ⟨_, rfl, by decide +kernel⟩

/-- At most one operating system is found. -/
theorem C111_os (p : Str) :
    ([(osInfo p).linux, (osInfo p).freebsd, (osInfo p).openbsd, (osInfo p).macosx].filter id).length ≤ 1 ∧
    ((osInfo p).hasPtrace = true ↔ (∃ v, p = "linux".toList ++ v) ∨ (∃ v, p = "freebsd".toList ++ v) ∨
      (∃ v, p = "gnukfreebsd".toList ++ v) ∨ (∃ v, p = "openbsd".toList ++ v) ∨ p = "darwin".toList) ∧
    ((osInfo p).hasProc = true ↔ ∃ v, p = "linux".toList ++ v) := by
  have hpre : ∀ q : Str, q.isPrefixOf p = true ↔ ∃ v, p = q ++ v := fun q =>
    List.isPrefixOf_iff_prefix.trans ⟨fun ⟨v, hv⟩ => ⟨v, hv.symm⟩, fun ⟨v, hv⟩ => ⟨v, hv.symm⟩⟩
  have head : ∀ (q : Str) (x : Char), (x :: q).isPrefixOf p = true → p.head? = some x := by
    intro q x hq
    obtain ⟨v, rfl⟩ := (hpre _).1 hq
    rfl
  have eL : "linux".toList = 'l' :: "inux".toList := by decide
  have eF : "freebsd".toList = 'f' :: "reebsd".toList := by decide
  have eG : "gnukfreebsd".toList = 'g' :: "nukfreebsd".toList := by decide
  have eO : "openbsd".toList = 'o' :: "penbsd".toList := by decide
  have hL := hpre "linux".toList
  have hF := hpre "freebsd".toList
  have hG := hpre "gnukfreebsd".toList
  have hO := hpre "openbsd".toList
  have hM : (p == "darwin".toList) = true ↔ p = "darwin".toList := beq_iff_eq
  have dL : "linux".toList.isPrefixOf p = true → p.head? = some 'l' := by rw [eL]; exact head _ _
  have dF : "freebsd".toList.isPrefixOf p = true → p.head? = some 'f' := by rw [eF]; exact head _ _
  have dG : "gnukfreebsd".toList.isPrefixOf p = true → p.head? = some 'g' := by rw [eG]; exact head _ _
  have dO : "openbsd".toList.isPrefixOf p = true → p.head? = some 'o' := by rw [eO]; exact head _ _
  have dM : (p == "darwin".toList) = true → p.head? = some 'd' := by
    intro hp; rw [hM.1 hp]; decide
  unfold OsInfo.hasPtrace OsInfo.hasProc OsInfo.bsd osInfo
  dsimp only
  rw [← hL, ← hF, ← hG, ← hO, ← hM]
  clear hL hF hG hO hM hpre head eL eF eG eO
  generalize "linux".toList.isPrefixOf p = l at *
  generalize "freebsd".toList.isPrefixOf p = f at *
  generalize "gnukfreebsd".toList.isPrefixOf p = g at *
  generalize "openbsd".toList.isPrefixOf p = o at *
  generalize (p == "darwin".toList) = m at *
  generalize p.head? = x at *
  cases l <;> cases f <;> cases g <;> cases o <;> cases m <;> simp_all

example : (osInfo "linux2".toList).hasPtrace = true ∧ (osInfo "win32".toList).hasPtrace = false := by decide +kernel

/-! ### C112: registers -/

/-- The table of `Model/Regs` for each family. -/
def tableOf : Family → RegTable
  | .ppc32 => regsPowerpc false
  | .ppc64 => regsPowerpc true
  | .x86 => regsI386
  | .x64 => regsX86_64
  | .arm => regsArm32
  | .arm64 => regsAarch64
  | .riscv32 => regsRiscv 32
  | .riscv64 => regsRiscv 64

/-- `c_ulong` fields. -/
theorem map_names (l : List String) (n : Nat) : (l.map fun x => (x, n)).map Prod.fst = l := by
  rw [List.map_map]
  exact (List.map_congr_left (fun _ _ => rfl)).trans (List.map_id l)

/-- The flags when one family is found. -/
theorem flags_of (c : CpuInfo) (f : Family) (hf : c.families = [f]) :
    c.ppc32 = decide (f = .ppc32) ∧ c.ppc64 = decide (f = .ppc64) ∧ c.i386 = decide (f = .x86) ∧ c.x86_64 = decide (f = .x64) ∧
    c.arm32 = decide (f = .arm) ∧ c.aarch64 = decide (f = .arm64) ∧ c.riscv32 = decide (f = .riscv32) ∧
    c.riscv64 = decide (f = .riscv64) := by
  obtain ⟨be, is64, ws, mu, p32, p64, x, x64, a, a64, r32, r64⟩ := c
  simp only [CpuInfo.families, CpuInfo.flags] at hf ⊢
  cases p32 <;> cases p64 <;> cases x <;> cases x64 <;> cases a <;> cases a64 <;> cases r32 <;> cases r64 <;>
    simp at hf <;> subst hf <;> decide

/-- **C112.** A process of the machine's own size on a recognised machine is given the register table of that
machine: names and widths of the registers, parts of registers, and the three special ones. -/
theorem C112_table (h : CpuHost) (c : CpuInfo) (f : Family) (hc : cpuInfo h = .ok c) (hf : c.families = [f])
    (hp : h.pointer = f.pointer) : c.table = tableOf f := by
  have hw := C111_word h c (by rw [hp]; cases f <;> simp [Family.pointer]) hc
  obtain ⟨h1, h2, h3, h4, h5, h6, h7, h8⟩ := flags_of c f hf
  obtain ⟨w1, _, w3, _⟩ := hw
  have e64 : c.is64 = decide (f.pointer = 8) := by
    rw [← hp]; cases hb : c.is64
    · rw [hb] at w3; simp at w3; simp [w3]
    · simp [w3.1 hb]
  rw [hp] at w1
  cases f <;>
    simp [CpuInfo.table, CpuInfo.regFields, CpuInfo.subRegisters, CpuInfo.pointers, CpuInfo.powerpc, CpuInfo.riscv, h1, h2, h3, h4, h5, h6,
      h7, h8, w1, e64, Family.pointer] <;> rfl

example := C112_table ⟨some "x86_64".toList, [], 8, false⟩ _ .x64 rfl (by decide +kernel) rfl

/-- The program counter and the frame pointer are the ones of the processor, and the stack pointer is on every
processor but ARM; all of them are registers the kernel returns. -/
theorem C112_pointers_partial (h : CpuHost) (c : CpuInfo) (f : Family) (hc : cpuInfo h = .ok c) (hf : c.families = [f])
    (hp : h.pointer = f.pointer) :
    c.table.instrPointer = some f.programCounter ∧ c.table.framePointer = f.framePointer ∧
    (f ≠ .arm → c.table.stackPointer = some f.stackPointer) ∧
    f.programCounter ∈ c.table.names ∧ f.stackPointer ∈ c.table.names ∧ (∀ n ∈ f.framePointer, n ∈ c.table.names) := by
  rw [C112_table h c f hc hf hp]
  cases f <;> decide +kernel

example := C112_pointers_partial ⟨some "aarch64".toList, [], 8, false⟩ _ .arm64 rfl (by decide +kernel) rfl

/-- What the three functions return: the register of the processor, in every state and for every answer of the
kernel that is not a failure. -/
theorem C112_read_partial (h : CpuHost) (c : CpuInfo) (f : Family) (hc : cpuInfo h = .ok c) (hf : c.families = [f])
    (hp : h.pointer = f.pointer) (k : RegKernel) (s : RegSt) (hk : k s.count = 0) :
    (getInstrPointer c.table k s).1 = .ok (s.regs f.programCounter) ∧
    (f ≠ .arm → (getStackPointer c.table k s).1 = .ok (s.regs f.stackPointer)) ∧
    (∀ n ∈ f.framePointer, (getFramePointer c.table k s).1 = .ok (s.regs n)) := by
  rw [C112_table h c f hc hf hp]
  have read : ∀ (t : RegTable) (n : String), t.subs.lookup n = none → n ∈ t.names → (getreg t k n s).1 = .ok (s.regs n) := by
    intro t n h1 h2
    unfold getreg
    rw [h1]
    dsimp only
    rw [if_neg (not_not.2 h2)]
    simp [Py.bind, getregs, hk, Py.pure]
  refine ⟨?_, ?_, ?_⟩
  · cases f <;> exact read _ _ (by decide +kernel) (by decide +kernel)
  · intro hne
    cases f
    case arm => exact absurd rfl hne
    all_goals exact read _ _ (by decide +kernel) (by decide +kernel)
  · intro n hn
    cases f <;> simp only [Family.framePointer, Option.mem_def, reduceCtorEq, Option.some.injEq] at hn <;> subst hn <;>
      exact read _ _ (by decide +kernel) (by decide +kernel)

example := C112_read_partial ⟨some "riscv64".toList, [], 8, false⟩ _ .riscv64 rfl (by decide +kernel) rfl (fun _ => 0)
  { regs := fun n => if n = "pc" then 0x10000 else 7 } rfl

/-- Registers of a toy ARM process: each holds its place in the table. -/
def toyArm : RegSt := { regs := fun n => (regsArm32.names.findIdx (· == n)) + 1000 }

/-- On ARM the "stack pointer" is the link register r14, the stack pointer is r13. -/
theorem C112_arm_refuted :
    ¬ ∀ (h : CpuHost) (c : CpuInfo) (f : Family), cpuInfo h = .ok c → c.families = [f] → h.pointer = f.pointer →
      ∀ (k : RegKernel) (s : RegSt), k s.count = 0 → (getStackPointer c.table k s).1 = .ok (s.regs f.stackPointer) := by
  intro hall
  have := hall ⟨some "armv7l".toList, [], 4, false⟩ _ .arm rfl (by decide +kernel) rfl (fun _ => 0) toyArm rfl
  revert this
  decide +kernel

/-- It is the link register in every state. -/
theorem C112_arm_link (h : CpuHost) (c : CpuInfo) (hc : cpuInfo h = .ok c) (hf : c.families = [.arm]) (hp : h.pointer = 4)
    (k : RegKernel) (s : RegSt) (hk : k s.count = 0) : (getStackPointer c.table k s).1 = .ok (s.regs "r14") := by
  rw [C112_table h c .arm hc hf hp]
  have h1 : (tableOf .arm).subs.lookup "r14" = none := by decide
  have h2 : "r14" ∈ (tableOf .arm).names := by decide
  show (getreg (tableOf .arm) k "r14" s).1 = _
  unfold getreg
  rw [h1]
  dsimp only
  rw [if_neg (not_not.2 h2)]
  simp [Py.bind, getregs, hk, Py.pure]

example : (getStackPointer regsArm32 (fun _ => 0) toyArm).1 = .ok 1014 ∧ toyArm.regs "r13" = 1013 := by decide +kernel

/-- The fields of i386 with the names of x86-64. -/
def mixedTable : RegTable := { regsX86_64 with fields := regsI386.fields }

/-- A 32-bit Python on a 64-bit x86 kernel, where `uname` says `x86_64`: the structure is that of i386 but the
names are those of x86-64, so nothing that needs the program counter or a pointer works. -/
theorem C112_mixed_refuted (c : CpuInfo) (be : Bool) (bits : Str)
    (hc : cpuInfo ⟨some "x86_64".toList, bits, 4, be⟩ = .ok c) (k : RegKernel) (s : RegSt) :
    (getInstrPointer c.table k s) = (.error (.ptrace none), s) ∧ (getStackPointer c.table k s) = (.error (.ptrace none), s) ∧
    (getFramePointer c.table k s) = (.error (.ptrace none), s) ∧
    (∀ ip, ∃ e, (setInstrPointer c.table k ip s).1 = .error e ∧ (setInstrPointer c.table k ip s).2.regs = s.regs) ∧
    "eip" ∈ c.table.names := by
  have ht : c.table = mixedTable := by
    injection hc with hc
    subst hc
    cases be <;> rfl
  rw [ht]
  refine ⟨rfl, rfl, rfl, fun ip => ?_, by decide⟩
  show ∃ e, (setreg mixedTable k "rip" ip s).1 = .error e ∧ (setreg mixedTable k "rip" ip s).2.regs = s.regs
  have h1 : mixedTable.subs.lookup "rip" = none := by decide +kernel
  have h2 : "rip" ∉ mixedTable.names := by decide +kernel
  unfold setreg
  rw [h1]
  by_cases hk : k s.count = 0
  · exact ⟨.ptrace none, by simp [Py.bind, getregs, hk, h2, Py.raise], by simp [Py.bind, getregs, hk, h2, Py.raise]⟩
  · exact ⟨.ptrace (some (k s.count)), by simp [Py.bind, getregs, hk], by simp [Py.bind, getregs, hk]⟩

example : ∃ c, cpuInfo ⟨some "x86_64".toList, "32bit".toList, 4, false⟩ = .ok c := ⟨_, rfl⟩

end PT
