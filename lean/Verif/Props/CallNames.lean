import Verif.Props.CallText
import Verif.Props.Names
import Verif.Props.OpenLines
import Verif.Spec.CallNames

/-! C137: the name in the line of a system call is the kernel's. -/

namespace PT
open Spec

/-- The CPUs with their tables, and the headers they are compared with. -/
def kernelCpus : List (CallCpu × Convention × Names) :=
  [(cpuX86_64, conventionX86_64, namesX86_64), (cpuI386, conventionI386, namesI386), (cpuAarch64, conventionArm64, namesAarch64),
   (cpuRiscv32, conventionRiscv, namesRiscv32), (cpuRiscv64, conventionRiscv, namesRiscv64)]

/-- The tables against the headers: other names, no names, and numbers that are there. -/
def sorts (tab : List (Nat × String)) (N : Names) : Bool :=
  agree (fun n => N.misnamed.any (Nat.beq n)) 2000 tab N.kernel && covers N.unknown 2000 tab N.kernel && increasing N.kernel &&
  (N.misnamed.all fun n => !N.unknown n && tab.all fun p => !Nat.beq p.1 n || N.kernel.all fun q => !Nat.beq q.1 n || !decide (p.2 = q.2)) &&
  (N.kernel.all fun q => !N.unknown q.1 || tab.all fun p => !Nat.beq p.1 q.1) &&
  tab.all fun p => !decide (p.2 = "socketcall") || N.kernel.all fun q => !Nat.beq q.1 p.1 || decide (q.2 = "socketcall")

theorem sorts_x86_64 : sorts Tables.x86_64 namesX86_64 = true := by decide +kernel
theorem sorts_i386 : sorts Tables.i386 namesI386 = true := by decide +kernel
theorem sorts_aarch64 : sorts Tables.aarch64 namesAarch64 = true := by decide +kernel
theorem sorts_riscv32 : sorts Tables.riscv32 namesRiscv32 = true := by decide +kernel
theorem sorts_riscv64 : sorts Tables.riscv64 namesRiscv64 = true := by decide +kernel

theorem kernelCpus_ok {cpu : CallCpu} {v : Convention} {N : Names} (h : (cpu, v, N) ∈ kernelCpus) :
    (cpu, v) ∈ textCpus ∧ ∃ tab, cpu.names = some tab ∧ increasing tab = true ∧ sorts tab N = true := by
  have hu : ∀ tab, cpu ∈ callCpus → cpu.names = some tab → increasing tab = true := fun tab hc ht => by
    have h := (List.all_eq_true.1 unique_all) cpu hc
    rw [ht] at h
    exact h
  simp only [kernelCpus, List.mem_cons, Prod.mk.injEq, List.not_mem_nil, or_false] at h
  rcases h with ⟨rfl, rfl, rfl⟩ | ⟨rfl, rfl, rfl⟩ | ⟨rfl, rfl, rfl⟩ | ⟨rfl, rfl, rfl⟩ | ⟨rfl, rfl, rfl⟩
  · exact ⟨by simp [textCpus], _, rfl, hu _ (by simp [callCpus]) rfl, sorts_x86_64⟩
  · exact ⟨by simp [textCpus], _, rfl, hu _ (by simp [callCpus]) rfl, sorts_i386⟩
  · exact ⟨by simp [textCpus], _, rfl, hu _ (by simp [callCpus]) rfl, sorts_aarch64⟩
  · exact ⟨by simp [textCpus], _, rfl, hu _ (by simp [callCpus]) rfl, sorts_riscv32⟩
  · exact ⟨by simp [textCpus], _, rfl, hu _ (by simp [callCpus]) rfl, sorts_riscv64⟩

/-- C137: which name a call of the kernel is shown under, for every call of the header: its own, except for the calls listed. -/
theorem C137_name {cpu : CallCpu} {v : Convention} {N : Names} (h : (cpu, v, N) ∈ kernelCpus) (regs : String → Nat) (name : String)
    (hk : (regs v.number, name) ∈ N.kernel) : N.Shown (regs v.number) name (readSyscall cpu regs) := by
  obtain ⟨hv, tab, ht, hi, hs⟩ := kernelCpus_ok h
  obtain ⟨hs1, hs2⟩ := C71_shown cpu (textCpus_mem hv) tab ht regs
  rw [(textCpus_ok _ hv).1] at hs1 hs2
  simp only at hs1 hs2
  simp only [sorts, Bool.and_eq_true] at hs
  obtain ⟨⟨⟨⟨⟨s1, s2⟩, s3⟩, s4⟩, s5⟩, _⟩ := hs
  refine ⟨fun hm hu => ?_, fun hm => ?_, fun hu => ?_⟩
  · obtain ⟨a, ha⟩ := covers_spec _ _ _ _ s2 _ _ hk hu
    rw [hs1 a ha]
    refine agree_spec _ _ _ _ hi s3 s1 _ a name ha hk ?_
    rw [Bool.eq_false_iff]
    intro h
    obtain ⟨m, hm', he⟩ := List.any_eq_true.1 h
    exact hm (Nat.eq_of_beq_eq_true he ▸ hm')
  · intro e
    have s4 := (List.all_eq_true.1 s4) _ hm
    rw [Bool.and_eq_true] at s4
    obtain ⟨a, ha⟩ := covers_spec _ _ _ _ s2 _ _ hk (by simpa using s4.1)
    have := (List.all_eq_true.1 s4.2) _ ha
    simp only [Nat.beq_refl, Bool.not_true, Bool.false_or] at this
    have := (List.all_eq_true.1 this) _ hk
    simp only [Nat.beq_refl, Bool.not_true, Bool.false_or, Bool.not_eq_true', decide_eq_false_iff_not] at this
    exact this ((hs1 a ha).symm.trans e)
  · have s5 := (List.all_eq_true.1 s5) _ hk
    simp only [hu, Bool.not_true, Bool.false_or] at s5
    rw [hs2 fun a ha => ?_]
    · refine ⟨pyDec (regs v.number), decNumber_pyDec _, ?_⟩
      simp only [String.toList_append]
      rw [Nat.toString_eq_repr, Nat.toList_repr, pyDec, decDigits_toDigits, List.append_nil]
      rfl
    · have := (List.all_eq_true.1 s5) _ ha
      simp [Nat.beq_refl] at this

example := C137_name (cpu := cpuX86_64) (v := conventionX86_64) (N := namesX86_64) (by simp [kernelCpus]) (fun r => if r = "orig_rax" then 59 else 0) "execve"
  (by decide +kernel)

/-! ## the text -/

theorem format_named (T : CallHost) (c : SysCall) (hr : c.restype ≠ "") :
    ∃ type rest, T.format c = (if T.env.writeTypes then type ++ [' '] else []) ++ c.name.toList ++ '(' :: rest := by
  unfold CallHost.format callFormat
  have hq : c.restype.toList ≠ [] := fun h => hr (String.toList_eq_nil_iff.1 h)
  cases hw : T.env.writeTypes with
  | true =>
    rw [if_pos ⟨hq, rfl⟩]
    refine ⟨c.restype.toList, ?_, ?_⟩
    swap
    · rw [if_pos rfl]
      simp only [List.append_assoc, List.cons_append, List.nil_append]
      rfl
  | false =>
    rw [if_neg (by simp)]
    refine ⟨c.restype.toList, ?_, ?_⟩
    swap
    · rw [if_neg (by simp), List.nil_append]
      simp only [List.append_assoc, List.cons_append]
      rfl

/-- A call that is no `socketcall` to be replaced is read with its name, whether it is declared or not. -/
theorem begun_named (T : CallHost) (hc : T.cpu ∈ callCpus) (w : Snap) (hs : readSyscall T.cpu w.regs ≠ "socketcall" ∨ T.replace = false) :
    ∃ c d, T.begun w = .ok (c, d) ∧ d.name = readSyscall T.cpu w.regs ∧ d.restype ≠ "" := by
  cases hp : prototypes.lookup (readSyscall T.cpu w.regs) with
  | none => exact ⟨_, _, begun_bare T w _ rfl hp, rfl, (show ("long" : String) ≠ "" by decide)⟩
  | some p =>
    obtain ⟨restype, formats⟩ := p
    obtain ⟨args, d, h1, _, h3, h4, _⟩ := begun_known T hc w _ restype formats rfl hp hs
    refine ⟨_, d, h1, h4, ?_⟩
    rw [h3]
    have := (List.all_eq_true.1 prototype_types) _ (lookup_mem _ _ _ hp)
    simp only [Bool.and_eq_true, decide_eq_true_eq] at this
    exact this.1

/-- The text of a call starts with its name. -/
theorem text_named (T : CallHost) (hc : T.cpu ∈ callCpus) (w : Snap) (hs : readSyscall T.cpu w.regs ≠ "socketcall" ∨ T.replace = false) (m : MemSt)
    (w' : Snap) :
    (∃ type rest, T.startText w m = (if T.env.writeTypes then type ++ [' '] else []) ++ (readSyscall T.cpu w.regs).toList ++ '(' :: rest) ∧
    ∃ type rest, T.endText w w' = (if T.env.writeTypes then type ++ [' '] else []) ++ (readSyscall T.cpu w.regs).toList ++ '(' :: rest := by
  obtain ⟨c, d, h, hn, hr⟩ := begun_named T hc w hs
  unfold CallHost.startText CallHost.endText
  rw [h]
  constructor
  · have := format_named T (argsFormat (fun _ => T.text m c) d) hr
    rwa [show (argsFormat (fun _ => T.text m c) d).name = readSyscall T.cpu w.regs from hn] at this
  · cases T.enter with
    | false =>
      have := format_named T (argsFormat (fun _ => T.text w'.mem c) (argsExit d)) hr
      rwa [show (argsFormat (fun _ => T.text w'.mem c) (argsExit d)).name = readSyscall T.cpu w.regs from hn] at this
    | true =>
      have := format_named T (argsFormat (fun _ => T.text w'.mem c) (argsExit (argsFormat (fun _ => T.text w.mem c) d))) hr
      rwa [show (argsFormat (fun _ => T.text w'.mem c) (argsExit (argsFormat (fun _ => T.text w.mem c) d))).name = readSyscall T.cpu w.regs from hn] at this

theorem socketcall_mem {cpu : CallCpu} {tab : List (Nat × String)} (ht : cpu.names = some tab) {regs : String → Nat}
    (h : readSyscall cpu regs = "socketcall") : (regs cpu.number, "socketcall") ∈ tab := by
  unfold readSyscall at h
  rw [ht, Option.getD_some] at h
  cases hl : tab.lookup (regs cpu.number) with
  | some x =>
    rw [hl] at h
    simp only at h
    exact h ▸ lookup_mem _ _ _ hl
  | none =>
    rw [hl] at h
    simp only at h
    have := unnamed_lookup (regs cpu.number)
    rw [h] at this
    exact absurd this (by decide +kernel)

theorem programCounters_unique (r a b : String) (ha : (r, a) ∈ programCounters) (hb : (r, b) ∈ programCounters) : a = b := by
  have h : ∀ x ∈ programCounters, ∀ y ∈ programCounters, x.1 = y.1 → x.2 = y.2 := by decide
  exact h _ ha _ hb rfl

theorem line_named {T : CallHost} {v : Convention} {N : Names} (h : (T.cpu, v, N) ∈ kernelCpus) (world : Nat → Snap) (gone : MemSt) (base : LineView)
    (pid id entry : Nat) (result : Option Nat) (name : String) (hk : ((world entry).regs v.number, name) ∈ N.kernel)
    (hs : name ≠ "socketcall" ∨ T.replace = false) (line : Str) (hl : CallLine (T.view world gone base) pid ⟨id, entry, result⟩ line)
    (pc : String) (hpc : (v.number, pc) ∈ programCounters) :
    LineNamed T.env.writeTypes base.showPid base.showIp pid ((world entry).regs pc) (readSyscall T.cpu (world entry).regs) line := by
  obtain ⟨hv, tab, ht, hi, hsort⟩ := kernelCpus_ok h
  obtain ⟨num, addr, call, h1, h2, h3, h4, rfl⟩ := hl
  obtain ⟨pc', p1, p2⟩ := textCpus_pc hv
  have hpc' : pc' = pc := programCounters_unique v.number pc' pc p2 hpc
  subst hpc'
  simp only [CallHost.view, p1] at h2
  have hs' : readSyscall T.cpu (world entry).regs ≠ "socketcall" ∨ T.replace = false := by
    rcases hs with hs | hs
    · refine .inl fun e => hs ?_
      simp only [sorts, Bool.and_eq_true] at hsort
      have hm := socketcall_mem ht e
      have := (List.all_eq_true.1 hsort.2) _ hm
      simp only [decide_true, Bool.not_true, Bool.false_or] at this
      have := (List.all_eq_true.1 this) _ hk
      rw [(textCpus_ok _ hv).1] at this
      simpa [Nat.beq_refl] using this
    · exact .inr hs
  cases result with
  | none =>
    obtain ⟨⟨type, rest, e⟩, _⟩ := text_named T (textCpus_mem hv) (world entry) hs' (if T.enter then (world entry).mem else gone) (world entry)
    refine ⟨num, addr, type, rest, h1, h2, ?_⟩
    rw [h3 rfl]
    exact congrArg _ e
  | some r =>
    obtain ⟨_, type, rest, e⟩ := text_named T (textCpus_mem hv) (world entry) hs' gone (world r)
    obtain ⟨column, ⟨blanks, c1, _⟩, rfl⟩ := h4 (by simp)
    have c1' : column = T.endText (world entry) (world r) ++ blanks := c1
    refine ⟨num, addr, type, rest ++ blanks ++ " = ".toList ++ (T.view world gone base).result ⟨id, entry, some r⟩, h1, h2, ?_⟩
    rw [c1', e]
    show _ ++ _ = _ ++ _
    simp only [List.append_assoc, List.cons_append]
    rfl

/-- C137: a line about a call, ended or not, shows the name of the call, which is the kernel's except for the calls listed. This holds whatever the
memory of the process answers. -/
theorem C137_line (T : CallHost) (v : Convention) (N : Names) (h : (T.cpu, v, N) ∈ kernelCpus) (world : Nat → Snap) (gone : MemSt) (base : LineView)
    (pid id entry : Nat) (result : Option Nat) (name : String) (hk : ((world entry).regs v.number, name) ∈ N.kernel)
    (hs : name ≠ "socketcall" ∨ T.replace = false) (line : Str) (hl : CallLine (T.view world gone base) pid ⟨id, entry, result⟩ line) :
    ∃ pc shown, (v.number, pc) ∈ programCounters ∧ N.Shown ((world entry).regs v.number) name shown ∧
      LineNamed T.env.writeTypes base.showPid base.showIp pid ((world entry).regs pc) shown line := by
  obtain ⟨pc, _, p2⟩ := textCpus_pc (kernelCpus_ok h).1
  exact ⟨pc, _, p2, C137_name h (world entry).regs name hk, line_named h world gone base pid id entry result name hk hs line hl pc p2⟩

/-! ## a whole run -/

/-- C137: in an open world, each line about a system call shows the name of the call, which is the kernel's except for the calls listed: the line at the
end of a call, with `--enter` the line at its start, and without `--enter` the line of a call the process ends in. Partial: as C136, and no replaced
`socketcall` (C132_socket_partial). -/
theorem C137_open_partial (T : CallHost) (v : Convention) (names : Names) (h : (T.cpu, v, names) ∈ kernelCpus) (world : Nat → Snap) (gone : MemSt)
    (base : LineView) (K : Kern) (N : World) (C : StraceCfg) (X : MainTexts) (root : Nat) (thread : Nat → Bool)
    (fork exec clone attached : Bool) (fuel : Nat) (hf : 1 < fuel)
    (hK : Kept (straceMain K fuel C root attached (treeState fork exec clone)).2.log N (C.wish exec (treeOptions fork exec clone)) root thread attached)
    (out : List Str) :
    ∃ (r : Except Exc (Option Nat)) (t : DSt) (first : Str) (blocks : List Block),
      straceMainOut K fuel C (T.view world gone base) X root attached ⟨treeState fork exec clone, out⟩ =
        (r, ⟨t, out ++ first :: blocks.flatMap Block.lines⟩) ∧
      ∀ p i regs name, (C.wish exec (treeOptions fork exec clone)).view.shown regs = true → ((world regs).regs v.number, name) ∈ names.kernel →
        name ≠ "socketcall" ∨ T.replace = false →
        ∃ pc shown, (v.number, pc) ∈ programCounters ∧ names.Shown ((world regs).regs v.number) name shown ∧
        ((history (C.wish exec (treeOptions fork exec clone)) (thread p) ((stopsMade N p t.log).take i)).1 = .inside regs →
          ∀ result, (stopsMade N p t.log)[i]? = some (.signal 133, result) →
          ∃ line, ((blocks.filter fun b => b.pid == p)[i]?).map Block.lines = some [line] ∧
            LineNamed T.env.writeTypes base.showPid base.showIp p ((world regs).regs pc) shown line) ∧
        ((history (C.wish exec (treeOptions fork exec clone)) (thread p) ((stopsMade N p t.log).take i)).1 = .outside →
          (stopsMade N p t.log)[i]? = some (.signal 133, regs) → C.enter = true →
          ∃ line, ((blocks.filter fun b => b.pid == p)[i]?).map Block.lines = some [line] ∧
            LineNamed T.env.writeTypes base.showPid base.showIp p ((world regs).regs pc) shown line) ∧
        ((history (C.wish exec (treeOptions fork exec clone)) (thread p) ((stopsMade N p t.log).take i)).1 = .inside regs →
          ∀ kind x, (stopsMade N p t.log)[i]? = some (kind, x) → ((∃ c, kind = .exited c) ∨ ∃ n, kind = .killed n) → C.enter = false →
          ∃ line last, ((blocks.filter fun b => b.pid == p)[i]?).map Block.lines = some [line, last] ∧
            LineNamed T.env.writeTypes base.showPid base.showIp p ((world regs).regs pc) shown line) := by
  obtain ⟨r, t, first, blocks, h1, _, _, h2⟩ := C136_lines_partial K N C (T.view world gone base) X root thread fork exec clone attached fuel hf hK out
  refine ⟨r, t, first, blocks, h1, fun p i regs name hs hk hsock => ?_⟩
  obtain ⟨started, h3⟩ := h2.each p
  obtain ⟨c1, c2⟩ := cut_lines h3 i regs hs
  obtain ⟨pc, _, p2⟩ := textCpus_pc (kernelCpus_ok h).1
  have key : ∀ id result line, CallLine (T.view world gone base) p ⟨id, regs, result⟩ line →
      LineNamed T.env.writeTypes base.showPid base.showIp p ((world regs).regs pc) (readSyscall T.cpu (world regs).regs) line := by
    intro id result line hl
    exact line_named h world gone base p id regs result name hk hsock line hl pc p2
  refine ⟨pc, _, p2, C137_name h (world regs).regs name hk, fun hin result hi => ?_, fun hin hi he => ?_, fun hin kind x hi hkind he => ?_⟩
  · obtain ⟨b, s', now, e1, _, e3⟩ := (procBlocks_at h3).2 i _ hi
    rw [hin] at e3
    simp only [StopLines, if_true, hs] at e3
    obtain ⟨line, l1, l2⟩ := e3
    exact ⟨line, by rw [e1, Option.map_some, l1], key _ _ _ l2⟩
  · obtain ⟨line, now, l1, l2⟩ := c1 hin hi he
    exact ⟨line, l1, key _ _ _ l2⟩
  · obtain ⟨line, last, now, l1, l2⟩ := c2 hin kind x hi hkind he
    exact ⟨line, last, l1, key _ _ _ l2⟩

/-- The endless world of C135 with the registers of C132. -/
example (enter fork clone attached : Bool) (fuel : Nat) (hf : 1 < fuel) (gone : MemSt) (base : LineView) (X : MainTexts) (out : List Str) :=
  C137_open_partial (exHost enter) conventionX86_64 namesX86_64 (by simp [kernelCpus, exHost]) exWorld gone base (teemKern fun _ => false)
    (teem fun _ => false) (followCfg enter) X 1 (fun _ => false) fork true clone attached fuel hf
    (teem_kept _ (followCfg enter) fork clone attached fuel) out

-- call 13, which process 8 ends at its fourth stop (C136)
example : ((exWorld 13).regs "orig_rax", "rt_sigaction") ∈ namesX86_64.kernel ∧ 13 ∉ namesX86_64.misnamed ∧ namesX86_64.unknown 13 = false := by
  decide +kernel

example (enter : Bool) (base : LineView) (pid id : Nat) (line : Str) := C137_line (exHost enter) conventionX86_64 namesX86_64 (by simp [kernelCpus, exHost])
  (fun n => if n = 2 then exOpen else exFailed) exOpen.mem base pid id 2 (some 0) "open" (by decide +kernel) (.inl (by decide)) line

/-! ## what is wrong -/

/-- The name is not always the kernel's: number 283 of x86-64 is shown under another name, number 449 of x86-64 without a name, and number 52 of i386
under the name that the kernel gives to number 22. -/
theorem C137_refuted :
    readSyscall cpuX86_64 (fun r => if r = "orig_rax" then 283 else 0) = "timerfd" ∧ (283, "timerfd_create") ∈ kernelX86_64 ∧
    readSyscall cpuX86_64 (fun r => if r = "orig_rax" then 449 else 0) = "syscall<449>" ∧ (449, "futex_waitv") ∈ kernelX86_64 ∧
    readSyscall cpuI386 (fun r => if r = "orig_eax" then 52 else 0) = "umount" ∧ (52, "umount2") ∈ kernelI386 ∧ (22, "umount") ∈ kernelI386 := by
  decide +kernel

/-- A program of 32 bits that calls `write(1, 4096, 4)` on x86-64: the number 4 is that of i386 and the arguments are in `rbx`, `rcx` and `rdx`. -/
def exCompat : Snap where
  regs := fun r => if r = "orig_rax" then 4 else if r = "rbx" then 1 else if r = "rcx" then 4096 else if r = "rdx" then 4 else if r = "rax" then 4 else 0
  mem := exMemory [47, 101, 116, 99]

/-- The table is chosen by the CPU and not by the program: `strace.py` of 64 bits shows the calls of a program of 32 bits under the names of other calls,
with other registers as arguments. -/
theorem C137_compat_refuted : (exCompat.regs "orig_rax", "write") ∈ kernelI386 ∧
    (exHost false).endText exCompat exCompat = "stat(NULL, NULL)".toList ∧ (exHost false).resultAt exCompat exCompat = "4".toList := by
  decide +kernel

end PT
