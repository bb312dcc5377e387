import Verif.Props.Call

/-! C71: names of system calls against the headers of the kernel. -/

namespace PT
open Spec

private theorem unique_kernel : (increasing kernelX86_64 && increasing kernelI386 && increasing kernelGeneric && increasing kernelGeneric32) = true := by
  decide +kernel
private theorem ukX : increasing kernelX86_64 = true := by have := unique_kernel; simp only [Bool.and_eq_true] at this; exact this.1.1.1
private theorem ukI : increasing kernelI386 = true := by have := unique_kernel; simp only [Bool.and_eq_true] at this; exact this.1.1.2
private theorem ukG : increasing kernelGeneric = true := by have := unique_kernel; simp only [Bool.and_eq_true] at this; exact this.1.2
private theorem ukH : increasing kernelGeneric32 = true := by have := unique_kernel; simp only [Bool.and_eq_true] at this; exact this.2

private theorem sorted (cpu : CallCpu) (hc : cpu ∈ callCpus) (tab : List (Nat × String)) (ht : cpu.names = some tab) : increasing tab = true := by
  have h := (List.all_eq_true.1 unique_all) cpu hc
  rw [ht] at h
  exact h

private theorem agX : agree (fun n => Nat.beq n 283) 2000 Tables.x86_64 kernelX86_64 = true := by decide +kernel
private theorem agI : agree (fun n => i386Renamed.any (Nat.beq n)) 2000 Tables.i386 kernelI386 = true := by decide +kernel
private theorem agA : agree (fun _ => false) 2000 Tables.aarch64 kernelGeneric = true := by decide +kernel
private theorem agR : agree (fun _ => false) 2000 Tables.riscv64 kernelGeneric = true := by decide +kernel
private theorem agQ : agree (fun _ => false) 2000 Tables.riscv32 kernelGeneric32 = true := by decide +kernel

/-- x86_64: at most one number has another name than in the header. -/
theorem C71_x86_64_partial (n : Nat) (a b : String) (ha : (n, a) ∈ Tables.x86_64) (hb : (n, b) ∈ kernelX86_64) (hn : n ≠ 283) : a = b :=
  agree_spec _ _ _ _ (sorted cpuX86_64 (by simp [callCpus]) _ rfl) ukX agX n a b ha hb (by
    rw [Bool.eq_false_iff]; exact fun h => hn (Nat.eq_of_beq_eq_true h))

example : (59, "execve") ∈ Tables.x86_64 ∧ (59, "execve") ∈ kernelX86_64 := by decide +kernel

/-- Number 283 is `timerfd_create`; the name shown has no prototype, although the right one has. -/
theorem C71_refuted : (283, "timerfd") ∈ Tables.x86_64 ∧ (283, "timerfd_create") ∈ kernelX86_64 ∧ prototypes.lookup "timerfd" = none ∧
    (prototypes.lookup "timerfd_create").isSome = true := by decide +kernel

/-- aarch64: every name is the kernel's. -/
theorem C71_aarch64 (n : Nat) (a b : String) (ha : (n, a) ∈ Tables.aarch64) (hb : (n, b) ∈ kernelGeneric) : a = b :=
  agree_spec _ _ _ _ (sorted cpuAarch64 (by simp [callCpus]) _ rfl) ukG agA n a b ha hb rfl

example : (79, "newfstatat") ∈ Tables.aarch64 ∧ (79, "newfstatat") ∈ kernelGeneric := by decide +kernel

/-- riscv64: every name is the kernel's. -/
theorem C71_riscv64 (n : Nat) (a b : String) (ha : (n, a) ∈ Tables.riscv64) (hb : (n, b) ∈ kernelGeneric) : a = b :=
  agree_spec _ _ _ _ (sorted cpuRiscv64 (by simp [callCpus]) _ rfl) ukG agR n a b ha hb rfl

example := C71_riscv64 222 "mmap" "mmap" (by decide +kernel) (by decide +kernel)

/-- riscv32: every name is the kernel's. -/
theorem C71_riscv32 (n : Nat) (a b : String) (ha : (n, a) ∈ Tables.riscv32) (hb : (n, b) ∈ kernelGeneric32) : a = b :=
  agree_spec _ _ _ _ (sorted cpuRiscv32 (by simp [callCpus]) _ rfl) ukH agQ n a b ha hb rfl

example : (222, "mmap2") ∈ Tables.riscv32 ∧ (222, "mmap2") ∈ kernelGeneric32 ∧ (222, "mmap") ∈ Tables.riscv64 := by decide +kernel

/-- i386: the names are the header's, except where the table has the names of functions. -/
theorem C71_i386_partial (n : Nat) (a b : String) (ha : (n, a) ∈ Tables.i386) (hb : (n, b) ∈ kernelI386) (hn : n ∉ i386Renamed) : a = b :=
  agree_spec _ _ _ _ (sorted cpuI386 (by simp [callCpus]) _ rfl) ukI agI n a b ha hb (by
    rw [Bool.eq_false_iff]
    intro h
    obtain ⟨m, hm, he⟩ := List.any_eq_true.1 h
    exact hn (Nat.eq_of_beq_eq_true he ▸ hm))

example := C71_i386_partial 11 "execve" "execve" (by decide +kernel) (by decide +kernel) (by decide)

/-- i386: `umount2` is shown as `umount`, `umount` as `oldumount`. -/
theorem C71_i386_refuted : (52, "umount") ∈ Tables.i386 ∧ (52, "umount2") ∈ kernelI386 ∧ (22, "oldumount") ∈ Tables.i386 ∧
    (22, "umount") ∈ kernelI386 := by decide +kernel

private theorem cvX : covers (fun n => Nat.ble 441 n) 2000 Tables.x86_64 kernelX86_64 = true := by decide +kernel
private theorem cvA : covers (fun n => Nat.ble 440 n || (Nat.ble 403 n && Nat.ble n 423)) 2000 Tables.aarch64 kernelGeneric = true := by
  decide +kernel
private theorem cvR : covers (fun n => Nat.ble 451 n || (Nat.ble 403 n && Nat.ble n 423)) 2000 Tables.riscv64 kernelGeneric = true := by
  decide +kernel

private theorem ble_false {a b : Nat} (h : b < a) : Nat.ble a b = false := by
  rw [Bool.eq_false_iff]; intro e; exact absurd (Nat.le_of_ble_eq_true e) (by omega)

/-- x86_64: every number up to 440 of the header is known. -/
theorem C71_known_x86_64 (n : Nat) (b : String) (hb : (n, b) ∈ kernelX86_64) (hn : n ≤ 440) : ∃ a, (n, a) ∈ Tables.x86_64 :=
  covers_spec _ _ _ _ cvX n b hb (ble_false (by omega))

example := C71_known_x86_64 439 "faccessat2" (by decide +kernel) (by decide)

private theorem time64 {n m : Nat} (hn : n ≤ m) (h : n < 403 ∨ 423 < n) : (Nat.ble (m + 1) n || (Nat.ble 403 n && Nat.ble n 423)) = false := by
  rw [ble_false (by omega), Bool.false_or]
  rcases h with h | h
  · rw [ble_false h, Bool.false_and]
  · rw [ble_false h, Bool.and_false]

/-- aarch64: every number up to 439 of the header is known, except those for 32 bit machines. -/
theorem C71_known_aarch64 (n : Nat) (b : String) (hb : (n, b) ∈ kernelGeneric) (hn : n ≤ 439) (h : n < 403 ∨ 423 < n) :
    ∃ a, (n, a) ∈ Tables.aarch64 := covers_spec _ _ _ _ cvA n b hb (time64 hn h)

example := C71_known_aarch64 439 "faccessat2" (by decide +kernel) (by decide) (.inr (by decide))

/-- riscv64: every number up to 450 of the header is known, except those for 32 bit machines. -/
theorem C71_known_riscv64 (n : Nat) (b : String) (hb : (n, b) ∈ kernelGeneric) (hn : n ≤ 450) (h : n < 403 ∨ 423 < n) :
    ∃ a, (n, a) ∈ Tables.riscv64 := covers_spec _ _ _ _ cvR n b hb (time64 hn h)

example : (439, "faccessat2") ∈ kernelX86_64 ∧ (439, "faccessat2") ∈ kernelGeneric := by decide +kernel

private theorem lookup_of_mem : ∀ (l : List (Nat × String)) (k : Nat) (v : String), (k, v) ∈ l → ∃ w, l.lookup k = some w := by
  intro l
  induction l with
  | nil => intro k v h; cases h
  | cons p l ih =>
    intro k v h
    obtain ⟨a, b⟩ := p
    rw [List.lookup_cons]
    by_cases he : (k == a) = true
    · exact ⟨b, by rw [he]⟩
    · have hne := Bool.not_eq_true _ ▸ he
      rw [hne]
      rcases List.mem_cons.1 h with h | h
      · injection h with h _
        rw [h] at he
        exact absurd (beq_self_eq_true a) he
      · exact ih k v h

/-- The name shown is the one of the table; without one, the number is shown. -/
theorem C71_shown (cpu : CallCpu) (hc : cpu ∈ callCpus) (tab : List (Nat × String)) (ht : cpu.names = some tab) (regs : String → Nat) :
    (∀ name, (regs cpu.number, name) ∈ tab → readSyscall cpu regs = name) ∧
    ((∀ name, (regs cpu.number, name) ∉ tab) → readSyscall cpu regs = "syscall<" ++ toString (regs cpu.number) ++ ">") := by
  unfold readSyscall
  rw [ht]
  refine ⟨?_, ?_⟩
  · intro name hn
    obtain ⟨w, hw⟩ := lookup_of_mem tab _ _ hn
    simp only [Option.getD_some, hw]
    exact C66_unique cpu hc tab ht _ w name (lookup_mem _ _ _ hw) hn
  · intro hno
    cases h : tab.lookup (regs cpu.number) with
    | none => simp only [Option.getD_some, h]
    | some w => exact absurd (lookup_mem _ _ _ h) (hno w)

example : readSyscall cpuX86_64 (fun r => if r = "orig_rax" then 59 else 0) = "execve" ∧
    readSyscall cpuX86_64 (fun r => if r = "orig_rax" then 999 else 0) = "syscall<999>" := by decide +kernel

end PT
