import Verif.Model.BsdCall
import Verif.Spec.BsdCall
import Verif.Props.Format
import Verif.Lemmas.Py

/-! C120: system calls on FreeBSD and OpenBSD. -/

namespace PT
open Spec

/-- **C120** The table of FreeBSD gives each of these numbers its name, and each number one name. -/
theorem C120_names : (∀ e ∈ freebsdCalls, Tables.freebsd.lookup e.1 = some e.2) ∧ (Tables.freebsd.map (·.1)).Nodup := by
  decide +kernel

/-- **C120** The name of a call: on FreeBSD that of the table; on OpenBSD no call has a name. -/
theorem C120_name (h : BsdHost) (regs : String → Nat) (hf : h.openbsd = false) :
    ∀ e ∈ freebsdCalls, regs (if h.x86_64 then "rax" else "eax") = e.1 → bsdReadSyscall h regs = e.2 := by
  intro e he hr
  unfold bsdReadSyscall BsdHost.accumulator BsdHost.names
  rw [hr, hf, if_neg (by decide), C120_names.1 e he]

example : bsdReadSyscall ⟨false, true, false⟩ (fun _ => 5) = "open" :=
  C120_name ⟨false, true, false⟩ (fun _ => 5) rfl (5, "open") (by decide +kernel) rfl

theorem C120_openbsd_refuted (h : BsdHost) (ho : h.openbsd = true) (regs : String → Nat) :
    bsdReadSyscall h regs = "syscall<" ++ toString (regs (if h.x86_64 then "rax" else "eax")) ++ ">" := by
  unfold bsdReadSyscall BsdHost.accumulator BsdHost.names
  rw [ho, if_pos rfl]
  rfl

theorem bsdStackWords_run {σ : Type} (W : Nat) (readWord : Nat → Py σ Nat) (word : Nat → Nat) (s : σ) : ∀ (n address : Nat),
    (∀ i < n, readWord (address + W * i) s = (.ok (word (address + W * i)), s)) →
    bsdStackWords W readWord n address s = (.ok ((List.range n).map fun i => word (address + W * i)), s) := by
  intro n
  induction n with
  | zero => intro address _; rfl
  | succ n ih =>
    intro address h
    have h0 := h 0 (by omega)
    rw [Nat.mul_zero, Nat.add_zero] at h0
    have hs : ∀ i, address + W + W * i = address + W * (i + 1) := fun i => by rw [Nat.mul_succ]; omega
    have hr := ih (address + W) (fun i hi => by rw [hs]; exact h (i + 1) (by omega))
    rw [bsdStackWords, Py.run_bind_ok h0, Py.run_bind_ok hr, List.range_succ_eq_map, List.map_cons, List.map_map]
    simp only [hs]
    rfl

theorem bsdArgumentValues_run {σ : Type} (h : BsdHost) (readWord : Nat → Py σ Nat) (regs : String → Nat) (word : Nat → Nat) (s : σ)
    (hw : h.x86_64 = false → ∀ i < 6, readWord (regs "esp" + 4 + 4 * i) s = (.ok (word (regs "esp" + 4 + 4 * i)), s)) :
    bsdArgumentValues h readWord regs s = (.ok ((List.range 6).map (bsdArgument h.x86_64 regs word)), s) := by
  unfold bsdArgumentValues
  cases hx : h.x86_64 with
  | true => rfl
  | false =>
    have hW : h.arch.W = 4 := by unfold BsdHost.arch; rw [hx]; rfl
    rw [if_neg (by decide), hW]
    rw [bsdStackWords_run 4 readWord word s 6 (regs "esp" + 4) (hw hx)]
    rfl

theorem bsdReadSyscall_not_socketcall (h : BsdHost) (regs : String → Nat) : bsdReadSyscall h regs ≠ "socketcall" := by
  unfold bsdReadSyscall
  have hun : ∀ n : Nat, "syscall<" ++ toString n ++ ">" ≠ "socketcall" := by
    intro n he
    have := congrArg (fun s : String => s.toList.getLast?) he
    simp only [String.toList_append] at this
    rw [List.getLast?_append, (by decide : (">" : String).toList.getLast? = some '>')] at this
    exact absurd (show some '>' = _ from this) (by decide)
  have ht : ∀ p ∈ Tables.freebsd, p.2 ≠ "socketcall" := by decide +kernel
  cases hl : h.names.lookup (regs h.accumulator) with
  | none => exact hun _
  | some name =>
    unfold BsdHost.names at hl
    split at hl
    · cases hl
    · intro he
      have hm : ∀ (l : List (Nat × String)) k v, l.lookup k = some v → ∃ p ∈ l, p.2 = v := by
        intro l k v
        induction l with
        | nil => intro h; cases h
        | cons p l ih =>
          intro h
          rw [List.lookup_cons] at h
          split at h
          · injection h with h
            exact ⟨p, List.mem_cons_self, h⟩
          · obtain ⟨q, hq, hv⟩ := ih h
            exact ⟨q, List.mem_cons_of_mem _ hq, hv⟩
      obtain ⟨p, hp, hv⟩ := hm _ _ _ hl
      exact ht p hp (hv.trans he)

/-- **C120 (partial)** When the words of the stack can be read, the arguments of a call that is not formatted early are those that the kernel
takes, as far as the prototype names them. -/
theorem C120_arguments_partial {σ : Type} (h : BsdHost) (replace : Bool) (readWord : Nat → Py σ Nat) (create : String → SysArg → Str)
    (regs : String → Nat) (word : Nat → Nat) (s : σ)
    (hw : h.x86_64 = false → ∀ i < 6, readWord (regs "esp" + 4 + 4 * i) s = (.ok (word (regs "esp" + 4 + 4 * i)), s))
    (hn : bsdReadSyscall h regs ∉ ["select", "execve", "clone"]) :
    ∃ c, bsdEnter h replace readWord create regs s = (.ok c, s) ∧ c.name = bsdReadSyscall h regs ∧
      (∀ (i : Nat) (a : SysArg), c.arguments[i]? = some a → i < 6 ∧ a.value = bsdArgument h.x86_64 regs word i) ∧
      (∀ restype formats, prototypes.lookup c.name = some (restype, formats) → c.restype = restype ∧
        c.arguments.length = min 6 formats.length ∧
        ∀ (i : Nat) (a : SysArg), c.arguments[i]? = some a → ∃ f : String × String, formats[i]? = some f ∧ a.type = some f.1 ∧ a.name = some f.2) ∧
      (prototypes.lookup c.name = none → c.arguments.length = 6) := by
  have hpre : preformatArguments.lookup (bsdReadSyscall h regs) = none := by
    rw [List.lookup_eq_none_iff]
    intro p hp
    simp only [preformatArguments, List.mem_cons, List.not_mem_nil, or_false] at hp
    simp only [List.mem_cons, List.not_mem_nil, or_false, not_or] at hn
    rcases hp with rfl | rfl | rfl
    · simpa using hn.1
    · simpa using hn.2.1
    · simpa using hn.2.2
  have hname : (readArguments prototypes { name := bsdReadSyscall h regs } ((List.range 6).map (bsdArgument h.x86_64 regs word))).name
      = bsdReadSyscall h regs := by
    unfold readArguments
    split <;> rfl
  have hrun : bsdEnter h replace readWord create regs s =
      (.ok (readArguments prototypes { name := bsdReadSyscall h regs } ((List.range 6).map (bsdArgument h.x86_64 regs word))), s) := by
    unfold bsdEnter
    rw [Py.run_bind_ok (bsdArgumentValues_run h readWord regs word s hw)]
    simp only [hname]
    rw [if_neg (fun hh => bsdReadSyscall_not_socketcall h regs hh.1)]
    unfold preformat
    rw [hname, hpre]
    rfl
  refine ⟨_, hrun, hname, ?_, ?_, ?_⟩
  · intro i a ha
    unfold readArguments at ha
    split at ha
    · simp only [List.nil_append, List.getElem?_map, List.getElem?_zip_eq_some, Option.map_eq_some_iff] at ha
      obtain ⟨⟨v, f⟩, ⟨⟨j, hj, hv⟩, -⟩, rfl⟩ := ha
      simp only at hv
      subst hv
      obtain ⟨hlt, rfl⟩ := List.getElem?_eq_some_iff.1 hj
      rw [List.length_range] at hlt
      exact ⟨hlt, by rw [List.getElem_range]⟩
    · simp only [List.nil_append, List.getElem?_map, Option.map_eq_some_iff] at ha
      obtain ⟨v, ⟨j, hj, rfl⟩, rfl⟩ := ha
      obtain ⟨hlt, rfl⟩ := List.getElem?_eq_some_iff.1 hj
      rw [List.length_range] at hlt
      exact ⟨hlt, by rw [List.getElem_range]⟩
  · intro restype formats hp
    rw [hname] at hp
    unfold readArguments
    simp only [hp]
    refine ⟨trivial, by simp, fun i a ha => ?_⟩
    simp only [List.nil_append, List.getElem?_map, Option.map_eq_some_iff] at ha
    obtain ⟨⟨v, f⟩, hz, rfl⟩ := ha
    obtain ⟨-, hf⟩ := List.getElem?_zip_eq_some.1 hz
    exact ⟨f, hf, rfl, rfl⟩
  · intro hp
    rw [hname] at hp
    unfold readArguments
    simp [hp]

/-- **C120 (refuted)** On i386 six words are read, whatever the call takes: a call without arguments made near the end of the stack ends the
trace. -/
theorem C120_unreadable_refuted {σ : Type} (h : BsdHost) (hx : h.x86_64 = false) (replace : Bool) (readWord : Nat → Py σ Nat)
    (create : String → SysArg → Str) (regs : String → Nat) (word : Nat → Nat) (s : σ) (k : Nat) (hk : k < 6) (e : Exc)
    (hw : ∀ i < k, readWord (regs "esp" + 4 + 4 * i) s = (.ok (word i), s))
    (he : readWord (regs "esp" + 4 + 4 * k) s = (.error e, s)) :
    bsdEnter h replace readWord create regs s = (.error e, s) := by
  have key : ∀ (n address k : Nat) (word : Nat → Nat), k < n → (∀ i < k, readWord (address + 4 * i) s = (.ok (word i), s)) →
      readWord (address + 4 * k) s = (.error e, s) → bsdStackWords 4 readWord n address s = (.error e, s) := by
    intro n
    induction n with
    | zero => intro _ k _ hk; omega
    | succ n ih =>
      intro address k word hk hw he
      cases k with
      | zero => rw [bsdStackWords]; exact Py.run_bind_error he
      | succ k =>
        have hs : ∀ i, address + 4 + 4 * i = address + 4 * (i + 1) := fun i => by omega
        have h0 := hw 0 (by omega)
        rw [bsdStackWords, Py.run_bind_ok (by exact h0)]
        exact Py.run_bind_error (ih (address + 4) k (fun i => word (i + 1)) (by omega) (fun i hi => by rw [hs]; exact hw (i + 1) (by omega))
          (by rw [hs]; exact he))
  have hW : h.arch.W = 4 := by unfold BsdHost.arch; rw [hx]; rfl
  unfold bsdEnter
  apply Py.run_bind_error
  unfold bsdArgumentValues
  rw [hx, if_neg (by decide), hW]
  exact key 6 _ k word hk hw he

/-- **C120 (refuted)** An argument of 64 bits takes two words on i386, the prototypes are those of Linux: the `whence` shown for `lseek` is the
upper half of the offset. -/
theorem C120_lseek_refuted {σ : Type} (readWord : Nat → Py σ Nat) (create : String → SysArg → Str) (replace : Bool) (regs : String → Nat)
    (s : σ) (fd offset whence w5 w6 : Nat) (hn : regs "eax" = 478)
    (h0 : readWord (regs "esp" + 4) s = (.ok fd, s)) (h1 : readWord (regs "esp" + 8) s = (.ok (offset % 2 ^ 32), s))
    (h2 : readWord (regs "esp" + 12) s = (.ok (offset / 2 ^ 32), s)) (h3 : readWord (regs "esp" + 16) s = (.ok whence, s))
    (h4 : readWord (regs "esp" + 20) s = (.ok w5, s)) (h5 : readWord (regs "esp" + 24) s = (.ok w6, s)) :
    ∃ c, bsdEnter ⟨false, false, false⟩ replace readWord create regs s = (.ok c, s) ∧ c.name = "lseek" ∧
      c.arguments.map (fun a => (a.name, a.value)) =
        [(some "fd", fd), (some "offset", offset % 2 ^ 32), (some "whence", offset / 2 ^ 32)] := by
  have hname : bsdReadSyscall ⟨false, false, false⟩ regs = "lseek" :=
    C120_name ⟨false, false, false⟩ regs rfl (478, "lseek") (by decide) hn
  have hp : prototypes.lookup "lseek" = some ("long", [("unsigned int", "fd"), ("off_t", "offset"), ("unsigned int", "whence")]) := by
    decide +kernel
  have hv : bsdArgumentValues ⟨false, false, false⟩ readWord regs s = (.ok [fd, offset % 2 ^ 32, offset / 2 ^ 32, whence, w5, w6], s) := by
    show bsdStackWords 4 readWord 6 (regs "esp" + 4) s = _
    simp only [bsdStackWords]
    rw [Py.run_bind_ok h0]
    rw [Py.run_bind_ok (Py.run_bind_ok h1 |>.trans ?_)]
    · rfl
    rw [Py.run_bind_ok (Py.run_bind_ok h2 |>.trans ?_)]
    · rfl
    rw [Py.run_bind_ok (Py.run_bind_ok h3 |>.trans ?_)]
    · rfl
    rw [Py.run_bind_ok (Py.run_bind_ok h4 |>.trans ?_)]
    · rfl
    rw [Py.run_bind_ok (Py.run_bind_ok h5 |>.trans ?_)]
    · rfl
    rfl
  refine ⟨readArguments prototypes { name := "lseek" } [fd, offset % 2 ^ 32, offset / 2 ^ 32, whence, w5, w6], ?_, ?_, ?_⟩
  · unfold bsdEnter
    rw [Py.run_bind_ok hv, hname]
    unfold readArguments
    simp only [hp]
    rw [if_neg (by rintro ⟨h, -⟩; exact absurd h (by decide))]
    rfl
  · unfold readArguments
    simp only [hp]
  · unfold readArguments
    simp only [hp]
    rfl

/-- Registers of a process on FreeBSD/i386 in `lseek(3, 5 GiB + 1, SEEK_END)`. -/
def exBsdRegs (name : String) : Nat := if name = "eax" then 478 else if name = "esp" then 0xbfbfe000 else 0x283

/-- Its stack, of which the first five words can be read. -/
def exBsdWord (address : Nat) : Py Unit Nat := fun s =>
  if address = 0xbfbfe004 then (.ok 3, s)
  else if address = 0xbfbfe008 then (.ok 0x40000001, s)
  else if address = 0xbfbfe00c then (.ok 1, s)
  else if address = 0xbfbfe010 then (.ok 2, s)
  else if address = 0xbfbfe014 then (.ok 7, s)
  else if address = 0xbfbfe018 then (.ok 8, s)
  else (.error (.ptrace (some 14)), s)

example := C120_arguments_partial (h := ⟨false, false, false⟩) true exBsdWord (fun _ _ => []) exBsdRegs
  (fun address => [3, 0x40000001, 1, 2, 7, 8].getD ((address - 0xbfbfe004) / 4) 0) ()
  (fun _ i hi => by rcases (by omega : i = 0 ∨ i = 1 ∨ i = 2 ∨ i = 3 ∨ i = 4 ∨ i = 5) with rfl | rfl | rfl | rfl | rfl | rfl <;> decide +kernel)
  (by decide +kernel)

/-- The hypotheses of `C120_lseek_refuted` and `C120_arguments_partial`. -/
example : exBsdRegs "eax" = 478 ∧ (5368709121 : Nat) / 2 ^ 32 = 1 ∧
    ∃ c, bsdEnter ⟨false, false, false⟩ true exBsdWord (fun _ _ => []) exBsdRegs () = (.ok c, ()) ∧ c.name = "lseek" ∧
      c.arguments.map (fun a => (a.name, a.value)) = [(some "fd", 3), (some "offset", 0x40000001), (some "whence", 1)] :=
  ⟨rfl, by decide, C120_lseek_refuted exBsdWord _ true exBsdRegs () 3 5368709121 2 7 8 rfl rfl rfl rfl rfl rfl rfl⟩

/-- The hypotheses of `C120_unreadable_refuted`: `getpid` four words below the end of the stack. -/
example : bsdReadSyscall ⟨false, false, false⟩ (fun name => if name = "eax" then 20 else 0xbfbfe008) = "getpid" ∧
    bsdEnter ⟨false, false, false⟩ true exBsdWord (fun _ _ => []) (fun name => if name = "eax" then 20 else 0xbfbfe008) () =
      (.error (.ptrace (some 14)), ()) :=
  ⟨by decide +kernel, C120_unreadable_refuted ⟨false, false, false⟩ rfl true exBsdWord _ _ (fun i => [1, 2, 7, 8].getD i 0) () 4 (by decide) _
    (fun i hi => by rcases (by omega : i = 0 ∨ i = 1 ∨ i = 2 ∨ i = 3) with rfl | rfl | rfl | rfl <;> rfl) rfl⟩

/-- The number in the accumulator. -/
def bsdNumber : BsdOutcome → Nat
  | .value v => v
  | .error e => e

theorem bsdOutcome_reg {h : BsdHost} {regs : String → Nat} {o : BsdOutcome} (ho : bsdOutcome h.x86_64 regs = o) :
    regs h.accumulator = bsdNumber o := by
  rw [← ho]
  unfold bsdOutcome BsdHost.accumulator
  simp only []
  by_cases hc : regs (if h.x86_64 then "rflags" else "eflags") % 2 = 1
  · rw [if_pos hc]; rfl
  · rw [if_neg hc]; rfl

/-- **C120 (partial)** The result of a call that did not fail: its value as a signed number, marked as an error exactly when it is the negative
of an error number. -/
theorem C120_result_partial (h : BsdHost) (errorcode : Nat → Option Str) (strerror : Nat → Str) (c : SysCall) (hc : isPointer c.restype = false)
    (regs : String → Nat) (v : Nat) (hv : bsdOutcome h.x86_64 regs = .value v) :
    ∃ r t rest, IsSigned (8 * h.arch.W - 1) v r ∧ decInt t = some r ∧ bsdExit h errorcode strerror c regs = t ++ rest ∧
      ((∀ (e : Nat) name, r = -(e : Int) → 0 < e → errorcode e ≠ some name) →
        (0 ≤ r ∧ r ≤ 9 → rest = []) ∧
        (¬ (0 ≤ r ∧ r ≤ 9) → ∃ h, hexLiteral h = some v ∧ rest = " (".toList ++ h ++ [')'])) := by
  have hva : regs h.accumulator = v := by
    exact bsdOutcome_reg hv
  obtain ⟨r, t, rest, h1, h2, h3, -, h4⟩ := C58_result h.arch errorcode strerror v
  exact ⟨r, t, rest, h1, h2, by unfold bsdExit; rw [hc, hva]; exact h3, h4⟩

example := C120_result_partial ⟨false, true, false⟩ (fun _ => none) (fun _ => []) ⟨"read", "long", []⟩ (by decide +kernel)
  (fun name => if name = "rflags" then 0x202 else 512) 512 (by decide)

/-- **C120 (refuted)** A call that failed is shown as one that returned the error number: the text is that of the same registers without the
carry flag, and names no error. -/
theorem C120_error_refuted (h : BsdHost) (errorcode : Nat → Option Str) (strerror : Nat → Str) (c : SysCall) (hc : isPointer c.restype = false)
    (regs regs' : String → Nat) (e : Nat) (he : e < 2 ^ (8 * h.arch.W - 1)) (h1 : bsdOutcome h.x86_64 regs = .error e)
    (h2 : bsdOutcome h.x86_64 regs' = .value e) :
    bsdExit h errorcode strerror c regs = bsdExit h errorcode strerror c regs' ∧
    ∃ t rest, decInt t = some (e : Int) ∧ bsdExit h errorcode strerror c regs = t ++ rest ∧ (e ≤ 9 → rest = []) ∧
      (9 < e → ∃ h, hexLiteral h = some e ∧ rest = " (".toList ++ h ++ [')']) := by
  have ha : regs h.accumulator = e := by
    exact bsdOutcome_reg h1
  have hb : regs' h.accumulator = e := by
    exact bsdOutcome_reg h2
  refine ⟨by unfold bsdExit; rw [ha, hb], ?_⟩
  obtain ⟨r, t, rest, hs, ht, hr, -, h4⟩ := C58_result h.arch errorcode strerror e
  have hre : r = (e : Int) := by
    obtain ⟨l1, l2, k, hk⟩ := hs
    have hW : 0 < 8 * h.arch.W := by rcases (by unfold Arch.W; split <;> simp : h.arch.W = 4 ∨ h.arch.W = 8) with hw | hw <;> omega
    have he' : (e : Int) < 2 ^ (8 * h.arch.W - 1) := by exact_mod_cast he
    generalize 8 * h.arch.W - 1 = n at *
    rw [pow_succ] at hk
    generalize hP : (2 : Int) ^ n = P at *
    have hk0 : k = 0 := by
      rcases Int.lt_trichotomy k 0 with hneg | h0 | hpos
      · have : k * (P * 2) ≤ -1 * (P * 2) := Int.mul_le_mul_of_nonneg_right (by omega) (by omega)
        omega
      · exact h0
      · have : 1 * (P * 2) ≤ k * (P * 2) := Int.mul_le_mul_of_nonneg_right (by omega) (by omega)
        omega
    subst hk0
    omega
  subst hre
  refine ⟨t, rest, ht, by unfold bsdExit; rw [hc, ha]; exact hr, ?_, ?_⟩
  · intro h9
    exact (h4 (fun e' _ h' h0 => by omega)).1 ⟨by omega, by omega⟩
  · intro h9
    exact (h4 (fun e' _ h' h0 => by omega)).2 (by omega)

/-- The hypotheses of `C120_error_refuted`: `open` fails with `ENOENT`, or returns the descriptor 2. -/
example : bsdOutcome true (fun name => if name = "rflags" then 0x203 else 2) = .error 2 ∧
    bsdOutcome true (fun name => if name = "rflags" then 0x202 else 2) = .value 2 := by decide

end PT
