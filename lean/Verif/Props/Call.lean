import Verif.Model.Call
import Verif.Spec.Call
import Verif.Spec.KernelTables
import Verif.Lemmas.Py
import Verif.Lemmas.Tables
import Mathlib.Tactic.ByContra

/-! C66, C72, C73, C74: tables of system calls, registers, `socketcall`, and when arguments are formatted. -/

namespace PT
open Spec

/-! ### Checking tables -/

theorem lookup_mem {α β : Type} [BEq α] [LawfulBEq α] : ∀ (l : List (α × β)) (k : α) (v : β), l.lookup k = some v → (k, v) ∈ l := by
  intro l
  induction l with
  | nil => intro k v h; cases h
  | cons p l ih =>
    intro k v h
    obtain ⟨a, b⟩ := p
    rw [List.lookup_cons] at h
    by_cases he : (k == a) = true
    · rw [he] at h
      injection h with h
      rw [eq_of_beq he, h]; simp
    · rw [Bool.not_eq_true] at he
      rw [he] at h
      exact List.mem_cons_of_mem _ (ih k v h)

/-! ## C66 — well-formed tables -/

theorem unique_all : (callCpus.all fun c => increasing (c.names.getD [])) = true := by decide +kernel

/-- A number has one name, on every CPU. -/
theorem C66_unique (cpu : CallCpu) (hc : cpu ∈ callCpus) (tab : List (Nat × String)) (ht : cpu.names = some tab) (n : Nat) (a b : String)
    (ha : (n, a) ∈ tab) (hb : (n, b) ∈ tab) : a = b := by
  have h := (List.all_eq_true.1 unique_all) cpu hc
  rw [ht] at h
  exact increasing_unique tab h n a b ha hb

example := C66_unique cpuX86_64 (by simp [callCpus]) Tables.x86_64 rfl 42 "connect" "connect" (by decide +kernel) (by decide +kernel)

private theorem six : (prototypes.all fun p => decide (p.2.2.length ≤ 6)) = true := by decide +kernel
private theorem regs_six : (callCpus.all fun c => decide (6 ≤ c.arguments.length)) = true := by decide +kernel

/-- No declared argument is dropped: type, name and register of each, and the declared type of the result. -/
theorem C66_arguments (cpu : CallCpu) (hc : cpu ∈ callCpus) (regs : String → Nat) (name restype : String) (formats : List (String × String))
    (hp : prototypes.lookup name = some (restype, formats)) :
    ∃ args, readArguments prototypes { name := name } (readArgumentValues cpu regs) = ⟨name, restype, args⟩ ∧
      args.map (fun a => (a.type, a.name)) = formats.map (fun f => (some f.1, some f.2)) ∧
      args.map SysArg.value = (cpu.arguments.take formats.length).map regs ∧ ∀ a ∈ args, a.text = none := by
  have h6 : formats.length ≤ 6 := by
    have := (List.all_eq_true.1 six) _ (lookup_mem _ _ _ hp)
    simpa using this
  have hr : 6 ≤ cpu.arguments.length := by simpa using (List.all_eq_true.1 regs_six) cpu hc
  refine ⟨((readArgumentValues cpu regs).zip formats).map fun p => { value := p.1, type := some p.2.1, name := some p.2.2 }, ?_, ?_, ?_, ?_⟩
  · unfold readArguments
    simp only [hp, List.nil_append]
  · rw [List.map_map]
    have : ((readArgumentValues cpu regs).zip formats).map Prod.snd = formats :=
      List.map_snd_zip (by unfold readArgumentValues; rw [List.length_map]; omega)
    exact (List.map_map (f := Prod.snd) (g := fun f : String × String => (some f.1, some f.2))).symm.trans (by rw [this])
  · rw [List.map_map]
    show ((readArgumentValues cpu regs).zip formats).map Prod.fst = _
    have e : (readArgumentValues cpu regs).zip formats = ((readArgumentValues cpu regs).take formats.length).zip formats := by
      rw [List.zip_eq_zipWith, List.zip_eq_zipWith, List.zipWith_eq_zipWith_take_min]
      rw [show min (readArgumentValues cpu regs).length formats.length = formats.length by unfold readArgumentValues; rw [List.length_map]; omega]
      rw [List.take_length]
    rw [e, List.map_fst_zip (by rw [List.length_take]; omega)]
    unfold readArgumentValues
    rw [List.map_take]
  · intro a ha
    obtain ⟨p, _, rfl⟩ := List.mem_map.1 ha
    rfl

example : ∃ args, readArguments prototypes { name := "mmap2" } (readArgumentValues cpuI386 fun r => r.length) = ⟨"mmap2", "long", args⟩ ∧
    args.length = 6 := ⟨_, rfl, by decide +kernel⟩

/-- A call without a prototype shows every argument register. -/
theorem C66_unknown (cpu : CallCpu) (regs : String → Nat) (name : String) (hp : prototypes.lookup name = none) :
    readArguments prototypes { name := name } (readArgumentValues cpu regs) = ⟨name, "long", cpu.arguments.map fun r => { value := regs r }⟩ := by
  unfold readArguments readArgumentValues
  simp only [hp, List.nil_append, List.map_map]
  rfl

example : prototypes.lookup "timerfd" = none ∧ (283, "timerfd") ∈ Tables.x86_64 := by decide +kernel

private theorem preformat_small : (preformatArguments.all fun p => match prototypes.lookup p.1 with
    | some (_, formats) => p.2.all fun i => decide (i < formats.length)
    | none => false) = true := by decide +kernel

/-- The arguments that are formatted before a call exist. -/
theorem C66_preformat (name : String) (indexes : List Nat) (h : (name, indexes) ∈ preformatArguments) (i : Nat) (hi : i ∈ indexes) :
    ∃ restype formats, prototypes.lookup name = some (restype, formats) ∧ i < formats.length := by
  have := (List.all_eq_true.1 preformat_small) _ h
  simp only at this
  cases hp : prototypes.lookup name with
  | none => rw [hp] at this; cases this
  | some p =>
    obtain ⟨r, f⟩ := p
    rw [hp] at this
    simp only [List.all_eq_true, decide_eq_true_eq] at this
    exact ⟨r, f, rfl, this i hi⟩

example : ("execve", [0, 1, 2]) ∈ preformatArguments ∧ ("clone", [0, 1]) ∈ preformatArguments := by decide +kernel

private theorem alias_protos : (Tables.aliases.all fun e => (Tables.basePrototypes.lookup e.1).isSome && e.2.all fun copy =>
    prototypes.lookup copy == Tables.basePrototypes.lookup e.1) = true := by decide +kernel

/-- An alias has the prototype of the call it stands for. -/
theorem C66_alias (name copy : String) (copies : List String) (h : (name, copies) ∈ Tables.aliases) (hc : copy ∈ copies) :
    ∃ p, Tables.basePrototypes.lookup name = some p ∧ prototypes.lookup copy = some p := by
  have h := (List.all_eq_true.1 alias_protos) _ h
  rw [Bool.and_eq_true] at h
  obtain ⟨p, hp⟩ := Option.isSome_iff_exists.1 h.1
  have := eq_of_beq ((List.all_eq_true.1 h.2) copy hc)
  exact ⟨p, hp, this.trans hp⟩

example := C66_alias "mmap_pgoff" "mmap2" ["mmap", "mmap2"] (by decide +kernel) (by decide)

private theorem base_protos : (Tables.basePrototypes.all fun e =>
    (prototypes.lookup e.1 == Tables.basePrototypes.lookup e.1) || (Tables.aliases.any fun a => a.2.any (· == e.1))) = true := by decide +kernel

/-- All other calls keep theirs. -/
theorem C66_base (name : String) (p : String × List (String × String)) (h : (name, p) ∈ Tables.basePrototypes)
    (ha : ∀ e ∈ Tables.aliases, name ∉ e.2) : prototypes.lookup name = Tables.basePrototypes.lookup name := by
  have h := (List.all_eq_true.1 base_protos) _ h
  rw [Bool.or_eq_true] at h
  rcases h with h | h
  · exact eq_of_beq h
  · obtain ⟨e, he, hn⟩ := List.any_eq_true.1 h
    obtain ⟨x, hx, hxe⟩ := List.any_eq_true.1 hn
    have : x = name := eq_of_beq hxe
    exact absurd (this ▸ hx) (ha e he)

example : ("mmap_pgoff", ["mmap", "mmap2"]) ∈ Tables.aliases ∧ prototypes.lookup "mmap2" = prototypes.lookup "mmap" := by decide +kernel

private theorem socketcall_protos : (Tables.socketcall.all fun p => (prototypes.lookup p.2).isSome) = true := by decide +kernel

/-- Every sub-call of `socketcall` has a prototype. -/
theorem C66_socketcall (n : Nat) (name : String) (h : (n, name) ∈ Tables.socketcall) : ∃ p, prototypes.lookup name = some p := by
  have := (List.all_eq_true.1 socketcall_protos) _ h
  exact Option.isSome_iff_exists.1 this

example := C66_socketcall 11 "sendto" (by decide +kernel)

private theorem socket_names : (callCpus.all fun c => c.sockets.all fun s =>
    (c.names.getD []).any (fun p => p.2 == s) && (prototypes.lookup s).isSome) = true := by decide +kernel

/-- Every name of a socket call is in the table of its CPU, and has a prototype. -/
theorem C66_sockets (cpu : CallCpu) (hc : cpu ∈ callCpus) (tab : List (Nat × String)) (ht : cpu.names = some tab) (s : String)
    (hs : s ∈ cpu.sockets) : (∃ n, (n, s) ∈ tab) ∧ ∃ p, prototypes.lookup s = some p := by
  have h := (List.all_eq_true.1 ((List.all_eq_true.1 socket_names) cpu hc)) s hs
  rw [Bool.and_eq_true, ht] at h
  refine ⟨?_, Option.isSome_iff_exists.1 h.2⟩
  obtain ⟨⟨n, s'⟩, hm, he⟩ := List.any_eq_true.1 h.1
  have he' : s' = s := eq_of_beq he
  exact ⟨n, he' ▸ hm⟩


example : "connect" ∈ cpuX86_64.sockets ∧ (42, "connect") ∈ Tables.x86_64 ∧ (11, "sendto") ∈ Tables.socketcall := by decide +kernel

/-! ## C72 — registers -/

/-- The convention of each CPU is followed. -/
theorem C72_convention :
    (∀ p ∈ [(cpuX86_64, conventionX86_64), (cpuI386, conventionI386), (cpuArm32, conventionArm), (cpuAarch64, conventionArm64),
      (cpuRiscv32, conventionRiscv), (cpuRiscv64, conventionRiscv), (cpuPowerpc32, conventionPowerpc), (cpuPowerpc64, conventionPowerpc)],
      p.1.number = p.2.number ∧ p.1.result = p.2.result ∧ p.1.arguments.take 6 = p.2.arguments) := by decide +kernel

/-- Every register used exists, and no register holds two arguments. -/
theorem C72_exist : ∀ cpu ∈ cpuArm32 :: callCpus, cpu.number ∈ cpu.regs.names ∧ cpu.result ∈ cpu.regs.names ∧
    (∀ r ∈ cpu.arguments, r ∈ cpu.regs.names) ∧ cpu.arguments.Nodup := by decide +kernel

/-! ## C73 — `socketcall` -/

private theorem digits_lookup (n : Nat) : prototypes.lookup (toString n) = none := by
  have hall : (prototypes.all fun p => match p.1.toList with
      | c :: _ => !c.isDigit
      | [] => true) = true := by decide +kernel
  cases h : prototypes.lookup (toString n) with
  | none => rfl
  | some v =>
    have := (List.all_eq_true.1 hall) _ (lookup_mem _ _ _ h)
    have e : (toString n).toList = Nat.toDigits 10 n := by
      rw [Nat.toString_eq_repr, Nat.toList_repr]
    simp only [e] at this
    cases hd : Nat.toDigits 10 n with
    | nil => exact absurd hd Nat.toDigits_ne_nil
    | cons c cs =>
      have hc : c.isDigit = true := Nat.isDigit_of_mem_toDigits (b := 10) (n := n) (by omega) (by omega) (by rw [hd]; exact List.mem_cons_self)
      rw [hd] at this
      simp [hc] at this

/-- The CPUs with a `socketcall`, its number, and the registers of the call and of the array. -/
def socketCpus : List (CallCpu × Nat × String × String) :=
  [(cpuI386, 102, "ebx", "ecx"), (cpuPowerpc32, 102, "gpr3", "gpr4"), (cpuPowerpc64, 102, "gpr3", "gpr4")]

theorem socket_read {σ : Type} (cpu : CallCpu) (number : Nat) (r1 r2 : String) (hc : (cpu, number, r1, r2) ∈ socketCpus) (W : Nat)
    (readWord : Nat → Py σ Nat) (regs : String → Nat) (hn : regs cpu.number = number) :
    argsRead cpu W true readWord regs = setupSocketCall W readWord (regs r1) (regs r2) := by
  have hp : prototypes.lookup "socketcall" = some ("long", [("int", "call"), ("unsigned long *", "args")]) := by decide +kernel
  have key : ∀ x y l, cpu.arguments = x :: y :: l → (cpu.names.getD []).lookup number = some "socketcall" → 
      argsRead cpu W true readWord regs = setupSocketCall W readWord (regs x) (regs y) := by
    intro x y l hl ht
    have hs : readSyscall cpu regs = "socketcall" := by
      unfold readSyscall
      rw [hn, ht]
    unfold argsRead
    rw [hs]
    unfold readArguments readArgumentValues
    simp only [hp, hl, List.map_cons, List.zip_cons_cons, List.nil_append, List.zip_nil_right, List.map_nil]
    rfl
  simp only [socketCpus, List.mem_cons, Prod.mk.injEq, List.not_mem_nil, or_false] at hc
  rcases hc with ⟨rfl, rfl, rfl, rfl⟩ | ⟨rfl, rfl, rfl, rfl⟩ | ⟨rfl, rfl, rfl, rfl⟩
  · exact key _ _ _ rfl (by decide +kernel)
  · exact key _ _ _ rfl (by decide +kernel)
  · exact key _ _ _ rfl (by decide +kernel)

private theorem socket_enter {σ : Type} (cpu : CallCpu) (number : Nat) (r1 r2 : String) (hc : (cpu, number, r1, r2) ∈ socketCpus) (W : Nat)
    (readWord : Nat → Py σ Nat) (create : String → SysArg → Str) (regs : String → Nat) (hn : regs cpu.number = number) :
    argsEnter cpu W true readWord create regs =
      Py.bind (setupSocketCall W readWord (regs r1) (regs r2)) fun c => preformat create c := by
  unfold argsEnter
  rw [socket_read cpu number r1 r2 hc W readWord regs hn]

theorem socketArguments_ok {σ : Type} (W : Nat) (readWord : Nat → Py σ Nat) (mem : Nat → Nat)
    (hr : ∀ a s, readWord a s = (.ok (mem a), s)) : ∀ (formats : List (String × String)) (address : Nat) (s : σ),
    ∃ args, socketArguments W readWord formats address s = (.ok args, s) ∧
      args.map (fun a => (a.type, a.name)) = formats.map (fun f => (some f.1, some f.2)) ∧
      args.map SysArg.value = wordsAt mem W address formats.length ∧ ∀ a ∈ args, a.text = none := by
  intro formats
  induction formats with
  | nil => intro address s; exact ⟨[], rfl, rfl, rfl, (fun a h => by cases h)⟩
  | cons f formats ih =>
    intro address s
    obtain ⟨args, h1, h2, h3, h4⟩ := ih (address + W) s
    refine ⟨{ value := mem address, type := some f.1, name := some f.2 } :: args, ?_, ?_, ?_, ?_⟩
    · unfold socketArguments
      rw [Py.run_bind_ok (hr address s), Py.run_bind_ok h1]
      rfl
    · rw [List.map_cons, h2]; rfl
    · rw [List.map_cons, h3]
      unfold wordsAt
      rw [List.length_cons, List.range_succ_eq_map, List.map_cons, List.map_map]
      simp only [Nat.zero_mul, Nat.add_zero, Function.comp_def]
      congr 1
      apply List.map_congr_left
      intro i _
      rw [Nat.succ_mul]
      congr 1
      omega
    · intro a ha
      rcases List.mem_cons.1 ha with rfl | ha
      · rfl
      · exact h4 a ha

theorem socket_known : (kernelSocketcall.all fun p => Nat.ble 18 p.1 || (decide (Tables.socketcall.lookup p.1 = some p.2) &&
    (preformatArguments.lookup p.2).isNone && match prototypes.lookup p.2, socketcallCount.lookup p.1 with
    | some (r, formats), some n => decide (r = "long") && Nat.beq formats.length n
    | _, _ => false)) = true := by decide +kernel

/-- The first 17 sub-calls: the name is the kernel's, and the arguments are the words of the array, as many as the kernel takes, with the
declared types and names. -/
theorem C73_partial {σ : Type} (cpu : CallCpu) (number : Nat) (r1 r2 : String) (hc : (cpu, number, r1, r2) ∈ socketCpus) (W : Nat)
    (readWord : Nat → Py σ Nat) (mem : Nat → Nat) (hr : ∀ a s, readWord a s = (.ok (mem a), s)) (create : String → SysArg → Str)
    (regs : String → Nat) (hn : regs cpu.number = number) (name : String) (hk : (regs r1, name) ∈ kernelSocketcall) (h17 : regs r1 ≤ 17) (s : σ) :
    ∃ formats args n, argsEnter cpu W true readWord create regs s = (.ok ⟨name, "long", args⟩, s) ∧
      prototypes.lookup name = some ("long", formats) ∧ args.map (fun a => (a.type, a.name)) = formats.map (fun f => (some f.1, some f.2)) ∧
      socketcallCount.lookup (regs r1) = some n ∧ args.map SysArg.value = wordsAt mem W (regs r2) n := by
  have h := (List.all_eq_true.1 socket_known) _ hk
  have hb : Nat.ble 18 (regs r1) = false := by
    rw [Bool.eq_false_iff]; intro e; exact absurd (Nat.le_of_ble_eq_true e) (by omega)
  simp only [hb, Bool.false_or, Bool.and_eq_true, decide_eq_true_eq] at h
  obtain ⟨⟨h1, h2⟩, h3⟩ := h
  cases hp : prototypes.lookup name with
  | none => rw [hp] at h3; cases h3
  | some p =>
    obtain ⟨r, formats⟩ := p
    cases hcnt : socketcallCount.lookup (regs r1) with
    | none => rw [hp, hcnt] at h3; cases h3
    | some n =>
      rw [hp, hcnt] at h3
      simp only [Bool.and_eq_true, decide_eq_true_eq] at h3
      obtain ⟨rfl, hlen⟩ := h3
      have hlen := Nat.eq_of_beq_eq_true hlen
      obtain ⟨args, a1, a2, a3, _⟩ := socketArguments_ok W readWord mem hr formats (regs r2) s
      refine ⟨formats, args, n, ?_, rfl, a2, rfl, by rw [a3, hlen]⟩
      rw [socket_enter cpu number r1 r2 hc W readWord create regs hn]
      have ht : socketcallText (regs r1) = name := by unfold socketcallText; rw [h1]
      have hs : setupSocketCall W readWord (regs r1) (regs r2) s = (.ok ⟨name, "long", args⟩, s) := by
        unfold setupSocketCall
        rw [ht, hp]
        simp only []
        rw [Py.run_bind_ok a1]
        rfl
      rw [Py.run_bind_ok hs]
      unfold preformat
      rw [Option.isNone_iff_eq_none.1 h2]
      rfl

-- sendto by socketcall
example := C73_partial (σ := Unit) cpuI386 102 "ebx" "ecx" (by simp [socketCpus]) 4 (fun a => Py.pure (a + 1)) (· + 1) (fun _ _ => rfl) (fun _ _ => [])
  (fun r => if r = "orig_eax" then 102 else if r = "ebx" then 11 else if r = "ecx" then 4096 else 0) (by decide +kernel) "sendto"
  (by decide +kernel) (by decide) ()

theorem socketcall_unnamed {k : Nat} (h : k = 0 ∨ 17 < k) : prototypes.lookup (socketcallText k) = none := by
  have hl : Tables.socketcall.lookup k = none := by
    cases hx : Tables.socketcall.lookup k with
    | none => rfl
    | some v =>
      have hb : (Tables.socketcall.all fun p => Nat.ble 1 p.1 && Nat.ble p.1 17) = true := by decide +kernel
      have := (List.all_eq_true.1 hb) _ (lookup_mem _ _ _ hx)
      rw [Bool.and_eq_true] at this
      have h1 := Nat.le_of_ble_eq_true this.1
      have h2 := Nat.le_of_ble_eq_true this.2
      simp only at h1 h2
      omega
  have ht : socketcallText k = toString k := by unfold socketcallText; rw [hl]
  rw [ht, digits_lookup]

/-- Any other sub-call stops the tracer with `KeyError`, whatever the memory contains. -/
theorem C73_unknown {σ : Type} (cpu : CallCpu) (number : Nat) (r1 r2 : String) (hc : (cpu, number, r1, r2) ∈ socketCpus) (W : Nat)
    (readWord : Nat → Py σ Nat) (create : String → SysArg → Str) (regs : String → Nat) (hn : regs cpu.number = number)
    (h : regs r1 = 0 ∨ 17 < regs r1) (s : σ) : argsEnter cpu W true readWord create regs s = (.error .key, s) := by
  rw [socket_enter cpu number r1 r2 hc W readWord create regs hn]
  apply Py.run_bind_error
  unfold setupSocketCall
  rw [socketcall_unnamed h]
  rfl

example := C73_unknown (σ := Unit) cpuI386 102 "ebx" "ecx" (by simp [socketCpus]) 4 (fun a => Py.pure (a + 1)) (fun _ _ => [])
  (fun r => if r = "orig_eax" then 102 else if r = "ebx" then 18 else 0) (by decide +kernel) (.inr (by decide)) ()

private def acceptRegs : String → Nat := fun r => if r = "orig_eax" then 102 else if r = "ebx" then 18 else if r = "ecx" then 4096 else 0

/-- `accept4` is sub-call 18 of the kernel; tracing it on i386 raises `KeyError`. -/
theorem C73_refuted : (18, "accept4") ∈ kernelSocketcall ∧ (∀ (s : Unit),
    argsEnter cpuI386 4 true (fun _ => Py.pure 0) (fun _ _ => []) acceptRegs s = (.error .key, s)) :=
  ⟨by decide +kernel, fun s => C73_unknown cpuI386 102 "ebx" "ecx" (by simp [socketCpus]) 4 _ _ acceptRegs rfl (Or.inr (by decide)) s⟩

example : ∃ args, argsEnter (σ := Unit) cpuI386 4 true (fun a => Py.pure (a + 1)) (fun _ _ => [])
    (fun r => if r = "orig_eax" then 102 else if r = "ebx" then 4 else if r = "ecx" then 4096 else 0) () = (.ok ⟨"listen", "long", args⟩, ()) ∧
    args.map SysArg.value = [4097, 4101] := ⟨_, rfl, rfl⟩

/-! ## C74 — when the texts of arguments are made -/

/-- What is shown at the end of a call: the arguments were prepared at the beginning with `before`, shown then if `enter`, and shown at the end
with `after`. -/
def shownAtExit (before after : String → SysArg → Str) (enter : Bool) (c : SysCall) : SysCall :=
  argsFormat after (argsExit (if enter then argsFormat before c else c))

theorem shown_name (before after : String → SysArg → Str) (enter : Bool) (c : SysCall) :
    (if enter then argsFormat before c else c).name = c.name := by cases enter <;> rfl

theorem shown_get (before after : String → SysArg → Str) (enter : Bool) (c : SysCall) (i : Nat) (a : SysArg) (ha : c.arguments[i]? = some a) :
    (if enter then argsFormat before c else c).arguments[i]? = some (if enter then a.getText (before c.name) else a) := by
  cases enter
  · exact ha
  · show (c.arguments.map _)[i]? = _
    rw [List.getElem?_map, ha]
    rfl

theorem exit_get (after : String → SysArg → Str) (c : SysCall) (i : Nat) (a : SysArg) (ha : c.arguments[i]? = some a) :
    (argsFormat after (argsExit c)).arguments[i]? = some ((if i ∈ (preformatArguments.lookup c.name).getD [] then a
      else match a.type with
        | some t => if t ≠ "" ∧ isPointer t = false then a else { a with text := none }
        | none => { a with text := none }).getText (after c.name)) := by
  unfold argsFormat argsExit
  simp only [List.getElem?_map, List.getElem?_mapIdx, ha, Option.map_some]
  rfl

theorem isPointer_iff (t : String) : isPointer t = true ↔ ∃ w, t.toList = w ++ ['*'] := by
  unfold isPointer
  rw [beq_iff_eq, List.getLast?_eq_some_iff]

/-- A pointer, or an argument of an unknown call, is shown as it is after the call, unless the call is one of those whose arguments are
lost. -/
theorem C74_pointer_partial (before after : String → SysArg → Str) (enter : Bool) (c : SysCall) (i : Nat) (a : SysArg)
    (ha : c.arguments[i]? = some a) (hi : i ∉ (preformatArguments.lookup c.name).getD [])
    (ht : ∀ t, a.type = some t → t = "" ∨ ∃ w, t.toList = w ++ ['*']) :
    ∃ b, (shownAtExit before after enter c).arguments[i]? = some b ∧ b.value = a.value ∧ b.text = some (after c.name { a with text := none }) := by
  have hg := exit_get after _ i _ (shown_get before after enter c i a ha)
  rw [shown_name before after, if_neg hi] at hg
  have hty : (if enter = true then a.getText (before c.name) else a).type = a.type ∧
      { (if enter = true then a.getText (before c.name) else a) with text := none } = { a with text := none } := by
    cases enter
    · exact ⟨rfl, rfl⟩
    · simp only [if_true]
      unfold SysArg.getText
      rcases a with ⟨v, t, n, x⟩
      rcases x with _ | x
      · exact ⟨rfl, rfl⟩
      · cases x <;> exact ⟨rfl, rfl⟩
  refine ⟨_, hg, ?_⟩
  rw [hty.2]
  have e : (match (if enter = true then a.getText (before c.name) else a).type with
        | some t => if t ≠ "" ∧ isPointer t = false then (if enter = true then a.getText (before c.name) else a) else { a with text := none }
        | none => { a with text := none }) = { a with text := none } := by
    rw [hty.1]
    cases hat : a.type with
    | none => rfl
    | some t =>
      simp only []
      rw [if_neg]
      rintro ⟨h1, h2⟩
      rcases ht t hat with h | h
      · exact h1 h
      · rw [(isPointer_iff t).2 h] at h2; cases h2
  rw [e]
  exact ⟨rfl, rfl⟩

example := C74_pointer_partial (fun _ _ => "old".toList) (fun _ _ => "new".toList) true
  ⟨"uname", "long", [{ value := 4096, type := some "struct old_utsname *", name := some "buf" }]⟩ 0
  { value := 4096, type := some "struct old_utsname *", name := some "buf" } rfl (by decide)
  (fun t ht => .inr ⟨"struct old_utsname ".toList, by cases ht; decide⟩)

/-- A text made before the call is still shown after it. -/
theorem C74_preformat (before after : String → SysArg → Str) (enter : Bool) (c : SysCall) (i : Nat) (a : SysArg)
    (ha : c.arguments[i]? = some a) (hi : i ∈ (preformatArguments.lookup c.name).getD []) (x : Char) (xs : Str) (ht : a.text = some (x :: xs)) :
    (shownAtExit before after enter c).arguments[i]? = some a := by
  have hg := exit_get after _ i _ (shown_get before after enter c i a ha)
  rw [shown_name before after, if_pos hi] at hg
  have hk : ∀ f, a.getText f = a := by
    intro f
    unfold SysArg.getText
    rw [ht]
    cases a
    simp only at ht
    rw [ht]
  rw [shownAtExit, hg]
  cases enter
  · simp only [Bool.false_eq_true, if_false, hk]
  · simp only [if_true, hk]

example := C74_preformat (fun _ _ => "old".toList) (fun _ _ => "new".toList) true
  ⟨"execve", "long", [{ value := 4096, type := some "const char *", name := some "filename", text := some "'/bin/ls'".toList }]⟩ 0
  { value := 4096, type := some "const char *", name := some "filename", text := some "'/bin/ls'".toList } rfl (by decide) '\'' "/bin/ls'".toList rfl

/-- Every argument that is lost by its call is given a text when the call is entered. -/
theorem C74_prepared {σ : Type} (create : String → SysArg → Str) (c d : SysCall) (s t : σ) (h : preformat create c s = (.ok d, t)) :
    d.name = c.name ∧ ∀ i a, c.arguments[i]? = some a →
      (i ∈ (preformatArguments.lookup c.name).getD [] → d.arguments[i]? = some (a.getText (create c.name))) ∧
      (i ∉ (preformatArguments.lookup c.name).getD [] → d.arguments[i]? = some a) := by
  unfold preformat at h
  cases hl : preformatArguments.lookup c.name with
  | none =>
    rw [hl] at h
    injection h with h _
    injection h with h
    rw [← h]
    exact ⟨rfl, fun i a ha => ⟨(fun hi => by cases hi), fun _ => ha⟩⟩
  | some indexes =>
    rw [hl] at h
    simp only [] at h
    by_cases hany : (indexes.any fun i => decide (c.arguments.length ≤ i)) = true
    · rw [if_pos hany] at h; cases h
    · rw [if_neg hany] at h
      injection h with h _
      injection h with h
      rw [← h]
      refine ⟨rfl, fun i a ha => ⟨?_, ?_⟩⟩
      · intro hi
        simp only [List.getElem?_mapIdx, ha, Option.map_some]
        rw [if_pos (show i ∈ indexes from hi)]
      · intro hi
        simp only [List.getElem?_mapIdx, ha, Option.map_some]
        rw [if_neg (show ¬ i ∈ indexes from hi)]

example := C74_prepared (σ := Unit) (fun _ _ => "old".toList) ⟨"clone", "long", [{ value := 1 }, { value := 2 }, { value := 3 }]⟩ _ () () rfl

/-- An argument with another type is shown as before the call if the call was shown then, and as after it otherwise. -/
theorem C74_plain (before after : String → SysArg → Str) (enter : Bool) (c : SysCall) (i : Nat) (a : SysArg)
    (ha : c.arguments[i]? = some a) (hi : i ∉ (preformatArguments.lookup c.name).getD []) (t : String) (ht : a.type = some t) (hne : t ≠ "")
    (hp : ∀ w, t.toList ≠ w ++ ['*']) (hx : a.text = none) (hb : before c.name a ≠ []) :
    (shownAtExit before after enter c).arguments[i]? = some { a with text := some (if enter then before c.name a else after c.name a) } := by
  replace hp : isPointer t = false := by
    cases hb : isPointer t with
    | false => rfl
    | true => obtain ⟨w, hw⟩ := (isPointer_iff t).1 hb; exact absurd hw (hp w)
  have hg := exit_get after _ i _ (shown_get before after enter c i a ha)
  rw [shown_name before after, if_neg hi] at hg
  rw [shownAtExit, hg]
  rcases a with ⟨v, ty, n, x⟩
  simp only at ht hx
  subst ht hx
  cases enter
  · simp only [Bool.false_eq_true, if_false]
    rw [if_pos ⟨hne, hp⟩]
    rfl
  · simp only [if_true]
    cases hbb : before c.name ⟨v, some t, n, none⟩ with
    | nil => exact absurd hbb hb
    | cons y ys =>
      unfold SysArg.getText
      simp only [hbb]
      rw [if_pos ⟨hne, hp⟩]

example := C74_plain (fun _ _ => "3".toList) (fun _ _ => "new".toList) true
  ⟨"close", "long", [{ value := 3, type := some "unsigned int", name := some "fd" }]⟩ 0
  { value := 3, type := some "unsigned int", name := some "fd" } rfl (by decide) "unsigned int" rfl (by decide)
  (fun w h => absurd (congrArg List.getLast? h) (by rw [List.getLast?_concat]; decide)) rfl (by decide)

private def pipeCall : SysCall := ⟨"pipe", "long", [{ value := 4096, type := some "int[2]", name := some "fildes" }]⟩

/-- `pipe` writes its descriptors at the address of its argument, declared `int[2]`: when calls are shown as they are entered, the old content
is shown at the end too. -/
theorem C74_refuted : prototypes.lookup "pipe" = some ("long", [("int[2]", "fildes")]) ∧
    ∃ before after : String → SysArg → Str, (shownAtExit before after false pipeCall).arguments.map SysArg.text = [some "<3, 4>".toList] ∧
      (shownAtExit before after true pipeCall).arguments.map SysArg.text = [some "<0, 0>".toList] :=
  ⟨by decide +kernel, fun _ _ => "<0, 0>".toList, fun _ _ => "<3, 4>".toList, by decide +kernel, by decide +kernel⟩

example : (shownAtExit (fun _ _ => "old".toList) (fun _ _ => "new".toList) true
    ⟨"uname", "long", [{ value := 4096, type := some "struct old_utsname *", name := some "buf" }]⟩).arguments.map SysArg.text =
    [some "new".toList] := by decide +kernel

example : (shownAtExit (fun _ _ => "old".toList) (fun _ _ => "new".toList) true
    ⟨"execve", "long", [{ value := 4096, type := some "const char *", name := some "filename", text := some "'/bin/ls'".toList }]⟩).arguments.map
    SysArg.text = [some "'/bin/ls'".toList] := by decide +kernel

example : (preformat (σ := Unit) (fun _ _ => "old".toList) ⟨"clone", "long", [{ value := 1 }, { value := 2 }, { value := 3 }]⟩ ()).1.toOption.map
    (fun d => d.arguments.map SysArg.text) = some [some "old".toList, some "old".toList, none] := by decide +kernel

end PT
