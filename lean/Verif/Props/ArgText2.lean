import Verif.Props.ArgText

/-
The texts of system call arguments: constants and integers (`/repo/ptrace/syscall/syscall_argument.py:75-144`,
`/repo/ptrace/syscall/posix_constants.py`, `linux_constants.py`, `socketcall_constants.py`).
-/

namespace PT

open Spec

variable {σ : Type}

/-! ### C88: names of constants -/

/-- C88: when the table names a value, the kernel gives that name to it. Partial: `fcntl` commands from 5 on, `RLIMIT_NLIMITS` and socket
options (`C88_options_partial`) are left out (`C88_fcntl_refuted`, `C88_rlimit_refuted`, `C88_options_refuted`). -/
theorem C88_partial (E : ArgEnv σ) (c : SysCall) (a : SysArg) (n : String) (hn : a.name = some n) (ht : ∃ t, a.type = some t ∧ t ≠ "")
    (text : String) (h : argDictText c.name n a.value = some text) (h1 : n ≠ "optname") (h2 : c.name = "fcntl" → a.value < 5)
    (h3 : n = "resource" → a.value < 15) (s : σ) :
    argText E c a s = (.ok text.toList, s) ∧ ∃ l, (c.name, n, l) ∈ kernelConstants ∧ (text, a.value) ∈ l := by
  have hm := argDictText_mem h
  have hall : ∀ x ∈ argDict.flatMap (fun x => x.2.flatMap fun y => y.2.map fun z => (x.1, y.1, z.1, z.2)),
      x.2.1 ≠ "" ∧ (x.2.1 ≠ "optname" → (x.1 = "fcntl" → x.2.2.1 < 5) → (x.2.1 = "resource" → x.2.2.1 < 15) →
        ∃ k ∈ kernelConstants, k.1 = x.1 ∧ k.2.1 = x.2.1 ∧ (x.2.2.2, x.2.2.1) ∈ k.2.2) := by decide +kernel
  obtain ⟨h0, hk⟩ := hall _ hm
  obtain ⟨⟨k1, k2, l⟩, hk1, e1, e2, hk2⟩ := hk h1 h2 h3
  obtain ⟨t, ht, ht0⟩ := ht
  simp only at e1 e2
  subst e1 e2
  refine ⟨argText_some ?_, l, hk1, hk2⟩
  unfold createText
  rw [ht, hn]
  simp only []
  rw [if_neg (by simp [ht0]; exact h0), h]
  rfl

example := C88_partial (exArgEnv exKernel64 exPrintable fun _ => 0) ⟨"lseek", "long", []⟩ ⟨2, some "int", some "origin", none⟩ "origin" rfl
  ⟨"int", rfl, by decide⟩ "SEEK_END" (by decide) (by decide) (by decide) (by decide) (exMemory [])

/-- The constants of the kernel that the tables name, are named: all but those of this list. -/
theorem C88_named : ∀ syscall name l value text, (syscall, name, l) ∈ kernelConstants → (text, value) ∈ l →
    text ∉ ["SEEK_DATA", "SEEK_HOLE", "F_GETLK", "F_SETLK", "F_SETLKW", "F_SETOWN", "F_GETOWN", "AF_UNIX", "AF_RDS", "AF_LLC", "IPPROTO_TCP",
      "IPPROTO_UDP", "IPPROTO_IPV6", "SOL_TCP", "RLIMIT_RTTIME"] → argDictText syscall name value = some text := by
  have hall : ∀ x ∈ kernelConstants, ∀ y ∈ x.2.2,
    y.1 ∉ ["SEEK_DATA", "SEEK_HOLE", "F_GETLK", "F_SETLK", "F_SETLKW", "F_SETOWN", "F_GETOWN", "AF_UNIX", "AF_RDS", "AF_LLC", "IPPROTO_TCP",
      "IPPROTO_UDP", "IPPROTO_IPV6", "SOL_TCP", "RLIMIT_RTTIME"] → argDictText x.1 x.2.1 y.2 = some y.1 := by decide +kernel
  intro syscall name l value text h1 h2 h3
  exact hall _ h1 _ h2 h3

/-- For socket options the name is right for one of the two levels. -/
theorem C88_options_partial (syscall : String) (value : Nat) (text : String) (h : argDictText syscall "optname" value = some text) :
    ∃ level, (level, text, value) ∈ kernelSockopts := by
  have hm := argDictText_mem h
  have hall : ∀ x ∈ argDict.flatMap (fun x => x.2.flatMap fun y => y.2.map fun z => (x.1, y.1, z.1, z.2)),
      x.2.1 = "optname" → ∃ k ∈ kernelSockopts, k.2 = (x.2.2.2, x.2.2.1) := by decide +kernel
  obtain ⟨⟨level, k⟩, hk1, hk2⟩ := hall _ hm rfl
  simp only at hk2
  subst hk2
  exact ⟨level, hk1⟩

example : argDictText "lseek" "origin" 2 = some "SEEK_END" ∧ argDictText "setsockopt" "optname" 9 = some "SO_KEEPALIVE" := by decide

/-- The full statement is false of `fcntl`: 5 is `F_GETLK` on Linux, shown as `F_GETOWN` (the number of BSD). -/
theorem C88_fcntl_refuted : ¬ ∀ (value : Nat) (text : String), argDictText "fcntl" "cmd" value = some text →
    ∃ l, ("fcntl", "cmd", l) ∈ kernelConstants ∧ (text, value) ∈ l := by
  intro h
  obtain ⟨l, h1, h2⟩ := h 5 "F_GETOWN" (by decide)
  have hall : ∀ x ∈ kernelConstants, x.1 = "fcntl" → ("F_GETOWN", 5) ∉ x.2.2 := by decide
  exact hall _ h1 rfl h2

/-- The full statement is false of resource limits: 15 is `RLIMIT_RTTIME`, shown as `RLIMIT_NLIMITS`. -/
theorem C88_rlimit_refuted : ¬ ∀ (value : Nat) (text : String), argDictText "getrlimit" "resource" value = some text →
    ∃ l, ("getrlimit", "resource", l) ∈ kernelConstants ∧ (text, value) ∈ l := by
  intro h
  obtain ⟨l, h1, h2⟩ := h 15 "RLIMIT_NLIMITS" (by decide)
  have hall : ∀ x ∈ kernelConstants, x.1 = "getrlimit" → ("RLIMIT_NLIMITS", 15) ∉ x.2.2 := by decide
  exact hall _ h1 rfl h2

/-- The full statement is false of socket options: the text does not depend on the level, so `setsockopt(fd, SOL_IP, IP_TTL)` is shown with
`SO_REUSEADDR`. -/
theorem C88_options_refuted : ¬ ∀ (level value : Nat) (text : String), level ∈ [0, 1] → argDictText "setsockopt" "optname" value = some text →
    (level, text, value) ∈ kernelSockopts := by
  intro h
  exact absurd (h 0 2 "SO_REUSEADDR" (by decide) (by decide)) (by decide)

/-- The type of a socket: its name or number, then `|SOCK_CLOEXEC` exactly when bit 19 is set. -/
theorem C88_socket_type (value : Nat) : ∃ (t : Str) (base : Nat), value = base + (if value.testBit 19 then 2 ^ 19 else 0) ∧
    formatSocketType value = t ++ (if value.testBit 19 then "|SOCK_CLOEXEC".toList else []) ∧
    (∀ name, (name, base) ∈ kernelSockTypes → name ≠ "SOCK_DCCP" → t = name.toList) ∧
    ((∃ name, (name, base) ∈ kernelSockTypes ∧ t = name.toList) ∨ decNumber t = some base) := by
  have hand : value &&& SOCK_CLOEXEC = if value.testBit 19 then 2 ^ 19 else 0 := by
    have : SOCK_CLOEXEC = 2 ^ 19 := by decide
    rw [this, Nat.and_two_pow]
    cases value.testBit 19 <;> simp
  have hadd := and_add_clear value SOCK_CLOEXEC
  rw [hand] at hadd
  refine ⟨(match socketType.lookup (clearBits value SOCK_CLOEXEC) with
    | some name => name.toList
    | none => pyDec (clearBits value SOCK_CLOEXEC)), clearBits value SOCK_CLOEXEC, by omega, ?_, ?_, ?_⟩
  · unfold formatSocketType
    rw [hand]
    cases value.testBit 19 <;> simp <;> rfl
  · intro name hm hne
    have hall : ∀ x ∈ kernelSockTypes, x.1 ≠ "SOCK_DCCP" → socketType.lookup x.2 = some x.1 := by decide
    rw [hall _ hm hne]
  · cases hl : socketType.lookup (clearBits value SOCK_CLOEXEC) with
    | none => exact Or.inr (decNumber_pyDec _)
    | some name =>
      have hall : ∀ x ∈ socketType, (x.2, x.1) ∈ kernelSockTypes := by decide
      exact Or.inl ⟨name, hall _ (mem_of_lookup hl), rfl⟩

example : formatSocketType (2 + 2 ^ 19) = "SOCK_DGRAM|SOCK_CLOEXEC".toList := by decide +kernel

/-- `SOCK_NONBLOCK` hides the type: `SOCK_STREAM | SOCK_NONBLOCK` is shown as 2049. -/
theorem C88_nonblock_refuted : ¬ ∀ (name : String) (value : Nat), (name, value % 16) ∈ kernelSockTypes → name.toList <+: formatSocketType value := by
  intro h
  have := h "SOCK_STREAM" 2049 (by decide)
  exact absurd this (by decide +kernel)

/-- A directory descriptor: `AT_FDCWD` for -100, else the signed number. -/
theorem C88_dirfd (value : Nat) (r : Int) (h : IsSigned 31 value r) :
    (r = -100 → formatDirFd value = "AT_FDCWD".toList) ∧ (r ≠ -100 → decInt (formatDirFd value) = some r) := by
  have e := (Props.C01_uint2int32 value r).2 h
  unfold formatDirFd
  rw [e]
  exact ⟨fun h => by rw [if_pos h], fun h => by rw [if_neg h, pyDecInt_decInt]⟩

example : formatDirFd (2 ^ 64 - 100) = "AT_FDCWD".toList ∧ formatDirFd 3 = "3".toList := by decide +kernel

/-- The callbacks are used for these arguments: the text of the type of a socket and of a directory descriptor. -/
theorem C88_callbacks (E : ArgEnv σ) (c : SysCall) (a : SysArg) (t : String) (ht : a.type = some t) (ht0 : t ≠ "") (s : σ) :
    (c.name = "socket" → a.name = some "type" → argText E c a s = (.ok (formatSocketType a.value), s)) ∧
    (c.name ∈ ["openat", "name_to_handle_at"] → a.name = some "dirfd" → argText E c a s = (.ok (formatDirFd a.value), s)) ∧
    (c.name ∈ ["open", "openat"] → a.name = some "flags" → argText E c a s = (.ok (formatOpenFlags a.value), s)) ∧
    (c.name ∈ ["open", "openat"] → a.name = some "mode" → argText E c a s = (.ok (formatOpenMode a.value), s)) ∧
    (c.name ∈ ["mmap", "mmap2"] → a.name = some "prot" → argText E c a s = (.ok (formatMmapProt a.value), s)) ∧
    (c.name = "access" → a.name = some "mode" → argText E c a s = (.ok (formatAccessMode a.value), s)) ∧
    (c.name = "clone" → a.name = some "flags" → argText E c a s = (.ok (formatCloneFlags E.signames a.value), s)) := by
  have key : ∀ (call name : String) (text : Str), c.name = call → a.name = some name → name ≠ "" → argDictText call name a.value = none →
      argumentCallback E c name a = some (Py.pure (some text)) → argText E c a s = (.ok text, s) := by
    intro call name text hc hn hn0 hd hcb
    apply argText_some
    unfold createText
    rw [ht, hn]
    simp only []
    rw [if_neg (by simp [ht0, hn0]), hc, hd, hcb]
    rfl
  refine ⟨?_, ?_, ?_, ?_, ?_, ?_, ?_⟩
  · exact fun hc hn => key _ _ _ hc hn (by decide) rfl (by unfold argumentCallback; rw [hc]; rfl)
  · intro hc hn
    simp only [List.mem_cons, List.not_mem_nil, or_false] at hc
    rcases hc with hc | hc <;> exact key _ _ _ hc hn (by decide) rfl (by unfold argumentCallback; rw [hc]; rfl)
  · intro hc hn
    simp only [List.mem_cons, List.not_mem_nil, or_false] at hc
    rcases hc with hc | hc <;> exact key _ _ _ hc hn (by decide) rfl (by unfold argumentCallback; rw [hc]; rfl)
  · intro hc hn
    simp only [List.mem_cons, List.not_mem_nil, or_false] at hc
    rcases hc with hc | hc <;> exact key _ _ _ hc hn (by decide) rfl (by unfold argumentCallback; rw [hc]; rfl)
  · intro hc hn
    simp only [List.mem_cons, List.not_mem_nil, or_false] at hc
    rcases hc with hc | hc <;> exact key _ _ _ hc hn (by decide) rfl (by unfold argumentCallback; rw [hc]; rfl)
  · exact fun hc hn => key _ _ _ hc hn (by decide) rfl (by unfold argumentCallback; rw [hc]; rfl)
  · exact fun hc hn => key _ _ _ hc hn (by decide) rfl (by unfold argumentCallback; rw [hc]; rfl)

example := (C88_callbacks (exArgEnv exKernel64 exPrintable fun _ => 0) ⟨"openat", "long", []⟩ ⟨2 ^ 64 - 100, some "int", some "dirfd", none⟩ "int"
  rfl (by decide) (exMemory [])).2.1 (by decide) rfl

/-! ### C89: integers and failures -/

/-- C89: every argument has a text: no error but an interrupt comes out (the reads may not return, too). -/
theorem C89_total (E : ArgEnv σ) (c : SysCall) (a : SysArg) (s : σ) :
    (∃ text, (argText E c a s).1 = .ok text) ∨ (argText E c a s).1 = .error .interrupt ∨ (argText E c a s).1 = .error .diverge := by
  unfold argText exceptAny
  split
  · split
    · rename_i h
      rcases h with rfl | rfl
      · exact Or.inr (Or.inl rfl)
      · exact Or.inr (Or.inr rfl)
    · exact Or.inl ⟨_, rfl⟩
  · rename_i r hr
    cases hc : (Py.bind (createText E c a) fun text =>
      match text with
      | some t => Py.pure t
      | none => Py.pure (if isPointer (a.type.getD "") then formatAddress E.arch a.value else pyDec a.value)) s with
    | mk x s' =>
      cases x with
      | ok t => exact Or.inl ⟨t, rfl⟩
      | error e => exact absurd hc (hr e s')

/-- An error while the text is made gives the value in decimal. -/
theorem C89_error (E : ArgEnv σ) (c : SysCall) (a : SysArg) (s s' : σ) (e : Exc) (h : createText E c a s = (.error e, s'))
    (h1 : e ≠ .interrupt) (h2 : e ≠ .diverge) : ∃ text, argText E c a s = (.ok text, s') ∧ decNumber text = some a.value :=
  ⟨_, argText_error h h1 h2, decNumber_pyDec _⟩

-- the pointer is wild
example := C89_error (exArgEnv { exKernel64 with openErr := fun _ => 13, peekErr := fun _ _ => 5 } exPrintable fun _ => 0)
  ⟨"open", "long", []⟩ ⟨4096, some "const char *", some "filename", none⟩ (exMemory []) _ (.ptrace (some 5))
  (Prod.ext (by decide +kernel) rfl) (by decide) (by decide)

/-- Arguments without prototype are shown in hexadecimal. -/
theorem C89_unknown (E : ArgEnv σ) (c : SysCall) (a : SysArg) (h : a.type.getD "" = "" ∨ a.name.getD "" = "") (s : σ) :
    ∃ text, argText E c a s = (.ok text, s) ∧ hexLiteral text = some a.value := by
  refine ⟨formatWordHex E.arch a.value, argText_some ?_, ?_⟩
  · unfold createText
    cases ht : a.type with
    | none => rfl
    | some t =>
      cases hn : a.name with
      | none => rfl
      | some n =>
        rw [ht, hn] at h
        exact congrFun (if_pos h) s
  · unfold formatWordHex formatUintHex32 formatUintHex64
    split <;> exact hexNumber_pyHexPad _ _

example := C89_unknown (exArgEnv exKernel64 exPrintable fun _ => 0) ⟨"open", "long", []⟩ ⟨4096, none, none, none⟩ (.inl rfl) (exMemory [])

theorem createText_signed (E : ArgEnv σ) {c : SysCall} {a : SysArg} {t : String} (hm : t ∈ integerTypes) (ha : TypedArgument c a t) (s : σ) :
    createText E c a s = (.ok (some (pyDecInt (uint2int32 a.value))), s) := by
  have hall : ∀ t ∈ integerTypes, t ≠ "" ∧ withoutPrefix "const ".toList t.toList = t.toList ∧ t ≠ "char *" ∧ t.toList.getLast? ≠ some '*' ∧
      arrayType t.toList = none ∧ t ∉ ["unsigned int", "unsigned long", "u32"] := by decide +kernel
  obtain ⟨h1, h2, h3, h4, h5, h6⟩ := hall t hm
  rw [createText_typed E ha h1 h2 h3]
  unfold typedText
  rw [if_neg h4, h5, String.ofList_toList]
  simp only []
  rw [if_neg h6, if_pos hm]
  rfl

theorem createText_unsigned (E : ArgEnv σ) {c : SysCall} {a : SysArg} {t : String} (hm : t ∈ ["unsigned int", "unsigned long", "u32"])
    (ha : TypedArgument c a t) (s : σ) : createText E c a s = (.ok (some (pyDec a.value)), s) := by
  have hall : ∀ t ∈ ["unsigned int", "unsigned long", "u32"], t ≠ "" ∧ withoutPrefix "const ".toList t.toList = t.toList ∧ t ≠ "char *" ∧
      t.toList.getLast? ≠ some '*' ∧ arrayType t.toList = none := by decide +kernel
  obtain ⟨h1, h2, h3, h4, h5⟩ := hall t hm
  rw [createText_typed E ha h1 h2 h3]
  unfold typedText
  rw [if_neg h4, h5, String.ofList_toList]
  simp only []
  rw [if_pos hm]
  rfl

/-- C89: an integer argument is shown in decimal with the value that its C type gives to the register. Partial: for the signed types of 32 bits,
for the types `unsigned ...` whose register has no higher bits, and otherwise below 2^31 (`C89_size_refuted`, `C89_uid_refuted`,
`C89_unsigned_refuted`). -/
theorem C89_partial (E : ArgEnv σ) (c : SysCall) (a : SysArg) (t : String) (kind : CInt) (hk : (t, kind) ∈ cTypes E.arch.W)
    (ha : TypedArgument c a t)
    (hv : kind = .signed 32 ∨ t = "unsigned long" ∧ a.value < 2 ^ (8 * E.arch.W) ∨ t ∈ ["unsigned int", "u32"] ∧ a.value < 2 ^ 32 ∨ a.value < 2 ^ 31)
    (s : σ) : ∃ text r, argText E c a s = (.ok text, s) ∧ kind.Is a.value r ∧ decInt text = some r := by
  have hcases : t ∈ integerTypes ∨ t ∈ ["unsigned int", "unsigned long", "u32"] := by
    have hall : ∀ x : Bool, ∀ p ∈ cTypes (Arch.mk x false).W, p.1 ∈ integerTypes ∨ p.1 ∈ ["unsigned int", "unsigned long", "u32"] := by decide
    exact hall E.arch.is64 _ hk
  have hbits : kind.Is a.value a.value ∨ kind = .signed 32 := by
    have hall : ∀ x : Bool, ∀ p ∈ cTypes (Arch.mk x false).W, p.2 = .signed 32 ∨ p.2 ∈ [.signed 32, .signed 64, .unsigned 32, .unsigned 64] ∧
        (p.1 = "unsigned long" → p.2 = .unsigned (8 * (Arch.mk x false).W)) ∧ (p.1 ∈ ["unsigned int", "u32"] → p.2 = .unsigned 32) := by decide
    rcases hall E.arch.is64 _ hk with h | ⟨h, hul, hui⟩
    · exact Or.inr h
    · by_cases h32 : kind = .signed 32
      · exact Or.inr h32
      · left
        rcases hv with hv | ⟨e, hv⟩ | ⟨e, hv⟩ | hv
        · exact absurd hv h32
        · have := hul e
          simp only at this
          rw [this]
          exact ⟨by omega, by exact_mod_cast hv, 0, by omega⟩
        · have := hui e
          simp only at this
          rw [this]
          exact ⟨by omega, by exact_mod_cast hv, 0, by omega⟩
        · simp only [List.mem_cons, List.not_mem_nil, or_false] at h
          rcases h with rfl | rfl | rfl | rfl
          · exact absurd rfl h32
          · exact ⟨by omega, by omega, 0, by omega⟩
          · exact ⟨by omega, by omega, 0, by omega⟩
          · exact ⟨by omega, by omega, 0, by omega⟩
  rcases hcases with hm | hm
  · refine ⟨_, uint2int32 a.value, argText_some (createText_signed E hm ha s), ?_, pyDecInt_decInt _⟩
    by_cases h32 : kind = .signed 32
    · rw [h32]
      exact (Props.C01_uint2int32 a.value _).1 rfl
    · have hlow : a.value < 2 ^ 31 := by
        rcases hv with hv | ⟨e, _⟩ | ⟨e, _⟩ | hv
        · exact absurd hv h32
        · subst e; exact absurd hm (by decide)
        · simp only [List.mem_cons, List.not_mem_nil, or_false] at e
          rcases e with rfl | rfl <;> exact absurd hm (by decide)
        · exact hv
      have : uint2int32 a.value = a.value := (Props.C01_uint2int32 a.value a.value).2 ⟨by omega, by omega, 0, by omega⟩
      rw [this]
      exact hbits.resolve_right h32
  · refine ⟨_, a.value, argText_some (createText_unsigned E hm ha s), ?_, pyDecInt_decInt (a.value : Int)⟩
    refine hbits.resolve_right fun e => ?_
    subst e
    have hall : ∀ x : Bool, ∀ p ∈ cTypes (Arch.mk x false).W, p.1 ∈ ["unsigned int", "unsigned long", "u32"] → p.2 ≠ .signed 32 := by decide
    exact hall E.arch.is64 _ hk hm rfl

-- kill(-1, 9): the register holds 2^32 - 1 or 2^64 - 1
example : (argText (exArgEnv exKernel64 exPrintable fun _ => 0) ⟨"kill", "long", []⟩ ⟨2 ^ 32 - 1, some "pid_t", some "pid", none⟩
    (exMemory [])).1 = .ok "-1".toList := by decide +kernel
example : TypedArgument ⟨"kill", "long", []⟩ ⟨2 ^ 32 - 1, some "pid_t", some "pid", none⟩ "pid_t" :=
  ⟨Or.inl rfl, "pid", rfl, by decide, by decide, by decide⟩

/-- The full statement for a type. -/
def ShownByType (t : String) (kind : CInt) (E : ArgEnv MemSt) : Prop := ∀ (c : SysCall) (a : SysArg) (s s' : MemSt) (text : Str) (r : Int),
  TypedArgument c a t → a.value < 2 ^ 64 → argText E c a s = (.ok text, s') → kind.Is a.value r → decInt text = some r

/-- It is false of sizes from 2^31 on: they are shown as 32 bits with a sign. -/
theorem C89_size_refuted : ("size_t", CInt.unsigned 64) ∈ cTypes 8 ∧
    ¬ ShownByType "size_t" (.unsigned 64) (exArgEnv exKernel64 exPrintable fun _ => 0) := by
  refine ⟨by decide, fun h => ?_⟩
  have := h ⟨"read", "long", []⟩ ⟨2 ^ 32, some "size_t", some "count", none⟩ (exMemory []) (exMemory []) "0".toList (2 ^ 32)
    ⟨Or.inl rfl, "count", rfl, by decide, by decide, by decide⟩ (by decide) (Prod.ext (by decide +kernel) rfl) ⟨by decide, by decide, 0, by decide⟩
  exact absurd this (by decide)

/-- It is false of `long`: `lseek` to 2^32. -/
theorem C89_long_refuted : ("long", CInt.signed 64) ∈ cTypes 8 ∧
    ¬ ShownByType "long" (.signed 64) (exArgEnv exKernel64 exPrintable fun _ => 0) := by
  refine ⟨by decide, fun h => ?_⟩
  have := h ⟨"x", "long", []⟩ ⟨2 ^ 32, some "long", some "count", none⟩ (exMemory []) (exMemory []) "0".toList (2 ^ 32)
    ⟨Or.inl rfl, "count", rfl, by decide, by decide, by decide⟩ (by decide) (Prod.ext (by decide +kernel) rfl) ⟨by decide, by decide, 0, by decide⟩
  exact absurd this (by decide)

/-- It is false of user and group numbers from 2^31 on. -/
theorem C89_uid_refuted : ("uid_t", CInt.unsigned 32) ∈ cTypes 8 ∧
    ¬ ShownByType "uid_t" (.unsigned 32) (exArgEnv exKernel64 exPrintable fun _ => 0) := by
  refine ⟨by decide, fun h => ?_⟩
  have := h ⟨"setuid", "long", []⟩ ⟨2 ^ 32 - 2, some "uid_t", some "uid", none⟩ (exMemory []) (exMemory []) "-2".toList (2 ^ 32 - 2)
    ⟨Or.inl rfl, "uid", rfl, by decide, by decide, by decide⟩ (by decide) (Prod.ext (by decide +kernel) rfl) ⟨by decide, by decide, 0, by decide⟩
  exact absurd this (by decide)

/-- It is false of `unsigned int` when the register has higher bits: the kernel ignores them. -/
theorem C89_unsigned_refuted : ("unsigned int", CInt.unsigned 32) ∈ cTypes 8 ∧
    ¬ ShownByType "unsigned int" (.unsigned 32) (exArgEnv exKernel64 exPrintable fun _ => 0) := by
  refine ⟨by decide, fun h => ?_⟩
  have := h ⟨"dup", "long", []⟩ ⟨2 ^ 32 + 1, some "unsigned int", some "fildes", none⟩ (exMemory []) (exMemory []) "4294967297".toList 1
    ⟨Or.inl rfl, "fildes", rfl, by decide, by decide, by decide⟩ (by decide) (Prod.ext (by decide +kernel) rfl) ⟨by decide, by decide, 1, by decide⟩
  exact absurd this (by decide)

/-- A null pointer is shown as `NULL`, whatever it could point to. -/
theorem C89_null (E : ArgEnv σ) (c : SysCall) (a : SysArg) (t : String) (ha : TypedArgument c a t) (ht : t.toList.getLast? = some '*')
    (hc : withoutPrefix "const ".toList t.toList = t.toList) (ht2 : t ≠ "char *") (h0 : a.value = 0) (s : σ) :
    argText E c a s = (.ok "NULL".toList, s) := by
  apply argText_some
  rw [createText_typed E ha (by rintro rfl; cases ht) hc ht2]
  have hv : ∀ x, formatValuePointer E c a x s = (.ok (some "NULL".toList), s) := by
    intro x
    unfold formatValuePointer
    rw [if_pos h0]
    rfl
  unfold typedText
  rw [if_pos ht, Py.run_bind_ok (exceptAny_ok (hv _))]
  rfl

example : TypedArgument ⟨"nanosleep", "long", []⟩ ⟨0, some "struct timespec *", some "rem", none⟩ "struct timespec *" :=
  ⟨Or.inl rfl, "rem", rfl, by decide, by decide, by decide⟩

/-- A pointer to an integer is shown with the integer. Partial: the read must be complete. -/
theorem C89_pointer_partial (E : ArgEnv σ) (c : SysCall) (a : SysArg) (ha : TypedArgument c a "int *") (h0 : a.value ≠ 0) (mem : Nat → Byte)
    (data : Bytes) (s s' : σ) (hr : E.readBytes a.value 4 s = (.ok data, s')) (hd : IsRange mem a.value 4 data) :
    ∃ u rest, argText E c a s = (.ok ('<' :: u ++ ['>'] ++ rest), s') ∧ AddressSuffix E.writeAddress a.value rest ∧
      FieldShown E.arch.big mem a.value (.signed 4) u := by
  obtain ⟨rest, h1, h2⟩ := pointer_suffix E h0 ('<' :: pyDecInt (readNativeInt E.arch data) ++ ['>'])
  refine ⟨pyDecInt (readNativeInt E.arch data), rest, argText_some ?_, h2, _, _, isUint_native hd, isSigned_native hd.1 (by decide), pyDecInt_decInt _⟩
  rw [createText_typed E ha (by decide) (by decide) (by decide)]
  have hi : readCInt E a.value s = (.ok (readNativeInt E.arch data), s') := by
    unfold readCInt readStructBytes
    have : Py.bind (E.readBytes a.value 4) (fun bytes => Py.pure (castBytes E.beyond bytes 4)) s = (.ok data, s') := by
      rw [Py.run_bind_ok hr, castBytes_full hd.1]
      rfl
    rw [Py.run_bind_ok this]
    rfl
  have hv : formatValuePointer E c a (strip (· == ' ') ("int *".toList).dropLast) s =
      (.ok (some ('<' :: pyDecInt (readNativeInt E.arch data) ++ ['>'] ++ rest)), s') := by
    have hs : withoutPrefix "struct ".toList (strip (· == ' ') ("int *".toList).dropLast) = "int".toList := by decide
    unfold formatValuePointer
    rw [if_neg h0, hs]
    simp only []
    rw [if_neg (by decide), if_pos trivial, Py.run_bind_ok hi, h1]
    rfl
  unfold typedText
  rw [if_pos (by decide), Py.run_bind_ok (exceptAny_ok hv)]
  rfl

example := C89_pointer_partial (exArgEnv exKernel64 exPrintable fun _ => 0) ⟨"wait4", "long", []⟩ ⟨4096, some "int *", some "stat_addr", none⟩
  ⟨Or.inl rfl, "stat_addr", rfl, by decide, by decide, by decide⟩ (by decide) (exMemory [254, 255, 255, 255]).mem [254, 255, 255, 255]
  (exMemory [254, 255, 255, 255]) (readBytes exKernel64 4096 4 (exMemory [254, 255, 255, 255])).2 (Prod.ext (by decide +kernel) rfl)
  ⟨rfl, by decide +kernel⟩

/-- The two descriptors of `pipe` and `socketpair` (type `int[2]`). Partial: the read must be complete. -/
theorem C89_pair_partial (E : ArgEnv σ) (c : SysCall) (a : SysArg) (ha : TypedArgument c a "int[2]") (h0 : a.value ≠ 0) (mem : Nat → Byte)
    (data : Bytes) (s s' : σ) (hr : E.readBytes a.value 8 s = (.ok data, s')) (hd : IsRange mem a.value 8 data) :
    ∃ u v rest, argText E c a s = (.ok ("<(".toList ++ u ++ ", ".toList ++ v ++ ")>".toList ++ rest), s') ∧
      AddressSuffix E.writeAddress a.value rest ∧ FieldShown E.arch.big mem a.value (.signed 4) u ∧
      FieldShown E.arch.big mem (a.value + 4) (.signed 4) v := by
  have d1 : IsRange mem a.value 4 (data.take 4) := by
    have := range_slice (off := 0) (k := 4) hd (by decide)
    simpa using this
  have d2 : IsRange mem (a.value + 4) 4 ((data.drop 4).take 4) := range_slice (off := 4) (k := 4) hd (by decide)
  obtain ⟨rest, h1, h2⟩ := pointer_suffix E h0 ("<(".toList ++ (", ".toList).intercalate ((splitInts E.arch 2 data).map pyDecInt) ++ ")>".toList)
  refine ⟨pyDecInt (readNativeInt E.arch (data.take 4)), pyDecInt (readNativeInt E.arch ((data.drop 4).take 4)), rest, argText_some ?_, h2,
    ⟨_, _, isUint_native d1, isSigned_native d1.1 (by decide), pyDecInt_decInt _⟩,
    ⟨_, _, isUint_native d2, isSigned_native d2.1 (by decide), pyDecInt_decInt _⟩⟩
  rw [createText_typed E ha (by decide) (by decide) (by decide)]
  have hi : argReadInts E a.value 2 s = (.ok (E.pointer ("<(".toList ++ (", ".toList).intercalate ((splitInts E.arch 2 data).map pyDecInt) ++
      ")>".toList) a.value), s') := by
    unfold argReadInts readStructBytes
    have : Py.bind (E.readBytes a.value (4 * 2)) (fun bytes => Py.pure (castBytes E.beyond bytes (4 * 2))) s = (.ok data, s') := by
      rw [Py.run_bind_ok hr, castBytes_full hd.1]
      rfl
    rw [Py.run_bind_ok this]
    rfl
  have ht : arrayType "int[2]".toList = some ("int".toList, 2) := by decide
  unfold typedText
  rw [if_neg (by decide), ht]
  simp only []
  rw [if_pos trivial, Py.run_bind_ok hi, h1]
  simp [splitInts, List.intercalate, Py.pure]

example : (argText (exArgEnv exKernel64 exPrintable fun _ => 0) ⟨"pipe", "long", []⟩ ⟨4096, some "int[2]", some "filedes", none⟩
    (exMemory [3, 0, 0, 0, 4, 0, 0, 0])).1 = .ok "<(3, 4)>".toList := by decide +kernel

end PT
