import Verif.Lemmas.ArgText
import Verif.Props.Memory

/-
The texts of system call arguments: strings, written data, structures, socket addresses, constants and integers
(`/repo/ptrace/syscall/syscall_argument.py`, `/repo/ptrace/func_arg.py`, `/repo/ptrace/syscall/socketcall.py`).
-/

namespace PT

open Spec

variable {σ : Type}

theorem pointer_suffix (E : ArgEnv σ) {address : Nat} (h : address ≠ 0) (text : Str) :
    ∃ rest, E.pointer text address = text ++ rest ∧ AddressSuffix E.writeAddress address rest := by
  unfold ArgEnv.pointer formatPointer AddressSuffix
  cases E.writeAddress with
  | false => exact ⟨[], by simp, rfl⟩
  | true => exact ⟨" at ".toList ++ formatAddress E.arch address, by simp, _, rfl, Props.C03_lossless _ _ h⟩

/-! ### C84: strings -/

/-- C84: the displayed text of a string is a literal that stands for exactly the bytes read (UTF-8 with surrogate escapes), followed by
`...` when truncated. `printable` is `str.isprintable`, true of characters only. -/
theorem C84_text (printable : Nat → Bool) (hp : ∀ c, printable c = true → c.isValidChar) (data : Bytes) (truncated : Bool) :
    literalBytes (stringText printable data truncated) = some (data.map (·.val), if truncated then "...".toList else []) := by
  have := literal_stringText hp data truncated []
  rwa [List.append_nil, List.append_nil] at this

/-- Different bytes have different texts. -/
theorem C84_injective (printable : Nat → Bool) (hp : ∀ c, printable c = true → c.isValidChar) (d₁ d₂ : Bytes) (b₁ b₂ : Bool)
    (h : stringText printable d₁ b₁ = stringText printable d₂ b₂) : d₁ = d₂ ∧ b₁ = b₂ := by
  have h1 := C84_text printable hp d₁ b₁
  rw [h, C84_text printable hp d₂ b₂] at h1
  injection h1 with h1
  rw [Prod.mk.injEq] at h1
  refine ⟨(List.map_injective_iff.2 (fun _ _ h => Fin.ext h) h1.1).symm, ?_⟩
  revert h1
  cases b₁ <;> cases b₂ <;> simp

/-- `str.isprintable` on ASCII, for the examples. -/
def exPrintable (c : Nat) : Bool := decide (32 ≤ c ∧ c < 127)

theorem exPrintable_valid : ∀ c, exPrintable c = true → c.isValidChar := by
  intro c h
  have : 32 ≤ c ∧ c < 127 := of_decide_eq_true h
  exact Or.inl (by omega)

example := C84_text exPrintable exPrintable_valid [105, 116, 39, 115, 10, 255, 195, 169] true

-- it's, a line feed, a byte that is not UTF-8, and e with an acute accent
example : stringText exPrintable [105, 116, 39, 115, 10, 255, 195, 169] true = "\"it's\\n\\udcff\\xe9\"...".toList := by decide +kernel

/-- An argument that names a file, in a call where it has no text of its own. -/
structure FileArgument (c : SysCall) (a : SysArg) : Prop where
  type : a.type = some "const char *" ∨ a.type = some "char *"
  name : ∃ n ∈ fileArguments, a.name = some n

/-- An environment over the memory of a tracee. -/
def exArgEnv (k : Kernel) (printable : Nat → Bool) (beyond : Nat → Byte) : ArgEnv MemSt where
  arch := k.arch
  signames := []
  printable := printable
  beyond := beyond
  readBytes := readBytes k
  readWord := fun a => Py.bind (readBytes k a k.arch.W) fun b => Py.pure (readNativeUint k.arch b)
  readCString := fun a m => readCString k 3 a m 256

/-- The memory of a tracee: `text` at 4096, then NULs. -/
def exMemory (text : List Nat) : MemSt := { mem := fun x => if 4096 ≤ x then Fin.ofNat 256 ((text[x - 4096]?).getD 0) else 0 }

/-- A little-endian machine of 64 bits with complete replies. -/
def exKernel64 : Kernel := { Props.exKernel with arch := ⟨true, false⟩ }

theorem createText_file (E : ArgEnv σ) {c : SysCall} {a : SysArg} (h : FileArgument c a) :
    createText E c a = Py.bind (argReadCString E a.value) fun t => Py.pure (some t) := by
  obtain ⟨ht, n, hn, hname⟩ := h
  have hall : ∀ n ∈ fileArguments, n ≠ "" ∧ n ≠ "signum" ∧ n ∈ filenameArguments ∧ ∀ x ∈ specialArguments, x.2 ≠ n := by decide
  obtain ⟨h1, h2, h3, h4⟩ := hall n hn
  have hs : (c.name, n) ∉ specialArguments := fun hm => h4 _ hm rfl
  rcases ht with ht | ht
  · rw [createText_plain ht (by decide) hname h1 h2 hs, if_pos ⟨h3, by decide⟩]
  · rw [createText_plain ht (by decide) hname h1 h2 hs, if_pos ⟨h3, by decide⟩]

/-- C84, for a kernel with complete replies: the text of a file argument is a literal of the beginning of the C string in the memory of the
tracee, of at most `stringMax` bytes; without `...` it is the whole string. Partial as C11: a kernel may give short replies. -/
theorem C84_file_partial (E : ArgEnv MemSt) (hp : ∀ c, E.printable c = true → c.isValidChar) (k : Kernel) (hk : Props.CompleteReplies k) (fuel : Nat)
    (hE : ∀ a m, E.readCString a m = readCString k fuel a m 256) (c : SysCall) (a : SysArg) (ha : FileArgument c a) (h0 : a.value ≠ 0)
    (s : MemSt) (hr : ∃ r, (E.readCString a.value E.stringMax s).1 = .ok r) :
    ∃ text s' data dots rest, argText E c a s = (.ok text, s') ∧ s'.mem = s.mem ∧ literalBytes text = some (data.map (·.val), dots ++ rest) ∧
      AddressSuffix E.writeAddress a.value rest ∧ data.length ≤ E.stringMax ∧ (∀ w, IsCString s.mem a.value w → data <+: w) ∧
      (dots = [] ∧ IsCString s.mem a.value data ∨ dots = "...".toList ∧ ∀ w, IsCString s.mem a.value w → 256 ≤ w.length ∨ E.stringMax ≤ 256) := by
  obtain ⟨⟨data, truncated⟩, hr⟩ := hr
  obtain ⟨rest, hs1, hs2⟩ := pointer_suffix E h0 (stringText E.printable data truncated)
  have hr' := hr
  rw [hE] at hr'
  obtain ⟨hm, hl, hc, hpre⟩ := Props.C11_complete_partial k hk fuel a.value E.stringMax 256 s data truncated hr'
  have hfl := fun w hw => Props.C12_flag_partial k hk fuel a.value E.stringMax 256 (by decide) s w data truncated hw hr'
  rw [← hE] at hm
  cases hrun : E.readCString a.value E.stringMax s with
  | mk r s' =>
    rw [hrun] at hr hm
    simp only at hr hm
    subst hr
    refine ⟨E.pointer (stringText E.printable data truncated) a.value, s', data, (if truncated then "...".toList else []), rest, ?_, hm, ?_, hs2, hl, hpre, ?_⟩
    · apply argText_some
      rw [createText_file E ha]
      have : argReadCString E a.value s = (.ok (E.pointer (stringText E.printable data truncated) a.value), s') := by
        unfold argReadCString
        rw [if_pos h0, Py.run_bind_ok hrun]
        rfl
      rw [Py.run_bind_ok this]
      rfl
    · rw [hs1, literal_stringText hp]
    · cases truncated with
      | false => exact Or.inl ⟨rfl, hc rfl⟩
      | true =>
        refine Or.inr ⟨rfl, fun w hw => ?_⟩
        have := (hfl w hw).1 rfl
        by_cases h : 256 ≤ w.length
        · exact Or.inl h
        · right
          have : w.length / 256 = 0 := Nat.div_eq_of_lt (by omega)
          omega

-- open("/etc")
example := C84_file_partial (exArgEnv exKernel64 exPrintable fun _ => 0) exPrintable_valid exKernel64
  (fun log a n c h => Props.exKernel_complete log a n c h) 3 (fun _ _ => rfl) ⟨"open", "long", []⟩
  ⟨4096, some "const char *", some "filename", none⟩ ⟨Or.inl rfl, "filename", by decide, rfl⟩ (by decide) (exMemory [47, 101, 116, 99])
  ⟨([47, 101, 116, 99], false), by decide +kernel⟩

/-- A null pointer is shown as `NULL`, without reading. -/
theorem C84_null (E : ArgEnv σ) (c : SysCall) (a : SysArg) (ha : FileArgument c a) (h0 : a.value = 0) (s : σ) :
    ∃ text, argText E c a s = (.ok text, s) ∧ ("NULL".toList : Str) <+: text ∧ literalBytes text = none := by
  have h1 : E.pointer "NULL".toList a.value = "NULL".toList ++ if E.writeAddress then " at NULL".toList else [] := by
    unfold ArgEnv.pointer formatPointer
    rw [h0]
    cases E.writeAddress with
    | false => rfl
    | true => rfl
  refine ⟨E.pointer "NULL".toList a.value, ?_, ?_, ?_⟩
  · apply argText_some
    rw [createText_file E ha]
    have : argReadCString E a.value s = (.ok (E.pointer "NULL".toList a.value), s) := by
      unfold argReadCString
      rw [if_neg (by simp [h0])]
      rfl
    rw [Py.run_bind_ok this]
    rfl
  · rw [h1]; exact List.prefix_append _ _
  · rw [h1]
    cases E.writeAddress <;> decide

example := C84_null (exArgEnv exKernel64 exPrintable fun _ => 0) ⟨"open", "long", []⟩ ⟨0, some "const char *", some "filename", none⟩
  ⟨Or.inl rfl, "filename", by decide, rfl⟩ rfl (exMemory [])

/-- An address that cannot be read is shown as a decimal number. -/
theorem C84_unreadable (E : ArgEnv σ) (c : SysCall) (a : SysArg) (ha : FileArgument c a) (h0 : a.value ≠ 0) (s s' : σ) (e : Exc)
    (h1 : e ≠ .interrupt) (h2 : e ≠ .diverge) (hr : E.readCString a.value E.stringMax s = (.error e, s')) :
    ∃ text, argText E c a s = (.ok text, s') ∧ decNumber text = some a.value := by
  refine ⟨_, argText_error (e := e) ?_ h1 h2, decNumber_pyDec _⟩
  rw [createText_file E ha]
  apply Py.run_bind_error
  unfold argReadCString
  rw [if_pos h0]
  exact Py.run_bind_error hr

example : (argText (exArgEnv exKernel64 exPrintable fun _ => 0) ⟨"open", "long", []⟩ ⟨4096, some "const char *", some "filename", none⟩
    (exMemory [47, 101, 116, 99])).1 = .ok "'/etc'".toList := by decide +kernel

example : FileArgument ⟨"open", "long", []⟩ ⟨4096, some "const char *", some "filename", none⟩ := ⟨Or.inl rfl, "filename", by decide, rfl⟩

/-! ### C85: written data -/

/-- An argument `buf` of `write` to one of the first three descriptors. -/
structure WriteBuffer (c : SysCall) (a : SysArg) (size : Nat) : Prop where
  call : c.name = "write"
  name : a.name = some "buf"
  type : ∃ t, a.type = some t ∧ t ≠ ""
  fd : ∃ fd, c.arguments[0]? = some fd ∧ fd.value < 3
  size : ∃ n, c.arguments[2]? = some n ∧ n.value = size

theorem createText_buffer (E : ArgEnv σ) {c : SysCall} {a : SysArg} {size : Nat} (h : WriteBuffer c a size) :
    createText E c a = Py.bind (argReadString E a.value size) fun t => Py.pure (some t) := by
  obtain ⟨hc, hn, ⟨t, ht, ht0⟩, ⟨fd, hfd, hlt⟩, n, hsize, rfl⟩ := h
  have hd : argDictText "write" "buf" a.value = none := rfl
  have hcb : argumentCallback E c "buf" a = none := by
    unfold argumentCallback
    rw [hc]
    rfl
  unfold createText
  rw [ht, hn]
  simp only []
  rw [if_neg (by simp [ht0]), hc, hd, hcb]
  simp only []
  unfold createPlain
  rw [hc, if_neg (by decide), if_neg (by decide), if_neg (by decide), if_pos (by decide)]
  have h0 : argAt (σ := σ) c 0 = Py.pure fd := by unfold argAt; rw [hfd]
  have h2 : argAt (σ := σ) c 2 = Py.pure n := by unfold argAt; rw [hsize]
  rw [h0, h2]
  funext s
  rw [Py.run_bind_ok (show (Py.pure fd : Py σ SysArg) s = (.ok fd, s) from rfl), if_pos hlt,
    Py.run_bind_ok (show (Py.pure n : Py σ SysArg) s = (.ok n, s) from rfl)]

/-- C85: the text of written data is a literal of the first `min size stringMax` bytes of the buffer, followed by `...` exactly when there are
more. Partial: the read must be complete (C10). -/
theorem C85_partial (E : ArgEnv σ) (hp : ∀ c, E.printable c = true → c.isValidChar) (c : SysCall) (a : SysArg) (size : Nat)
    (ha : WriteBuffer c a size) (h0 : a.value ≠ 0) (mem : Nat → Byte) (data : Bytes) (s s' : σ)
    (hr : E.readBytes a.value (min size E.stringMax) s = (.ok data, s')) (hd : IsRange mem a.value (min size E.stringMax) data) :
    ∃ text rest, argText E c a s = (.ok text, s') ∧
      literalBytes text = some ((List.range (min size E.stringMax)).map (fun i => (mem (a.value + i)).val),
        (if E.stringMax < size then "...".toList else []) ++ rest) ∧ AddressSuffix E.writeAddress a.value rest := by
  obtain ⟨rest, hs1, hs2⟩ := pointer_suffix E h0 (stringText E.printable data (decide (E.stringMax < size)))
  refine ⟨E.pointer (stringText E.printable data (decide (E.stringMax < size))) a.value, rest, ?_, ?_, hs2⟩
  · apply argText_some
    rw [createText_buffer E ha]
    have : argReadString E a.value size s = (.ok (E.pointer (stringText E.printable data (decide (E.stringMax < size))) a.value), s') := by
      unfold argReadString
      rw [if_pos h0, Py.run_bind_ok hr]
      rfl
    rw [Py.run_bind_ok this]
    rfl
  · rw [hs1, literal_stringText hp]
    congr 2
    · obtain ⟨hl, hd⟩ := hd
      apply List.ext_getElem
      · simp [hl]
      · intro i h1 h2
        rw [List.getElem_map, List.getElem_map, List.getElem_range, hd]
    · by_cases h : E.stringMax < size <;> simp [h]

-- write(1, "ab\nd", 4) with a limit of three bytes
example := C85_partial { exArgEnv exKernel64 exPrintable (fun _ => 0) with stringMax := 3 } exPrintable_valid
  ⟨"write", "long", [⟨1, none, none, none⟩, ⟨4096, some "const char *", some "buf", none⟩, ⟨4, none, none, none⟩]⟩
  ⟨4096, some "const char *", some "buf", none⟩ 4 ⟨rfl, rfl, ⟨_, rfl, by decide⟩, ⟨_, rfl, by decide⟩, ⟨_, rfl, rfl⟩⟩
  (by decide) (exMemory [97, 98, 10, 100]).mem [97, 98, 10]
  (exMemory [97, 98, 10, 100]) (readBytes exKernel64 4096 3 (exMemory [97, 98, 10, 100])).2 (Prod.ext (by decide +kernel) rfl)
  ⟨rfl, by decide +kernel⟩

/-- The full statement is false: a short read is shown without `...`. -/
theorem C85_refuted : ¬ ∀ (E : ArgEnv MemSt) (k : Kernel) (c : SysCall) (a : SysArg) (size : Nat) (s s' : MemSt) (text : Str) (bytes : List Nat),
    E.readBytes = readBytes k → (∀ c, E.printable c = true → c.isValidChar) → WriteBuffer c a size → a.value ≠ 0 → size ≤ E.stringMax →
    argText E c a s = (.ok text, s') → literalBytes text = some (bytes, []) → bytes.length = size := by
  intro h
  have := h (exArgEnv { exKernel64 with readReply := fun _ _ _ => .count 2 } exPrintable fun _ => 0)
    { exKernel64 with readReply := fun _ _ _ => .count 2 }
    ⟨"write", "long", [⟨1, none, none, none⟩, ⟨4096, some "const char *", some "buf", none⟩, ⟨4, none, none, none⟩]⟩
    ⟨4096, some "const char *", some "buf", none⟩ 4 (exMemory [97, 98, 99, 100]) _ "'ab'".toList [97, 98]
    rfl exPrintable_valid ⟨rfl, rfl, ⟨_, rfl, by decide⟩, ⟨_, rfl, by decide⟩, _, rfl, rfl⟩ (by decide) (by decide)
    (Prod.ext (by decide +kernel) rfl) (by decide)
  exact absurd this (by decide)

/-- Data written to other descriptors is not read: the text is the address. -/
theorem C85_other (E : ArgEnv σ) (c : SysCall) (a : SysArg) (hc : c.name = "write") (hn : a.name = some "buf")
    (ht : a.type = some "const char *") (fd : SysArg) (hfd : c.arguments[0]? = some fd) (h3 : 3 ≤ fd.value) (h0 : a.value ≠ 0) (s : σ) :
    ∃ text, argText E c a s = (.ok text, s) ∧ hexLiteral text = some a.value := by
  refine ⟨formatAddress E.arch a.value, argText_some ?_, Props.C03_lossless _ _ h0⟩
  have hd : argDictText "write" "buf" a.value = none := rfl
  have hcb : argumentCallback E c "buf" a = none := by
    unfold argumentCallback
    rw [hc]
    rfl
  unfold createText
  rw [ht, hn]
  simp only []
  rw [if_neg (by decide), hc, hd, hcb]
  simp only []
  unfold createPlain
  rw [hc, if_neg (by decide), if_neg (by decide), if_neg (by decide), if_pos (by decide)]
  have h0' : argAt (σ := σ) c 0 = Py.pure fd := by unfold argAt; rw [hfd]
  rw [h0', Py.run_bind_ok (show (Py.pure fd : Py σ SysArg) s = (.ok fd, s) from rfl), if_neg (by omega), if_neg (by decide), if_neg (by decide)]
  have hw : withoutPrefix "const ".toList "const char *".toList = "char *".toList := by decide
  rw [hw]
  unfold typedText
  rw [if_pos (by decide)]
  have hs : strip (· == ' ') ("char *".toList).dropLast = "char".toList := by decide
  rw [hs]
  have hv : formatValuePointer E c a "char".toList = Py.pure none := by
    unfold formatValuePointer
    rw [if_neg h0]
    have hl : (knownStructs E.arch).lookup (String.ofList (withoutPrefix "struct ".toList "char".toList)) = none := rfl
    simp only [hl]
    rw [if_neg (by decide), if_neg (by decide), if_neg (by decide), if_neg (by rintro ⟨_, h⟩; exact absurd h (by decide))]
  rw [hv]
  rfl

-- four bytes with a limit of three
example : (argText { exArgEnv exKernel64 exPrintable (fun _ => 0) with stringMax := 3 } ⟨"write", "long", [⟨1, none, none, none⟩,
    ⟨4096, some "const char *", some "buf", none⟩, ⟨4, none, none, none⟩]⟩ ⟨4096, some "const char *", some "buf", none⟩
    (exMemory [97, 98, 10, 100])).1 = .ok "'ab\\n'...".toList := by decide +kernel

/-! ### C86: structures -/

/-- An argument of a type, without a text of its own. -/
structure TypedArgument (c : SysCall) (a : SysArg) (type : String) : Prop where
  type : a.type = some type ∨ a.type = some ("const " ++ type)
  name : ∃ n, a.name = some n ∧ n ≠ "" ∧ n ≠ "signum" ∧ (c.name, n) ∉ specialArguments

theorem createText_typed (E : ArgEnv σ) {c : SysCall} {a : SysArg} {type : String} (h : TypedArgument c a type) (h0 : type ≠ "")
    (h1 : withoutPrefix "const ".toList type.toList = type.toList) (h2 : type ≠ "char *") :
    createText E c a = typedText E c a type.toList := by
  obtain ⟨ht, n, hn, hn0, hs, hsp⟩ := h
  have h3 : type.toList ≠ "char *".toList := fun e => h2 (String.toList_inj.1 e)
  rcases ht with ht | ht
  · rw [createText_plain ht h0 hn hn0 hs hsp, h1, if_neg (fun e => h3 e.2)]
  · have hc : withoutPrefix "const ".toList ("const " ++ type).toList = type.toList := by
      rw [String.toList_append]
      rfl
    rw [createText_plain ht ?_ hn hn0 hs hsp, hc, if_neg (fun e => h3 e.2)]
    intro e
    have := congrArg String.toList e
    rw [String.toList_append] at this
    cases this

/-- The type of a pointer to a structure. -/
def structPointer (name : String) : String := "struct " ++ name ++ " *"

theorem knownStructs_names (x y : Bool) : ∀ p ∈ knownStructs ⟨x, y⟩,
    withoutPrefix "struct ".toList (strip (· == ' ') (structPointer p.1).toList.dropLast) = p.1.toList ∧
    p.1 ≠ "sockaddr" ∧ p.1 ≠ "int" ∧ (knownStructs ⟨x, y⟩).lookup p.1 = some p.2 ∧ structPointer p.1 ≠ "" ∧
    withoutPrefix "const ".toList (structPointer p.1).toList = (structPointer p.1).toList ∧ structPointer p.1 ≠ "char *" ∧
    (structPointer p.1).toList.getLast? = some '*' := by
  revert x y
  decide +kernel

theorem typedText_struct (E : ArgEnv σ) (c : SysCall) {a : SysArg} {st : CStruct} (hst : (st.name, st) ∈ knownStructs E.arch) (h0 : a.value ≠ 0)
    {s s' : σ} {x : Char} {t : Str} (h : argReadStruct E a.value st s = (.ok (x :: t), s')) :
    typedText E c a (structPointer st.name).toList s = (.ok (some (x :: t)), s') := by
  have hv : formatValuePointer E c a (strip (· == ' ') (structPointer st.name).toList.dropLast) s = (.ok (some (x :: t)), s') := by
    obtain ⟨n1, n2, n3, n4, -⟩ := knownStructs_names E.arch.is64 E.arch.big (st.name, st) hst
    replace n1 : withoutPrefix "struct ".toList (strip (· == ' ') (structPointer st.name).toList.dropLast) = st.name.toList := n1
    replace n4 : (knownStructs E.arch).lookup st.name = some st := n4
    unfold formatValuePointer
    rw [if_neg h0, n1]
    simp only []
    rw [if_neg (fun e => n2 (String.toList_inj.1 e)), if_neg (fun e => n3 (String.toList_inj.1 e)), String.ofList_toList, n4]
    simp only []
    rw [Py.run_bind_ok h]
    rfl
  unfold typedText
  rw [if_pos ?_, Py.run_bind_ok (exceptAny_ok hv)]
  · rfl
  · unfold structPointer
    rw [String.toList_append, List.getLast?_append]
    rfl

theorem argReadStruct_shown (E : ArgEnv σ) {st : CStruct} {fields : List (String × Nat × FieldKind)} {address : Nat} {mem : Nat → Byte}
    {data : Bytes} {s s' : σ} (hr : E.readBytes address st.sizeof s = (.ok data, s')) (hd : IsRange mem address st.sizeof data)
    (hb : ∀ f ∈ layoutFrom 0 st.fields, f.2.2 + f.2.1.size ≤ st.sizeof)
    (hk : described E.arch.big st.name (layoutFrom 0 st.fields) = fields.map fun k => (k.1, k.2.1, some k.2.2)) :
    ∃ t, argReadStruct E address st s = (.ok (E.pointer ('<' :: t) address), s') ∧ StructShown E.arch.big mem address st.name fields ('<' :: t) := by
  obtain ⟨texts, h1, h2⟩ := fieldTexts_shown hd hb hk
  refine ⟨_, ?_, texts, rfl, h2⟩
  unfold argReadStruct
  have hs : readStructBytes E address st.sizeof s = (.ok data, s') := by
    unfold readStructBytes
    rw [Py.run_bind_ok hr, castBytes_full hd.1]
    rfl
  rw [Py.run_bind_ok hs, h1, Py.run_bind_ok (show liftE (.ok texts) s' = (.ok texts, s') from rfl)]
  rfl

theorem structShown_text (E : ArgEnv σ) {c : SysCall} {a : SysArg} {st : CStruct} {fields : List (String × Nat × FieldKind)}
    (ha : TypedArgument c a (structPointer st.name)) (h0 : a.value ≠ 0) (hst : (st.name, st) ∈ knownStructs E.arch) {mem : Nat → Byte}
    {data : Bytes} {s s' : σ} (hr : E.readBytes a.value st.sizeof s = (.ok data, s')) (hd : IsRange mem a.value st.sizeof data)
    (hb : ∀ f ∈ layoutFrom 0 st.fields, f.2.2 + f.2.1.size ≤ st.sizeof)
    (hk : described E.arch.big st.name (layoutFrom 0 st.fields) = fields.map fun k => (k.1, k.2.1, some k.2.2)) :
    ∃ shown rest, argText E c a s = (.ok (shown ++ rest), s') ∧ AddressSuffix E.writeAddress a.value rest ∧
      StructShown E.arch.big mem a.value st.name fields shown := by
  obtain ⟨t, h1, h2⟩ := argReadStruct_shown E hr hd hb hk
  obtain ⟨rest, h3, h4⟩ := pointer_suffix E h0 ('<' :: t)
  refine ⟨'<' :: t, rest, argText_some ?_, h4, h2⟩
  rw [createText_typed E ha ?_ ?_ ?_]
  · rw [h3] at h1
    exact typedText_struct E c hst h0 h1
  · unfold structPointer
    intro e
    have := congrArg String.toList e
    rw [String.toList_append] at this
    simp at this
  · unfold structPointer
    rw [String.toList_append, String.toList_append]
    rfl
  · unfold structPointer
    intro e
    have := congrArg String.toList e
    rw [String.toList_append, String.toList_append] at this
    have := congrArg List.head? this
    simp at this

theorem roundUp_spec {k n : Nat} (hn : 0 < n) : k ≤ roundUp k n ∧ roundUp k n < k + n ∧ n ∣ roundUp k n := by
  unfold roundUp
  have h1 := Nat.div_add_mod (k + n - 1) n
  have h2 := Nat.mod_lt (k + n - 1) hn
  rw [Nat.mul_comm n] at h1
  exact ⟨by omega, by omega, Nat.dvd_mul_left _ _⟩

/-- C86, the layout of C for every structure: the fields are all there in their order, the first one is at the start, and each one is at the first
place after the one before it that is a multiple of its alignment. -/
theorem C86_layout : ∀ (fields : List (String × CType)) (k : Nat), (∀ f ∈ fields, 0 < f.2.align) →
    (layoutFrom k fields).map (fun f => (f.1, f.2.1)) = fields ∧
    (∀ f, (layoutFrom k fields)[0]? = some f → k ≤ f.2.2 ∧ f.2.2 < k + f.2.1.align ∧ f.2.1.align ∣ f.2.2) ∧
    ∀ i f g, (layoutFrom k fields)[i]? = some f → (layoutFrom k fields)[i + 1]? = some g →
      f.2.2 + f.2.1.size ≤ g.2.2 ∧ g.2.2 < f.2.2 + f.2.1.size + g.2.1.align ∧ g.2.1.align ∣ g.2.2
  | [], k, _ => by
    refine ⟨rfl, fun f h => ?_, fun i f g h => ?_⟩
    · cases h
    · cases i <;> cases h
  | (name, t) :: fields, k, h => by
    obtain ⟨h1, h2, h3⟩ := C86_layout fields (roundUp k t.align + t.size) fun f hf => h f (by simp [hf])
    refine ⟨by simp only [layoutFrom, List.map_cons, h1], fun f hf => ?_, fun i f g hf hg => ?_⟩
    · cases hf
      exact roundUp_spec (h (name, t) (by simp))
    · cases i with
      | zero =>
        cases hf
        exact h2 g hg
      | succ i => exact h3 i f g hf hg

/-- A structure with padding, and one of the kernel. -/
example : layoutFrom 0 [("a", .char), ("b", .sint 4), ("c", .char), ("d", .uint 8)] =
    [("a", .char, 0), ("b", .sint 4, 4), ("c", .char, 8), ("d", .uint 8, 16)] := by decide
example := C86_layout (timeval ⟨true, false⟩).fields 0 (by decide)

/-- C86: a pointer to a structure is shown as `<name field=value, ...>` with the fields of the structure of the kernel: each value is read from
where the kernel puts it, with its size and sign. Partial: the read must be complete (`C86_short_refuted`), and `rlimit` and `user_desc` are
left out (`C86_rlimit_refuted`, `C86_user_desc_refuted`). -/
theorem C86_partial (E : ArgEnv σ) (st : CStruct) (hst : st ∈ [timeval E.arch, timespec E.arch, pollfd, newUtsname]) (c : SysCall) (a : SysArg)
    (ha : TypedArgument c a (structPointer st.name)) (h0 : a.value ≠ 0) (mem : Nat → Byte) (data : Bytes) (s s' : σ)
    (hr : E.readBytes a.value st.sizeof s = (.ok data, s')) (hd : IsRange mem a.value st.sizeof data) :
    ∃ shown rest fields, argText E c a s = (.ok (shown ++ rest), s') ∧ AddressSuffix E.writeAddress a.value rest ∧
      (kernelStructs E.arch.W).lookup st.name = some fields ∧ StructShown E.arch.big mem a.value st.name fields shown := by
  have hE : E.arch = ⟨E.arch.is64, E.arch.big⟩ := rfl
  have hall : ∀ x y : Bool, ∀ st ∈ [timeval ⟨x, y⟩, timespec ⟨x, y⟩, pollfd, newUtsname], (st.name, st) ∈ knownStructs ⟨x, y⟩ ∧
      (∀ f ∈ layoutFrom 0 st.fields, f.2.2 + f.2.1.size ≤ st.sizeof) ∧
      ((kernelStructs (Arch.mk x y).W).lookup st.name).isSome ∧
      described y st.name (layoutFrom 0 st.fields) =
        (((kernelStructs (Arch.mk x y).W).lookup st.name).getD []).map fun k => (k.1, k.2.1, some k.2.2) := by decide +kernel
  obtain ⟨h1, h2, h3, h4⟩ := hall E.arch.is64 E.arch.big st hst
  obtain ⟨fields, hf⟩ := Option.isSome_iff_exists.1 h3
  rw [hf] at h4
  obtain ⟨shown, rest, h5, h6, h7⟩ := structShown_text E ha h0 h1 hr hd h2 h4
  exact ⟨shown, rest, fields, h5, h6, hf, h7⟩

-- struct timeval {-1, 5} on a machine of 32 bits
example : (argText (exArgEnv { exKernel64 with arch := ⟨false, false⟩ } exPrintable fun _ => 0) ⟨"settimeofday", "long", []⟩
    ⟨4096, some "struct timeval *", some "tv", none⟩ (exMemory [255, 255, 255, 255, 5])).1 =
    .ok "<timeval tv_sec=-1, tv_usec=5>".toList := by decide +kernel

example : TypedArgument ⟨"settimeofday", "long", []⟩ ⟨4096, some "struct timeval *", some "tv", none⟩ (structPointer (timeval ⟨false, false⟩).name) :=
  ⟨Or.inl (by decide), "tv", rfl, by decide, by decide, by decide⟩

/-- C86 for `rlimit`, when the limits are less than half of the range: they are shown as signed numbers. -/
theorem C86_rlimit_partial (E : ArgEnv σ) (c : SysCall) (a : SysArg) (ha : TypedArgument c a "struct rlimit *") (h0 : a.value ≠ 0)
    (mem : Nat → Byte) (data : Bytes) (s s' : σ) (hr : E.readBytes a.value (rlimit E.arch).sizeof s = (.ok data, s'))
    (hd : IsRange mem a.value (rlimit E.arch).sizeof data)
    (hlow : ∀ off ∈ [0, E.arch.W], ∀ v, IsUint E.arch.big mem (a.value + off) E.arch.W v → v < 2 ^ (8 * E.arch.W - 1)) :
    ∃ shown rest, argText E c a s = (.ok (shown ++ rest), s') ∧ AddressSuffix E.writeAddress a.value rest ∧
      StructShown E.arch.big mem a.value "rlimit" [("rlim_cur", 0, .unsigned E.arch.W), ("rlim_max", E.arch.W, .unsigned E.arch.W)] shown := by
  have hall : ∀ x y : Bool, (structPointer (rlimit ⟨x, y⟩).name = "struct rlimit *" ∧ (rlimit ⟨x, y⟩).name = "rlimit") ∧
      ((rlimit ⟨x, y⟩).name, rlimit ⟨x, y⟩) ∈ knownStructs ⟨x, y⟩ ∧
      (∀ f ∈ layoutFrom 0 (rlimit ⟨x, y⟩).fields, f.2.2 + f.2.1.size ≤ (rlimit ⟨x, y⟩).sizeof) ∧
      described y (rlimit ⟨x, y⟩).name (layoutFrom 0 (rlimit ⟨x, y⟩).fields) =
        [("rlim_cur", 0, FieldKind.signed (Arch.mk x y).W), ("rlim_max", (Arch.mk x y).W, .signed (Arch.mk x y).W)].map
          fun k => (k.1, k.2.1, some k.2.2) := by decide +kernel
  obtain ⟨⟨g1, g2⟩, h1, h2, h4⟩ := hall E.arch.is64 E.arch.big
  obtain ⟨shown, rest, h5, h6, texts, h7, h8⟩ := structShown_text E (st := rlimit E.arch) (g1 ▸ ha) h0 h1 hr hd h2 h4
  refine ⟨shown, rest, h5, h6, texts, h7, ?_⟩
  have hW : 0 < E.arch.W := by unfold Arch.W; split <;> decide
  have conv : ∀ off ∈ [0, E.arch.W], ∀ u, FieldShown E.arch.big mem (a.value + off) (.signed E.arch.W) u →
      FieldShown E.arch.big mem (a.value + off) (.unsigned E.arch.W) u := by
    rintro off ho u ⟨v, r, f1, ⟨f2, f3, k, f4⟩, f5⟩
    have := hlow off ho v f1
    have e : r = v := by
      rw [show 8 * E.arch.W - 1 + 1 = 8 * E.arch.W by omega] at f4
      have hp : (2 : Int) ^ (8 * E.arch.W) = 2 * 2 ^ (8 * E.arch.W - 1) := by
        conv => lhs; rw [show 8 * E.arch.W = (8 * E.arch.W - 1) + 1 by omega, Int.pow_succ]
        omega
      rw [hp] at f4
      generalize hq : (2 : Int) ^ (8 * E.arch.W - 1) = q at *
      have hv : (v : Int) < q := by rw [← hq]; exact_mod_cast this
      have hq0 : 0 < q := by omega
      have hk : k = 0 := by
        rcases Int.lt_trichotomy k 0 with hk | hk | hk
        · have : k * (2 * q) ≤ (-1) * (2 * q) := Int.mul_le_mul_of_nonneg_right (by omega) (by omega)
          omega
        · exact hk
        · have : 1 * (2 * q) ≤ k * (2 * q) := Int.mul_le_mul_of_nonneg_right (by omega) (by omega)
          omega
      rw [hk] at f4
      omega
    exact ⟨v, f1, by rw [f5, e]⟩
  cases h8 with
  | cons p1 h8 =>
    cases h8 with
    | cons p2 h8 =>
      cases h8
      obtain ⟨u1, e1, q1⟩ := p1
      obtain ⟨u2, e2, q2⟩ := p2
      exact .cons ⟨u1, e1, conv 0 (by simp) u1 q1⟩ (.cons ⟨u2, e2, conv E.arch.W (by simp) u2 q2⟩ .nil)

-- limits 1024 and 4096
example := C86_rlimit_partial (exArgEnv exKernel64 exPrintable fun _ => 0) ⟨"getrlimit", "long", []⟩
  ⟨4096, some "struct rlimit *", some "rlim", none⟩ ⟨Or.inl rfl, "rlim", rfl, by decide, by decide, by decide⟩ (by decide)
  (exMemory [0, 4, 0, 0, 0, 0, 0, 0, 0, 16]).mem [0, 4, 0, 0, 0, 0, 0, 0, 0, 16, 0, 0, 0, 0, 0, 0] (exMemory [0, 4, 0, 0, 0, 0, 0, 0, 0, 16])
  (readBytes exKernel64 4096 16 (exMemory [0, 4, 0, 0, 0, 0, 0, 0, 0, 16])).2 (Prod.ext (by decide +kernel) rfl) ⟨rfl, by decide +kernel⟩ (by
    intro off hoff v hv
    have h7 := hv.2 7 (by decide)
    have h0 : ((exMemory [0, 4, 0, 0, 0, 0, 0, 0, 0, 16]).mem (4096 + off + 7)).val = 0 := by
      rcases List.mem_pair.1 hoff with rfl | rfl <;> decide +kernel
    have : v / 256 ^ 7 % 256 = 0 := h7.symm.trans h0
    have : v < 256 ^ 8 := hv.1
    show v < 2 ^ 63
    omega)

/-- Memory full of 0xff. -/
def exOnesArg : MemSt := { mem := fun _ => 255 }

/-- The full statement is false of `rlimit`: `RLIM_INFINITY` is shown as -1. -/
theorem C86_rlimit_refuted : ¬ ∀ (E : ArgEnv MemSt) (c : SysCall) (a : SysArg) (s s' : MemSt) (data : Bytes) (text : Str),
    TypedArgument c a "struct rlimit *" → a.value ≠ 0 → E.writeAddress = false →
    E.readBytes a.value (rlimit E.arch).sizeof s = (.ok data, s') → IsRange s.mem a.value (rlimit E.arch).sizeof data →
    argText E c a s = (.ok text, s') →
    StructShown E.arch.big s.mem a.value "rlimit" [("rlim_cur", 0, .unsigned E.arch.W), ("rlim_max", E.arch.W, .unsigned E.arch.W)] text := by
  intro h
  obtain ⟨texts, ht, hf⟩ := h (exArgEnv exKernel64 exPrintable fun _ => 0) ⟨"getrlimit", "long", []⟩
    ⟨4096, some "struct rlimit *", some "rlim", none⟩ exOnesArg (readBytes exKernel64 4096 16 exOnesArg).2 (List.replicate 16 255)
    "<rlimit rlim_cur=-1, rlim_max=-1>".toList ⟨Or.inl rfl, "rlim", rfl, by decide, by decide, by decide⟩ (by decide) rfl
    (Prod.ext (by decide +kernel) rfl) ⟨by decide, fun i hi => List.getElem_replicate ..⟩ (Prod.ext (by decide +kernel) rfl)
  cases hf with
  | cons p1 hf =>
    cases hf with
    | cons p2 hf =>
      cases hf
      obtain ⟨u, rfl, v, hv, hu⟩ := p1
      have hv0 : v ≠ 0 := by
        intro e
        have := hv.2 0 (by decide)
        rw [e] at this
        exact absurd this (by decide)
      match u with
      | [] => cases hu
      | x :: w =>
        have hx : some '-' = some x := congrArg (fun l => l[17]?) ht
        injection hx with hx
        subst hx
        rw [decInt] at hu
        cases hw : decNumber w with
        | none => rw [hw] at hu; cases hu
        | some n =>
          rw [hw] at hu
          simp only [Option.map_some, Option.some.injEq] at hu
          omega

/-- The full statement is false of `user_desc` on 64 bits: `base_addr` is an `unsigned long` for the program and an `unsigned int` for the
kernel. -/
theorem C86_user_desc_refuted : ¬ ∀ (a : Arch) (name : String) (off : Nat) (kind : FieldKind),
    (name, off, kind) ∈ ((kernelStructs a.W).lookup "user_desc").getD [] → ∃ t, (name, t, off) ∈ layoutFrom 0 (userDesc a).fields ∧ t.size = 4 := by
  intro h
  obtain ⟨t, h1, _⟩ := h ⟨true, false⟩ "base_addr" 4 (.unsigned 4) (by decide)
  have : ∀ x ∈ layoutFrom 0 (userDesc ⟨true, false⟩).fields, x.2.2 ≠ 4 := by decide
  exact this _ h1 rfl

/-- The full statement is false when the kernel gives fewer bytes than the structure has: the rest of the text comes from the memory of the
tracer. -/
theorem C86_short_refuted : ¬ ∀ (k : Kernel) (printable : Nat → Bool) (b₁ b₂ : Nat → Byte) (c : SysCall) (a : SysArg) (s : MemSt),
    TypedArgument c a "struct timespec *" → a.value ≠ 0 →
    (argText (exArgEnv k printable b₁) c a s).1 = (argText (exArgEnv k printable b₂) c a s).1 := by
  intro h
  have := h { exKernel64 with readReply := fun _ _ _ => .count 8 } exPrintable (fun _ => 0) (fun _ => 1) ⟨"nanosleep", "long", []⟩
    ⟨4096, some "struct timespec *", some "req", none⟩ (exMemory [7]) ⟨Or.inl rfl, "req", rfl, by decide, by decide, by decide⟩ (by decide)
  exact absurd this (by decide +kernel)

/-- A structure that cannot be read is shown as its address. -/
theorem C86_unreadable (E : ArgEnv σ) (st : CStruct) (hst : (st.name, st) ∈ knownStructs E.arch) (c : SysCall) (a : SysArg)
    (ha : TypedArgument c a (structPointer st.name)) (h0 : a.value ≠ 0) (s s' : σ) (e : Exc) (h1 : e ≠ .interrupt) (h2 : e ≠ .diverge)
    (hr : E.readBytes a.value st.sizeof s = (.error e, s')) :
    ∃ text, argText E c a s = (.ok text, s') ∧ hexLiteral text = some a.value := by
  refine ⟨formatAddress E.arch a.value, argText_some ?_, Props.C03_lossless _ _ h0⟩
  obtain ⟨n1, n2, n3, n4, n5, n6, n7, n8⟩ := knownStructs_names E.arch.is64 E.arch.big (st.name, st) hst
  replace n1 : withoutPrefix "struct ".toList (strip (· == ' ') (structPointer st.name).toList.dropLast) = st.name.toList := n1
  replace n4 : (knownStructs E.arch).lookup st.name = some st := n4
  have hv : formatValuePointer E c a (strip (· == ' ') (structPointer st.name).toList.dropLast) s = (.error e, s') := by
    unfold formatValuePointer
    rw [if_neg h0, n1]
    simp only []
    rw [if_neg (fun e => n2 (String.toList_inj.1 e)), if_neg (fun e => n3 (String.toList_inj.1 e)), String.ofList_toList, n4]
    simp only []
    apply Py.run_bind_error
    unfold argReadStruct readStructBytes
    exact Py.run_bind_error (Py.run_bind_error hr)
  rw [createText_typed E ha n5 n6 n7]
  have hx := exceptAny_error (h := Py.pure none) hv h1 h2
  unfold typedText
  rw [if_pos n8, Py.run_bind_ok (hx.trans rfl)]
  rfl

-- the pointer is wild
example := C86_unreadable (exArgEnv { exKernel64 with openErr := fun _ => 13, peekErr := fun _ _ => 5 } exPrintable fun _ => 0)
  (timeval ⟨true, false⟩) (by decide) ⟨"settimeofday", "long", []⟩ ⟨4096, some "struct timeval *", some "tv", none⟩
  ⟨Or.inl (by decide), "tv", rfl, by decide, by decide, by decide⟩ (by decide) (exMemory []) _ (.ptrace (some 5)) (by decide) (by decide)
  (Prod.ext (by decide +kernel) rfl)

/-! ### C87: socket addresses -/

theorem isUint_two {mem : Nat → Byte} {p v w : Nat} (hv : IsUint false mem p 2 v) (hw : IsUint false mem p 2 w) : v = w := by
  have h0 := hv.2 0 (by decide)
  have h1 := hv.2 1 (by decide)
  have g0 := hw.2 0 (by decide)
  have g1 := hw.2 1 (by decide)
  have hl := hv.1
  have gl := hw.1
  unfold byteAt at h0 h1 g0 g1
  simp only [Bool.false_eq_true, if_false] at h0 h1 g0 g1
  omega

/-- The structure of a family of socket addresses. -/
def exFamilies : List (Nat × CStruct) := [(2, sockaddrIn), (10, sockaddrIn6), (1, sockaddrUn), (16, sockaddrNl)]

/-- C87: a socket address is shown by its family: Internet addresses, file names and netlink addresses with their fields, every other family
with its name or number. Partial: on a little-endian machine, when the whole structure can be read whatever the length given
(`C87_length_refuted`); the names of abstract sockets are lost (`C87_abstract_refuted`). -/
theorem C87_partial (E : ArgEnv σ) (hE : E.arch.big = false) (c : SysCall) (a : SysArg) (ha : TypedArgument c a "struct sockaddr *")
    (h0 : a.value ≠ 0) (mem : Nat → Byte) (hread : ∀ n ≤ 110, ∀ s, ∃ d s', E.readBytes a.value n s = (.ok d, s') ∧ IsRange mem a.value n d)
    (s : σ) (family : Nat) (hfam : IsUint false mem a.value 2 family) :
    ∃ shown rest s', argText E c a s = (.ok (shown ++ rest), s') ∧ AddressSuffix E.writeAddress a.value rest ∧
      (∀ name fields, (family, name) ∈ [(2, "sockaddr_in"), (10, "sockaddr_in6"), (1, "sockaddr_un"), (16, "sockaddr_nl")] →
        (kernelStructs E.arch.W).lookup name = some fields → StructShown false mem a.value name fields shown) ∧
      (family ∉ [2, 10, 1, 16] → ∃ u, shown = "<sockaddr family=".toList ++ u ++ ['>'] ∧
        (decNumber u = some family ∨ ∃ name l, ("socket", "domain", l) ∈ kernelConstants ∧ (name, family) ∈ l ∧ u = name.toList)) := by
  obtain ⟨d, s1, hr, hd⟩ := hread 2 (by decide) s
  have hsz : sockaddr.sizeof = 2 := by decide
  have hbytes : readStructBytes E a.value sockaddr.sizeof s = (.ok d, s1) := by
    unfold readStructBytes
    rw [hsz, Py.run_bind_ok hr, castBytes_full hd.1]
    rfl
  have hval : readNativeUint E.arch d = family := by
    have := isUint_native (a := E.arch) hd
    rw [hE] at this
    exact isUint_two this hfam
  have key : ∃ t rest s', formatSockaddr E a.value s = (.ok (('<' :: t) ++ rest), s') ∧ AddressSuffix E.writeAddress a.value rest ∧
      (∀ name fields, (family, name) ∈ [(2, "sockaddr_in"), (10, "sockaddr_in6"), (1, "sockaddr_un"), (16, "sockaddr_nl")] →
        (kernelStructs E.arch.W).lookup name = some fields → StructShown false mem a.value name fields ('<' :: t)) ∧
      (family ∉ [2, 10, 1, 16] → ∃ u, '<' :: t = "<sockaddr family=".toList ++ u ++ ['>'] ∧
        (decNumber u = some family ∨ ∃ name l, ("socket", "domain", l) ∈ kernelConstants ∧ (name, family) ∈ l ∧ u = name.toList)) := by
    have hstruct : ∀ fam st, (fam, st) ∈ exFamilies → family = fam → formatSockaddr E a.value s = argReadStruct E a.value st s1 →
        ∃ t rest s', formatSockaddr E a.value s = (.ok (('<' :: t) ++ rest), s') ∧ AddressSuffix E.writeAddress a.value rest ∧
      (∀ name fields, (family, name) ∈ [(2, "sockaddr_in"), (10, "sockaddr_in6"), (1, "sockaddr_un"), (16, "sockaddr_nl")] →
        (kernelStructs E.arch.W).lookup name = some fields → StructShown false mem a.value name fields ('<' :: t)) ∧
      (family ∉ [2, 10, 1, 16] → ∃ u, '<' :: t = "<sockaddr family=".toList ++ u ++ ['>'] ∧
        (decNumber u = some family ∨ ∃ name l, ("socket", "domain", l) ∈ kernelConstants ∧ (name, family) ∈ l ∧ u = name.toList)) := by
      intro fam st hst hf hrun
      have hall : ∀ x : Bool, ∀ q ∈ exFamilies, q.2.sizeof ≤ 110 ∧ (∀ f ∈ layoutFrom 0 q.2.fields, f.2.2 + f.2.1.size ≤ q.2.sizeof) ∧
          described false q.2.name (layoutFrom 0 q.2.fields) =
            (((kernelStructs (Arch.mk x false).W).lookup q.2.name).getD []).map (fun k => (k.1, k.2.1, some k.2.2)) ∧
          q.1 ∈ [2, 10, 1, 16] ∧
          (∀ n ∈ [(2, "sockaddr_in"), (10, "sockaddr_in6"), (1, "sockaddr_un"), (16, "sockaddr_nl")], n.1 = q.1 → n.2 = q.2.name) := by
        decide +kernel
      obtain ⟨g1, g2, g3, g4, g5⟩ := hall E.arch.is64 _ hst
      have hW : (Arch.mk E.arch.is64 false).W = E.arch.W := rfl
      rw [hW] at g3
      obtain ⟨d2, s2, hr2, hd2⟩ := hread _ g1 s1
      obtain ⟨t, h1, h2⟩ := argReadStruct_shown E hr2 hd2 g2 (by rw [hE]; exact g3)
      obtain ⟨rest, h3, h4⟩ := pointer_suffix E h0 ('<' :: t)
      refine ⟨t, rest, s2, ?_, h4, ?_, ?_⟩
      · rw [hrun, h1, h3]
      · intro name fields hm hl
        have hn : name = st.name := g5 _ hm hf
        subst hn
        rw [hE] at h2
        rw [hl] at h2
        exact h2
      · intro hno
        rw [hf] at hno
        exact absurd g4 hno
    have hrun : formatSockaddr E a.value s = (if family = 2 then argReadStruct E a.value sockaddrIn
        else if family = 10 then argReadStruct E a.value sockaddrIn6
        else if family = 1 then argReadStruct E a.value sockaddrUn
        else if family = 16 then argReadStruct E a.value sockaddrNl
        else Py.pure (E.pointer ("<sockaddr family=".toList ++ (match socketFamily.lookup family with
          | some name => name.toList
          | none => pyDec family) ++ ['>']) a.value)) s1 := by
      unfold formatSockaddr
      rw [Py.run_bind_ok hbytes, hval]
      rfl
    by_cases h2 : family = 2
    · exact hstruct 2 sockaddrIn (by decide) h2 (by rw [hrun, if_pos h2])
    · by_cases h10 : family = 10
      · exact hstruct 10 sockaddrIn6 (by decide) h10 (by rw [hrun, if_neg h2, if_pos h10])
      · by_cases h1 : family = 1
        · exact hstruct 1 sockaddrUn (by decide) h1 (by rw [hrun, if_neg h2, if_neg h10, if_pos h1])
        · by_cases h16 : family = 16
          · exact hstruct 16 sockaddrNl (by decide) h16 (by rw [hrun, if_neg h2, if_neg h10, if_neg h1, if_pos h16])
          · rw [if_neg h2, if_neg h10, if_neg h1, if_neg h16] at hrun
            generalize hu : (match socketFamily.lookup family with
              | some name => name.toList
              | none => pyDec family) = u at hrun
            obtain ⟨rest, h3, h4⟩ := pointer_suffix E h0 ("<sockaddr family=".toList ++ u ++ ['>'])
            refine ⟨"sockaddr family=".toList ++ u ++ ['>'], rest, s1, ?_, h4, ?_, ?_⟩
            · rw [hrun, h3]; rfl
            · intro name fields hm
              simp only [List.mem_cons, Prod.mk.injEq, List.not_mem_nil, or_false, h2, h10, h1, h16, false_and, or_self] at hm
            · intro _
              refine ⟨u, rfl, ?_⟩
              cases hl : socketFamily.lookup family with
              | none => rw [hl] at hu; exact Or.inl (by rw [← hu]; exact decNumber_pyDec _)
              | some name =>
                rw [hl] at hu
                right
                have hm := mem_of_lookup hl
                have hall : ∀ q ∈ socketFamily, ∃ x ∈ kernelConstants, x.1 = "socket" ∧ x.2.1 = "domain" ∧ (q.2, q.1) ∈ x.2.2 := by decide +kernel
                obtain ⟨⟨x1, x2, l⟩, hx, e1, e2, hq⟩ := hall _ hm
                simp only at e1 e2
                subst e1 e2
                exact ⟨name, l, hx, hq, hu.symm⟩
  obtain ⟨t, rest, s', h1, h2, h3, h4⟩ := key
  refine ⟨'<' :: t, rest, s', argText_some ?_, h2, h3, h4⟩
  rw [createText_typed E ha (by decide) (by decide) (by decide)]
  have hv : formatValuePointer E c a (strip (· == ' ') ("struct sockaddr *".toList).dropLast) s = (.ok (some ('<' :: t ++ rest)), s') := by
    have hs : withoutPrefix "struct ".toList (strip (· == ' ') ("struct sockaddr *".toList).dropLast) = "sockaddr".toList := by decide
    unfold formatValuePointer
    rw [if_neg h0, hs]
    simp only []
    rw [if_pos trivial, Py.run_bind_ok h1]
    rfl
  unfold typedText
  rw [if_pos (by decide), Py.run_bind_ok (exceptAny_ok hv)]
  rfl

/-- `connect(3, address, length)` -/
def exConnect (length : Nat) : SysCall :=
  ⟨"connect", "long", [⟨3, some "int", some "sockfd", none⟩, ⟨4096, some "struct sockaddr *", some "addr", none⟩,
    ⟨length, some "int", some "addrlen", none⟩]⟩

/-- Its second argument. -/
def exAddress : SysArg := ⟨4096, some "struct sockaddr *", some "addr", none⟩

/-- The text of the address, for a memory of the tracee. -/
def exConnectText (length : Nat) (memory : List Nat) : Except Exc Str :=
  (argText (exArgEnv exKernel64 exPrintable fun _ => 0) (exConnect length) exAddress (exMemory memory)).1

-- 127.0.0.1:80, ::1 port 443, /a, netlink, and a family without structure
example : exConnectText 16 [2, 0, 0, 80, 127, 0, 0, 1] = .ok "<sockaddr_in sin_family=2, sin_port=80, sin_addr=127.0.0.1>".toList := by decide +kernel
example : exConnectText 4 [1, 0, 47, 97] = .ok "<sockaddr_un sun_family=1, sun_path=b'/a'>".toList := by decide +kernel
example : exConnectText 8 [17, 0] = .ok "<sockaddr family=AF_PACKET>".toList := by decide +kernel
example : TypedArgument (exConnect 16) exAddress "struct sockaddr *" := ⟨Or.inl rfl, "addr", rfl, by decide, by decide, by decide⟩

/-- The text does not tell abstract sockets apart: their names begin with a NUL. -/
theorem C87_abstract_refuted : ¬ ∀ (n : Nat) (m₁ m₂ : List Nat), m₁.length = n → m₂.length = n → exConnectText n m₁ = exConnectText n m₂ → m₁ = m₂ := by
  intro h
  exact absurd (h 4 [1, 0, 0, 97] [1, 0, 0, 98] rfl rfl
    ((show _ = Except.ok "<sockaddr_un sun_family=1, sun_path=b''>".toList by decide +kernel).trans (by decide +kernel))) (by decide)

/-- The text depends on bytes behind the length given: they do not belong to the address. -/
theorem C87_length_refuted : ¬ ∀ (n : Nat) (m₁ m₂ : List Nat), m₁.take n = m₂.take n → exConnectText n m₁ = exConnectText n m₂ := by
  intro h
  exact absurd (h 4 [1, 0, 47, 97] [1, 0, 47, 97, 98] rfl) (by decide +kernel)

end PT
