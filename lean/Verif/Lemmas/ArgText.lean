import Verif.Lemmas.Format3
import Verif.Lemmas.Memory
import Verif.Lemmas.Repr
import Verif.Lemmas.Py
import Verif.Model.ArgText
import Verif.Props.Ctypes
import Verif.Spec.ArgText

/-! Texts of fields of structures in memory. -/

namespace PT
open Spec

theorem exceptAny_ok {σ α : Type} {m h : Py σ α} {s u : σ} {a : α} (hm : m s = (.ok a, u)) : exceptAny m h s = (.ok a, u) := by
  unfold exceptAny; rw [hm]

theorem exceptAny_error {σ α : Type} {m h : Py σ α} {s u : σ} {e : Exc} (hm : m s = (.error e, u)) (h1 : e ≠ .interrupt) (h2 : e ≠ .diverge) :
    exceptAny m h s = h u := by
  unfold exceptAny; rw [hm]; simp [h1, h2]

theorem readNativeUint_lt (a : Arch) (b : Bytes) : readNativeUint a b < 256 ^ b.length := by
  unfold readNativeUint
  split
  · have := leValue_lt b.reverse; rwa [List.length_reverse] at this
  · exact leValue_lt b

theorem readNativeUint_byte (a : Arch) (b : Bytes) (i : Nat) (h : i < b.length) :
    (b[i]).val = byteAt a.big b.length (readNativeUint a b) i := by
  unfold readNativeUint byteAt
  cases a.big with
  | false =>
    simp only [Bool.false_eq_true, if_false]
    have e := leBytes_leValue b
    have := leBytes_getElem b.length (leValue b) i (by simpa using h)
    rw [← this]
    congr 1
    simp only [e]
  | true =>
    simp only [if_true]
    have e := leBytes_leValue b.reverse
    have hl : b.length - 1 - i < (leBytes b.reverse.length (leValue b.reverse)).length := by simp; omega
    have := leBytes_getElem b.reverse.length (leValue b.reverse) (b.length - 1 - i) hl
    rw [← this]
    congr 1
    simp only [e, List.getElem_reverse]
    congr 1
    omega

theorem isUint_native {a : Arch} {mem : Nat → Byte} {p n : Nat} {b : Bytes} (h : IsRange mem p n b) :
    IsUint a.big mem p n (readNativeUint a b) := by
  obtain ⟨hl, hb⟩ := h
  subst hl
  refine ⟨readNativeUint_lt a b, fun i hi => ?_⟩
  rw [← hb i hi, readNativeUint_byte a b i hi]

theorem pow_256 (n : Nat) : 256 ^ n = 2 ^ (8 * n) := by rw [Nat.pow_mul]

theorem isSigned_native {a : Arch} {n : Nat} {b : Bytes} (hl : b.length = n) (hn : 0 < n) :
    IsSigned (8 * n - 1) (readNativeUint a b) (readNativeInt a b) := by
  subst hl
  have h := readNativeUint_lt a b
  rw [pow_256] at h
  have e : 8 * b.length = (8 * b.length - 1) + 1 := by omega
  have ep : 2 ^ (8 * b.length) = 2 * 2 ^ (8 * b.length - 1) := by
    conv => lhs; rw [e, Nat.pow_succ]
    omega
  have c1 : ((2 ^ (8 * b.length - 1) : Nat) : Int) = (2 : Int) ^ (8 * b.length - 1) := by push_cast; rfl
  have c2 : ((2 ^ (8 * b.length) : Nat) : Int) = (2 : Int) ^ (8 * b.length) := by push_cast; rfl
  unfold readNativeInt IsSigned
  simp only []
  rw [← e]
  split
  · rename_i h1
    refine ⟨by omega, by omega, 1, by omega⟩
  · rename_i h1
    refine ⟨by omega, by omega, 0, by omega⟩

theorem range_slice {mem : Nat → Byte} {p n off k : Nat} {d : Bytes} (h : IsRange mem p n d) (hk : off + k ≤ n) :
    IsRange mem (p + off) k ((d.drop off).take k) := by
  obtain ⟨hl, hd⟩ := h
  have hlen : ((d.drop off).take k).length = k := by simp only [List.length_take, List.length_drop]; omega
  refine ⟨hlen, fun i hi => ?_⟩
  rw [List.getElem_take, List.getElem_drop, hd, Nat.add_assoc]

theorem mem_takeWhile_nonzero : ∀ {b : Bytes} {x : Byte}, x ∈ b.takeWhile (· ≠ 0) → x ≠ 0
  | [], x, h => by cases h
  | y :: ys, x, h => by
    rw [List.takeWhile_cons] at h
    split at h
    · rename_i hy
      rcases List.mem_cons.1 h with rfl | h
      · simpa using hy
      · exact mem_takeWhile_nonzero h
    · cases h

/-- The C text at the start of an array of characters. -/
theorem takeWhile_text {mem : Nat → Byte} {p n : Nat} {b : Bytes} (h : IsRange mem p n b) :
    let w := b.takeWhile (· ≠ 0)
    w.length ≤ n ∧ (∀ i (h : i < w.length), w[i] = mem (p + i) ∧ mem (p + i) ≠ 0) ∧ (w.length < n → mem (p + w.length) = 0) := by
  intro w
  obtain ⟨hl, hb⟩ := h
  have hw : w ++ b.dropWhile (· ≠ 0) = b := List.takeWhile_append_dropWhile
  have hle : w.length ≤ b.length := by rw [← hw]; simp
  have hg : ∀ i (h : i < w.length), w[i] = mem (p + i) := by
    intro i hi
    rw [← hb i (by omega)]
    exact List.IsPrefix.getElem (List.takeWhile_prefix _) hi
  refine ⟨by omega, fun i hi => ⟨hg i hi, ?_⟩, fun hlt => ?_⟩
  · rw [← hg i hi]
    exact mem_takeWhile_nonzero (List.getElem_mem hi)
  · have hlt' : w.length < b.length := by omega
    rw [← hb w.length hlt']
    have hd : b.dropWhile (· ≠ 0) ≠ [] := by
      intro he
      rw [he, List.append_nil] at hw
      rw [← hw] at hlt'
      omega
    obtain ⟨x, xs, hx⟩ := List.exists_cons_of_ne_nil hd
    have h0 : x = 0 := by
      have := List.head_dropWhile_not (fun y : Byte => decide (y ≠ 0)) hd
      simp only [hx, List.head_cons] at this
      simpa using this
    have : b[w.length] = x := by
      have : b = w ++ x :: xs := by rw [← hx]; exact hw.symm
      simp [this]
    rw [this, h0]

theorem literal_reprBytes (b : Bytes) : ∃ l, reprBytes b = 'b' :: l ∧ literal l = some (b.map (·.val), []) := by
  refine ⟨_, rfl, ?_⟩
  have := literal_repr (printable := fun _ => false) (by simp) (text := b.map (·.val)) ?_ []
  · rwa [List.append_nil] at this
  · intro c hc
    obtain ⟨x, _, rfl⟩ := List.mem_map.1 hc
    have := x.isLt
    omega

theorem decNumber_natStr_byte (b : Byte) : decNumber (natStr b.val) = some b.val := by
  have : ∀ b : Byte, decNumber (natStr b.val) = some b.val := by decide +kernel
  exact this b

theorem range_pair {mem : Nat → Byte} {p : Nat} {b : Bytes} (h : IsRange mem p 2 b) : b = [mem p, mem (p + 1)] := by
  obtain ⟨hl, hb⟩ := h
  match b, hl with
  | [x, y], _ =>
    have h0 := hb 0 (by simp)
    have h1 := hb 1 (by simp)
    simp only [List.getElem_cons_zero, List.getElem_cons_succ, Nat.add_zero] at h0 h1
    rw [h0, h1]

theorem range_four {mem : Nat → Byte} {p : Nat} {b : Bytes} (h : IsRange mem p 4 b) :
    b = [mem p, mem (p + 1), mem (p + 2), mem (p + 3)] := by
  obtain ⟨hl, hb⟩ := h
  match b, hl with
  | [x, y, z, w], _ =>
    have h0 := hb 0 (by simp)
    have h1 := hb 1 (by simp)
    have h2 := hb 2 (by simp)
    have h3 := hb 3 (by simp)
    simp only [List.getElem_cons_zero, List.getElem_cons_succ, Nat.add_zero] at h0 h1 h2 h3
    rw [h0, h1, h2, h3]

theorem in6Groups_shown {a : Arch} (ha : a.big = false) {mem : Nat → Byte} : ∀ (n p : Nat) {b : Bytes} (_ : IsRange mem p (2 * n) b),
    ∃ g : Nat → Str, in6Groups a n b = .ok ((List.range n).map g) ∧
      ∀ i < n, (g i).length = 4 ∧ hexNumber (g i) = some (256 * (mem (p + 2 * i)).val + (mem (p + 2 * i + 1)).val)
  | 0, _, _, _ => ⟨fun _ => [], rfl, fun i hi => by omega⟩
  | n + 1, p, b, h => by
    have h1 : IsRange mem p 2 (b.take 2) := by
      have := range_slice (off := 0) (k := 2) h (by omega)
      simpa using this
    have h2 : IsRange mem (p + 2) (2 * n) (b.drop 2) := by
      have := range_slice (off := 2) (k := 2 * n) h (by omega)
      rwa [List.take_of_length_le (by rw [List.length_drop, h.1]; omega)] at this
    obtain ⟨g, hg1, hg2⟩ := in6Groups_shown ha n (p + 2) h2
    have hport := Props.C04_port_partial a ha (mem p) (mem (p + 1))
    unfold sinPort at hport
    have hv : 256 * (mem p).val + (mem (p + 1)).val < 16 ^ 4 := by
      have := (mem p).isLt
      have := (mem (p + 1)).isLt
      omega
    refine ⟨fun i => if i = 0 then pyHexPad 4 (256 * (mem p).val + (mem (p + 1)).val) else g (i - 1), ?_, ?_⟩
    · rw [in6Groups, range_pair h1, hport, hg1]
      simp only [bind, Except.bind]
      rw [List.range_succ_eq_map, List.map_cons, List.map_map]
      rfl
    · intro i hi
      rcases i with _ | i
      · simp only [if_true]
        exact ⟨pyHexPad_length 4 _ (by decide) hv, hexNumber_pyHexPad _ _⟩
      · simp only [Nat.add_sub_cancel, if_neg (Nat.succ_ne_zero i)]
        have := hg2 i (by omega)
        rwa [show p + 2 + 2 * i = p + 2 * (i + 1) by omega] at this

/-- How the code shows a field. -/
def kindOf (big : Bool) (struct name : String) (t : CType) : Option FieldKind :=
  if (struct = "sockaddr_in" ∧ name = "sin_port") ∨ (struct = "sockaddr_in6" ∧ name = "sin6_port") then
    if t = .uint 2 ∧ big = false then some .port else none
  else match t with
    | .char => none
    | .chars n => some (.text n)
    | .sint n => if 0 < n then some (.signed n) else none
    | .uint n => some (.unsigned n)
    | .inAddr => if big then none else some .ip4
    | .in6Addr => if big then none else some .ip6

theorem port_shown {a : Arch} {mem : Nat → Byte} {p : Nat} {struct name : String} {b : Bytes} (hbig : a.big = false)
    (hb : IsRange mem p 2 b) (hp : (struct = "sockaddr_in" ∧ name = "sin_port") ∨ (struct = "sockaddr_in6" ∧ name = "sin6_port")) :
    fieldText a struct name (.int (readNativeUint a b)) = .ok (name.toList ++ '=' :: pyDec (256 * (mem p).val + (mem (p + 1)).val)) := by
  have hport := Props.C04_port_partial a hbig (mem p) (mem (p + 1))
  rw [← range_pair hb] at hport
  have hcb : structCallback struct name (.int (readNativeUint a b)) = .ok (some (pyDec (256 * (mem p).val + (mem (p + 1)).val))) := by
    unfold structCallback
    rw [if_pos hp]
    unfold sinPort at hport
    simp only [hport]
    rfl
  unfold fieldText
  rw [hcb]
  simp only [bind, Except.bind]

theorem plain_shown {a : Arch} {struct name : String} {v : CVal} {u : Str}
    (hp : ¬ ((struct = "sockaddr_in" ∧ name = "sin_port") ∨ (struct = "sockaddr_in6" ∧ name = "sin6_port"))) (h : v.repr a = .ok u) :
    fieldText a struct name v = .ok (name.toList ++ '=' :: u) := by
  have hcb : structCallback struct name v = .ok none := by unfold structCallback; rw [if_neg hp]
  unfold fieldText
  rw [hcb]
  simp only [h, bind, Except.bind]

theorem ip4_shown {a : Arch} {mem : Nat → Byte} {p : Nat} {b : Bytes} (hbig : a.big = false) (hb : IsRange mem p 4 b) :
    ∃ u, (CVal.addr b).repr a = .ok u ∧ FieldShown a.big mem p .ip4 u := by
  have := Props.C04_address_partial a hbig (mem p) (mem (p + 1)) (mem (p + 2)) (mem (p + 3))
  rw [← range_four hb] at this
  exact ⟨_, this, fun i => natStr (mem (p + i)).val, fun i _ => decNumber_natStr_byte _, rfl⟩

theorem ip6_shown {a : Arch} {mem : Nat → Byte} {p : Nat} {b : Bytes} (hbig : a.big = false) (hb : IsRange mem p 16 b) :
    ∃ u, (CVal.addr6 b).repr a = .ok u ∧ FieldShown a.big mem p .ip6 u := by
  obtain ⟨g, hg1, hg2⟩ := in6Groups_shown hbig 8 p hb
  refine ⟨"<in6_addr ".toList ++ [':'].intercalate ((List.range 8).map g) ++ ['>'], ?_, g, hg2, rfl⟩
  unfold CVal.repr in6AddrRepr
  simp only [hg1]
  rfl

theorem text_shown {a : Arch} {mem : Nat → Byte} {p n : Nat} {b : Bytes} (hb : IsRange mem p n b) :
    ∃ u, (CVal.bytes (b.takeWhile (· ≠ 0))).repr a = .ok u ∧ FieldShown a.big mem p (.text n) u := by
  obtain ⟨h1, h2, h3⟩ := takeWhile_text hb
  obtain ⟨l, h4, h5⟩ := literal_reprBytes (b.takeWhile (· ≠ 0))
  exact ⟨_, rfl, _, h1, h2, h3, l, h4, h5⟩

theorem fieldText_shown {a : Arch} {mem : Nat → Byte} {p : Nat} {struct name : String} {t : CType} {k : FieldKind} {b : Bytes}
    (hb : IsRange mem p t.size b) (hk : kindOf a.big struct name t = some k) :
    ∃ u, fieldText a struct name (t.decode a b) = .ok (name.toList ++ '=' :: u) ∧ FieldShown a.big mem p k u := by
  unfold kindOf at hk
  split at hk
  · rename_i hp
    split at hk
    · rename_i ht
      obtain ⟨rfl, hbig⟩ := ht
      injection hk with hk
      subst hk
      exact ⟨_, port_shown hbig hb hp, decNumber_pyDec _⟩
    · cases hk
  · rename_i hp
    split at hk
    · cases hk
    · injection hk with hk
      subst hk
      obtain ⟨u, h1, h2⟩ := text_shown (a := a) hb
      exact ⟨u, plain_shown hp h1, h2⟩
    · split at hk
      · rename_i hn
        injection hk with hk
        subst hk
        exact ⟨_, plain_shown hp rfl, _, _, isUint_native hb, isSigned_native hb.1 hn, pyDecInt_decInt _⟩
      · cases hk
    · injection hk with hk
      subst hk
      exact ⟨_, plain_shown hp rfl, _, isUint_native hb, pyDecInt_decInt _⟩
    · split at hk
      · cases hk
      · rename_i hbig
        injection hk with hk
        subst hk
        obtain ⟨u, h1, h2⟩ := ip4_shown (a := a) (by simpa using hbig) hb
        exact ⟨u, plain_shown hp h1, h2⟩
    · split at hk
      · cases hk
      · rename_i hbig
        injection hk with hk
        subst hk
        obtain ⟨u, h1, h2⟩ := ip6_shown (a := a) (by simpa using hbig) hb
        exact ⟨u, plain_shown hp h1, h2⟩

/-- A layout as the kernel tables describe it. -/
def described (big : Bool) (struct : String) (fields : List (String × CType × Nat)) : List (String × Nat × Option FieldKind) :=
  fields.map fun f => (f.1, f.2.2, kindOf big struct f.1 f.2.1)

theorem fieldTexts_shown {a : Arch} {mem : Nat → Byte} {p n : Nat} {struct : String} {data : Bytes} (hd : IsRange mem p n data) :
    ∀ {fields : List (String × CType × Nat)} {kinds : List (String × Nat × FieldKind)}
      (_ : ∀ f ∈ fields, f.2.2 + f.2.1.size ≤ n)
      (_ : described a.big struct fields = kinds.map fun k => (k.1, k.2.1, some k.2.2)),
      ∃ texts, fieldTexts a struct data fields = .ok texts ∧
        List.Forall₂ (fun f t => ∃ u, t = f.1.toList ++ '=' :: u ∧ FieldShown a.big mem (p + f.2.1) f.2.2 u) kinds texts
  | [], kinds, _, hk => by
    cases kinds with
    | nil => exact ⟨[], rfl, .nil⟩
    | cons k ks => cases hk
  | (name, t, off) :: fields, [], _, hk => by cases hk
  | (name, t, off) :: fields, (kname, koff, kind) :: kinds, hf, hk => by
    unfold described at hk
    simp only [List.map_cons, List.cons.injEq, Prod.mk.injEq] at hk
    obtain ⟨⟨rfl, rfl, hkind⟩, hrest⟩ := hk
    obtain ⟨texts, h1, h2⟩ := fieldTexts_shown hd (fun f h => hf f (List.mem_cons_of_mem _ h)) hrest
    obtain ⟨u, h3, h4⟩ := fieldText_shown (a := a) (struct := struct) (name := name)
      (range_slice hd (hf (name, t, off) (by simp))) hkind
    refine ⟨_ :: texts, ?_, .cons ⟨u, rfl, h4⟩ h2⟩
    rw [fieldTexts, h3, h1]
    simp only [bind, Except.bind]

theorem castBytes_full {beyond : Nat → Byte} {bytes : Bytes} {n : Nat} (h : bytes.length = n) : castBytes beyond bytes n = bytes := by
  unfold castBytes
  apply List.ext_getElem
  · simp [h]
  · intro i h1 h2
    simp only [List.getElem_map, List.getElem_range]
    rw [dif_pos h2]

theorem mem_of_lookup {α β : Type} [BEq α] [LawfulBEq α] : ∀ {l : List (α × β)} {k : α} {v : β}, l.lookup k = some v → (k, v) ∈ l
  | [], _, _, h => by cases h
  | (x, y) :: l, k, v, h => by
    rw [List.lookup_cons] at h
    split at h
    · rename_i e
      injection h with h
      rw [eq_of_beq e, h]
      exact List.mem_cons_self
    · exact List.mem_cons_of_mem _ (mem_of_lookup h)

/-- A named value comes from the table. -/
theorem argDictText_mem {syscall name : String} {value : Nat} {text : String} (h : argDictText syscall name value = some text) :
    (syscall, name, value, text) ∈ argDict.flatMap fun x => x.2.flatMap fun y => y.2.map fun z => (x.1, y.1, z.1, z.2) := by
  unfold argDictText at h
  cases h1 : argDict.lookup syscall with
  | none => rw [h1] at h; cases h
  | some args =>
    rw [h1] at h
    replace h : (args.lookup name).bind (fun names => names.lookup value) = some text := h
    cases h2 : args.lookup name with
    | none => rw [h2] at h; cases h
    | some names =>
      rw [h2] at h
      replace h : names.lookup value = some text := h
      refine List.mem_flatMap.2 ⟨_, mem_of_lookup h1, List.mem_flatMap.2 ⟨_, mem_of_lookup h2, List.mem_map.2 ⟨_, mem_of_lookup h, rfl⟩⟩⟩

theorem argDictText_none {syscall name : String} (h : (syscall, name) ∉ specialArguments) (value : Nat) : argDictText syscall name value = none := by
  cases hd : argDictText syscall name value with
  | none => rfl
  | some text =>
    have hm := argDictText_mem hd
    have hall : ∀ x ∈ argDict.flatMap (fun x => x.2.flatMap fun y => y.2.map fun z => (x.1, y.1, z.1, z.2)),
        (x.1, x.2.1) ∈ specialArguments := by decide +kernel
    exact absurd (hall _ hm) h

theorem argumentCallback_none {σ : Type} {E : ArgEnv σ} {c : SysCall} {name : String} (h : (c.name, name) ∉ specialArguments) (a : SysArg) :
    argumentCallback E c name a = none := by
  unfold argumentCallback
  split <;> first | rfl | (rename_i e; rw [e] at h; exact absurd (by decide) h)

/-- Arguments without a text of their own are shown by their type. -/
theorem createText_plain {σ : Type} {E : ArgEnv σ} {c : SysCall} {a : SysArg} {t n : String} (ht : a.type = some t) (ht0 : t ≠ "")
    (hn : a.name = some n) (hn0 : n ≠ "") (hs : n ≠ "signum") (h : (c.name, n) ∉ specialArguments) :
    createText E c a =
      if n ∈ filenameArguments ∧ withoutPrefix "const ".toList t.toList = "char *".toList then
        Py.bind (argReadCString E a.value) fun t => Py.pure (some t)
      else typedText E c a (withoutPrefix "const ".toList t.toList) := by
  have h1 : ¬ (c.name = "execve" ∧ (n = "argv" ∨ n = "envp")) := by
    rintro ⟨e, rfl | rfl⟩ <;> rw [e] at h <;> exact absurd (by decide) h
  have h2 : ¬ (c.name = "socketcall" ∧ n = "call") := by rintro ⟨e, rfl⟩; rw [e] at h; exact absurd (by decide) h
  have h3 : ¬ (c.name = "socketcall" ∧ n = "args") := by rintro ⟨e, rfl⟩; rw [e] at h; exact absurd (by decide) h
  have h4 : ¬ (c.name = "write" ∧ n = "buf") := by rintro ⟨e, rfl⟩; rw [e] at h; exact absurd (by decide) h
  unfold createText
  rw [ht, hn]
  simp only []
  rw [if_neg (by simp [ht0, hn0]), argDictText_none h, argumentCallback_none h]
  simp only []
  unfold createPlain
  rw [if_neg h1, if_neg h2, if_neg h3, if_neg h4, if_neg hs]

theorem argText_some {σ : Type} {E : ArgEnv σ} {c : SysCall} {a : SysArg} {s s' : σ} {t : Str} (h : createText E c a s = (.ok (some t), s')) :
    argText E c a s = (.ok t, s') := by
  unfold argText
  apply exceptAny_ok
  rw [Py.run_bind_ok h]
  rfl

theorem argText_error {σ : Type} {E : ArgEnv σ} {c : SysCall} {a : SysArg} {s s' : σ} {e : Exc} (h : createText E c a s = (.error e, s'))
    (h1 : e ≠ .interrupt) (h2 : e ≠ .diverge) : argText E c a s = (.ok (pyDec a.value), s') := by
  unfold argText
  rw [exceptAny_error (Py.run_bind_error h) h1 h2]
  rfl

theorem literal_stringText {printable : Nat → Bool} (hp : ∀ c, printable c = true → c.isValidChar) (data : Bytes) (truncated : Bool) (rest : Str) :
    literalBytes (stringText printable data truncated ++ rest) = some (data.map (·.val), (if truncated then "...".toList else []) ++ rest) := by
  have hb : ∀ b ∈ data.map (·.val), b < 256 := by intro x hx; obtain ⟨y, _, rfl⟩ := List.mem_map.1 hx; exact y.isLt
  unfold literalBytes stringText fsdecode
  rw [List.append_assoc, literal_repr hp (fun c hc => Nat.lt_trans (fsdecode_lt _ hb c hc) (by decide))]
  simp only [Option.map_some]
  congr 1
  rw [Prod.mk.injEq]
  exact ⟨fsdecode_encode _ hb, rfl⟩

end PT
