import Verif.Model.CallText
import Verif.Spec.CallText
import Verif.Props.Call
import Verif.Props.ArgText2
import Verif.Props.Format
import Verif.Props.Names
import Verif.Props.TreeLines

/-! C132: the line of a system call shows the registers and the memory of the process, from its entry to its result. -/

namespace PT
open Spec

/-! ## which memory a text is made from -/

theorem getText_fixed (g : SysArg → Str) (B : Str) (a : SysArg) (hg : ∀ x, g { a with text := x } = B) (x : Option Str) :
    ({ a with text := x } : SysArg).getText g = { a with text := some (match x with
      | some (c :: cs) => c :: cs
      | _ => B) } := by
  unfold SysArg.getText
  rcases x with _ | (_ | ⟨c, cs⟩)
  · simp only [hg]
  · simp only [hg]
  · rfl

/-- The text of an argument at the end of a call: made before the call for the arguments that are lost, after it for the other pointers, and before
or after it for the rest. An empty text is made again. -/
theorem text_at_end {σ : Type} (before after : SysArg → Str) (enter : Bool) (c d : SysCall) (s s' : σ) (i : Nat) (a : SysArg) (A B : Str)
    (hd : preformat (fun _ => before) c s = (.ok d, s')) (ha : c.arguments[i]? = some a) (hx : a.text = none)
    (hA : ∀ x, before { a with text := x } = A) (hB : ∀ x, after { a with text := x } = B) :
    ∃ t, (argsFormat (fun _ => after) (argsExit (if enter then argsFormat (fun _ => before) d else d))).arguments[i]? = some { a with text := some t } ∧
      (t = A ∨ t = B) ∧
      (i ∈ (preformatArguments.lookup c.name).getD [] → A ≠ [] → t = A) ∧
      (i ∉ (preformatArguments.lookup c.name).getD [] → (∀ ty, a.type = some ty → ty = "" ∨ ∃ w, ty.toList = w ++ ['*']) → t = B) := by
  obtain ⟨hn, hargs⟩ := C74_prepared _ c d s s' hd
  obtain ⟨h1, h2⟩ := hargs i a ha
  have ha0 : a = { a with text := none } := by cases a; simp only at hx; rw [hx]
  -- the argument when the call has begun
  have hd' : ∃ x, d.arguments[i]? = some { a with text := x } ∧ (x = none ∨ x = some A) ∧
      (i ∈ (preformatArguments.lookup c.name).getD [] → x = some A) := by
    by_cases hi : i ∈ (preformatArguments.lookup c.name).getD []
    · refine ⟨some A, ?_, .inr rfl, fun _ => rfl⟩
      rw [h1 hi]
      conv => lhs; rw [ha0]
      rw [getText_fixed before A a hA]
    · exact ⟨none, by rw [h2 hi, ← ha0], .inl rfl, fun h => absurd h hi⟩
  obtain ⟨x, hx1, hx2, hx3⟩ := hd'
  -- and after it was shown
  have hs := shown_get (fun _ => before) (fun _ => after) enter d i _ hx1
  have he := exit_get (fun _ => after) _ i _ hs
  rw [shown_name (fun _ => before) (fun _ => after), hn] at he
  have hy : ∃ y, (if enter = true then SysArg.getText before { a with text := x } else { a with text := x }) = { a with text := y } ∧
      (y = none ∨ y = some A) ∧ (x = some A → A ≠ [] → y = some A) := by
    cases enter with
    | false => exact ⟨x, rfl, hx2, fun h _ => h⟩
    | true =>
      refine ⟨some A, ?_, .inr rfl, fun _ _ => rfl⟩
      rw [if_pos rfl, getText_fixed before A a hA]
      rcases hx2 with rfl | rfl
      · rfl
      · cases A <;> rfl
  obtain ⟨y, hy1, hy2, hy3⟩ := hy
  rw [hy1] at he
  have hz : ∀ z : Option Str, z = none ∨ z = some A → ∃ t, ({ a with text := z } : SysArg).getText after = { a with text := some t } ∧
      (t = A ∨ t = B) ∧ (z = some A → A ≠ [] → t = A) ∧ (z = none → t = B) := by
    intro z hz
    refine ⟨_, getText_fixed after B a hB z, ?_, ?_, ?_⟩
    · rcases hz with rfl | rfl
      · exact .inr rfl
      · cases A
        · exact .inr rfl
        · exact .inl rfl
    · rintro rfl hne
      cases A
      · exact absurd rfl hne
      · rfl
    · rintro rfl
      rfl
  by_cases hi : i ∈ (preformatArguments.lookup c.name).getD []
  · rw [if_pos hi] at he
    obtain ⟨t, t1, t2, t3, _⟩ := hz y hy2
    refine ⟨t, by rw [he, t1], t2, fun _ hne => t3 (hy3 (hx3 hi) hne) hne, fun h => absurd hi h⟩
  · rw [if_neg hi] at he
    have hw : ∃ z, (match ({ a with text := y } : SysArg).type with
        | some t => if t ≠ "" ∧ isPointer t = false then ({ a with text := y } : SysArg) else { a with text := none }
        | none => { a with text := none }) = { a with text := z } ∧ (z = none ∨ z = some A) ∧
        ((∀ ty, a.type = some ty → ty = "" ∨ ∃ w, ty.toList = w ++ ['*']) → z = none) := by
      simp only
      cases hty : a.type with
      | none => exact ⟨none, rfl, .inl rfl, fun _ => rfl⟩
      | some ty =>
        simp only
        by_cases hc : ty ≠ "" ∧ isPointer ty = false
        · refine ⟨y, if_pos hc, hy2, fun h => ?_⟩
          rcases h ty rfl with h | h
          · exact absurd h hc.1
          · rw [(isPointer_iff ty).2 h] at hc
            exact absurd hc.2 (by decide)
        · exact ⟨none, if_neg hc, .inl rfl, fun _ => rfl⟩
    obtain ⟨z, z1, z2, z3⟩ := hw
    obtain ⟨t, t1, t2, _, t4⟩ := hz z z2
    refine ⟨t, ?_, t2, fun h => absurd h hi, fun _ h => t4 (z3 h)⟩
    rw [he, ← t1, ← z1]
    rfl

theorem lost_iff (name : String) (i : Nat) : i ∈ (preformatArguments.lookup name).getD [] ↔ (name, i) ∈ lostArguments := by
  unfold preformatArguments lostArguments
  by_cases h1 : name = "select"
  · subst h1
    simp [List.lookup]
  · by_cases h2 : name = "execve"
    · subst h2
      simp [List.lookup]
    · by_cases h3 : name = "clone"
      · subst h3
        simp [List.lookup]
      · simp [List.lookup, beq_eq_false_iff_ne.2 h1, beq_eq_false_iff_ne.2 h2, beq_eq_false_iff_ne.2 h3, h1, h2, h3]

/-! ## a call is read -/

theorem preformat_known {σ : Type} (create : String → SysArg → Str) (name restype : String) (formats : List (String × String)) (args : List SysArg)
    (hp : prototypes.lookup name = some (restype, formats)) (hl : args.length = formats.length) (s : σ) :
    ∃ d, preformat create ⟨name, restype, args⟩ s = (.ok d, s) ∧ d.restype = restype ∧ d.name = name ∧ d.arguments.length = formats.length := by
  unfold preformat
  cases hx : preformatArguments.lookup name with
  | none => exact ⟨_, rfl, rfl, rfl, hl⟩
  | some indexes =>
    have hany : (indexes.any fun i => decide (args.length ≤ i)) = false := by
      rw [Bool.eq_false_iff]
      intro h
      obtain ⟨i, hi, h⟩ := List.any_eq_true.1 h
      obtain ⟨r, f, h1, h2⟩ := C66_preformat name indexes (lookup_mem _ _ _ hx) i hi
      rw [hp] at h1
      injection h1 with h1
      injection h1 with _ h1
      subst h1
      have := of_decide_eq_true h
      omega
    simp only [hany]
    exact ⟨_, rfl, rfl, rfl, by simp [hl]⟩

/-- A call with a prototype is read, unless it is a `socketcall` to be replaced. -/
theorem begun_known (T : CallHost) (hc : T.cpu ∈ callCpus) (w : Snap) (name restype : String) (formats : List (String × String))
    (hn : readSyscall T.cpu w.regs = name) (hp : prototypes.lookup name = some (restype, formats)) (hs : name ≠ "socketcall" ∨ T.replace = false) :
    ∃ args d, T.begun w = .ok (⟨name, restype, args⟩, d) ∧
      preformat (fun _ => T.text w.mem ⟨name, restype, args⟩) ⟨name, restype, args⟩ w.mem = (.ok d, w.mem) ∧
      d.restype = restype ∧ d.name = name ∧ d.arguments.length = formats.length ∧
      args.map (fun a => (a.type, a.name)) = formats.map (fun f => (some f.1, some f.2)) ∧
      args.map SysArg.value = (T.cpu.arguments.take formats.length).map w.regs ∧ ∀ a ∈ args, a.text = none := by
  obtain ⟨args, h1, h2, h3, h4⟩ := C66_arguments T.cpu hc w.regs name restype formats hp
  have hl : args.length = formats.length := by simpa using congrArg List.length h2
  obtain ⟨d, d1, d2, d3, d4⟩ := preformat_known (fun _ => T.text w.mem ⟨name, restype, args⟩) name restype formats args hp hl w.mem
  refine ⟨args, d, ?_, d1, d2, d3, d4, h2, h3, h4⟩
  have hr : argsRead T.cpu T.env.arch.W T.replace T.env.readWord w.regs w.mem = (.ok ⟨name, restype, args⟩, w.mem) := by
    unfold argsRead
    simp only [hn, h1]
    rw [if_neg]
    · rfl
    · rintro ⟨e1, e2⟩
      rcases hs with h | h
      · exact h e1
      · rw [h] at e2; cases e2
  unfold CallHost.begun
  rw [Py.run_bind_ok hr, Py.run_bind_ok d1]
  rfl

/-- The name of a call in the table of its CPU. -/
theorem readSyscall_known (cpu : CallCpu) (hc : cpu ∈ callCpus) (tab : List (Nat × String)) (ht : cpu.names = some tab) (regs : String → Nat)
    (name : String) (h : (regs cpu.number, name) ∈ tab) : readSyscall cpu regs = name := by
  unfold readSyscall
  rw [ht, Option.getD_some]
  cases hl : tab.lookup (regs cpu.number) with
  | none =>
    have := List.lookup_eq_none_iff.1 hl _ h
    simp at this
  | some x => exact C66_unique cpu hc tab ht _ x name (lookup_mem _ _ _ hl) h

/-! ## one argument -/

/-- The memory of `T` is that of the kernel `k`. -/
structure OverKernel (T : CallHost) (k : Kernel) (fuel : Nat) : Prop where
  printable : ∀ c, T.env.printable c = true → c.isValidChar
  complete : Props.CompleteReplies k
  strings : ∀ a m, T.env.readCString a m = readCString k fuel a m 256
  bytes : ∀ a n, T.env.readBytes a n = readBytes k a n

theorem text_of {T : CallHost} {m : MemSt} {c : SysCall} {a : SysArg} {t : Str} {m' : MemSt} (ha : a.text = none)
    (h : argText T.env c a m = (.ok t, m')) : ∀ x, T.text m c { a with text := x } = t := by
  intro x
  have e : ({ value := a.value, type := a.type, name := a.name, text := none } : SysArg) = a := by cases a; simp only at ha; rw [ha]
  unfold CallHost.text
  simp only [e, h]

theorem integer_text (T : CallHost) (c : SysCall) (a : SysArg) (type name : String) (ht : a.type = some type) (hn : a.name = some name)
    (hx : a.text = none) (m : MemSt) : IntegerText T.env.arch.W c.name type name a.value (T.text m c a) := by
  intro kind hk h1 h2 h3 hv
  obtain ⟨text, r, e1, e2, e3⟩ := C89_partial T.env c a type kind hk ⟨.inl ht, name, hn, h1, h2, h3⟩ hv m
  refine ⟨r, e2, ?_⟩
  rw [show T.text m c a = text by rw [← text_of hx e1 a.text]]
  exact e3

theorem constant_text (T : CallHost) (c : SysCall) (a : SysArg) (type name : String) (ht : a.type = some type) (h0 : type ≠ "") (hn : a.name = some name)
    (hx : a.text = none) (m : MemSt) : ConstantText c.name name a.value (T.text m c a) := by
  intro l text h1 h2 h3
  have hd := C88_named c.name name l a.value text h1 h2 h3
  have hname : name ≠ "" := by
    rintro rfl
    have hall : ∀ x ∈ kernelConstants, x.2.1 ≠ "" := by decide
    exact hall _ h1 rfl
  have e : createText T.env c a m = (.ok (some text.toList), m) := by
    unfold createText
    rw [ht, hn]
    simp only
    rw [if_neg (by rintro (h | h); exact h0 h; exact hname h), hd]
    rfl
  rw [show T.text m c a = text.toList by rw [← text_of hx (argText_some e) a.text]]

theorem file_text (T : CallHost) (k : Kernel) (fuel : Nat) (hT : OverKernel T k fuel) (c : SysCall) (a : SysArg) (type name : String)
    (ht : a.type = some type) (hn : a.name = some name) (hx : a.text = none) (m : MemSt)
    (hr : ∃ r, (T.env.readCString a.value T.env.stringMax m).1 = .ok r) :
    FileText ⟨T.env.stringMax, T.env.writeAddress⟩ m.mem type name a.value (T.text m c a) := by
  intro h1 h2 h3
  have hf : FileArgument c a := by
    refine ⟨?_, name, h1, hn⟩
    simp only [List.mem_cons, List.not_mem_nil, or_false] at h2
    rcases h2 with rfl | rfl
    · exact .inl ht
    · exact .inr ht
  obtain ⟨text, s', data, dots, rest, e1, _, e2, e3, e4, e5, e6⟩ :=
    C84_file_partial T.env hT.printable k hT.complete fuel hT.strings c a hf h3 m hr
  rw [show T.text m c a = text by rw [← text_of hx e1 a.text]]
  exact ⟨data, dots, rest, e2, e3, e4, e5, e6⟩

theorem struct_text (T : CallHost) (k : Kernel) (fuel : Nat) (hT : OverKernel T k fuel) (c : SysCall) (a : SysArg) (type name : String)
    (ht : a.type = some type) (hn : a.name = some name) (hx : a.text = none) (m : MemSt)
    (hr : ∀ n ≤ 390, ∃ d, (T.env.readBytes a.value n m).1 = .ok d) :
    StructText ⟨T.env.stringMax, T.env.writeAddress⟩ T.env.arch.W T.env.arch.big m.mem c.name type name a.value (T.text m c a) := by
  intro struct h1 h2 h3 h4 h5 h6
  have hst : ∃ st ∈ [timeval T.env.arch, timespec T.env.arch, pollfd, newUtsname], st.name = struct ∧ st.sizeof ≤ 390 := by
    have hall : ∀ x y : Bool, ∀ s ∈ ["timeval", "timespec", "pollfd", "new_utsname"],
        ∃ st ∈ [timeval ⟨x, y⟩, timespec ⟨x, y⟩, pollfd, newUtsname], st.name = s ∧ st.sizeof ≤ 390 := by decide +kernel
    exact hall T.env.arch.is64 T.env.arch.big struct h1
  obtain ⟨st, hm, rfl, hsz⟩ := hst
  obtain ⟨d, hd⟩ := hr _ hsz
  cases hrun : T.env.readBytes a.value st.sizeof m with
  | mk r m' =>
    rw [hrun] at hd
    simp only at hd
    subst hd
    have hrange : IsRange m.mem a.value st.sizeof d := by
      rw [hT.bytes] at hrun
      have h10 := Props.C10_partial k a.value st.sizeof m d (.inl hT.complete) (by rw [hrun])
      have h09 := (Props.C09_prefix k a.value st.sizeof m d (by rw [hrun])).2
      rwa [h10] at h09
    obtain ⟨shown, rest, fields, e1, e2, e3, e4⟩ := C86_partial T.env st hm c a ⟨.inl (by rw [ht, h2]; rfl), name, hn, h3, h4, h5⟩ h6 m.mem d m m' hrun hrange
    refine ⟨shown, rest, fields, ?_, e2, e3, e4⟩
    rw [← text_of hx e1 a.text]

/-- Everything that is claimed of the text `t` of an argument of value `v` with the memory `m`; of files and structures if they can be read. -/
structure ArgumentText (T : CallHost) (call type name : String) (v : Nat) (m : MemSt) (t : Str) : Prop where
  integer : IntegerText T.env.arch.W call type name v t
  constant : ConstantText call name v t
  file : (∃ r, (T.env.readCString v T.env.stringMax m).1 = .ok r) → FileText ⟨T.env.stringMax, T.env.writeAddress⟩ m.mem type name v t
  struct : (∀ n ≤ 390, ∃ d, (T.env.readBytes v n m).1 = .ok d) →
    StructText ⟨T.env.stringMax, T.env.writeAddress⟩ T.env.arch.W T.env.arch.big m.mem call type name v t

theorem argument_text (T : CallHost) (k : Kernel) (fuel : Nat) (hT : OverKernel T k fuel) (c : SysCall) (a : SysArg) (type name : String)
    (ht : a.type = some type) (h0 : type ≠ "") (hn : a.name = some name) (hx : a.text = none) (m : MemSt) :
    ArgumentText T c.name type name a.value m (T.text m c a) :=
  ⟨integer_text T c a type name ht hn hx m, constant_text T c a type name ht h0 hn hx m, file_text T k fuel hT c a type name ht hn hx m,
    struct_text T k fuel hT c a type name ht hn hx m⟩

theorem pointer_type {type : String} (h : type ∈ ["const char *", "char *"]) : ∃ w, type.toList = w ++ ['*'] := by
  simp only [List.mem_cons, List.not_mem_nil, or_false] at h
  rcases h with rfl | rfl
  · exact ⟨"const char ".toList, by decide⟩
  · exact ⟨"char ".toList, by decide⟩

theorem struct_type (struct : String) : ∃ w, ("struct " ++ struct ++ " *").toList = w ++ ['*'] := by
  refine ⟨("struct " ++ struct).toList ++ [' '], ?_⟩
  rw [String.toList_append, List.append_assoc]
  rfl

/-- The text at the end of a call is as claimed, for memory before the call if the argument is lost, and after it otherwise. -/
theorem argument_at_end (T : CallHost) (k : Kernel) (fuel : Nat) (hT : OverKernel T k fuel) (c d : SysCall) (m m' m'' : MemSt) (i : Nat) (a : SysArg)
    (hd : preformat (fun _ => T.text m c) c m = (.ok d, m'')) (ha : c.arguments[i]? = some a) (hx : a.text = none) (type name : String)
    (ht : a.type = some type) (h0 : type ≠ "") (hn : a.name = some name) :
    ∃ t, (argsFormat (fun _ => T.text m' c) (argsExit (if T.enter then argsFormat (fun _ => T.text m c) d else d))).arguments[i]? =
        some { a with text := some t } ∧
      ArgumentText T c.name type name a.value (if (c.name, i) ∈ lostArguments then m else m') t := by
  have hfix : ∀ m x, T.text m c { a with text := x } = T.text m c a := fun m x => by cases a; rfl
  obtain ⟨t, h1, h2, h3, h4⟩ := text_at_end (T.text m c) (T.text m' c) T.enter c d m m'' i a _ _ hd ha hx (hfix m) (hfix m')
  rw [lost_iff] at h3 h4
  have hA := argument_text T k fuel hT c a type name ht h0 hn hx m
  have hB := argument_text T k fuel hT c a type name ht h0 hn hx m'
  refine ⟨t, h1, ?_, ?_, ?_, ?_⟩
  · rcases h2 with rfl | rfl
    · exact hA.integer
    · exact hB.integer
  · rcases h2 with rfl | rfl
    · exact hA.constant
    · exact hB.constant
  · intro hr
    by_cases hl : (c.name, i) ∈ lostArguments
    · rw [if_pos hl] at hr ⊢
      intro f1 f2 f3
      have hf := hA.file hr f1 f2 f3
      have hne : T.text m c a ≠ [] := by
        obtain ⟨_, _, _, h, _⟩ := hf
        intro e
        rw [e] at h
        cases h
      rw [h3 hl hne]
      exact hf
    · rw [if_neg hl] at hr ⊢
      intro f1 f2 f3
      have := h4 hl (fun ty hty => by
        rw [ht] at hty
        injection hty with hty
        subst hty
        exact .inr (pointer_type f2))
      rw [this]
      exact hB.file hr f1 f2 f3
  · intro hr
    by_cases hl : (c.name, i) ∈ lostArguments
    · rw [if_pos hl] at hr ⊢
      intro struct f1 f2 f3 f4 f5 f6
      have hf := hA.struct hr struct f1 f2 f3 f4 f5 f6
      have hne : T.text m c a ≠ [] := by
        obtain ⟨shown, rest, fields, h, _, _, texts, h', _⟩ := hf
        intro e
        rw [e, h'] at h
        cases h
      rw [h3 hl hne]
      exact hf
    · rw [if_neg hl] at hr ⊢
      intro struct f1 f2 f3 f4 f5 f6
      have := h4 hl (fun ty hty => by
        rw [ht] at hty
        injection hty with hty
        rw [← hty, f2]
        exact .inr (struct_type struct))
      rw [this]
      exact hB.struct hr struct f1 f2 f3 f4 f5 f6

/-! ## the call -/

/-- The CPUs with names of calls, and their conventions. -/
def textCpus : List (CallCpu × Convention) :=
  [(cpuX86_64, conventionX86_64), (cpuI386, conventionI386), (cpuPowerpc32, conventionPowerpc), (cpuPowerpc64, conventionPowerpc),
   (cpuAarch64, conventionArm64), (cpuRiscv32, conventionRiscv), (cpuRiscv64, conventionRiscv)]

theorem textCpus_ok : ∀ p ∈ textCpus, p.1.number = p.2.number ∧ p.1.result = p.2.result ∧ p.1.arguments.take 6 = p.2.arguments := by
  decide +kernel

theorem textCpus_pc {cpu : CallCpu} {v : Convention} (h : (cpu, v) ∈ textCpus) :
    ∃ pc, cpu.regs.instrPointer = some pc ∧ (v.number, pc) ∈ programCounters := by
  simp only [textCpus, List.mem_cons, Prod.mk.injEq, List.not_mem_nil, or_false] at h
  rcases h with ⟨rfl, rfl⟩ | ⟨rfl, rfl⟩ | ⟨rfl, rfl⟩ | ⟨rfl, rfl⟩ | ⟨rfl, rfl⟩ | ⟨rfl, rfl⟩ | ⟨rfl, rfl⟩ <;> exact ⟨_, rfl, by decide +kernel⟩

theorem textCpus_mem {cpu : CallCpu} {v : Convention} (h : (cpu, v) ∈ textCpus) : cpu ∈ callCpus := by
  simp only [textCpus, List.mem_cons, Prod.mk.injEq, List.not_mem_nil, or_false] at h
  rcases h with ⟨rfl, _⟩ | ⟨rfl, _⟩ | ⟨rfl, _⟩ | ⟨rfl, _⟩ | ⟨rfl, _⟩ | ⟨rfl, _⟩ | ⟨rfl, _⟩ <;> simp [callCpus]

theorem prototype_types : (prototypes.all fun p => decide (p.2.1 ≠ "") && (decide (p.2.2.length ≤ 6) && p.2.2.all fun f => decide (f.1 ≠ ""))) = true := by
  decide +kernel

/-- The arguments of a call that have the types, names and texts given are shown as they have to be. -/
theorem format_shown (T : CallHost) (d : SysCall) (formats : List (String × String)) (texts : List Str)
    (ha : d.arguments.map (fun a => (a.type.getD "", a.name.getD "", a.text)) = (formats.zip texts).map fun g => (g.1.1, g.1.2, some g.2)) :
    CallShown T.env.writeTypes T.env.writeArgname d.restype d.name formats texts (T.format d) := by
  obtain ⟨shown, kept, head, h1, h2, h3, h4, h5⟩ := C67_call ⟨T.env.writeTypes, T.env.writeArgname⟩ d.restype.toList d.name.toList
    (d.arguments.map fun a => ⟨(a.type.getD "").toList, (a.name.getD "").toList, a.text.getD []⟩)
  refine ⟨shown, kept, head, ?_, h2, h3, ?_⟩
  · have e : (d.arguments.map fun a => (⟨(a.type.getD "").toList, (a.name.getD "").toList, a.text.getD []⟩ : CallArg)) =
        (formats.zip texts).map fun g => ⟨g.1.1.toList, g.1.2.toList, g.2⟩ := by
      have := congrArg (List.map fun x : String × String × Option Str =>
        (⟨x.1.toList, x.2.1.toList, x.2.2.getD []⟩ : CallArg)) ha
      rw [List.map_map, List.map_map] at this
      exact this
    rw [e, List.forall₂_map_left_iff] at h1
    exact h1
  · have hr : d.restype.toList = [] ↔ d.restype = "" := String.toList_eq_nil_iff
    by_cases ht : T.env.writeTypes = true
    · by_cases hq : d.restype = ""
      · rw [h4 (.inl (hr.2 hq)), if_neg (by simp [hq])]
      · rw [h5 (fun h => hq (hr.1 h)) ht, if_pos (by simp [hq, ht])]
    · rw [h4 (.inr (by simpa using ht)), if_neg (by simp [ht])]

/-- What is claimed of the text of a call with a prototype: `value i` is the value of argument `i`, and `memory i` the memory it is read from. -/
def CallClaim (T : CallHost) (value : Nat → Option Nat) (name restype : String) (formats : List (String × String)) (memory : Nat → MemSt) (text : Str) :
    Prop :=
  ∃ texts, texts.length = formats.length ∧ CallShown T.env.writeTypes T.env.writeArgname restype name formats texts text ∧
    ∀ i type arg, formats[i]? = some (type, arg) → ∃ x t, value i = some x ∧ texts[i]? = some t ∧ ArgumentText T name type arg x (memory i) t

/-- A call has begun in `w`: what was read of it. -/
def Begins (T : CallHost) (w : Snap) (name restype : String) (formats : List (String × String)) (value : Nat → Option Nat) : Prop :=
  prototypes.lookup name = some (restype, formats) ∧ ∃ args d, T.begun w = .ok (⟨name, restype, args⟩, d) ∧
    (∃ m', preformat (fun _ => T.text w.mem ⟨name, restype, args⟩) ⟨name, restype, args⟩ w.mem = (.ok d, m')) ∧
    d.restype = restype ∧ d.name = name ∧ d.arguments.length = formats.length ∧
    args.map (fun a => (a.type, a.name)) = formats.map (fun f => (some f.1, some f.2)) ∧
    (∀ i a, args[i]? = some a → value i = some a.value) ∧ ∀ a ∈ args, a.text = none

/-- The claim, for any way `fin` of making the texts. -/
theorem call_claim {T : CallHost} {w : Snap} {name restype : String} {formats : List (String × String)} {value : Nat → Option Nat}
    (hb : Begins T w name restype formats value) (fin : SysCall → SysCall → SysCall) (memory : Nat → MemSt)
    (hfin : ∀ c d, (fin c d).name = d.name ∧ (fin c d).restype = d.restype ∧ (fin c d).arguments.length = d.arguments.length)
    (htext : ∀ c d m' i a type arg, preformat (fun _ => T.text w.mem c) c w.mem = (.ok d, m') → c.arguments[i]? = some a → a.text = none →
      a.type = some type → type ≠ "" → a.name = some arg → c.name = name →
      ∃ t, (fin c d).arguments[i]? = some { a with text := some t } ∧ ArgumentText T c.name type arg a.value (memory i) t) :
    ∃ c d, T.begun w = .ok (c, d) ∧ c.restype = restype ∧ CallClaim T value name restype formats memory (T.format (fin c d)) := by
  obtain ⟨hp, args, d, h1, ⟨m', h2⟩, h3, h4, h5, h6, h7, h8⟩ := hb
  obtain ⟨_, hlen, htypes⟩ : restype ≠ "" ∧ formats.length ≤ 6 ∧ ∀ f ∈ formats, f.1 ≠ "" := by
    have := (List.all_eq_true.1 prototype_types) _ (lookup_mem _ _ _ hp)
    simpa using this
  obtain ⟨f1, f2, f3⟩ := hfin ⟨name, restype, args⟩ d
  generalize he : fin ⟨name, restype, args⟩ d = e at f1 f2 f3
  refine ⟨_, _, h1, rfl, ?_⟩
  rw [he]
  have hal : args.length = formats.length := by simpa using congrArg List.length h6
  have harg : ∀ i type arg, formats[i]? = some (type, arg) → ∃ (x : Nat) (a : SysArg) (t : Str), value i = some x ∧
      a.type = some type ∧ a.name = some arg ∧ e.arguments[i]? = some { a with text := some t } ∧
      ArgumentText T name type arg x (memory i) t := by
    intro i type arg hf
    have hi : i < formats.length := (List.getElem?_eq_some_iff.1 hf).1
    obtain ⟨a, ha⟩ : ∃ a, args[i]? = some a := ⟨_, List.getElem?_eq_getElem (by omega)⟩
    have hta : a.type = some type ∧ a.name = some arg := by
      have := congrArg (fun l => l[i]?) h6
      simp only [List.getElem?_map, ha, hf, Option.map_some] at this
      injection this with this
      injection this with h1 h2
      exact ⟨h1, h2⟩
    obtain ⟨t, t1, t2⟩ := htext ⟨name, restype, args⟩ d m' i a type arg h2 ha (h8 a (List.mem_of_getElem? ha)) hta.1
      (htypes _ (List.mem_of_getElem? hf)) hta.2 rfl
    rw [he] at t1
    exact ⟨a.value, a, t, h7 i a ha, hta.1, hta.2, t1, t2⟩
  have hel : e.arguments.length = formats.length := by rw [f3, h5]
  let texts := e.arguments.map fun a => a.text.getD []
  refine ⟨texts, by simp [texts, hel], ?_, ?_⟩
  · rw [← h4, ← h3, ← f1, ← f2]
    apply format_shown
    apply List.ext_getElem?
    intro i
    simp only [List.getElem?_map, texts]
    cases hf : formats[i]? with
    | none =>
      have h1 : e.arguments[i]? = none := by
        rw [List.getElem?_eq_none_iff] at hf ⊢
        omega
      have h2 : (formats.zip (e.arguments.map fun a => a.text.getD []))[i]? = none := by
        rw [List.getElem?_eq_none_iff] at hf ⊢
        simp
        omega
      rw [h1, h2]
      rfl
    | some f =>
      obtain ⟨type, arg⟩ := f
      obtain ⟨x, a, t, _, g1, g2, g3, _⟩ := harg i type arg hf
      have h2 : (formats.zip (e.arguments.map fun a => a.text.getD []))[i]? = some ((type, arg), t) := by
        rw [List.getElem?_zip_eq_some]
        refine ⟨hf, ?_⟩
        rw [List.getElem?_map, g3]
        rfl
      rw [h2, g3]
      simp [g1, g2]
  · intro i type arg hf
    obtain ⟨x, a, t, g1, _, _, g5, g6⟩ := harg i type arg hf
    refine ⟨x, t, g1, ?_, g6⟩
    simp only [texts, List.getElem?_map, g5]
    rfl

theorem end_claim {T : CallHost} (k : Kernel) (fuel : Nat) (hT : OverKernel T k fuel) {w : Snap} (w' : Snap) {name restype : String}
    {formats : List (String × String)} {value : Nat → Option Nat} (hb : Begins T w name restype formats value) :
    CallClaim T value name restype formats (fun i => if (name, i) ∈ lostArguments then w.mem else w'.mem) (T.endText w w') := by
  obtain ⟨c, d, h1, _, h2⟩ := call_claim hb
    (fun c d => argsFormat (fun _ => T.text w'.mem c) (argsExit (if T.enter then argsFormat (fun _ => T.text w.mem c) d else d)))
    (fun i => if (name, i) ∈ lostArguments then w.mem else w'.mem)
    (fun c d => by
      refine ⟨?_, ?_, ?_⟩
      · show (if T.enter then argsFormat _ d else d).name = _
        cases T.enter <;> rfl
      · show (if T.enter then argsFormat _ d else d).restype = _
        cases T.enter <;> rfl
      · show (List.map _ (List.mapIdx _ _)).length = _
        rw [List.length_map, List.length_mapIdx]
        cases T.enter with
        | false => rfl
        | true => rw [if_pos rfl]; show (List.map _ _).length = _; rw [List.length_map])
    (fun c d m' i a type arg h1 h2 h3 h4 h5 h6 h7 => by
      obtain ⟨t, t1, t2⟩ := argument_at_end T k fuel hT c d w.mem w'.mem m' i a h1 h2 h3 type arg h4 h5 h6
      rw [h7] at t2 ⊢
      exact ⟨t, t1, t2⟩)
  unfold CallHost.endText
  rw [h1]
  exact h2

theorem start_claim {T : CallHost} (k : Kernel) (fuel : Nat) (hT : OverKernel T k fuel) {w : Snap} (m : MemSt) {name restype : String}
    {formats : List (String × String)} {value : Nat → Option Nat} (hb : Begins T w name restype formats value) :
    CallClaim T value name restype formats (fun i => if (name, i) ∈ lostArguments then w.mem else m) (T.startText w m) := by
  obtain ⟨c, d, h1, _, h2⟩ := call_claim hb
    (fun c d => argsFormat (fun _ => T.text m c) d)
    (fun i => if (name, i) ∈ lostArguments then w.mem else m)
    (fun c d => ⟨rfl, rfl, List.length_map _⟩)
    (fun c d m' i a type arg h1 h2 h3 h4 h5 h6 h7 => by
      have hfix : ∀ m x, T.text m c { a with text := x } = T.text m c a := fun m x => by cases a; rfl
      have ha0 : a = { a with text := none } := by cases a; simp only at h3; rw [h3]
      obtain ⟨_, hargs⟩ := C74_prepared _ c d w.mem m' h1
      obtain ⟨g1, g2⟩ := hargs i a h2
      have hA := argument_text T k fuel hT c a type arg h4 h5 h6 h3 w.mem
      have hB := argument_text T k fuel hT c a type arg h4 h5 h6 h3 m
      have hli := lost_iff c.name i
      rw [← h7]
      by_cases hi : i ∈ (preformatArguments.lookup c.name).getD []
      · rw [if_pos (hli.1 hi)]
        have e : d.arguments[i]? = some { a with text := some (T.text w.mem c a) } := by
          rw [g1 hi]
          conv => lhs; rw [ha0]
          rw [getText_fixed _ _ a (hfix w.mem)]
        have e' : (argsFormat (fun _ => T.text m c) d).arguments[i]? = some { a with text := some (match some (T.text w.mem c a) with
            | some (c :: cs) => c :: cs
            | _ => T.text m c a) } := by
          show (List.map _ _)[i]? = _
          rw [List.getElem?_map, e, Option.map_some, getText_fixed _ _ a (hfix m)]
        refine ⟨_, e', ?_⟩
        cases hx : T.text w.mem c a with
        | cons x xs => rw [hx] at hA; exact hA
        | nil =>
          refine ⟨hB.integer, hB.constant, ?_, ?_⟩
          · intro hr f1 f2 f3
            obtain ⟨_, _, _, h, _⟩ := hA.file hr f1 f2 f3
            rw [hx] at h
            cases h
          · intro hr struct f1 f2 f3 f4 f5 f6
            obtain ⟨shown, rest, fields, h, _, _, texts, h', _⟩ := hA.struct hr struct f1 f2 f3 f4 f5 f6
            rw [hx, h'] at h
            cases h
      · rw [if_neg (fun h => hi (hli.2 h))]
        refine ⟨T.text m c a, ?_, hB⟩
        show (List.map _ _)[i]? = _
        rw [List.getElem?_map, g2 hi, Option.map_some]
        conv => lhs; rw [ha0]
        rw [getText_fixed _ _ a (hfix m)])
  unfold CallHost.startText
  rw [h1]
  exact h2

/-- What is claimed of the text of the result `u`: an address if the call is declared to return a pointer, else the signed number, with the name and
the message of an error, or with the number in hexadecimal if it has more than one digit. -/
def ResultClaim (T : CallHost) (restype : String) (u : Nat) (text : Str) : Prop :=
  ((∃ p, restype.toList = p ++ ['*']) → AddressText u text) ∧
  ((∀ p, restype.toList ≠ p ++ ['*']) → ∃ r t rest, IsSigned (8 * T.env.arch.W - 1) u r ∧ decInt t = some r ∧ text = t ++ rest ∧
    (∀ (e : Nat) err, r = -(e : Int) → 0 < e → T.errorcode e = some err → rest = ' ' :: err ++ " (".toList ++ T.strerror e ++ [')']) ∧
    ((∀ (e : Nat) err, r = -(e : Int) → 0 < e → T.errorcode e ≠ some err) →
      (0 ≤ r ∧ r ≤ 9 → rest = []) ∧
      (¬ (0 ≤ r ∧ r ≤ 9) → ∃ h, hexLiteral h = some u ∧ rest = " (".toList ++ h ++ [')'])))

theorem result_claim {T : CallHost} {w : Snap} (w' : Snap) {c d : SysCall} (h : T.begun w = .ok (c, d)) :
    ResultClaim T c.restype (w'.regs T.cpu.result) (T.resultAt w w') := by
  have e : T.resultAt w w' = resultText T.env.arch T.errorcode T.strerror (isPointer c.restype) (w'.regs T.cpu.result) := by
    unfold CallHost.resultAt
    rw [h]
  rw [e]
  refine ⟨fun h => ?_, fun h => ?_⟩
  · rw [(isPointer_iff c.restype).2 h]
    exact formatAddress_text _ _
  · have : isPointer c.restype = false := by
      cases hb : isPointer c.restype with
      | false => rfl
      | true =>
        obtain ⟨p, hp⟩ := (isPointer_iff c.restype).1 hb
        exact absurd hp (h p)
    rw [this]
    exact C58_result T.env.arch T.errorcode T.strerror (w'.regs T.cpu.result)

/-! ## calls with a prototype -/

/-- A call whose name is in the table of the CPU and has a prototype, and is no `socketcall` to be replaced. -/
structure Known (T : CallHost) (v : Convention) (w : Snap) (name restype : String) (formats : List (String × String)) : Prop where
  named : ∃ tab, T.cpu.names = some tab ∧ (w.regs v.number, name) ∈ tab
  declared : prototypes.lookup name = some (restype, formats)
  whole : name ≠ "socketcall" ∨ T.replace = false

theorem known_begins {T : CallHost} {v : Convention} (hv : (T.cpu, v) ∈ textCpus) {w : Snap} {name restype : String} {formats : List (String × String)}
    (h : Known T v w name restype formats) : Begins T w name restype formats fun i => v.arguments[i]?.map w.regs := by
  obtain ⟨⟨tab, ht, hn⟩, hp, hs⟩ := h
  obtain ⟨hv1, _, hv3⟩ := textCpus_ok _ hv
  have hc := textCpus_mem hv
  have hread := readSyscall_known T.cpu hc tab ht w.regs name (by rw [hv1]; exact hn)
  obtain ⟨args, d, h1, h2, h3, h4, h5, h6, h7, h8⟩ := begun_known T hc w name restype formats hread hp hs
  refine ⟨hp, args, d, h1, ⟨_, h2⟩, h3, h4, h5, h6, ?_, h8⟩
  intro i a ha
  have hlen : formats.length ≤ 6 := by
    have := (List.all_eq_true.1 prototype_types) _ (lookup_mem _ _ _ hp)
    simp only [Bool.and_eq_true, decide_eq_true_eq] at this
    exact this.2.1
  have hal : args.length = formats.length := by simpa using congrArg List.length h6
  have hi : i < formats.length := by rw [← hal]; exact (List.getElem?_eq_some_iff.1 ha).1
  have := congrArg (fun l => l[i]?) h7
  simp only [List.getElem?_map, ha, Option.map_some, List.getElem?_take, if_pos hi] at this
  simp only at hv3
  show Option.map w.regs v.arguments[i]? = _
  rw [← hv3, List.getElem?_take, if_pos (by omega)]
  exact this.symm

/-- C132: the text of a call at its end. The name is that of the number in the register of the convention; the arguments are those declared, each
with the value of its register when the call began; integers, constants, names of files and structures are shown as they have to be, read from the
memory after the call, or before it for the arguments that are lost. It makes no difference whether the call was shown when it began.
Partial: for names in the table of the CPU with a prototype; for kernels with complete replies; as far as the texts of C84, C86, C88 and C89. -/
theorem C132_end_partial (T : CallHost) (v : Convention) (hv : (T.cpu, v) ∈ textCpus) (k : Kernel) (fuel : Nat) (hT : OverKernel T k fuel)
    (w w' : Snap) (name restype : String) (formats : List (String × String)) (h : Known T v w name restype formats) :
    CallClaim T (fun i => v.arguments[i]?.map w.regs) name restype formats (fun i => if (name, i) ∈ lostArguments then w.mem else w'.mem)
      (T.endText w w') :=
  end_claim k fuel hT w' (known_begins hv h)

/-- C132: the text of a call that has not ended, shown when it began (`m` is the memory then) or when the process has ended. -/
theorem C132_start_partial (T : CallHost) (v : Convention) (hv : (T.cpu, v) ∈ textCpus) (k : Kernel) (fuel : Nat) (hT : OverKernel T k fuel)
    (w : Snap) (m : MemSt) (name restype : String) (formats : List (String × String)) (h : Known T v w name restype formats) :
    CallClaim T (fun i => v.arguments[i]?.map w.regs) name restype formats (fun i => if (name, i) ∈ lostArguments then w.mem else m) (T.startText w m) :=
  start_claim k fuel hT m (known_begins hv h)

/-- C132: the result is that of the register of the convention at the end of the call. -/
theorem C132_result (T : CallHost) (v : Convention) (hv : (T.cpu, v) ∈ textCpus) (w w' : Snap) (name restype : String)
    (formats : List (String × String)) (h : Known T v w name restype formats) : ResultClaim T restype (w'.regs v.result) (T.resultAt w w') := by
  obtain ⟨_, args, d, h1, _⟩ := known_begins hv h
  have := result_claim w' h1
  rwa [(textCpus_ok _ hv).2.1] at this

/-! ## calls without a prototype -/

/-- What is claimed of the text of a call without a prototype: its name, and the values `values` in hexadecimal. -/
def BareClaim (T : CallHost) (name : String) (values : List Nat) (text : Str) : Prop :=
  ∃ texts, CallShown T.env.writeTypes T.env.writeArgname "long" name (values.map fun _ => ("", "")) texts text ∧
    texts.map hexLiteral = values.map some

theorem bare_text (T : CallHost) (a : SysArg) (c : SysCall) (m : MemSt) (ht : a.type = none) (hx : a.text = none) :
    ∃ t, hexLiteral t = some a.value ∧ ∀ x, T.text m c { a with text := x } = t := by
  obtain ⟨t, h1, h2⟩ := C89_unknown T.env c a (.inl (by rw [ht]; rfl)) m
  exact ⟨t, h2, text_of hx h1⟩

theorem bare_lookup {name : String} (hp : prototypes.lookup name = none) : preformatArguments.lookup name = none := by
  cases h : preformatArguments.lookup name with
  | none => rfl
  | some l =>
    have hall : ∀ p ∈ preformatArguments, prototypes.lookup p.1 ≠ none := by decide +kernel
    exact absurd hp (hall _ (lookup_mem _ _ _ h))

theorem begun_bare (T : CallHost) (w : Snap) (name : String) (hn : readSyscall T.cpu w.regs = name) (hp : prototypes.lookup name = none) :
    T.begun w = .ok (⟨name, "long", T.cpu.arguments.map fun r => { value := w.regs r }⟩, ⟨name, "long", T.cpu.arguments.map fun r => { value := w.regs r }⟩) := by
  have hne : name ≠ "socketcall" := by
    rintro rfl
    exact absurd hp (by decide +kernel)
  have hr : argsRead T.cpu T.env.arch.W T.replace T.env.readWord w.regs w.mem =
      (.ok ⟨name, "long", T.cpu.arguments.map fun r => { value := w.regs r }⟩, w.mem) := by
    unfold argsRead
    simp only [hn, C66_unknown T.cpu w.regs name hp]
    rw [if_neg fun h => hne h.1]
    rfl
  have hd : ∀ create : String → SysArg → Str, preformat create ⟨name, "long", T.cpu.arguments.map fun r => { value := w.regs r }⟩ w.mem =
      (.ok ⟨name, "long", T.cpu.arguments.map fun r => { value := w.regs r }⟩, w.mem) := by
    intro create
    unfold preformat
    rw [bare_lookup hp]
    rfl
  unfold CallHost.begun
  rw [Py.run_bind_ok hr, Py.run_bind_ok (hd _)]
  rfl

theorem bare_claim (T : CallHost) (name : String) (values : List Nat) (e : SysCall) (hname : e.name = name) (hres : e.restype = "long")
    (hlen : e.arguments.length = values.length)
    (h : ∀ (i v : Nat), values[i]? = some v → ∃ t, e.arguments[i]? = some ({ value := v, text := some t } : SysArg) ∧ hexLiteral t = some v) :
    BareClaim T name values (T.format e) := by
  obtain ⟨texts, ht⟩ : ∃ texts : List Str, texts = e.arguments.map fun a => a.text.getD [] := ⟨_, rfl⟩
  have hi : ∀ (i v : Nat), values[i]? = some v → ∃ t, texts[i]? = some t ∧ hexLiteral t = some v := by
    intro i v hv
    obtain ⟨t, h1, h2⟩ := h i v hv
    exact ⟨t, by rw [ht, List.getElem?_map, h1]; rfl, h2⟩
  have htl : texts.length = values.length := by rw [ht, List.length_map, hlen]
  refine ⟨texts, ?_, ?_⟩
  · rw [← hname, ← hres]
    apply format_shown
    apply List.ext_getElem?
    intro i
    rw [List.getElem?_map, List.getElem?_map]
    cases hv : values[i]? with
    | none =>
      rw [List.getElem?_eq_none_iff] at hv
      rw [List.getElem?_eq_none_iff.2 (by omega), List.getElem?_eq_none_iff.2 (by simp; omega)]
      rfl
    | some v =>
      obtain ⟨t, h1, -⟩ := h i v hv
      obtain ⟨t', h3, -⟩ := hi i v hv
      have h2 : ((values.map fun _ => (("", "") : String × String)).zip texts)[i]? = some (("", ""), t') := by
        rw [List.getElem?_zip_eq_some, List.getElem?_map, hv]
        exact ⟨rfl, h3⟩
      rw [ht, List.getElem?_map, h1] at h3
      injection h3 with h3
      rw [h2, h1, ← h3]
      rfl
  · apply List.ext_getElem?
    intro i
    rw [List.getElem?_map, List.getElem?_map]
    cases hv : values[i]? with
    | none =>
      rw [List.getElem?_eq_none_iff] at hv
      rw [List.getElem?_eq_none_iff.2 (by omega)]
      rfl
    | some v =>
      obtain ⟨t, h1, h2⟩ := hi i v hv
      rw [h1, Option.map_some, h2]
      rfl

theorem bare_end (T : CallHost) (w w' : Snap) (name : String) (hn : readSyscall T.cpu w.regs = name) (hp : prototypes.lookup name = none) :
    BareClaim T name (T.cpu.arguments.map w.regs) (T.endText w w') := by
  unfold CallHost.endText
  rw [begun_bare T w name hn hp]
  simp only
  generalize hc : (⟨name, "long", T.cpu.arguments.map fun r => { value := w.regs r }⟩ : SysCall) = c
  have hname : c.name = name := by rw [← hc]
  have hlen : c.arguments.length = T.cpu.arguments.length := by rw [← hc]; simp
  apply bare_claim
  · rw [← hname]
    show (if T.enter then argsFormat _ c else c).name = _
    cases T.enter <;> rfl
  · show (if T.enter then argsFormat _ c else c).restype = _
    rw [← hc]
    cases T.enter <;> rfl
  · show (List.map _ (List.mapIdx _ _)).length = _
    rw [List.length_map, List.length_mapIdx, List.length_map, ← hlen]
    cases T.enter with
    | false => rfl
    | true => rw [if_pos rfl]; show (List.map _ _).length = _; rw [List.length_map]
  · intro i v hv
    rw [List.getElem?_map, Option.map_eq_some_iff] at hv
    obtain ⟨r, hr, rfl⟩ := hv
    have ha : c.arguments[i]? = some { value := w.regs r } := by
      rw [← hc]
      simp only [List.getElem?_map, hr]
      rfl
    obtain ⟨A, -, hA⟩ := bare_text T { value := w.regs r } c w.mem rfl rfl
    obtain ⟨B, hB0, hB⟩ := bare_text T { value := w.regs r } c w'.mem rfl rfl
    have hd : preformat (fun _ => T.text w.mem c) c w.mem = (.ok c, w.mem) := by
      unfold preformat
      rw [hname, bare_lookup hp]
      rfl
    obtain ⟨t, t1, -, -, t4⟩ := text_at_end _ _ T.enter c c _ _ i _ A B hd ha rfl hA hB
    refine ⟨t, t1, ?_⟩
    rw [t4 (by rw [hname, bare_lookup hp]; simp) (fun ty h => by cases h)]
    exact hB0

theorem bare_start (T : CallHost) (w : Snap) (m : MemSt) (name : String) (hn : readSyscall T.cpu w.regs = name) (hp : prototypes.lookup name = none) :
    BareClaim T name (T.cpu.arguments.map w.regs) (T.startText w m) := by
  unfold CallHost.startText
  rw [begun_bare T w name hn hp]
  simp only
  apply bare_claim
  · rfl
  · rfl
  · show (List.map _ (List.map _ _)).length = _
    simp
  · intro i v hv
    rw [List.getElem?_map, Option.map_eq_some_iff] at hv
    obtain ⟨r, hr, rfl⟩ := hv
    obtain ⟨B, hB0, hB⟩ := bare_text T { value := w.regs r } ⟨name, "long", T.cpu.arguments.map fun r => { value := w.regs r }⟩ m rfl rfl
    refine ⟨B, ?_, hB0⟩
    show (List.map _ (List.map _ _))[i]? = _
    rw [List.getElem?_map, List.getElem?_map, hr]
    exact congrArg some (getText_fixed _ B { value := w.regs r } hB none)

/-- The CPUs and their conventions; 32-bit ARM has no names. -/
def bareCpus : List (CallCpu × Convention) := (cpuArm32, conventionArm) :: textCpus

theorem decDigits_toDigits (n : Nat) : ∀ acc, decDigits n acc = Nat.toDigits 10 n ++ acc := by
  induction n using Nat.strongRecOn with
  | _ n ih =>
    intro acc
    have hd : ∀ d, d < 10 → decDigit d = Nat.digitChar d := by decide
    unfold decDigits
    by_cases h : n < 10
    · rw [dif_pos h, Nat.toDigits_of_lt_base h, hd n h]
      rfl
    · rw [dif_neg h, ih (n / 10) (by omega), hd _ (by omega), Nat.toDigits_of_base_le (b := 10) (n := n) (by omega) (by omega)]
      simp

theorem unnamed_lookup (n : Nat) : prototypes.lookup ("syscall<" ++ toString n ++ ">") = none := by
  have hall : (prototypes.all fun p => p.1.toList.all fun c => c != '<') = true := by decide +kernel
  cases h : prototypes.lookup ("syscall<" ++ toString n ++ ">") with
  | none => rfl
  | some v =>
    have := (List.all_eq_true.1 hall) _ (lookup_mem _ _ _ h)
    have := (List.all_eq_true.1 this) '<' (by simp)
    exact absurd this (by decide)

/-- C132: a call without a prototype is shown with its name, or with its number if it has none, and with the registers of the arguments in
hexadecimal, as they were when it began; its result is an integer. -/
theorem C132_unknown (T : CallHost) (v : Convention) (hv : (T.cpu, v) ∈ bareCpus) (w w' : Snap) (m : MemSt)
    (hp : ∀ name, (w.regs v.number, name) ∈ T.cpu.names.getD [] → prototypes.lookup name = none) :
    ∃ name regs, CallNamed (T.cpu.names.getD []) (w.regs v.number) name ∧ v.arguments <+: regs ∧
      BareClaim T name (regs.map w.regs) (T.endText w w') ∧ BareClaim T name (regs.map w.regs) (T.startText w m) ∧
      ResultClaim T "long" (w'.regs v.result) (T.resultAt w w') := by
  have hall : ∀ p ∈ bareCpus, p.1.number = p.2.number ∧ p.1.result = p.2.result ∧ p.1.arguments.take 6 = p.2.arguments := by decide +kernel
  obtain ⟨h1, h2, h3⟩ := hall _ hv
  simp only at h1 h2 h3
  have hname : CallNamed (T.cpu.names.getD []) (w.regs v.number) (readSyscall T.cpu w.regs) ∧ prototypes.lookup (readSyscall T.cpu w.regs) = none := by
    unfold readSyscall
    rw [h1]
    cases hl : (T.cpu.names.getD []).lookup (w.regs v.number) with
    | some name =>
      have := lookup_mem _ _ _ hl
      exact ⟨.inl this, hp _ this⟩
    | none =>
      refine ⟨.inr ⟨fun x hx => ?_, pyDec (w.regs v.number), decNumber_pyDec _, ?_⟩, unnamed_lookup _⟩
      · have := List.lookup_eq_none_iff.1 hl _ hx
        simp at this
      · simp only [String.toList_append]
        rw [Nat.toString_eq_repr, Nat.toList_repr, pyDec, decDigits_toDigits, List.append_nil]
        rfl
  refine ⟨_, T.cpu.arguments, hname.1, ?_, bare_end T w w' _ rfl hname.2, bare_start T w m _ rfl hname.2, ?_⟩
  · rw [← h3]
    exact List.take_prefix _ _
  · have := result_claim w' (begun_bare T w _ rfl hname.2)
    rwa [h2] at this

/-! ## socketcall -/

theorem socketArguments_inv {σ : Type} (W : Nat) (readWord : Nat → Py σ Nat) (mem : Nat → Nat) (Inv : σ → Prop) :
    ∀ (formats : List (String × String)) (address : Nat) (s : σ), Inv s →
    (∀ i s, i < formats.length → Inv s → ∃ s', readWord (address + i * W) s = (.ok (mem (address + i * W)), s') ∧ Inv s') →
    ∃ args s', socketArguments W readWord formats address s = (.ok args, s') ∧ Inv s' ∧
      args.map (fun a => (a.type, a.name)) = formats.map (fun f => (some f.1, some f.2)) ∧
      (∀ i a, args[i]? = some a → a.value = mem (address + i * W)) ∧ ∀ a ∈ args, a.text = none := by
  intro formats
  induction formats with
  | nil => intro address s hs _; exact ⟨[], s, rfl, hs, rfl, fun i a h => by simp at h, fun a h => by cases h⟩
  | cons f formats ih =>
    intro address s hs hr
    have step : ∀ i, address + W + i * W = address + (i + 1) * W := fun i => by rw [Nat.succ_mul]; omega
    obtain ⟨s1, r1, r2⟩ := hr 0 s (by simp) hs
    rw [Nat.zero_mul, Nat.add_zero] at r1
    obtain ⟨args, s2, h1, h2, h3, h4, h5⟩ := ih (address + W) s1 r2 (fun i s hi hs => by
      rw [step]
      exact hr (i + 1) s (by simp [hi]) hs)
    refine ⟨{ value := mem address, type := some f.1, name := some f.2 } :: args, s2, ?_, h2, ?_, ?_, ?_⟩
    · unfold socketArguments
      rw [Py.run_bind_ok r1, Py.run_bind_ok h1]
      rfl
    · rw [List.map_cons, h3]; rfl
    · intro i a ha
      cases i with
      | zero =>
        simp only [List.getElem?_cons_zero, Option.some.injEq] at ha
        rw [← ha]
        simp
      | succ i =>
        rw [List.getElem?_cons_succ] at ha
        rw [h4 i a ha, step]
    · intro a ha
      rcases List.mem_cons.1 ha with rfl | ha
      · rfl
      · exact h5 a ha

/-- A `socketcall` to be replaced: `sub` is the number of the sub-call and `array` the address of its arguments; `word` are the words of the memory. -/
structure Replaced (T : CallHost) (v : Convention) (w : Snap) (sub array : Nat) (word : Nat → Nat) : Prop where
  cpu : ∃ r1 r2 rest, (T.cpu, 102, r1, r2) ∈ socketCpus ∧ v.arguments = r1 :: r2 :: rest ∧ w.regs r1 = sub ∧ w.regs r2 = array
  number : w.regs v.number = 102
  replace : T.replace = true
  words : ∀ i s, i < 6 → s.mem = w.mem.mem → ∃ s', T.env.readWord (array + i * T.env.arch.W) s = (.ok (word (array + i * T.env.arch.W)), s') ∧
    s'.mem = s.mem

theorem socket_begins {T : CallHost} {v : Convention} (hv : (T.cpu, v) ∈ textCpus) {w : Snap} {sub array : Nat} {word : Nat → Nat}
    (h : Replaced T v w sub array word) (name : String) (hk : (sub, name) ∈ kernelSocketcall) (h17 : sub ≤ 17) :
    ∃ formats n, socketcallCount.lookup sub = some n ∧ formats.length = n ∧ prototypes.lookup name = some ("long", formats) ∧
      Begins T w name "long" formats fun i => if i < n then some (word (array + i * T.env.arch.W)) else none := by
  obtain ⟨⟨r1, r2, rest, hc, ha, rfl, rfl⟩, hnum, hrep, hw⟩ := h
  have h := (List.all_eq_true.1 socket_known) _ hk
  have hb : Nat.ble 18 (w.regs r1) = false := by
    rw [Bool.eq_false_iff]; intro e; exact absurd (Nat.le_of_ble_eq_true e) (by omega)
  simp only [hb, Bool.false_or, Bool.and_eq_true, decide_eq_true_eq] at h
  obtain ⟨⟨h1, h2⟩, h3⟩ := h
  cases hp : prototypes.lookup name with
  | none => rw [hp] at h3; cases h3
  | some p =>
    obtain ⟨r, formats⟩ := p
    cases hcnt : socketcallCount.lookup (w.regs r1) with
    | none => rw [hp, hcnt] at h3; cases h3
    | some n =>
      rw [hp, hcnt] at h3
      simp only [Bool.and_eq_true, decide_eq_true_eq] at h3
      obtain ⟨rfl, hlen⟩ := h3
      have hlen := Nat.eq_of_beq_eq_true hlen
      have h6 : formats.length ≤ 6 := by
        have := (List.all_eq_true.1 prototype_types) _ (lookup_mem _ _ _ hp)
        simp only [Bool.and_eq_true, decide_eq_true_eq] at this
        exact this.2.1
      obtain ⟨args, s', a1, a2, a3, a4, a5⟩ := socketArguments_inv T.env.arch.W T.env.readWord word (fun s => s.mem = w.mem.mem)
        formats (w.regs r2) w.mem rfl (fun i s hi hs => by
          obtain ⟨s', e1, e2⟩ := hw i s (by omega) hs
          exact ⟨s', e1, by rw [e2, hs]⟩)
      have hal : args.length = formats.length := by simpa using congrArg List.length a3
      have hread : argsRead T.cpu T.env.arch.W T.replace T.env.readWord w.regs w.mem = (.ok ⟨name, "long", args⟩, s') := by
        have hnum' : w.regs T.cpu.number = 102 := by rw [(textCpus_ok _ hv).1]; exact hnum
        have ht : socketcallText (w.regs r1) = name := by unfold socketcallText; rw [h1]
        have e : argsRead T.cpu T.env.arch.W T.replace T.env.readWord w.regs = setupSocketCall T.env.arch.W T.env.readWord (w.regs r1) (w.regs r2) := by
          rw [hrep]
          exact socket_read T.cpu 102 r1 r2 hc _ _ w.regs hnum'
        rw [e]
        unfold setupSocketCall
        rw [ht, hp]
        simp only []
        rw [Py.run_bind_ok a1]
        rfl
      have hpre : ∀ (create : String → SysArg → Str) (s : MemSt), preformat create ⟨name, "long", args⟩ s = (.ok ⟨name, "long", args⟩, s) := by
        intro create s
        unfold preformat
        rw [Option.isNone_iff_eq_none.1 h2]
        rfl
      refine ⟨formats, n, rfl, hlen, rfl, hp, args, ⟨name, "long", args⟩, ?_, ⟨_, hpre _ _⟩, rfl, rfl, hal, a3, ?_, a5⟩
      · unfold CallHost.begun
        rw [Py.run_bind_ok hread, Py.run_bind_ok (hpre _ _)]
        rfl
      · intro i a ha
        have hi : i < n := by rw [← hlen, ← hal]; exact (List.getElem?_eq_some_iff.1 ha).1
        simp only [if_pos hi, a4 i a ha]

/-- C132: a `socketcall` is shown as the call that it makes: the name is the kernel's, the values of the arguments are the words of the array in the
memory when the call began, and their texts are as those of other calls. Partial: as `C132_end_partial`; for the sub-calls up to 17 (C73). -/
theorem C132_socket_partial (T : CallHost) (v : Convention) (hv : (T.cpu, v) ∈ textCpus) (k : Kernel) (fuel : Nat) (hT : OverKernel T k fuel)
    (w w' : Snap) (m : MemSt) (sub array : Nat) (word : Nat → Nat) (h : Replaced T v w sub array word) (name : String)
    (hk : (sub, name) ∈ kernelSocketcall) (h17 : sub ≤ 17) :
    ∃ formats n, socketcallCount.lookup sub = some n ∧ formats.length = n ∧
      CallClaim T (fun i => if i < n then some (word (array + i * T.env.arch.W)) else none) name "long" formats
        (fun i => if (name, i) ∈ lostArguments then w.mem else w'.mem) (T.endText w w') ∧
      CallClaim T (fun i => if i < n then some (word (array + i * T.env.arch.W)) else none) name "long" formats
        (fun i => if (name, i) ∈ lostArguments then w.mem else m) (T.startText w m) ∧
      ResultClaim T "long" (w'.regs v.result) (T.resultAt w w') := by
  obtain ⟨formats, n, h1, h2, _, hb⟩ := socket_begins hv h name hk h17
  refine ⟨formats, n, h1, h2, end_claim k fuel hT w' hb, start_claim k fuel hT m hb, ?_⟩
  obtain ⟨_, args, d, e, _⟩ := hb
  have := result_claim w' e
  rwa [(textCpus_ok _ hv).2.1] at this

/-! ## the line -/

/-- What is claimed of the line of a call with a prototype that has ended: `w` is the stop in which it began, `w'` that in which it ended. -/
def LineClaim (T : CallHost) (v : Convention) (base : LineView) (w w' : Snap) (pid : Nat) (name restype : String) (formats : List (String × String))
    (line : Str) : Prop :=
  ∃ num pc addr text column result, decNumber num = some pid ∧ (v.number, pc) ∈ programCounters ∧ AddressText (w.regs pc) addr ∧
    CallClaim T (fun i => v.arguments[i]?.map w.regs) name restype formats (fun i => if (name, i) ∈ lostArguments then w.mem else w'.mem) text ∧
    Column text column ∧ ResultClaim T restype (w'.regs v.result) result ∧
    line = (if base.showPid then '[' :: num ++ "]".toList else []) ++ (if base.showIp then '[' :: addr ++ "]".toList else []) ++
      (if base.showPid || base.showIp then " ".toList else []) ++ (column ++ " = ".toList ++ result)

/-- C132: the line of a call that has ended. -/
theorem C132_line_partial (T : CallHost) (v : Convention) (hv : (T.cpu, v) ∈ textCpus) (k : Kernel) (fuel : Nat) (hT : OverKernel T k fuel)
    (world : Nat → Snap) (gone : MemSt) (base : LineView) (pid id entry result : Nat) (name restype : String) (formats : List (String × String))
    (h : Known T v (world entry) name restype formats) (line : Str) (hl : CallLine (T.view world gone base) pid ⟨id, entry, some result⟩ line) :
    LineClaim T v base (world entry) (world result) pid name restype formats line := by
  obtain ⟨num, addr, call, h1, h2, -, h4, h5⟩ := hl
  obtain ⟨column, c1, rfl⟩ := h4 (by simp)
  obtain ⟨pc, p1, p2⟩ := textCpus_pc hv
  refine ⟨num, pc, addr, _, column, _, h1, p2, ?_, C132_end_partial T v hv k fuel hT _ _ name restype formats h, c1,
    C132_result T v hv _ _ name restype formats h, h5⟩
  simp only [CallHost.view, p1] at h2
  exact h2

/-- What is claimed of the line of a call with a prototype that has not ended: `w` is the stop in which it began, `m` the memory when it is shown. -/
def CutClaim (T : CallHost) (v : Convention) (base : LineView) (w : Snap) (m : MemSt) (pid : Nat) (name restype : String)
    (formats : List (String × String)) (line : Str) : Prop :=
  ∃ num pc addr text, decNumber num = some pid ∧ (v.number, pc) ∈ programCounters ∧ AddressText (w.regs pc) addr ∧
    CallClaim T (fun i => v.arguments[i]?.map w.regs) name restype formats (fun i => if (name, i) ∈ lostArguments then w.mem else m) text ∧
    line = (if base.showPid then '[' :: num ++ "]".toList else []) ++ (if base.showIp then '[' :: addr ++ "]".toList else []) ++
      (if base.showPid || base.showIp then " ".toList else []) ++ text

/-- C132: the line of a call that has not ended: with `--enter` it is printed when the call begins, else after the end of the process. -/
theorem C132_cut_partial (T : CallHost) (v : Convention) (hv : (T.cpu, v) ∈ textCpus) (k : Kernel) (fuel : Nat) (hT : OverKernel T k fuel)
    (world : Nat → Snap) (gone : MemSt) (base : LineView) (pid id entry : Nat) (name restype : String) (formats : List (String × String))
    (h : Known T v (world entry) name restype formats) (line : Str) (hl : CallLine (T.view world gone base) pid ⟨id, entry, none⟩ line) :
    CutClaim T v base (world entry) (if T.enter then (world entry).mem else gone) pid name restype formats line := by
  obtain ⟨num, addr, call, h1, h2, h3, -, h5⟩ := hl
  obtain ⟨pc, p1, p2⟩ := textCpus_pc hv
  have h3 := h3 rfl
  subst h3
  refine ⟨num, pc, addr, _, h1, p2, ?_, C132_start_partial T v hv k fuel hT _ _ name restype formats h, h5⟩
  simp only [CallHost.view, p1] at h2
  exact h2

theorem procBlocks_at {F : LineView} {W : Wish} {root : Nat} {log : List Entry} {p : Nat} {wall : Bool} {stops : List Report} {started : Nat}
    {bs : List Block} (h : ProcBlocks F W root log p wall stops started bs) : bs.length = stops.length ∧ ∀ i x, stops[i]? = some x →
      ∃ b started' now, bs[i]? = some b ∧ StoppedAt log p i now ∧ StopLines F W root log p started' now (history W wall (stops.take i)).1 x b.lines := by
  induction h with
  | nil => exact ⟨rfl, fun i x h => by simp at h⟩
  | @snoc stops started now bs x lines h hn hl ih =>
    obtain ⟨ih1, ih2⟩ := ih
    refine ⟨by simp [ih1], fun i y hy => ?_⟩
    by_cases hi : i < stops.length
    · rw [List.getElem?_append_left hi] at hy
      obtain ⟨b, s', n', e1, e2, e3⟩ := ih2 i y hy
      refine ⟨b, s', n', ?_, e2, ?_⟩
      · rw [List.getElem?_append_left (by omega)]
        exact e1
      · rw [List.take_append_of_le_length (by omega)]
        exact e3
    · have hb := (List.getElem?_eq_some_iff.1 hy).1
      simp only [List.length_append, List.length_singleton] at hb
      have hi : i = stops.length := by omega
      subst hi
      simp only [List.getElem?_concat_length, Option.some.injEq] at hy
      subst hy
      refine ⟨⟨p, lines, stopCode (history W wall stops).1 x.1⟩, started, now, ?_, hn, ?_⟩
      · rw [← ih1, List.getElem?_concat_length]
      · simp only [List.take_left]
        exact hl

/-- C132: for every tree of processes that strace.py follows, a call that ends at a stop, and is to be shown, has one line there, which shows the
registers and the memory of the process at the two stops of the call. Partial: as C131 and `C132_end_partial`. -/
theorem C132_tree_partial (H : CallHost) (v : Convention) (hv : (H.cpu, v) ∈ textCpus) (k : Kernel) (kfuel : Nat) (hH : OverKernel H k kfuel)
    (world : Nat → Snap) (gone : MemSt) (base : LineView)
    (K : Kern) (T : Tree) (C : StraceCfg) (X : MainTexts) (fork exec clone attached : Bool)
    (hT : T.Good (C.wish exec (treeOptions fork exec clone))) (hK : Grows K T) (patience : Nat) (hL : Lively K T patience) (pids : List Nat)
    (hpids : ∀ p, T.Born p → p ∈ pids) (fuel : Nat) (hf1 : patience < fuel) (hf2 : (pids.map fun p => (T.stops p).length).sum < fuel)
    (out : List Str) :
    ∃ (t : DSt) (first : Str) (blocks : List Block), straceMainOut K fuel C (H.view world gone base) X T.root attached ⟨treeState fork exec clone, out⟩ =
        (.ok (some (blocks.foldl (fun code b => b.code.getD code) 0)), ⟨t, out ++ first :: blocks.flatMap Block.lines⟩) ∧
      ∀ p, T.Born p → ∀ i regs result, (T.stops p)[i]? = some (.signal 133, result) →
        (history (C.wish exec (treeOptions fork exec clone)) (T.thread p) ((T.stops p).take i)).1 = .inside regs →
        (C.wish exec (treeOptions fork exec clone)).view.shown regs = true →
        ∀ name restype formats, Known H v (world regs) name restype formats →
          ∃ line, ((blocks.filter fun b => b.pid == p)[i]?).map Block.lines = some [line] ∧
            LineClaim H v base (world regs) (world result) p name restype formats line := by
  obtain ⟨t, first, blocks, h1, _, h2⟩ := C131_tree_partial K T C (H.view world gone base) X fork exec clone attached hT hK patience hL pids hpids fuel
    hf1 hf2 out
  refine ⟨t, first, blocks, h1, ?_⟩
  intro p hp i regs result hi hin hs name restype formats hk
  obtain ⟨started, h3⟩ := h2.each p hp
  obtain ⟨b, s', now, e1, _, e3⟩ := (procBlocks_at h3).2 i _ hi
  rw [hin] at e3
  simp only [StopLines, if_true, hs] at e3
  obtain ⟨line, l1, l2⟩ := e3
  refine ⟨line, ?_, C132_line_partial H v hv k kfuel hH world gone base p s' regs result name restype formats hk line l2⟩
  rw [e1, Option.map_some, l1]

/-- C132: the lines of calls that have not ended, for every tree of processes: with `--enter` each shown call has one at the stop in which it
begins; without, a shown call that a process ends in has one when the process ends. -/
theorem C132_tree_cut_partial (H : CallHost) (v : Convention) (hv : (H.cpu, v) ∈ textCpus) (k : Kernel) (kfuel : Nat) (hH : OverKernel H k kfuel)
    (world : Nat → Snap) (gone : MemSt) (base : LineView)
    (K : Kern) (T : Tree) (C : StraceCfg) (X : MainTexts) (fork exec clone attached : Bool)
    (hT : T.Good (C.wish exec (treeOptions fork exec clone))) (hK : Grows K T) (patience : Nat) (hL : Lively K T patience) (pids : List Nat)
    (hpids : ∀ p, T.Born p → p ∈ pids) (fuel : Nat) (hf1 : patience < fuel) (hf2 : (pids.map fun p => (T.stops p).length).sum < fuel)
    (henter : H.enter = C.enter) (out : List Str) :
    ∃ (t : DSt) (first : Str) (blocks : List Block), straceMainOut K fuel C (H.view world gone base) X T.root attached ⟨treeState fork exec clone, out⟩ =
        (.ok (some (blocks.foldl (fun code b => b.code.getD code) 0)), ⟨t, out ++ first :: blocks.flatMap Block.lines⟩) ∧
      ∀ p, T.Born p → ∀ i regs name restype formats,
        (C.wish exec (treeOptions fork exec clone)).view.shown regs = true → Known H v (world regs) name restype formats →
        ((history (C.wish exec (treeOptions fork exec clone)) (T.thread p) ((T.stops p).take i)).1 = .outside →
          (T.stops p)[i]? = some (.signal 133, regs) → C.enter = true →
          ∃ line, ((blocks.filter fun b => b.pid == p)[i]?).map Block.lines = some [line] ∧
            CutClaim H v base (world regs) (world regs).mem p name restype formats line) ∧
        ((history (C.wish exec (treeOptions fork exec clone)) (T.thread p) ((T.stops p).take i)).1 = .inside regs →
          ∀ kind x, (T.stops p)[i]? = some (kind, x) → ((∃ c, kind = .exited c) ∨ ∃ n, kind = .killed n) → C.enter = false →
          ∃ line last, ((blocks.filter fun b => b.pid == p)[i]?).map Block.lines = some [line, last] ∧
            CutClaim H v base (world regs) gone p name restype formats line) := by
  obtain ⟨t, first, blocks, h1, _, h2⟩ := C131_tree_partial K T C (H.view world gone base) X fork exec clone attached hT hK patience hL pids hpids fuel
    hf1 hf2 out
  refine ⟨t, first, blocks, h1, ?_⟩
  intro p hp i regs name restype formats hs hk
  obtain ⟨started, h3⟩ := h2.each p hp
  have hview : (C.wish exec (treeOptions fork exec clone)).view.enter = C.enter := rfl
  refine ⟨fun hin hi he => ?_, fun hin kind x hi hkind he => ?_⟩
  · obtain ⟨b, s', now, e1, _, e3⟩ := (procBlocks_at h3).2 i _ hi
    rw [hin] at e3
    simp only [StopLines, if_true, hs, hview, he, Bool.and_self] at e3
    obtain ⟨line, l1, l2⟩ := e3
    have := C132_cut_partial H v hv k kfuel hH world gone base p now regs name restype formats hk line l2
    rw [henter, he, if_pos rfl] at this
    exact ⟨line, by rw [e1, Option.map_some, l1], this⟩
  · obtain ⟨b, s', now, e1, _, e3⟩ := (procBlocks_at h3).2 i _ hi
    rw [hin] at e3
    have hcut : ∃ line last, b.lines = [line, last] ∧ CallLine (H.view world gone base) p ⟨s', regs, none⟩ line := by
      rcases hkind with ⟨c, rfl⟩ | ⟨n, rfl⟩
      · simp only [StopLines, if_true, hs, hview, he, Bool.not_false, Bool.and_self] at e3
        obtain ⟨cut, last, l1, -, line, l3, l4⟩ := e3
        exact ⟨line, last, by rw [l1, l3]; rfl, l4⟩
      · simp only [StopLines, if_true, hs, hview, he, Bool.not_false, Bool.and_self] at e3
        obtain ⟨cut, last, l1, -, line, l3, l4⟩ := e3
        exact ⟨line, last, by rw [l1, l3]; rfl, l4⟩
    obtain ⟨line, last, l1, l2⟩ := hcut
    have := C132_cut_partial H v hv k kfuel hH world gone base p s' regs name restype formats hk line l2
    rw [henter, he, if_neg (by decide)] at this
    exact ⟨line, last, by rw [e1, Option.map_some, l1], this⟩

/-! ## examples -/

/-- 64-bit x86 with the memory of a kernel that replies completely. -/
def exHost (enter : Bool) : CallHost where
  cpu := cpuX86_64
  env := exArgEnv exKernel64 exPrintable fun _ => 0
  replace := true
  enter := enter
  errorcode := fun e => if e = 2 then some "ENOENT".toList else none
  strerror := fun _ => "No such file or directory".toList

theorem exHost_over (enter : Bool) : OverKernel (exHost enter) exKernel64 3 where
  printable := exPrintable_valid
  complete := fun log a n c h => Props.exKernel_complete log a n c h
  strings := fun _ _ => rfl
  bytes := fun _ _ => rfl

/-- `open("/etc", O_RDONLY)`: the registers when it begins, and the memory. -/
def exOpen : Snap where
  regs := fun r => if r = "orig_rax" then 2 else if r = "rdi" then 4096 else if r = "rip" then 0x401000 else 0
  mem := exMemory [47, 101, 116, 99]

/-- The same when it has failed, as the result `-2` says. -/
def exFailed : Snap := { exOpen with regs := fun r => if r = "rax" then 2 ^ 64 - 2 else exOpen.regs r }

theorem exOpen_known (enter : Bool) : Known (exHost enter) conventionX86_64 exOpen "open" "long"
    [("const char *", "filename"), ("int", "flags"), ("umode_t", "mode")] :=
  ⟨⟨_, rfl, by decide +kernel⟩, by decide +kernel, .inl (by decide)⟩

example (enter : Bool) := C132_end_partial (exHost enter) conventionX86_64 (by simp [textCpus, exHost]) exKernel64 3 (exHost_over enter) exOpen exFailed
  _ _ _ (exOpen_known enter)

example (enter : Bool) := C132_start_partial (exHost enter) conventionX86_64 (by simp [textCpus, exHost]) exKernel64 3 (exHost_over enter) exOpen exOpen.mem
  _ _ _ (exOpen_known enter)

example (enter : Bool) := C132_result (exHost enter) conventionX86_64 (by simp [textCpus, exHost]) exOpen exFailed _ _ _ (exOpen_known enter)

example : (exHost true).endText exOpen exFailed = "open('/etc', O_RDONLY)".toList := by decide +kernel
example : (exHost true).resultAt exOpen exFailed = "-2 ENOENT (No such file or directory)".toList := by decide +kernel


-- number 1000 has no name, and `timerfd` has no prototype
example (enter : Bool) (n : Nat) (hn : n = 1000 ∨ n = 283) (w' : Snap) (m : MemSt) := C132_unknown (exHost enter) conventionX86_64
  (by simp [textCpus, bareCpus, exHost]) { exOpen with regs := fun r => if r = "orig_rax" then n else 255 } w' m
  (by
    have hall : ∀ p ∈ Tables.x86_64, p.1 = 1000 ∨ p.1 = 283 → prototypes.lookup p.2 = none := by decide +kernel
    intro name h
    exact hall _ h (by rcases hn with rfl | rfl; exact .inl rfl; exact .inr rfl))

example : (exHost false).startText { exOpen with regs := fun r => if r = "orig_rax" then 1000 else 255 } exOpen.mem =
    "syscall<1000>(0x00000000000000ff, 0x00000000000000ff, 0x00000000000000ff, 0x00000000000000ff, 0x00000000000000ff, 0x00000000000000ff)".toList := by
  decide +kernel

/-- A little-endian machine of 32 bits with complete replies. -/
def exKernel32 : Kernel := { Props.exKernel with arch := ⟨false, false⟩ }

/-- i386, with `socketcall` replaced. -/
def exHost32 : CallHost :=
  { exHost false with cpu := cpuI386, env := { exArgEnv exKernel32 exPrintable (fun _ => 0) with readWord := readWord exKernel32 } }

/-- `bind(3, 0, 16)` by `socketcall`: the arguments are at 4096. -/
def exBind : Snap where
  regs := fun r => if r = "orig_eax" then 102 else if r = "ebx" then 2 else if r = "ecx" then 4096 else 0
  mem := exMemory [3, 0, 0, 0, 0, 0, 0, 0, 16, 0, 0, 0]

theorem exBind_replaced : Replaced exHost32 conventionI386 exBind 2 4096
    fun a => readNativeUint exKernel32.arch (bytesAt exBind.mem.mem a 4) where
  cpu := ⟨_, _, _, by simp [socketCpus, exHost32], rfl, rfl, rfl⟩
  number := rfl
  replace := rfl
  words := by
    intro i s _ hs
    rw [← hs]
    refine ⟨{ s with log := .peek (4096 + i * 4) :: s.log }, ?_, rfl⟩
    show readWord exKernel32 (4096 + i * 4) s = _
    unfold readWord
    have e : (4096 + i * 4) % exKernel32.arch.W = 0 := by
      show (4096 + i * 4) % 4 = 0
      omega
    rw [if_neg (not_not.2 e)]
    show (checkPeek exKernel32.arch (readNativeUint exKernel32.arch (bytesAt s.mem (4096 + i * 4) 4)) 0, _) = _
    unfold checkPeek
    simp
    rfl

example := C132_socket_partial exHost32 conventionI386 (by simp [textCpus, exHost32]) exKernel32 3
  ⟨exPrintable_valid, fun log a n c h => Props.exKernel_complete log a n c h, fun _ _ => rfl, fun _ _ => rfl⟩ exBind exBind exBind.mem 2 4096 _
  exBind_replaced "bind" (by decide +kernel) (by decide)

example : exHost32.endText exBind exBind = "bind(3, NULL, 16)".toList := by decide +kernel

example (enter : Bool) (base : LineView) (pid id : Nat) (line : Str) := C132_line_partial (exHost enter) conventionX86_64 (by simp [textCpus, exHost]) exKernel64 3
  (exHost_over enter) (fun n => if n = 2 then exOpen else exFailed) exOpen.mem base pid id 2 0 _ _ _ (exOpen_known enter) line


/-- The files, the calls and the results of the tree of three; call 59 is `execve`. -/
def exWorld (n : Nat) : Snap where
  regs := fun r => if r = "orig_rax" then n else if r = "rax" then n else if r = "rdi" then 4096 else 0
  mem := exMemory [47, 101, 116, 99]

example (enter fork exec clone attached : Bool) (a b : Nat) (gone : MemSt) (base : LineView) (X : MainTexts) (out : List Str) :=
  C132_tree_partial (exHost enter) conventionX86_64 (by simp [textCpus, exHost]) exKernel64 3 (exHost_over enter) exWorld gone base
    (treeKern (threeTree exec) fun p => if p = 11 then a else b) (threeTree exec) (followCfg enter) X fork exec clone attached
    (threeTree_good enter fork exec clone)
    (treeKern_grows _ _ (threeTree_status exec)) (a + b) (treeKern_lively _ rfl _ _ (fun p => by split <;> omega)) [10, 11, 12]
    (fun _ => threeTree_born exec) (a + b + 30) (by omega) (by cases exec <;> simp [threeTree]) out

example (enter fork exec clone attached : Bool) (a b : Nat) (gone : MemSt) (base : LineView) (X : MainTexts) (out : List Str) :=
  C132_tree_cut_partial (exHost enter) conventionX86_64 (by simp [textCpus, exHost]) exKernel64 3 (exHost_over enter) exWorld gone base
    (treeKern (threeTree exec) fun p => if p = 11 then a else b) (threeTree exec) (followCfg enter) X fork exec clone attached
    (threeTree_good enter fork exec clone)
    (treeKern_grows _ _ (threeTree_status exec)) (a + b) (treeKern_lively _ rfl _ _ (fun p => by split <;> omega)) [10, 11, 12]
    (fun _ => threeTree_born exec) (a + b + 30) (by omega) (by cases exec <;> simp [threeTree]) rfl out

-- process 10 ends in the call that begins at stop 4
example (enter fork exec clone : Bool) : ((threeTree exec).stops 10)[4]? = some (.signal 133, 231) ∧
    (history ((followCfg enter).wish exec (treeOptions fork exec clone)) ((threeTree exec).thread 10) (((threeTree exec).stops 10).take 4)).1 = .outside ∧
    ((threeTree exec).stops 10)[5]? = some (.exited 3, 0) ∧
    (history ((followCfg enter).wish exec (treeOptions fork exec clone)) ((threeTree exec).thread 10) (((threeTree exec).stops 10).take 5)).1 = .inside 231 ∧
    ((followCfg enter).wish exec (treeOptions fork exec clone)).view.shown 231 = true ∧
    Known (exHost enter) conventionX86_64 (exWorld 231) "exit_group" "long" [("int", "error_code")] := by
  refine ⟨by cases exec <;> decide, by cases enter <;> cases fork <;> cases exec <;> cases clone <;> decide +kernel, by cases exec <;> decide,
    by cases enter <;> cases fork <;> cases exec <;> cases clone <;> decide +kernel, rfl, ?_⟩
  exact ⟨⟨_, rfl, by decide +kernel⟩, by decide +kernel, .inl (by decide)⟩

example (enter : Bool) (base : LineView) (pid id : Nat) (line : Str) := C132_cut_partial (exHost enter) conventionX86_64 (by simp [textCpus, exHost]) exKernel64 3
  (exHost_over enter) (fun n => if n = 2 then exOpen else exFailed) exOpen.mem base pid id 2 _ _ _ (exOpen_known enter) line

-- stop 3 of process 10 ends the call that began at stop 1
example (enter fork exec clone : Bool) : ((threeTree exec).stops 10)[3]? = some (.signal 133, 11) ∧
    (history ((followCfg enter).wish exec (treeOptions fork exec clone)) ((threeTree exec).thread 10) (((threeTree exec).stops 10).take 3)).1 = .inside 57 ∧
    ((followCfg enter).wish exec (treeOptions fork exec clone)).view.shown 57 = true ∧
    Known (exHost enter) conventionX86_64 (exWorld 57) "fork" "long" [] := by
  refine ⟨by cases exec <;> decide, by cases enter <;> cases fork <;> cases exec <;> cases clone <;> decide +kernel, rfl, ?_⟩
  exact ⟨⟨_, rfl, by decide +kernel⟩, by decide +kernel, .inl (by decide)⟩

/-! ## what is wrong -/

/-- A kernel that gives two bytes at a time. -/
def exShort : Kernel := { exKernel64 with readReply := fun _ _ _ => .count 2 }

/-- With a kernel that replies less than was asked for, the name of a file is shown shortened though it is short. -/
theorem C132_refuted : ¬ ∀ (T : CallHost) (k : Kernel) (fuel : Nat) (m : MemSt) (c : SysCall) (a : SysArg) (type arg : String),
    (∀ c, T.env.printable c = true → c.isValidChar) → (∀ a m, T.env.readCString a m = readCString k fuel a m 256) →
    (∀ a n, T.env.readBytes a n = readBytes k a n) → a.type = some type → a.name = some arg →
    (∃ r, (T.env.readCString a.value T.env.stringMax m).1 = .ok r) → FileText ⟨T.env.stringMax, T.env.writeAddress⟩ m.mem type arg a.value (T.text m c a) := by
  intro h
  obtain ⟨data, dots, rest, h1, h2, _, _, h5⟩ := h { exHost false with env := exArgEnv exShort exPrintable fun _ => 0 } exShort 3 exOpen.mem
    ⟨"open", "long", []⟩ ⟨4096, some "const char *", some "filename", none⟩ _ _ exPrintable_valid (fun _ _ => rfl) (fun _ _ => rfl) rfl rfl
    ⟨([47, 101], true), by decide +kernel⟩ (by decide) (by decide) (by decide)
  have hstr : IsCString exOpen.mem.mem 4096 [47, 101, 116, 99] := by
    refine ⟨?_, by decide⟩
    intro i hi
    have : i < 4 := hi
    match i, this with
    | 0, _ => exact ⟨rfl, by decide⟩
    | 1, _ => exact ⟨rfl, by decide⟩
    | 2, _ => exact ⟨rfl, by decide⟩
    | 3, _ => exact ⟨rfl, by decide⟩
  rcases h5 with ⟨rfl, -⟩ | ⟨-, h5⟩
  · have hr : rest = [] := h2
    rw [hr] at h1
    have e : literalBytes (CallHost.text { exHost false with env := exArgEnv exShort exPrintable fun _ => 0 } exOpen.mem ⟨"open", "long", []⟩
        ⟨4096, some "const char *", some "filename", none⟩) = some ([47, 101], "...".toList) := by decide +kernel
    rw [e] at h1
    simp at h1
  · have := h5 _ hstr
    exact absurd this (by decide)

end PT
