import Verif.Props.CmdLine
import Verif.Props.CallNames
import Verif.Props.Strace
import Verif.Spec.Program

/-! C141: strace.py, from its command line to its last line. -/

namespace PT
open Spec

theorem setup_tree (fork exec clone : Bool) : setupDebugger true ⟨fork, exec, clone⟩ newDebugger = (none, [], treeState fork exec clone) := by
  cases fork <;> cases exec <;> cases clone <;> rfl

/-- What the options hold, as a list of settings tells it. -/
structure Heeds (E : ProgramEnv) (is : List (Str × Setting)) (v : OptVals) : Prop where
  on : ∀ s ∈ straceManual, s.takes = .nothing → s.name ≠ "show-pid".toList → (dictGet v (destOf s.name) == some (.flag true)) = (lastSetting is s.name == some .on)
  number : ∀ s ∈ straceManual, s.takes = .number → (match dictGet v (destOf s.name) with
    | some (.int n) => n.toNat
    | _ => 0) = match settingOf is s.name with
    | some (.number n) => n.toNat
    | _ => 0
  text : ∀ s ∈ straceManual, s.takes = .text → (match dictGet v (destOf s.name) with
    | some (.str t) => some t
    | _ => none) = match lastSetting is s.name with
    | some (.text t) => some t
    | _ => none

theorem not_pid_number : ∀ s ∈ straceManual, s.takes = .number → s.name ≠ "show-pid".toList := by decide
theorem not_pid_text : ∀ s ∈ straceManual, s.takes = .text → s.name ≠ "show-pid".toList := by decide

theorem heeds_of {E : ProgramEnv} {is : List (Str × Setting)} {v : OptVals} 
    (H : ∀ s ∈ straceManual, s.takes ≠ .help → s.name ≠ "show-pid".toList → dictGet v (destOf s.name) = some (shown s (settingOf is s.name))) : Heeds E is v where
  on s hs ht hn := by
    have hf : factory s.name = none := by
      clear hn
      revert ht
      revert hs
      revert s
      decide
    rw [H s hs (by rw [ht]; decide) hn]
    unfold settingOf
    rw [hf]
    cases lastSetting is s.name with
    | none => simp [shown, ht]
    | some x => cases x <;> simp [shown, valOf]
  number s hs ht := by
    rw [H s hs (by rw [ht]; decide) (not_pid_number s hs ht)]
    cases settingOf is s.name with
    | none => simp [shown, ht]
    | some x => cases x <;> simp [shown, valOf]
  text s hs ht := by
    have hf : factory s.name = none := by
      revert ht
      revert hs
      revert s
      decide
    rw [H s hs (by rw [ht]; decide) (not_pid_text s hs ht)]
    unfold settingOf
    rw [hf]
    cases lastSetting is s.name with
    | none => simp [shown, ht]
    | some x => cases x <;> simp [shown, valOf]

/-- The options are used as they are meant: strace.py is its tracer on the process asked for, with these settings. Missing: as for C139, and negative
numbers. -/
theorem C141_options_partial {E : ProgramEnv} (hs : Tidy E.cmd.space) {is : List (Str × Setting)} {prog args : List Str}
    (h : CmdLine Decimal straceManual is prog args) (hl : isSet is "list-syscalls" = false) {root : Nat} {attached : Bool}
    (ht : Tracee E is prog root attached)
    (hf : (onlyFilter E.cmd.tables E.cmd.space ⟨givenText is "syscalls", isSet is "filename", isSet is "socket"⟩).isSome = true)
    (hr : ∀ r, givenText is "ignore-regex" = some r → r = [] ∨ E.cmd.regexOk r = true) (_hp : Positive is) :
    ∃ H G C X file, WishedText E.host H is ∧ WishedFront E.base G is ∧ C.enter = isSet is "enter" ∧ C.sys.name = nameAt H E.world ∧
      (∀ regs, C.view.shown regs = true ↔ AskedFor E is (nameAt H E.world regs)) ∧ WishedFile is file ∧
      (∀ p as, prog = p :: as → X.program0 = E.cmd.locate p ∧ X.args = E.listText (E.cmd.locate p :: as)) ∧
      ∀ K fuel, straceProgram E K fuel args =
        let d := straceMainOut K fuel C (H.view E.world E.gone G) X root attached
          ⟨treeState (isSet is "fork") (isSet is "trace-exec") (isSet is "trace-clone"), []⟩
        .ran file d.1 d.2 := by
  obtain ⟨v, prog', e1, -, e3, e4, e5, e6, e7, e8, e9⟩ := C139_strace_partial hs h hl (by
    cases ht with
    | attach n h hn => exact .inr ⟨_, h⟩
    | start p as h hp => exact .inl (by rw [hp]; simp)) hf hr
  have HH := heeds_of (E := E) e4
  have on : ∀ (name dest : String) (l : Option Char), (⟨name.toList, l, .nothing⟩ : Switch) ∈ straceManual → name.toList ≠ "show-pid".toList →
      destOf name.toList = dest.toList → isOn v dest = isSet is name := by
    intro name dest l hm hn hd
    have := HH.on _ hm rfl hn
    rw [hd] at this
    exact this
  have number : ∀ (name dest : String) (l : Option Char), (⟨name.toList, l, .number⟩ : Switch) ∈ straceManual →
      destOf name.toList = dest.toList → numberHeld v dest = wishedNumber is name := by
    intro name dest l hm hd
    have := HH.number _ hm rfl
    rw [hd] at this
    exact this
  have text : ∀ (name dest : String) (l : Option Char), (⟨name.toList, l, .text⟩ : Switch) ∈ straceManual →
      destOf name.toList = dest.toList → textOf v dest = givenText is name := by
    intro name dest l hm hd
    have := HH.text _ hm rfl
    rw [hd] at this
    exact this
  have o1 := on "type" "type" none (by decide) (by decide) (by decide)
  have o2 := on "name" "name" none (by decide) (by decide) (by decide)
  have o3 := on "address" "address" none (by decide) (by decide) (by decide)
  have o4 := on "raw-socketcall" "raw_socketcall" none (by decide) (by decide) (by decide)
  have o5 := on "enter" "enter" none (by decide) (by decide) (by decide)
  have o6 := on "show-ip" "show_ip" (some 'i') (by decide) (by decide) (by decide)
  have o7 := on "filename" "filename" none (by decide) (by decide) (by decide)
  have o8 := on "socket" "socket" none (by decide) (by decide) (by decide)
  have o9 := on "fork" "fork" (some 'f') (by decide) (by decide) (by decide)
  have o10 := on "trace-exec" "trace_exec" none (by decide) (by decide) (by decide)
  have o11 := on "trace-clone" "trace_clone" none (by decide) (by decide) (by decide)
  have n1 := number "string-length" "string_length" (some 's') (by decide) (by decide)
  have n2 := number "array-count" "array_count" none (by decide) (by decide)
  have t1 := text "syscalls" "syscalls" (some 'e') (by decide) (by decide)
  have t2 := text "ignore-regex" "ignore_regex" none (by decide) (by decide)
  refine ⟨hostBy E.host v, baseBy E.base v, cfgBy E v, textsBy E prog', logFile v, ?_, ?_, ?_, rfl, ?_, ⟨e8, e9⟩, ?_, ?_⟩
  · exact ⟨o1, o2, o3, n1, n2, congrArg (!·) o4, o5, ⟨_, _, _, _, _, _, _, rfl⟩⟩
  · exact ⟨e5, o6, ⟨_, _, rfl⟩⟩
  · exact o5
  · intro regs
    obtain ⟨only, ho⟩ := Option.isSome_iff_exists.1 hf
    have hh : onlyHeld E v = only := by
      unfold onlyHeld
      rw [t1, o7, o8, ho]
      rfl
    have := C41_shown E.cmd.tables E.cmd.space _ only ho (regexHeld E v) (nameAt (hostBy E.host v) E.world regs)
    show (!ignoreSyscall (onlyHeld E v) (regexHeld E v) (nameAt (hostBy E.host v) E.world regs)) = true ↔ _
    rw [hh, Bool.not_eq_true', this]
    unfold AskedFor
    refine and_congr Iff.rfl ?_
    unfold regexHeld
    rw [t2]
    cases givenText is "ignore-regex" with
    | none => simp
    | some r => cases r <;> simp
  · intro p as hp
    rw [e3 p as hp]
    exact ⟨rfl, rfl⟩
  · intro K fuel
    unfold straceProgram
    rw [e1]
    dsimp only
    rw [setup_tree, o9, o10, o11]
    dsimp only
    cases ht with
    | attach n h hn =>
      rw [e7 _ h (by exact_mod_cast hn)]
      rfl
    | start p as h hp =>
      rw [e6 h, e3 p as hp]

/-- The name of a call that is looked at is that of the table. -/
theorem nameAt_eq {T : CallHost} {v : Convention} {N : Names} (h : (T.cpu, v, N) ∈ kernelCpus) (world : Nat → Snap) (regs : Nat) (name : String)
    (hk : ((world regs).regs v.number, name) ∈ N.kernel) (hs : name ≠ "socketcall" ∨ T.replace = false) :
    nameAt T world regs = (readSyscall T.cpu (world regs).regs).toList := by
  obtain ⟨hv, tab, ht, hi, hsort⟩ := kernelCpus_ok h
  have hs' : readSyscall T.cpu (world regs).regs ≠ "socketcall" ∨ T.replace = false := by
    rcases hs with hs | hs
    · refine .inl fun e => hs ?_
      simp only [sorts, Bool.and_eq_true] at hsort
      have hm := socketcall_mem ht e
      have := (List.all_eq_true.1 hsort.2) _ hm
      simp only [decide_true, Bool.not_true, Bool.false_or] at this
      have := (List.all_eq_true.1 this) _ hk
      rw [(textCpus_ok _ hv).1] at this
      simpa [Nat.beq_refl] using this
    · exact .inr hs
  obtain ⟨c, d, hb, hn, hr⟩ := begun_named T (textCpus_mem hv) (world regs) hs'
  unfold nameAt
  rw [hb]
  exact congrArg String.toList hn

/-- The lines of a call that ends or begins, and of a call that is not asked for. -/
theorem end_start_lines {F : LineView} {W : Wish} {root : Nat} {log : List Entry} {p : Nat} {wall : Bool} {stops : List Report} {started : Nat} {bs : List Block}
    (h : ProcBlocks F W root log p wall stops started bs) (i regs : Nat) :
    ((history W wall (stops.take i)).1 = .inside regs → ∀ result, stops[i]? = some (.signal 133, result) →
      (W.view.shown regs = true → ∃ line id, (bs[i]?).map Block.lines = some [line] ∧ CallLine F p ⟨id, regs, some result⟩ line) ∧
      (W.view.shown regs = false → (bs[i]?).map Block.lines = some [])) ∧
    ((history W wall (stops.take i)).1 = .outside → stops[i]? = some (.signal 133, regs) →
      (W.view.shown regs = true → W.view.enter = true → ∃ line id, (bs[i]?).map Block.lines = some [line] ∧ CallLine F p ⟨id, regs, none⟩ line) ∧
      (W.view.shown regs = false ∨ W.view.enter = false → (bs[i]?).map Block.lines = some [])) := by
  refine ⟨fun hin result hi => ?_, fun hin hi => ?_⟩
  · obtain ⟨b, s', now, e1, _, e3⟩ := (procBlocks_at h).2 i _ hi
    rw [hin] at e3
    refine ⟨fun hs => ?_, fun hs => ?_⟩
    · simp only [StopLines, if_true, hs] at e3
      obtain ⟨line, l1, l2⟩ := e3
      exact ⟨line, _, by rw [e1, Option.map_some, l1], l2⟩
    · simp only [StopLines, if_true, hs, Bool.false_eq_true, if_false] at e3
      rw [e1, Option.map_some, e3]
  · obtain ⟨b, s', now, e1, _, e3⟩ := (procBlocks_at h).2 i _ hi
    rw [hin] at e3
    refine ⟨fun hs he => ?_, fun hs => ?_⟩
    · simp only [StopLines, if_true, hs, he, Bool.and_self] at e3
      obtain ⟨line, l1, l2⟩ := e3
      exact ⟨line, _, by rw [e1, Option.map_some, l1], l2⟩
    · have : (W.view.shown regs && W.view.enter) = false := by
        rcases hs with hs | hs <;> simp [hs]
      simp only [StopLines, if_true, this, Bool.false_eq_true, if_false] at e3
      rw [e1, Option.map_some, e3]

/-- C141: the line of a call that is asked for: as the settings want it, it begins with the process, the address and the type, and the name of the call; if
the prototype of the call is known, all of it is as C132 tells. -/
def WishedLine (E : ProgramEnv) (H : CallHost) (G : LineView) (v : Convention) (is : List (Str × Setting)) (p regs : Nat) (result : Option Nat) (pc shown : String)
    (line : Str) : Prop :=
  LineNamed (isSet is "type") (isSet is "show-pid" || isSet is "fork") (isSet is "show-ip") p ((E.world regs).regs pc) shown line ∧
    ∀ x, result = some x → ∀ k kfuel restype formats, OverKernel H k kfuel → Known H v (E.world regs) shown restype formats →
      LineClaim H v G (E.world regs) (E.world x) p shown restype formats line

/-- **C141** From the command line to the last line: strace.py traces the process asked for and no other, with the options asked for, and prints the line
about it and then for each stop told so far, in their order, exactly the lines of this stop. A call is shown at its end iff its name is asked for, and at its
start iff `--enter` is given as well; its line is as the settings want it. All goes to the file asked for. Partial: as C136, C137 and C139. -/
theorem C141_strace_partial {E : ProgramEnv} (hs : Tidy E.cmd.space) {is : List (Str × Setting)} {prog args : List Str}
    (h : CmdLine Decimal straceManual is prog args) (hl : isSet is "list-syscalls" = false) {root : Nat} {attached : Bool}
    (ht : Tracee E is prog root attached)
    (hf : (onlyFilter E.cmd.tables E.cmd.space ⟨givenText is "syscalls", isSet is "filename", isSet is "socket"⟩).isSome = true)
    (hr : ∀ r, givenText is "ignore-regex" = some r → r = [] ∨ E.cmd.regexOk r = true) (hp : Positive is)
    (v : Convention) (names : Names) (hc : (E.host.cpu, v, names) ∈ kernelCpus) :
    ∃ H G C file, WishedText E.host H is ∧ WishedFront E.base G is ∧ WishedFile is file ∧ C.enter = isSet is "enter" ∧
      (∀ regs, C.view.shown regs = true ↔ AskedFor E is (nameAt H E.world regs)) ∧
      ∀ (K : Kern) (N : World) (thread : Nat → Bool) (fuel : Nat), 1 < fuel →
        let W := C.wish (isSet is "trace-exec") (treeOptions (isSet is "fork") (isSet is "trace-exec") (isSet is "trace-clone"))
        Kept (straceMain K fuel C root attached (treeState (isSet is "fork") (isSet is "trace-exec") (isSet is "trace-clone"))).2.log N W root thread attached →
        ∃ r t first blocks, straceProgram E K fuel args = .ran file r ⟨t, first :: blocks.flatMap Block.lines⟩ ∧
          (r = .error .diverge ∨ (straceProgram E K fuel args).status = some (blocks.foldl (fun code b => b.code.getD code) 0)) ∧
          (∀ p as, prog = p :: as → FirstLine (E.cmd.locate p) (E.listText (E.cmd.locate p :: as)) root attached first) ∧
          (attached = false → FirstLine [] [] root false first) ∧
          OpenBlocks (H.view E.world E.gone G) W N root thread t.log blocks ∧
          ∀ p i regs name, ((E.world regs).regs v.number, name) ∈ names.kernel → name ≠ "socketcall" ∨ isSet is "raw-socketcall" = true →
            ∃ pc shown, (v.number, pc) ∈ programCounters ∧ names.Shown ((E.world regs).regs v.number) name shown ∧
            ((history W (thread p) ((stopsMade N p t.log).take i)).1 = .inside regs → ∀ result, (stopsMade N p t.log)[i]? = some (.signal 133, result) →
              (AskedFor E is shown.toList → ∃ line, ((blocks.filter fun b => b.pid == p)[i]?).map Block.lines = some [line] ∧
                WishedLine E H G v is p regs (some result) pc shown line) ∧
              (¬AskedFor E is shown.toList → ((blocks.filter fun b => b.pid == p)[i]?).map Block.lines = some [])) ∧
            ((history W (thread p) ((stopsMade N p t.log).take i)).1 = .outside → (stopsMade N p t.log)[i]? = some (.signal 133, regs) →
              (AskedFor E is shown.toList → isSet is "enter" = true → ∃ line, ((blocks.filter fun b => b.pid == p)[i]?).map Block.lines = some [line] ∧
                WishedLine E H G v is p regs none pc shown line) ∧
              (¬AskedFor E is shown.toList ∨ isSet is "enter" = false → ((blocks.filter fun b => b.pid == p)[i]?).map Block.lines = some [])) := by
  obtain ⟨H, G, C, X, file, w1, w2, w3, w4, w5, w6, w7, w8⟩ := C141_options_partial hs h hl ht hf hr hp
  have hH : (H.cpu, v, names) ∈ kernelCpus := by
    obtain ⟨_, _, _, _, _, _, _, e⟩ := w1.rest
    rw [e]
    exact hc
  refine ⟨H, G, C, file, w1, w2, w6, w3, w5, ?_⟩
  intro K N thread fuel hfu W hK
  obtain ⟨r, t, first, blocks, h1, h2, h3, h4⟩ := C136_lines_partial K N C (H.view E.world E.gone G) X root thread _ _ _ attached fuel hfu hK []
  have h0 : straceProgram E K fuel args = .ran file r ⟨t, first :: blocks.flatMap Block.lines⟩ := by
    rw [w8, h1]
    rfl
  refine ⟨r, t, first, blocks, h0, h2.imp id fun e => by rw [h0, e]; rfl, ?_, ?_, h4, fun p i regs name hk hsock => ?_⟩
  · intro p as hpa
    obtain ⟨x1, x2⟩ := w7 p as hpa
    rw [← x2, ← x1]
    exact h3
  · rintro rfl
    exact h3
  · have hsock' : name ≠ "socketcall" ∨ H.replace = false := by
      rcases hsock with hsock | hsock
      · exact .inl hsock
      · exact .inr (by rw [w1.socket, hsock]; rfl)
    obtain ⟨started, h5⟩ := h4.each p
    obtain ⟨c1, c2⟩ := end_start_lines h5 i regs
    obtain ⟨pc, _, p2⟩ := textCpus_pc (kernelCpus_ok hH).1
    have hn := nameAt_eq hH E.world regs name hk hsock'
    have hw : W.view.shown regs = true ↔ AskedFor E is (readSyscall H.cpu (E.world regs).regs).toList := by
      rw [← hn]
      exact w5 regs
    have hw' : ¬AskedFor E is (readSyscall H.cpu (E.world regs).regs).toList → W.view.shown regs = false := fun hna => by
      rw [← Bool.not_eq_true, hw]
      exact hna
    have he : W.view.enter = isSet is "enter" := w3
    have key : ∀ id result line, CallLine (H.view E.world E.gone G) p ⟨id, regs, result⟩ line →
        WishedLine E H G v is p regs result pc (readSyscall H.cpu (E.world regs).regs) line := by
      intro id result line hln
      refine ⟨?_, ?_⟩
      · have := line_named hH E.world E.gone G p id regs result name hk hsock' line hln pc p2
        rwa [w1.types, w2.pid, w2.ip] at this
      · rintro x rfl k kfuel restype formats hov hkn
        exact C132_line_partial H v (kernelCpus_ok hH).1 k kfuel hov E.world E.gone G p id regs x _ restype formats hkn line hln
    refine ⟨pc, _, p2, C137_name hH (E.world regs).regs name hk, fun hin result hi => ?_, fun hin hi => ?_⟩
    · obtain ⟨d1, d2⟩ := c1 hin result hi
      refine ⟨fun ha => ?_, fun ha => d2 (hw' ha)⟩
      obtain ⟨line, id, l1, l2⟩ := d1 (hw.2 ha)
      exact ⟨line, l1, key _ _ _ l2⟩
    · obtain ⟨d1, d2⟩ := c2 hin hi
      refine ⟨fun ha hen => ?_, fun ha => d2 (ha.imp hw' fun x => he.trans x)⟩
      obtain ⟨line, id, l1, l2⟩ := d1 (hw.2 ha) (he.trans hen)
      exact ⟨line, l1, key _ _ _ l2⟩

/-- Nothing is traced: the calls are listed, there is nothing to trace, a name in `--syscalls` is no call, or the expression is none. -/
inductive Refused (E : CmdEnv) (is : List (Str × Setting)) (prog : List Str) : Nat → Prop where
  | lists (h : isSet is "list-syscalls" = true) : Refused E is prog 0
  | nothing (h : isSet is "list-syscalls" = false) (hp : prog = []) (hn : lastSetting is "pid".toList = none) : Refused E is prog 1
  | calls (h : isSet is "list-syscalls" = false)
      (hf : onlyFilter E.tables E.space ⟨givenText is "syscalls", isSet is "filename", isSet is "socket"⟩ = none) : Refused E is prog 1
  | regex (r : Str) (h : isSet is "list-syscalls" = false) (hg : givenText is "ignore-regex" = some r) (hr : r ≠ []) (hb : E.regexOk r = false) :
      Refused E is prog 1

/-- Lines that ask for nothing that can be traced end strace.py before it makes any request, with this status; so do the help (0) and unknown switches (2).
-/
theorem C141_early {E : ProgramEnv} (hs : Tidy E.cmd.space) (K : Kern) (fuel : Nat) :
    (∀ is prog args code, CmdLine Decimal straceManual is prog args → Refused E.cmd is prog code → straceProgram E K fuel args = .early code) ∧
    ∀ is ws rest, CmdWords Decimal straceManual is ws →
      (∀ w s, Means straceManual w s → s.takes = .help → straceProgram E K fuel (ws ++ ('-' :: '-' :: w) :: rest) = .early 0) ∧
      (∀ w, w ≠ [] → (∀ s, ¬Means straceManual (w.takeWhile (· ≠ '=')) s) → straceProgram E K fuel (ws ++ ('-' :: '-' :: w) :: rest) = .early 2) ∧
      (∀ c w, c ≠ '-' → (∀ s, ¬Letter straceManual c s) → straceProgram E K fuel (ws ++ ('-' :: c :: w) :: rest) = .early 2) := by
  have key : ∀ args code, straceParse E.cmd args = .exit code → straceProgram E K fuel args = .early code := by
    intro args code h
    unfold straceProgram
    rw [h]
  have key' : ∀ args code, parseArgs E.cmd.space straceOptions args = .exit code → straceProgram E K fuel args = .early code := by
    intro args code h
    refine key args code ?_
    unfold straceParse
    rw [h]
  refine ⟨fun is prog args code h hr => key _ _ ?_, fun is ws rest h => ?_⟩
  · obtain ⟨v, hv, H⟩ := (C139_options hs (prog := prog) (is := is) (args := args)).1 h
    have hi := fits_line h
    have A := strace_agrees
    have e1 := flag_held A hi H (name := "list-syscalls") (dest := "list_syscalls") (l := none) (by decide) (by decide) (by decide)
    have e2 := flag_held A hi H (name := "filename") (dest := "filename") (l := none) (by decide) (by decide) (by decide)
    have e3 := flag_held A hi H (name := "socket") (dest := "socket") (l := none) (by decide) (by decide) (by decide)
    have e6 := text_held A hi H (name := "syscalls") (dest := "syscalls") (l := some 'e') (by decide) (by decide) (by decide)
    have e7 := text_held A hi H (name := "ignore-regex") (dest := "ignore_regex") (l := none) (by decide) (by decide) (by decide)
    cases hr with
    | lists h' => exact (C139_ends hs).1 h h'
    | nothing h' hp hn => exact (C139_ends hs).2.1 h h' hp hn
    | calls h' hf =>
      unfold straceParse
      rw [hv]
      dsimp only
      rw [if_neg (by rw [e1, h']; simp), e6, e2, e3, hf]
      simp
    | regex r h' hg hr hb =>
      unfold straceParse
      rw [hv]
      dsimp only
      rw [if_neg (by rw [e1, h']; simp), e7, hg]
      simp [hr, hb]
  · obtain ⟨h1, h2, h3⟩ := C139_stops (rest := rest) hs h
    exact ⟨fun w s a b => key' _ _ (h1 w s a b), fun w a b => key' _ _ (h2 w a b), fun c w a b => key' _ _ (h3 c w a b)⟩

/-! ## a command line -/

/-- A machine with these commands, the processes of C135 and the registers of C132. -/
def programEnv : ProgramEnv where
  cmd := cmdEnv
  regexMatch := fun r name => r.isPrefixOf name
  host := exHost false
  world := exWorld
  gone := exMemory []
  base := sampleView
  child := fun _ => 1
  listText := fun _ => "['prog']".toList
  vars := []
  text := fun _ => []
  failure := fun _ => []

/-- `-fo log --trace-exec --ignore-regex re -- prog` -/
theorem line_traced : CmdLine Decimal straceManual
    [("fork".toList, .on), ("output".toList, .text "log".toList), ("trace-exec".toList, .on), ("ignore-regex".toList, .text "re".toList)]
    ["prog".toList] ["-fo".toList, "log".toList, "--trace-exec".toList, "--ignore-regex".toList, "re".toList, "--".toList, "prog".toList] :=
  .words (is := [("fork".toList, .on), ("output".toList, .text "log".toList), ("trace-exec".toList, .on), ("ignore-regex".toList, .text "re".toList)])
    (ws := ["-fo".toList, "log".toList, "--trace-exec".toList, "--ignore-regex".toList, "re".toList])
    (.lettersThen (js := [("fork".toList, .on)]) (cs := ['f']) (c := 'o') (s := ⟨"output".toList, some 'o', .text⟩)
      (.cons (s := ⟨"fork".toList, some 'f', .nothing⟩) ⟨by decide, rfl⟩ rfl .nil) ⟨by decide, rfl⟩ (.text _)
      (.name (w := "trace-exec".toList) (s := ⟨"trace-exec".toList, none, .nothing⟩) ⟨by decide, Or.inl rfl⟩ rfl
        (.nameThen (w := "ignore-regex".toList) (s := ⟨"ignore-regex".toList, none, .text⟩) ⟨by decide, Or.inl rfl⟩ (.text _) .nil)))
    (.rest ["prog".toList])

theorem positive_traced : Positive [("fork".toList, .on), ("output".toList, .text "log".toList), ("trace-exec".toList, .on), ("ignore-regex".toList, .text "re".toList)] := by
  intro name n h
  unfold lastSetting at h
  obtain ⟨x, h1, h2⟩ := Option.map_eq_some_iff.1 h
  have := List.mem_of_find?_eq_some h1
  simp only [List.reverse_cons, List.reverse_nil, List.nil_append, List.cons_append, List.mem_cons, List.not_mem_nil, or_false] at this
  rcases this with rfl | rfl | rfl | rfl <;> cases h2

example (fuel : Nat) (hf : 1 < fuel) : ∃ (r : Except Exc (Option Nat)) (t : DSt) (first : Str) (blocks : List Block), straceProgram programEnv (teemKern fun _ => false) fuel
      ["-fo".toList, "log".toList, "--trace-exec".toList, "--ignore-regex".toList, "re".toList, "--".toList, "prog".toList] =
        .ran (some "log".toList) r ⟨t, first :: blocks.flatMap Block.lines⟩ ∧ FirstLine "/bin/prog".toList "['prog']".toList 1 true first := by
  obtain ⟨H, G, C, file, -, -, h3, -, -, h⟩ := C141_strace_partial (E := programEnv) blank_tidy line_traced (by decide)
    (.start "prog".toList [] (by decide) rfl) (by decide +kernel) (by
      intro r hr
      right
      rw [show givenText _ _ = some "re".toList from by decide] at hr
      cases hr
      decide) positive_traced conventionX86_64 namesX86_64 (by simp [kernelCpus, programEnv, exHost])
  obtain ⟨r, t, first, blocks, e1, -, e3, -⟩ := h (teemKern fun _ => false) (teem fun _ => false) (fun _ => false) fuel hf (teem_kept _ C true false true fuel)
  exact ⟨r, t, first, blocks, by rw [e1, h3.1 _ rfl (by decide)], e3 _ _ rfl⟩

/-- What strace.py printed, and where. -/
def Ended.lines : Ended → Option Str × List Str
  | .early _ => (none, [])
  | .ran f _ s => (f, s.out)

example : (straceProgram programEnv (teemKern fun _ => false) 12
    ["-fo".toList, "log".toList, "--trace-exec".toList, "--ignore-regex".toList, "re".toList, "--".toList, "prog".toList]).lines =
    (some "log".toList, ["execve(/bin/prog, ['prog'], [/* 40 vars */]) = 1".toList, "[1] close(4096)                              = 7".toList,
      "[1] munmap(4096, 0)                          = 15 (0x000000000000000f)".toList, "*** New process 24 ***".toList,
      "*** New process 36 ***".toList, "[24] shmget(0x0000000000001000, 0, 0)         = 41 (0x0000000000000029)".toList,
      "*** New process 48 ***".toList, "*** New process 60 ***".toList]) := by
  decide +kernel

example : straceProgram programEnv (teemKern fun _ => false) 3 ["--list".toList] = .early 0 :=
  (C141_early (E := programEnv) blank_tidy _ _).1 [("list-syscalls".toList, .on)] [] _ 0
    (.words (is := [("list-syscalls".toList, .on)]) (js := []) (ws := ["--list".toList]) (args := [])
      (.name (w := "list".toList) (s := ⟨"list-syscalls".toList, none, .nothing⟩) ⟨by decide, Or.inr ⟨by decide, by decide, by decide⟩⟩ rfl .nil) .nil)
    (.lists (by decide))

example : straceProgram programEnv (teemKern fun _ => false) 3 ["--ignore-regex=(".toList, "ls".toList] = .early 1 :=
  (C141_early (E := programEnv) blank_tidy _ _).1 [("ignore-regex".toList, .text ['('])] ["ls".toList] _ 1
    (.words (is := [("ignore-regex".toList, .text ['('])]) (js := []) (ws := ["--ignore-regex=(".toList]) (args := ["ls".toList])
      (.nameWith (w := "ignore-regex".toList) (v := ['(']) (s := ⟨"ignore-regex".toList, none, .text⟩) ⟨by decide, Or.inl rfl⟩ (.text _) .nil)
      (.plain (by rintro ⟨c, t, h⟩; simp at h) .nil))
    (.regex ['('] (by decide) (by decide) (by decide) (by decide))

end PT
