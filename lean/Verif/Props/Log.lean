import Verif.Spec.Log
import Verif.Model.Log
import Verif.Lemmas.Split
import Verif.Lemmas.Proc3
import Verif.Props.Proc
import Verif.Props.ArgText
import Verif.Props.Tools
import Verif.Props.GdbCmd

/-!
# C103: errors in the log; C104: terminals, descriptors and options
-/

namespace PT
open Spec

/-! ## C103 -/

theorem linesOf_split (space : Char → Bool) (t : Str) :
    LinesOf space t ((splitOn '\n' (rstrip space t)).map (rstrip space)) := by
  refine ⟨_, _, rstripped_iff.2 rfl, pieces_iff.2 rfl, ?_⟩
  exact forall₂_map_mem _ fun _ _ => rstripped_iff.2 rfl

/-- The backtrace is logged line by line at the level that was asked for. -/
theorem C103_backtrace (space : Char → Bool) (trace : List Str) (hne : trace ≠ []) (hnone : trace.head? ≠ some "None\n".toList) (level : Int)
    (hl : level ∈ namedLevels) :
    ∃ lines, LinesOf space trace.flatten lines ∧ writeBacktrace space (some trace) level = lines.map (Record.mk level) := by
  cases trace with
  | nil => exact absurd rfl hne
  | cons first rest =>
    refine ⟨_, linesOf_split space _, ?_⟩
    have hg : getLogFunc level = level := by
      simp only [namedLevels, List.mem_cons, List.not_mem_nil, or_false] at hl
      rcases hl with rfl | rfl | rfl | rfl <;> rfl
    unfold writeBacktrace
    simp only []
    rw [if_pos (by simpa using hnone), hg, List.map_map]
    rfl

example := C103_backtrace asciiSpace ["ValueError: bad\n".toList] (by decide) (by decide) 40 (by decide)

/-- Without a backtrace one line says so. -/
theorem C103_backtrace_fails (space : Char → Bool) (trace : Option (List Str)) (h : trace = none ∨ trace = some []) (level : Int) (hl : level ∈ namedLevels) :
    writeBacktrace space trace level = [⟨level, "Unable to get backtrace".toList⟩] := by
  have hg : getLogFunc level = level := by
    simp only [namedLevels, List.mem_cons, List.not_mem_nil, or_false] at hl
    rcases hl with rfl | rfl | rfl | rfl <;> rfl
  rcases h with rfl | rfl <;> (unfold writeBacktrace; rw [hg])

example := C103_backtrace_fails asciiSpace (some []) (.inr rfl) 40 (by decide)

/-- It does not say so if there is no exception, because the first line is not the one it looks for. -/
theorem C103_none_refuted : ¬ ∀ level ∈ namedLevels, writeBacktrace asciiSpace (some noException) level = [⟨level, "Unable to get backtrace".toList⟩] := by
  intro h
  exact absurd (h 40 (by decide)) (by decide +kernel)

/-- An error is logged with its title, class and text at the level that was asked for, followed by the backtrace one level below, but not below DEBUG. -/
theorem C103_error (space : Char → Bool) (trace : List Str) (hne : trace ≠ []) (hnone : trace.head? ≠ some "None\n".toList) (e : PyError)
    (he : ¬ IsExit e.cls) (name : Str) (hn : ClassNamed e.cls name) (title : Str) (level : Int) (hl : level ∈ namedLevels) :
    ∃ lines below, writeError space (some trace) e title level =
        (.ok (), ⟨level, title ++ ": [".toList ++ name ++ "] ".toList ++ e.text⟩ :: lines.map (Record.mk below)) ∧
      LinesOf space trace.flatten lines ∧ (level ≠ 10 → below = level - 10) ∧ (level = 10 → below = 10) := by
  have hb : changeLogLevel level (-1) ∈ namedLevels ∧ (level ≠ 10 → changeLogLevel level (-1) = level - 10) ∧ (level = 10 → changeLogLevel level (-1) = 10) := by
    simp only [namedLevels, List.mem_cons, List.not_mem_nil, or_false] at hl
    rcases hl with rfl | rfl | rfl | rfl <;> decide
  obtain ⟨lines, h1, h2⟩ := C103_backtrace space trace hne hnone _ hb.1
  refine ⟨lines, _, ?_, h1, hb.2.1, hb.2.2⟩
  have hc : ¬ (e.cls = .systemExit ∨ e.cls = .keyboardInterrupt) := by
    rintro (h | h) <;> rw [h] at he
    · exact he .systemExit
    · exact he .interrupt
  have hg : getLogFunc level = level := by
    simp only [namedLevels, List.mem_cons, List.not_mem_nil, or_false] at hl
    rcases hl with rfl | rfl | rfl | rfl <;> rfl
  have e1 : ": [".toList = ": ".toList ++ ['['] := by decide
  have hname : e.cls.name = name := by
    generalize e.cls = c at hn
    cases hn <;> rfl
  unfold writeError formatError
  rw [if_neg hc, h2, hg, e1, hname]
  simp only [List.append_assoc]

example := C103_error asciiSpace ["ValueError: bad\n".toList] (by decide) (by decide) ⟨.exception "ValueError".toList, "bad".toList⟩ (fun h => by cases h)
  _ (.exception _) "Debugger error".toList 40 (by decide)

example := C103_error asciiSpace ["KeyError: 'x'\n".toList] (by decide) (by decide) ⟨.derived "KeyError".toList (.exception "LookupError".toList), "'x'".toList⟩
  (fun h => by cases h; rename_i h; cases h) "KeyError".toList (.derived _ _) "Debugger error".toList 40 (by decide)

/-- **C103, for the two classes themselves.** The exceptions that end the program are raised again and not logged. -/
theorem C103_reraise_partial (space : Char → Bool) (trace : Option (List Str)) (e : PyError) (he : e.cls = .systemExit ∨ e.cls = .keyboardInterrupt)
    (title : Str) (level : Int) : writeError space trace e title level = (.error e, []) := by
  unfold writeError
  rw [if_pos he]

example := C103_reraise_partial asciiSpace none ⟨.keyboardInterrupt, []⟩ (.inr rfl) "Debugger error".toList 40

/-- An exception of a derived class is logged and not raised again. -/
theorem C103_reraise_refuted : ¬ ∀ (e : PyError), IsExit e.cls → ∀ trace title level, (writeError asciiSpace trace e title level).1 = .error e := by
  intro h
  have := h ⟨.derived "Quit".toList .systemExit, []⟩ (.derived .systemExit) none [] 40
  exact absurd this (by decide)

/-- Other levels become ERROR: a critical error is logged as an error. -/
theorem C103_level_refuted : ¬ ∀ level : Int, ∀ e : PyError, ¬ IsExit e.cls →
    ∀ trace title, ∀ r ∈ ((writeError asciiSpace trace e title level).2).head?, r.level = level := by
  intro h
  have := h 50 ⟨.exception "E".toList, []⟩ (fun h => nomatch h) none [] ⟨40, ": [E] ".toList⟩ (by decide)
  exact absurd this (by decide)

/-- The level of the log: `--debug` shows everything, then `--verbose` all but debug, then `--quiet` errors only; without them warnings and errors are shown. -/
theorem C103_options (o : LogOptions) (records : List Record) (r : Record) (hl : r.level ∈ namedLevels) :
    r ∈ logged (setupLog o) records ↔ r ∈ records ∧
      (r.level = 40 ∨ (r.level = 30 ∧ ¬ (o.quiet = true ∧ o.verbose = false ∧ o.debug = false)) ∨
       (r.level = 20 ∧ (o.verbose = true ∨ o.debug = true)) ∨ (r.level = 10 ∧ o.debug = true)) := by
  unfold logged setupLog
  rw [List.mem_filter, decide_eq_true_iff]
  refine and_congr_right fun _ => ?_
  obtain ⟨q, v, d⟩ := o
  simp only [namedLevels, List.mem_cons, List.not_mem_nil, or_false] at hl
  cases q <;> cases v <;> cases d <;> simp [DEBUG, INFO, ERROR, WARNING] <;> omega

example := C103_options ⟨false, true, false⟩ [⟨20, "x".toList⟩] ⟨20, "x".toList⟩ (by decide)

/-- With `--quiet` only the first line of the report of an error is shown. -/
theorem C103_quiet (space : Char → Bool) (trace : List Str) (hne : trace ≠ []) (hnone : trace.head? ≠ some "None\n".toList) (e : PyError)
    (he : ¬ IsExit e.cls) (name : Str) (hn : ClassNamed e.cls name) (title : Str) :
    logged (setupLog ⟨true, false, false⟩) (writeError space (some trace) e title 40).2 =
      [⟨40, title ++ ": [".toList ++ name ++ "] ".toList ++ e.text⟩] := by
  obtain ⟨lines, below, h1, -, h2, -⟩ := C103_error space trace hne hnone e he name hn title 40 (by decide)
  have hb : below = 30 := h2 (by decide)
  rw [h1]
  unfold logged
  rw [List.filter_cons_of_pos (by simp [setupLog, ERROR]), List.filter_eq_nil_iff.2]
  intro r hr
  obtain ⟨l, -, rfl⟩ := List.mem_map.1 hr
  simp [hb, setupLog, ERROR]

example : (writeError asciiSpace (some ["Traceback (most recent call last):\n".toList, "  File \"a\"\n    f()  \n".toList, "ValueError: bad\n".toList])
    ⟨.exception "ValueError".toList, "bad".toList⟩ "Debugger error".toList 40).2 =
    [⟨40, "Debugger error: [ValueError] bad".toList⟩, ⟨30, "Traceback (most recent call last):".toList⟩, ⟨30, "  File \"a\"".toList⟩, ⟨30, "    f()".toList⟩,
     ⟨30, "ValueError: bad".toList⟩] := by decide +kernel
example : ¬ IsExit (ErrClass.derived "ChildError".toList (.exception "RuntimeError".toList)) := by
  intro h; cases h with | derived h => cases h

/-! ## C104 -/

/-- Afterwards the terminal shows what is typed; nothing else is changed, and the result tells whether this was. -/
theorem C104_echo (t : Termios) :
    ∃ changed u, enableEchoMode true t = (changed, u) ∧ BitSet 3 t.lflag u.lflag ∧ u = { t with lflag := u.lflag } ∧
      (changed = true ↔ u ≠ t) := by
  have hbit : ∀ i, (t.lflag ||| ECHO).testBit i = (decide (i = 3) || t.lflag.testBit i) := by
    intro i
    rw [Nat.testBit_or, show ECHO = 2 ^ 3 from rfl, Nat.testBit_two_pow, Bool.or_comm]
    congr 1
    simp [eq_comm]
  have hand : t.lflag &&& ECHO = 0 ↔ t.lflag.testBit 3 = false := by
    rw [show ECHO = 2 ^ 3 from rfl, Nat.and_two_pow]
    cases t.lflag.testBit 3 <;> simp
  unfold enableEchoMode
  rw [if_neg (by decide)]
  by_cases h : t.lflag &&& ECHO = 0
  · rw [if_neg (by simpa using h)]
    refine ⟨_, _, rfl, hbit, rfl, fun _ he => ?_, fun _ => rfl⟩
    have h1 := hbit 3
    rw [show t.lflag ||| ECHO = t.lflag from congrArg Termios.lflag he, hand.1 h] at h1
    exact absurd h1 (by decide)
  · rw [if_pos h]
    refine ⟨_, _, rfl, fun i => ?_, rfl, by simp⟩
    have h3 : t.lflag.testBit 3 = true := by
      cases hb : t.lflag.testBit 3 with
      | true => rfl
      | false => exact absurd (hand.2 hb) h
    by_cases hi : i = 3
    · subst hi; simp [h3]
    · simp [hi]

/-- What is no terminal is left alone. -/
theorem C104_no_terminal (t : Termios) : enableEchoMode false t = (false, t) := rfl

/-- At its end gdb says so if it changed the mode of the terminal. -/
theorem C104_restore (isatty : Bool) (t : Termios) :
    (restoreTerminal isatty t).2 = (enableEchoMode isatty t).2 ∧
    ((restoreTerminal isatty t).2 ≠ t → (restoreTerminal isatty t).1 = ["Terminal: restore echo mode".toList]) ∧
    ((restoreTerminal isatty t).2 = t → (restoreTerminal isatty t).1 = []) := by
  refine ⟨rfl, ?_⟩
  cases isatty with
  | false => exact ⟨fun h => absurd rfl h, fun _ => rfl⟩
  | true =>
    obtain ⟨c, u, h1, -, -, h2⟩ := C104_echo t
    unfold restoreTerminal
    simp only [h1]
    refine ⟨fun h => by rw [h2.2 h]; rfl, fun h => ?_⟩
    cases c with
    | false => rfl
    | true => exact absurd h (h2.1 rfl)

/-- **C104, for fewer than 32768 rows and columns.** The size of the terminal, from `struct winsize` (rows, then columns, 16 bits each in the order of the
machine). -/
theorem C104_width_partial (a : Arch) (rows columns : Nat) (hr : rows < 32768) (hc : columns < 32768) (size : Bytes) (hs : size.length = 4)
    (h1 : readNativeUint a (size.take 2) = rows) (h2 : readNativeUint a (size.drop 2) = columns) :
    terminalSize a size = ((columns : Int), (rows : Int)) ∧ terminalWidth a size = columns := by
  have key : terminalSize a size = ((columns : Int), (rows : Int)) := by
    unfold terminalSize
    rw [show (size.drop 2).take 2 = size.drop 2 from List.take_of_length_le (by simp; omega)]
    unfold readNativeInt
    have hl : (size.drop 2).length = 2 := by simp; omega
    have hl' : (size.take 2).length = 2 := by simp; omega
    simp only [h1, h2, hl, hl']
    rw [if_neg (by omega), if_neg (by omega)]
  exact ⟨key, by unfold terminalWidth; rw [key]⟩

example := C104_width_partial ⟨true, false⟩ 24 80 (by decide) (by decide) [24, 0, 80, 0] rfl (by decide) (by decide)

/-- More columns are a negative number. -/
theorem C104_width_refuted : ∃ size : Bytes, size.length = 4 ∧ leValue (size.drop 2) = 40000 ∧ terminalWidth ⟨true, false⟩ size = -25536 :=
  ⟨[24, 0, 64, 156], rfl, by decide, by decide⟩

/-- The descriptor is closed on `exec`; its other flags stay. -/
theorem C104_cloexec (old : Nat) : BitSet 0 old (setCloexec old) := by
  intro i
  unfold setCloexec
  rw [Nat.testBit_or, show (1 : Nat) = 2 ^ 0 from rfl, Nat.testBit_two_pow, Bool.or_comm]
  congr 1
  simp [eq_comm]

/-- The options of the command line are the options of the debugger: each wanted bit is set, no other bit changes, and nothing but the options does. -/
theorem C104_options (o : TraceOptions) (s : DSt) :
    ∃ t, setupDebugger true o s = (none, [], t) ∧
      (∀ i, t.options.testBit i = (s.options.testBit i || decide ((i, true) ∈ wantedBits o))) ∧
      t.traceFork = (s.traceFork || o.fork) ∧ t.traceExec = (s.traceExec || o.exec) ∧ t.traceClone = (s.traceClone || o.clone) ∧
      t.heap = s.heap ∧ t.dict = s.dict ∧ t.list = s.list ∧ t.log = s.log ∧ t.useSysgood = s.useSysgood := by
  obtain ⟨f, e, c⟩ := o
  have hb : ∀ i k : Nat, (2 ^ k).testBit i = decide (k = i) := fun i k => Nat.testBit_two_pow
  have h2 : ∀ i, Nat.testBit 2 i = decide (1 = i) := fun i => hb i 1
  have h4 : ∀ i, Nat.testBit 4 i = decide (2 = i) := fun i => hb i 2
  have h8 : ∀ i, Nat.testBit 8 i = decide (3 = i) := fun i => hb i 3
  have h16 : ∀ i, Nat.testBit 16 i = decide (4 = i) := fun i => hb i 4
  cases f <;> cases e <;> cases c <;>
    (refine ⟨_, rfl, fun i => ?_, by simp [traceFork, traceExec, traceClone], by simp [traceFork, traceExec, traceClone],
      by simp [traceFork, traceExec, traceClone], rfl, rfl, rfl, rfl, rfl⟩
     rw [Bool.eq_iff_iff]
     simp only [traceFork, traceExec, traceClone, PTRACE_O_TRACEFORK, PTRACE_O_TRACEVFORK, PTRACE_O_TRACECLONE, PTRACE_O_TRACEEXEC, wantedBits,
       if_true, Bool.false_eq_true, if_false, and_true, Nat.testBit_or, h2, h4, h8, h16, Bool.or_eq_true, decide_eq_true_iff, List.mem_cons,
       Prod.mk.injEq, List.not_mem_nil, or_false, and_false, reduceCtorEq, eq_comm (a := i)]
     try tauto)

/-- Without events in the system `--fork` ends the program with a message, and the other options are ignored. -/
theorem C104_no_events (o : TraceOptions) (s : DSt) :
    (o.fork = true → ∃ line, setupDebugger false o s = (some 1, [line], s)) ∧ (o.fork = false → setupDebugger false o s = (none, [], s)) := by
  obtain ⟨f, e, c⟩ := o
  refine ⟨?_, ?_⟩ <;> rintro rfl
  · exact ⟨_, rfl⟩
  · cases e <;> cases c <;> rfl

/-- The program is located (C60), and its arguments are not changed. -/
theorem C104_program (cwd : Str) (path : Option Str) (access : Str → Bool) (program : Str) (arguments : List Str) :
    processOptions cwd path access [] = [] ∧
    processOptions cwd path access (program :: arguments) = locateProgram cwd path access program :: arguments := ⟨rfl, rfl⟩

/-- **C104, for functions that return.** The profiler returns what the function returns, and leaves no file. -/
theorem C104_profiler_partial {α : Type} (r : α) (there : Bool) : runProfiler (.ok r) there = (.ok r, false) := rfl

/-- If the function raises, another exception takes the place of its exception. -/
theorem C104_profiler_refuted : ¬ ∀ e : PyError, (runProfiler (α := Nat) (.error e) false).1 = .error (.own e) := by
  intro h
  exact absurd (h ⟨.keyboardInterrupt, []⟩) (by decide)

example : enableEchoMode true ⟨0, 0, 0, 0x8a33, 0, 0, []⟩ = (true, ⟨0, 0, 0, 0x8a3b, 0, 0, []⟩) := by decide
example : readNativeUint ⟨true, false⟩ (([24, 0, 80, 0] : Bytes).drop 2) = 80 := by decide

end PT
