import Verif.Model.Status
import Verif.Spec.Status
import Verif.Lemmas.Text
import Mathlib.Data.Int.Bitwise

/-!
C22, C23, C24 — wait statuses and their text.
-/

namespace PT

theorem wTermSig_eq (s : Int) : (wTermSig s : Int) = s % 128 := by unfold wTermSig; omega
theorem wExitStatus_eq (s : Int) : (wExitStatus s : Int) = s / 256 % 256 := by unfold wExitStatus; omega

/-- C22: the status of a process that exited is decoded into its exit code. -/
theorem C22_exit (ev : Bool) (code : Nat) (h : code < 256) :
    classify ev (Spec.stExit code) = .exited code := by
  have ht : wTermSig (Spec.stExit code) = 0 := by have := wTermSig_eq (Spec.stExit code); unfold Spec.stExit at *; omega
  have hc : wExitStatus (Spec.stExit code) = code := by
    have := wExitStatus_eq (Spec.stExit code); unfold Spec.stExit at *; omega
  unfold classify wIfExited
  simp [ht, hc]

example : classify false (Spec.stExit 42) = .exited 42 := C22_exit false 42 (by decide)

/-- C22: the status of a process killed by a signal is decoded into this signal, with or without core. -/
theorem C22_killed (ev : Bool) (signum : Nat) (core : Bool) (h0 : 1 ≤ signum) (h : signum < 127) :
    classify ev (Spec.stKilled signum core) = .killed signum := by
  have ht : wTermSig (Spec.stKilled signum core) = signum := by
    have := wTermSig_eq (Spec.stKilled signum core)
    unfold Spec.stKilled at *
    cases core <;> simp at * <;> omega
  have hn : signum ≠ 0 := by omega
  have hp : 0 < signum := by omega
  unfold classify wIfExited wIfSignaled
  simp [ht, h, hn, hp]

example : classify true (Spec.stKilled 11 true) = .killed 11 := C22_killed true 11 true (by decide) (by decide)

/-- C22: a signal stop is decoded into its signal. -/
theorem C22_stopped (ev : Bool) (signum : Nat) (h : signum < 256) :
    classify ev (Spec.stStopped signum) = .signal signum := by
  have ht : wTermSig (Spec.stStopped signum) = 127 := by
    have := wTermSig_eq (Spec.stStopped signum); unfold Spec.stStopped at *; omega
  have hs : Spec.stStopped signum % 256 = 127 := by unfold Spec.stStopped; omega
  have he : wPtraceEvent (Spec.stStopped signum) = 0 := by unfold wPtraceEvent Spec.stStopped; omega
  have hc : wStopSig (Spec.stStopped signum) = signum := by
    have := wExitStatus_eq (Spec.stStopped signum); unfold wStopSig; unfold Spec.stStopped at *; omega
  unfold classify wIfExited wIfSignaled wIfStopped
  simp [ht, hs, he, hc]

example : classify true (Spec.stStopped 5) = .signal 5 := C22_stopped true 5 (by decide)

/-- C22: a ptrace event stop is decoded into its event. -/
theorem C22_event (signum event : Nat) (h : signum < 256) (he : event ≠ 0) :
    classify true (Spec.stEvent signum event) = .event event := by
  have ht : wTermSig (Spec.stEvent signum event) = 127 := by
    have := wTermSig_eq (Spec.stEvent signum event); unfold Spec.stEvent at *; omega
  have hs : Spec.stEvent signum event % 256 = 127 := by unfold Spec.stEvent; omega
  have hev : wPtraceEvent (Spec.stEvent signum event) = event := by unfold wPtraceEvent Spec.stEvent; omega
  unfold classify wIfExited wIfSignaled wIfStopped
  simp [ht, hs, hev, he]

example : classify true (Spec.stExit 42) = .exited 42 ∧ classify true (Spec.stKilled 11 true) = .killed 11 ∧
    classify true (Spec.stStopped 133) = .signal 133 ∧ classify true (Spec.stEvent 5 3) = .event 3 ∧
    classify true Spec.stContinued = .unknown ∧ classify true (-1) = .unknown := by decide

/-- C22: classification of *every* integer status, by its decomposition
`low + 128*core + 256*mid + 65536*high`: the kinds are exhaustive and exclusive, and the only
rejected statuses are those whose seven low bits are set while bit 7 is set too. -/
theorem C22_every (s : Int) (low core mid : Nat) (high : Int) (hl : low < 128) (hc : core < 2)
    (hm : mid < 256) (hs : s = low + 128 * core + 256 * mid + 65536 * high) :
    classify true s =
      if low = 0 then .exited mid
      else if low < 127 then .killed low
      else if core = 1 then .unknown
      else if high = 0 then .signal mid else .event high := by
  have ht : wTermSig s = low := by have := wTermSig_eq s; omega
  have hx : wExitStatus s = mid := by have := wExitStatus_eq s; omega
  have hev : wPtraceEvent s = high := by unfold wPtraceEvent; omega
  unfold classify wIfExited wIfSignaled wIfStopped wStopSig
  rw [ht, hx, hev]
  by_cases h0 : low = 0
  · simp [h0]
  · by_cases h1 : low < 127
    · have : 0 < low := by omega
      simp [h0, h1, this]
    · have hl : low = 127 := by omega
      have : (s % 256 = 127) ↔ core ≠ 1 := by omega
      by_cases hc1 : core = 1
      · have : ¬ s % 256 = 127 := by omega
        simp [h0, h1, hc1, this]
      · have : s % 256 = 127 := by omega
        by_cases hh : high = 0 <;> simp [h0, h1, hc1, this, hh]

-- a status that no kernel makes: stopped by nothing, with a negative high part
example : classify true (127 + 128 * 0 + 256 * 5 + 65536 * (-3)) = .event (-3) :=
  C22_every _ 127 0 5 (-3) (by decide) (by decide) (by decide) (by decide)

/-- Every integer has such a decomposition. -/
theorem C22_every_total (s : Int) : ∃ (low core mid : Nat) (high : Int), low < 128 ∧ core < 2 ∧ mid < 256 ∧
    s = low + 128 * core + 256 * mid + 65536 * high :=
  ⟨(s % 128).toNat, (s / 128 % 2).toNat, (s / 256 % 256).toNat, s / 65536, by omega, by omega, by omega,
    by omega⟩

example := C22_every_total 0x57f

/-- C22: the message of the exit event names the signal or the code, whichever it carries. -/
theorem C22_message (signames : List (Nat × Str)) (pid : Nat) :
    (∀ signum, 1 ≤ signum → processExitMessage signames pid (some signum) none =
      "Process ".toList ++ pyDec pid ++ " killed by signal ".toList ++ signalName signames signum) ∧
    (∀ code, 1 ≤ code → ∃ d, Spec.decNumber d = some code ∧ processExitMessage signames pid none (some code) =
      "Process ".toList ++ pyDec pid ++ " exited with code ".toList ++ d) ∧
    processExitMessage signames pid none (some 0) =
      "Process ".toList ++ pyDec pid ++ " exited normally".toList := by
  refine ⟨?_, ?_, ?_⟩
  · intro signum h
    have : signum ≠ 0 := by omega
    simp [processExitMessage, this]
  · intro code h
    have : code ≠ 0 := by omega
    exact ⟨pyDec code, decNumber_pyDec code, by simp [processExitMessage, this]⟩
  · simp [processExitMessage]

/-! ### C23 -/

/-- C23: a stopped process. -/
theorem C23_stopped (signames : List (Nat × Str)) (title : Str) (signum : Nat) (h : signum < 256) :
    formatProcessStatus signames (Spec.stStopped signum) title =
      title ++ " stopped by signal ".toList ++ signalName signames signum := by
  have hs : Spec.stStopped signum % 256 = 127 := by unfold Spec.stStopped; omega
  have hk : ¬ Spec.stStopped signum / 128 % 2 = 1 := by unfold Spec.stStopped; omega
  have hc : wStopSig (Spec.stStopped signum) = signum := by
    have := wExitStatus_eq (Spec.stStopped signum); unfold wStopSig; unfold Spec.stStopped at *; omega
  unfold formatProcessStatus wIfStopped wCoreDump
  rw [if_neg (by simpa using hk), if_pos (by simpa using hs), hc]

example := C23_stopped linuxSignames "Process #12".toList 19 (by decide)

/-- C23: a killed process, with `(core dumped)` exactly when it dumped core. -/
theorem C23_killed (signames : List (Nat × Str)) (title : Str) (signum : Nat) (core : Bool)
    (h0 : 1 ≤ signum) (h : signum < 127) :
    formatProcessStatus signames (Spec.stKilled signum core) title =
      title ++ " killed by signal ".toList ++ signalName signames signum ++
        if core then " (core dumped)".toList else [] := by
  have ht : wTermSig (Spec.stKilled signum core) = signum := by
    have := wTermSig_eq (Spec.stKilled signum core)
    unfold Spec.stKilled at *
    cases core <;> simp at * <;> omega
  have hs : ¬ Spec.stKilled signum core % 256 = 127 := by
    unfold Spec.stKilled; cases core <;> simp <;> omega
  have hk : Spec.stKilled signum core / 128 % 2 = 1 ↔ core = true := by
    unfold Spec.stKilled; cases core <;> simp <;> omega
  have hp : 0 < signum := by omega
  unfold formatProcessStatus wIfStopped wIfSignaled wCoreDump
  rw [ht, if_neg (c := decide (_ = (127 : Int)) = true) (by simpa using hs),
    if_pos (c := decide (0 < signum ∧ signum < 127) = true) (by simp [hp, h])]
  cases core with
  | false => rw [if_neg (by simpa using hk), if_neg (by simp), List.append_nil]
  | true => rw [if_pos (by simpa using hk), if_pos rfl]

example := C23_killed linuxSignames "Process #12".toList 9 false (by decide) (by decide)

/-- C23: an exited process: its code, or `exited normally` exactly for code 0. -/
theorem C23_exited (signames : List (Nat × Str)) (title : Str) (code : Nat) (h : code < 256) :
    formatProcessStatus signames (Spec.stExit code) title =
      if code = 0 then title ++ " exited normally".toList
      else title ++ " exited with code ".toList ++ pyDec code := by
  have ht : wTermSig (Spec.stExit code) = 0 := by have := wTermSig_eq (Spec.stExit code); unfold Spec.stExit at *; omega
  have hc : wExitStatus (Spec.stExit code) = code := by
    have := wExitStatus_eq (Spec.stExit code); unfold Spec.stExit at *; omega
  have hs : ¬ Spec.stExit code % 256 = 127 := by unfold Spec.stExit; omega
  have hk : ¬ Spec.stExit code / 128 % 2 = 1 := by unfold Spec.stExit; omega
  unfold formatProcessStatus wIfStopped wIfSignaled wCoreDump
  rw [ht, hc, if_neg (c := decide (_ = (1 : Int)) = true) (by simpa using hk),
    if_neg (c := decide (_ = (127 : Int)) = true) (by simpa using hs), if_neg (by simp)]
  by_cases h0 : code = 0
  · rw [if_neg (by simpa using h0), if_pos h0]
  · rw [if_pos h0, if_neg h0]

example := C23_exited linuxSignames "Process #12".toList 127 (by decide)

/-- C23: the number in the text of an exit code reads back as this code. -/
theorem C23_code_text (code : Nat) : Spec.decNumber (pyDec code) = some code := decNumber_pyDec code

example : formatProcessStatus linuxSignames (Spec.stKilled 11 true) "Process".toList =
      "Process killed by signal SIGSEGV (core dumped)".toList ∧
    formatProcessStatus linuxSignames (Spec.stExit 3) "Process".toList = "Process exited with code 3".toList ∧
    formatProcessStatus linuxSignames (Spec.stStopped 19) "Process".toList =
      "Process stopped by signal SIGSTOP".toList := by decide +kernel

/-! ### C24 -/

/-- The text the property asks for. -/
def childEndText (signames : List (Nat × Str)) (pid : Nat) (e : Spec.ChildEnd) : Str :=
  "Child process ".toList ++ pyDec pid ++
    match e with
    | .exited 0 => " exited normally".toList
    | .exited c => " exited with code ".toList ++ pyDec c
    | .killed s => " killed by signal ".toList ++ signalName signames s
    | .dumped s => " killed by signal ".toList ++ signalName signames s ++ " (core dumped)".toList
    | .stopped s => " stopped by signal ".toList ++ signalName signames s

/-- C24 (partial): the text is right for a child killed by a signal without core and for a child that
exited with code 0. What is missing: every other way to end, see `C24_refuted`. -/
theorem C24_killed_partial (signames : List (Nat × Str)) (pid : Nat) :
    (∀ signum, 1 ≤ signum → signum < 127 →
      childExit signames (some (pid, (Spec.ChildEnd.killed signum).siginfo)) =
        childEndText signames pid (.killed signum)) ∧
    childExit signames (some (pid, (Spec.ChildEnd.exited 0).siginfo)) =
      childEndText signames pid (.exited 0) := by
  constructor
  · intro signum h0 h
    have := C23_killed signames ("Child process ".toList ++ pyDec pid) signum false h0 h
    have hst : Spec.stKilled signum false = (signum : Int) := by simp [Spec.stKilled]
    rw [hst] at this
    rw [if_neg (by simp), List.append_nil, List.append_assoc] at this
    exact this
  · have := C23_exited signames ("Child process ".toList ++ pyDec pid) 0 (by decide)
    have hst : Spec.stExit 0 = (0 : Int) := by simp [Spec.stExit]
    rw [hst] at this
    exact this

theorem suffix_ne {t a b : Str} (x y : Char) (c : Nat) (ha : a[c]? = some x) (hb : b[c]? = some y)
    (h : x ≠ y) : t ++ a ≠ t ++ b := by
  intro e
  rw [List.append_cancel_left e, hb] at ha
  exact h (Option.some.inj ha).symm

/-- C24 is false of the code: for *every* exit code but 0 the text does not say that the child exited
with this code (code 1 is reported as "killed by signal SIGHUP"), since `si_status`, which is an exit
code or a signal number, is decoded as if it were a wait status. A core dump is never reported, and a
stopped child is reported as killed. -/
theorem C24_refuted (signames : List (Nat × Str)) (pid : Nat) :
    (∀ code, 1 ≤ code → code < 256 →
      childExit signames (some (pid, (Spec.ChildEnd.exited code).siginfo)) ≠
        childEndText signames pid (.exited code)) ∧
    (∀ signum, 1 ≤ signum → signum < 127 →
      childExit signames (some (pid, (Spec.ChildEnd.dumped signum).siginfo)) ≠
        childEndText signames pid (.dumped signum)) ∧
    (∀ signum, 1 ≤ signum → signum < 127 →
      childExit signames (some (pid, (Spec.ChildEnd.stopped signum).siginfo)) ≠
        childEndText signames pid (.stopped signum)) := by
  have hkill : ∀ signum : Nat, 1 ≤ signum → signum < 127 → ∀ si,
      childExit signames (some (pid, si, (signum : Int))) =
        "Child process ".toList ++ pyDec pid ++ (" killed by signal ".toList ++ signalName signames signum) := by
    intro signum h0 h si
    have := C23_killed signames ("Child process ".toList ++ pyDec pid) signum false h0 h
    have hst : Spec.stKilled signum false = (signum : Int) := by simp [Spec.stKilled]
    rw [hst, if_neg (by simp), List.append_nil, List.append_assoc] at this
    exact this
  refine ⟨?_, ?_, ?_⟩
  · intro code h0 h
    have hx : wExitStatus (code : Int) = 0 := by have := wExitStatus_eq (code : Int); omega
    have hw : childEndText signames pid (.exited code) =
        "Child process ".toList ++ pyDec pid ++ (" exited with code ".toList ++ pyDec code) := by
      unfold childEndText
      have : ∃ k, code = k + 1 := ⟨code - 1, by omega⟩
      obtain ⟨k, rfl⟩ := this
      rfl
    rw [hw]
    unfold childExit childExitText Spec.ChildEnd.siginfo formatProcessStatus
    simp only [Option.map_some]
    by_cases hcore : wCoreDump (code : Int) = true
    · rw [if_pos hcore]
      by_cases h1 : wIfStopped (code : Int) = true
      · rw [if_pos h1, List.append_assoc, List.append_assoc]; exact suffix_ne 's' 'e' 1 rfl rfl (by decide)
      · rw [if_neg h1]
        by_cases h2 : wIfSignaled (code : Int) = true
        · rw [if_pos h2, List.append_assoc, List.append_assoc]; exact suffix_ne 'k' 'e' 1 rfl rfl (by decide)
        · rw [if_neg h2, if_neg (by simpa using hx), List.append_assoc]
          exact suffix_ne 'n' 'w' 8 rfl rfl (by decide)
    · rw [if_neg hcore]
      by_cases h1 : wIfStopped (code : Int) = true
      · rw [if_pos h1, List.append_assoc]; exact suffix_ne 's' 'e' 1 rfl rfl (by decide)
      · rw [if_neg h1]
        by_cases h2 : wIfSignaled (code : Int) = true
        · rw [if_pos h2, List.append_assoc]; exact suffix_ne 'k' 'e' 1 rfl rfl (by decide)
        · rw [if_neg h2, if_neg (by simpa using hx)]
          exact suffix_ne 'n' 'w' 8 rfl rfl (by decide)
  · intro signum h0 h e
    unfold Spec.ChildEnd.siginfo at e
    rw [hkill signum h0 h] at e
    unfold childEndText at e
    have hl := congrArg List.length (List.append_cancel_left e)
    rw [List.length_append, List.length_append, List.length_append,
      show " (core dumped)".toList.length = 14 from rfl] at hl
    omega
  · intro signum h0 h
    unfold Spec.ChildEnd.siginfo
    rw [hkill signum h0 h]
    unfold childEndText
    exact suffix_ne 'k' 's' 1 rfl rfl (by decide)

/-- The witness of `C24_refuted`: exit code 1. -/
example : childExit linuxSignames (some (77, (Spec.ChildEnd.exited 1).siginfo)) =
    "Child process 77 killed by signal SIGHUP".toList := by decide +kernel

end PT
