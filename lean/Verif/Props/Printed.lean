import Verif.Model.StraceMain
import Verif.Spec.Printed
import Verif.Props.Lines
import Verif.Props.Follow

/-! Property theorems C130: what strace.py prints for a program of one process, from start to end. -/

namespace PT
open PT.Spec

section
variable {K : Kern} {pid : Nat} {stops : List (StatusKind × Nat)} {events : Bool} {cs : List Call} {ss : SysState} {s : DSt} {C : StraceCfg}
  {F : LineView}

/-! ## the output does not matter -/

theorem createProcessOut_prints (fuel : Nat) (T : MainTexts) (pid : Nat) (attached : Bool) :
    Echoes (createProcessOut K fuel T pid attached) (createProcess K fuel pid attached) := by
  refine Echoes.say (fun _ => firstLine T pid attached) ?_
  intro d
  unfold createProcess inside
  dsimp only
  rcases addProcess K (waitEventPid K fuel) pid attached none false d.inner with ⟨r, t⟩
  cases r with
  | ok o => exact ⟨rfl, rfl⟩
  | error e =>
    cases e with
    | event ev => cases ev <;> exact ⟨rfl, rfl⟩
    | _ => exact ⟨rfl, rfl⟩

theorem straceExceptOut_prints (C : StraceCfg) (F : LineView) (T : MainTexts) (e : Exc) :
    Echoes (straceExceptOut K C F T e) (straceExcept K C e) := by
  cases e with
  | event ev =>
    cases ev with
    | exit o a b => exact (processExitedOut_prints C F o a b).bind fun _ => Echoes.pure _
    | _ => exact (sayAll_prints _).bind (g := fun _ => Py.pure (some 1)) fun _ => Echoes.pure _
  | diverge => exact Echoes.raise _
  | ptrace errno => exact fun d => ⟨rfl, rfl⟩
  | interrupt => exact fun d => ⟨rfl, rfl⟩
  | _ => exact (sayAll_prints _).bind (g := fun _ => Py.pure (some 1)) fun _ => Echoes.pure _

/-- **C130** Printing changes nothing else: with the output removed this is the run of C39 to C41 and C125. -/
theorem C130_same (K : Kern) (fuel : Nat) (C : StraceCfg) (F : LineView) (T : MainTexts) (pid : Nat) (attached : Bool) (d : Con DSt) :
    (straceMainOut K fuel C F T pid attached d).1 = (straceMain K fuel C pid attached d.inner).1 ∧
    (straceMainOut K fuel C F T pid attached d).2.inner = (straceMain K fuel C pid attached d.inner).2 := by
  have hr : Echoes (straceRunOut K fuel C F T pid attached) (straceRun K fuel C pid attached) := by
    refine (createProcessOut_prints fuel T pid attached).bind fun o => ?_
    cases o with
    | none => exact Echoes.pure _
    | some o => exact Echoes.bind (fun d => C107_same fuel C F o d) fun _ => Echoes.pure _
  obtain ⟨h1, h2⟩ := hr d
  unfold straceMainOut straceMain
  rcases hm : straceRunOut K fuel C F T pid attached d with ⟨r, e⟩
  rcases hn : straceRun K fuel C pid attached d.inner with ⟨r', t⟩
  rw [hm, hn] at h1 h2
  dsimp only at h1 h2
  subst h1 h2
  dsimp only
  refine Echoes.bind ?_ (fun _ => (Echoes.inside _).bind fun _ => Echoes.pure _) e
  cases r with
  | ok code => exact Echoes.pure _
  | error x => exact straceExceptOut_prints C F T x

/-! ## one stop -/

theorem turn_out {fuel code code' : Nat} {t : DSt} (out : List Str)
    (hr : ∀ ev, (waitSyscall K fuel none s).1 = .ok ev → ev.proc < (waitSyscall K fuel none s).2.next)
    (e : straceTurn K fuel C code s = (.ok code', t)) :
    ∃ lines, straceTurnOut K fuel C F code ⟨s, out⟩ = (.ok code', ⟨t, out ++ lines⟩) ∧
      TurnLines K C F (waitSyscall K fuel none s).2 (waitSyscall K fuel none s).1 lines := by
  obtain ⟨h1, h2⟩ := straceHandleOut_prints (K := K) fuel C F (waitSyscall K fuel none s).1 code ⟨(waitSyscall K fuel none s).2, out⟩
  unfold straceTurn at e
  rw [e] at h1 h2
  rcases hm : straceHandleOut K fuel C F (waitSyscall K fuel none s).1 code ⟨(waitSyscall K fuel none s).2, out⟩ with ⟨r, ⟨t', out'⟩⟩
  rw [hm] at h1 h2
  dsimp only at h1 h2
  subst h1 h2
  obtain ⟨lines, hl, ht⟩ := C107_turn hr hm
  dsimp only at hl
  subst hl
  exact ⟨lines, hm, ht⟩

theorem turn_loop_out (h : Here events pid s cs ss) {fuel code code' : Nat} {out : List Str} {d : Con DSt}
    (e : straceTurnOut K fuel C F code ⟨s, out⟩ = (.ok code', d)) (n : Nat) :
    straceLoopOut K fuel C F (n + 1) code ⟨s, out⟩ = straceLoopOut K fuel C F n code' d := by
  show (if length s = 0 then _ else _) = _
  rw [if_neg (by unfold length; rw [h.list]; simp), Py.run_bind_ok e]

/-- A stop in a call. -/
theorem wait_call (hp : pid ≠ 0) (hK : Follows K pid stops) (h : Here events pid s cs ss) {regs : Nat}
    (hs : stops[goesOf cs]? = some (.signal 133, regs)) (fuel : Nat) :
    ∃ v, waitSyscall K (fuel + 1) none s = (.ok (.signal 0 133), v) ∧ Here events pid v (cs ++ [await pid]) ss ∧
      ∃ st, K v.log (.inspect 0 (v.heap 0).pid) = .ok regs st := by
  obtain ⟨v, e1, h1⟩ := h.waitSignal hp hK hs fuel
  have w : waitSyscall K (fuel + 1) none s = (.ok (.signal 0 133), v) := h.waitSyscall e1
  refine ⟨v, w, h1, ?_⟩
  rw [h1.pid]
  exact hK.look v.log _ regs 0 (by rw [h1.goes]; simpa using hs)

/-- A turn that starts or ends a call, with its lines. -/
theorem call_out (hp : pid ≠ 0) (hK : Follows K pid stops) (h : Here events pid s cs ss) {regs : Nat}
    (hs : stops[goesOf cs]? = some (.signal 133, regs)) {fuel code code' : Nat} {t : DSt} (out : List Str)
    (e : straceTurn K (fuel + 1) C code s = (.ok code', t)) :
    ∃ v lines, straceTurnOut K (fuel + 1) C F code ⟨s, out⟩ = (.ok code', ⟨t, out ++ lines⟩) ∧ Here events pid v (cs ++ [await pid]) ss ∧
      (∃ st, K v.log (.inspect 0 (v.heap 0).pid) = .ok regs st) ∧ TurnLines K C F v (.ok (.signal 0 133)) lines := by
  obtain ⟨v, w, hv, hk⟩ := wait_call hp hK h hs fuel
  obtain ⟨lines, h1, h2⟩ := turn_out (F := F) out (fun ev he => by
    rw [w] at he ⊢
    injection he with he
    subst he
    exact hv.next) e
  rw [w] at h2
  exact ⟨v, lines, h1, hv, hk, h2⟩

theorem start_lines {v : DSt} {regs : Nat} {lines : List Str} (hv : Here events pid v (cs ++ [await pid]) ss) (ho : Outside ss)
    (hk : ∃ st, K v.log (.inspect 0 (v.heap 0).pid) = .ok regs st) (h : TurnLines K C F v (.ok (.signal 0 133)) lines) :
    StartLines F C.view pid cs regs lines := by
  have hlen : v.log.length = cs.length + 1 := by simpa using congrArg List.length hv.log
  change if _ then _ else _ at h
  rw [if_neg (by show ¬(v.heap 0).ss.nextExit = true; rw [hv.ss, ho.1]; simp)] at h
  dsimp only [Event.proc] at h
  obtain ⟨regs', ⟨st', hk'⟩, h1, h2⟩ := h
  obtain ⟨st, hk⟩ := hk
  rw [hk] at hk'
  injection hk' with hr
  subst hr
  unfold StartLines
  rw [hv.ss, ho.2] at h1 h2
  cases hsh : C.view.shown regs with
  | false =>
    have hi : C.sys.ignore (C.sys.name regs) = true := by simpa [StraceCfg.view] using hsh
    exact h1 (Or.inr ⟨rfl, hi⟩)
  | true =>
    have hi : C.sys.ignore (C.sys.name regs) = false := by simpa [StraceCfg.view] using hsh
    show if C.enter = true then _ else _
    cases he : C.enter with
    | false => exact h1 (Or.inl he)
    | true =>
      rw [if_pos rfl, ← hlen, ← hv.pid]
      exact h2 he (Or.inr hi)

theorem end_lines {v : DSt} {regs result : Nat} {before cs' : List Call} {lines : List Str} (hv : Here events pid v cs' ss) (hin : InCall C regs ss)
    (hsame : ∀ c, ss.syscall = some c → c = ⟨before.length + 1, regs, none⟩)
    (hk : ∃ st, K v.log (.inspect 0 (v.heap 0).pid) = .ok result st) (h : TurnLines K C F v (.ok (.signal 0 133)) lines) :
    EndLines F C.view pid before regs result lines := by
  change if _ then _ else _ at h
  rw [if_pos (by show (v.heap 0).ss.nextExit = true; rw [hv.ss, hin.exit])] at h
  dsimp only [Event.proc] at h
  rw [hv.ss] at h
  unfold EndLines
  cases hsh : C.view.shown regs with
  | false => rw [hin.hidden hsh] at h; exact h
  | true =>
    obtain ⟨c, hc, _⟩ := hin.shown hsh
    rw [hc] at h
    obtain ⟨x, line, ⟨st', hk'⟩, hl, hline⟩ := h
    obtain ⟨st, hk⟩ := hk
    rw [hk] at hk'
    injection hk' with hr
    subst hr
    rw [hsame c hc, hv.pid] at hline
    rw [if_pos rfl]
    exact ⟨line, hl, hline⟩

/-! ## a deed, an end, a program -/

theorem deed_out (hp : pid ≠ 0) (hK : Follows K pid stops) (h : Here events pid s cs ss) (ho : Outside ss) (d : Deed) (hd : PlainDeed C events d)
    (hs : ∀ i x, (d.stops events)[i]? = some x → stops[goesOf cs + i]? = some x) (fuel code : Nat) (out : List Str) :
    ∃ k t ss' lines, k ≤ (d.stops events).length ∧ (∀ n, straceLoopOut K (fuel + 1) C F (n + k) code ⟨s, out⟩ =
        straceLoopOut K (fuel + 1) C F n (codeAfter code d) ⟨t, out ++ lines⟩) ∧
      Here events pid t (cs ++ d.requests C.view pid events) ss' ∧ Outside ss' ∧ DeedLines F C.view pid events cs d lines := by
  cases d with
  | call regs result =>
    have hs0 := hs 0 _ rfl
    obtain ⟨s1, ss1, e1, h1, i1, same⟩ := turn_start (C := C) hp hK h ho hs0 fuel code
    have hs1 : stops[goesOf (cs ++ atStart C.view pid regs)]? = some (.signal 133, result) := by rw [goesOf_append, goesOf_start]; exact hs 1 _ rfl
    obtain ⟨s2, ss2, e2, h2, i2⟩ := turn_end hp hK h1 i1 hd hs1 fuel code
    obtain ⟨v1, l1, p1, hv1, k1, t1⟩ := call_out (F := F) hp hK h hs0 out e1
    obtain ⟨v2, l2, p2, hv2, k2, t2⟩ := call_out (F := F) hp hK h1 hs1 (out ++ l1) e2
    refine ⟨2, s2, ss2, l1 ++ l2, Nat.le_refl _, fun n => ?_, ?_, i2, l1, l2, rfl, start_lines hv1 ho k1 t1, end_lines hv2 i1 same k2 t2⟩
    · rw [turn_loop_out h p1 (n + 1), turn_loop_out h1 p2 n, List.append_assoc]; rfl
    · simpa [Deed.requests] using h2
  | exec regs result =>
    cases events with
    | true =>
      have hs0 := hs 0 _ rfl
      obtain ⟨s1, ss1, e1, h1, i1, same⟩ := turn_start (C := C) hp hK h ho hs0 fuel code
      have hs1 : stops[goesOf (cs ++ atStart C.view pid regs)]? = some (.event 4, regs) := by rw [goesOf_append, goesOf_start]; exact hs 1 _ rfl
      obtain ⟨s2, e2, h2⟩ := turn_event (C := C) hp hK h1 hs1 fuel code
      have hs2 : stops[goesOf (cs ++ atStart C.view pid regs ++ [await pid, go pid 0])]? = some (.signal 133, result) := by
        rw [goesOf_append, goesOf_append, goesOf_start]; exact hs 2 _ rfl
      obtain ⟨s3, ss3, e3, h3, i3⟩ := turn_end hp hK h2 i1 (fun _ => rfl) hs2 fuel code
      obtain ⟨v1, l1, p1, hv1, k1, t1⟩ := call_out (F := F) hp hK h hs0 out e1
      obtain ⟨v2, w2, hv2⟩ := h1.waitExec hp hK hs1 fuel
      have w2' : waitSyscall K (fuel + 1) none s1 = (.error (.event (.execution 0)), v2) := h1.waitSyscall w2
      obtain ⟨l2, p2, t2⟩ := turn_out (F := F) (out ++ l1) (fun ev he => by rw [w2'] at he; cases he) e2
      obtain ⟨v3, l3, p3, hv3, k3, t3⟩ := call_out (F := F) hp hK h2 hs2 (out ++ l1 ++ l2) e3
      rw [w2'] at t2
      refine ⟨3, s3, ss3, l1 ++ l2 ++ l3, Nat.le_refl _, fun n => ?_, ?_, i3, l1, l2, l3, rfl, start_lines hv1 ho k1 t1, ?_,
        end_lines hv3 i1 same k3 t3⟩
      · rw [turn_loop_out h p1 (n + 2), turn_loop_out h1 p2 (n + 1), turn_loop_out h2 p3 n]
        simp only [List.append_assoc]
        rfl
      · simpa [Deed.requests] using h3
      · obtain ⟨num, hn, hl⟩ := t2
        rw [hv2.pid] at hn
        exact ⟨num, hn, hl⟩
    | false =>
      have hs0 := hs 0 _ rfl
      obtain ⟨s1, ss1, e1, h1, i1, same⟩ := turn_start (C := C) hp hK h ho hs0 fuel code
      have hs1 : stops[goesOf (cs ++ atStart C.view pid regs)]? = some (.signal 133, result) := by rw [goesOf_append, goesOf_start]; exact hs 1 _ rfl
      obtain ⟨s2, ss2, e2, h2, i2⟩ := turn_exec hp hK h1 i1 hd hs1 (v := result) (by rw [goesOf_append, goesOf_start]; exact hs 2 _ rfl) fuel code
      obtain ⟨v1, l1, p1, hv1, k1, t1⟩ := call_out (F := F) hp hK h hs0 out e1
      obtain ⟨v2, l2, p2, hv2, k2, t2⟩ := call_out (F := F) hp hK h1 hs1 (out ++ l1) e2
      refine ⟨2, s2, ss2, l1 ++ l2, by simp [Deed.stops], fun n => ?_, ?_, i2, l1, [], l2, by simp, start_lines hv1 ho k1 t1, rfl,
        end_lines hv2 i1 same k2 t2⟩
      · rw [turn_loop_out h p1 (n + 1), turn_loop_out h1 p2 n, List.append_assoc]; rfl
      · simpa [Deed.requests] using h2
  | signal m regs =>
    have hs0 := hs 0 _ rfl
    obtain ⟨s1, e1, h1⟩ := turn_signal (C := C) hp hK h (n := m) (v := regs) hd hs0 fuel code
    obtain ⟨v, w, hv⟩ := h.waitSignal hp hK hs0 fuel
    have w' : waitSyscall K (fuel + 1) none s = (.error (.event (.signal 0 m)), v) := by
      rw [h.waitSyscall w]
      unfold filterEvent
      dsimp only
      rw [if_neg (by have : m ≠ 133 := hd; simp [this])]
      rfl
    obtain ⟨l, p, t⟩ := turn_out (F := F) out (fun ev he => by rw [w'] at he; cases he) e1
    rw [w'] at t
    exact ⟨1, s1, ss, l, Nat.le_refl _, fun n => by rw [turn_loop_out h p n]; rfl, h1, ho, v, hv.pid, hv.log, t⟩

/-- The turn in which the process ends. -/
theorem exit_out (hp : pid ≠ 0) (hK : Follows K pid stops) (h : Here events pid s cs ss) {kind : StatusKind} {code code' : Nat}
    (hk : (∃ c, kind = .exited c ∧ code' = c) ∨ ∃ n, kind = .killed n ∧ code' = code) (hs : stops[goesOf cs]? = some (kind, 0)) (fuel : Nat)
    (out : List Str) :
    ∃ t cut last, straceTurnOut K (fuel + 1) C F code ⟨s, out⟩ = (.ok code', ⟨t, out ++ (cut ++ [last])⟩) ∧ t.list = [] ∧
      (∀ c, kind = .exited c → EndText F.signames pid none (some c) last) ∧ (∀ n, kind = .killed n → EndText F.signames pid (some n) none last) ∧
      (∀ c, C.enter = false → ss.nextExit = true → ss.syscall = some c → ∃ line, cut = [line] ∧ CallLine F pid c line) ∧
      (C.enter = true ∨ ss.nextExit = false ∨ ss.syscall = none → cut = []) := by
  have key : ∃ a b, ((∃ c, kind = .exited c ∧ a = none ∧ b = some c) ∨ ∃ n, kind = .killed n ∧ a = some n ∧ b = none) := by
    rcases hk with ⟨c, rfl, rfl⟩ | ⟨n, rfl, rfl⟩
    · exact ⟨none, some code', Or.inl ⟨code', rfl, rfl, rfl⟩⟩
    · exact ⟨some n, none, Or.inr ⟨n, rfl, rfl, rfl⟩⟩
  obtain ⟨a, b, hab⟩ := key
  obtain ⟨t, e1, hl, _⟩ := turn_exit (C := C) hp hK h code hk hs fuel
  obtain ⟨v, w, _, hss, hpid, _⟩ := h.waitEnd hp hK hab hs fuel
  have w' : waitSyscall K (fuel + 1) none s = (.error (.event (.exit 0 a b)), v) := h.waitSyscall w
  obtain ⟨l, p, tl⟩ := turn_out (F := F) out (fun ev he => by rw [w'] at he; cases he) e1
  rw [w'] at tl
  obtain ⟨cut, last, hcut, hend, h1, h2⟩ := tl
  rw [hpid] at hend h1
  rw [hss] at h1 h2
  subst hcut
  refine ⟨t, cut, last, p, hl, ?_, ?_, h1, h2⟩
  · rintro c rfl
    rcases hab with ⟨c', hc, rfl, rfl⟩ | ⟨n, hc, _, _⟩
    · injection hc with hc; subst hc; exact hend
    · cases hc
  · rintro n rfl
    rcases hab with ⟨c', hc, _, _⟩ | ⟨n', hc, rfl, rfl⟩
    · cases hc
    · injection hc with hc; subst hc; exact hend

theorem end_out (hp : pid ≠ 0) (hK : Follows K pid stops) (h : Here events pid s cs ss) (ho : Outside ss) (e : Ending) {code code' : Nat}
    (hk : (∃ c, e.kind = .exited c ∧ code' = c) ∨ ∃ n, e.kind = .killed n ∧ code' = code)
    (hs : ∀ i x, e.stops[i]? = some x → stops[goesOf cs + i]? = some x) (fuel : Nat) (out : List Str) :
    ∃ k t lines, k ≤ e.stops.length ∧ (∀ n, straceLoopOut K (fuel + 1) C F (n + 1 + k) code ⟨s, out⟩ = (.ok code', ⟨t, out ++ lines⟩)) ∧ t.list = [] ∧
      EndingLines F C.view pid cs e lines := by
  have last : ∀ {t : DSt} (o : List Str) (n : Nat), t.list = [] → straceLoopOut K (fuel + 1) C F (n + 1) code' ⟨t, o⟩ = (.ok code', ⟨t, o⟩) := by
    intro t o n ht
    show (if length t = 0 then _ else _) = _
    rw [if_pos (by unfold length; rw [ht]; rfl)]
  obtain ⟨inside, kind⟩ := e
  cases inside with
  | none =>
    obtain ⟨t, cut, end', p, hl, ha, hb, _, hd⟩ := exit_out (C := C) (F := F) hp hK h hk (hs 0 _ rfl) fuel out
    refine ⟨1, t, cut ++ [end'], Nat.le_refl _, fun n => ?_, hl, cut, end', rfl, hd (Or.inr (Or.inl ho.1)), ha, hb⟩
    rw [turn_loop_out h p (n + 1), last _ n hl]
  | some regs =>
    have hs0 := hs 0 _ rfl
    obtain ⟨s1, ss1, e1, h1, i1, same⟩ := turn_start (C := C) hp hK h ho hs0 fuel code
    obtain ⟨v1, l1, p1, hv1, k1, t1⟩ := call_out (F := F) hp hK h hs0 out e1
    obtain ⟨t, cut, end', p, hl, ha, hb, hc, hd⟩ := exit_out (C := C) (F := F) hp hK h1 hk (by
      rw [goesOf_append, goesOf_start]; exact hs 1 _ rfl) fuel (out ++ l1)
    have st := start_lines hv1 ho k1 t1
    refine ⟨2, t, l1 ++ (cut ++ [end']), Nat.le_refl _, fun n => ?_, hl, l1 ++ cut, end', by rw [List.append_assoc], ?_, ha, hb⟩
    · rw [turn_loop_out h p1 (n + 1 + 1), turn_loop_out h1 p (n + 1), last _ n hl, List.append_assoc]
    · dsimp only
      unfold StartLines at st
      change if C.view.shown regs && C.enter then _ else _ at st
      cases hsh : C.view.shown regs with
      | false =>
        rw [hsh] at st
        rw [hd (Or.inr (Or.inr (i1.hidden hsh))), List.append_nil]
        exact st
      | true =>
        rw [hsh] at st
        rw [if_pos rfl]
        cases he : C.enter with
        | true =>
          rw [he] at st
          rw [hd (Or.inl he), List.append_nil]
          exact st
        | false =>
          rw [he] at st
          have st' : l1 = [] := st
          obtain ⟨c, hcc, _⟩ := i1.shown hsh
          obtain ⟨line, hcut, hline⟩ := hc c he i1.exit hcc
          rw [same c hcc] at hline
          rw [st', hcut]
          exact ⟨line, rfl, hline⟩

theorem program_out (hp : pid ≠ 0) (hK : Follows K pid stops) (e : Ending) (fuel : Nat) :
    ∀ (deeds : List Deed) {s : DSt} {cs : List Call} {ss : SysState} {code code' : Nat} (out : List Str), Here events pid s cs ss → Outside ss →
      (∀ d ∈ deeds, PlainDeed C events d) →
      ((∃ c, e.kind = .exited c ∧ code' = c) ∨ ∃ n, e.kind = .killed n ∧ code' = deeds.foldl codeAfter code) →
      (∀ i x, (deeds.flatMap (Deed.stops events) ++ e.stops)[i]? = some x → stops[goesOf cs + i]? = some x) →
      ∃ t lines, (∀ n, (deeds.flatMap (Deed.stops events) ++ e.stops).length < n →
          straceLoopOut K (fuel + 1) C F n code ⟨s, out⟩ = (.ok code', ⟨t, out ++ lines⟩)) ∧ t.list = [] ∧
        ProgramLines F C.view pid events cs deeds e lines
  | [], s, cs, ss, code, code', out, h, ho, _, hk, hs => by
    obtain ⟨k, t, lines, hkl, hrun, hl, hlines⟩ := end_out (C := C) (F := F) hp hK h ho e hk hs fuel out
    refine ⟨t, lines, fun n hn => ?_, hl, hlines⟩
    have hn' : e.stops.length < n := hn
    have := hrun (n - 1 - k)
    rwa [show n - 1 - k + 1 + k = n by omega] at this
  | d :: ds, s, cs, ss, code, code', out, h, ho, hd, hk, hs => by
    obtain ⟨k, s1, ss1, l1, hkl, hrun, h1, o1, hl1⟩ := deed_out (C := C) (F := F) hp hK h ho d (hd d (by simp)) (fun i x hx => hs i x (by
      have hi : i < (d.stops events).length := by
        rcases Nat.lt_or_ge i (d.stops events).length with hc | hc
        · exact hc
        · rw [List.getElem?_eq_none hc] at hx
          cases hx
      rw [List.flatMap_cons, List.append_assoc, List.getElem?_append_left hi]
      exact hx)) fuel code out
    obtain ⟨t, l2, hrun2, hl, hl2⟩ := program_out hp hK e fuel ds (code := codeAfter code d) (code' := code') (out ++ l1) h1 o1
      (fun x hx => hd x (by simp [hx])) hk (fun i x hx => by
        rw [goesOf_append, goesOf_deed, Nat.add_assoc]
        refine hs _ x ?_
        rw [List.flatMap_cons, List.append_assoc, List.getElem?_append_right (by omega), Nat.add_sub_cancel_left]
        exact hx)
    refine ⟨t, l1 ++ l2, fun n hn => ?_, hl, l1, l2, rfl, hl1, hl2⟩
    rw [List.flatMap_cons, List.append_assoc, List.length_append] at hn
    have := hrun (n - k)
    rw [show n - k + k = n by omega] at this
    rw [this, ← List.append_assoc]
    exact hrun2 (n - k) (by omega)

theorem firstLine_text (T : MainTexts) (pid : Nat) (attached : Bool) : FirstLine T.program0 T.args pid attached (firstLine T pid attached) := by
  unfold FirstLine firstLine
  cases attached with
  | true =>
    refine ⟨List.replicate 40 [], by simp, "40".toList, pyDec pid, by rw [List.length_replicate]; decide, decNumber_pyDec pid, ?_⟩
    exact createChildLine_eq T.program0 T.args T.vars pid
  | false => exact ⟨pyDec pid, decNumber_pyDec pid, rfl⟩

end

/-! ## the theorem -/

/-- **C130** (as C125: the stops are those of `ptrace(2)`, one process, the deeds are plain). For every program, every ending, every choice of
options and every kernel that lets the program run, strace.py prints the line about the process, then for each deed in turn exactly its lines, and
at the end how the process ended. Each call that is shown has one line with the registers it was made with and the result it had (and one at its
start with `--enter`), each call that is not shown has none. -/
theorem C130_run_partial (K : Kern) (C : StraceCfg) (F : LineView) (T : MainTexts) (pid : Nat) (hp : pid ≠ 0) (events attached : Bool)
    (deeds : List Deed) (e : Ending) (hd : ∀ d ∈ deeds, PlainDeed C events d) (he : (∃ c, e.kind = .exited c) ∨ ∃ n, e.kind = .killed n)
    (n v : Nat) (hn : n = 5 ∨ n = 19) (hK : Follows K pid (allStops events (.signal n, v) deeds e)) (fuel : Nat)
    (hf : (allStops events (.signal n, v) deeds e).length ≤ fuel) (out : List Str) :
    ∃ t first lines, straceMainOut K fuel C F T pid attached ⟨startState events, out⟩ = (.ok (some (exitCode deeds e)), ⟨t, out ++ first :: lines⟩) ∧
      FirstLine T.program0 T.args pid attached first ∧
      ProgramLines F C.view pid events ((if attached then [] else [.attach 0 pid]) ++ [await pid, .setoptions 0 pid (if events then 17 else 1), go pid 0])
        deeds e lines := by
  obtain ⟨fuel, rfl⟩ : ∃ m, fuel = m + 1 := ⟨fuel - 1, by simp [allStops] at hf; omega⟩
  obtain ⟨s1, ss1, e1, h1, o1⟩ := start_step hp hK attached (events := events) hn (show (allStops events (.signal n, v) deeds e)[0]? = some (.signal n, v) from rfl) fuel
  obtain ⟨s2, e2, h2⟩ := h1.go hK 0
  obtain ⟨s3, e3, h3⟩ := h2.setSys (f := fun ss => { ss with hasCallback := true })
  have hc : createProcessOut K (fuel + 1) T pid attached ⟨startState events, out⟩ = (.ok (some 0), ⟨s1, out ++ [firstLine T pid attached]⟩) := by
    unfold createProcess at e1
    unfold createProcessOut
    rw [Py.run_bind_ok (say_eq _ _)]
    unfold inside
    dsimp only
    rcases ha : addProcess K (waitEventPid K (fuel + 1)) pid attached none false (startState events) with ⟨r, t⟩
    rw [ha] at e1
    cases r with
    | ok o =>
      injection e1 with h1 h2
      injection h1 with h1
      rw [← h1, ← h2]
    | error x =>
      cases x with
      | event ev => cases ev <;> cases e1
      | _ => cases e1
  obtain ⟨t, lines, hrun, hl, hlines⟩ := program_out (C := C) (F := F) hp hK e fuel deeds (code := 0) (code' := exitCode deeds e)
    (out ++ [firstLine T pid attached]) h3 ⟨o1, rfl⟩ hd
    (by
      unfold exitCode
      rcases he with ⟨c, hc⟩ | ⟨m, hm⟩
      · rw [hc]; exact Or.inl ⟨c, rfl, rfl⟩
      · rw [hm]; exact Or.inr ⟨m, rfl, rfl⟩)
    (by
      intro i x hx
      have : goesOf ((if attached then [] else [Call.attach 0 pid]) ++ [await pid, .setoptions 0 pid (if events then 17 else 1)] ++
          [go pid (filterSignal 0)]) = 1 := by cases attached <;> rfl
      rw [this, Nat.add_comm]
      exact hx)
  refine ⟨t, firstLine T pid attached, lines, ?_, firstLine_text T pid attached, by simpa [filterSignal] using hlines⟩
  have e4 : straceRunOut K (fuel + 1) C F T pid attached ⟨startState events, out⟩ =
      (.ok (some (exitCode deeds e)), ⟨t, out ++ firstLine T pid attached :: lines⟩) := by
    unfold straceRunOut
    rw [Py.run_bind_ok hc]
    dsimp only
    rw [Py.run_bind_ok (a := exitCode deeds e) (u := ⟨t, out ++ firstLine T pid attached :: lines⟩)]
    · rfl
    · unfold syscallTraceOut
      rw [Py.run_bind_ok (a := ()) (u := ⟨s3, out ++ [firstLine T pid attached]⟩)]
      · rw [hrun (fuel + 1) (by rw [allStops, List.length_cons] at hf; omega), List.append_assoc]
        rfl
      · unfold inside prepareProcess
        dsimp only
        rw [Py.run_bind_ok e2, e3]
  unfold straceMainOut
  rw [e4]
  dsimp only
  refine (Py.run_bind_ok (u := (⟨t, out ++ firstLine T pid attached :: lines⟩ : Con DSt)) rfl).trans ?_
  rw [Py.run_bind_ok (a := ()) (u := ⟨t, out ++ firstLine T pid attached :: lines⟩)]
  · rfl
  · unfold inside quit
    dsimp only
    rw [hl]
    rfl

/-! ## how many lines -/


theorem startLines_length {F : LineView} {V : View} {pid : Nat} {before : List Call} {regs : Nat} {lines : List Str}
    (h : StartLines F V pid before regs lines) : lines.length = if V.shown regs && V.enter then 1 else 0 := by
  unfold StartLines at h
  split at h
  · obtain ⟨line, rfl, _⟩ := h; rw [if_pos (by assumption)]; rfl
  · subst h; rw [if_neg (by assumption)]; rfl

theorem endLines_length {F : LineView} {V : View} {pid : Nat} {before : List Call} {regs result : Nat} {lines : List Str}
    (h : EndLines F V pid before regs result lines) : lines.length = if V.shown regs then 1 else 0 := by
  unfold EndLines at h
  split at h
  · obtain ⟨line, rfl, _⟩ := h; rw [if_pos (by assumption)]; rfl
  · subst h; rw [if_neg (by assumption)]; rfl

theorem programLines_count {F : LineView} {V : View} {pid : Nat} {events : Bool} {e : Ending} : ∀ {deeds : List Deed} {before : List Call} {lines : List Str},
    (∀ n regs, Deed.signal n regs ∉ deeds) → ProgramLines F V pid events before deeds e lines → lines.length = lineCount V events deeds e
  | [], before, lines, _, h => by
    obtain ⟨cut, last, rfl, hc, _, _⟩ := h
    unfold lineCount
    cases hi : e.inside with
    | none => rw [hi] at hc; have hc : cut = [] := hc; subst hc; simp
    | some regs =>
      rw [hi] at hc
      dsimp only at hc ⊢
      rw [List.map_nil, List.sum_nil, Nat.zero_add, List.length_append]
      split at hc
      · obtain ⟨line, rfl, _⟩ := hc; rw [if_pos (by assumption)]; rfl
      · subst hc; rw [if_neg (by assumption)]; rfl
  | d :: ds, before, lines, hn, h => by
    obtain ⟨a, b, rfl, hd, hrest⟩ := h
    have ih := programLines_count (deeds := ds) (fun n regs hm => hn n regs (List.mem_cons_of_mem _ hm)) hrest
    rw [List.length_append, ih]
    unfold lineCount
    rw [List.map_cons, List.sum_cons]
    suffices a.length = d.lineCount V events by rw [this]; omega
    cases d with
    | call regs result =>
      obtain ⟨x, y, rfl, hx, hy⟩ := hd
      rw [List.length_append, startLines_length hx, endLines_length hy]
      simp only [Deed.lineCount]
      cases V.shown regs <;> cases V.enter <;> rfl
    | exec regs result =>
      obtain ⟨x, m, y, rfl, hx, hm, hy⟩ := hd
      have hml : m.length = if events then 1 else 0 := by
        cases events with
        | true => obtain ⟨num, _, rfl⟩ := hm; rfl
        | false => have hm : m = [] := hm; subst hm; rfl
      rw [List.length_append, List.length_append, startLines_length hx, endLines_length hy, hml]
      simp only [Deed.lineCount]
      cases V.shown regs <;> cases V.enter <;> cases events <;> rfl
    | signal n regs => exact absurd (List.mem_cons_self) (hn n regs)

/-- **C130** (as above, without signals). How many lines there are: one for each call that is shown, or two with `--enter`, one for each `execve` with
events, one for a call the program ends in, and the first and the last. -/
theorem C130_count_partial (K : Kern) (C : StraceCfg) (F : LineView) (T : MainTexts) (pid : Nat) (hp : pid ≠ 0) (events attached : Bool)
    (deeds : List Deed) (e : Ending) (hd : ∀ d ∈ deeds, PlainDeed C events d) (hsig : ∀ n regs, Deed.signal n regs ∉ deeds)
    (he : (∃ c, e.kind = .exited c) ∨ ∃ n, e.kind = .killed n)
    (n v : Nat) (hn : n = 5 ∨ n = 19) (hK : Follows K pid (allStops events (.signal n, v) deeds e)) (fuel : Nat)
    (hf : (allStops events (.signal n, v) deeds e).length ≤ fuel) :
    (straceMainOut K fuel C F T pid attached ⟨startState events, []⟩).2.out.length = 1 + lineCount C.view events deeds e := by
  obtain ⟨t, first, lines, h1, _, h2⟩ := C130_run_partial K C F T pid hp events attached deeds e hd he n v hn hK fuel hf []
  rw [h1]
  show lines.length + 1 = _
  rw [programLines_count hsig h2, Nat.add_comm]

/-! ## a program, and a failed `execve` -/

/-- Short texts: the number of the call, the result, and `s` for a signal. -/
def shortView : LineView where
  arch := ⟨true, false⟩
  signames := []
  showPid := false
  showIp := false
  call c := pyDec c.entry
  result c := pyDec (c.result.getD 0)
  ip _ := 0
  signal _ _ _ := ["s".toList]

def shortTexts : MainTexts := ⟨"a".toList, "['a']".toList, [], fun _ => [], fun _ => []⟩

example : ∃ t first lines, straceMainOut (stopKern 42 (allStops true (.signal 5, 0) followDeeds followEnd)) 20 (followCfg false) shortView shortTexts 42
    true ⟨startState true, []⟩ = (.ok (some 7), ⟨t, [] ++ first :: lines⟩) ∧ FirstLine "a".toList "['a']".toList 42 true first ∧
    ProgramLines shortView (followCfg false).view 42 true ([] ++ [await 42, .setoptions 0 42 17, go 42 0]) followDeeds followEnd lines :=
  C130_run_partial _ _ shortView shortTexts 42 (by decide) true true followDeeds followEnd (followDeeds_plain _ _) (Or.inl ⟨7, rfl⟩) 5 0 (Or.inl rfl)
    (stopKern_follows _ _ (by decide +kernel)) 20 (by decide) []

/-- The same run, line by line. -/
example : (straceMainOut (stopKern 42 (allStops true (.signal 5, 0) followDeeds followEnd)) 20 (followCfg false) shortView shortTexts 42
    true ⟨startState true, []⟩).2.out =
    ["execve(a, ['a'], [/* 40 vars */]) = 42".toList, "*** Process 42 execution ***".toList, "59                                       = 0".toList,
      "s".toList, "1                                        = 5".toList, "231".toList, "*** Process 42 exited with code 7 ***".toList] := by
  decide +kernel

/-- `execve` and a call, with `--enter`. -/
example : (straceMainOut (stopKern 42 (allStops true (.signal 5, 0) [.exec 59 0, .call 3 0, .call 1 5] followEnd)) 20 (followCfg true) shortView
    shortTexts 42 true ⟨startState true, []⟩).2.out.length = 1 + lineCount (followCfg true).view true [.exec 59 0, .call 3 0, .call 1 5] followEnd :=
  C130_count_partial _ _ shortView shortTexts 42 (by decide) true true _ followEnd (by
      intro d hd
      have h1 : ("write".toList : Str) ≠ execveName := by decide
      have h3 : ("close".toList : Str) ≠ execveName := by decide
      simp only [List.mem_cons, List.not_mem_nil, or_false] at hd
      rcases hd with rfl | rfl | rfl
      · exact rfl
      · exact fun h => absurd h h3
      · exact fun h => absurd h h1) (by simp) (Or.inl ⟨7, rfl⟩) 5 0 (Or.inl rfl)
    (stopKern_follows _ _ (by decide +kernel)) 20 (by decide)

/-- What is printed for a failed `execve` without events. -/
theorem failedExec_out : (straceMainOut (stopKern 42 (allStops false (.signal 5, 0) failedExec followEnd)) 20 (followCfg false) shortView shortTexts 42 true
      ⟨startState false, []⟩).2.out =
    ["execve(a, ['a'], [/* 40 vars */]) = 42".toList, "59                                       = 2".toList,
      "5                                        = 231".toList, "*** Process 42 exited with code 7 ***".toList] := by decide +kernel

/-- **C130 refuted** for a failed `execve` without events (C125): the call `write` (1, result 5) is shown as the call 5, and the next call,
`exit_group` (231), is shown as its result. These are not the lines of the program. -/
theorem C130_execve_refuted :
    Follows (stopKern 42 (allStops false (.signal 5, 0) failedExec followEnd)) 42 (allStops false (.signal 5, 0) failedExec followEnd) ∧
    ¬ ∃ first lines, (straceMainOut (stopKern 42 (allStops false (.signal 5, 0) failedExec followEnd)) 20 (followCfg false) shortView shortTexts 42 true
      ⟨startState false, []⟩).2.out = first :: lines ∧
      ProgramLines shortView (followCfg false).view 42 false [await 42, .setoptions 0 42 1, go 42 0] failedExec followEnd lines := by
  refine ⟨stopKern_follows _ _ (by decide +kernel), ?_⟩
  rintro ⟨first, lines, h, hl⟩
  rw [failedExec_out] at h
  injection h with _ h
  have hc := programLines_count (by simp [failedExec]) hl
  rw [← h] at hc
  exact absurd hc (by decide +kernel)

end PT
