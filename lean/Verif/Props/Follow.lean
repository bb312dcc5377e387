import Verif.Lemmas.Follow

/-! Property theorems C125: strace.py follows a program of one process from start to end. -/

namespace PT
open PT.Spec

/-- What the options of strace.py ask for. -/
def StraceCfg.view (C : StraceCfg) : View := ⟨fun regs => !C.sys.ignore (C.sys.name regs), C.enter⟩

section
variable {K : Kern} {pid : Nat} {stops : List (StatusKind × Nat)} {events : Bool} {cs : List Call} {ss : SysState} {s : DSt} {C : StraceCfg}

@[simp] theorem goesOf_append (cs ds : List Call) : goesOf (cs ++ ds) = goesOf cs + goesOf ds := List.countP_append
@[simp] theorem goesOf_nil : goesOf [] = 0 := rfl
@[simp] theorem goesOf_await (l : List Call) : goesOf (await pid :: l) = goesOf l := by simp [goesOf, await]
@[simp] theorem goesOf_look (l : List Call) : goesOf (look pid :: l) = goesOf l := by simp [goesOf, look]
@[simp] theorem goesOf_print (l : List Call) : goesOf (print pid :: l) = goesOf l := by simp [goesOf, print]
@[simp] theorem goesOf_go (n : Nat) (l : List Call) : goesOf (go pid n :: l) = goesOf l + 1 := by simp [goesOf, go]

theorem goesOf_start (V : View) (regs : Nat) : goesOf (atStart V pid regs) = 1 := by
  unfold atStart
  cases V.shown regs <;> cases V.enter <;> simp

/-- The state kept for a process outside of system calls. -/
def Outside (ss : SysState) : Prop := ss.nextExit = false ∧ ss.hasCallback = true

/-- The state kept for a process in a system call. -/
structure InCall (C : StraceCfg) (regs : Nat) (ss : SysState) : Prop where
  exit : ss.nextExit = true
  callback : ss.hasCallback = true
  name : ss.name = some (C.sys.name regs)
  shown : C.view.shown regs = true → ∃ c, ss.syscall = some c ∧ c.result = none
  hidden : C.view.shown regs = false → ss.syscall = none

/-! ## one stop -/

/-- The start of a system call. -/
theorem turn_start (hp : pid ≠ 0) (hK : Follows K pid stops) (h : Here events pid s cs ss) (ho : Outside ss) {regs : Nat}
    (hs : stops[goesOf cs]? = some (.signal 133, regs)) (fuel code : Nat) :
    ∃ t ss', straceTurn K (fuel + 1) C code s = (.ok code, t) ∧ Here events pid t (cs ++ atStart C.view pid regs) ss' ∧ InCall C regs ss' ∧
      ∀ c, ss'.syscall = some c → c = ⟨cs.length + 1, regs, none⟩ := by
  obtain ⟨s1, e1, h1⟩ := h.waitSignal hp hK hs fuel
  have w := h.waitSyscall e1
  have w' : waitSyscall K (fuel + 1) none s = (.ok (.signal 0 133), s1) := w
  have key : ∃ t ss', sysEvent K (fuel + 1) C.sys 0 s1 = (.ok ss'.syscall, t) ∧
      Here events pid t (cs ++ ([await pid, look pid] ++ if C.view.shown regs then [look pid] else [])) ss' ∧ InCall C regs ss' ∧
      ∀ c, ss'.syscall = some c → c = ⟨cs.length + 1, regs, none⟩ := by
    have hlen : s1.log.length = cs.length + 1 := by
      have := congrArg List.length h1.log
      simpa using this
    unfold sysEvent
    rw [if_neg (by rw [h1.ss, ho.1]; simp)]
    obtain ⟨s2, e2, h2⟩ := h1.look hK (kind := .signal 133) (regs := regs) (by simpa using hs)
    obtain ⟨s3, e3, h3⟩ := h2.setSys (f := fun ss => { ss with syscall := some ⟨s1.log.length, regs, none⟩, name := some (C.sys.name regs) })
    unfold sysEnter
    rw [h1.pid, Py.run_bind_ok e2, Py.run_bind_ok e3]
    rw [h1.ss, ho.2]
    cases hsh : C.view.shown regs with
    | true =>
      have hi : C.sys.ignore (C.sys.name regs) = false := by simpa [StraceCfg.view] using hsh
      obtain ⟨s4, e4, h4⟩ := h3.look hK (kind := .signal 133) (regs := regs) (by simpa using hs)
      obtain ⟨s5, e5, h5⟩ := h4.setSys (f := fun ss => { ss with nextExit := true })
      rw [show cs ++ ([await pid, look pid] ++ if true = true then [look pid] else []) = cs ++ [await pid] ++ [look pid] ++ [look pid] by simp]
      refine ⟨s5, _, ?_, h5, ⟨rfl, ho.2, rfl, fun _ => ⟨_, rfl, rfl⟩, fun h => by rw [hsh] at h; cases h⟩, ?_⟩
      rotate_left
      · intro c hc
        injection hc with hc
        rw [← hc, hlen]
      · rw [if_pos (by simp [hi])]
        rw [Py.run_bind_ok (a := ()) (u := s4) (by unfold void; rw [Py.run_bind_ok e4]; rfl), Py.run_bind_ok e5]
        rw [h5.ss]
    | false =>
      have hi : C.sys.ignore (C.sys.name regs) = true := by simpa [StraceCfg.view] using hsh
      obtain ⟨s4, e4, h4⟩ := h3.setSys (f := fun ss => { ss with syscall := none })
      obtain ⟨s5, e5, h5⟩ := h4.setSys (f := fun ss => { ss with nextExit := true })
      rw [show cs ++ ([await pid, look pid] ++ if false = true then [look pid] else []) = cs ++ [await pid] ++ [look pid] by simp]
      refine ⟨s5, _, ?_, h5, ⟨rfl, ho.2, rfl, (fun h => by rw [hsh] at h; cases h), fun _ => rfl⟩, fun c hc => by cases hc⟩
      · rw [if_neg (by simp [hi])]
        rw [Py.run_bind_ok e4, Py.run_bind_ok e5]
        rw [h5.ss]
  obtain ⟨s2, ss', e2, h2, hin, hsame⟩ := key
  have key2 : ∃ t, (if displayed C.enter ss'.syscall then displaySyscall K 0 else Py.pure ()) s2 = (.ok (), t) ∧ Here events pid t
      (cs ++ ([await pid, look pid] ++ if C.view.shown regs then look pid :: (if C.view.enter then [print pid] else []) else [])) ss' := by
    cases hsh : C.view.shown regs with
    | true =>
      obtain ⟨c, hc, hr⟩ := hin.shown hsh
      have hd : displayed C.enter ss'.syscall = C.enter := by rw [hc]; simp [displayed, hr]
      rw [hd]
      rw [hsh] at h2
      cases he : C.enter with
      | true =>
        obtain ⟨s3, e3, h3⟩ := h2.show hK
        refine ⟨s3, e3, ?_⟩
        simpa [StraceCfg.view, he] using h3
      | false => exact ⟨s2, rfl, by simpa [StraceCfg.view, he] using h2⟩
    | false =>
      rw [hin.hidden hsh]
      rw [hsh] at h2
      exact ⟨s2, rfl, h2⟩
  obtain ⟨s3, e3, h3⟩ := key2
  obtain ⟨s4, e4, h4⟩ := h3.go hK 0
  refine ⟨s4, ss', ?_, ?_, hin, hsame⟩
  · unfold straceTurn
    rw [w']
    unfold straceHandle straceSyscall
    dsimp only [Event.proc]
    rw [Py.run_bind_ok (a := ()) (u := s4)]
    · rfl
    · rw [Py.run_bind_ok e2, Py.run_bind_ok e3, e4]
  · rw [List.append_assoc] at h4
    exact h4

/-- Reading the result. -/
theorem result_step (hK : Follows K pid stops) (h : Here events pid s cs ss) {regs result : Nat} {kind : StatusKind} (hin : InCall C regs ss)
    (hs : stops[goesOf cs]? = some (kind, result)) :
    ∃ t ss', sysResult K 0 s = (.ok (), t) ∧ Here events pid t (cs ++ if C.view.shown regs then [look pid] else []) ss' ∧
      ss'.name = ss.name ∧ ss'.hasCallback = true ∧ displayed C.enter ss'.syscall = C.view.shown regs := by
  unfold sysResult
  rw [h.ss]
  cases hsh : C.view.shown regs with
  | true =>
    obtain ⟨c, hc, hr⟩ := hin.shown hsh
    rw [hc]
    dsimp only
    obtain ⟨s2, e2, h2⟩ := h.look hK hs
    obtain ⟨s3, e3, h3⟩ := h2.setSys (f := fun ss => { ss with syscall := some { c with result := some result } })
    refine ⟨s3, _, ?_, h3, rfl, hin.callback, by simp [displayed]⟩
    rw [h.pid, Py.run_bind_ok e2, e3]
  | false =>
    rw [hin.hidden hsh]
    exact ⟨s, ss, rfl, by simpa using h, rfl, hin.callback, by rw [hin.hidden hsh]; rfl⟩

/-- The end of a call: display and go on. -/
theorem finish_step (hK : Follows K pid stops) (h : Here events pid s cs ss) {shown : Bool} {r : Option SysObj}
    (hd : displayed C.enter r = shown) : ∃ t, (Py.bind (if displayed C.enter r then displaySyscall K 0 else Py.pure ()) fun _ =>
      procSyscall K 0 0) s = (.ok (), t) ∧ Here events pid t (cs ++ ((if shown then [print pid] else []) ++ [go pid 0])) ss := by
  rw [hd]
  cases shown with
  | true =>
    obtain ⟨s3, e3, h3⟩ := h.show hK
    obtain ⟨s4, e4, h4⟩ := h3.go hK 0
    refine ⟨s4, ?_, by simpa [filterSignal] using h4⟩
    rw [if_pos rfl, Py.run_bind_ok (show displaySyscall K 0 s = _ from e3), e4]
  | false =>
    obtain ⟨s4, e4, h4⟩ := h.go hK 0
    exact ⟨s4, e4, by simpa [filterSignal] using h4⟩

/-- The end of a system call, if nothing else has to be awaited. -/
theorem turn_end (hp : pid ≠ 0) (hK : Follows K pid stops) (h : Here events pid s cs ss) {regs result : Nat} (hin : InCall C regs ss)
    (hx : C.sys.name regs = execveName → events = true) (hs : stops[goesOf cs]? = some (.signal 133, result)) (fuel code : Nat) :
    ∃ t ss', straceTurn K (fuel + 1) C code s = (.ok code, t) ∧
      Here events pid t (cs ++ (await pid :: (if C.view.shown regs then [look pid, print pid] else []) ++ [go pid 0])) ss' ∧ Outside ss' := by
  obtain ⟨s1, e1, h1⟩ := h.waitSignal hp hK hs fuel
  have w : waitSyscall K (fuel + 1) none s = (.ok (.signal 0 133), s1) := h.waitSyscall e1
  obtain ⟨s2, ss2, e2, h2, hn, hcb, hd⟩ := result_step hK h1 hin (kind := .signal 133) (result := result) (by simpa using hs)
  obtain ⟨s3, e3, h3⟩ := h2.setSys (f := fun ss => { ss with syscall := none, name := none, nextExit := false })
  obtain ⟨s4, e4, h4⟩ := finish_step hK h3 hd
  · rw [show cs ++ (await pid :: (if C.view.shown regs then [look pid, print pid] else []) ++ [go pid 0]) =
      cs ++ [await pid] ++ (if C.view.shown regs then [look pid] else []) ++ ((if C.view.shown regs then [print pid] else []) ++ [go pid 0]) by
        split <;> simp]
    refine ⟨s4, _, ?_, h4, ⟨rfl, hcb⟩⟩
    unfold straceTurn
    rw [w]
    unfold straceHandle straceSyscall
    dsimp only [Event.proc]
    rw [Py.run_bind_ok (a := ()) (u := s4)]
    · rfl
    · rw [Py.run_bind_ok (a := ss2.syscall) (u := s3)]
      · exact e4
      · unfold sysEvent
        rw [if_pos (by rw [h1.ss, hin.exit])]
        unfold sysExit
        rw [Py.run_bind_ok e2]
        rw [Py.run_bind_ok (a := ()) (u := s2)]
        · unfold sysClear
          rw [Py.run_bind_ok e3, h2.ss]
          rfl
        · unfold sysExecTrap
          rw [if_neg]
          rintro ⟨g1, g2⟩
          rw [h2.ss, hn, hin.name] at g1
          injection g1 with g1
          rw [h2.exec, hx g1] at g2
          cases g2

/-- The end of `execve` with the trap that follows it. -/
theorem turn_exec (hp : pid ≠ 0) (hK : Follows K pid stops) (h : Here false pid s cs ss) {regs result v : Nat} (hin : InCall C regs ss)
    (hx : C.sys.name regs = execveName) (hs : stops[goesOf cs]? = some (.signal 133, result))
    (hs2 : stops[goesOf cs + 1]? = some (.signal 5, v)) (fuel code : Nat) :
    ∃ t ss', straceTurn K (fuel + 1) C code s = (.ok code, t) ∧
      Here false pid t (cs ++ (await pid :: (if C.view.shown regs then [look pid] else []) ++ [go pid 0, await pid] ++
        (if C.view.shown regs then [print pid] else []) ++ [go pid 0])) ss' ∧ Outside ss' := by
  obtain ⟨s1, e1, h1⟩ := h.waitSignal hp hK hs fuel
  have w : waitSyscall K (fuel + 1) none s = (.ok (.signal 0 133), s1) := h.waitSyscall e1
  obtain ⟨s2, ss2, e2, h2, hn, hcb, hd⟩ := result_step hK h1 hin (kind := .signal 133) (result := result) (by simpa using hs)
  obtain ⟨s3, e3, h3⟩ := h2.go hK 0
  obtain ⟨s4, e4, h4⟩ := h3.waitSignal hp hK (n := 5) (regs := v) (by
    rw [goesOf_append, goesOf_append, goesOf_append, goesOf_go]
    split <;> simpa using hs2) fuel
  obtain ⟨s5, e5, h5⟩ := h4.setSys (f := fun ss => { ss with syscall := none, name := none, nextExit := false })
  obtain ⟨s6, e6, h6⟩ := finish_step hK h5 hd
  · rw [show cs ++ (await pid :: (if C.view.shown regs then [look pid] else []) ++ [go pid 0, await pid] ++
        (if C.view.shown regs then [print pid] else []) ++ [go pid 0]) =
      cs ++ [await pid] ++ (if C.view.shown regs then [look pid] else []) ++ [go pid (filterSignal 0)] ++ [await pid] ++
        ((if C.view.shown regs then [print pid] else []) ++ [go pid 0]) by
        split <;> simp [filterSignal]]
    refine ⟨s6, _, ?_, h6, ⟨rfl, hcb⟩⟩
    unfold straceTurn
    rw [w]
    unfold straceHandle straceSyscall
    dsimp only [Event.proc]
    rw [Py.run_bind_ok (a := ()) (u := s6)]
    · rfl
    · rw [Py.run_bind_ok (a := ss2.syscall) (u := s5)]
      · exact e6
      · unfold sysEvent
        rw [if_pos (by rw [h1.ss, hin.exit])]
        unfold sysExit
        rw [Py.run_bind_ok e2]
        rw [Py.run_bind_ok (a := ()) (u := s4)]
        · unfold sysClear
          rw [Py.run_bind_ok e5, h4.ss]
          rfl
        · unfold sysExecTrap
          rw [if_pos ⟨by rw [h2.ss, hn, hin.name, hx], h2.exec⟩, Py.run_bind_ok e3]
          unfold void waitSignals waitProcessEvent
          rw [h2.pid]
          dsimp only
          rw [Py.run_bind_ok (a := Event.signal 0 5) (u := s4)]
          · rfl
          · rw [Py.run_bind_ok e4]
            rfl

/-- The event of `execve`. -/
theorem turn_event (hp : pid ≠ 0) (hK : Follows K pid stops) (h : Here events pid s cs ss) {v : Nat}
    (hs : stops[goesOf cs]? = some (.event 4, v)) (fuel code : Nat) :
    ∃ t, straceTurn K (fuel + 1) C code s = (.ok code, t) ∧ Here events pid t (cs ++ [await pid, go pid 0]) ss := by
  obtain ⟨s1, e1, h1⟩ := h.waitExec hp hK hs fuel
  have w : waitSyscall K (fuel + 1) none s = (.error (.event (.execution 0)), s1) := h.waitSyscall e1
  obtain ⟨s2, e2, h2⟩ := h1.go hK 0
  refine ⟨s2, ?_, by simpa [filterSignal] using h2⟩
  unfold straceTurn
  rw [w]
  unfold straceHandle
  dsimp only
  rw [Py.run_bind_ok e2]
  rfl

/-- A signal. -/
theorem turn_signal (hp : pid ≠ 0) (hK : Follows K pid stops) (h : Here events pid s cs ss) {n v : Nat} (hn : n ≠ 133)
    (hs : stops[goesOf cs]? = some (.signal n, v)) (fuel code : Nat) :
    ∃ t, straceTurn K (fuel + 1) C code s = (.ok (128 + n), t) ∧
      Here events pid t (cs ++ [await pid, print pid, go pid (if n = 5 then 0 else n)]) ss := by
  obtain ⟨s1, e1, h1⟩ := h.waitSignal hp hK hs fuel
  have w : waitSyscall K (fuel + 1) none s = (.error (.event (.signal 0 n)), s1) := by
    rw [h.waitSyscall e1]
    unfold filterEvent
    dsimp only
    rw [if_neg (by simp [hn])]
    rfl
  obtain ⟨s2, e2, h2⟩ := h1.show hK
  obtain ⟨s3, e3, h3⟩ := h2.go hK n
  have hf : filterSignal n = if n = 5 then 0 else n := by
    unfold filterSignal
    by_cases hc : n = 5
    · rw [if_pos hc, if_pos (show n = SIGTRAP from hc)]
    · rw [if_neg hc, if_neg (show ¬n = SIGTRAP from hc)]
  rw [hf] at h3
  refine ⟨s3, ?_, by simpa only [List.append_assoc, List.cons_append, List.nil_append] using h3⟩
  unfold straceTurn
  rw [w]
  unfold straceHandle
  dsimp only
  rw [Py.run_bind_ok e2, Py.run_bind_ok e3]
  rfl

/-- The end of the process. -/
theorem turn_exit (hp : pid ≠ 0) (hK : Follows K pid stops) (h : Here events pid s cs ss) {kind : StatusKind} {v code' : Nat} (code : Nat)
    (hk : (∃ c, kind = .exited c ∧ code' = c) ∨ ∃ n, kind = .killed n ∧ code' = code) (hs : stops[goesOf cs]? = some (kind, v)) (fuel : Nat) :
    ∃ t, straceTurn K (fuel + 1) C code s = (.ok code', t) ∧ t.list = [] ∧ t.log.map Entry.call =
      cs ++ await pid :: (if ss.nextExit && !C.enter && ss.syscall.isSome then [print pid] else []) := by
  have key : ∃ a b, ((∃ c, kind = .exited c ∧ a = none ∧ b = some c) ∨ ∃ n, kind = .killed n ∧ a = some n ∧ b = none) ∧ b.getD code = code' := by
    rcases hk with ⟨c, rfl, rfl⟩ | ⟨n, rfl, rfl⟩
    · exact ⟨none, some code', Or.inl ⟨code', rfl, rfl, rfl⟩, rfl⟩
    · exact ⟨some n, none, Or.inr ⟨n, rfl, rfl, rfl⟩, rfl⟩
  obtain ⟨a, b, hab, hb⟩ := key
  obtain ⟨s1, e1, hl, hss, hpid, hlog⟩ := h.waitEnd hp hK hab hs fuel
  have w : waitSyscall K (fuel + 1) none s = (.error (.event (.exit 0 a b)), s1) := h.waitSyscall e1
  have key2 : ∃ t, processExited K C 0 s1 = (.ok (), t) ∧ t.list = [] ∧ t.log.map Entry.call =
      cs ++ await pid :: (if ss.nextExit && !C.enter && ss.syscall.isSome then [print pid] else []) := by
    unfold processExited
    rw [hss]
    split
    · obtain ⟨v, st, hk⟩ := (hK.accepts s1.log 0 0).2.1
      have e : displaySyscall K 0 s1 = (.ok (), { s1 with log := s1.log ++ [⟨.display 0 pid, K s1.log (.display 0 pid), s1.dict⟩] }) := by
        unfold displaySyscall eventDisplay ptraceCall sysc Py.bind
        rw [hpid]
        dsimp only
        rw [hk]
        rfl
      exact ⟨_, e, hl, by simp [hlog]; rfl⟩
    · exact ⟨s1, rfl, hl, hlog⟩
  obtain ⟨t, e2, hl2, hlog2⟩ := key2
  refine ⟨t, ?_, hl2, hlog2⟩
  unfold straceTurn
  rw [w]
  unfold straceHandle
  dsimp only
  rw [Py.run_bind_ok e2, hb]
  rfl

/-! ## a deed, an end, a program -/

/-- A program as the theorem wants it: the deeds are what they seem to be. A failed `execve` is not, if there are no events. -/
def PlainDeed (C : StraceCfg) (events : Bool) : Deed → Prop
  | .call regs _ => C.sys.name regs = execveName → events = true
  | .exec regs _ => C.sys.name regs = execveName
  | .signal signum _ => signum ≠ 133

/-- The exit code after a deed. -/
def codeAfter (code : Nat) (d : Deed) : Nat := match d with
  | .signal n _ => 128 + n
  | _ => code

theorem turn_loop (h : Here events pid s cs ss) {fuel code code' : Nat} {t : DSt} (e : straceTurn K fuel C code s = (.ok code', t)) (n : Nat) :
    straceLoop K fuel C (n + 1) code s = straceLoop K fuel C n code' t := by
  show (if length s = 0 then _ else _) = _
  rw [if_neg (by unfold length; rw [h.list]; simp), Py.run_bind_ok e]

theorem goesOf_deed (V : View) (d : Deed) : goesOf (d.requests V pid events) = (d.stops events).length := by
  cases d with
  | call regs result => cases hs : V.shown regs <;> simp [Deed.requests, Deed.stops, goesOf_start, hs]
  | exec regs result => cases events <;> cases hs : V.shown regs <;> simp [Deed.requests, Deed.stops, goesOf_start, hs]
  | signal n regs => simp [Deed.requests, Deed.stops]

theorem deed_step (hp : pid ≠ 0) (hK : Follows K pid stops) (h : Here events pid s cs ss) (ho : Outside ss) (d : Deed) (hd : PlainDeed C events d)
    (hs : ∀ i x, (d.stops events)[i]? = some x → stops[goesOf cs + i]? = some x) (fuel code : Nat) :
    ∃ k t ss', k ≤ (d.stops events).length ∧ (∀ n, straceLoop K (fuel + 1) C (n + k) code s = straceLoop K (fuel + 1) C n (codeAfter code d) t) ∧
      Here events pid t (cs ++ d.requests C.view pid events) ss' ∧ Outside ss' := by
  cases d with
  | call regs result =>
    obtain ⟨s1, ss1, e1, h1, i1, _⟩ := turn_start (C := C) hp hK h ho (hs 0 _ rfl) fuel code
    obtain ⟨s2, ss2, e2, h2, i2⟩ := turn_end hp hK h1 i1 hd (result := result) (by rw [goesOf_append, goesOf_start]; exact hs 1 _ rfl) fuel code
    refine ⟨2, s2, ss2, Nat.le_refl _, fun n => ?_, ?_, i2⟩
    · rw [turn_loop h e1 (n + 1), turn_loop h1 e2 n]; rfl
    · simpa [Deed.requests] using h2
  | exec regs result =>
    cases events with
    | true =>
      obtain ⟨s1, ss1, e1, h1, i1, _⟩ := turn_start (C := C) hp hK h ho (hs 0 _ rfl) fuel code
      obtain ⟨s2, e2, h2⟩ := turn_event (C := C) hp hK h1 (v := regs) (by rw [goesOf_append, goesOf_start]; exact hs 1 _ rfl) fuel code
      obtain ⟨s3, ss3, e3, h3, i3⟩ := turn_end hp hK h2 i1 (fun _ => rfl) (result := result) (by
        rw [goesOf_append, goesOf_append, goesOf_start]; exact hs 2 _ rfl) fuel code
      refine ⟨3, s3, ss3, Nat.le_refl _, fun n => ?_, ?_, i3⟩
      · rw [turn_loop h e1 (n + 2), turn_loop h1 e2 (n + 1), turn_loop h2 e3 n]; rfl
      · simpa [Deed.requests] using h3
    | false =>
      obtain ⟨s1, ss1, e1, h1, i1, _⟩ := turn_start (C := C) hp hK h ho (hs 0 _ rfl) fuel code
      obtain ⟨s2, ss2, e2, h2, i2⟩ := turn_exec hp hK h1 i1 hd (result := result) (v := result)
        (by rw [goesOf_append, goesOf_start]; exact hs 1 _ rfl) (by rw [goesOf_append, goesOf_start]; exact hs 2 _ rfl) fuel code
      refine ⟨2, s2, ss2, by simp [Deed.stops], fun n => ?_, ?_, i2⟩
      · rw [turn_loop h e1 (n + 1), turn_loop h1 e2 n]; rfl
      · simpa [Deed.requests] using h2
  | signal m regs =>
    obtain ⟨s1, e1, h1⟩ := turn_signal (C := C) hp hK h (n := m) (v := regs) hd (hs 0 _ rfl) fuel code
    exact ⟨1, s1, ss, Nat.le_refl _, fun n => by rw [turn_loop h e1 n]; rfl, h1, ho⟩

theorem end_step (hp : pid ≠ 0) (hK : Follows K pid stops) (h : Here events pid s cs ss) (ho : Outside ss) (e : Ending) {code code' : Nat}
    (hk : (∃ c, e.kind = .exited c ∧ code' = c) ∨ ∃ n, e.kind = .killed n ∧ code' = code)
    (hs : ∀ i x, e.stops[i]? = some x → stops[goesOf cs + i]? = some x) (fuel : Nat) :
    ∃ k t, k ≤ e.stops.length ∧ (∀ n, straceLoop K (fuel + 1) C (n + 1 + k) code s = (.ok code', t)) ∧ t.list = [] ∧
      t.log.map Entry.call = cs ++ e.requests C.view pid := by
  have last : ∀ {t : DSt} (n : Nat), t.list = [] → straceLoop K (fuel + 1) C (n + 1) code' t = (.ok code', t) := by
    intro t n ht
    show (if length t = 0 then _ else _) = _
    rw [if_pos (by unfold length; rw [ht]; rfl)]
  obtain ⟨inside, kind⟩ := e
  cases inside with
  | none =>
    obtain ⟨t, e1, hl, hlog⟩ := turn_exit (C := C) hp hK h code hk (v := 0) (hs 0 _ rfl) fuel
    refine ⟨1, t, Nat.le_refl _, fun n => ?_, hl, ?_⟩
    · rw [turn_loop h e1 (n + 1), last n hl]
    · rw [hlog, ho.1]; rfl
  | some regs =>
    obtain ⟨s1, ss1, e1, h1, i1, _⟩ := turn_start (C := C) hp hK h ho (hs 0 _ rfl) fuel code
    obtain ⟨t, e2, hl, hlog⟩ := turn_exit (C := C) hp hK h1 code hk (v := 0) (by rw [goesOf_append, goesOf_start]; exact hs 1 _ rfl) fuel
    refine ⟨2, t, Nat.le_refl _, fun n => ?_, hl, ?_⟩
    · rw [turn_loop h e1 (n + 1 + 1), turn_loop h1 e2 (n + 1), last n hl]
    · rw [hlog, i1.exit]
      have : ss1.syscall.isSome = C.view.shown regs := by
        cases hsh : C.view.shown regs with
        | true => obtain ⟨c, hc, -⟩ := i1.shown hsh; rw [hc]; rfl
        | false => rw [i1.hidden hsh]; rfl
      rw [this]
      unfold Ending.requests
      dsimp only
      rw [show C.view.enter = C.enter from rfl]
      cases C.view.shown regs <;> cases C.enter <;> simp

theorem program_steps (hp : pid ≠ 0) (hK : Follows K pid stops) (e : Ending) (fuel : Nat) :
    ∀ (deeds : List Deed) {s : DSt} {cs : List Call} {ss : SysState} {code code' : Nat}, Here events pid s cs ss → Outside ss →
      (∀ d ∈ deeds, PlainDeed C events d) →
      ((∃ c, e.kind = .exited c ∧ code' = c) ∨ ∃ n, e.kind = .killed n ∧ code' = deeds.foldl codeAfter code) →
      (∀ i x, (deeds.flatMap (Deed.stops events) ++ e.stops)[i]? = some x → stops[goesOf cs + i]? = some x) →
      ∃ t, (∀ n, (deeds.flatMap (Deed.stops events) ++ e.stops).length < n → straceLoop K (fuel + 1) C n code s = (.ok code', t)) ∧ t.list = [] ∧
        t.log.map Entry.call = cs ++ (deeds.flatMap (Deed.requests C.view pid events) ++ e.requests C.view pid)
  | [], s, cs, ss, code, code', h, ho, _, hk, hs => by
    obtain ⟨k, t, hkl, hrun, hl, hlog⟩ := end_step (C := C) hp hK h ho e hk hs fuel
    refine ⟨t, fun n hn => ?_, hl, hlog⟩
    have hn' : e.stops.length < n := hn
    have := hrun (n - 1 - k)
    rwa [show n - 1 - k + 1 + k = n by omega] at this
  | d :: ds, s, cs, ss, code, code', h, ho, hd, hk, hs => by
    obtain ⟨k, s1, ss1, hkl, hrun, h1, o1⟩ := deed_step (C := C) hp hK h ho d (hd d (by simp)) (fun i x hx => hs i x (by
      have hi : i < (d.stops events).length := by
        rcases Nat.lt_or_ge i (d.stops events).length with hc | hc
        · exact hc
        · rw [List.getElem?_eq_none hc] at hx
          cases hx
      rw [List.flatMap_cons, List.append_assoc, List.getElem?_append_left hi]
      exact hx)) fuel code
    obtain ⟨t, hrun2, hl, hlog⟩ := program_steps hp hK e fuel ds (code := codeAfter code d) (code' := code') h1 o1 (fun x hx => hd x (by simp [hx])) hk
      (fun i x hx => by
        rw [goesOf_append, goesOf_deed, Nat.add_assoc]
        refine hs _ x ?_
        rw [List.flatMap_cons, List.append_assoc, List.getElem?_append_right (by omega), Nat.add_sub_cancel_left]
        exact hx)
    refine ⟨t, fun n hn => ?_, hl, by rw [hlog]; simp⟩
    rw [List.flatMap_cons, List.append_assoc, List.length_append] at hn
    have := hrun (n - k)
    rw [show n - k + k = n by omega] at this
    rw [this]
    exact hrun2 (n - k) (by omega)

/-- The debugger before it has a process, with or without events for `execve` (`--trace-exec` and `--no-events` of strace.py). -/
def startState (events : Bool) : DSt := if events then (traceExec newDebugger).2 else newDebugger

theorem start_step_of (hp : pid ≠ 0) (attached : Bool) {n : Nat} (hn : n = 5 ∨ n = 19)
    (ha : ∃ v st, K (startState events).log (.attach 0 pid) = .ok v st)
    (hw : ∀ log : List Entry, log.map Entry.call = (if attached then [] else [.attach 0 pid]) →
      ∃ st, K log (await pid) = .ok pid st ∧ waitMeaning st = .signal n)
    (ho : ∀ log, ∃ v st, K log (.setoptions 0 pid (if events then 17 else 1)) = .ok v st) (fuel : Nat) :
    ∃ t ss, createProcess K (fuel + 1) pid attached (startState events) = (.ok (some 0), t) ∧ Here events pid t
      ((if attached then [] else [.attach 0 pid]) ++ [await pid, .setoptions 0 pid (if events then 17 else 1)]) ss ∧ ss = {} ∧
      (t.heap 0).isStopped = true := by
  have hnew : ∃ t, Py.bind (newProc K pid attached none false) (fun o => Py.bind (register pid o) fun _ => Py.pure o) (startState events) = (.ok 0, t) ∧
      Here events pid t (if attached then [] else [.attach 0 pid]) {} := by
    cases attached with
    | true =>
      have hz : (startState events).next = 0 := by cases events <;> rfl
      refine ⟨{ startState events with
        next := 1
        heap := fun i => if i = 0 then freshProc pid true none false else (startState events).heap i
        dict := dictSet (startState events).dict pid 0
        list := (startState events).list ++ [0] }, ?_, ?_⟩
      · cases events <;> rfl
      cases events <;> exact ⟨rfl, rfl, rfl, rfl, rfl, rfl, rfl, rfl, rfl, rfl, rfl, Nat.one_pos⟩
    | false =>
      obtain ⟨v, st, hk⟩ := ha
      have e1 : ptraceCall K (.attach 0 pid) (startState events) =
          (.ok v, { startState events with log := (startState events).log ++ [⟨.attach 0 pid, K (startState events).log (.attach 0 pid), (startState events).dict⟩] }) := by
        unfold ptraceCall sysc Py.bind
        dsimp only
        rw [hk]
        rfl
      have e2 : newProc K pid false none false (startState events) = (.ok 0, { setProc { startState events with
          log := (startState events).log ++ [⟨.attach 0 pid, K (startState events).log (.attach 0 pid), (startState events).dict⟩] } 0
          (freshProc pid false none false) with next := 1 }) := by
        have hz : (startState events).next = 0 := by cases events <;> rfl
        unfold newProc
        rw [hz]
        rw [Py.run_bind_ok (a := ()) (by
          simp only [Bool.false_eq_true, if_false]
          rw [Py.run_bind_ok e1]
          rfl)]
      refine ⟨_, by rw [Py.run_bind_ok e2]; rfl, ?_⟩
      cases events <;> exact ⟨rfl, rfl, rfl, rfl, rfl, rfl, rfl, rfl, rfl, rfl, rfl, Nat.one_pos⟩
  obtain ⟨s1, e1, h1⟩ := hnew
  obtain ⟨st, hw1, hm1⟩ := hw s1.log h1.log
  obtain ⟨s2, e2, h2, i2⟩ := h1.waitSignal_of hp hw1 hm1 fuel
  obtain ⟨w, st, hk⟩ := ho s2.log
  obtain ⟨s3, e3, h3⟩ := h2.request hk
  have i3 : (s3.heap 0).isStopped = true := by
    unfold ptraceCall sysc Py.bind at e3
    dsimp only at e3
    rw [hk] at e3
    injection e3 with _ e3
    rw [← e3]
    exact i2
  refine ⟨s3, {}, ?_, by simpa using h3, rfl, i3⟩
  have e : addProcess K (waitEventPid K (fuel + 1)) pid attached none false (startState events) = (.ok 0, s3) := by
    unfold addProcess
    rw [if_neg (by cases events <;> simp [startState, newDebugger, enableSysgood, traceExec, dictHas])]
    obtain ⟨o, u, g1, g2⟩ := Py.ok_of_bind e1
    obtain ⟨o', u', g3, g4⟩ := Py.ok_of_bind g2
    have g5 : o = 0 ∧ u' = s1 := by
      injection g4 with g4 g5
      injection g4 with g4
      exact ⟨g4, g5⟩
    obtain ⟨rfl, rfl⟩ := g5
    rw [Py.run_bind_ok g1, Py.run_bind_ok g3]
    rw [Py.run_bind_ok (a := ()) (u := s2)]
    · rw [Py.run_bind_ok (a := ()) (u := s3)]
      · rfl
      · unfold addProcessOptions
        rw [h2.options, if_pos (by cases events <;> simp)]
        unfold procSetoptions
        rw [h2.pid, Py.run_bind_ok e3]
        rfl
    · unfold addProcessWait waitSignalsPid
      rw [Py.run_bind_ok e2]
      rcases hn with rfl | rfl <;> rfl
  unfold createProcess
  rw [e]

theorem start_step (hp : pid ≠ 0) (hK : Follows K pid stops) (attached : Bool) {n v : Nat} (hn : n = 5 ∨ n = 19)
    (hs : stops[0]? = some (.signal n, v)) (fuel : Nat) :
    ∃ t ss, createProcess K (fuel + 1) pid attached (startState events) = (.ok (some 0), t) ∧ Here events pid t
      ((if attached then [] else [.attach 0 pid]) ++ [await pid, .setoptions 0 pid (if events then 17 else 1)]) ss ∧ ss.nextExit = false := by
  obtain ⟨t, ss, h1, h2, h3, _⟩ := start_step_of (events := events) hp attached hn (hK.accepts _ 0 0).2.2.2 (fun log hl =>
    hK.wait log (.signal n) v (by rw [goes_eq, hl]; cases attached <;> exact hs)) (fun log => (hK.accepts log 0 _).2.2.1) fuel
  exact ⟨t, ss, h1, h2, by rw [h3]⟩

end

/-! ## the theorem -/

/-- **C125** (the stops are those of `ptrace(2)`, one process, the deeds are plain). For every program, every ending, every choice of options and
every kernel that lets the program run: strace.py makes exactly the requests of a tracer that waits for each stop, looks at the registers and
prints when the call is shown, and lets the process go on after each stop; it ends with the program and has its exit code. -/
theorem C125_run_partial (K : Kern) (C : StraceCfg) (pid : Nat) (hp : pid ≠ 0) (events attached : Bool) (deeds : List Deed) (e : Ending)
    (hd : ∀ d ∈ deeds, PlainDeed C events d) (he : (∃ c, e.kind = .exited c) ∨ ∃ n, e.kind = .killed n) (n v : Nat) (hn : n = 5 ∨ n = 19)
    (hK : Follows K pid (allStops events (.signal n, v) deeds e)) (fuel : Nat)
    (hf : (allStops events (.signal n, v) deeds e).length ≤ fuel) :
    ∃ t, straceMain K fuel C pid attached (startState events) = (.ok (some (exitCode deeds e)), t) ∧ t.list = [] ∧
      t.log.map Entry.call = allRequests C.view pid events attached (if events then 17 else 1) deeds e := by
  obtain ⟨fuel, rfl⟩ : ∃ m, fuel = m + 1 := ⟨fuel - 1, by simp [allStops] at hf; omega⟩
  obtain ⟨s1, ss1, e1, h1, o1⟩ := start_step hp hK attached (events := events) hn (show (allStops events (.signal n, v) deeds e)[0]? = some (.signal n, v) from rfl) fuel
  obtain ⟨s2, e2, h2⟩ := h1.go hK 0
  obtain ⟨s3, e3, h3⟩ := h2.setSys (f := fun ss => { ss with hasCallback := true })
  obtain ⟨t, hrun, hl, hlog⟩ := program_steps (C := C) hp hK e fuel deeds (code := 0) (code' := exitCode deeds e) h3 ⟨o1, rfl⟩ hd
    (by
      unfold exitCode
      rcases he with ⟨c, hc⟩ | ⟨m, hm⟩
      · rw [hc]; exact Or.inl ⟨c, rfl, rfl⟩
      · rw [hm]; exact Or.inr ⟨m, rfl, rfl⟩)
    (by
      intro i x hx
      have : goesOf ((if attached then [] else [Call.attach 0 pid]) ++ [await pid, .setoptions 0 pid (if events then 17 else 1)] ++
          [go pid (filterSignal 0)]) = 1 := by cases attached <;> rfl
      rw [this, Nat.add_comm]
      exact hx)
  refine ⟨t, ?_, hl, ?_⟩
  · have e4 : straceRun K (fuel + 1) C pid attached (startState events) = (.ok (some (exitCode deeds e)), t) := by
      unfold straceRun
      rw [Py.run_bind_ok e1]
      dsimp only
      rw [Py.run_bind_ok (a := exitCode deeds e) (u := t)]
      · rfl
      · unfold syscallTrace
        rw [Py.run_bind_ok (a := ()) (u := s3)]
        · exact hrun (fuel + 1) (by rw [allStops, List.length_cons] at hf; omega)
        · unfold prepareProcess
          rw [Py.run_bind_ok e2, e3]
    unfold straceMain
    rw [e4]
    dsimp only
    rw [Py.run_bind_ok (m := Py.pure (some (exitCode deeds e))) (a := some (exitCode deeds e)) (u := t) rfl, Py.run_bind_ok (a := ()) (u := t)]
    · rfl
    · unfold quit
      rw [hl]
      rfl
  · rw [hlog]
    unfold allRequests
    simp [filterSignal]

/-! ## a program, and a failed `execve` -/

/-- A status that says this. -/
def statusOf : StatusKind → Int
  | .exited c => (c % 256 * 256 : Nat)
  | .killed n => (n % 127 : Nat)
  | .signal n => (n % 256 * 256 + 127 : Nat)
  | .event n => n * 65536 + 5 * 256 + 127
  | .unknown => 0

/-- A kernel with one process that makes these stops. -/
def stopKern (pid : Nat) (stops : List (StatusKind × Nat)) : Kern := fun log c =>
  match c, stops[goes log]? with
  | .waitpid _ _ _, some (kind, _) => .ok pid (statusOf kind)
  | .waitpid _ _ _, none => .err 10
  | .inspect _ _, some (_, regs) => .ok regs 0
  | _, _ => .ok 0 0

/-- Such a kernel lets the program run. -/
theorem stopKern_follows (pid : Nat) (stops : List (StatusKind × Nat)) (h : ∀ x ∈ stops, waitMeaning (statusOf x.1) = x.1) :
    Follows (stopKern pid stops) pid stops where
  wait log kind regs hs := ⟨statusOf kind, by unfold stopKern; rw [hs], h (kind, regs) (List.mem_of_getElem? hs)⟩
  look log kind regs o hs := ⟨0, by unfold stopKern; rw [hs]⟩
  accepts log o n := by
    unfold stopKern
    cases stops[goes log]? <;> exact ⟨⟨_, _, rfl⟩, ⟨_, _, rfl⟩, ⟨_, _, rfl⟩, ⟨_, _, rfl⟩⟩

/-- Registers are the number of a call: 59 is `execve`, calls 3 are not shown. -/
def followCfg (enter : Bool) : StraceCfg where
  sys := { name := fun regs => if regs = 59 then execveName else if regs = 3 then "close".toList else "write".toList
           ignore := fun name => name == "close".toList }
  enter := enter

/-- `execve`, a hidden call, a signal, a call, `exit_group`. -/
def followDeeds : List Deed := [.exec 59 0, .call 3 0, .signal 17 0, .call 1 5]
def followEnd : Ending := ⟨some 231, .exited 7⟩

theorem followDeeds_plain (enter events : Bool) : ∀ d ∈ followDeeds, PlainDeed (followCfg enter) events d := by
  intro d hd
  have h1 : ("write".toList : Str) ≠ execveName := by decide
  have h3 : ("close".toList : Str) ≠ execveName := by decide
  simp only [followDeeds, List.mem_cons, List.not_mem_nil, or_false] at hd
  rcases hd with rfl | rfl | rfl | rfl
  · exact rfl
  · exact fun h => absurd h h3
  · exact (by decide : (17 : Nat) ≠ 133)
  · exact fun h => absurd h h1

example : ∃ t, straceMain (stopKern 42 (allStops true (.signal 5, 0) followDeeds followEnd)) 20 (followCfg false) 42 true (startState true) =
    (.ok (some 7), t) ∧ t.list = [] ∧
    t.log.map Entry.call = allRequests (followCfg false).view 42 true true 17 followDeeds followEnd :=
  C125_run_partial _ _ 42 (by decide) true true followDeeds followEnd (followDeeds_plain _ _) (Or.inl ⟨7, rfl⟩) 5 0 (Or.inl rfl)
    (stopKern_follows _ _ (by decide +kernel)) 20 (by decide)

example : ∃ t, straceMain (stopKern 42 (allStops false (.signal 19, 0) followDeeds ⟨none, .killed 9⟩)) 20 (followCfg true) 42 false (startState false) =
    (.ok (some 145), t) ∧ t.list = [] ∧
    t.log.map Entry.call = allRequests (followCfg true).view 42 false false 1 followDeeds ⟨none, .killed 9⟩ :=
  C125_run_partial _ _ 42 (by decide) false false followDeeds ⟨none, .killed 9⟩ (followDeeds_plain _ _) (Or.inr ⟨9, rfl⟩) 19 0 (Or.inr rfl)
    (stopKern_follows _ _ (by decide +kernel)) 20 (by decide)

/-- A failed `execve` (a shell that looks for a program in several directories), then `write`, then the end. -/
def failedExec : List Deed := [.call 59 2, .call 1 5]

/-- **C125 refuted** for a failed `execve` without events: strace.py waits for a trap that does not come and takes the start of the next call for
it. From then on the end of a call is read as a start (its registers are asked for as those of a new call) and the start of the next call as the
end of that one. -/
theorem C125_execve_refuted :
    Follows (stopKern 42 (allStops false (.signal 5, 0) failedExec followEnd)) 42 (allStops false (.signal 5, 0) failedExec followEnd) ∧
    (straceMain (stopKern 42 (allStops false (.signal 5, 0) failedExec followEnd)) 20 (followCfg false) 42 true (startState false)).2.log.map
        Entry.call =
      [await 42, .setoptions 0 42 1, go 42 0] ++
      [await 42, look 42, look 42, go 42 0] ++
      [await 42, look 42, go 42 0, await 42, print 42, go 42 0] ++
      [await 42, look 42, look 42, go 42 0] ++
      [await 42, look 42, print 42, go 42 0] ++
      [await 42] ∧
    (straceMain (stopKern 42 (allStops false (.signal 5, 0) failedExec followEnd)) 20 (followCfg false) 42 true (startState false)).2.log.map
        Entry.call ≠ allRequests (followCfg false).view 42 false true 1 failedExec followEnd := by
  refine ⟨stopKern_follows _ _ (by decide +kernel), by decide +kernel, by decide +kernel⟩

end PT
