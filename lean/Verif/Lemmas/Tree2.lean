import Verif.Lemmas.Tree
import Verif.Props.Follow

/-! One stop of one process among many. -/

namespace PT
open PT.Spec

section
variable {K : Kern} {T : Tree} {events th : Bool} {p o : Nat} {s0 s : DSt} {as : List Care} {ss : SysState} {C : StraceCfg}

/-- The wait for any process ends with an event. -/
theorem Found.wait {fuel st} {kind : StatusKind} {v : Nat} {g : List Entry} (hg : s.useSysgood = true)
    (hf : Found K T fuel s (waitAny K (fuel + 1) (fuel + 1) true s) p o kind v st g) {e : Event} {u : DSt}
    (he : processStatus K (waitEventPid K fuel) o st { s with log := s.log ++ g } = (.ok e, u)) :
    waitSyscall K (fuel + 1) none s = filterEvent [133] (some e) u := by
  unfold waitSyscall
  dsimp only
  rw [hg]
  unfold waitSignals waitProcessEvent
  dsimp only [Option.map]
  rw [Py.run_bind_ok (a := some e) (u := u)]
  · rfl
  · rw [hf.result, Py.run_bind_ok he]
    rfl

theorem Doing.stopped (h : Doing events th p o s0 s as ss) :
    Doing events th p o s0 (setProc s o { s.heap o with isStopped := true }) as ss := by
  have h3 := h.update (f := fun p => { p with isStopped := true }) fun p => ⟨rfl, rfl, rfl, rfl, rfl⟩
  dsimp only at h3
  rw [h.ss] at h3
  exact h3

/-- The process, now known to have stopped, is waited for. -/
theorem Doing.wait (hp : p ≠ 0) (h : Doing events th p o s0 s as ss) (hK : Grows K T) (ht : T.thread p = th) {n v : Nat}
    (hs : (T.stops p)[goesTo p s0.log + goCares as]? = some (.signal n, v)) (fuel : Nat) :
    ∃ t, waitEventPid K (fuel + 1) p true s = (.ok (some (.signal o n)), t) ∧ Doing events th p o s0 t (as ++ [.await th]) ss := by
  rcases hK.wait s.log p (.signal n) v false (by rw [h.goes]; exact hs) with ⟨hb, -⟩ | ⟨st, hk, hm⟩
  · cases hb
  · rw [ht, ← h.thread] at hk
    have e1 := wait_found hp (h.dict ▸ h.get) fuel true hk
    have h1 : Doing events th p o s0 { s with log := s.log ++ [⟨.waitpid (some p) (!true) (s.heap o).isThread, .ok p st, s.dict⟩] } (as ++ [.await th]) ss := by
      rw [h.thread]
      refine h.more (fun d => ?_) fun d q hq => ?_
      · unfold care
        cases p with
        | zero => exact absurd rfl hp
        | succ p => simp
      · unfold care
        cases p with
        | zero => exact absurd rfl hp
        | succ p => simp [Ne.symm hq]
    refine ⟨_, ?_, h1.stopped⟩
    rw [e1]
    have e2 : processStatus K (waitEventPid K fuel) o st { s with log := s.log ++ [⟨.waitpid (some p) (!true) (s.heap o).isThread, .ok p st, s.dict⟩] } =
        (.ok (.signal o n), setProc { s with log := s.log ++ [⟨.waitpid (some p) (!true) (s.heap o).isThread, .ok p st, s.dict⟩] } o
          { s.heap o with isStopped := true }) := by
      unfold processStatus
      rw [classify_kind, hm]
      rfl
    rw [Py.run_bind_ok e2]
    rfl

/-- The start of a system call. -/
theorem tree_start (hK : Grows K T) (h : Doing events th p o s0 s as ss) (ho : Outside ss) {regs : Nat} {kind : StatusKind}
    (hs : (T.stops p)[goesTo p s0.log + goCares as]? = some (kind, regs)) (fuel : Nat) :
    ∃ t ss', straceSyscall K fuel C o s = (.ok (), t) ∧ Doing events th p o s0 t
      (as ++ ([.look] ++ (if C.view.shown regs then .look :: (if C.view.enter then [.print] else []) else []) ++ [.go 0])) ss' ∧ InCall C regs ss' ∧
      ∀ c, ss'.syscall = some c → c = ⟨s.log.length, regs, none⟩ := by
  have key : ∃ t ss', sysEvent K fuel C.sys o s = (.ok ss'.syscall, t) ∧
      Doing events th p o s0 t (as ++ ([.look] ++ if C.view.shown regs then [.look] else [])) ss' ∧ InCall C regs ss' ∧
      ∀ c, ss'.syscall = some c → c = ⟨s.log.length, regs, none⟩ := by
    unfold sysEvent
    rw [if_neg (by rw [h.ss, ho.1]; simp)]
    obtain ⟨s2, e2, h2⟩ := h.look hK hs
    obtain ⟨s3, e3, h3⟩ := h2.setSys (f := fun ss => { ss with syscall := some ⟨s.log.length, regs, none⟩, name := some (C.sys.name regs) })
    unfold sysEnter
    rw [h.pid, Py.run_bind_ok e2, Py.run_bind_ok e3]
    rw [h.ss, ho.2]
    cases hsh : C.view.shown regs with
    | true =>
      have hi : C.sys.ignore (C.sys.name regs) = false := by simpa [StraceCfg.view] using hsh
      obtain ⟨s4, e4, h4⟩ := h3.look hK (kind := kind) (regs := regs) (by simpa using hs)
      obtain ⟨s5, e5, h5⟩ := h4.setSys (f := fun ss => { ss with nextExit := true })
      rw [show as ++ ([.look] ++ if true = true then [.look] else []) = as ++ [.look] ++ [.look] by simp]
      refine ⟨s5, _, ?_, h5, ⟨rfl, ho.2, rfl, fun _ => ⟨_, rfl, rfl⟩, fun h => by rw [hsh] at h; cases h⟩, fun c hc => (Option.some.inj hc).symm⟩
      · rw [if_pos (by simp [hi])]
        rw [Py.run_bind_ok (a := ()) (u := s4) (by unfold void; rw [Py.run_bind_ok e4]; rfl), Py.run_bind_ok e5]
        rw [h5.ss]
    | false =>
      have hi : C.sys.ignore (C.sys.name regs) = true := by simpa [StraceCfg.view] using hsh
      obtain ⟨s4, e4, h4⟩ := h3.setSys (f := fun ss => { ss with syscall := none })
      obtain ⟨s5, e5, h5⟩ := h4.setSys (f := fun ss => { ss with nextExit := true })
      rw [show as ++ ([.look] ++ if false = true then [.look] else []) = as ++ [.look] by simp]
      refine ⟨s5, _, ?_, h5, ⟨rfl, ho.2, rfl, (fun h => by rw [hsh] at h; cases h), fun _ => rfl⟩, fun c hc => by cases hc⟩
      · rw [if_neg (by simp [hi])]
        rw [Py.run_bind_ok e4, Py.run_bind_ok e5]
        rw [h5.ss]
  obtain ⟨s2, ss', e2, h2, hin, hsame⟩ := key
  have key2 : ∃ t, (if displayed C.enter ss'.syscall then displaySyscall K o else Py.pure ()) s2 = (.ok (), t) ∧ Doing events th p o s0 t
      (as ++ ([.look] ++ if C.view.shown regs then .look :: (if C.view.enter then [.print] else []) else [])) ss' := by
    cases hsh : C.view.shown regs with
    | true =>
      obtain ⟨c, hc, hr⟩ := hin.shown hsh
      have hd : displayed C.enter ss'.syscall = C.enter := by rw [hc]; simp [displayed, hr]
      rw [hd]
      rw [hsh] at h2
      cases he : C.enter with
      | true =>
        obtain ⟨s3, e3, h3⟩ := h2.show hK
        refine ⟨s3, e3, ?_⟩
        simpa [StraceCfg.view, he] using h3
      | false => exact ⟨s2, rfl, by simpa [StraceCfg.view, he] using h2⟩
    | false =>
      rw [hin.hidden hsh]
      rw [hsh] at h2
      exact ⟨s2, rfl, h2⟩
  obtain ⟨s3, e3, h3⟩ := key2
  obtain ⟨s4, e4, h4⟩ := h3.go hK 0
  refine ⟨s4, ss', ?_, ?_, hin, hsame⟩
  · unfold straceSyscall
    rw [Py.run_bind_ok e2, Py.run_bind_ok e3, e4]
  · rw [List.append_assoc] at h4
    exact h4

/-- Reading the result. -/
theorem tree_result (hK : Grows K T) (h : Doing events th p o s0 s as ss) {regs result : Nat} {kind : StatusKind} (hin : InCall C regs ss)
    (hs : (T.stops p)[goesTo p s0.log + goCares as]? = some (kind, result)) :
    ∃ t ss', sysResult K o s = (.ok (), t) ∧ Doing events th p o s0 t (as ++ if C.view.shown regs then [.look] else []) ss' ∧
      ss'.name = ss.name ∧ ss'.hasCallback = true ∧ displayed C.enter ss'.syscall = C.view.shown regs := by
  unfold sysResult
  rw [h.ss]
  cases hsh : C.view.shown regs with
  | true =>
    obtain ⟨c, hc, hr⟩ := hin.shown hsh
    rw [hc]
    dsimp only
    obtain ⟨s2, e2, h2⟩ := h.look hK hs
    obtain ⟨s3, e3, h3⟩ := h2.setSys (f := fun ss => { ss with syscall := some { c with result := some result } })
    refine ⟨s3, _, ?_, h3, rfl, hin.callback, by simp [displayed]⟩
    rw [h.pid, Py.run_bind_ok e2, e3]
  | false =>
    rw [hin.hidden hsh]
    exact ⟨s, ss, rfl, by simpa using h, rfl, hin.callback, by rw [hin.hidden hsh]; rfl⟩

/-- The end of a call: display and go on. -/
theorem tree_finish (hK : Grows K T) (h : Doing events th p o s0 s as ss) {shown : Bool} {r : Option SysObj}
    (hd : displayed C.enter r = shown) : ∃ t, (Py.bind (if displayed C.enter r then displaySyscall K o else Py.pure ()) fun _ =>
      procSyscall K o 0) s = (.ok (), t) ∧ Doing events th p o s0 t (as ++ ((if shown then [.print] else []) ++ [.go 0])) ss := by
  rw [hd]
  cases shown with
  | true =>
    obtain ⟨s3, e3, h3⟩ := h.show hK
    obtain ⟨s4, e4, h4⟩ := h3.go hK 0
    refine ⟨s4, ?_, by simpa [filterSignal] using h4⟩
    rw [if_pos rfl, Py.run_bind_ok (show displaySyscall K o s = _ from e3), e4]
  | false =>
    obtain ⟨s4, e4, h4⟩ := h.go hK 0
    exact ⟨s4, e4, by simpa [filterSignal] using h4⟩

/-- The end of a system call, if nothing else has to be awaited. -/
theorem tree_end (hK : Grows K T) (h : Doing events th p o s0 s as ss) {regs result : Nat} {kind : StatusKind} (hin : InCall C regs ss)
    (hx : C.sys.name regs = execveName → events = true) (hs : (T.stops p)[goesTo p s0.log + goCares as]? = some (kind, result)) (fuel : Nat) :
    ∃ t ss', straceSyscall K fuel C o s = (.ok (), t) ∧
      Doing events th p o s0 t (as ++ ((if C.view.shown regs then [.look, .print] else []) ++ [.go 0])) ss' ∧ Outside ss' := by
  obtain ⟨s2, ss2, e2, h2, hn, hcb, hd⟩ := tree_result hK h hin hs
  obtain ⟨s3, e3, h3⟩ := h2.setSys (f := fun ss => { ss with syscall := none, name := none, nextExit := false })
  obtain ⟨s4, e4, h4⟩ := tree_finish hK h3 hd
  rw [show as ++ ((if C.view.shown regs then [.look, .print] else []) ++ [.go 0]) =
      as ++ (if C.view.shown regs then [.look] else []) ++ ((if C.view.shown regs then [.print] else []) ++ [.go 0]) by
        split <;> simp]
  refine ⟨s4, _, ?_, h4, ⟨rfl, hcb⟩⟩
  unfold straceSyscall
  rw [Py.run_bind_ok (a := ss2.syscall) (u := s3)]
  · exact e4
  · unfold sysEvent
    rw [if_pos (by rw [h.ss, hin.exit])]
    unfold sysExit
    rw [Py.run_bind_ok e2]
    rw [Py.run_bind_ok (a := ()) (u := s2)]
    · unfold sysClear
      rw [Py.run_bind_ok e3, h2.ss]
      rfl
    · unfold sysExecTrap
      rw [if_neg]
      rintro ⟨g1, g2⟩
      rw [h2.ss, hn, hin.name] at g1
      injection g1 with g1
      rw [h2.exec, hx g1] at g2
      cases g2

/-- The end of `execve` with the trap that follows it. -/
theorem tree_exec (hp : p ≠ 0) (hK : Grows K T) (ht : T.thread p = th) (h : Doing false th p o s0 s as ss) {regs result v : Nat} {kind : StatusKind}
    (hin : InCall C regs ss) (hx : C.sys.name regs = execveName) (hs : (T.stops p)[goesTo p s0.log + goCares as]? = some (kind, result))
    (hs2 : (T.stops p)[goesTo p s0.log + goCares as + 1]? = some (.signal 5, v)) (fuel : Nat) :
    ∃ t ss', straceSyscall K (fuel + 1) C o s = (.ok (), t) ∧
      Doing false th p o s0 t (as ++ ((if C.view.shown regs then [.look] else []) ++ [.go 0] ++
        (.await th :: (if C.view.shown regs then [.print] else []) ++ [.go 0]))) ss' ∧ Outside ss' := by
  obtain ⟨s2, ss2, e2, h2, hn, hcb, hd⟩ := tree_result hK h hin hs
  obtain ⟨s3, e3, h3⟩ := h2.go hK 0
  obtain ⟨s4, e4, h4⟩ := h3.wait hp hK ht (n := 5) (v := v) (by
    rw [goCares_append, goCares_append, goCares_go]
    split <;> simpa [Nat.add_assoc] using hs2) fuel
  obtain ⟨s5, e5, h5⟩ := h4.setSys (f := fun ss => { ss with syscall := none, name := none, nextExit := false })
  obtain ⟨s6, e6, h6⟩ := tree_finish hK h5 hd
  rw [show as ++ ((if C.view.shown regs then [.look] else []) ++ [.go 0] ++ (.await th :: (if C.view.shown regs then [.print] else []) ++ [.go 0])) =
      as ++ (if C.view.shown regs then [.look] else []) ++ [.go (filterSignal 0)] ++ [.await th] ++
        ((if C.view.shown regs then [.print] else []) ++ [.go 0]) by
        split <;> simp [filterSignal]]
  refine ⟨s6, _, ?_, h6, ⟨rfl, hcb⟩⟩
  unfold straceSyscall
  rw [Py.run_bind_ok (a := ss2.syscall) (u := s5)]
  · exact e6
  · unfold sysEvent
    rw [if_pos (by rw [h.ss, hin.exit])]
    unfold sysExit
    rw [Py.run_bind_ok e2]
    rw [Py.run_bind_ok (a := ()) (u := s4)]
    · unfold sysClear
      rw [Py.run_bind_ok e5, h4.ss]
      rfl
    · unfold sysExecTrap
      rw [if_pos ⟨by rw [h2.ss, hn, hin.name, hx], h2.exec⟩, Py.run_bind_ok e3]
      unfold void waitSignals waitProcessEvent
      rw [h2.pid]
      dsimp only
      rw [Py.run_bind_ok (a := Event.signal o 5) (u := s4)]
      · rfl
      · rw [Py.run_bind_ok e4]
        rfl

/-- A signal is shown and passed on. -/
theorem tree_signal (hK : Grows K T) (h : Doing events th p o s0 s as ss) (n fuel code : Nat) :
    ∃ t, straceHandle K fuel C (.error (.event (.signal o n))) code s = (.ok (128 + n), t) ∧
      Doing events th p o s0 t (as ++ [.print, .go (if n = 5 then 0 else n)]) ss := by
  obtain ⟨s2, e2, h2⟩ := h.show hK
  obtain ⟨s3, e3, h3⟩ := h2.go hK n
  have hf : filterSignal n = if n = 5 then 0 else n := by
    unfold filterSignal
    by_cases hc : n = 5
    · rw [if_pos hc, if_pos (show n = SIGTRAP from hc)]
    · rw [if_neg hc, if_neg (show ¬n = SIGTRAP from hc)]
  rw [hf] at h3
  refine ⟨s3, ?_, by simpa only [List.append_assoc, List.cons_append, List.nil_append] using h3⟩
  unfold straceHandle
  dsimp only
  rw [Py.run_bind_ok e2, Py.run_bind_ok e3]
  rfl

end

end PT
