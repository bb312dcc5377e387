import Verif.Props.Tree
import Verif.Props.Printed

/-! Property theorems C131: what strace.py prints for a tree of processes. -/

namespace PT
open PT.Spec

section
variable {K : Kern} {T : Tree} {C : StraceCfg} {events attached : Bool} {options : Nat} {s : DSt} {k : Nat → Nat} {F : LineView}

/-! ## more requests -/

theorem stopped_more {log : List Entry} {p i now : Nat} (h : StoppedAt log p i now) (g : List Entry) : StoppedAt (log ++ g) p i now := by
  obtain ⟨h1, h2, h3⟩ := h
  refine ⟨by rw [List.length_append]; omega, ?_, ?_⟩ <;> rw [List.take_append_of_le_length h1] <;> assumption

theorem stopLines_more {W : Wish} {root p started now : Nat} {log : List Entry} (g : List Entry) (hn : now ≤ log.length) {pl : Place} {x : Report}
    {lines : List Str} (h : StopLines F W root log p started now pl x lines) : StopLines F W root (log ++ g) p started now pl x lines := by
  obtain ⟨kind, v⟩ := x
  cases pl <;> cases kind <;> simp only [StopLines] at h ⊢ <;> first | exact h | (rw [List.take_append_of_le_length hn]; exact h)

theorem procBlocks_more {W : Wish} {root p started : Nat} {log : List Entry} {wall : Bool} {stops : List Report} {bs : List Block}
    (h : ProcBlocks F W root log p wall stops started bs) (g : List Entry) : ProcBlocks F W root (log ++ g) p wall stops started bs := by
  induction h with
  | nil => exact .nil
  | snoc h hn hl ih => exact .snoc ih (stopped_more hn g) (stopLines_more g hn.1 hl)

/-- The start of the call the process is in. -/
def startedAfter (pl : Place) (now started : Nat) : Nat := match pl with
  | .outside => now
  | _ => started

/-- One stop more. -/
theorem procBlocks_next {W : Wish} {root p started now i : Nat} {log : List Entry} {wall : Bool} {stops : List Report} {bs : List Block} {x : Report}
    {lines : List Str} (hx : stops[i]? = some x) (h : ProcBlocks F W root log p wall (stops.take i) started bs) (hn : StoppedAt log p i now)
    (hl : StopLines F W root log p started now (history W wall (stops.take i)).1 x lines) :
    ProcBlocks F W root log p wall (stops.take (i + 1)) (startedAfter (history W wall (stops.take i)).1 now started)
      (bs ++ [⟨p, lines, stopCode (history W wall (stops.take i)).1 x.1⟩]) := by
  have hi : i < stops.length := (List.getElem?_eq_some_iff.1 hx).1
  have := ProcBlocks.snoc (now := now) (x := x) (lines := lines) h (by rw [List.length_take, Nat.min_eq_left (by omega)]; exact hn) hl
  rw [List.take_add_one, hx]
  exact this

/-- There is a time at which a stop that was dealt with was told. -/
theorem Between.moment (h : Between T C events attached options s k) (hT : T.Good (C.wish events options)) {p i : Nat} (hi : i < k p) :
    ∃ now, StoppedAt s.log p i now := by
  have hp : 0 < k p := by omega
  have hb := h.tree p hp
  have hl := h.le p
  have hx : (T.stops p)[i]? = some (T.stops p)[i] := List.getElem?_eq_getElem (by omega)
  generalize (T.stops p)[i] = x at hx
  have hfine := hT.fine p hb i x hx
  have hc := history_counts (W := C.wish events options) (th := T.thread p) (hT.fine p hb) i (by omega)
  have hone : ∃ rest, (oneStop (C.wish events options) (T.thread p) (history (C.wish events options) (T.thread p) ((T.stops p).take i)).1 x).2 =
      .await (T.thread p) :: rest := by
    obtain ⟨kind, v⟩ := x
    generalize (history (C.wish events options) (T.thread p) ((T.stops p).take i)).1 = pl at hfine
    cases pl <;> cases kind <;> simp only [oneStop] <;> simp only [CanStop] at hfine <;> first
      | exact hfine.elim
      | exact ⟨_, rfl⟩
      | (split <;> first | exact ⟨_, rfl⟩ | (split <;> exact ⟨_, rfl⟩))
  obtain ⟨rest, hrest⟩ := hone
  have hlong : ∃ more, (history (C.wish events options) (T.thread p) ((T.stops p).take (k p))).2 =
      (history (C.wish events options) (T.thread p) ((T.stops p).take (i + 1))).2 ++ more := by
    have : ∀ n, i + 1 + n ≤ k p → ∃ more, (history (C.wish events options) (T.thread p) ((T.stops p).take (i + 1 + n))).2 =
        (history (C.wish events options) (T.thread p) ((T.stops p).take (i + 1))).2 ++ more := by
      intro n
      induction n with
      | zero => intro _; exact ⟨[], by simp⟩
      | succ n ih =>
        intro hn
        obtain ⟨more, hm⟩ := ih (by omega)
        have hy : (T.stops p)[i + 1 + n]? = some (T.stops p)[i + 1 + n] := List.getElem?_eq_getElem (by omega)
        rw [show i + 1 + (n + 1) = i + 1 + n + 1 by omega, history_succ hy, hm]
        exact ⟨_, by rw [List.append_assoc]⟩
    obtain ⟨more, hm⟩ := this (k p - (i + 1)) (by omega)
    rw [show i + 1 + (k p - (i + 1)) = k p by omega] at hm
    exact ⟨more, hm⟩
  obtain ⟨more, hmore⟩ := hlong
  have hlog := h.log p
  rw [hmore, history_succ hx] at hlog
  dsimp only at hlog
  rw [hrest] at hlog
  generalize (history (C.wish events options) (T.thread p) ((T.stops p).take i)).2 = before at hlog hc
  have e : cares p s.log = ((if p = T.root ∧ attached = false then [.attach] else []) ++ before ++ [.await (T.thread p)]) ++ (rest ++ more) := by
    rw [hlog]; simp
  unfold cares at e
  obtain ⟨l1, l2, hl12, c1, -⟩ := List.filterMap_eq_append_iff.1 e
  refine ⟨l1.length, by rw [hl12]; simp, ?_, ?_⟩
  · rw [hl12, List.take_left]
    show awaitCares (cares p l1) = _
    unfold cares
    rw [c1, awaitCares_append, awaitCares_append, hc.1]
    split <;> simp
  · rw [hl12, List.take_left]
    show goCares (cares p l1) = _
    unfold cares
    rw [c1, goCares_append, goCares_append, hc.2 (by
      intro ho
      rw [ho] at hfine
      exact hfine)]
    split <;> simp

/-! ## what has been printed so far -/

/-- `blocks` have been printed, and the calls that processes are in are those seen to start. -/
structure Said (T : Tree) (C : StraceCfg) (F : LineView) (events : Bool) (options : Nat) (s : DSt) (k : Nat → Nat) (blocks : List Block)
    (started : Nat → Nat) : Prop where
  order : blocks.map Block.pid = reported s.log
  each : ∀ p, ProcBlocks F (C.wish events options) T.root s.log p (T.thread p) ((T.stops p).take (k p)) (started p) (blocks.filter fun b => b.pid == p)
  call : ∀ p o regs c, dictGet s.dict p = some o → (history (C.wish events options) (T.thread p) ((T.stops p).take (k p))).1 = .inside regs →
    (s.heap o).ss.syscall = some c → c = ⟨started p, regs, none⟩

/-- The lines of a turn are those of the stop. -/
theorem stop_lines (hK : Grows K T) (h : Between T C events attached options s k) (hT : T.Good (C.wish events options)) {fuel : Nat} {p o : Nat} {kind v st g}
    {w} (hf : Found K T fuel s w p o kind v st g) {r : Except Exc Event} {u : DSt} {n started : Nat} {log : List Entry} {lines : List Str}
    (hcall : ∀ regs c, (history (C.wish events options) (T.thread p) ((T.stops p).take (k p))).1 = .inside regs → (s.heap o).ss.syscall = some c →
      c = ⟨started, regs, none⟩)
    (hans : Answer u o kind v r) (hno : ∀ m, kind = .event m → m = 4)
    (hu : u.log = s.log ++ g ∧ (u.heap o).ss = (s.heap o).ss ∧ (u.heap o).pid = p ∧ u.next = n) (hlog : log.take (s.log ++ g).length = s.log ++ g)
    (ht : TurnLines K C F u r lines) :
    StopLines F (C.wish events options) T.root log p started (s.log ++ g).length
      (history (C.wish events options) (T.thread p) ((T.stops p).take (k p))).1 (kind, v) lines := by
  obtain ⟨h1, h2, hs, -, -⟩ := h.found hT hf
  obtain ⟨-, -, -, hat⟩ := h.obj p o hf.get
  have hcan := hT.fine p (h.tree p h1) _ _ hs
  obtain ⟨hul, hss, hpid, -⟩ := hu
  have hgo : (T.stops p)[goesTo p u.log]? = some (kind, v) := by
    rw [hul, goesTo_append, hf.idle, if_pos rfl]
    exact hf.stop
  obtain ⟨st', hlook⟩ := (hK.look u.log p kind v o hgo).1
  cases kind with
  | unknown =>
    exact hans.elim
  | event m =>
    have hm := hno m rfl
    subst hm
    have hr : r = .error (.event (.execution o)) := hans
    subst hr
    obtain ⟨num, h3, h4⟩ := ht
    rw [hpid] at h3
    generalize (history (C.wish events options) (T.thread p) ((T.stops p).take (k p))).1 = pl at hat
    cases pl with
    | outside => exact ⟨num, h3, h4⟩
    | inside regs => exact ⟨num, h3, h4⟩
    | unborn => exact hat.elim
    | trap => exact hat.elim
    | over => exact hat.elim
  | exited c =>
    have hr : r = .error (.event (.exit o none (some c))) := hans
    subst hr
    obtain ⟨cut, last, h3, h4, h5, h6⟩ := ht
    rw [hpid] at h4 h5
    rw [hss] at h5 h6
    generalize (history (C.wish events options) (T.thread p) ((T.stops p).take (k p))).1 = pl at hat hcall
    cases pl with
    | outside =>
      refine ⟨last, ?_, h4⟩
      rw [h3, h6 (Or.inr (Or.inl hat.1))]
      rfl
    | inside regs =>
      refine ⟨cut, last, h3, h4, ?_⟩
      cases hsh : C.view.shown regs with
      | false => rw [if_neg (by rw [show (C.wish events options).view = C.view from rfl, hsh]; simp)]; exact h6 (Or.inr (Or.inr (hat.hidden hsh)))
      | true =>
        cases he : C.enter with
        | true => rw [if_neg (by rw [show (C.wish events options).view.enter = C.enter from rfl, he]; simp)]; exact h6 (Or.inl he)
        | false =>
          rw [if_pos (by rw [show (C.wish events options).view.enter = C.enter from rfl, show (C.wish events options).view = C.view from rfl, he, hsh]; rfl)]
          obtain ⟨c', hc, -⟩ := hat.shown hsh
          obtain ⟨line, h7, h8⟩ := h5 c' he hat.exit hc
          rw [hcall regs c' rfl hc] at h8
          exact ⟨line, h7, h8⟩
    | unborn => exact hat.elim
    | trap => exact hat.elim
    | over => exact hat.elim
  | killed m =>
    have hr : r = .error (.event (.exit o (some m) none)) := hans
    subst hr
    obtain ⟨cut, last, h3, h4, h5, h6⟩ := ht
    rw [hpid] at h4 h5
    rw [hss] at h5 h6
    generalize (history (C.wish events options) (T.thread p) ((T.stops p).take (k p))).1 = pl at hat hcall
    cases pl with
    | outside =>
      refine ⟨last, ?_, h4⟩
      rw [h3, h6 (Or.inr (Or.inl hat.1))]
      rfl
    | inside regs =>
      refine ⟨cut, last, h3, h4, ?_⟩
      cases hsh : C.view.shown regs with
      | false => rw [if_neg (by rw [show (C.wish events options).view = C.view from rfl, hsh]; simp)]; exact h6 (Or.inr (Or.inr (hat.hidden hsh)))
      | true =>
        cases he : C.enter with
        | true => rw [if_neg (by rw [show (C.wish events options).view.enter = C.enter from rfl, he]; simp)]; exact h6 (Or.inl he)
        | false =>
          rw [if_pos (by rw [show (C.wish events options).view.enter = C.enter from rfl, show (C.wish events options).view = C.view from rfl, he, hsh]; rfl)]
          obtain ⟨c', hc, -⟩ := hat.shown hsh
          obtain ⟨line, h7, h8⟩ := h5 c' he hat.exit hc
          rw [hcall regs c' rfl hc] at h8
          exact ⟨line, h7, h8⟩
    | unborn => exact hat.elim
    | trap => exact hat.elim
    | over => exact hat.elim
  | signal m =>
    by_cases hm : m = 133
    · subst hm
      have hr : r = .ok (.signal o 133) := hans
      subst hr
      generalize (history (C.wish events options) (T.thread p) ((T.stops p).take (k p))).1 = pl at hat hcall
      cases pl with
      | outside =>
        change if _ then _ else _ at ht
        rw [if_neg (by show ¬(u.heap o).ss.nextExit = true; rw [hss, hat.1]; simp)] at ht
        dsimp only [Event.proc] at ht
        obtain ⟨regs', ⟨st', hk'⟩, h3, h4⟩ := ht
        rw [hpid, hlook] at hk'
        injection hk' with hr
        subst hr
        rw [hss, hat.2] at h3 h4
        rw [hpid, hul] at h4
        simp only [StopLines]
        rw [if_pos trivial]
        show if C.view.shown v && C.enter then _ else _
        cases hsh : C.view.shown v with
        | false =>
          have hi : C.sys.ignore (C.sys.name v) = true := by simpa [StraceCfg.view] using hsh
          exact h3 (Or.inr ⟨rfl, hi⟩)
        | true =>
          have hi : C.sys.ignore (C.sys.name v) = false := by simpa [StraceCfg.view] using hsh
          cases he : C.enter with
          | false => exact h3 (Or.inl he)
          | true => exact h4 he (Or.inr hi)
      | inside regs =>
        change if _ then _ else _ at ht
        rw [if_pos (by show (u.heap o).ss.nextExit = true; rw [hss, hat.exit])] at ht
        dsimp only [Event.proc] at ht
        rw [hss] at ht
        simp only [StopLines]
        rw [if_pos trivial]
        show if C.view.shown regs then _ else _
        cases hsh : C.view.shown regs with
        | false => rw [hat.hidden hsh] at ht; exact ht
        | true =>
          obtain ⟨c, hc, _⟩ := hat.shown hsh
          rw [hc] at ht
          obtain ⟨x, line, ⟨st', hk'⟩, hl, hline⟩ := ht
          rw [hpid, hlook] at hk'
          injection hk' with hr
          subst hr
          rw [hcall regs c rfl hc, hpid] at hline
          rw [if_pos rfl]
          exact ⟨line, hl, hline⟩
      | unborn => exact hat.elim
      | trap => exact hat.elim
      | over => exact hat.elim
    · have hr : r = .error (.event (.signal o m)) := by
        have : r = if m = 133 then .ok (.signal o 133) else .error (.event (.signal o m)) := hans
        rw [if_neg hm] at this
        exact this
      subst hr
      have ht : lines = F.signal u o m := ht
      generalize (history (C.wish events options) (T.thread p) ((T.stops p).take (k p))).1 = pl at hat
      cases pl with
      | outside =>
        show if m = 133 then _ else _
        rw [if_neg hm]
        exact ⟨u, o, by rw [hlog, hul], hpid, ht⟩
      | inside regs =>
        show if m = 133 then _ else _
        rw [if_neg hm]
        exact ⟨u, o, by rw [hlog, hul], hpid, ht⟩
      | unborn => exact hat.elim
      | trap => exact hat.elim
      | over => exact hat.elim

/-- There is a block for each stop. -/
theorem procBlocks_length {W : Wish} {root p st : Nat} {log : List Entry} {wall : Bool} {stops : List Report} {bs : List Block}
    (h : ProcBlocks F W root log p wall stops st bs) : bs.length = stops.length := by
  induction h with
  | nil => rfl
  | snoc _ _ _ ih => rw [List.length_append, List.length_append, ih]; rfl

/-- The place of a process that is known. -/
theorem Between.place (h : Between T C events attached options s k) {p o : Nat} (hget : dictGet s.dict p = some o) :
    ((history (C.wish events options) (T.thread p) ((T.stops p).take (k p))).1 = .outside ∧ Outside (s.heap o).ss) ∨
    ∃ regs, (history (C.wish events options) (T.thread p) ((T.stops p).take (k p))).1 = .inside regs ∧ InCall C regs (s.heap o).ss := by
  obtain ⟨-, -, -, hat⟩ := h.obj p o hget
  generalize (history (C.wish events options) (T.thread p) ((T.stops p).take (k p))).1 = pl at hat
  cases pl with
  | outside => exact Or.inl ⟨rfl, hat⟩
  | inside regs => exact Or.inr ⟨regs, rfl, hat⟩
  | unborn => exact hat.elim
  | trap => exact hat.elim
  | over => exact hat.elim

/-- The exit code after a block. -/
def Block.after (code : Nat) (b : Block) : Nat := b.code.getD code

/-- The process of the event of a turn is one the debugger has. -/
theorem turn_proc (h : Between T C events attached options s k) {p o : Nat} {kind : StatusKind} {v f : Nat} {g : List Entry} {t : DSt} {k' : Nat → Nat}
    {r : Except Exc Event} {u : DSt} (hget : dictGet s.dict p = some o) (ht : Turn K T C events options f s t k k' p o kind v g r u) :
    ∀ ev, r = .ok ev → ev.proc < u.next := by
  intro ev he
  subst he
  have hans := ht.answer
  cases kind with
  | signal n =>
    obtain ⟨-, -, -, hn⟩ := ht.seen (fun m hm => by cases hm)
    have hans : Except.ok ev = if n = 133 then Except.ok (Event.signal o 133) else Except.error (Exc.event (.signal o n)) := hans
    split at hans
    · injection hans with hans
      subst hans
      rw [hn]
      exact h.reg.alloc o ((h.reg.agree p o).1 (dictGet_some hget)).1
    · cases hans
  | exited c => cases (show Except.ok ev = Except.error _ from hans)
  | killed c => cases (show Except.ok ev = Except.error _ from hans)
  | unknown => exact hans.elim
  | event m =>
    have hans : if m = 4 then Except.ok ev = Except.error (Exc.event (.execution o)) else ∃ q, Except.ok ev = Except.error (Exc.event (.newProcess q)) ∧ (u.heap q).pid = v :=
      hans
    split at hans
    · cases hans
    · obtain ⟨q, hq, -⟩ := hans; cases hq

/-- One turn prints the block of a stop; or two, if a process is new or a trap follows `execve`. -/
theorem said_turn (hK : Grows K T) (h : Between T C events attached options s k) (hT : T.Good (C.wish events options)) {blocks : List Block}
    {started : Nat → Nat} (hsd : Said T C F events options s k blocks started) {fuel p o : Nat} {kind v st g} {w}
    (hf : Found K T fuel s w p o kind v st g) {t : DSt} {k' : Nat → Nat} {r : Except Exc Event} {u : DSt} {f code code' : Nat}
    (ht : Turn K T C events options f s t k k' p o kind v g r u) (hbt : Between T C events attached options t k')
    (hh : straceHandle K f C r code u = (.ok code', t)) {lines : List Str} (hlines : TurnLines K C F u r lines) :
    ∃ bs started', lines = bs.flatMap Block.lines ∧ Said T C F events options t k' (blocks ++ bs) started' ∧ code' = bs.foldl Block.after code := by
  obtain ⟨h1, h2, hs, -, -⟩ := h.found hT hf
  have hb := h.tree p h1
  have hcan := hT.fine p hb _ _ hs
  have hsucc := history_succ (W := C.wish events options) (th := T.thread p) hs
  -- the log
  have hproc := turn_proc h hf.get ht
  obtain ⟨⟨gt, hgt, -⟩, hcode⟩ := straceHandle_acts f C r code code' u t hproc hh
  obtain ⟨l, hl⟩ := ht.pre
  have hlog : t.log = s.log ++ g ++ (l ++ gt) := by rw [hgt, hl, List.append_assoc]
  have htake : t.log.take (s.log ++ g).length = s.log ++ g := by rw [hlog, List.take_left]
  have hnow : StoppedAt t.log p (k p) (s.log ++ g).length := by
    refine ⟨by rw [hlog, List.length_append (as := s.log ++ g)]; omega, ?_, ?_⟩
    · rw [htake, awaits_eq, cares_append, hf.idle, if_pos rfl, awaitCares_append, ← awaits_eq, h.awaits hT h1]
      rfl
    · rw [htake, goesTo_append, hf.idle, if_pos rfl, h.goes hT h1 h2]
      rfl
  have hold : ∀ q, ProcBlocks F (C.wish events options) T.root t.log q (T.thread q) ((T.stops q).take (k q)) (started q)
      (blocks.filter fun b => b.pid == q) := by
    intro q
    rw [hlog, List.append_assoc]
    exact procBlocks_more (hsd.each q) _
  -- the calls of other processes
  have hother : ∀ q o' regs c, q ≠ p → k' q = k q → dictGet t.dict q = some o' →
      (history (C.wish events options) (T.thread q) ((T.stops q).take (k' q))).1 = .inside regs → (t.heap o').ss.syscall = some c →
      c = ⟨started q, regs, none⟩ := by
    intro q o' regs c hq hk hget hpl hc
    have hpos := ((hbt.mem q).1 ⟨o', hget⟩).1
    rw [hk] at hpos hpl
    obtain ⟨h3, h4⟩ := ht.kept q o' hq hpos hget
    rw [h4] at hc
    exact hsd.call q o' regs c h3 hpl hc
  have hcall : ∀ regs c, (history (C.wish events options) (T.thread p) ((T.stops p).take (k p))).1 = .inside regs → (s.heap o).ss.syscall = some c →
      c = ⟨started p, regs, none⟩ := fun regs c => hsd.call p o regs c hf.get
  -- the call of this process
  have hown : k' p = k p + 1 → ∀ o' regs c, dictGet t.dict p = some o' →
      (history (C.wish events options) (T.thread p) ((T.stops p).take (k' p))).1 = .inside regs → (t.heap o').ss.syscall = some c →
      c = ⟨startedAfter (history (C.wish events options) (T.thread p) ((T.stops p).take (k p))).1 (s.log ++ g).length (started p), regs, none⟩ := by
    intro hk o' regs c hget hpl hc
    obtain ⟨rfl, h3⟩ := ht.own o' hget
    have hin : InCall C regs (t.heap o').ss := by
      rcases hbt.place hget with ⟨h4, -⟩ | ⟨regs', h4, h5⟩
      · rw [h4] at hpl; cases hpl
      · rw [h4] at hpl; injection hpl with hpl; subst hpl; exact h5
    rw [hk, hsucc] at hpl
    rcases h.place hf.get with ⟨h4, h5⟩ | ⟨regs', h4, h5⟩
    · rw [h4] at hpl ⊢
      rcases h3 with h3 | h3 | ⟨-, h3⟩
      · have := hin.exit
        rw [h3, h5.1] at this
        cases this
      · have := hin.exit
        rw [h3.1] at this
        cases this
      · have : regs = v := by
          cases kind with
          | signal n =>
            simp only [oneStop] at hpl
            split at hpl
            · injection hpl with hpl; exact hpl.symm
            · cases hpl
          | _ => simp only [oneStop] at hpl; cases hpl
        subst this
        exact h3 c hc
    · have hr : regs = regs' := by
        rw [h4] at hpl
        cases kind with
        | signal n =>
          simp only [oneStop] at hpl
          split at hpl
          · split at hpl <;> cases hpl
          · injection hpl with hpl; exact hpl.symm
        | event n =>
          simp only [oneStop] at hpl
          injection hpl with hpl; exact hpl.symm
        | _ => simp only [oneStop] at hpl; cases hpl
      subst hr
      rcases h3 with h3 | h3 | ⟨h3, -⟩
      · rw [h3] at hc
        rw [h4]
        exact hcall regs c h4 hc
      · have := hin.exit
        rw [h3.1] at this
        cases this
      · have := h5.exit
        rw [h3.1] at this
        cases this
  have filter_self : ∀ (b : Block), b.pid = p → (blocks ++ [b]).filter (fun b => b.pid == p) = blocks.filter (fun b => b.pid == p) ++ [b] := by
    intro b hb
    simp [List.filter_append, hb]
  have filter_none : ∀ (bs : List Block) (q : Nat), (∀ b ∈ bs, b.pid ≠ q) → (blocks ++ bs).filter (fun b => b.pid == q) = blocks.filter (fun b => b.pid == q) := by
    intro bs q hq
    rw [List.filter_append, (List.filter_eq_nil_iff (l := bs)).2 (by intro b hb; simp [hq b hb]), List.append_nil]
  rcases ht.shape with ⟨hk', hrep, hno⟩ | ⟨hkind, ⟨regs, hpl, hx1, hx2⟩, ⟨v2, hs2⟩, hk', hrep⟩ | ⟨m, hkind, hm, hk', hrep⟩
  · -- one stop
    have hstop := stop_lines (started := started p) (log := t.log) hK h hT hf hcall ht.answer hno (ht.seen hno) htake hlines
    refine ⟨[⟨p, lines, stopCode (history (C.wish events options) (T.thread p) ((T.stops p).take (k p))).1 kind⟩],
      setPos started p (startedAfter (history (C.wish events options) (T.thread p) ((T.stops p).take (k p))).1 (s.log ++ g).length (started p)),
      by simp, ⟨?_, ?_, ?_⟩, ?_⟩
    · rw [List.map_append, hsd.order, hrep]; rfl
    · intro q
      by_cases hq : q = p
      · subst hq
        rw [filter_self _ rfl, hk', setPos_self, setPos_self]
        exact procBlocks_next hs (hold q) hnow hstop
      · rw [filter_none _ q (by simp [Ne.symm hq]), hk', setPos_ne _ _ hq, setPos_ne _ _ hq]
        exact hold q
    · intro q o' regs c hget hpl hc
      by_cases hq : q = p
      · subst hq
        rw [setPos_self]
        exact hown (by rw [hk', setPos_self]) o' regs c hget hpl hc
      · rw [setPos_ne _ _ hq]
        exact hother q o' regs c hq (by rw [hk', setPos_ne _ _ hq]) hget hpl hc
    · rw [hcode]
      show _ = (stopCode _ kind).getD code
      have hans := ht.answer
      have hpl : (∃ regs, (history (C.wish events options) (T.thread p) ((T.stops p).take (k p))).1 = .inside regs) ∨
          (history (C.wish events options) (T.thread p) ((T.stops p).take (k p))).1 = .outside := by
        rcases h.place hf.get with ⟨h4, -⟩ | ⟨regs', h4, -⟩
        · exact Or.inr h4
        · exact Or.inl ⟨_, h4⟩
      cases kind with
      | signal n =>
        have hans : r = if n = 133 then .ok (.signal o 133) else .error (.event (.signal o n)) := hans
        rcases hpl with ⟨regs, hpl⟩ | hpl <;> rw [hpl, hans] <;> by_cases hn : n = 133 <;> simp [stopCode, hn, Spec.codeAfter]
      | exited c =>
        have hans : r = .error (.event (.exit o none (some c))) := hans
        rcases hpl with ⟨regs, hpl⟩ | hpl <;> rw [hpl, hans] <;> rfl
      | killed n =>
        have hans : r = .error (.event (.exit o (some n) none)) := hans
        rcases hpl with ⟨regs, hpl⟩ | hpl <;> rw [hpl, hans] <;> rfl
      | unknown => exact hans.elim
      | event m =>
        have hm := hno m rfl
        subst hm
        have hans : r = .error (.event (.execution o)) := hans
        rcases hpl with ⟨regs, hpl⟩ | hpl <;> rw [hpl, hans] <;> rfl
  · -- `execve` and the trap
    subst hkind
    have hno : ∀ m, StatusKind.signal 133 = .event m → m = 4 := fun m hm => by cases hm
    have hstop := stop_lines (started := started p) (log := t.log) hK h hT hf hcall ht.answer hno (ht.seen hno) htake hlines
    have hone : oneStop (C.wish events options) (T.thread p) (.inside regs) (.signal 133, v) =
        (.trap regs, .await (T.thread p) :: (if C.view.shown regs then [.look] else []) ++ [.go 0]) := by
      simp only [oneStop]
      rw [if_pos trivial, if_pos (show ((C.wish events options).exec regs && !(C.wish events options).events) = true by simp [StraceCfg.wish, hx1, hx2])]
      rfl
    have hpl2 : (history (C.wish events options) (T.thread p) ((T.stops p).take (k p + 1))).1 = .trap regs := by
      rw [hsucc, hpl, hone]
    have hsucc2 := history_succ (W := C.wish events options) (th := T.thread p) hs2
    obtain ⟨now2, hnow2⟩ := hbt.moment hT (p := p) (i := k p + 1) (by rw [hk', setPos_self]; omega)
    have hfirst := procBlocks_next hs (hold p) hnow hstop
    have hsecond := procBlocks_next (lines := []) hs2 hfirst hnow2 (by rw [hpl2]; exact rfl)
    rw [hpl2, hpl] at hsecond
    refine ⟨[⟨p, lines, none⟩, ⟨p, [], none⟩], started, by simp, ⟨?_, ?_, ?_⟩, ?_⟩
    · rw [List.map_append, hsd.order, hrep]; rfl
    · intro q
      by_cases hq : q = p
      · subst hq
        rw [hk', setPos_self]
        rw [show blocks ++ [(⟨q, lines, none⟩ : Block), ⟨q, [], none⟩] = (blocks ++ [(⟨q, lines, none⟩ : Block)]) ++ [(⟨q, [], none⟩ : Block)] by simp]
        have e : ((blocks ++ [(⟨q, lines, none⟩ : Block)]) ++ [(⟨q, [], none⟩ : Block)]).filter (fun b => b.pid == q) =
            blocks.filter (fun b => b.pid == q) ++ [⟨q, lines, none⟩] ++ [⟨q, [], none⟩] := by
          simp [List.filter_append]
        rw [e]
        exact hsecond
      · rw [filter_none _ q (by simp [Ne.symm hq]), hk', setPos_ne _ _ hq]
        exact hold q
    · intro q o' regs' c hget hpl' hc
      by_cases hq : q = p
      · subst hq
        rw [hk', setPos_self, show k q + 2 = k q + 1 + 1 from rfl, hsucc2, hpl2] at hpl'
        cases hpl'
      · exact hother q o' regs' c hq (by rw [hk', setPos_ne _ _ hq]) hget hpl' hc
    · have hans : r = .ok (.signal o 133) := ht.answer
      rw [hcode, hans]
      rfl
  · -- a new process
    subst hkind
    have hforks : T.Forks p (k p) v := ⟨m, hs, hm⟩
    have hc0 := h.fresh hT hforks
    have hvp : v ≠ p := by rintro rfl; omega
    have hans : if m = 4 then r = .error (.event (.execution o)) else ∃ q, r = .error (.event (.newProcess q)) ∧ (u.heap q).pid = v := ht.answer
    rw [if_neg hm] at hans
    obtain ⟨q0, rfl, hq0⟩ := hans
    obtain ⟨num, hnum, hline⟩ := hlines
    rw [hq0] at hnum
    obtain ⟨x, hx⟩ : ∃ x, (T.stops v)[0]? = some x := by
      cases hx : T.stops v with
      | nil =>
        have := hT.ends v (.child hb hforks)
        rw [hx] at this
        cases this
      | cons x xs => exact ⟨x, rfl⟩
    obtain ⟨now2, hnow2⟩ := hbt.moment hT (p := v) (i := 0) (by rw [hk', setPos_self]; omega)
    have hparent := procBlocks_next (lines := []) hs (hold p) hnow (by
      rcases h.place hf.get with ⟨h4, -⟩ | ⟨regs', h4, -⟩ <;> rw [h4] <;> simp [StopLines, hm])
    have hcode0 : stopCode (history (C.wish events options) (T.thread p) ((T.stops p).take (k p))).1 (.event m) = none := by
      rcases h.place hf.get with ⟨h4, -⟩ | ⟨regs', h4, -⟩ <;> rw [h4] <;> rfl
    have hchild0 := hold v
    rw [hc0] at hchild0
    have hchild := procBlocks_next (lines := lines) hx hchild0 hnow2 (by
      show if v = T.root then _ else _
      rw [if_neg (hT.real.2 p _ v hforks).2]
      exact ⟨num, hnum, hline⟩)
    refine ⟨[⟨p, [], none⟩, ⟨v, lines, none⟩],
      setPos started p (startedAfter (history (C.wish events options) (T.thread p) ((T.stops p).take (k p))).1 (s.log ++ g).length (started p)),
      by simp, ⟨?_, ?_, ?_⟩, ?_⟩
    · rw [List.map_append, hsd.order, hrep]; rfl
    · intro q
      by_cases hqv : q = v
      · subst hqv
        rw [hk', setPos_self, setPos_ne _ _ hvp]
        have e : (blocks ++ [(⟨p, [], none⟩ : Block), ⟨q, lines, none⟩]).filter (fun b => b.pid == q) = blocks.filter (fun b => b.pid == q) ++ [⟨q, lines, none⟩] := by
          simp [List.filter_append, Ne.symm hvp]
        rw [e]
        exact hchild
      by_cases hq : q = p
      · subst hq
        rw [hk', setPos_ne _ _ (Ne.symm hvp), setPos_self, setPos_self]
        have e : (blocks ++ [(⟨q, [], none⟩ : Block), ⟨v, lines, none⟩]).filter (fun b => b.pid == q) = blocks.filter (fun b => b.pid == q) ++ [⟨q, [], none⟩] := by
          simp [List.filter_append, hvp]
        rw [e, ← hcode0]
        exact hparent
      · rw [filter_none _ q (by simp [Ne.symm hq, Ne.symm hqv]), hk', setPos_ne _ _ hqv, setPos_ne _ _ hq, setPos_ne _ _ hq]
        exact hold q
    · intro q o' regs c hget hpl hc
      by_cases hqv : q = v
      · subst hqv
        rw [hk', setPos_self, history_succ hx] at hpl
        cases hpl
      by_cases hq : q = p
      · subst hq
        rw [setPos_self]
        exact hown (by rw [hk', setPos_ne _ _ (Ne.symm hvp), setPos_self]) o' regs c hget hpl hc
      · rw [setPos_ne _ _ hq]
        exact hother q o' regs c hq (by rw [hk', setPos_ne _ _ hqv, setPos_ne _ _ hq]) hget hpl hc
    · rw [hcode]
      rfl

/-- The loop of strace.py prints the blocks of all stops that are left. -/
theorem tree_loop_out (hK : Grows K T) {patience : Nat} (hL : Lively K T patience) (hT : T.Good (C.wish events options)) (hopt : options ≠ 0)
    {fuel : Nat} (hfuel : patience < fuel + 2) {pids : List Nat} (hpids : ∀ p, T.Born p → p ∈ pids) :
    ∀ (n : Nat) (s : DSt) (k : Nat → Nat) (code : Nat) (out : List Str) (blocks : List Block) (started : Nat → Nat),
      Between T C events attached options s k → Said T C F events options s k blocks started →
      (pids.map fun p => (T.stops p).length - k p).sum < n →
      ∃ t k' bs started', straceLoopOut K (fuel + 2) C F n code ⟨s, out⟩ = (.ok (bs.foldl Block.after code), ⟨t, out ++ bs.flatMap Block.lines⟩) ∧
        Between T C events attached options t k' ∧ t.list = [] ∧ Said T C F events options t k' (blocks ++ bs) started'
  | 0, _, _, _, _, _, _, _, _, hn => absurd hn (by omega)
  | n + 1, s, k, code, out, blocks, started, h, hsd, hn => by
    by_cases hl : s.list = []
    · refine ⟨s, k, [], started, ?_, h, hl, by simpa using hsd⟩
      show (if length s = 0 then _ else _) = _
      rw [if_pos (by unfold length; rw [hl]; rfl)]
      simp
    · have hne : s.dict ≠ [] := by
        intro hd
        obtain ⟨o, os, ho⟩ := List.exists_cons_of_ne_nil hl
        have := (h.reg.agree (s.heap o).pid o).2 ⟨by rw [ho]; simp, rfl⟩
        rw [hd] at this
        cases this
      obtain ⟨code', t, k', p, o, kind, v, st, g, r, u, e, hb, hle, hp, hlt, hf, ht⟩ := tree_turn hK hL h hT hopt hne hfuel code
      have hs : (pids.map fun p => (T.stops p).length - k' p).sum < (pids.map fun p => (T.stops p).length - k p).sum := by
        refine sum_lt (hpids p hp) (fun q => ?_) ?_
        · have := hle q; omega
        · have := hb.le p; omega
      have hw := ht.wait
      obtain ⟨lines, e1, hlines⟩ := turn_out (F := F) out (by rw [hw]; exact turn_proc h hf.get ht) e
      rw [hw] at hlines
      unfold straceTurn at e
      rw [hw] at e
      obtain ⟨bs, started', rfl, hsd', rfl⟩ := said_turn hK h hT hsd hf ht hb e hlines
      obtain ⟨t2, k2, bs2, started2, e2, hb2, hl2, hsd2⟩ := tree_loop_out hK hL hT hopt hfuel hpids n t k' (bs.foldl Block.after code)
        (out ++ bs.flatMap Block.lines) (blocks ++ bs) started' hb hsd' (by omega)
      refine ⟨t2, k2, bs ++ bs2, started2, ?_, hb2, hl2, by rw [← List.append_assoc]; exact hsd2⟩
      show (if length s = 0 then _ else _) = _
      rw [if_neg (by unfold length; intro hc; exact hl (List.length_eq_zero_iff.1 hc)), Py.run_bind_ok e1, e2, List.foldl_append, List.flatMap_append,
        List.append_assoc]

/-- The first process is there, and nothing is printed for its first stop. -/
theorem said_begin (hT : T.Good (C.wish events options)) (h : Between T C events attached options s (setPos (fun _ => 0) T.root 1)) :
    Said T C F events options s (setPos (fun _ => 0) T.root 1) [⟨T.root, [], none⟩] (fun _ => 0) := by
  obtain ⟨x, hx⟩ : ∃ x, (T.stops T.root)[0]? = some x := by
    cases hx : T.stops T.root with
    | nil =>
      have := hT.ends T.root .root
      rw [hx] at this
      cases this
    | cons x xs => exact ⟨x, rfl⟩
  obtain ⟨now, hnow⟩ := h.moment hT (p := T.root) (i := 0) (by rw [setPos_self]; omega)
  refine ⟨?_, fun p => ?_, fun p o regs c hget hpl hc => ?_⟩
  · have h1 : awaits T.root s.log = 1 := by
      have := h.awaits hT (p := T.root) (by rw [setPos_self]; omega)
      rwa [setPos_self] at this
    rw [awaits_eq] at h1
    rw [reported_only (p := T.root), h1]
    · rfl
    · intro q hq
      rw [h.log q, setPos_ne _ _ hq, if_neg (by simp [hq])]
      rfl
  · by_cases hp : p = T.root
    · subst hp
      rw [setPos_self]
      have := procBlocks_next (F := F) (W := C.wish events options) (root := T.root) (wall := T.thread T.root) (lines := []) hx
        (by rw [List.take_zero]; exact .nil) hnow (by show if _ then _ else _; rw [if_pos rfl])
      have e : ([⟨T.root, [], none⟩] : List Block).filter (fun b => b.pid == T.root) = [⟨T.root, [], none⟩] := by simp
      rw [e]
      exact this
    · rw [setPos_ne _ _ hp, List.take_zero]
      have : ([⟨T.root, [], none⟩] : List Block).filter (fun b => b.pid == p) = [] := by simp [Ne.symm hp]
      rw [this]
      exact .nil
  · by_cases hp : p = T.root
    · subst hp
      rw [setPos_self, history_succ hx] at hpl
      cases hpl
    · have := ((h.mem p).1 ⟨o, hget⟩).1
      rw [setPos_ne _ _ hp] at this
      cases this

end

/-! ## the theorem -/

/-- **C131** (as C128: the stops are those of `ptrace(2)`, and no process is killed before its first stop). For every tree of processes, every order
in which the kernel tells their stops, and every choice of options, strace.py prints the line about the first process, and then for each stop, in the
order in which they are told, exactly the lines of this stop. The exit code is set by the last stop that has one. -/
theorem C131_tree_partial (K : Kern) (T : Tree) (C : StraceCfg) (F : LineView) (X : MainTexts) (fork exec clone attached : Bool)
    (hT : T.Good (C.wish exec (treeOptions fork exec clone))) (hK : Grows K T) (patience : Nat) (hL : Lively K T patience) (pids : List Nat)
    (hpids : ∀ p, T.Born p → p ∈ pids) (fuel : Nat) (hf1 : patience < fuel) (hf2 : (pids.map fun p => (T.stops p).length).sum < fuel)
    (out : List Str) :
    ∃ t first blocks, straceMainOut K fuel C F X T.root attached ⟨treeState fork exec clone, out⟩ =
        (.ok (some (blocks.foldl (fun code b => b.code.getD code) 0)), ⟨t, out ++ first :: blocks.flatMap Block.lines⟩) ∧
      FirstLine X.program0 X.args T.root attached first ∧ TreeBlocks F (C.wish exec (treeOptions fork exec clone)) T t.log blocks := by
  have hroot : 2 ≤ fuel := by
    have h1 : 2 ≤ (T.stops T.root).length := by
      have := hT.ends T.root .root
      cases hx : T.stops T.root with
      | nil => rw [hx] at this; cases this
      | cons x xs =>
        cases xs with
        | nil => rw [hx] at this; cases this
        | cons y ys => simp
    have h2 : (T.stops T.root).length ≤ (pids.map fun p => (T.stops p).length).sum := by
      have := hpids T.root .root
      clear hpids hf2
      induction pids with
      | nil => cases this
      | cons x xs ih =>
        simp only [List.map_cons, List.sum_cons]
        rcases List.mem_cons.1 this with h | h
        · rw [← h]; omega
        · have := ih h; omega
    omega
  obtain ⟨fuel, rfl⟩ : ∃ m, fuel = m + 2 := ⟨fuel - 2, by omega⟩
  obtain ⟨s1, e1, e0, h1⟩ := tree_begin hK hT attached (fuel + 1)
  rw [Py.run_bind_ok e0] at e1
  dsimp only at e1
  generalize (createProcess K (fuel + 1 + 1) T.root attached (treeState fork exec clone)).2 = s0 at e0 e1
  have hc : createProcessOut K (fuel + 2) X T.root attached ⟨treeState fork exec clone, out⟩ = (.ok (some 0), ⟨s0, out ++ [firstLine X T.root attached]⟩) := by
    unfold createProcess at e0
    unfold createProcessOut
    rw [Py.run_bind_ok (say_eq _ _)]
    unfold inside
    dsimp only
    rcases ha : addProcess K (waitEventPid K (fuel + 2)) T.root attached none false (treeState fork exec clone) with ⟨r, t⟩
    rw [show fuel + 1 + 1 = fuel + 2 from rfl, ha] at e0
    cases r with
    | ok o =>
      injection e0 with h1 h2
      injection h1 with h1
      rw [← h1, ← h2]
    | error x =>
      cases x with
      | event ev => cases ev <;> cases e0
      | _ => cases e0
  obtain ⟨t, k, bs, started, e2, h2, hl, hsd⟩ := tree_loop_out (F := F) hK hL hT (treeOptions_ne fork exec clone) hf1 hpids (fuel + 2) s1 _ 0
    (out ++ [firstLine X T.root attached]) _ _ h1 (said_begin hT h1) (by
      refine Nat.lt_of_le_of_lt ?_ hf2
      clear hpids hf2
      induction pids with
      | nil => simp
      | cons x xs ih => simp only [List.map_cons, List.sum_cons]; omega)
  have hd : t.dict = [] := by
    rcases hx : t.dict with _ | ⟨x, xs⟩
    · rfl
    · have := ((h2.reg.agree x.1 x.2).1 (by rw [hx]; simp)).1
      rw [hl] at this
      cases this
  have hfull : ∀ q, 0 < k q → k q = (T.stops q).length := by
    intro q hq
    rcases Nat.lt_or_eq_of_le (h2.le q) with hc | hc
    · obtain ⟨o, ho⟩ := (h2.mem q).2 ⟨hq, hc⟩
      rw [hd] at ho
      cases ho
    · exact hc
  have hborn : ∀ p, T.Born p → 0 < k p := by
    intro p hb
    induction hb with
    | root => exact (h2.born _).2 (Or.inl rfl)
    | child hb hf ih =>
      refine (h2.born _).2 (Or.inr ⟨_, _, hf, ?_⟩)
      rw [hfull _ ih]
      obtain ⟨n, hn, -⟩ := hf
      exact (List.getElem?_eq_some_iff.1 hn).1
  refine ⟨t, firstLine X T.root attached, [⟨T.root, [], none⟩] ++ bs, ?_, firstLine_text X T.root attached, hsd.order, fun p hb => ⟨started p, ?_⟩, ?_⟩
  · have hfold : ([(⟨T.root, [], none⟩ : Block)] ++ bs).foldl (fun (code : Nat) (b : Block) => b.code.getD code) 0 = bs.foldl Block.after 0 := rfl
    rw [hfold, show ([(⟨T.root, [], none⟩ : Block)] ++ bs).flatMap Block.lines = bs.flatMap Block.lines by simp]
    have e4 : straceRunOut K (fuel + 2) C F X T.root attached ⟨treeState fork exec clone, out⟩ =
        (.ok (some (bs.foldl Block.after 0)), ⟨t, out ++ firstLine X T.root attached :: bs.flatMap Block.lines⟩) := by
      unfold straceRunOut
      rw [Py.run_bind_ok hc]
      dsimp only
      rw [Py.run_bind_ok (a := bs.foldl Block.after 0) (u := ⟨t, out ++ firstLine X T.root attached :: bs.flatMap Block.lines⟩)]
      · rfl
      · unfold syscallTraceOut
        rw [Py.run_bind_ok (a := ()) (u := ⟨s1, out ++ [firstLine X T.root attached]⟩)]
        · rw [e2, List.append_assoc]
          rfl
        · unfold inside
          dsimp only
          rw [e1]
    unfold straceMainOut
    rw [e4]
    dsimp only
    refine (Py.run_bind_ok (u := (⟨t, out ++ firstLine X T.root attached :: bs.flatMap Block.lines⟩ : Con DSt)) rfl).trans ?_
    rw [Py.run_bind_ok (a := ()) (u := ⟨t, out ++ firstLine X T.root attached :: bs.flatMap Block.lines⟩)]
    · rfl
    · unfold inside quit
      dsimp only
      rw [hl]
      rfl
  · have := hsd.each p
    rwa [hfull p (hborn p hb), List.take_length] at this
  · intro b hb
    have hmem : b.pid ∈ reported t.log := by
      rw [← hsd.order]
      exact List.mem_map.2 ⟨b, hb, rfl⟩
    rcases Nat.eq_zero_or_pos (k b.pid) with hc | hc
    · have := procBlocks_length (hsd.each b.pid)
      rw [hc, List.take_zero] at this
      have hb2 : b ∈ ([(⟨T.root, [], none⟩ : Block)] ++ bs).filter (fun b' => b'.pid == b.pid) := List.mem_filter.2 ⟨hb, by simp⟩
      rw [List.length_eq_zero_iff.1 this] at hb2
      cases hb2
    · exact h2.tree _ hc

/-! ## how many lines -/

theorem stopLines_count {F : LineView} {W : Wish} {root p started now : Nat} {log : List Entry} {pl : Place} {x : Report} {lines : List Str}
    (hsig : ∀ n v, x = (.signal n, v) → n = 133 ∨ pl = .unborn ∨ ∃ regs, pl = .trap regs) (h : StopLines F W root log p started now pl x lines) :
    lines.length = stopCount W root p pl x := by
  obtain ⟨kind, v⟩ := x
  cases pl with
  | unborn =>
    simp only [StopLines] at h
    simp only [stopCount]
    split at h
    · subst h; rw [if_pos (by assumption)]; rfl
    · obtain ⟨num, _, rfl⟩ := h; rw [if_neg (by assumption)]; rfl
  | trap regs => simp only [StopLines] at h; subst h; rfl
  | over => simp only [StopLines] at h
  | outside =>
    cases kind with
    | unknown => simp only [StopLines] at h
    | event n =>
      simp only [StopLines] at h
      simp only [stopCount]
      split at h
      · obtain ⟨num, _, rfl⟩ := h; rw [if_pos (by assumption)]; rfl
      · subst h; rw [if_neg (by assumption)]; rfl
    | signal n =>
      obtain rfl : n = 133 := by
        rcases hsig n v rfl with h | h | ⟨_, h⟩
        · exact h
        · cases h
        · cases h
      simp only [StopLines, if_pos trivial] at h
      simp only [stopCount]
      split at h
      · obtain ⟨line, rfl, _⟩ := h; rw [if_pos (by assumption)]; rfl
      · subst h; rw [if_neg (by assumption)]; rfl
    | exited c => obtain ⟨last, rfl, _⟩ := h; rfl
    | killed c => obtain ⟨last, rfl, _⟩ := h; rfl
  | inside regs =>
    cases kind with
    | unknown => simp only [StopLines] at h
    | event n =>
      simp only [StopLines] at h
      simp only [stopCount]
      split at h
      · obtain ⟨num, _, rfl⟩ := h; rw [if_pos (by assumption)]; rfl
      · subst h; rw [if_neg (by assumption)]; rfl
    | signal n =>
      obtain rfl : n = 133 := by
        rcases hsig n v rfl with h | h | ⟨_, h⟩
        · exact h
        · cases h
        · cases h
      simp only [StopLines, if_pos trivial] at h
      simp only [stopCount]
      split at h
      · obtain ⟨line, rfl, _⟩ := h; rw [if_pos (by assumption)]; rfl
      · subst h; rw [if_neg (by assumption)]; rfl
    | exited c =>
      obtain ⟨cut, last, rfl, _, h⟩ := h
      simp only [stopCount]
      split at h
      · obtain ⟨line, rfl, _⟩ := h; rw [if_pos (by assumption)]; rfl
      · subst h; rw [if_neg (by assumption)]; rfl
    | killed c =>
      obtain ⟨cut, last, rfl, _, h⟩ := h
      simp only [stopCount]
      split at h
      · obtain ⟨line, rfl, _⟩ := h; rw [if_pos (by assumption)]; rfl
      · subst h; rw [if_neg (by assumption)]; rfl

/-- The stops of a process other than those that begin it or follow `execve` are not those of a signal. -/
def Quiet (W : Wish) (wall : Bool) (stops : List Report) : Prop :=
  ∀ i n v, stops[i]? = some (.signal n, v) → n = 133 ∨ (history W wall (stops.take i)).1 = .unborn ∨ ∃ regs, (history W wall (stops.take i)).1 = .trap regs

theorem procBlocks_count {F : LineView} {W : Wish} {root p st : Nat} {log : List Entry} {wall : Bool} {stops : List Report} {bs : List Block}
    (h : ProcBlocks F W root log p wall stops st bs) (hq : Quiet W wall stops) : (bs.flatMap Block.lines).length = procCount W root p wall stops := by
  induction h with
  | nil => rfl
  | @snoc stops _ _ bs x lines _ _ hl ih =>
    have h1 : (stops ++ [x])[stops.length]? = some x := by simp
    have h2 : (stops ++ [x]).take stops.length = stops := by simp
    have hx := stopLines_count (by
      intro n v hx
      have := hq stops.length n v (by rw [h1, hx])
      rwa [h2] at this) hl
    rw [List.flatMap_append, List.length_append, ih (by
      intro i n v hi
      have hlt : i < stops.length := (List.getElem?_eq_some_iff.1 hi).1
      have := hq i n v (by rw [List.getElem?_append_left hlt, hi])
      rwa [List.take_append_of_le_length (by omega)] at this)]
    have h3 : ([⟨p, lines, stopCode (history W wall stops).1 x.1⟩] : List Block).flatMap Block.lines = lines := by simp
    rw [h3, hx]
    unfold procCount
    rw [List.length_append, List.length_singleton, List.range_succ, List.map_append, List.sum_append]
    congr 1
    · congr 1
      refine List.map_congr_left fun i hi => ?_
      have hlt := List.mem_range.1 hi
      rw [List.getElem?_append_left hlt, List.take_append_of_le_length (by omega)]
    · rw [List.map_singleton, List.sum_singleton, h1]
      dsimp only
      rw [h2]

theorem sum_by_pid {f : Block → Nat} : ∀ {pids : List Nat} {blocks : List Block}, pids.Nodup → (∀ b ∈ blocks, b.pid ∈ pids) →
    (blocks.map f).sum = (pids.map fun p => ((blocks.filter fun b => b.pid == p).map f).sum).sum
  | [], blocks, _, h => by
    cases blocks with
    | nil => rfl
    | cons b bs => exact absurd (h b (by simp)) (by simp)
  | p :: ps, blocks, hn, h => by
    have ih := sum_by_pid (f := f) (pids := ps) (blocks := blocks.filter fun b => b.pid != p) (List.nodup_cons.1 hn).2 (by
      intro b hb
      obtain ⟨h1, h2⟩ := List.mem_filter.1 hb
      rcases List.mem_cons.1 (h b h1) with h3 | h3
      · simp [h3] at h2
      · exact h3)
    have hsplit : ∀ l : List Block, (l.map f).sum = ((l.filter fun b => b.pid == p).map f).sum + ((l.filter fun b => b.pid != p).map f).sum := by
      intro l
      induction l with
      | nil => rfl
      | cons b bs ih =>
        by_cases hb : b.pid = p
        · rw [List.filter_cons_of_pos (by simp [hb]), List.filter_cons_of_neg (by simp [hb])]
          simp only [List.map_cons, List.sum_cons]
          omega
        · rw [List.filter_cons_of_neg (by simp [hb]), List.filter_cons_of_pos (by simp [hb])]
          simp only [List.map_cons, List.sum_cons]
          omega
    rw [List.map_cons, List.sum_cons, hsplit blocks, ih]
    congr 2
    refine List.map_congr_left fun q hq => ?_
    have hqp : q ≠ p := by rintro rfl; exact (List.nodup_cons.1 hn).1 hq
    rw [List.filter_filter]
    congr 3
    funext b
    by_cases hb : b.pid = q <;> simp [hb, hqp]

/-- **C131** (as above, without signals). In whatever order the stops are told, there are as many lines: one for each shown call that ends, and one
more with `--enter`, one for a call a process ends in, one for the beginning and one for the end of each process, and one for each `execve` with events. -/
theorem C131_count_partial (K : Kern) (T : Tree) (C : StraceCfg) (F : LineView) (X : MainTexts) (fork exec clone attached : Bool)
    (hT : T.Good (C.wish exec (treeOptions fork exec clone))) (hK : Grows K T) (patience : Nat) (hL : Lively K T patience) (pids : List Nat)
    (hpids : ∀ p, T.Born p ↔ p ∈ pids) (hn : pids.Nodup) (hq : ∀ p, T.Born p → Quiet (C.wish exec (treeOptions fork exec clone)) (T.thread p) (T.stops p))
    (fuel : Nat) (hf1 : patience < fuel) (hf2 : (pids.map fun p => (T.stops p).length).sum < fuel) :
    (straceMainOut K fuel C F X T.root attached ⟨treeState fork exec clone, []⟩).2.out.length =
      1 + (pids.map fun p => procCount (C.wish exec (treeOptions fork exec clone)) T.root p (T.thread p) (T.stops p)).sum := by
  obtain ⟨t, first, blocks, h1, _, h2⟩ := C131_tree_partial K T C F X fork exec clone attached hT hK patience hL pids (fun p => (hpids p).1) fuel hf1 hf2 []
  rw [h1]
  show (blocks.flatMap Block.lines).length + 1 = _
  rw [Nat.add_comm, List.length_flatMap, sum_by_pid hn fun b hb => (hpids _).1 (h2.known b hb)]
  congr 2
  refine List.map_congr_left fun p hp => ?_
  obtain ⟨_, h3⟩ := h2.each p ((hpids p).2 hp)
  rw [← procBlocks_count h3 (hq p ((hpids p).2 hp)), List.length_flatMap]

/-! ## a tree of three -/

example (enter fork exec clone attached : Bool) (a b : Nat) (F : LineView) (X : MainTexts) (out : List Str) : ∃ t first blocks,
    straceMainOut (treeKern (threeTree exec) fun p => if p = 11 then a else b) (a + b + 30) (followCfg enter) F X 10 attached
        ⟨treeState fork exec clone, out⟩ =
      (.ok (some (blocks.foldl (fun code b => b.code.getD code) 0)), ⟨t, out ++ first :: blocks.flatMap Block.lines⟩) ∧
      FirstLine X.program0 X.args 10 attached first ∧
      TreeBlocks F ((followCfg enter).wish exec (treeOptions fork exec clone)) (threeTree exec) t.log blocks :=
  C131_tree_partial _ (threeTree exec) _ F X fork exec clone attached (threeTree_good enter fork exec clone)
    (treeKern_grows _ _ (threeTree_status exec)) (a + b) (treeKern_lively _ rfl _ _ (fun p => by split <;> omega)) [10, 11, 12]
    (fun _ => threeTree_born exec) _ (by omega) (by cases exec <;> simp [threeTree]) out

/-- The lines of one order of the stops. -/
example : (straceMainOut (treeKern (threeTree true) fun p => if p = 11 then 3 else 0) 80 (followCfg false) shortView shortTexts 10 true
    ⟨treeState true true true, []⟩).2.out =
    ["execve(a, ['a'], [/* 40 vars */]) = 10".toList, "*** New process 11 ***".toList, "57                                       = 11".toList,
      "231".toList, "*** Process 10 exited with code 3 ***".toList, "*** New process 12 ***".toList, "s".toList, "1".toList,
      "*** Process 12 killed by signal signal<9> ***".toList, "56                                       = 12".toList,
      "*** Process 11 execution ***".toList, "59                                       = 0".toList, "*** Process 11 exited with code 7 ***".toList] := by
  decide +kernel

/-- Without an event for `execve`. -/
example : (straceMainOut (treeKern (threeTree false) fun p => if p = 11 then 9 else 0) 80 (followCfg true) shortView shortTexts 10 true
    ⟨treeState true false true, []⟩).2.out =
    ["execve(a, ['a'], [/* 40 vars */]) = 10".toList, "57".toList, "*** New process 11 ***".toList, "57                                       = 11".toList,
      "231".toList, "*** Process 10 exited with code 3 ***".toList, "56".toList, "*** New process 12 ***".toList, "s".toList, "1".toList,
      "*** Process 12 killed by signal signal<9> ***".toList, "56                                       = 12".toList, "59".toList,
      "59                                       = 0".toList, "*** Process 11 exited with code 7 ***".toList] := by
  decide +kernel

/-- Process 10 makes process 11 and ends with code 3. Process 11 makes a call that is not shown and ends in another. -/
def twoTree : Tree where
  root := 10
  stops p :=
    if p = 10 then [(.signal 5, 0), (.signal 133, 57), (.event 1, 11), (.signal 133, 11), (.exited 3, 0)]
    else if p = 11 then [(.signal 19, 0), (.signal 133, 3), (.signal 133, 0), (.signal 133, 1), (.killed 9, 0)]
    else []
  thread _ := false

theorem twoTree_forks {p i c : Nat} (h : twoTree.Forks p i c) : p = 10 ∧ i = 2 ∧ c = 11 := by
  obtain ⟨n, hn, hne⟩ := h
  unfold twoTree at hn
  dsimp only at hn
  split at hn
  · match i with
    | 0 | 1 | 3 | 4 => simp at hn
    | 2 => simp at hn; exact ⟨by assumption, rfl, hn.2.symm⟩
    | i + 5 => simp at hn
  split at hn
  · match i with
    | 0 | 1 | 2 | 3 | 4 => simp at hn
    | i + 5 => simp at hn
  · simp at hn

theorem twoTree_born {p : Nat} : twoTree.Born p ↔ p ∈ [10, 11] := by
  constructor
  · intro h
    cases h with
    | root => simp [twoTree]
    | child _ hf => obtain ⟨-, -, rfl⟩ := twoTree_forks hf; simp
  · intro h
    simp only [List.mem_cons, List.not_mem_nil, or_false] at h
    rcases h with rfl | rfl
    · exact .root (T := twoTree)
    · exact .child (T := twoTree) (p := 10) (i := 2) .root ⟨1, rfl, by decide⟩

theorem twoTree_good (enter fork exec clone : Bool) : twoTree.Good ((followCfg enter).wish exec (treeOptions fork exec clone)) where
  fine p hp := by
    refine fine_of_all ?_
    have := twoTree_born.1 hp
    simp only [List.mem_cons, List.not_mem_nil, or_false] at this
    rcases this with rfl | rfl <;> cases enter <;> cases fork <;> cases exec <;> cases clone <;> decide +kernel
  ends p hp := by
    have := twoTree_born.1 hp
    simp only [List.mem_cons, List.not_mem_nil, or_false] at this
    rcases this with rfl | rfl <;> cases enter <;> cases fork <;> cases exec <;> cases clone <;> decide +kernel
  real := by
    refine ⟨by simp [twoTree], fun p i c h => ?_⟩
    obtain ⟨-, -, rfl⟩ := twoTree_forks h
    simp [twoTree]
  once p i q j c h1 h2 := by
    obtain ⟨rfl, rfl, rfl⟩ := twoTree_forks h1
    obtain ⟨rfl, rfl, _⟩ := twoTree_forks h2
    exact ⟨rfl, rfl⟩
  main := by simp [twoTree]
  kind p i c n h hne := by
    obtain ⟨rfl, rfl, rfl⟩ := twoTree_forks ⟨n, h, hne⟩
    have : n = 1 := by simpa [twoTree] using h.symm
    subst this
    simp [twoTree]

theorem twoTree_quiet (W : Wish) (p : Nat) : Quiet W (twoTree.thread p) (twoTree.stops p) := by
  intro i n v h
  unfold twoTree at h ⊢
  dsimp only at h ⊢
  split at h
  · match i with
    | 0 => exact Or.inr (Or.inl rfl)
    | 1 | 3 => simp at h; exact Or.inl h.1.symm
    | 2 | 4 => simp at h
    | i + 5 => simp at h
  split at h
  · match i with
    | 0 => exact Or.inr (Or.inl rfl)
    | 1 | 2 | 3 => simp at h; exact Or.inl h.1.symm
    | 4 => simp at h
    | i + 5 => simp at h
  · simp at h

theorem twoTree_status (p : Nat) : ∀ x ∈ twoTree.stops p, waitMeaning (statusOf x.1) = x.1 := by
  unfold twoTree
  dsimp only
  (repeat' split) <;> decide +kernel

/-- Whichever process is slower, there are six lines: the first, the call `fork`, the new process, the call it ends in, and two ends. -/
example (a b : Nat) (F : LineView) (X : MainTexts) : (straceMainOut (treeKern twoTree fun p => if p = 11 then a else b) (a + b + 30)
    (followCfg false) F X twoTree.root true ⟨treeState true true true, []⟩).2.out.length = 6 := by
  have hcount : 1 + (([10, 11] : List Nat).map fun p =>
      procCount ((followCfg false).wish true (treeOptions true true true)) twoTree.root p (twoTree.thread p) (twoTree.stops p)).sum = 6 := by decide +kernel
  rw [← hcount]
  exact C131_count_partial (treeKern twoTree fun p => if p = 11 then a else b) twoTree (followCfg false) F X true true true true
    (twoTree_good false true true true) (treeKern_grows _ _ twoTree_status) (a + b) (treeKern_lively _ rfl _ _ (fun p => by split <;> omega)) [10, 11]
    (fun _ => twoTree_born) (by decide) (fun p _ => twoTree_quiet _ p) (a + b + 30) (by omega) (by simp [twoTree])

/-- **C131 refuted** for a process that is killed before its first stop (C128): its end is printed, but not its beginning, and the call that made it is
never printed. -/
theorem C131_killed_refuted : Grows (treeKern stillborn fun _ => 0) stillborn ∧
    (Py.bind (createProcessOut (treeKern stillborn fun _ => 0) 20 shortTexts 10 true) (fun _ =>
      Py.bind (inside (prepareProcess (treeKern stillborn fun _ => 0) 0)) fun _ =>
      straceLoopOut (treeKern stillborn fun _ => 0) 20 (followCfg false) shortView 2 0) ⟨treeState true true true, []⟩).2.out =
      ["execve(a, ['a'], [/* 40 vars */]) = 10".toList, "*** Process 11 killed by signal signal<9> ***".toList] :=
  ⟨C128_killed_refuted.1, by decide +kernel⟩

end PT
