import Verif.Props.Open
import Verif.Spec.Free

/-! C138: under strace.py -f processes do only what they can do alone. -/

namespace PT
open Spec

/-- What is done after the last stop is part of what is done at that stop. -/
theorem history_last {W : Wish} {th : Bool} {s : List Report} {x : Report}
    (hf : ∀ i y, (s ++ [x])[i]? = some y → CanStop (history W th ((s ++ [x]).take i)).1 y)
    {pre : List Care} (hp : pre = [] ∨ pre = [.attach]) {as : List Care} {a : Care} (h : as ++ [a] <+: pre ++ (history W th (s ++ [x])).2)
    (hn : awaitCares as = s.length + 1) : a ∈ (oneStop W th (history W th s).1 x).2 := by
  have hcount := (history_counts hf s.length (by simp)).1
  rw [List.take_append_of_le_length (Nat.le_refl _), List.take_length] at hcount
  rw [history_snoc, ← List.append_assoc] at h
  have hpre : awaitCares pre = 0 := by rcases hp with rfl | rfl <;> rfl
  have hX : awaitCares (pre ++ (history W th s).2) = s.length := by rw [awaitCares_append, hpre, hcount, Nat.zero_add]
  rcases Nat.lt_or_ge (pre ++ (history W th s).2).length (as ++ [a]).length with hl | hl
  · obtain ⟨u, hu⟩ := List.prefix_of_prefix_length_le (List.prefix_append _ _) h (by omega)
    have hu' : u <+: (oneStop W th (history W th s).1 x).2 := by
      rw [← hu] at h
      exact (List.prefix_append_right_inj _).1 h
    refine hu'.subset ?_
    rcases List.eq_nil_or_concat u with rfl | ⟨u', b, rfl⟩
    · rw [List.append_nil] at hu
      rw [hu] at hl
      omega
    · rw [List.concat_eq_append, ← List.append_assoc] at hu
      obtain ⟨-, h2⟩ := List.append_inj' hu rfl
      rw [List.singleton_inj.1 h2]
      simp
  · have h1 := List.prefix_of_prefix_length_le h (List.prefix_append _ _) hl
    have := awaitCares_prefix ((List.prefix_append as [a]).trans h1)
    omega

/-- At a stop that is no signal 5, the process is given what it should get. -/
theorem oneStop_go {W : Wish} {w : Bool} {pl : Place} {x : Report} {n : Nat} (h : Care.go n ∈ (oneStop W w pl x).2)
    (h5 : x.1 = .signal 5 → pl = .unborn ∨ ∃ regs, pl = .trap regs) : n = pl.gets x := by
  obtain ⟨kind, v⟩ := x
  have key : ∀ m, kind = .signal m → (pl = .outside ∨ ∃ r, pl = .inside r) → m ≠ 5 := by
    rintro m rfl hpl rfl
    rcases h5 rfl with rfl | ⟨r, rfl⟩
    · rcases hpl with h | ⟨r, h⟩ <;> cases h
    · rcases hpl with h | ⟨r, h⟩ <;> cases h
  cases kind <;> cases pl <;> simp only [oneStop] at h <;> simp only [Place.gets]
  all_goals
    revert h
    (repeat' split) <;> simp_all


theorem wentFrom_snoc (M : Nature) (p q n : Nat) (acts : List Going) :
    wentFrom M p (acts ++ [(q, n)]) = wentFrom M p acts ++ if q = p then (M acts p).toList else [] := by
  unfold wentFrom
  rw [List.length_append, List.length_singleton, List.range_succ, List.filterMap_append]
  congr 1
  · refine filterMap_ext ?_
    intro i hi
    have hi : i < acts.length := List.mem_range.1 hi
    rw [List.getElem?_append_left hi, List.take_append_of_le_length (by omega)]
  · have h1 : (acts ++ [(q, n)])[acts.length]? = some (q, n) := by simp
    have h2 : (acts ++ [(q, n)]).take acts.length = acts := List.take_left
    simp only [List.filterMap_cons, List.filterMap_nil, h1, h2]
    by_cases hq : q = p
    · simp only [if_pos hq]
      cases M acts p <;> rfl
    · simp only [if_neg hq]

theorem actsIn_snoc (L : List Entry) (e : Entry) : actsIn (L ++ [e]) = actsIn L ++ (match e.call with
    | .syscall _ p n => [(p, n)]
    | _ => []) := by
  unfold actsIn
  rw [List.filterMap_append]
  congr 1
  cases h : e.call <;> simp [h]

section
variable {N : World} {W : Wish} {root : Nat} {thread : Nat → Bool} {attached : Bool} {L : List Entry} {e : Entry} {M : Nature}

/-- What is done for a process at some moment is allowed. -/
theorem Meets.allowed (h : Meets N W root thread attached (L ++ [e])) {p : Nat} {a : Care} (ha : care p e = some a) : StepOk (thread p) (cares p L) a := by
  have hn := history_neat (W := W) (th := thread p) (h.fine p) (pre := if p = root ∧ attached = false then [.attach] else []) (by split <;> simp) _
    (Nat.le_refl _)
  rw [List.take_length] at hn
  refine hn _ _ ?_
  have := h.attends p
  rw [cares_snoc, ha] at this
  exact this

/-- Only these requests are made. -/
theorem Meets.harmless (h : Meets N W root thread attached (L ++ [e])) : Looks e.call ∨ ∃ o p n, e.call = .syscall o p n := by
  have key : ∀ p, care p e ≠ some .other := fun p hp => h.allowed hp
  obtain ⟨c, r, d⟩ := e
  cases c with
  | syscall o p n => exact Or.inr ⟨o, p, n, rfl⟩
  | detach o p => exact absurd (by simp [care]) (key p)
  | cont o p n => exact absurd (by simp [care]) (key p)
  | singlestep o p => exact absurd (by simp [care]) (key p)
  | kill o p n => exact absurd (by simp [care]) (key p)
  | _ => exact Or.inl trivial

/-- What holds at each moment. -/
structure AsAlone (N : World) (M : Nature) (W : Wish) (thread : Nat → Bool) (L : List Entry) : Prop where
  free : Free M W thread (actsIn L)
  went : ∀ p, wentFrom M p (actsIn L) = (stopsMade N p L).take (goesTo p L)
  behind : ∀ p, goesTo p L ≤ awaits p L
  close : ∀ p, awaits p L ≤ goesTo p L + 1

theorem goesTo_snoc (p : Nat) : goesTo p (L ++ [e]) = goesTo p L + goCares (care p e).toList := by
  rw [goesTo_eq, goesTo_eq, cares_snoc, goCares_append]

theorem awaits_snoc (p : Nat) : awaits p (L ++ [e]) = awaits p L + awaitCares (care p e).toList := by
  rw [awaits_eq, awaits_eq, cares_snoc, awaitCares_append]

theorem AsAlone.step (hs : AsAlone N M W thread L) (h0 : Meets N W root thread attached L) (h : Meets N W root thread attached (L ++ [e]))
    (hM : ∀ p x, N L p = some x → M (actsIn L) p = some x)
    (h5 : ∀ p v, (stopsMade N p L).getLast? = some (.signal 5, v) → (history W (thread p) (stopsMade N p L).dropLast).1 = .unborn ∨
      ∃ regs, (history W (thread p) (stopsMade N p L).dropLast).1 = .trap regs) : AsAlone N M W thread (L ++ [e]) := by
  by_cases hc : ∃ o p n, e.call = .syscall o p n
  · obtain ⟨o, p, n, hc⟩ := hc
    have hcare : ∀ q, care q e = if p = q then some (.go n) else none := by
      intro q
      obtain ⟨c, r, d⟩ := e
      cases hc
      rfl
    have hstops : ∀ q, stopsMade N q (L ++ [e]) = stopsMade N q L := by
      intro q
      rw [stopsMade_snoc, hcare]
      by_cases hq : p = q
      · rw [if_pos hq, List.append_nil]
      · rw [if_neg hq, List.append_nil]
    have hok : goesTo p L + 1 = awaits p L := by
      have := h.allowed (p := p) (a := .go n) (by rw [hcare, if_pos rfl])
      rw [goesTo_eq, awaits_eq]
      exact this
    have hacts : actsIn (L ++ [e]) = actsIn L ++ [(p, n)] := by rw [actsIn_snoc, hc]
    have hnow := h0.now p hok.symm
    have hlen := h0.count p
    rcases List.eq_nil_or_concat (stopsMade N p L) with hnil | ⟨s, x, hsx⟩
    · rw [hnil] at hlen
      simp at hlen
      omega
    rw [List.concat_eq_append] at hsx
    have hgo : goesTo p L = s.length := by
      rw [hsx] at hlen
      simp at hlen
      omega
    have hwent : wentFrom M p (actsIn L) = s := by rw [hs.went, hsx, hgo, List.take_left]
    have hx : M (actsIn L) p = some x := hM p x (by rw [hnow, hsx]; simp)
    have hmem : Care.go n ∈ (oneStop W (thread p) (history W (thread p) s).1 x).2 := by
      refine history_last (pre := if p = root ∧ attached = false then [.attach] else []) (as := cares p L) (by rw [← hsx]; exact h0.fine p)
        (by split <;> simp) ?_ (by rw [← awaits_eq]; omega)
      have := h.attends p
      rw [cares_snoc, hcare, if_pos rfl] at this
      unfold Tree.cares soFar at this
      dsimp only at this
      rw [hstops, hsx] at this
      exact this
    have hn : n = (history W (thread p) s).1.gets x := by
      refine oneStop_go hmem fun h => ?_
      have := h5 p x.2 (by rw [hsx]; simp [← h])
      rw [hsx, List.dropLast_concat] at this
      exact this
    refine ⟨?_, fun q => ?_, fun q => ?_, fun q => ?_⟩
    · rw [hacts, hn, ← hwent]
      refine hs.free.snoc hx ?_
      have hd := oneStop_due (pre := []) (stops := s) (by simpa [hsx] using h0.fine p s.length x (by rw [hsx]; simp)) hmem
      obtain ⟨m, v, h1⟩ := hd
      rw [List.getLast?_append] at h1
      simp only [List.getLast?_singleton, Option.some_or, Option.some.injEq] at h1
      rcases h1 with rfl | ⟨k, rfl⟩
      · exact Or.inl ⟨_, rfl⟩
      · exact Or.inr ⟨_, rfl⟩
    · rw [hacts, wentFrom_snoc, hs.went, hstops, goesTo_snoc, hcare]
      by_cases hq : p = q
      · subst hq
        have h1 : goCares (some (Care.go n)).toList = 1 := rfl
        rw [if_pos rfl, if_pos rfl, hsx, hgo, hx, h1, List.take_left, List.take_of_length_le (i := s.length + 1) (by simp)]
        rfl
      · rw [if_neg hq, if_neg hq]
        simp [goCares]
    · rw [goesTo_snoc, awaits_snoc, hcare]
      by_cases hq : p = q
      · subst hq
        simp [goCares, awaitCares]
        omega
      · have := hs.behind q
        rw [if_neg hq]
        simp [goCares, awaitCares]
        omega
    · have := hs.close q
      rw [goesTo_snoc, awaits_snoc, hcare]
      by_cases hq : p = q
      · subst hq
        simp [goCares, awaitCares]
        omega
      · rw [if_neg hq]
        simp [goCares, awaitCares]
        omega
  · have hacts : actsIn (L ++ [e]) = actsIn L := by
      rw [actsIn_snoc]
      split
      · rename_i o p n hc'
        exact absurd ⟨o, p, n, hc'⟩ hc
      · rw [List.append_nil]
    have hnogo : ∀ q, goCares (care q e).toList = 0 := by
      intro q
      cases ha : care q e with
      | none => rfl
      | some a =>
        cases a with
        | go n =>
          exfalso
          obtain ⟨c, r, d⟩ := e
          cases c with
          | syscall o p m => exact hc ⟨o, p, m, rfl⟩
          | waitpid pid nohang wall =>
            cases pid with
            | none => cases r <;> cases ha
            | some k =>
              cases r with
              | ok m st =>
                cases m with
                | zero => cases ha
                | succ m =>
                  simp only [care] at ha
                  split at ha <;> cases ha
              | _ =>
                simp only [care] at ha
                split at ha <;> cases ha
          | sleep => cases r <;> cases ha
          | _ =>
            simp only [care] at ha
            split at ha <;> cases ha
        | _ => rfl
    refine ⟨by rw [hacts]; exact hs.free, fun q => ?_, fun q => ?_, fun q => ?_⟩
    · rw [hacts, hs.went, goesTo_snoc, hnogo, Nat.add_zero, stopsMade_snoc, List.take_append_of_le_length]
      rw [← h0.count]
      exact hs.behind q
    · rw [goesTo_snoc, hnogo, awaits_snoc]
      exact Nat.le_add_right_of_le (hs.behind q)
    · have h1 := hs.close q
      rw [goesTo_snoc, hnogo, awaits_snoc]
      cases ha : care q e with
      | none => exact h1
      | some a =>
        cases a with
        | await w =>
          have h2 := (h.allowed ha).2
          rw [← goesTo_eq, ← awaits_eq] at h2
          rw [h2]
          exact Nat.le_refl _
        | _ => exact h1
end

theorem as_alone (K : Kern) (N : World) (M : Nature) (C : StraceCfg) (root : Nat) (thread : Nat → Bool) (fork exec clone attached : Bool)
    (fuel : Nat) (hK : Kept (straceMain K fuel C root attached (treeState fork exec clone)).2.log N (C.wish exec (treeOptions fork exec clone)) root thread attached)
    (hM : ∀ log, log <+: (straceMain K fuel C root attached (treeState fork exec clone)).2.log → ∀ p x, N log p = some x → M (actsIn log) p = some x)
    (h5 : ∀ log p v, log <+: (straceMain K fuel C root attached (treeState fork exec clone)).2.log →
      (stopsMade N p log).getLast? = some (.signal 5, v) →
      (history (C.wish exec (treeOptions fork exec clone)) (thread p) (stopsMade N p log).dropLast).1 = .unborn ∨
        ∃ regs, (history (C.wish exec (treeOptions fork exec clone)) (thread p) (stopsMade N p log).dropLast).1 = .trap regs) :
    ∀ log, log <+: (straceMain K fuel C root attached (treeState fork exec clone)).2.log →
      AsAlone N M (C.wish exec (treeOptions fork exec clone)) thread log ∧ ∀ e ∈ log, Looks e.call ∨ ∃ o p n, e.call = .syscall o p n := by
  have key : ∀ n L, L.length = n → L <+: (straceMain K fuel C root attached (treeState fork exec clone)).2.log →
      AsAlone N M (C.wish exec (treeOptions fork exec clone)) thread L ∧ ∀ e ∈ L, Looks e.call ∨ ∃ o p n, e.call = .syscall o p n := by
    intro n
    induction n with
    | zero =>
      intro L hn _
      rw [List.length_eq_zero_iff.1 hn]
      exact ⟨⟨.nil, fun p => rfl, fun p => Nat.le_refl _, fun p => Nat.zero_le _⟩, fun e he => by cases he⟩
    | succ n ih =>
      intro L hn hL
      rcases List.eq_nil_or_concat L with rfl | ⟨L', e, rfl⟩
      · cases hn
      rw [List.concat_eq_append] at *
      have hL' := (List.prefix_append L' [e]).trans hL
      obtain ⟨h1, h2⟩ := ih L' (by simpa using hn) hL'
      have h := (Meets.all fuel hK hL).1
      refine ⟨h1.step (Meets.all fuel hK hL').1 h (hM L' hL') fun p v => h5 L' p v hL', fun x hx => ?_⟩
      rcases List.mem_append.1 hx with hx | hx
      · exact h2 x hx
      · rw [List.mem_singleton.1 hx]
        exact h.harmless
  exact fun log hl => key _ log rfl hl

/-- **C138** (as C135; and no process is sent signal 5, which strace.py takes away). Processes that react to each other and to the signals they get, any
number of them, need not end: whatever they do under `strace.py -f`, they can do alone. At each moment they have gone on one after the other as they
would, each one from where it was, and each was given just the signal that arrived; strace.py has let nothing else happen to them. -/
theorem C138_free_partial (K : Kern) (N : World) (M : Nature) (C : StraceCfg) (root : Nat) (thread : Nat → Bool) (fork exec clone attached : Bool)
    (fuel : Nat) (hK : Kept (straceMain K fuel C root attached (treeState fork exec clone)).2.log N (C.wish exec (treeOptions fork exec clone)) root thread attached)
    (hM : ∀ log, log <+: (straceMain K fuel C root attached (treeState fork exec clone)).2.log → ∀ p x, N log p = some x → M (actsIn log) p = some x)
    (h5 : ∀ log p v, log <+: (straceMain K fuel C root attached (treeState fork exec clone)).2.log →
      (stopsMade N p log).getLast? = some (.signal 5, v) →
      (history (C.wish exec (treeOptions fork exec clone)) (thread p) (stopsMade N p log).dropLast).1 = .unborn ∨
        ∃ regs, (history (C.wish exec (treeOptions fork exec clone)) (thread p) (stopsMade N p log).dropLast).1 = .trap regs) :
    ∀ log, log <+: (straceMain K fuel C root attached (treeState fork exec clone)).2.log →
      Free M (C.wish exec (treeOptions fork exec clone)) thread (actsIn log) ∧
      ∀ e ∈ log, Looks e.call ∨ ∃ o p n, e.call = .syscall o p n := by
  intro log hl
  obtain ⟨h1, h2⟩ := as_alone K N M C root thread fork exec clone attached fuel hK hM h5 log hl
  exact ⟨h1.free, h2⟩

theorem wentFrom_length (M : Nature) (p : Nat) (acts : List Going) : (wentFrom M p acts).length ≤ acts.length := by
  unfold wentFrom
  refine Nat.le_trans (List.length_filterMap_le _ _) ?_
  rw [List.length_range]

/-- **C138** (as above). If the processes come to their end alone, then they do so under `strace.py -f`, and it ends too: it is enough that alone they
never go on more than `bound` times, that the processes they start are among `pids`, and that the kernel is not silent for long. -/
theorem C138_ends_partial (K : Kern) (N : World) (M : Nature) (C : StraceCfg) (root : Nat) (thread : Nat → Bool) (fork exec clone attached : Bool)
    (fuel : Nat) (hK : Kept (straceMain K fuel C root attached (treeState fork exec clone)).2.log N (C.wish exec (treeOptions fork exec clone)) root thread attached)
    (hM : ∀ log, log <+: (straceMain K fuel C root attached (treeState fork exec clone)).2.log → ∀ p x, N log p = some x → M (actsIn log) p = some x)
    (h5 : ∀ log p v, log <+: (straceMain K fuel C root attached (treeState fork exec clone)).2.log →
      (stopsMade N p log).getLast? = some (.signal 5, v) →
      (history (C.wish exec (treeOptions fork exec clone)) (thread p) (stopsMade N p log).dropLast).1 = .unborn ∨
        ∃ regs, (history (C.wish exec (treeOptions fork exec clone)) (thread p) (stopsMade N p log).dropLast).1 = .trap regs)
    (patience : Nat) (hW : Wakes (straceMain K fuel C root attached (treeState fork exec clone)).2.log N (C.wish exec (treeOptions fork exec clone)) thread patience)
    (bound : Nat) (hbound : ∀ acts, Free M (C.wish exec (treeOptions fork exec clone)) thread acts → acts.length ≤ bound) (pids : List Nat) (hroot : root ∈ pids)
    (hpids : ∀ acts p n c, Free M (C.wish exec (treeOptions fork exec clone)) thread acts → M acts p = some (.event n, c) → n ≠ 4 → c ∈ pids)
    (hf1 : patience < fuel) (hf2 : pids.length * (bound + 3) < fuel) :
    ∃ code t, straceMain K fuel C root attached (treeState fork exec clone) = (.ok (some code), t) ∧ t.list = [] ∧ t.dict = [] ∧
      Free M (C.wish exec (treeOptions fork exec clone)) thread (actsIn t.log) ∧
      ∀ p, Announced N root t.log p → whereIs N (C.wish exec (treeOptions fork exec clone)) thread t.log p = .over := by
  have hall := as_alone K N M C root thread fork exec clone attached fuel hK hM h5
  obtain ⟨code, t, h1, h2, h3, h4⟩ := C135_ends_partial K N C root thread fork exec clone attached fuel hK patience hW pids (fun p hp => by
      rcases hp with rfl | ⟨q, n, hq, hn⟩
      · exact hroot
      · obtain ⟨i, -, hi⟩ := stopsMade_mem hq
        have hl := List.take_prefix (i + 1) (straceMain K fuel C root attached (treeState fork exec clone)).2.log
        exact hpids _ _ _ _ (hall _ hl).1.free (hM _ hl _ _ hi) hn) hf1 (by
      have hlen : ∀ p, (stopsMade N p (straceMain K fuel C root attached (treeState fork exec clone)).2.log).length + 2 ≤ bound + 3 := by
        intro p
        obtain ⟨k, -⟩ := hall _ (List.prefix_refl _)
        have k1 := k.close p
        have k2 := k.behind p
        have k3 := congrArg List.length (k.went p)
        have k4 := (Meets.all fuel hK (List.prefix_refl _)).1.count p
        have k5 := Nat.le_trans (wentFrom_length M p _) (hbound _ k.free)
        rw [List.length_take] at k3
        omega
      refine Nat.lt_of_le_of_lt ?_ hf2
      clear hf2 hpids hroot
      induction pids with
      | nil => exact Nat.zero_le _
      | cons p pids ih =>
        have := hlen p
        simp only [List.map_cons, List.sum_cons, List.length_cons, Nat.add_mul, Nat.one_mul]
        omega)
  refine ⟨code, t, h1, h2, h3, ?_, fun p hp => (h4 p hp).1⟩
  have := (hall _ (List.prefix_refl _)).1.free
  rw [h1] at this
  exact this

/-! ## the promises can be checked in a run -/

/-- Is this possible there? -/
def canStop : Place → Report → Bool
  | .unborn, (.signal n, _) => n == 5 || n == 19
  | .unborn, _ => false
  | .trap _, (.signal n, _) => n == 5
  | .trap _, _ => false
  | .over, _ => false
  | _, (.event n, _) => n == 1 || n == 2 || n == 3 || n == 4
  | _, (.unknown, _) => false
  | _, _ => true

theorem canStop_sound {pl : Place} {x : Report} (h : canStop pl x = true) : CanStop pl x := by
  obtain ⟨kind, v⟩ := x
  cases pl <;> cases kind <;> simp only [canStop, Bool.or_eq_true, beq_iff_eq, Bool.false_eq_true] at h <;> simp only [CanStop] <;> simp_all [or_assoc]

def Reply.isOk : Reply → Bool
  | .ok _ _ => true
  | _ => false

def Reply.hasValue (v : Nat) : Reply → Bool
  | .ok w _ => w == v
  | _ => false

theorem Reply.isOk_sound {r : Reply} (h : r.isOk = true) : ∃ v st, r = .ok v st := by
  cases r with
  | ok v st => exact ⟨v, st, rfl⟩
  | _ => cases h

theorem Reply.hasValue_sound {r : Reply} {v : Nat} (h : r.hasValue v = true) : ∃ st, r = .ok v st := by
  cases r with
  | ok w st =>
    simp only [Reply.hasValue, beq_iff_eq] at h
    exact ⟨st, by rw [h]⟩
  | _ => cases h

/-- The processes of which it was told that they are new. -/
def toldNew (N : World) (pids : List Nat) (log : List Entry) : List Nat :=
  pids.flatMap fun q => (stopsMade N q log).filterMap fun x => match x.1 with
    | .event n => if n = 4 then none else some x.2
    | _ => none

/-- One request. -/
def keptStep (N : World) (W : Wish) (root : Nat) (thread : Nat → Bool) (pids : List Nat) (log : List Entry) (e : Entry) : Bool :=
  (match e.call with
    | .waitpid (some p) nohang _ =>
      (match e.reply with
        | .ok q st => (q == 0 && nohang) || (q == p && (match N (log ++ [e]) p with
            | some (k, v) => decide (k = waitMeaning st) && canStop (whereIs N W thread log p) (k, v) && (match k with
                | .event n => n == 4 || (v != 0 && v != root && !(toldNew N pids log).contains v && (thread v == (n == 3)))
                | _ => true)
            | none => false))
        | _ => false)
    | .inspect _ p => (match N log p with
        | some (.signal _, v) => e.reply.hasValue v
        | _ => true)
    | .geteventmsg _ p => (match N log p with
        | some (.event _, v) => e.reply.hasValue v
        | _ => true)
    | _ => e.reply.isOk) &&
  pids.all fun p => (match N log p with
    | some x => (match care p e with
        | some (.go _) => true
        | _ => decide (N (log ++ [e]) p = some x))
    | none => true)

def keptCheck (run : List Entry) (N : World) (W : Wish) (root : Nat) (thread : Nat → Bool) (pids : List Nat) : Bool :=
  root != 0 && !thread root && (List.range run.length).all fun i => match run[i]? with
    | some e => keptStep N W root thread pids (run.take i) e
    | none => true

theorem kept_of_check {run : List Entry} {N : World} {W : Wish} {root : Nat} {thread : Nat → Bool} (attached : Bool) (pids : List Nat)
    (hN : ∀ log p, p ∉ pids → N log p = none) (h : keptCheck run N W root thread pids = true) : Kept run N W root thread attached := by
  unfold keptCheck at h
  rw [Bool.and_eq_true, Bool.and_eq_true] at h
  obtain ⟨⟨hr, ht⟩, h⟩ := h
  have hstep : ∀ log e, log ++ [e] <+: run → keptStep N W root thread pids log e = true := by
    intro log e hl
    obtain ⟨u, hu⟩ := hl
    have := List.all_eq_true.1 h log.length (List.mem_range.2 (by rw [← hu]; simp))
    rw [show run[log.length]? = some e by rw [← hu]; simp] at this
    dsimp only at this
    rwa [show run.take log.length = log by rw [← hu]; simp] at this
  have hpid : ∀ log p x, N log p = some x → p ∈ pids := by
    intro log p x hx
    by_contra hp
    rw [hN log p hp] at hx
    cases hx
  refine ⟨⟨by simpa using hr, by simpa using ht⟩, ?_, ?_, ?_, ?_, ?_, ?_, ?_⟩
  · intro log e o hl hc _
    have := (Bool.and_eq_true_iff.1 (hstep log e hl)).1
    rw [hc] at this
    exact Reply.isOk_sound this
  · intro log e p nohang hl hc _ _ _ _
    have := (Bool.and_eq_true_iff.1 (hstep log e hl)).1
    rw [hc] at this
    dsimp only at this
    cases hrep : e.reply with
    | err n => rw [hrep] at this; cases this
    | interrupt => rw [hrep] at this; cases this
    | ok q st =>
      rw [hrep] at this
      dsimp only at this
      rw [Bool.or_eq_true] at this
      rcases this with h1 | h1
      · rw [Bool.and_eq_true, beq_iff_eq] at h1
        exact Or.inl ⟨h1.2, st, by rw [h1.1]⟩
      · rw [Bool.and_eq_true, beq_iff_eq] at h1
        obtain ⟨rfl, h1⟩ := h1
        cases hx : N (log ++ [e]) q with
        | none => rw [hx] at h1; cases h1
        | some x =>
          obtain ⟨k, v⟩ := x
          rw [hx] at h1
          dsimp only at h1
          rw [Bool.and_eq_true, Bool.and_eq_true, decide_eq_true_eq] at h1
          obtain ⟨⟨rfl, h2⟩, h3⟩ := h1
          refine Or.inr ⟨st, v, rfl, rfl, canStop_sound h2, fun n c hn h4 => ?_⟩
          have hk : waitMeaning st = .event n := congrArg Prod.fst hn
          have hc : v = c := congrArg Prod.snd hn
          subst hc
          rw [hk] at h3
          simp only [Bool.or_eq_true, Bool.and_eq_true, beq_iff_eq, bne_iff_ne, Bool.not_eq_true'] at h3
          rcases h3 with h3 | ⟨⟨⟨h5, h6⟩, h7⟩, h8⟩
          · exact absurd h3 h4
          · refine ⟨h5, ?_, by rw [h8]; exact beq_iff_eq⟩
            rintro (h9 | ⟨p', m, h9, h10⟩)
            · exact h6 h9
            · have : v ∈ toldNew N pids log := by
                refine List.mem_flatMap.2 ⟨p', ?_, List.mem_filterMap.2 ⟨_, h9, by simp [h10]⟩⟩
                obtain ⟨i, -, hi⟩ := stopsMade_mem h9
                exact hpid _ _ _ hi
              rw [List.contains_iff_mem.2 this] at h7
              cases h7
  · intro log e p x hl hx hgo
    have := List.all_eq_true.1 (Bool.and_eq_true_iff.1 (hstep log e hl)).2 p (hpid _ _ _ hx)
    rw [hx] at this
    dsimp only at this
    split at this
    · rename_i n hn
      exact absurd hn (hgo n)
    · exact of_decide_eq_true this
  · intro log e p n v o hl hc hx
    have := (Bool.and_eq_true_iff.1 (hstep log e hl)).1
    rw [hc] at this
    dsimp only at this
    rw [hx] at this
    exact Reply.hasValue_sound this
  · intro log e p n v o hl hc hx
    have := (Bool.and_eq_true_iff.1 (hstep log e hl)).1
    rw [hc] at this
    dsimp only at this
    rw [hx] at this
    exact Reply.hasValue_sound this
  · intro log e p o n hl hc _
    have := (Bool.and_eq_true_iff.1 (hstep log e hl)).1
    rcases hc with hc | hc <;> rw [hc] at this <;> exact Reply.isOk_sound this
  · intro log e o p hl hc
    have := (Bool.and_eq_true_iff.1 (hstep log e hl)).1
    rcases hc with hc | hc <;> rw [hc] at this <;> exact Reply.isOk_sound this

/-! ## two processes that react to each other -/

/-- How often process `p` has gone on. -/
def steps (p : Nat) (acts : List Going) : Nat := acts.countP fun a => a.1 == p

/-- Process 10 starts process 11, sends signal 10 to it and waits for it. When process 11 gets the signal, it makes a system call and ends. If the signal
never came to it, it would end another way. -/
def pairNature : Nature := fun acts p =>
  if p = 10 then
    match steps 10 acts with
    | 0 => some (.signal 19, 0)
    | 1 => some (.event 1, 11)
    | 2 | 3 => some (.signal 133, 62)
    | 4 => some (.signal 133, 61)
    | 5 => if 4 ≤ steps 11 acts then some (.signal 133, 61) else none
    | _ => some (.exited 0, 0)
  else if p = 11 then
    if steps 10 acts = 0 then none
    else match steps 11 acts with
      | 0 => some (.signal 19, 0)
      | 1 => if 4 ≤ steps 10 acts then some (.signal 10, 0) else none
      | 2 | 3 => if (11, 10) ∈ acts then some (.signal 133, 4) else some (.exited 7, 0)
      | _ => some (.exited 3, 0)
  else none

/-- The stops of these processes when they are traced. -/
def tracedWorld (M : Nature) : World := fun log p => if goesTo p log < awaits p log then M (actsIn log) p else none

/-- Their kernel. -/
def natureKern (M : Nature) : Kern := fun log c =>
  match c with
  | .waitpid (some p) nohang _ => (match M (actsIn log) p with
      | some (k, _) => .ok p (statusOf k)
      | none => if nohang then .ok 0 0 else .err 10)
  | .inspect _ p | .geteventmsg _ p => (match M (actsIn log) p with
      | some (_, v) => .ok v 0
      | none => .err 3)
  | .syscall _ p _ | .setoptions _ p _ => if (M (actsIn log) p).isSome then .ok 0 0 else .err 3
  | .attach _ _ | .display _ _ | .sleep => .ok 0 0
  | _ => .err 3

abbrev natureRun (M : Nature) (fuel : Nat) : List Entry := (straceMain (natureKern M) fuel (followCfg false) 10 true (treeState true true false)).2.log

theorem traced_nature {M : Nature} (log : List Entry) (p : Nat) (x : Report) (h : tracedWorld M log p = some x) : M (actsIn log) p = some x := by
  unfold tracedWorld at h
  split at h
  · exact h
  · cases h

theorem pair_pids (acts : List Going) (p : Nat) (hp : p ∉ [10, 11]) : pairNature acts p = none := by
  unfold pairNature
  simp only [List.mem_cons, List.not_mem_nil, or_false, not_or] at hp
  rw [if_neg hp.1, if_neg hp.2]

theorem pair_five (acts : List Going) (p v : Nat) : pairNature acts p ≠ some (.signal 5, v) := by
  unfold pairNature
  (repeat' split) <;> simp

theorem pair_kept : Kept (natureRun pairNature 60) (tracedWorld pairNature) ((followCfg false).wish true (treeOptions true true false)) 10
    (fun _ => false) true := by
  refine kept_of_check true [10, 11] (fun log p hp => ?_) (by decide +kernel)
  unfold tracedWorld
  rw [pair_pids _ p hp, ite_self]

/-- The two processes, with and without strace.py. -/
theorem pair_free : ∀ log, log <+: natureRun pairNature 60 →
    Free pairNature ((followCfg false).wish true (treeOptions true true false)) (fun _ => false) (actsIn log) ∧
      ∀ e ∈ log, Looks e.call ∨ ∃ o p n, e.call = .syscall o p n :=
  C138_free_partial (natureKern pairNature) (tracedWorld pairNature) pairNature (followCfg false) 10 (fun _ => false) true true false true 60 pair_kept
    (fun log _ => traced_nature log) (fun log p v _ h => by
      obtain ⟨i, -, hi⟩ := stopsMade_mem (List.mem_of_getLast? h)
      exact absurd (traced_nature _ _ _ hi) (pair_five _ _ _))

/-- They come to their end, and process 11 gets signal 10. -/
example : (straceMain (natureKern pairNature) 60 (followCfg false) 10 true (treeState true true false)).1 = .ok (some 3) ∧
    Free pairNature ((followCfg false).wish true (treeOptions true true false)) (fun _ => false)
      [(10, 0), (11, 0), (10, 0), (10, 0), (10, 0), (10, 0), (11, 10), (11, 0), (11, 0), (10, 0)] := by
  have h : actsIn (natureRun pairNature 60) = [(10, 0), (11, 0), (10, 0), (10, 0), (10, 0), (10, 0), (11, 10), (11, 0), (11, 0), (10, 0)] := by
    decide +kernel
  refine ⟨by decide +kernel, ?_⟩
  rw [← h]
  exact (pair_free _ (List.prefix_refl _)).1

theorem steps_snoc (p q n : Nat) (acts : List Going) : steps p (acts ++ [(q, n)]) = steps p acts + if q = p then 1 else 0 := by
  unfold steps
  rw [List.countP_append]
  simp [List.countP_cons]

/-- Alone they come to their end. -/
theorem pair_bound {W : Wish} {thread : Nat → Bool} {acts : List Going} (h : Free pairNature W thread acts) :
    acts.length = steps 10 acts + steps 11 acts ∧ steps 10 acts ≤ 6 ∧ steps 11 acts ≤ 4 := by
  induction h with
  | nil => exact ⟨rfl, Nat.zero_le _, Nat.zero_le _⟩
  | @snoc acts p x h hx hg ih =>
    obtain ⟨h1, h2, h3⟩ := ih
    rw [List.length_append, List.length_singleton, steps_snoc, steps_snoc]
    have key : (p = 10 ∧ steps 10 acts < 6) ∨ (p = 11 ∧ steps 11 acts < 4) := by
      unfold pairNature at hx
      split at hx
      · rename_i hp
        refine Or.inl ⟨hp, ?_⟩
        by_contra hc
        have : steps 10 acts = 6 := by omega
        rw [this] at hx
        cases hx
        rcases hg with ⟨n, hg⟩ | ⟨n, hg⟩ <;> cases hg
      · split at hx
        · rename_i hp
          refine Or.inr ⟨hp, ?_⟩
          by_contra hc
          have : steps 11 acts = 4 := by omega
          rw [this] at hx
          split at hx
          · cases hx
          · cases hx
            rcases hg with ⟨n, hg⟩ | ⟨n, hg⟩ <;> cases hg
        · cases hx
    rcases key with ⟨rfl, hk⟩ | ⟨rfl, hk⟩
    · rw [if_pos rfl, if_neg (by decide)]
      omega
    · rw [if_pos rfl, if_neg (by decide)]
      omega

theorem pair_new (acts : List Going) (p : Nat) (n : Int) (c : Nat) (h : pairNature acts p = some (.event n, c)) : c = 11 := by
  unfold pairNature at h
  revert h
  (repeat' split) <;> simp
  exact fun _ h => h.symm

/-- Is nothing silent so long? -/
def silentCheck (run : List Entry) (n : Nat) : Bool := (List.range (run.length + 1)).all fun i => decide (((run.take i).reverse.takeWhile idle).length < n)

theorem silent_of_check {run : List Entry} (n : Nat) (h : silentCheck run n = true) (log : List Entry) (hl : log <+: run) :
    (log.reverse.takeWhile idle).length < n := by
  have := List.all_eq_true.1 h log.length (List.mem_range.2 (Nat.lt_succ_of_le hl.length_le))
  rw [← List.prefix_iff_eq_take.1 hl, decide_eq_true_eq] at this
  exact this

theorem pair_silent : silentCheck (natureRun pairNature 60) 3 = true := by decide +kernel

/-- So they do under strace.py. -/
example : ∃ code t, straceMain (natureKern pairNature) 60 (followCfg false) 10 true (treeState true true false) = (.ok (some code), t) ∧
    t.list = [] ∧ t.dict = [] ∧ Free pairNature ((followCfg false).wish true (treeOptions true true false)) (fun _ => false) (actsIn t.log) ∧
    ∀ p, Announced (tracedWorld pairNature) 10 t.log p →
      whereIs (tracedWorld pairNature) ((followCfg false).wish true (treeOptions true true false)) (fun _ => false) t.log p = .over := by
  refine C138_ends_partial (natureKern pairNature) (tracedWorld pairNature) pairNature (followCfg false) 10 (fun _ => false) true true false true 60 pair_kept
    (fun log _ => traced_nature log) (fun log p v _ h => by
      obtain ⟨i, -, hi⟩ := stopsMade_mem (List.mem_of_getLast? h)
      exact absurd (traced_nature _ _ _ hi) (pair_five _ _ _)) 3 (fun log hl h3 _ => ?_) 10 (fun acts h => ?_) [10, 11] (by decide)
    (fun acts p n c _ h _ => ?_) (by decide) (by decide)
  · exact absurd h3 (Nat.not_le_of_lt (silent_of_check 3 pair_silent log hl))
  · have := pair_bound h
    omega
  · rw [pair_new acts p n c h]
    decide

/-! ## signal 5 -/

/-- Each time a process goes on it is given what it should get. -/
theorem free_given {M : Nature} {W : Wish} {thread : Nat → Bool} {acts : List Going} (h : Free M W thread acts) :
    ∀ i p n, acts[i]? = some (p, n) → ∃ x, M (acts.take i) p = some x ∧ n = (history W (thread p) (wentFrom M p (acts.take i))).1.gets x := by
  induction h with
  | nil => intro i p n hi; cases hi
  | @snoc acts q x h hx hg ih =>
    intro i p n hi
    rcases Nat.lt_trichotomy i acts.length with hl | rfl | hl
    · rw [List.getElem?_append_left hl] at hi
      rw [List.take_append_of_le_length (by omega)]
      exact ih i p n hi
    · simp only [List.getElem?_concat_length, Option.some.injEq, Prod.mk.injEq] at hi
      obtain ⟨rfl, rfl⟩ := hi
      rw [List.take_left]
      exact ⟨x, hx, rfl⟩
    · rw [List.getElem?_eq_none (by simp; omega)] at hi
      cases hi

/-- Process 10 is sent signal 5, for which it has a handler that makes a system call; then it ends. -/
def trapNature : Nature := fun acts p =>
  if p = 10 then
    match steps 10 acts with
    | 0 => some (.signal 19, 0)
    | 1 => some (.signal 5, 0)
    | 2 | 3 => if (10, 5) ∈ acts then some (.signal 133, 4) else some (.exited 7, 0)
    | _ => some (.exited 0, 0)
  else none

theorem trap_kept : Kept (natureRun trapNature 20) (tracedWorld trapNature) ((followCfg false).wish true (treeOptions true true false)) 10
    (fun _ => false) true := by
  refine kept_of_check true [10] (fun log p hp => ?_) (by decide +kernel)
  unfold tracedWorld trapNature
  rw [List.mem_singleton] at hp
  rw [if_neg hp, ite_self]

/-- **C138** is false for signal 5: strace.py takes it away, and the process does what it never does alone. -/
theorem C138_trap_refuted : ¬∀ (K : Kern) (N : World) (M : Nature) (C : StraceCfg) (root : Nat) (thread : Nat → Bool) (fork exec clone attached : Bool)
    (fuel : Nat), Kept (straceMain K fuel C root attached (treeState fork exec clone)).2.log N (C.wish exec (treeOptions fork exec clone)) root thread attached →
    (∀ log, log <+: (straceMain K fuel C root attached (treeState fork exec clone)).2.log → ∀ p x, N log p = some x → M (actsIn log) p = some x) →
    ∀ log, log <+: (straceMain K fuel C root attached (treeState fork exec clone)).2.log →
      Free M (C.wish exec (treeOptions fork exec clone)) thread (actsIn log) := by
  intro h
  have h1 := h (natureKern trapNature) (tracedWorld trapNature) trapNature (followCfg false) 10 (fun _ => false) true true false true 20 trap_kept
    (fun log _ => traced_nature log) _ (List.prefix_refl _)
  have h2 : actsIn (natureRun trapNature 20) = [(10, 0), (10, 0)] := by decide +kernel
  change Free _ _ _ (actsIn (natureRun trapNature 20)) at h1
  rw [h2] at h1
  obtain ⟨x, hx, hn⟩ := free_given h1 1 10 0 rfl
  have h3 : trapNature ([(10, 0), (10, 0)].take 1) 10 = some (.signal 5, 0) := by decide
  rw [h3] at hx
  cases hx
  revert hn
  decide

end PT
