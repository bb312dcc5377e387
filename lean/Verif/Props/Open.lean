import Verif.Lemmas.Open

/-! Property theorems C135: strace.py in an open world. -/

namespace PT
open PT.Spec

/-- Two kernels that agree on the beginning of a run: the other run has the same beginning. -/
theorem Local.follow {α : Type} {m : Kern → Py DSt α} (hm : Local m) {s : DSt} (h0 : s.log = []) {K K' : Kern} {L : List Entry}
    (hL : L <+: (m K s).2.log) (ha : Agree K K' [] L) : L <+: (m K' s).2.log := by
  have key : ∀ n, L.take n <+: (m K' s).2.log := by
    intro n
    induction n with
    | zero => simp
    | succ n ih =>
      rw [List.take_add_one]
      cases hx : L[n]? with
      | none => simpa using ih
      | some x =>
        have ht : L.take n ++ [x] <+: L := by
          have := List.take_prefix (n + 1) L
          rw [List.take_add_one, hx] at this
          exact this
        obtain ⟨v, hv⟩ := (hm s).next K K' (L.take n) x (by rw [h0]; exact List.nil_prefix) (ht.trans hL)
          (by rw [h0]; exact ha.left (List.take_prefix n L))
        have h1 := (hm s).honest K' (L.take n) _ (by rw [h0]; exact List.nil_prefix) hv
        have h2 := (hm s).honest K (L.take n) x (by rw [h0]; exact List.nil_prefix) (ht.trans hL)
        have h3 := ha (L.take n) x List.nil_prefix ht
        dsimp only at h1
        rw [h3, ← h2] at h1
        subst h1
        exact hv
  have := key L.length
  rwa [List.take_length] at this

section
variable {K : Kern} {N : World} {root : Nat} {thread : Nat → Bool} {attached : Bool} {p : Nat} {L : List Entry} {e : Entry} {C : StraceCfg}
  {fork exec clone : Bool}

theorem treeState_log : (treeState fork exec clone).log = [] := by
  rw [treeState_eq]
  rfl

/-- The run up to a moment, if all processes end soon. -/
theorem Meets.run (h : Meets N (C.wish exec (treeOptions fork exec clone)) root thread attached L)
    (hm : root ≠ 0 ∧ thread root = false) (hh : Truthful K L) (least : Nat) :
    ∃ fuel code t, least ≤ fuel ∧
      straceMain (untilNow K (soonOver N (C.wish exec (treeOptions fork exec clone)) root thread L) L) fuel C root attached (treeState fork exec clone) =
        (.ok (some code), t) ∧ t.list = [] ∧ t.dict = [] ∧
      ∀ p, ((soonOver N (C.wish exec (treeOptions fork exec clone)) root thread L).Born p →
          cares p t.log = (soonOver N (C.wish exec (treeOptions fork exec clone)) root thread L).cares (C.wish exec (treeOptions fork exec clone)) attached p) ∧
        (¬(soonOver N (C.wish exec (treeOptions fork exec clone)) root thread L).Born p → cares p t.log = []) := by
  let T := soonOver N (C.wish exec (treeOptions fork exec clone)) root thread L
  let F := least + (L.length + 1) + ((PT.census N root L).map fun p => (T.stops p).length).sum + 1
  obtain ⟨code, t, h1, h2⟩ := C128_tree_partial (untilNow K T L) T C fork exec clone attached (h.good hm) (h.grows hh) (L.length + 1) Meets.lively
    (PT.census N root L) (fun p hp => h.census (h.announced hm.1 hp).2) F (by omega) (by omega)
  exact ⟨F, code, t, by omega, h1, h2⟩

/-- The next request is one that is due. -/
theorem Meets.due (h : Meets N (C.wish exec (treeOptions fork exec clone)) root thread attached L)
    (hm : root ≠ 0 ∧ thread root = false) (hh : Truthful K L) {fuel : Nat}
    (hL : L ++ [e] <+: (straceMain K fuel C root attached (treeState fork exec clone)).2.log) :
    ∃ e', e'.call = e.call ∧ e'.reply = treeKern (soonOver N (C.wish exec (treeOptions fork exec clone)) root thread L) (fun _ => 0) L e.call ∧
      ∀ p, cares p L ++ (care p e').toList ≠ [] →
        (soonOver N (C.wish exec (treeOptions fork exec clone)) root thread L).Born p ∧
        cares p L ++ (care p e').toList <+:
          (soonOver N (C.wish exec (treeOptions fork exec clone)) root thread L).cares (C.wish exec (treeOptions fork exec clone)) attached p := by
  obtain ⟨F, code, t, hF, h1, -, -, h2⟩ := h.run hm hh fuel
  have hl := local_strace F C root attached
  have hd := (deep_strace (K := K) hF C root attached (treeState fork exec clone)).more
  have hag : Agree K (untilNow K (soonOver N (C.wish exec (treeOptions fork exec clone)) root thread L) L) [] L := fun a x _ hx => untilNow_on hx
  obtain ⟨v, hv⟩ := (hl (treeState fork exec clone)).next K _ L e (by rw [treeState_log]; exact List.nil_prefix) (hL.trans hd)
    (by rw [treeState_log]; exact hag)
  have hr := (hl (treeState fork exec clone)).honest _ L _ (by rw [treeState_log]; exact List.nil_prefix) hv
  dsimp only at hr
  rw [untilNow_off (Nat.le_refl _)] at hr
  refine ⟨{ e with reply := v }, rfl, hr, fun p hp => ?_⟩
  have hv : L ++ [{ e with reply := v }] <+: t.log := by
    have := hv
    dsimp only at this
    rw [h1] at this
    exact this
  have hc : cares p L ++ (care p { e with reply := v }).toList <+: cares p t.log := by
    rw [← cares_snoc]
    exact List.IsPrefix.filterMap _ hv
  by_cases hb : (soonOver N (C.wish exec (treeOptions fork exec clone)) root thread L).Born p
  · rw [(h2 p).1 hb] at hc
    exact ⟨hb, hc⟩
  · rw [(h2 p).2 hb] at hc
    exact absurd (List.prefix_nil.1 hc) hp

/-- What is done for a process up to now, and what follows if it ends soon. -/
theorem Meets.split {W : Wish} (h : Meets N W root thread attached L) (hp : p ≠ 0) : ∃ R, (R = [] ∨ ∃ t, R = .await (thread p) :: t) ∧
    (R ≠ [] ↔ whereIs N W thread L p ≠ .over) ∧
    (soonOver N W root thread L).cares W attached p = (soFar N root thread L).cares W attached p ++ R ∧
    awaitCares ((soFar N root thread L).cares W attached p) = awaits p L ∧
    (whereIs N W thread L p ≠ .over → goCares ((soFar N root thread L).cares W attached p) = awaits p L) ∧
    Neat (thread p) ((soonOver N W root thread L).cares W attached p) := by
  have hfull : soonStops N W thread L p = stopsMade N p L ++ rest (whereIs N W thread L p) := if_neg hp
  have hcounts := history_counts (h.fine p) (stopsMade N p L).length (Nat.le_refl _)
  rw [List.take_length] at hcounts
  have hpre : ∀ b : Prop, [Decidable b] → awaitCares (if b then [Care.attach] else []) = 0 ∧ goCares (if b then [Care.attach] else []) = 0 := by
    intro b _
    split <;> exact ⟨rfl, rfl⟩
  obtain ⟨R, hR1, hR2, hR3⟩ : ∃ R, (R = [] ∨ ∃ t, R = .await (thread p) :: t) ∧ (R ≠ [] ↔ whereIs N W thread L p ≠ .over) ∧
      (history W (thread p) (soonStops N W thread L p)).2 = (history W (thread p) (stopsMade N p L)).2 ++ R := by
    rw [hfull]
    unfold whereIs
    cases hpl : (history W (thread p) (stopsMade N p L)).1 with
    | over => exact ⟨[], Or.inl rfl, ⟨fun h => absurd rfl h, fun h => absurd rfl h⟩, by simp [rest]⟩
    | unborn =>
      refine ⟨.await (thread p) :: ([.options W.options, .go 0] ++ (oneStop W (thread p) .outside (.exited 0, 0)).2), Or.inr ⟨_, rfl⟩, ⟨fun _ h => (by cases h), fun _ h => (by cases h)⟩, ?_⟩
      rw [show rest .unborn = [(.signal 5, 0)] ++ [(.exited 0, 0)] from rfl, ← List.append_assoc, history_snoc, history_snoc, hpl]
      simp [oneStop]
    | trap regs =>
      refine ⟨.await (thread p) :: ((if W.view.shown regs then [.print] else []) ++ [.go 0] ++ (oneStop W (thread p) .outside (.exited 0, 0)).2), Or.inr ⟨_, rfl⟩, ⟨fun _ h => (by cases h), fun _ h => (by cases h)⟩, ?_⟩
      rw [show rest (.trap regs) = [(.signal 5, 0)] ++ [(.exited 0, 0)] from rfl, ← List.append_assoc, history_snoc, history_snoc, hpl]
      simp [oneStop]
    | outside =>
      refine ⟨[.await (thread p)], Or.inr ⟨_, rfl⟩, ⟨fun _ h => (by cases h), fun _ h => (by cases h)⟩, ?_⟩
      rw [show rest .outside = [(.exited 0, 0)] from rfl, history_snoc, hpl]
      rfl
    | inside regs =>
      refine ⟨.await (thread p) :: (if W.view.shown regs && !W.view.enter then [.print] else []), Or.inr ⟨_, rfl⟩, ⟨fun _ h => (by cases h), fun _ h => (by cases h)⟩, ?_⟩
      rw [show rest (.inside regs) = [(.exited 0, 0)] from rfl, history_snoc, hpl]
      rfl
  refine ⟨R, hR1, hR2, ?_, ?_, ?_, ?_⟩
  · show _ ++ (history W (thread p) (soonStops N W thread L p)).2 = _ ++ (history W (thread p) (stopsMade N p L)).2 ++ R
    rw [hR3, List.append_assoc]
    rfl
  · show awaitCares (_ ++ (history W (thread p) (stopsMade N p L)).2) = _
    rw [awaitCares_append, (hpre _).1, hcounts.1, h.count, Nat.zero_add]
  · intro ho
    show goCares (_ ++ (history W (thread p) (stopsMade N p L)).2) = _
    rw [goCares_append, (hpre _).2, hcounts.2 ho, h.count, Nat.zero_add]
  · have := history_neat (W := W) (th := thread p) (stops := soonStops N W thread L p) (h.full_fine p)
      (pre := if p = root ∧ attached = false then [.attach] else []) (by split <;> simp) _ (Nat.le_refl _)
    rw [List.take_length] at this
    exact this
end

section
variable {K : Kern} {N : World} {root : Nat} {thread : Nat → Bool} {attached : Bool} {L : List Entry} {e : Entry} {C : StraceCfg}
  {fork exec clone : Bool} {W : Wish}

theorem prefix_snoc_cases {a : List Entry} {x : Entry} (h : a ++ [x] <+: L ++ [e]) : (a = L ∧ x = e) ∨ a ++ [x] <+: L := by
  rcases List.prefix_concat_iff.1 h with h1 | h1
  · obtain ⟨h2, h3⟩ := List.append_inj' h1 rfl
    exact Or.inl ⟨h2, List.singleton_inj.1 h3⟩
  · exact Or.inr h1

/-- An entry that tells no stop. -/
theorem Meets.quiet {run : List Entry} (h : Meets N W root thread attached L) (hK : Kept run N W root thread attached) (hrun : L ++ [e] <+: run)
    (hna : ∀ p w, care p e ≠ some (.await w))
    (hat : ∀ p a, care p e = some a → cares p L ++ [a] <+: (soFar N root thread L).cares W attached p ∧ StepOk (thread p) (cares p L) a ∧
      DueAt (if p = root ∧ attached = false then [.attach] else []) (stopsMade N p L) a)
    (hv : ∀ p nohang w st, e.call = .waitpid (some p) nohang w → e.reply = .ok 0 st → nohang = true) :
    Meets N W root thread attached (L ++ [e]) := by
  have hm : ∀ p, stopsMade N p (L ++ [e]) = stopsMade N p L := by
    intro p
    rw [stopsMade_snoc]
    cases hc : care p e with
    | none => simp
    | some a =>
      cases a with
      | await w => exact absurd hc (hna p w)
      | _ => simp
  have hw : ∀ p, awaits p (L ++ [e]) = awaits p L := by
    intro p
    rw [awaits_eq, awaits_eq, cares_snoc, awaitCares_append]
    cases hc : care p e with
    | none => rfl
    | some a =>
      cases a with
      | await w => exact absurd hc (hna p w)
      | _ => rfl
  have hstop : ∀ p, goesTo p L + 1 = awaits p L → N L p = (stopsMade N p L).getLast? := fun p hp => h.now p hp.symm
  have hlast : ∀ p, goesTo p L + 1 = awaits p L → (stopsMade N p L).getLast? = (stopsMade N p L)[goesTo p L]? := by
    intro p hp
    have := h.count p
    rw [List.getLast?_eq_getElem?]
    congr 1
    omega
  refine ⟨fun p => ?_, fun p => by rw [hw, hm]; exact h.count p, fun p => by rw [hm]; exact h.fine p, fun p => by rw [hm]; exact h.status p,
    fun q => by rw [hm]; exact h.fresh q, fun q i n q' => by rw [hm, hm]; exact h.once q i n q', fun p hp => ?_, fun a x p w hx hc => ?_,
    fun a x p nohang w st hx hc hrx => ?_, fun a x p o hx hc => ?_, fun a x hx hc => ?_⟩
  · have : (soFar N root thread (L ++ [e])).cares W attached p = (soFar N root thread L).cares W attached p := by
      unfold Tree.cares soFar
      dsimp only
      rw [hm]
    rw [this, cares_snoc]
    cases hc : care p e with
    | none => simpa using h.attends p
    | some a => exact (hat p a hc).1
  · rw [hw] at hp
    have hgo : ∀ n, care p e ≠ some (.go n) := by
      intro n hc
      have := (hat p _ hc).2.1
      have h1 : goCares (cares p L) + 1 = awaitCares (cares p L) := this
      rw [goesTo_eq, cares_snoc, hc, awaits_eq] at hp
      simp at hp
      omega
    have hg : goesTo p (L ++ [e]) = goesTo p L := by
      rw [goesTo_eq, goesTo_eq, cares_snoc, goCares_append]
      cases hc : care p e with
      | none => rfl
      | some a =>
        cases a with
        | go n => exact absurd hc (hgo n)
        | _ => rfl
    rw [hg] at hp
    have hn := h.now p hp
    rw [hm]
    have hne : stopsMade N p L ≠ [] := by
      intro hnil
      have := h.count p
      rw [hnil] at this
      simp at this
      omega
    rw [List.getLast?_eq_some_getLast hne] at hn ⊢
    exact hK.stays L e p _ hrun hn hgo
  · rcases prefix_snoc_cases hx with ⟨rfl, rfl⟩ | hx
    · exact absurd hc (hna p w)
    · rw [hm]
      exact h.told a x p w hx hc
  · rcases prefix_snoc_cases hx with ⟨rfl, rfl⟩ | hx
    · exact hv p nohang w st hc hrx
    · exact h.vain a x p nohang w st hx hc hrx
  · rcases prefix_snoc_cases hx with ⟨rfl, rfl⟩ | hx
    · rw [hm, ← hlast p]
      · obtain ⟨c, r, d⟩ := x
        dsimp only at hc
        rcases hc with rfl | rfl
        · obtain ⟨-, h1, n, v, h2⟩ := hat p .look (by simp [care])
          obtain ⟨st, h3⟩ := hK.looks a _ p n v o hrun rfl (by rw [hstop p h1]; exact h2)
          exact ⟨_, v, st, h3, h2⟩
        · obtain ⟨-, h1, n, v, h2⟩ := hat p .message (by simp [care])
          obtain ⟨st, h3⟩ := hK.message a _ p n v o hrun rfl (by rw [hstop p h1]; exact h2)
          exact ⟨_, v, st, h3, h2⟩
      · obtain ⟨c, r, d⟩ := x
        dsimp only at hc
        rcases hc with rfl | rfl
        · exact (hat p .look (by simp [care])).2.1
        · exact (hat p .message (by simp [care])).2.1
    · rw [hm]
      exact h.looks a x p o hx hc
  · rcases prefix_snoc_cases hx with ⟨rfl, rfl⟩ | hx
    · obtain ⟨c, r, d⟩ := x
      dsimp only at hc
      have halt : ∀ q, goesTo q a + 1 = awaits q a → (∃ n v, (stopsMade N q a).getLast? = some (.signal n, v) ∨
          ∃ m, (stopsMade N q a).getLast? = some (.event m, v)) → Halted N a q := by
        rintro q h1 ⟨n, v, h2⟩
        rw [← hstop q h1] at h2
        exact ⟨n, v, h2⟩
      cases c with
      | waitpid q nohang w => exact absurd rfl (hc q nohang w)
      | sleep => exact hK.prints a _ 0 0 hrun (Or.inr rfl)
      | display o q => exact hK.prints a _ o q hrun (Or.inl rfl)
      | attach o q =>
        obtain ⟨-, h1, h2⟩ := hat q .attach (by simp [care])
        change (if q = root ∧ attached = false then [Care.attach] else []) = [.attach] at h2
        split at h2
        · rename_i hq
          obtain ⟨rfl, -⟩ := hq
          exact hK.begins a _ o hrun rfl h1
        · cases h2
      | inspect o q =>
        obtain ⟨-, h1, n, v, h2⟩ := hat q .look (by simp [care])
        obtain ⟨st, h3⟩ := hK.looks a _ q n v o hrun rfl (by rw [hstop q h1]; exact h2)
        exact ⟨v, st, h3⟩
      | geteventmsg o q =>
        obtain ⟨-, h1, n, v, h2⟩ := hat q .message (by simp [care])
        obtain ⟨st, h3⟩ := hK.message a _ q n v o hrun rfl (by rw [hstop q h1]; exact h2)
        exact ⟨v, st, h3⟩
      | syscall o q n =>
        obtain ⟨-, h1, h2⟩ := hat q (.go n) (by simp [care])
        exact hK.obeys a _ q o n hrun (Or.inl rfl) (halt q h1 h2)
      | setoptions o q n =>
        obtain ⟨-, h1, h2⟩ := hat q (.options n) (by simp [care])
        exact hK.obeys a _ q o n hrun (Or.inr rfl) (halt q h1 h2)
      | detach o q => exact (hat q .other (by simp [care])).2.1.elim
      | cont o q n => exact (hat q .other (by simp [care])).2.1.elim
      | singlestep o q => exact (hat q .other (by simp [care])).2.1.elim
      | kill o q n => exact (hat q .other (by simp [care])).2.1.elim
    · exact h.taken a x hx hc

/-- An entry that tells a stop. -/
theorem Meets.stop (h : Meets N W root thread attached L) {q : Nat} {nohang : Bool} {st : Int} {v : Nat} (hq : q ≠ 0)
    (hc : e.call = .waitpid (some q) nohang (thread q)) (hr : e.reply = .ok q st) (hn : N (L ++ [e]) q = some (waitMeaning st, v))
    (hg : goesTo q L = awaits q L) (hcs : cares q L = (soFar N root thread L).cares W attached q)
    (hcan : CanStop (whereIs N W thread L q) (waitMeaning st, v)) (hnew : TellsNew N root thread L (waitMeaning st, v))
    (hstays : ∀ p x, N L p = some x → (∀ n, care p e ≠ some (.go n)) → N (L ++ [e]) p = some x) : Meets N W root thread attached (L ++ [e]) := by
  have hcare : ∀ p, care p e = if q = p then some (.await (thread q)) else none := by
    intro p
    obtain ⟨c, r, d⟩ := e
    dsimp only at hc hr
    subst hc hr
    exact care_wait (fun st' h0 => by cases h0; exact hq rfl) p
  have hm : ∀ p, p ≠ q → stopsMade N p (L ++ [e]) = stopsMade N p L := by
    intro p hp
    rw [stopsMade_snoc, hcare, if_neg (Ne.symm hp)]
    simp
  have hmq : stopsMade N q (L ++ [e]) = stopsMade N q L ++ [(waitMeaning st, v)] := by
    rw [stopsMade_snoc, hcare, if_pos rfl, hn]
    rfl
  have hcp : ∀ p, p ≠ q → cares p (L ++ [e]) = cares p L := by
    intro p hp
    rw [cares_snoc, hcare, if_neg (Ne.symm hp)]
    simp
  have hcq : cares q (L ++ [e]) = cares q L ++ [.await (thread q)] := by
    rw [cares_snoc, hcare, if_pos rfl]
    rfl
  -- a stop that was told is an old one or this one
  have hev : ∀ (p i : Nat) (x : Report), (stopsMade N p (L ++ [e]))[i]? = some x → (stopsMade N p L)[i]? = some x ∨
      (p = q ∧ i = (stopsMade N q L).length ∧ x = (waitMeaning st, v)) := by
    intro p i x hx
    by_cases hp : p = q
    · subst hp
      rw [hmq, List.getElem?_append] at hx
      split at hx
      · exact Or.inl hx
      · rename_i hi
        have hi' : i - (stopsMade N p L).length = 0 := by
          have := (List.getElem?_eq_some_iff.1 hx).1
          simp at this
          omega
        rw [hi'] at hx
        cases hx
        exact Or.inr ⟨rfl, by omega, rfl⟩
    · rw [hm p hp] at hx
      exact Or.inl hx
  have hold : ∀ (p i : Nat) (x : Report), (stopsMade N p L)[i]? = some x → (stopsMade N p (L ++ [e]))[i]? = some x := by
    intro p i x hx
    obtain ⟨u, hu⟩ := stopsMade_prefix (N := N) (p := p) (List.prefix_append L [e])
    rw [← hu, List.getElem?_append_left (List.getElem?_eq_some_iff.1 hx).1]
    exact hx
  refine ⟨fun p => ?_, fun p => ?_, fun p i x hx => ?_, fun p x hx => ?_, fun p i n c hx h4 => ?_, fun p i n p' i' n' c hx h4 hx' h4' => ?_,
    fun p hp => ?_, fun a x p w hx hcx => ?_, fun a x p nohang w st hx hcx hrx => ?_, fun a x p o hx hcx => ?_, fun a x hx hcx => ?_⟩
  · by_cases hp : p = q
    · subst hp
      obtain ⟨t, ht⟩ := (oneStop_orderly W (thread p) _ _ hcan).2
      have : (soFar N root thread (L ++ [e])).cares W attached p = (soFar N root thread L).cares W attached p ++ .await (thread p) :: t := by
        unfold Tree.cares soFar
        dsimp only
        rw [hmq, history_snoc, List.append_assoc]
        unfold whereIs at ht
        rw [ht]
      rw [hcq, this, hcs]
      exact (List.prefix_append_right_inj _).2 ⟨t, rfl⟩
    · have : (soFar N root thread (L ++ [e])).cares W attached p = (soFar N root thread L).cares W attached p := by
        unfold Tree.cares soFar
        dsimp only
        rw [hm p hp]
      rw [this, hcp p hp]
      exact h.attends p
  · by_cases hp : p = q
    · subst hp
      rw [awaits_eq, hcq, awaitCares_append, ← awaits_eq, h.count, hmq]
      simp
    · rw [awaits_eq, hcp p hp, ← awaits_eq, h.count, hm p hp]
  · rcases hev p i x hx with h1 | ⟨rfl, rfl, rfl⟩
    · have hi := (List.getElem?_eq_some_iff.1 h1).1
      obtain ⟨u, hu⟩ := stopsMade_prefix (N := N) (p := p) (List.prefix_append L [e])
      rw [← hu, List.take_append_of_le_length (by omega)]
      exact h.fine p i x h1
    · rw [hmq, List.take_append_of_le_length (Nat.le_refl _), List.take_length]
      exact hcan
  · obtain ⟨i, hi⟩ := List.mem_iff_getElem?.1 hx
    rcases hev p i x hi with h1 | ⟨rfl, rfl, rfl⟩
    · exact h.status p x (List.mem_of_getElem? h1)
    · exact ⟨st, rfl⟩
  · rcases hev p i _ hx with h1 | ⟨rfl, rfl, h2⟩
    · exact h.fresh p i n c h1 h4
    · obtain ⟨k1, k2, k3⟩ := hnew n c h2.symm h4
      exact ⟨k1, fun hc => k2 (Or.inl hc), k3⟩
  · rcases hev p i _ hx with h1 | ⟨rfl, rfl, h2⟩
    · rcases hev p' i' _ hx' with h1' | ⟨rfl, rfl, h2'⟩
      · exact h.once p i n p' i' n' c h1 h4 h1' h4'
      · exact absurd (Or.inr ⟨p, n, List.mem_of_getElem? h1, h4⟩) (hnew n' c h2'.symm h4').2.1
    · rcases hev p' i' _ hx' with h1' | ⟨rfl, rfl, h2'⟩
      · exact absurd (Or.inr ⟨p', n', List.mem_of_getElem? h1', h4'⟩) (hnew n c h2.symm h4).2.1
      · exact ⟨rfl, rfl⟩
  · by_cases hpq : p = q
    · subst hpq
      rw [hmq, hn, List.getLast?_append]
      rfl
    · have hp' : awaits p L = goesTo p L + 1 := by
        rw [awaits_eq, goesTo_eq, hcp p hpq] at hp
        exact hp
      have hnp := h.now p hp'
      rw [hm p hpq]
      have hne : stopsMade N p L ≠ [] := by
        intro hnil
        have := h.count p
        rw [hnil] at this
        simp at this
        omega
      rw [List.getLast?_eq_some_getLast hne] at hnp ⊢
      refine hstays p _ hnp fun n => ?_
      rw [hcare, if_neg (Ne.symm hpq)]
      intro hcc
      cases hcc
  · rcases prefix_snoc_cases hx with ⟨rfl, rfl⟩ | hx
    · rw [hcare] at hcx
      split at hcx
      · rename_i hqp
        subst hqp
        refine ⟨st, v, hr, ?_⟩
        rw [hmq, hg, h.count, List.getElem?_append_right (Nat.le_refl _), Nat.sub_self]
        rfl
      · cases hcx
    · obtain ⟨st', v', k1, k2⟩ := h.told a x p w hx hcx
      exact ⟨st', v', k1, hold p _ _ k2⟩
  · rcases prefix_snoc_cases hx with ⟨rfl, rfl⟩ | hx
    · rw [hr] at hrx
      cases hrx
      exact absurd rfl hq
    · exact h.vain a x p nohang w st hx hcx hrx
  · rcases prefix_snoc_cases hx with ⟨rfl, rfl⟩ | hx
    · rw [hc] at hcx
      rcases hcx with hcx | hcx <;> cases hcx
    · obtain ⟨kind, v', st', k1, k2⟩ := h.looks a x p o hx hcx
      exact ⟨kind, v', st', k1, hold p _ _ k2⟩
  · rcases prefix_snoc_cases hx with ⟨rfl, rfl⟩ | hx
    · exact absurd hc (hcx _ _ _)
    · exact h.taken a x hx hcx

/-- One request more. -/
theorem Meets.step (h : Meets N (C.wish exec (treeOptions fork exec clone)) root thread attached L)
    (hh : Truthful K L) {fuel : Nat}
    (hK : Kept (straceMain K fuel C root attached (treeState fork exec clone)).2.log N (C.wish exec (treeOptions fork exec clone)) root thread attached)
    (hL : L ++ [e] <+: (straceMain K fuel C root attached (treeState fork exec clone)).2.log) :
    Meets N (C.wish exec (treeOptions fork exec clone)) root thread attached (L ++ [e]) := by
  obtain ⟨e', hc', hr', hdue⟩ := h.due hK.main hh hL
  by_cases hw : ∃ q nohang w, e.call = .waitpid (some q) nohang w
  · obtain ⟨q, nohang, w, hw⟩ := hw
    have hne : ∀ st, e'.reply ≠ .ok 0 st := by
      intro st h0
      rw [hr', hw] at h0
      unfold treeKern at h0
      dsimp only at h0
      rw [if_neg (by simp)] at h0
      split at h0
      · rename_i hs
        cases h0
        have : soonStops N (C.wish exec (treeOptions fork exec clone)) thread L 0 = [] := if_pos rfl
        change (soonStops N (C.wish exec (treeOptions fork exec clone)) thread L 0)[goesTo 0 L]? = _ at hs
        rw [this] at hs
        cases hs
      · cases h0
    have hcare : care q e' = some (.await w) := by
      obtain ⟨c, r, d⟩ := e'
      dsimp only at hc' hne
      rw [hw] at hc'
      subst hc'
      rw [care_wait hne, if_pos rfl]
    obtain ⟨hb, hpre⟩ := hdue q (by rw [hcare]; simp)
    rw [hcare] at hpre
    obtain ⟨hq0, hann⟩ := h.announced hK.main.1 hb
    obtain ⟨R, hR1, hR2, hR3, hR4, hR5, hneat⟩ := h.split (p := q) hq0
    have hstep := hneat _ _ hpre
    rw [hR3] at hpre
    obtain ⟨k1, k2⟩ := prefix_await hpre hR1 (by rw [hR4]; rfl)
    have hover := hR2.1 k2
    obtain ⟨hwt, hgoes⟩ := hstep
    have hgoes : goesTo q L = awaits q L := hgoes
    subst hwt
    rcases hK.tells L e q nohang hL hw h.attends hann hgoes hover with ⟨hnh, st, he⟩ | ⟨st, v, he, hN, hcan, hnew⟩
    · have hnone : ∀ p, care p e = none := by
        intro p
        obtain ⟨c, r, d⟩ := e
        dsimp only at hw he
        subst hw he
        rfl
      refine h.quiet hK hL (fun p w hc => by rw [hnone] at hc; cases hc) (fun p a hc => by rw [hnone] at hc; cases hc) ?_
      intro p nohang' w' st' hc _
      rw [hw] at hc
      cases hc
      exact hnh
    · exact h.stop hq0 hw he hN hgoes k1 hcan hnew fun p x => hK.stays L e p x hL
  · have hw : ∀ q nohang w, e.call ≠ .waitpid (some q) nohang w := fun q nohang w hq => hw ⟨q, nohang, w, hq⟩
    have hcare : ∀ p, care p e' = care p e := by
      intro p
      obtain ⟨c, r, d⟩ := e
      obtain ⟨c', r', d'⟩ := e'
      dsimp only at hc' hw
      subst hc'
      exact care_reply hw p _ _ _ _
    have hna : ∀ p w, care p e ≠ some (.await w) := by
      intro p w hc
      obtain ⟨⟨nohang, hc⟩, -⟩ := care_await hc
      exact hw p nohang w hc
    refine h.quiet hK hL hna (fun p a ha => ?_) (fun p nohang w st hc _ => absurd hc (hw p nohang w))
    obtain ⟨hb, hpre⟩ := hdue p (by rw [hcare, ha]; simp)
    rw [hcare, ha] at hpre
    obtain ⟨hp0, -⟩ := h.announced hK.main.1 hb
    obtain ⟨R, hR1, hR2, hR3, hR4, hR5, hneat⟩ := h.split (p := p) hp0
    have hst := hneat _ _ hpre
    rw [hR3] at hpre
    have hpre := prefix_other hpre hR1 (by rw [hR4]; rfl) fun b hb => hna p b (by rw [ha, hb])
    refine ⟨hpre, hst, history_due (h.fine p) (by split <;> simp) hpre ?_⟩
    exact h.count p

theorem Meets.start : Meets N W root thread attached [] := by
  have hm : ∀ p, stopsMade N p [] = [] := fun p => rfl
  have habs : ∀ (a : List Entry) (x : Entry), ¬a ++ [x] <+: [] := by
    intro a x hx
    have := hx.length_le
    simp at this
  refine ⟨fun p => List.nil_prefix, fun p => rfl, fun p i x hx => ?_, fun p x hx => ?_, fun p i n c hx => ?_, fun p i n p' i' n' c hx => ?_, fun p hp => ?_,
    fun a x p w hx => absurd hx (habs a x), fun a x p nohang w st hx => absurd hx (habs a x), fun a x p o hx => absurd hx (habs a x), fun a x hx => absurd hx (habs a x)⟩
  · rw [hm] at hx; cases hx
  · rw [hm] at hx; cases hx
  · rw [hm] at hx; cases hx
  · rw [hm] at hx; cases hx
  · cases hp

/-- At each moment of a run. -/
theorem Meets.all (fuel : Nat) (hK : Kept (straceMain K fuel C root attached (treeState fork exec clone)).2.log N (C.wish exec (treeOptions fork exec clone)) root thread attached)
    {L : List Entry}
    (hL : L <+: (straceMain K fuel C root attached (treeState fork exec clone)).2.log) :
    Meets N (C.wish exec (treeOptions fork exec clone)) root thread attached L ∧ Truthful K L := by
  have hh : Truthful K L := fun a x hx =>
    (local_strace fuel C root attached (treeState fork exec clone)).honest K a x (by rw [treeState_log]; exact List.nil_prefix) (hx.trans hL)
  have key : ∀ n, Meets N (C.wish exec (treeOptions fork exec clone)) root thread attached (L.take n) := by
    intro n
    induction n with
    | zero => exact Meets.start
    | succ n ih =>
      rw [List.take_add_one]
      cases hx : L[n]? with
      | none => simpa using ih
      | some x =>
        have ht : L.take n ++ [x] <+: L := by
          have := List.take_prefix (n + 1) L
          rw [List.take_add_one, hx] at this
          exact this
        exact ih.step (fun a y hy => hh a y (hy.trans (List.take_prefix n L))) hK (ht.trans hL)
  have := key L.length
  rw [List.take_length] at this
  exact ⟨this, hh⟩
end

section
variable {K : Kern} {N : World} {root : Nat} {thread : Nat → Bool} {attached : Bool} {L : List Entry} {C : StraceCfg} {fork exec clone : Bool}

/-- Something is done only for processes that were announced. -/
theorem Meets.born (h : Meets N (C.wish exec (treeOptions fork exec clone)) root thread attached L)
    (hm : root ≠ 0 ∧ thread root = false) (hh : Truthful K L) {fuel : Nat}
    (hL : L <+: (straceMain K fuel C root attached (treeState fork exec clone)).2.log) {p : Nat} (hp : cares p L ≠ []) :
    (soonOver N (C.wish exec (treeOptions fork exec clone)) root thread L).Born p := by
  obtain ⟨F, code, t, hF, h1, -, -, h2⟩ := h.run hm hh fuel
  have hd := (deep_strace (K := K) hF C root attached (treeState fork exec clone)).more
  have h3 := (local_strace F C root attached).follow treeState_log (hL.trans hd)
    (K' := untilNow K (soonOver N (C.wish exec (treeOptions fork exec clone)) root thread L) L) fun a x _ hx => untilNow_on hx
  rw [h1] at h3
  by_contra hb
  have hc : cares p L <+: cares p t.log := List.IsPrefix.filterMap _ h3
  rw [(h2 p).2 hb] at hc
  exact hp (List.prefix_nil.1 hc)

/-- Announced processes are in the tree. -/
theorem Meets.tree (h : Meets N (C.wish exec (treeOptions fork exec clone)) root thread attached L)
    (hm : root ≠ 0 ∧ thread root = false) (hh : Truthful K L) {fuel : Nat}
    (hL : L <+: (straceMain K fuel C root attached (treeState fork exec clone)).2.log) {p : Nat} (hp : Announced N root L p) :
    (soonOver N (C.wish exec (treeOptions fork exec clone)) root thread L).Born p := by
  rcases hp with rfl | ⟨q, n, hq, hn⟩
  · exact .root
  · have hc : cares q L ≠ [] := by
      intro hc
      have := h.count q
      rw [awaits_eq, hc] at this
      rw [List.length_eq_zero_iff.1 this.symm] at hq
      cases hq
    have hb := h.born hm hh hL hc
    obtain ⟨i, hi⟩ := List.mem_iff_getElem?.1 hq
    exact .child hb ⟨n, full_made (h.announced hm.1 hb).1 hi, hn⟩
end

/-- **C135** (the stops are possible ones; as C128, no process vanishes while it is stopped or before its first stop). In an open world, where processes
react to everything, need not end, and start new ones without end: at each moment of a run of `strace.py -f`, for every process, strace.py has done
in order exactly what is to be done at the stops told so far. It never fails: it is running, or all processes are over, and then everything was done. -/
theorem C135_open_partial (K : Kern) (N : World) (C : StraceCfg) (root : Nat) (thread : Nat → Bool) (fork exec clone attached : Bool)
    (fuel : Nat) (hK : Kept (straceMain K fuel C root attached (treeState fork exec clone)).2.log N (C.wish exec (treeOptions fork exec clone)) root thread attached) :
    ∃ r t, straceMain K fuel C root attached (treeState fork exec clone) = (r, t) ∧
      (∀ log, log <+: t.log → Attends N (C.wish exec (treeOptions fork exec clone)) root thread attached log ∧
        ∀ p, (∃ a, a ∈ cares p log) → Announced N root log p) ∧
      (r = .error .diverge ∨ ((∃ code, r = .ok (some code)) ∧ t.list = [] ∧ t.dict = [] ∧
        ∀ p, Announced N root t.log p → whereIs N (C.wish exec (treeOptions fork exec clone)) thread t.log p = .over ∧
          cares p t.log = (soFar N root thread t.log).cares (C.wish exec (treeOptions fork exec clone)) attached p)) := by
  refine ⟨(straceMain K fuel C root attached (treeState fork exec clone)).1, (straceMain K fuel C root attached (treeState fork exec clone)).2, rfl,
    fun log hl => ?_, ?_⟩
  · obtain ⟨h1, h2⟩ := Meets.all fuel hK hl
    refine ⟨h1.attends, fun p hp => (h1.announced hK.main.1 (h1.born hK.main h2 hl ?_)).2⟩
    obtain ⟨a, ha⟩ := hp
    intro hn
    rw [hn] at ha
    cases ha
  · by_cases hr : (straceMain K fuel C root attached (treeState fork exec clone)).1 = .error .diverge
    · exact Or.inl hr
    · refine Or.inr ?_
      obtain ⟨h, hh⟩ := Meets.all fuel hK (List.prefix_refl _)
      obtain ⟨F, code, t, hF, h1, h2, h3, h4⟩ := h.run hK.main hh fuel
      have hd := (deep_strace (K := K) hF C root attached (treeState fork exec clone)).same hr
      have ha := (local_strace F C root attached (treeState fork exec clone)).agree K
        (untilNow K (soonOver N (C.wish exec (treeOptions fork exec clone)) root thread
          (straceMain K fuel C root attached (treeState fork exec clone)).2.log)
          (straceMain K fuel C root attached (treeState fork exec clone)).2.log)
        (by dsimp only; rw [hd]; exact fun a x _ hx => untilNow_on hx)
      dsimp only at ha
      rw [hd, h1] at ha
      refine ⟨⟨code, by rw [← ha]⟩, by rw [← ha]; exact h2, by rw [← ha]; exact h3, fun p hp => ?_⟩
      have hb := h.tree hK.main hh (List.prefix_refl _) hp
      obtain ⟨R, hR1, hR2, hR3, hR4, -, -⟩ := h.split (p := p) (h.announced hK.main.1 hb).1
      have hc := (h4 p).1 hb
      rw [hR3] at hc
      have ht : t.log = (straceMain K fuel C root attached (treeState fork exec clone)).2.log := by rw [← ha]
      rw [ht] at hc
      have hRn : R = [] := by
        rcases hR1 with h | ⟨u, rfl⟩
        · exact h
        · have h5 := congrArg awaitCares hc
          rw [awaitCares_append, hR4, awaits_eq] at h5
          simp at h5
      refine ⟨?_, by rw [hc, hRn, List.append_nil]⟩
      by_contra ho
      exact hR2.2 ho hRn

section
variable {K : Kern} {N : World} {W : Wish} {root : Nat} {thread : Nat → Bool} {attached : Bool} {L : List Entry}

/-- Whether a process is left can be told from its stops. -/
theorem Meets.left (h : Meets N W root thread attached L) {log : List Entry} (hl : log <+: L) (h' : Meets N W root thread attached log) {p : Nat}
    (hp0 : p ≠ 0) : awaits p log < ((soonOver N W root thread L).stops p).length ↔ whereIs N W thread log p ≠ .over := by
  have hfull : (soonOver N W root thread L).stops p = stopsMade N p L ++ rest (whereIs N W thread L p) := if_neg hp0
  rw [hfull, h'.count]
  obtain ⟨u, hu⟩ := stopsMade_prefix (N := N) (p := p) hl
  constructor
  · intro hlt ho
    rcases u with _ | ⟨x, u⟩
    · rw [List.append_nil] at hu
      unfold whereIs at ho hlt
      rw [← hu, ho] at hlt
      simp [rest] at hlt
    · have := h.fine p (stopsMade N p log).length x (by rw [← hu]; simp)
      rw [← hu, List.take_append_of_le_length (Nat.le_refl _), List.take_length] at this
      unfold whereIs at ho
      rw [ho] at this
      exact this
  · intro ho
    rcases u with _ | ⟨x, u⟩
    · rw [List.append_nil] at hu
      have hw : whereIs N W thread L p = whereIs N W thread log p := by
        unfold whereIs
        rw [hu]
      rw [hw, ← hu]
      cases hpl : whereIs N W thread log p with
      | over => exact absurd hpl ho
      | _ => simp [rest]
    · rw [← hu]
      simp

/-- The kernel until this moment is lively. -/
theorem Meets.wakes (h : Meets N W root thread attached L) (hh : Truthful K L) (hall : ∀ log, log <+: L → Meets N W root thread attached log)
    {patience : Nat} (hW : Wakes L N W thread patience) :
    Lively (untilNow K (soonOver N W root thread L) L) (soonOver N W root thread L) patience := by
  intro log hrun hex
  have tl := treeKern_lively (soonOver N W root thread L) (show soonStops N W thread L 0 = [] from if_pos rfl) (fun _ => 0) patience (fun _ => Nat.zero_le _)
  have nonzero : ∀ p, awaits p log < ((soonOver N W root thread L).stops p).length → p ≠ 0 := by
    rintro p hp rfl
    have : (soonOver N W root thread L).stops 0 = [] := show soonStops N W thread L 0 = [] from if_pos rfl
    rw [this] at hp
    simp at hp
  by_cases hl : log <+: L
  · have h' := hall log hl
    obtain ⟨q, hq1, hq2⟩ := hex
    obtain ⟨p, hp1, hp2, hp3⟩ := hW log hl hrun ⟨q, hq1, (h.left hl h' (nonzero q hq2)).1 hq2⟩
    have hp0 : p ≠ 0 := by
      rintro rfl
      have hm := h'.count 0
      obtain ⟨e, he, hc⟩ : ∃ e ∈ log, ∃ w, care 0 e = some (.await w) := by
        rw [awaits] at hp1
        obtain ⟨a, ha, hc⟩ := List.countP_pos_iff.1 hp1
        obtain ⟨e, he, hce⟩ := List.mem_filterMap.1 ha
        cases a with
        | await w => exact ⟨e, he, w, hce⟩
        | _ => cases hc
      obtain ⟨w, hc⟩ := hc
      obtain ⟨a, b, rfl⟩ := List.append_of_mem he
      obtain ⟨st, v, hr, -⟩ := h'.told a e 0 w ⟨b, by simp⟩ hc
      obtain ⟨⟨nohang, hcall⟩, -⟩ := care_await hc
      obtain ⟨c, r, d⟩ := e
      dsimp only at hr hcall
      subst hr hcall
      cases hc
    refine ⟨p, hp1, (h.left hl h' hp0).2 hp2, fun g hg wall st => ?_⟩
    unfold untilNow
    split
    · rename_i hx
      obtain ⟨x, hx, hc⟩ := hx
      rw [← hc, ← hh _ x hx]
      exact hp3 g hg x wall st hx hc
    · unfold treeKern
      simp only [Nat.not_lt_zero, decide_false, Bool.and_false, Bool.false_eq_true, if_false]
      split
      · intro h0
        cases h0
        exact hp0 rfl
      · nofun
  · obtain ⟨p, h1, h2, h3⟩ := tl log hrun hex
    refine ⟨p, h1, h2, fun g hg wall st => ?_⟩
    have : untilNow K (soonOver N W root thread L) L (log ++ g) (.waitpid (some p) true wall) =
        treeKern (soonOver N W root thread L) (fun _ => 0) (log ++ g) (.waitpid (some p) true wall) := by
      refine if_neg ?_
      rintro ⟨x, hx, -⟩
      exact hl (((List.prefix_append log g).trans (List.prefix_append _ [x])).trans hx)
    rw [this]
    exact h3 g hg wall st
end

/-- **C135** (as above). strace.py does not go on by itself: if the processes make few enough stops, and the kernel is not silent for long, then it ends,
and all processes are over. -/
theorem C135_ends_partial (K : Kern) (N : World) (C : StraceCfg) (root : Nat) (thread : Nat → Bool) (fork exec clone attached : Bool)
    (fuel : Nat) (hK : Kept (straceMain K fuel C root attached (treeState fork exec clone)).2.log N (C.wish exec (treeOptions fork exec clone)) root thread attached) (patience : Nat)
    (hW : Wakes (straceMain K fuel C root attached (treeState fork exec clone)).2.log N (C.wish exec (treeOptions fork exec clone)) thread patience) (pids : List Nat)
    (hpids : ∀ p, Announced N root (straceMain K fuel C root attached (treeState fork exec clone)).2.log p → p ∈ pids) (hf1 : patience < fuel)
    (hf2 : (pids.map fun p => (stopsMade N p (straceMain K fuel C root attached (treeState fork exec clone)).2.log).length + 2).sum < fuel) :
    ∃ code t, straceMain K fuel C root attached (treeState fork exec clone) = (.ok (some code), t) ∧ t.list = [] ∧ t.dict = [] ∧
      ∀ p, Announced N root t.log p → whereIs N (C.wish exec (treeOptions fork exec clone)) thread t.log p = .over ∧
        cares p t.log = (soFar N root thread t.log).cares (C.wish exec (treeOptions fork exec clone)) attached p := by
  obtain ⟨r, t, hrun, -, hend⟩ := C135_open_partial K N C root thread fork exec clone attached fuel hK
  rw [hrun] at hpids hf2 hW
  dsimp only at hpids hf2 hW
  rcases hend with rfl | ⟨⟨code, rfl⟩, h1⟩
  · exfalso
    have hlog : (straceMain K fuel C root attached (treeState fork exec clone)).2.log = t.log := by rw [hrun]
    have hall : ∀ log, log <+: t.log → Meets N (C.wish exec (treeOptions fork exec clone)) root thread attached log ∧ Truthful K log :=
      fun log hl => Meets.all fuel hK (by rw [hlog]; exact hl)
    obtain ⟨h, hh⟩ := hall t.log (List.prefix_refl _)
    have hlen : ∀ p, ((soonOver N (C.wish exec (treeOptions fork exec clone)) root thread t.log).stops p).length ≤ (stopsMade N p t.log).length + 2 := by
      intro p
      show (soonStops _ _ _ _ _).length ≤ _
      unfold soonStops
      split
      · simp
      · rw [List.length_append]
        have : ∀ pl, (rest pl).length ≤ 2 := by
          intro pl
          cases pl <;> simp [rest]
        have := this (whereIs N (C.wish exec (treeOptions fork exec clone)) thread t.log p)
        omega
    have hsum : (pids.map fun p => ((soonOver N (C.wish exec (treeOptions fork exec clone)) root thread t.log).stops p).length).sum ≤
        (pids.map fun p => (stopsMade N p t.log).length + 2).sum := by
      clear hpids hf2
      induction pids with
      | nil => simp
      | cons p ps ih =>
        simp only [List.map_cons, List.sum_cons]
        have := hlen p
        omega
    obtain ⟨code, t', h2, -⟩ := C128_tree_partial (untilNow K (soonOver N (C.wish exec (treeOptions fork exec clone)) root thread t.log) t.log)
      (soonOver N (C.wish exec (treeOptions fork exec clone)) root thread t.log) C fork exec clone attached (h.good hK.main) (h.grows hh) patience
      (h.wakes hh (fun log hl => (hall log hl).1) hW) pids (fun p hp => hpids p (h.announced hK.main.1 hp).2) fuel hf1 (by omega)
    have ha := (local_strace fuel C root attached (treeState fork exec clone)).agree K
      (untilNow K (soonOver N (C.wish exec (treeOptions fork exec clone)) root thread t.log) t.log)
      (by dsimp only; rw [hrun]; exact fun a x _ hx => untilNow_on hx)
    dsimp only at ha
    change straceMain (untilNow K (soonOver N (C.wish exec (treeOptions fork exec clone)) root thread t.log) t.log) fuel C root attached
      (treeState fork exec clone) = _ at h2
    rw [hrun, h2] at ha
    cases ha
  · exact ⟨code, t, hrun, h1⟩

/-! ## a world without end -/

/-- The next stop of a process: a new one stops with signal 19; then, as it happens, it makes a system call, or it starts a new process. When it is
late, it ends. -/
def nextStop (late : List Entry → Bool) (log : List Entry) (p : Nat) : Report :=
  if awaits p log = 0 then (.signal 19, 0) else if late log then (.exited 3, 0) else if log.length % 2 = 0 then (.event 1, log.length + 2) else (.signal 133, log.length)

/-- The requests, the last one first. -/
def teemAfter (late : List Entry → Bool) : List Entry → Nat → Option Report
  | [], _ => none
  | e :: before, p => match care p e with
    | some (.await _) => if goesTo p before.reverse = awaits p before.reverse then some (nextStop late before.reverse p) else teemAfter late before p
    | some (.go _) => none
    | _ => teemAfter late before p

/-- Processes each of which starts new processes, without end if it is never late. -/
def teem (late : List Entry → Bool) : World := fun log p => teemAfter late log.reverse p

/-- Their kernel: it refuses requests for a process that has not stopped, and if it is asked not to wait, then there is nothing yet the first time. -/
def teemKern (late : List Entry → Bool) : Kern := fun log c =>
  match c with
  | .waitpid (some p) nohang _ => if p = 0 then .err 10 else if nohang && !log.getLast?.any idle then .ok 0 0 else .ok p (statusOf (nextStop late log p).1)
  | .inspect _ p | .geteventmsg _ p => match teem late log p with
    | some (_, v) => .ok v 0
    | none => .err 3
  | .syscall _ p _ | .setoptions _ p _ => if (teem late log p).isSome then .ok 0 0 else .err 3
  | .attach _ _ | .display _ _ | .sleep => .ok 0 0
  | _ => .err 3

section
variable {late : List Entry → Bool} {p : Nat} {L : List Entry} {e : Entry}

theorem teem_snoc : teem late (L ++ [e]) p = match care p e with
    | some (.await _) => if goesTo p L = awaits p L then some (nextStop late L p) else teem late L p
    | some (.go _) => none
    | _ => teem late L p := by
  unfold teem
  rw [List.reverse_append, List.reverse_singleton, List.singleton_append]
  show teemAfter late (e :: L.reverse) p = _
  rw [teemAfter, List.reverse_reverse]

theorem teem_stopped : ∀ {R : List Entry} {x : Report}, teemAfter late R p = some x → goesTo p R.reverse < awaits p R.reverse ∧
    ∀ n c, x = (.event n, c) → n = 1 ∧ 2 ≤ c ∧ c < R.length + 2
  | [], x, h => by cases h
  | e :: R, x, h => by
    rw [teemAfter] at h
    rw [List.reverse_cons]
    have hgo : goesTo p (R.reverse ++ [e]) = goesTo p R.reverse + goCares (care p e).toList := by
      rw [goesTo_eq, goesTo_eq, cares_snoc, goCares_append]
    have haw : awaits p (R.reverse ++ [e]) = awaits p R.reverse + awaitCares (care p e).toList := by
      rw [awaits_eq, awaits_eq, cares_snoc, awaitCares_append]
    rw [hgo, haw]
    have later : teemAfter late R p = some x → goCares (care p e).toList = 0 → goesTo p R.reverse + goCares (care p e).toList <
        awaits p R.reverse + awaitCares (care p e).toList ∧ ∀ n c, x = (.event n, c) → n = 1 ∧ 2 ≤ c ∧ c < (e :: R).length + 2 := by
      intro h1 h2
      obtain ⟨k1, k2⟩ := teem_stopped h1
      refine ⟨by omega, fun n c hx => ?_⟩
      obtain ⟨m1, m2, m3⟩ := k2 n c hx
      exact ⟨m1, m2, by simp; omega⟩
    cases hc : care p e with
    | none => rw [hc] at h later; exact later h rfl
    | some a =>
      rw [hc] at h later
      cases a with
      | go n => cases h
      | await w =>
        dsimp only at h
        split at h
        · rename_i hg
          cases h
          refine ⟨by rw [hg]; simp [goCares, awaitCares], fun n c hx => ?_⟩
          unfold nextStop at hx
          split at hx
          · cases hx
          · split at hx
            · cases hx
            · split at hx
              · cases hx
                simp
              · cases hx
        · exact later h rfl
      | _ => exact later h rfl

theorem stopsMade_mem {N : World} {x : Report} (h : x ∈ stopsMade N p L) : ∃ i, i < L.length ∧ N (L.take (i + 1)) p = some x := by
  unfold stopsMade at h
  obtain ⟨i, hi, h⟩ := List.mem_filterMap.1 h
  refine ⟨i, List.mem_range.1 hi, ?_⟩
  split at h
  · exact h
  · cases h

theorem teem_new {n : Int} {c : Nat} (h : (StatusKind.event n, c) ∈ stopsMade (teem late) p L) : n = 1 ∧ 2 ≤ c ∧ c < L.length + 2 := by
  obtain ⟨i, hi, h⟩ := stopsMade_mem h
  obtain ⟨h1, h2, h3⟩ := (teem_stopped h).2 n c rfl
  refine ⟨h1, h2, ?_⟩
  simp at h3
  omega

theorem history_born {W : Wish} (hW : W.events = true) {th : Bool} (stops : List Report) :
    (stops ≠ [] → (history W th stops).1 ≠ .unborn) ∧ ∀ regs, (history W th stops).1 ≠ .trap regs := by
  generalize hn : stops.length = n
  induction n generalizing stops with
  | zero =>
    rw [List.length_eq_zero_iff.1 hn]
    exact ⟨fun h => absurd rfl h, fun _ h => by cases h⟩
  | succ n ih =>
    rcases List.eq_nil_or_concat stops with rfl | ⟨s, x, rfl⟩
    · cases hn
    rw [List.concat_eq_append] at *
    have ih := ih s (by simpa using hn)
    rw [history_snoc]
    obtain ⟨kind, v⟩ := x
    have key : ∀ pl : Place, (oneStop W th pl (kind, v)).1 ≠ .unborn ∧ ∀ regs, (oneStop W th pl (kind, v)).1 ≠ .trap regs := by
      intro pl
      cases pl <;> cases kind <;> simp only [oneStop, hW, Bool.not_true, Bool.and_false, Bool.false_eq_true, if_false] <;> (try split) <;>
        exact ⟨nofun, fun _ => nofun⟩
    exact ⟨fun _ => (key _).1, (key _).2⟩

theorem teem_status (log : List Entry) (p : Nat) : waitMeaning (statusOf (nextStop late log p).1) = (nextStop late log p).1 := by
  unfold nextStop
  split
  · decide
  · split
    · decide
    · split
      · show waitMeaning (statusOf (.event 1)) = .event 1
        decide
      · show waitMeaning (statusOf (.signal 133)) = .signal 133
        decide
end

/-- A kernel that keeps the promises whatever the tracer does: enough for any run (`Promises.kept`). -/
structure Promises (K : Kern) (N : World) (W : Wish) (root : Nat) (thread : Nat → Bool) (attached : Bool) : Prop where
  main : root ≠ 0 ∧ thread root = false
  begins : ∀ log o, cares root log = [] → ∃ v st, K log (.attach o root) = .ok v st
  tells : ∀ log p nohang, Attends N W root thread attached log → Announced N root log p → goesTo p log = awaits p log →
    whereIs N W thread log p ≠ .over →
    (nohang = true ∧ ∃ st, K log (.waitpid (some p) nohang (thread p)) = .ok 0 st) ∨
      ∃ st v, K log (.waitpid (some p) nohang (thread p)) = .ok p st ∧
        (∀ d, N (log ++ [⟨.waitpid (some p) nohang (thread p), .ok p st, d⟩]) p = some (waitMeaning st, v)) ∧
        CanStop (whereIs N W thread log p) (waitMeaning st, v) ∧ TellsNew N root thread log (waitMeaning st, v)
  stays : ∀ log e p x, N log p = some x → (∀ n, care p e ≠ some (.go n)) → N (log ++ [e]) p = some x
  looks : ∀ log p n v o, N log p = some (.signal n, v) → ∃ st, K log (.inspect o p) = .ok v st
  message : ∀ log p n v o, N log p = some (.event n, v) → ∃ st, K log (.geteventmsg o p) = .ok v st
  obeys : ∀ log p o n, Halted N log p → (∃ v st, K log (.syscall o p n) = .ok v st) ∧ ∃ v st, K log (.setoptions o p n) = .ok v st
  prints : ∀ log o p, (∃ v st, K log (.display o p) = .ok v st) ∧ ∃ v st, K log .sleep = .ok v st

theorem Promises.kept {K : Kern} {N : World} {W : Wish} {root : Nat} {thread : Nat → Bool} {attached : Bool} {run : List Entry}
    (h : Promises K N W root thread attached) (hr : Truthful K run) : Kept run N W root thread attached where
  main := h.main
  begins log e o hl hc h1 := by rw [hr log e hl, hc]; exact h.begins log o h1
  tells log e p nohang hl hc h1 h2 h3 h4 := by
    have he := hr log e hl
    rw [hc] at he
    obtain ⟨c, r, d⟩ := e
    cases hc
    dsimp only at he ⊢
    rw [he]
    rcases h.tells log p nohang h1 h2 h3 h4 with h5 | ⟨st, v, h5, h6, h7⟩
    · exact Or.inl h5
    · exact Or.inr ⟨st, v, h5, by rw [h5]; exact h6 d, h7⟩
  stays log e p x _ h1 h2 := h.stays log e p x h1 h2
  looks log e p n v o hl hc h1 := by rw [hr log e hl, hc]; exact h.looks log p n v o h1
  message log e p n v o hl hc h1 := by rw [hr log e hl, hc]; exact h.message log p n v o h1
  obeys log e p o n hl hc h1 := by
    rw [hr log e hl]
    rcases hc with hc | hc <;> rw [hc]
    · exact (h.obeys log p o n h1).1
    · exact (h.obeys log p o n h1).2
  prints log e o p hl hc := by
    rw [hr log e hl]
    rcases hc with hc | hc <;> rw [hc]
    · exact (h.prints log o p).1
    · exact (h.prints log o p).2

/-- This world keeps them. -/
theorem teem_promises (late : List Entry → Bool) (C : StraceCfg) (fork clone attached : Bool) :
    Promises (teemKern late) (teem late) (C.wish true (treeOptions fork true clone)) 1 (fun _ => false) attached where
  main := ⟨by omega, rfl⟩
  begins log o _ := ⟨0, 0, rfl⟩
  prints log o p := ⟨⟨0, 0, rfl⟩, 0, 0, rfl⟩
  looks log p n v o h := ⟨0, by simp [teemKern, h]⟩
  message log p n v o h := ⟨0, by simp [teemKern, h]⟩
  obeys log p o n h := by
    have : (teem late log p).isSome = true := by
      obtain ⟨n, v, h | ⟨m, h⟩⟩ := h <;> rw [h] <;> rfl
    exact ⟨⟨0, 0, by simp [teemKern, this]⟩, 0, 0, by simp [teemKern, this]⟩
  stays log e p x h hgo := by
    rw [teem_snoc]
    have hs := (teem_stopped (R := log.reverse) h).1
    rw [List.reverse_reverse] at hs
    split
    · rw [if_neg (by omega)]
      exact h
    · rename_i n hc
      exact absurd hc (hgo n)
    · exact h
  tells log p nohang ha hann hg ho := by
    have hp : p ≠ 0 ∧ p < log.length + 2 := by
      rcases hann with rfl | ⟨q, n, hq, -⟩
      · exact ⟨by omega, by omega⟩
      · have := teem_new hq
        exact ⟨by omega, by omega⟩
    by_cases hv : (nohang && !log.getLast?.any idle) = true
    · refine Or.inl ⟨(Bool.and_eq_true_iff.1 hv).1, 0, ?_⟩
      simp only [teemKern]
      rw [if_neg hp.1, if_pos hv]
    · refine Or.inr ⟨statusOf (nextStop late log p).1, (nextStop late log p).2, ?_, fun d => ?_, ?_, fun n c hx hn => ?_⟩
      · simp only [teemKern]
        rw [if_neg hp.1, if_neg hv]
      · rw [teem_snoc, care_wait (fun st h0 => by cases h0; exact hp.1 rfl), if_pos rfl]
        dsimp only
        rw [if_pos hg, teem_status]
      · rw [teem_status]
        unfold whereIs at ho ⊢
        by_cases h0 : awaits p log = 0
        · have hnil : stopsMade (teem late) p log = [] := by
            refine List.eq_nil_iff_forall_not_mem.2 fun x hx => ?_
            unfold stopsMade at hx
            obtain ⟨i, hi, hx⟩ := List.mem_filterMap.1 hx
            split at hx
            · rename_i w hw
              cases hl : log[i]? with
              | none => rw [hl] at hw; cases hw
              | some y =>
                rw [hl] at hw
                have hm : Care.await w ∈ cares p log := List.mem_filterMap.2 ⟨y, List.mem_of_getElem? hl, hw⟩
                unfold awaits at h0
                exact absurd rfl (List.countP_eq_zero.1 h0 _ hm)
            · cases hx
          rw [hnil]
          unfold nextStop
          rw [if_pos h0]
          exact Or.inr rfl
        · have hne : stopsMade (teem late) p log ≠ [] := by
            intro hnil
            have h1 := ha p
            unfold Tree.cares soFar at h1
            dsimp only at h1
            rw [hnil] at h1
            have h2 := awaitCares_prefix h1
            rw [awaits_eq] at h0
            have h3 : awaitCares ((if p = 1 ∧ attached = false then [Care.attach] else []) ++ (history (C.wish true (treeOptions fork true clone)) false []).2) = 0 := by
              split <;> rfl
            omega
          obtain ⟨k1, k2⟩ := history_born (W := C.wish true (treeOptions fork true clone)) rfl (th := false) (stopsMade (teem late) p log)
          unfold nextStop
          rw [if_neg h0]
          cases hpl : (history (C.wish true (treeOptions fork true clone)) false (stopsMade (teem late) p log)).1 with
          | unborn => exact absurd hpl (k1 hne)
          | over => exact absurd hpl ho
          | trap regs => exact absurd hpl (k2 regs)
          | outside =>
            split
            · trivial
            · split
              · exact Or.inl rfl
              · trivial
          | inside regs =>
            split
            · trivial
            · split
              · exact Or.inl rfl
              · trivial
      · rw [teem_status] at hx
        have hc : n = 1 ∧ c = log.length + 2 := by
          unfold nextStop at hx
          split at hx
          · cases hx
          · split at hx
            · cases hx
            · split at hx
              · cases hx
                exact ⟨rfl, rfl⟩
              · cases hx
        obtain ⟨rfl, rfl⟩ := hc
        refine ⟨by omega, ?_, by simp⟩
        rintro (h1 | ⟨q, m, h1, -⟩)
        · omega
        · have := teem_new h1
          omega

/-- What strace.py does there. -/
abbrev teemRun (late : List Entry → Bool) (C : StraceCfg) (fork clone attached : Bool) (fuel : Nat) : List Entry :=
  (straceMain (teemKern late) fuel C 1 attached (treeState fork true clone)).2.log

theorem teem_truthful (late : List Entry → Bool) (C : StraceCfg) (fork clone attached : Bool) (fuel : Nat) :
    Truthful (teemKern late) (teemRun late C fork clone attached fuel) := by
  intro log e h
  exact (local_strace fuel C 1 attached (treeState fork true clone)).honest (teemKern late) log e (by rw [treeState_log]; exact List.nil_prefix) h

/-- This world keeps the promises. -/
theorem teem_kept (late : List Entry → Bool) (C : StraceCfg) (fork clone attached : Bool) (fuel : Nat) :
    Kept (teemRun late C fork clone attached fuel) (teem late) (C.wish true (treeOptions fork true clone)) 1 (fun _ => false) attached :=
  (teem_promises late C fork clone attached).kept (teem_truthful late C fork clone attached fuel)

/-- It is never silent for long. -/
theorem teem_wakes (late : List Entry → Bool) (W : Wish) {run : List Entry} (hr : Truthful (teemKern late) run) :
    Wakes run (teem late) W (fun _ => false) 1 := by
  rintro log - hrun ⟨p, hp1, hp2⟩
  refine ⟨p, hp1, hp2, fun g hg e wall st hl hc => ?_⟩
  rw [hr _ e hl, hc]
  have hlast : (log ++ g).getLast?.any idle = true := by
    rcases List.eq_nil_or_concat g with rfl | ⟨g', x, rfl⟩
    · rw [List.append_nil, ← List.head?_reverse]
      cases hl : log.reverse with
      | nil => rw [hl] at hrun; simp at hrun
      | cons x xs =>
        rw [hl, List.takeWhile_cons] at hrun
        split at hrun
        · assumption
        · simp at hrun
    · rw [List.concat_eq_append, ← List.append_assoc, List.getLast?_append]
      exact hg x (by simp)
  simp only [teemKern]
  rw [hlast]
  split
  · nofun
  · rename_i hp
    simp only [Bool.not_true, Bool.and_false, Bool.false_eq_true, if_false]
    intro h0
    cases h0
    exact hp rfl

/-- A world without end. -/
example (enter fork clone attached : Bool) (fuel : Nat) := C135_open_partial (teemKern fun _ => false) (teem fun _ => false) (followCfg enter) 1
  (fun _ => false) fork true clone attached fuel (teem_kept _ (followCfg enter) fork clone attached fuel)

/-- In this world strace.py soon has to do with many processes. -/
example : (straceMain (teemKern fun _ => false) 8 (followCfg false) 1 true (treeState true true false)).2.dict.map Prod.fst = [1, 8, 20, 32, 44] := by
  decide +kernel

/-- A world that ends after thirty requests. -/
abbrev thirty (log : List Entry) : Bool := decide (30 ≤ log.length)

example : ∃ code t, straceMain (teemKern thirty) 150 (followCfg false) 1 true (treeState true true false) = (.ok (some code), t) ∧ t.list = [] ∧ t.dict = [] ∧
    ∀ p, Announced (teem thirty) 1 t.log p → whereIs (teem thirty) ((followCfg false).wish true (treeOptions true true false)) (fun _ => false) t.log p = .over ∧
      cares p t.log = (soFar (teem thirty) 1 (fun _ => false) t.log).cares ((followCfg false).wish true (treeOptions true true false)) true p := by
  have hall : ((census (teem thirty) 1 (straceMain (teemKern thirty) 150 (followCfg false) 1 true (treeState true true false)).2.log).all
    fun p => (List.range 40).contains p) = true := by decide +kernel
  refine C135_ends_partial (teemKern thirty) (teem thirty) (followCfg false) 1 (fun _ => false) true true false true 150
    (teem_kept thirty (followCfg false) true false true 150) 1 (teem_wakes thirty _ (teem_truthful thirty (followCfg false) true false true 150)) (List.range 40) (fun p hp => ?_) (by omega) (by decide +kernel)
  have h := (Meets.all 150 (teem_kept thirty (followCfg false) true false true 150) (List.prefix_refl _)).1
  exact List.contains_iff_mem.1 (List.all_eq_true.1 hall p (h.census hp))

/-! ## a process that is killed while it is stopped -/

/-- Process 10 starts process 11, then it sleeps; process 11 makes a system call. -/
def killedTree : Tree where
  root := 10
  stops p := if p = 10 then [(.signal 19, 0), (.event 1, 11)] else if p = 11 then [(.signal 19, 0), (.signal 133, 4)] else []
  thread _ := false

/-- When process 11 makes its system call, someone else sends signal 9 to it before strace.py tells it to go on: no such process. -/
def killedKern : Kern := fun log c =>
  match c with
  | .syscall _ 11 _ | .cont _ 11 _ => if 1 ≤ goesTo 11 log then .err 3 else .ok 0 0
  | .waitpid (some 10) nohang w =>
    if goesTo 10 log = 2 then if log.any fun e => e.call == .kill 0 10 9 then .ok 10 9 else .ok 0 0
    else treeKern killedTree (fun _ => 0) log (.waitpid (some 10) nohang w)
  | _ => treeKern killedTree (fun _ => 0) log c

/-- **C135**, refuted for a process that is killed from elsewhere while it is stopped: strace.py gives up, and it kills all other processes, though
they did nothing but sleep. Its own exit status is the error number. -/
theorem C135_killed_refuted : ∃ t, straceMain killedKern 20 (followCfg false) 10 true (treeState true true false) = (.ok (some 3), t) ∧
    cares 11 t.log = [.await false, .options 23, .go 0, .await false, .look, .look, .go 0, .other] ∧
    cares 10 t.log = [.await false, .options 23, .go 0, .await false, .message, .go 0, .other, .await false] ∧
    (⟨.kill 0 10 9, .ok 0 0, [(10, 0)]⟩ : Entry) ∈ t.log := by
  have h : (straceMain killedKern 20 (followCfg false) 10 true (treeState true true false)).1 = .ok (some 3) := by decide +kernel
  refine ⟨(straceMain killedKern 20 (followCfg false) 10 true (treeState true true false)).2, ?_, ?_, ?_, ?_⟩
  · rw [← h]
  all_goals decide +kernel

end PT
