import Verif.Lemmas.Breakpoint

namespace PT

theorem mem_getElem_range (f : Nat → Byte) (n i : Nat) (h : i < ((List.range n).map f).length) :
    ((List.range n).map f)[i] = f i := by simp

theorem inv_create {h : BpHost} {orig : Nat → Byte} {s s' : BpSt} {a id : Nat} {size : Option Nat}
    (hinv : BpInv h orig s) (hc : createBreakpoint h a size s = (.ok id, s')) (hpos : 0 < bpSize h size)
    (hdis : ∀ p ∈ places s, a + bpSize h size ≤ p.1 ∨ p.1 + p.2 ≤ a)
    (hold : ∀ b, s'.objs[id]? = some b → b.oldBytes.length = bpSize h size) : BpInv h orig s' := by
  rcases createBreakpoint_cases h a size s with ⟨e, m', h1, _⟩ | ⟨m', old, h1, hfind, hlen, hbytes, _, hmem, _⟩
  · rw [h1] at hc; injection hc with hc _; cases hc
  · rw [h1] at hc
    injection hc with hid hs'
    injection hid with hid
    subst hid
    subst hs'
    generalize hn : bpSize h size = n at *
    have hbt : ∀ i, i < n → orig (a + i) = s.m.mem (a + i) := by
      intro i hi
      refine (hinv.mem.2 (a + i) ?_).symm
      intro p hp
      rcases hdis p hp with hd | hd
      · left; omega
      · right; omega
    have holdlen : old.length = n := by
      have := hold ⟨a, n, old, true⟩ (by simp)
      exact this
    have hfresh : ∀ e ∈ s.dict, e.1 ≠ a := by
      intro e he hea
      obtain ⟨b, hb1, hb2, hb3, _⟩ := hinv.ents e he
      rcases findBreakpoint_none hfind e he b hb1 with hlt | hle <;> omega
    rw [dictSet_fresh hfresh]
    have hget : ∀ (i : Nat) (b : BpObj), s.objs[i]? = some b → (s.objs ++ [(⟨a, n, old, true⟩ : BpObj)])[i]? = some b := by
      intro i b hb
      rw [List.getElem?_append_left]
      · exact hb
      · exact (List.getElem?_eq_some_iff.1 hb).1
    have hnew : (s.objs ++ [(⟨a, n, old, true⟩ : BpObj)])[s.objs.length]? = some ⟨a, n, old, true⟩ := by simp
    constructor
    · exact hinv.running
    · intro e he
      rcases List.mem_append.1 he with he | he
      · obtain ⟨b, hb1, hb2⟩ := hinv.ents e he
        exact ⟨b, hget _ _ hb1, hb2⟩
      · rw [List.mem_singleton] at he
        subst he
        refine ⟨_, hnew, rfl, hpos, ?_⟩
        dsimp only
        rw [hbytes, holdlen]
        apply List.ext_getElem
        · simp
        · intro i h2 h3
          simp only [bytesAt_length] at h2
          rw [bytesAt_getElem, bytesAt_getElem]
          exact (hbt i h2).symm
    · dsimp only
      rw [List.map_append, List.nodup_append]
      refine ⟨hinv.keys, by simp, ?_⟩
      intro x hx y hy
      simp at hy
      subst hy
      obtain ⟨e, he, rfl⟩ := List.mem_map.1 hx
      exact hfresh e he
    · intro e he f hf hne b c hb hc
      have key : ∀ e ∈ s.dict, ∀ b, (s.objs ++ [(⟨a, n, old, true⟩ : BpObj)])[e.2]? = some b → s.objs[e.2]? = some b := by
        intro e he b hb
        obtain ⟨b', hb1, _⟩ := hinv.ents e he
        rw [hget _ _ hb1] at hb
        rw [hb1, hb]
      rcases List.mem_append.1 he with he | he <;> rcases List.mem_append.1 hf with hf | hf
      · exact hinv.disj e he f hf hne b c (key e he b hb) (key f hf c hc)
      · rw [List.mem_singleton] at hf; subst hf
        dsimp only at hc
        rw [hnew] at hc; injection hc with hc; subst hc
        have := hdis (b.address, b.size) (mem_places.2 ⟨e, he, b, key e he b hb, rfl⟩)
        dsimp only at this ⊢
        omega
      · rw [List.mem_singleton] at he; subst he
        dsimp only at hb
        rw [hnew] at hb; injection hb with hb; subst hb
        have := hdis (c.address, c.size) (mem_places.2 ⟨f, hf, c, key f hf c hc, rfl⟩)
        dsimp only at this ⊢
        omega
      · rw [List.mem_singleton] at he hf; subst he; subst hf; exact absurd rfl hne
    · intro i b hb hi
      dsimp only at hb ⊢
      rw [List.mem_append]
      by_cases hlt : i < s.objs.length
      · rw [List.getElem?_append_left hlt] at hb
        exact Or.inl (hinv.inst i b hb hi)
      · right
        have hil : i < (s.objs ++ [(⟨a, n, old, true⟩ : BpObj)]).length := (List.getElem?_eq_some_iff.1 hb).1
        simp at hil
        have : i = s.objs.length := by omega
        subst this
        rw [hnew] at hb; injection hb with hb; subst hb
        simp
    · have hpl : ∀ p, p ∈ places { s with m := m', objs := s.objs ++ [(⟨a, n, old, true⟩ : BpObj)], dict := s.dict ++ [(a, s.objs.length)] } ↔
          p ∈ places s ∨ p = (a, n) := by
        intro p
        rw [mem_places, mem_places]
        constructor
        · rintro ⟨e, he, b, hb, hp⟩
          rcases List.mem_append.1 he with he | he
          · obtain ⟨b', hb1, _⟩ := hinv.ents e he
            dsimp only at hb
            rw [hget _ _ hb1] at hb
            exact Or.inl ⟨e, he, b, by rw [hb1, hb], hp⟩
          · rw [List.mem_singleton] at he; subst he
            dsimp only at hb
            rw [hnew] at hb; injection hb with hb; subst hb
            exact Or.inr hp.symm
        · rintro (⟨e, he, b, hb, hp⟩ | rfl)
          · exact ⟨e, List.mem_append_left _ he, b, hget _ _ hb, hp⟩
          · exact ⟨(a, s.objs.length), by simp, _, hnew, rfl⟩
      constructor
      · intro p hp i hi
        dsimp only
        rw [hmem]
        rcases (hpl p).1 hp with hp | rfl
        · rw [storeBytes_out]
          · exact hinv.mem.1 p hp i hi
          · have := hdis p hp
            simp only [List.length_map, List.length_range]
            omega
        · dsimp only at hi ⊢
          rw [storeBytes_in _ _ _ _ (by simpa using hi)]
          simp
      · intro x hx
        dsimp only
        rw [hmem, storeBytes_out]
        · exact hinv.mem.2 x fun p hp => hx p ((hpl p).2 (Or.inl hp))
        · have := hx (a, n) ((hpl _).2 (Or.inr rfl))
          simpa using this

/-- A failing `createBreakpoint` of one byte changes neither memory nor the list. -/
theorem inv_create_fail {h : BpHost} {orig : Nat → Byte} {s s' : BpSt} {a : Nat} {size : Option Nat} {e : Exc}
    (hinv : BpInv h orig s) (hc : createBreakpoint h a size s = (.error e, s')) (h1 : bpSize h size = 1) :
    BpInv h orig s' := by
  rcases createBreakpoint_cases h a size s with ⟨e, m', hc', j, hj, hmem⟩ | ⟨m', old, hc', _⟩
  · rw [hc'] at hc
    injection hc with _ hs'
    subst hs'
    rw [h1] at hj hmem
    have : j = 0 := by have := hj (by decide); omega
    subst this
    have hm : m'.mem = s.m.mem := by rw [hmem]; funext x; simp [storeBytes]
    exact ⟨hinv.running, hinv.ents, hinv.keys, hinv.disj, hinv.inst, by
      show Spec.Patched orig (trapByte h) (places s) m'.mem
      rw [hm]; exact hinv.mem⟩
  · rw [hc'] at hc; injection hc with hc _; cases hc

theorem getElem?_set_cases {s : BpSt} {id : Nat} {b : BpObj} (hb : s.objs[id]? = some b) (i : Nat) (c : BpObj)
    (hc : (s.objs.set id { b with installed := false })[i]? = some c) :
    (i = id ∧ c = { b with installed := false }) ∨ (i ≠ id ∧ s.objs[i]? = some c) := by
  by_cases h : i = id
  · subst h
    have hlt := (List.getElem?_eq_some_iff.1 hb).1
    rw [List.getElem?_set_self hlt] at hc
    injection hc with hc
    exact Or.inl ⟨rfl, hc.symm⟩
  · rw [List.getElem?_set_ne (by omega)] at hc
    exact Or.inr ⟨h, hc⟩

theorem inv_desinstall {h : BpHost} {orig : Nat → Byte} {s s' : BpSt} {id : Nat} {ip : Bool}
    (hinv : BpInv h orig s) (hd : desinstall h id ip s = (.ok (), s')) : BpInv h orig s' := by
  cases hb : s.objs[id]? with
  | none =>
    unfold desinstall at hd; rw [hb] at hd
    injection hd with _ hd; subst hd; exact hinv
  | some b =>
    by_cases hi : b.installed = true
    · have hin := hinv.inst id b hb hi
      have hlt := (List.getElem?_eq_some_iff.1 hb).1
      rcases desinstall_cases h id ip s b hb hi hinv.running with ⟨e, m', h1, _⟩ | ⟨e, m', r', h1, _⟩ | ⟨m', r', h1, hmem, _⟩
      · rw [h1] at hd; injection hd with hd _; cases hd
      · rw [h1] at hd; injection hd with hd _; cases hd
      · rw [h1] at hd
        injection hd with _ hs'
        subst hs'
        obtain ⟨b', hb1, hb2, hb3, hb4⟩ := hinv.ents _ hin
        dsimp only at hb1
        rw [hb] at hb1; injection hb1 with hb1; subst hb1
        have hother : ∀ e ∈ s.dict, e.1 ≠ b.address → e.2 ≠ id := by
          intro e he hne h2
          obtain ⟨c, hc1, hc2, _⟩ := hinv.ents e he
          rw [h2, hb] at hc1; injection hc1 with hc1; subst hc1
          exact hne hc2.symm
        have hget : ∀ e ∈ s.dict, e.1 ≠ b.address →
            (s.objs.set id { b with installed := false })[e.2]? = s.objs[e.2]? := by
          intro e he hne
          rw [List.getElem?_set_ne (fun h => hother e he hne h.symm)]
        have hfil : ∀ e, e ∈ dictDel s.dict b.address ↔ e ∈ s.dict ∧ e.1 ≠ b.address := by
          intro e; exact mem_dictDel e
        have hpl : ∀ p, p ∈ places { s with m := m', r := r', objs := s.objs.set id { b with installed := false }, dict := dictDel s.dict b.address } ↔
            ∃ e ∈ s.dict, e.1 ≠ b.address ∧ ∃ c, s.objs[e.2]? = some c ∧ (c.address, c.size) = p := by
          intro p
          rw [mem_places]
          constructor
          · rintro ⟨e, he, c, hc, hp⟩
            obtain ⟨he1, he2⟩ := (hfil e).1 he
            exact ⟨e, he1, he2, c, by rw [← hget e he1 he2]; exact hc, hp⟩
          · rintro ⟨e, he1, he2, c, hc, hp⟩
            exact ⟨e, (hfil e).2 ⟨he1, he2⟩, c, by rw [← hget e he1 he2] at hc; exact hc, hp⟩
        constructor
        · exact hinv.running
        · intro e he
          obtain ⟨he1, he2⟩ := (hfil e).1 he
          obtain ⟨c, hc1, hc2⟩ := hinv.ents e he1
          exact ⟨c, by dsimp only; rw [hget e he1 he2]; exact hc1, hc2⟩
        · exact dictDel_nodup hinv.keys
        · intro e he f hf hne c d hc hd
          obtain ⟨he1, he2⟩ := (hfil e).1 he
          obtain ⟨hf1, hf2⟩ := (hfil f).1 hf
          dsimp only at hc hd
          rw [hget e he1 he2] at hc
          rw [hget f hf1 hf2] at hd
          exact hinv.disj e he1 f hf1 hne c d hc hd
        · intro i c hc hci
          dsimp only at hc
          rcases getElem?_set_cases hb i c hc with ⟨_, rfl⟩ | ⟨hne, hc⟩
          · cases hci
          · refine (hfil _).2 ⟨hinv.inst i c hc hci, ?_⟩
            intro heq
            dsimp only at heq
            have h2 := hinv.inst i c hc hci
            rw [heq] at h2
            have := nodup_map_inj hinv.keys h2 hin rfl
            injection this with _ this
            exact hne this
        · have hout : ∀ e ∈ s.dict, e.1 ≠ b.address → ∀ c, s.objs[e.2]? = some c →
              c.address + c.size ≤ b.address ∨ b.address + b.size ≤ c.address := by
            intro e he hne c hc
            exact hinv.disj e he _ hin hne c b hc hb
          constructor
          · intro p hp i hi'
            obtain ⟨e, he, hne, c, hc, hcp⟩ := (hpl p).1 hp
            dsimp only
            rw [hmem, storeBytes_out]
            · exact hinv.mem.1 p (mem_places.2 ⟨e, he, c, hc, hcp⟩) i hi'
            · have := hout e he hne c hc
              rw [hb4, bytesAt_length]
              subst hcp
              dsimp only at hi' ⊢
              omega
          · intro x hx
            dsimp only
            rw [hmem]
            by_cases hxb : x < b.address ∨ b.address + b.size ≤ x
            · rw [storeBytes_out _ _ _ _ (by rw [hb4, bytesAt_length]; exact hxb)]
              apply hinv.mem.2
              intro p hp
              obtain ⟨e, he, c, hc, hcp⟩ := mem_places.1 hp
              by_cases hne : e.1 = b.address
              · obtain ⟨c', hc1, hc2, _⟩ := hinv.ents e he
                have := nodup_map_inj hinv.keys he hin hne
                rw [this] at hc
                dsimp only at hc
                rw [hb] at hc; injection hc with hc; subst hc
                subst hcp; exact hxb
              · exact hx p ((hpl p).2 ⟨e, he, hne, c, hc, hcp⟩)
            · have hxe : x = b.address + (x - b.address) := by omega
              have hl : x - b.address < b.oldBytes.length := by rw [hb4, bytesAt_length]; omega
              rw [hxe, storeBytes_in _ _ _ _ hl]
              simp only [hb4, bytesAt_getElem]
    · unfold desinstall at hd; rw [hb] at hd
      dsimp only at hd
      rw [if_pos hi] at hd
      injection hd with _ hd; subst hd; exact hinv

/-- A failing `desinstall(False)` of a one byte breakpoint leaves memory and list as they are. -/
theorem inv_desinstall_fail {h : BpHost} {orig : Nat → Byte} {s s' : BpSt} {id : Nat} {e : Exc}
    (hinv : BpInv h orig s) (hd : desinstall h id false s = (.error e, s'))
    (h1 : ∀ b, s.objs[id]? = some b → b.size = 1) : BpInv h orig s' := by
  cases hb : s.objs[id]? with
  | none => unfold desinstall at hd; rw [hb] at hd; injection hd with hd _; cases hd
  | some b =>
    by_cases hi : b.installed = true
    · have hin := hinv.inst id b hb hi
      have hlt := (List.getElem?_eq_some_iff.1 hb).1
      rcases desinstall_cases h id false s b hb hi hinv.running with ⟨e, m', hd', j, hj, hmem⟩ | ⟨e, m', r', _, _, h3⟩ | ⟨m', r', hd', _⟩
      · rw [hd'] at hd; injection hd with _ hd; subst hd
        obtain ⟨b', hb1, hb2, hb3, hb4⟩ := hinv.ents _ hin
        dsimp only at hb1
        rw [hb] at hb1; injection hb1 with hb1; subst hb1
        have hlen : b.oldBytes.length = 1 := by rw [hb4, bytesAt_length, h1 b hb]
        have : j = 0 := by
          have := hj (by intro h0; rw [h0] at hlen; cases hlen)
          omega
        subst this
        have hm : m'.mem = s.m.mem := by rw [hmem]; funext x; simp [storeBytes]
        have hsame : ∀ (i : Nat) (c : BpObj), (s.objs.set id { b with installed := false })[i]? = some c →
            ∃ c' : BpObj, s.objs[i]? = some c' ∧ c.address = c'.address ∧ c.size = c'.size ∧ c.oldBytes = c'.oldBytes ∧
              (c.installed = true → c = c') := by
          intro i c hc
          rcases getElem?_set_cases hb i c hc with ⟨rfl, rfl⟩ | ⟨_, hc⟩
          · exact ⟨b, hb, rfl, rfl, rfl, by intro h; cases h⟩
          · exact ⟨c, hc, rfl, rfl, rfl, fun _ => rfl⟩
        have hsame' : ∀ (i : Nat) (c' : BpObj), s.objs[i]? = some c' → ∃ c : BpObj,
            (s.objs.set id { b with installed := false })[i]? = some c ∧ c.address = c'.address ∧ c.size = c'.size ∧
              c.oldBytes = c'.oldBytes := by
          intro i c' hc'
          by_cases hid : i = id
          · subst hid
            rw [hb] at hc'; injection hc' with hc'; subst hc'
            exact ⟨_, List.getElem?_set_self hlt, rfl, rfl, rfl⟩
          · exact ⟨c', by rw [List.getElem?_set_ne (by omega)]; exact hc', rfl, rfl, rfl⟩
        have hpl : ∀ p, p ∈ places { s with m := m', objs := s.objs.set id { b with installed := false } } ↔ p ∈ places s := by
          intro p
          rw [mem_places, mem_places]
          constructor
          · rintro ⟨e, he, c, hc, hp⟩
            obtain ⟨c', h2, h3, h4, _⟩ := hsame _ _ hc
            exact ⟨e, he, c', h2, by rw [← h3, ← h4]; exact hp⟩
          · rintro ⟨e, he, c, hc, hp⟩
            obtain ⟨c', h2, h3, h4, _⟩ := hsame' _ _ hc
            exact ⟨e, he, c', h2, by rw [h3, h4]; exact hp⟩
        refine ⟨hinv.running, ?_, hinv.keys, ?_, ?_, ?_⟩
        · intro e he
          obtain ⟨c, hc1, hc2, hc3, hc4⟩ := hinv.ents e he
          obtain ⟨c', h2, h3, h4, h5⟩ := hsame' _ _ hc1
          exact ⟨c', h2, by rw [h3]; exact hc2, by rw [h4]; exact hc3, by rw [h3, h4, h5]; exact hc4⟩
        · intro e he f hf hne c d hc hd
          obtain ⟨c', h2, h3, h4, _⟩ := hsame _ _ hc
          obtain ⟨d', k2, k3, k4, _⟩ := hsame _ _ hd
          rw [h3, h4, k3, k4]
          exact hinv.disj e he f hf hne c' d' h2 k2
        · intro i c hc hci
          obtain ⟨c', h2, h3, h4, _, h5⟩ := hsame _ _ hc
          have := h5 hci
          subst this
          exact hinv.inst i c h2 hci
        · constructor
          · intro p hp i hi
            show m'.mem _ = _
            rw [hm]; exact hinv.mem.1 p ((hpl p).1 hp) i hi
          · intro x hx
            show m'.mem _ = _
            rw [hm]; exact hinv.mem.2 x fun p hp => hx p ((hpl p).2 hp)
      · rcases h3 with h3 | h3
        · cases h3
        · exact absurd rfl (h3 _ hin)
      · rw [hd'] at hd; injection hd with hd _; cases hd
    · unfold desinstall at hd; rw [hb] at hd
      dsimp only at hd
      rw [if_pos hi] at hd
      injection hd with hd _; cases hd

end PT
