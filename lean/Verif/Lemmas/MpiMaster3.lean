import Verif.Lemmas.MpiMaster2
/-! # The MPI protocol: the remaining steps keep the invariant -/
set_option linter.all false
namespace FireFly.Mpi
open Function (update)

variable {c : Cfg} {s s' : State c.m} {a : Fin c.m → ANode} {comp : List (List Probe)}

theorem Pre.enc {l : List AOut} (h : Pre l) : l = [] ∨ ∃ k ps w, l = [.results k ps w] ∧ encOut c (.results k ps w) ≠ [0] := by
  rcases h with h | ⟨k, ps, w, h, hne⟩
  · exact Or.inl h
  · refine Or.inr ⟨k, ps, w, h, ?_⟩
    cases ps with
    | nil => exact absurd rfl hne
    | cons q ps => simp [encOut, packResults]

/-- A message is thrown away. -/
theorem Inv.drop (I : Inv c s a comp) (i : Fin c.m) (x : ANode) (ph : MPhase c.m) (hl : livePhase ph = false) (hr : runPhase ph = false) (hf : ∀ k, s.phase ≠ .first k) (hle : x.acc ≤ (a i).acc)
    (hN : ∀ j, NodeInv c ph s.field s.emptyNodes j (update a i x j)) :
    Inv c { s.setNode i (encNode c x) with phase := ph } (update a i x) comp := by
  refine ⟨I.fault, update_node I.node i x, I.cmp, I.logLen, I.logN, I.logInd, I.reqLen, I.jobs, ?_, ?_, ?_, slotsOk_of (I.slots.all hf), hN⟩
  · refine le_trans ?_ I.acc
    show _ + ∑ j, (update a i x j).acc ≤ _
    apply add_le_add_right
    have hs := sum_update ANode.acc a i x
    rw [← add_le_add_iff_right (a i).acc, hs]
    exact add_le_add_right hle _
  · rintro ⟨h, _⟩; rw [hl] at h; cases h
  · intro h; rw [hr] at h; cases h

theorem drain_keeps (V : c.Valid) (I : Inv c s a comp) (hs : drainStep c s = some s') : Keeps c s s' a := by
  unfold drainStep at hs
  cases hph : s.phase with
  | drain fin k =>
    rw [hph] at hs
    dsimp only at hs
    have hf : ∀ k, s.phase ≠ .first k := by rw [hph]; intro k; simp
    by_cases hk : k < c.m
    · rw [dif_pos hk] at hs
      have hn : s.node ⟨k, hk⟩ = encNode c (a ⟨k, hk⟩) := by rw [I.node]
      rw [hn] at hs
      have hNi := I.nodes ⟨k, hk⟩
      rw [hph] at hNi
      obtain ⟨g1, ⟨g2, g3, g4⟩, _, g6⟩ := hNi
      have g5 := g6 (le_refl _)
      clear g6
      have hoth : ∀ j, NodeInv c (.drain fin k) s.field s.emptyNodes j (a j) := by intro j; have := I.nodes j; rwa [hph] at this
      have hoth' : ∀ j, j ≠ ⟨k, hk⟩ → NodeInv c (.drain fin (k + 1)) s.field s.emptyNodes j (a j) := by
        intro j hj
        have hj' : j.val ≠ k := fun h => hj (Fin.ext h)
        obtain ⟨q1, q2, q3, q4⟩ := hoth j
        exact ⟨q1, q2, fun h => q3 (by omega), fun h => q4 (by omega)⟩
      have hm := fun x => sum_update ANode.wt a ⟨k, hk⟩ x
      generalize hx : a ⟨k, hk⟩ = x at *
      rcases x with ⟨out, inn, ph, fld, t, r, p⟩
      dsimp only at g1 g2 g3 g4 g5
      subst g1 g2 g3 g4
      have hown : ∀ (nd : Fin c.m → Node) (k' : ℕ), ownWt c { s with node := nd, phase := .drain fin k' } + (c.m + 1 - k) = ownWt c s + (c.m + 1 - k') := by
        intro nd k'
        have h1 : doneWt c s.done (.drain fin k') = doneWt c s.done (.drain fin k) := rfl
        have h2 : primeWt c s.newPrime (.drain fin k') = primeWt c s.newPrime (.drain fin k) := rfl
        simp only [ownWt, hph, mwt]
        omega
      have hres : ∀ q ps w, encOut c (.results q ps w) ≠ [0] → ∀ l, out = [.results q ps w] ++ l → (l = [] ∨ l = [.last]) → NodeInv c (.drain fin k) s.field s.emptyNodes ⟨k, hk⟩ ⟨l, [], ph, fld, 0, [], []⟩ → Keeps c s s' a := by
        intro q ps w hne l ho hl hN
        subst ho
        simp only [encNode, List.map_cons, List.cons_append, List.nil_append] at hs
        rw [if_neg hne] at hs
        have he := Option.some.inj hs
        refine ⟨update a ⟨k, hk⟩ ⟨l, [], ph, fld, 0, [], []⟩, comp, ?_, ?_⟩
        · rw [← he]; exact (I.drop ⟨k, hk⟩ ⟨l, [], ph, fld, 0, [], []⟩ (.drain fin k) rfl rfl hf (by rw [hx]; simp [ANode.acc, ← Multiset.coe_add]) (nodes_update hN (fun j _ => hoth j)))
        · have h1 := hm ⟨l, [], ph, fld, 0, [], []⟩
          have h2 := hown (update s.node ⟨k, hk⟩ (encNode c ⟨l, [], ph, fld, 0, [], []⟩)) k
          rw [← he]
          show ownWt c { s with node := update s.node ⟨k, hk⟩ (encNode c ⟨l, [], ph, fld, 0, [], []⟩), phase := .drain fin k } + _ < ownWt c s + _
          simp only [ANode.wt, List.map_cons, List.cons_append, List.nil_append, List.sum_cons, AOut.wt] at h1 ⊢
          omega
      rcases g5 with ⟨e1, e2⟩ | ⟨e1, pre, e2, e3⟩
      · rcases e2.enc (c := c) with h | ⟨q, ps, w, h, hne⟩
        · subst h; simp [encNode] at hs
        · refine hres q ps w hne [] (by simp [h]) (Or.inl rfl) ⟨rfl, ⟨rfl, rfl, rfl⟩, fun h => absurd h (lt_irrefl _), fun _ => Or.inl ⟨e1, Or.inl rfl⟩⟩
      · rcases e3.enc (c := c) with h | ⟨q, ps, w, h, hne⟩
        · subst h e2
          simp only [encNode, List.map_cons, List.map_nil, List.nil_append, encOut, if_pos] at hs
          have he := Option.some.inj hs
          refine ⟨update a ⟨k, hk⟩ ⟨[], [], ph, fld, 0, [], []⟩, comp, ?_, ?_⟩
          · rw [← he]
            exact (I.drop ⟨k, hk⟩ ⟨[], [], ph, fld, 0, [], []⟩ (.drain fin (k + 1)) rfl rfl hf (by rw [hx]; simp [ANode.acc, AOut.probes])
              (nodes_update ⟨rfl, ⟨rfl, rfl, rfl⟩, fun _ => ⟨e1, rfl⟩, fun h => absurd h (by simp)⟩ hoth'))
          · have h1 := hm ⟨[], [], ph, fld, 0, [], []⟩
            have h2 := hown (update s.node ⟨k, hk⟩ (encNode c ⟨[], [], ph, fld, 0, [], []⟩)) (k + 1)
            rw [← he]
            show ownWt c { s with node := update s.node ⟨k, hk⟩ (encNode c ⟨[], [], ph, fld, 0, [], []⟩), phase := .drain fin (k + 1) } + _ < ownWt c s + _
            simp only [ANode.wt, List.map_cons, List.map_nil, List.nil_append, List.sum_cons, List.sum_nil, AOut.wt] at h1 ⊢
            omega
        · refine hres q ps w hne [.last] (by simp [e2, h]) (Or.inr rfl) ⟨rfl, ⟨rfl, rfl, rfl⟩, fun h => absurd h (lt_irrefl _), fun _ => Or.inr ⟨e1, [], rfl, Or.inl rfl⟩⟩
    · rw [dif_neg hk] at hs
      have he := Option.some.inj hs
      refine ⟨a, comp, ?_, ?_⟩
      · subst he
        refine ⟨I.fault, I.node, I.cmp, I.logLen, I.logN, I.logInd, I.reqLen, I.jobs, I.acc, ?_, by simp [runPhase], slotsOk_of (I.slots.all hf), ?_⟩
        · rintro ⟨h, _⟩; simp [livePhase] at h
        · intro i
          have hN := I.nodes i
          rw [hph] at hN
          obtain ⟨q1, q2, q3, q4⟩ := hN
          have := q3 (by have := i.isLt; omega)
          exact ⟨q1, q2, this.2, this.1⟩
      · have hown : ownWt c s' + 50 * (c.m + 1) + (c.m + 1 - k) = ownWt c s + 40 * (c.m + 1) := by
          have h1 : doneWt c s.done (.drain fin k) = doneWt c s.done (.bar2 fin) := rfl
          have h2 : primeWt c s.newPrime (.drain fin k) = primeWt c s.newPrime (.bar2 fin) := rfl
          subst he
          simp only [ownWt, hph, mwt]
          omega
        unfold measure
        omega
  | _ => rw [hph] at hs; simp at hs

/-! ### The local threads -/

theorem flags_keeps (I : Inv c s a comp) (hs : step c s .setFlag = some s') : Keeps c s s' a := by
  simp only [step] at hs
  split_ifs at hs with h
  have he := Option.some.inj hs
  refine ⟨a, comp, by subst he; exact ⟨I.fault, I.node, I.cmp, I.logLen, I.logN, I.logInd, I.reqLen, I.jobs, I.acc, I.eq, I.en, I.slots, I.nodes⟩, ?_⟩
  subst he
  simp only [measure, ownWt]
  have := Bool.toNat_le s.newJobs
  simp only [Bool.toNat_true]
  omega

theorem submit_keeps (I : Inv c s a comp) (hs : step c s .submit = some s') : Keeps c s s' a := by
  simp only [step] at hs
  split_ifs at hs with h
  have he := Option.some.inj hs
  refine ⟨a, comp, by subst he; exact ⟨I.fault, I.node, I.cmp, I.logLen, I.logN, I.logInd, I.reqLen, by have := I.jobs; show s.requested.length ≤ s.owed - 1 + (s.jobs + 1); omega, I.acc, I.eq, I.en, I.slots, I.nodes⟩, ?_⟩
  subst he
  simp only [measure, ownWt]
  omega

theorem check_keeps (I : Inv c s a comp) (hs : step c s .check = some s') : Keeps c s s' a := by
  simp only [step] at hs
  by_cases h : s.checks = 0
  · rw [if_pos h] at hs; cases hs
  rw [if_neg h] at hs
  have he := Option.some.inj hs
  refine ⟨a, comp, by subst he; exact ⟨I.fault, I.node, I.cmp, I.logLen, I.logN, I.logInd, I.reqLen, I.jobs, I.acc, I.eq, I.en, I.slots, I.nodes⟩, ?_⟩
  subst he
  simp only [measure, ownWt]
  split_ifs <;> omega

theorem clearFlag_keeps (I : Inv c s a comp) (hs : step c s .clearFlag = some s') : Keeps c s s' a := by
  simp only [step] at hs
  split_ifs at hs with h
  have he := Option.some.inj hs
  refine ⟨a, comp, by subst he; exact ⟨I.fault, I.node, I.cmp, I.logLen, I.logN, I.logInd, I.reqLen, I.jobs, I.acc, I.eq, I.en, I.slots, I.nodes⟩, ?_⟩
  subst he
  simp only [measure, ownWt, Bool.toNat_false]
  omega

theorem getJob_keeps (V : c.Valid) (I : Inv c s a comp) (hs : getJobStep c s = some s') : Keeps c s s' a := by
  unfold getJobStep at hs
  by_cases h0 : s.jobs = 0
  · rw [if_pos h0] at hs; cases hs
  rw [if_neg h0] at hs
  by_cases h1 : s.requested = []
  · rw [if_pos h1] at hs
    have he := Option.some.inj hs
    refine ⟨a, comp, by subst he; exact ⟨I.fault, I.node, I.cmp, I.logLen, I.logN, I.logInd, I.reqLen, by simp [h1], I.acc, I.eq, I.en, I.slots, I.nodes⟩, ?_⟩
    subst he
    simp only [measure, ownWt]
    omega
  · rw [if_neg h1] at hs
    have hpos := List.length_pos_iff.mpr h1
    have hlt := I.reqLen
    rw [Nat.mod_eq_of_lt (by omega)] at hs
    obtain ⟨b, hb, hb2, hb3, hb1⟩ := bunch_ok hpos hlt V.thr V.bunch
    rw [hb] at hs
    dsimp only at hs
    rw [if_pos hb1, if_neg (by omega)] at hs
    have he := Option.some.inj hs
    have hacc : ((s.requested.drop b : List Probe) : Multiset Probe) + ((s.localRun ++ [s.requested.take b]).flatten : Multiset Probe) = (s.requested : Multiset Probe) + (s.localRun.flatten : Multiset Probe) := by
      conv_rhs => rw [← List.take_append_drop b s.requested]
      simp only [List.flatten_append, List.flatten_cons, List.flatten_nil, List.append_nil, ← Multiset.coe_add]
      abel
    refine ⟨a, comp, ?_, ?_⟩
    · subst he
      refine ⟨I.fault, I.node, I.cmp, I.logLen, I.logN, I.logInd, ?_, ?_, ?_, ?_, I.en, I.slots, I.nodes⟩
      · show (s.requested.drop b).length < _; simp; omega
      · have := I.jobs; show (s.requested.drop b).length ≤ s.owed + (s.jobs - 1); simp; omega
      · show ((s.requested.drop b : List Probe) : Multiset Probe) + ((s.localRun ++ [s.requested.take b]).flatten : Multiset Probe) + _ + _ ≤ _
        rw [hacc]; exact I.acc
      · intro hR
        show ((s.requested.drop b : List Probe) : Multiset Probe) + ((s.localRun ++ [s.requested.take b]).flatten : Multiset Probe) + _ + _ = _
        rw [hacc]; exact I.eq hR
    · subst he
      simp only [measure, ownWt, List.map_append, List.map_cons, List.map_nil, List.sum_append, List.sum_cons, List.sum_nil, List.length_drop, List.length_take]
      rw [Nat.min_eq_left hb3]
      omega

theorem localDone_keeps (I : Inv c s a comp) (k : ℕ) (hs : localDoneStep c s k = some s') : Keeps c s s' a := by
  unfold localDoneStep at hs
  cases hk : s.localRun[k]? with
  | none => rw [hk] at hs; cases hs
  | some b =>
    rw [hk] at hs
    have he := Option.some.inj hs
    have hacc : ((s.localRun.eraseIdx k).flatten : Multiset Probe) + ((comp ++ [b]).flatten : Multiset Probe) = (s.localRun.flatten : Multiset Probe) + (comp.flatten : Multiset Probe) := by
      rw [flatten_eraseIdx _ _ _ hk]
      simp only [List.flatten_append, List.flatten_cons, List.flatten_nil, List.append_nil, ← Multiset.coe_add]
      abel
    refine ⟨a, comp ++ [b], ?_, ?_⟩
    · subst he
      refine ⟨I.fault, I.node, ?_, I.logLen, I.logN, I.logInd, I.reqLen, I.jobs, ?_, ?_, I.en, I.slots, I.nodes⟩
      · rw [List.map_append]; show s.computed ++ _ = _; rw [I.cmp]; rfl
      · show _ + ((s.localRun.eraseIdx k).flatten : Multiset Probe) + ((comp ++ [b]).flatten : Multiset Probe) + _ ≤ _
        rw [add_assoc (s.requested : Multiset Probe), hacc, ← add_assoc]; exact I.acc
      · intro hR
        show _ + ((s.localRun.eraseIdx k).flatten : Multiset Probe) + ((comp ++ [b]).flatten : Multiset Probe) + _ = _
        rw [add_assoc (s.requested : Multiset Probe), hacc, ← add_assoc]; exact I.eq hR
    · have hsum : ∀ (l : List (List Probe)) (k : ℕ), l[k]? = some b → (l.map (fun b => 6 + 50 * b.length)).sum = ((l.eraseIdx k).map (fun b => 6 + 50 * b.length)).sum + (6 + 50 * b.length) := by
        intro l
        induction l with
        | nil => intro k h; simp at h
        | cons x l ih =>
          intro k h
          cases k with
          | zero => simp at h; subst h; simp; omega
          | succ k =>
            simp at h
            have := ih k h
            simp only [List.eraseIdx_cons_succ, List.map_cons, List.sum_cons]
            omega
      have := hsum _ _ hk
      subst he
      simp only [measure, ownWt]
      omega

/-! ### The rest of the program -/

theorem env_keeps (I : Inv c s a comp) (e : Event c.m) (he : e.env = true) (hs : step c s e = some s') : ∃ a' comp', Inv c s' a' comp' := by
  cases e with
  | call =>
    simp only [step] at hs
    have : s' = { s with flags := s.flags + 1 } := by split at hs <;> first | exact (Option.some.inj hs).symm | cases hs
    subst this
    exact ⟨a, comp, I.fault, I.node, I.cmp, I.logLen, I.logN, I.logInd, I.reqLen, I.jobs, I.acc, I.eq, I.en, I.slots, I.nodes⟩
  | queue v front =>
    simp only [step] at hs
    by_cases h : s.flags ≠ 0 ∧ v.length = c.n ∧ s.requested.length + 1 < 2 ^ 31 ∧ s.log.length + 1 < 2 ^ 64
    swap
    · rw [if_neg h] at hs; cases hs
    rw [if_pos h] at hs
    have he := Option.some.inj hs
    obtain ⟨h1, h2, h3, h4⟩ := h
    have hreq : ((if front then (s.ind, v) :: s.requested else s.requested ++ [(s.ind, v)] : List Probe) : Multiset Probe) = (s.requested : Multiset Probe) + {(s.ind, v)} := by
      cases front
      · simp only [if_neg (Bool.false_ne_true), ← Multiset.coe_add]; rfl
      · simp only [if_true]; rw [← Multiset.cons_coe, ← Multiset.singleton_add, add_comm]
    have hlen : (if front then (s.ind, v) :: s.requested else s.requested ++ [(s.ind, v)] : List Probe).length = s.requested.length + 1 := by cases front <;> simp
    have hlog : ((s.log ++ [(s.ind, v)] : List Probe) : Multiset Probe) = (s.log : Multiset Probe) + {(s.ind, v)} := by rw [← Multiset.coe_add]; rfl
    refine ⟨a, comp, ?_⟩
    subst he
    refine ⟨I.fault, I.node, I.cmp, ?_, ?_, ?_, ?_, ?_, ?_, ?_, I.en, I.slots, I.nodes⟩
    · simpa using h4
    · intro p hp
      rcases List.mem_append.mp hp with hp | hp
      · exact I.logN p hp
      · simp at hp; subst hp; exact h2
    · show (s.log ++ _).map Prod.fst = List.range (s.ind + 1)
      rw [List.map_append, I.logInd, List.range_succ]; rfl
    · show (if front then (s.ind, v) :: s.requested else s.requested ++ [(s.ind, v)] : List Probe).length < _
      rw [hlen]; exact h3
    · show (if front then (s.ind, v) :: s.requested else s.requested ++ [(s.ind, v)] : List Probe).length ≤ s.owed + 1 + s.jobs
      rw [hlen]; have := I.jobs; omega
    · show ((if front then (s.ind, v) :: s.requested else s.requested ++ [(s.ind, v)] : List Probe) : Multiset Probe) + _ + _ + _ ≤ ((s.log ++ [(s.ind, v)] : List Probe) : Multiset Probe)
      rw [hreq, hlog]
      have := add_le_add_left I.acc {(s.ind, v)}
      refine le_trans (le_of_eq ?_) this
      abel
    · intro hR
      show ((if front then (s.ind, v) :: s.requested else s.requested ++ [(s.ind, v)] : List Probe) : Multiset Probe) + _ + _ + _ = ((s.log ++ [(s.ind, v)] : List Probe) : Multiset Probe)
      rw [hreq, hlog, ← I.eq hR]
      abel
  | askPrime =>
    simp only [step] at hs
    have he := Option.some.inj hs
    subst he
    exact ⟨a, comp, I.fault, I.node, I.cmp, I.logLen, I.logN, I.logInd, I.reqLen, I.jobs, I.acc, fun h => absurd h.2.1 (by simp), I.en, I.slots, I.nodes⟩
  | askEnd =>
    simp only [step] at hs
    have he := Option.some.inj hs
    subst he
    exact ⟨a, comp, I.fault, I.node, I.cmp, I.logLen, I.logN, I.logInd, I.reqLen, I.jobs, I.acc, fun h => absurd h.2.2 (by simp), I.en, I.slots, I.nodes⟩
  | clear =>
    simp only [step] at hs
    have : (s.newPrime = true ∨ s.done = true) ∧ s' = { s with requested := [], newJobs := false } := by
      split at hs
      · cases hs
      · cases hs
      · cases hs
      · split_ifs at hs with h
        exact ⟨h, (Option.some.inj hs).symm⟩
    obtain ⟨h, rfl⟩ := this
    refine ⟨a, comp, I.fault, I.node, I.cmp, I.logLen, I.logN, I.logInd, by simp, by simp, ?_, ?_, I.en, I.slots, I.nodes⟩
    · refine le_trans ?_ I.acc
      show ((([] : List Probe) : Multiset Probe)) + _ + _ + _ ≤ _
      simp only [Multiset.coe_nil, zero_add, add_assoc]
      exact Multiset.le_add_left _ _
    · rintro ⟨_, h2, h3⟩
      rcases h with h | h
      · have : s.newPrime = false := h2; rw [h] at this; cases this
      · have : s.done = false := h3; rw [h] at this; cases this
  | _ => simp [Event.env] at he

end FireFly.Mpi
