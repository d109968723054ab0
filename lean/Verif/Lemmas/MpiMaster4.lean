import Verif.Lemmas.MpiMaster3
/-! # The MPI protocol: the start of a field, and all steps together -/
set_option linter.all false
namespace FireFly.Mpi
open Function (update)

variable {c : Cfg} {s s' : State c.m} {a : Fin c.m → ANode} {comp : List (List Probe)}

theorem mwt_first (k : ℕ) (h : k < c.m) : mwt c (.first k) = mwt c (.first (k + 1)) + (20 + 80 * c.wthr ⟨k, h⟩) := by
  have : ∀ i : Fin c.m, (if k ≤ i.val then 20 + 80 * c.wthr i else 0) = (if k + 1 ≤ i.val then 20 + 80 * c.wthr i else 0) + (if i = ⟨k, h⟩ then 20 + 80 * c.wthr i else 0) := by
    intro i
    by_cases hi : i.val = k
    · rw [if_pos (by omega), if_neg (by omega), if_pos (Fin.ext hi)]; omega
    · have hne : i ≠ ⟨k, h⟩ := fun he => hi (by rw [he])
      rw [if_neg hne]
      by_cases h2 : k ≤ i.val
      · rw [if_pos h2, if_pos (by omega)]; rfl
      · rw [if_neg h2, if_neg (by omega)]
  show 1 + _ = 1 + _ + _
  rw [Finset.sum_congr rfl (fun i _ => this i), Finset.sum_add_distrib, Finset.sum_ite_eq' Finset.univ (⟨k, h⟩ : Fin c.m) (fun i => 20 + 80 * c.wthr i), if_pos (Finset.mem_univ _)]
  omega

theorem number_fst (ind : ℕ) (vs : List (List ℕ)) : (number ind vs).map Prod.fst = List.range' ind vs.length := by
  apply List.ext_getElem
  · simp [number]
  · intro i h1 h2; simp [number]

theorem number_length (ind : ℕ) (vs : List (List ℕ)) : (number ind vs).length = vs.length := by simp [number]

theorem number_mem {ind : ℕ} {vs : List (List ℕ)} {p : Probe} (h : p ∈ number ind vs) : p.2 ∈ vs := by
  simp only [number, List.mem_mapIdx] at h
  obtain ⟨i, hi, rfl⟩ := h
  simp

theorem first_keeps (V : c.Valid) (I : Inv c s a comp) (vs : List (List ℕ)) (hs : firstStep c s vs = some s') : Keeps c s s' a := by
  unfold firstStep at hs
  cases hph : s.phase with
  | first k =>
    rw [hph] at hs
    dsimp only at hs
    have hnr : ∀ (k' : ℕ) (i : Fin c.m), notReply (.first k' : MPhase c.m) i := fun k' i w => by simp
    by_cases hk : k < c.m
    · rw [dif_pos hk] at hs
      have hn : s.node ⟨k, hk⟩ = encNode c (a ⟨k, hk⟩) := by rw [I.node]
      rw [hn] at hs
      have hNi := I.nodes ⟨k, hk⟩
      rw [hph] at hNi
      have hF := hNi.2 (le_refl _)
      clear hNi
      have hm := fun x => sum_update ANode.wt a ⟨k, hk⟩ x
      have hac := fun x => sum_update ANode.acc a ⟨k, hk⟩ x
      have hoth : ∀ j, j ≠ ⟨k, hk⟩ → NodeInv c (.first (k + 1)) s.field s.emptyNodes j (a j) := by
        intro j hj
        have hj' : j.val ≠ k := fun h => hj (Fin.ext h)
        have := I.nodes j
        rw [hph] at this
        exact ⟨fun h => Place.phase (this.1 (by omega)) (hnr _ _) (hnr _ _), fun h => this.2 (by omega)⟩
      generalize hx : a ⟨k, hk⟩ = x at hF hs hm hac
      cases hF with
      | top hp => simp [encNode] at hs
      | sent hp =>
        simp only [encNode, List.map_cons, List.map_nil, encOut, List.nil_append] at hs
        by_cases hv : vs.length = buffer * c.wthr ⟨k, hk⟩ % 2 ^ 32 ∧ (∀ v ∈ vs, v.length = c.n) ∧ s.log.length + vs.length < 2 ^ 64
        swap
        · rw [if_neg hv] at hs; cases hs
        rw [if_pos hv] at hs
        have he := Option.some.inj hs
        obtain ⟨hv1, hv2, hv3⟩ := hv
        have hmod := mod32_wthr V ⟨k, hk⟩
        have hthr := V.wthr' ⟨k, hk⟩
        have hvl : vs.length = 2 * c.wthr ⟨k, hk⟩ := by
          rw [hv1, buffer, Nat.mod_eq_of_lt (by omega)]
        have hA := hac ⟨[], [.values (number s.ind vs)], .waiting, s.field, 0, [], []⟩
        have hA' : ∑ j, (update a ⟨k, hk⟩ ⟨[], [.values (number s.ind vs)], .waiting, s.field, 0, [], []⟩ j).acc = ∑ j, (a j).acc + (number s.ind vs : Multiset Probe) := by
          simpa [ANode.acc, AIn.probes, AOut.probes, APhase.rest] using hA
        have hW := hm ⟨[], [.values (number s.ind vs)], .waiting, s.field, 0, [], []⟩
        refine ⟨update a ⟨k, hk⟩ ⟨[], [.values (number s.ind vs)], .waiting, s.field, 0, [], []⟩, comp, ?_, ?_⟩
        · subst he
          refine ⟨I.fault, update_node I.node ⟨k, hk⟩ ⟨[], [.values (number s.ind vs)], .waiting, s.field, 0, [], []⟩, I.cmp, ?_, ?_, ?_, I.reqLen, I.jobs, ?_, ?_, fun _ => I.en (by rw [hph]; rfl), ?_, ?_⟩
          · show (s.log ++ number s.ind vs).length < _
            rw [List.length_append, number_length]; exact hv3
          · intro p hp
            rcases List.mem_append.mp hp with hp | hp
            · exact I.logN p hp
            · exact hv2 _ (number_mem hp)
          · show (s.log ++ number s.ind vs).map Prod.fst = List.range (s.ind + vs.length)
            rw [List.map_append, I.logInd, number_fst, List.range_eq_range', List.range_eq_range']
            have := List.range'_append (s := 0) (m := s.ind) (n := vs.length) (step := 1)
            simpa using this
          · show _ + ∑ j, (update a ⟨k, hk⟩ _ j).acc ≤ ((s.log ++ number s.ind vs : List Probe) : Multiset Probe)
            rw [hA', ← Multiset.coe_add, ← add_assoc]
            exact add_le_add_left I.acc _
          · intro hR
            show _ + ∑ j, (update a ⟨k, hk⟩ _ j).acc = ((s.log ++ number s.ind vs : List Probe) : Multiset Probe)
            rw [hA', ← Multiset.coe_add, ← add_assoc]
            congr 1
            exact I.eq ⟨by rw [hph]; rfl, hR.2⟩
          · intro i hi
            show update s.slots ⟨k, hk⟩ (buffer * c.wthr ⟨k, hk⟩) i = _
            by_cases hik : i = ⟨k, hk⟩
            · subst hik; rw [Function.update_self]
            · rw [Function.update_of_ne hik]
              have h1 := hi (k + 1) rfl
              have h2 : i.val ≠ k := fun h => hik (Fin.ext h)
              refine I.slots i ?_
              intro k' hk'
              rw [hph] at hk'
              injection hk' with hk'
              omega
          · refine nodes_update ?_ hoth
            refine ⟨fun _ => ?_, fun h => absurd h (by simp)⟩
            refine .answered _ 0 [] [] hp (hnr _ _) (by rw [number_length]; omega) (Or.inl ?_) ⟨by simp, by norm_num, rfl⟩
            intro h
            have := congrArg List.length h
            rw [number_length] at this
            simp at this
            have hh := V.wthr ⟨k, hk⟩
            simp [this] at hvl
            omega
        · have hown : ownWt c s' + (20 + 80 * c.wthr ⟨k, hk⟩) = ownWt c s := by
            have h1 : doneWt c s.done (.first (k + 1)) = doneWt c s.done (.first k) := rfl
            have h2 : primeWt c s.newPrime (.first (k + 1)) = primeWt c s.newPrime (.first k) := rfl
            have h3 := mwt_first (c := c) k hk
            subst he
            simp only [ownWt, hph, State.setNode]
            omega
          have w1 : (⟨[.free (buffer * c.wthr ⟨k, hk⟩)], [], .waiting, s.field, 0, [], []⟩ : ANode).wt = 5 := by simp [ANode.wt, AOut.wt, AOut.probes, APhase.wt]
          have w2 : (⟨[], [.values (number s.ind vs)], .waiting, s.field, 0, [], []⟩ : ANode).wt = 8 + 40 * vs.length := by simp [ANode.wt, AIn.wt, number_length, APhase.wt]
          rw [w1, w2] at hW
          unfold measure
          omega
    · rw [dif_neg hk] at hs
      have he := Option.some.inj hs
      refine ⟨a, comp, ?_, ?_⟩
      · subst he
        refine ⟨I.fault, I.node, I.cmp, I.logLen, I.logN, I.logInd, I.reqLen, I.jobs, I.acc, ?_, fun _ => I.en (by rw [hph]; rfl), ?_, ?_⟩
        · intro hR; exact I.eq ⟨by rw [hph]; rfl, hR.2⟩
        · intro i _
          refine I.slots i ?_
          intro k' hk'
          rw [hph] at hk'
          injection hk' with hk'
          have := i.isLt
          omega
        · intro i
          have hN := I.nodes i
          rw [hph] at hN
          exact Place.phase (hN.1 (by have := i.isLt; omega)) (fun w => by simp) (hnr _ _)
      · have hown : ownWt c s' < ownWt c s := by
          have h1 : doneWt c s.done .poll = doneWt c s.done (.first k) := rfl
          have h2 : primeWt c s.newPrime .poll = primeWt c s.newPrime (.first k) := rfl
          subst he
          simp only [ownWt, hph, mwt]
          omega
        unfold measure
        omega
  | _ => rw [hph] at hs; simp at hs

theorem collect_keeps (V : c.Valid) (I : Inv c s a comp) (hs : collectStep c s = some s') : Keeps c s s' a := by
  unfold collectStep at hs
  cases hph : s.phase with
  | collect k =>
    rw [hph] at hs
    dsimp only at hs
    have hnr : ∀ (k' : ℕ) (i : Fin c.m), notReply (.collect k' : MPhase c.m) i := fun k' i w => by simp
    have hslots := I.slots.all (by rw [hph]; intro k; simp)
    have hen := I.en (by rw [hph]; rfl)
    by_cases hk : k < c.m
    · rw [dif_pos hk] at hs
      have hn : s.node ⟨k, hk⟩ = encNode c (a ⟨k, hk⟩) := by rw [I.node]
      rw [hn] at hs
      have hNi := I.nodes ⟨k, hk⟩
      rw [hph] at hNi
      have hF := hNi.2 (le_refl _)
      clear hNi
      have hoth : ∀ j, j ≠ ⟨k, hk⟩ → NodeInv c (.collect (k + 1)) s.field s.emptyNodes j (a j) := by
        intro j hj
        have hj' : j.val ≠ k := fun h => hj (Fin.ext h)
        have := I.nodes j
        rw [hph] at this
        exact ⟨fun h => Place.phase (this.1 (by omega)) (hnr _ _) (hnr _ _), fun h => this.2 (by omega)⟩
      have hB := fun s' => I.build (s' := s') ⟨k, hk⟩
      have hown : ∀ s'' : State c.m, s''.phase = .collect (k + 1) → s''.newPrime = s.newPrime → s''.done = s.done → s''.flags = s.flags → s''.newJobs = s.newJobs → s''.owed = s.owed → s''.jobs = s.jobs →
          s''.localRun = s.localRun → s''.checks = s.checks → s''.clears = s.clears → ownWt c s'' + 20 + 100 * s.requested.length = ownWt c s + 100 * s''.requested.length := by
        intro s'' h1 h2 h3 h4 h5 h6 h7 h8 h9 h10
        have g1 : doneWt c s.done (.collect (k + 1)) = doneWt c s.done (.collect k) := rfl
        have g2 : primeWt c s.newPrime (.collect (k + 1)) = primeWt c s.newPrime (.collect k) := rfl
        simp only [ownWt, h1, h2, h3, h4, h5, h6, h7, h8, h9, h10, hph, mwt]
        omega
      generalize hx : a ⟨k, hk⟩ = x at hF hs hB
      cases hF with
      | top hp => simp [encNode] at hs
      | sent hp =>
        simp only [encNode, List.map_cons, List.map_nil, encOut] at hs
        by_cases hne : s.requested ≠ []
        · rw [if_pos hne] at hs
          have he := Option.some.inj hs
          clear hs
          obtain ⟨size, hsz, hsz1, heq⟩ := sendJobs_eq V ({ s.setNode ⟨k, hk⟩ (encNode c ⟨[], [], .waiting, s.field, 0, [], []⟩) with phase := .collect (k + 1) } : State c.m) ⟨k, hk⟩ (buffer * c.wthr ⟨k, hk⟩) hne I.reqLen
          have hsz2 : 1 ≤ size := hsz1 (mod32_wthr V _)
          replace hsz : size ≤ s.requested.length := hsz
          replace he := (congrArg State.testEmpty heq).symm.trans he
          clear heq
          obtain ⟨s1, hs1⟩ : ∃ s1 : State c.m, s1 = { s.setNode ⟨k, hk⟩ (encNode c ⟨[], [.values (s.requested.take size)], .waiting, s.field, 0, [], []⟩) with requested := s.requested.drop size, phase := .collect (k + 1) } := ⟨_, rfl⟩
          have he' : s' = s1.testEmpty := by
            rw [← he, hs1]
            congr 1
            simp [State.setNode, encNode, encPhase, encIn, packResults]
          obtain ⟨I1, hm1⟩ := hB s1 ⟨[], [.values (s.requested.take size)], .waiting, s.field, 0, [], []⟩ comp (by subst hs1; exact I.fault) (by subst hs1; rfl)
            (by subst hs1; rfl) (by subst hs1; exact I.cmp) (by subst hs1; rfl) (by subst hs1; rfl) (by subst hs1; simp) (by subst hs1; exact ⟨rfl, rfl⟩) (by subst hs1; rfl) (by subst hs1; exact ⟨rfl, rfl⟩)
            (by
              subst hs1
              show ((s.requested.drop size : List Probe) : Multiset Probe) + _ + _ = _
              conv_rhs => rw [← List.take_append_drop size s.requested]
              simp only [ANode.acc, AIn.probes, AOut.probes, APhase.rest, List.flatMap_cons, List.flatMap_nil, List.flatten_nil, List.append_nil, ← Multiset.coe_add, Multiset.coe_nil, add_zero, zero_add]
              abel)
            (by subst hs1; rw [hph]; exact id) (by subst hs1; exact fun _ => hen) (by subst hs1; exact slotsOk_of hslots)
            (by
              subst hs1
              refine nodes_update ?_ hoth
              refine ⟨fun _ => ?_, fun h => absurd h (by simp)⟩
              refine .answered _ 0 [] [] hp (hnr _ _) (by have := I.reqLen; simp; omega) (Or.inl ?_) ⟨by simp, by norm_num, rfl⟩
              intro h
              have := congrArg List.length h
              simp at this
              rcases this with h | h
              · omega
              · exact hne h)
          obtain ⟨I2, hm2, _⟩ := testEmpty_inv I1
          have hle := hown s1 (by subst hs1; rfl) (by subst hs1; rfl) (by subst hs1; rfl) (by subst hs1; rfl) (by subst hs1; rfl) (by subst hs1; rfl) (by subst hs1; rfl) (by subst hs1; rfl) (by subst hs1; rfl) (by subst hs1; rfl)
          have hrl : s1.requested.length = s.requested.length - size := by subst hs1; simp
          rw [he']
          refine ⟨_, _, I2, ?_⟩
          simp [ANode.wt, AIn.wt, AOut.wt, AOut.probes, APhase.wt, Nat.min_eq_left hsz] at hm1
          omega
        · rw [if_neg hne, if_pos (hslots _).symm] at hs
          push Not at hne
          have he := Option.some.inj hs
          clear hs
          obtain ⟨I1, hm1⟩ := hB s' ⟨[], [], .waiting, s.field, 0, [], []⟩ comp (by subst he; exact I.fault) (by subst he; rfl)
            (by subst he; rfl) (by subst he; exact I.cmp) (by subst he; rfl) (by subst he; rfl) (by subst he; simp [State.setNode]) (by subst he; exact ⟨rfl, rfl⟩) (by subst he; rfl) (by subst he; exact ⟨rfl, rfl⟩)
            (by subst he; simp [ANode.acc, AOut.probes, State.setNode])
            (by subst he; rw [hph]; exact id)
            (by
              subst he
              intro _
              refine ⟨?_, ?_⟩
              · show ((s.emptyNodes ++ [_]).map Prod.fst).Nodup
                rw [List.map_append]
                refine List.nodup_append.mpr ⟨hen.1, by simp, ?_⟩
                intro y hy z hz hyz
                simp at hz
                obtain ⟨t, ht, rfl⟩ := List.mem_map.mp hy
                exact hp t ht (by rw [hyz, hz])
              · intro t ht
                rcases List.mem_append.mp ht with ht | ht
                · exact hen.2 t ht
                · simp at ht; subst ht; rfl)
            (by subst he; exact slotsOk_of hslots)
            (by
              subst he
              refine nodes_update ?_ ?_
              · exact ⟨fun _ => .parked (by simp) (hnr _ _), fun h => absurd h (by simp)⟩
              · intro j hj
                have hnp : notParked s.emptyNodes j → notParked (s.emptyNodes ++ [(⟨k, hk⟩, buffer * c.wthr ⟨k, hk⟩)]) j := by
                  intro h t ht
                  rcases List.mem_append.mp ht with ht | ht
                  · exact h t ht
                  · simp at ht; subst ht; exact fun h => hj h.symm
                obtain ⟨q1, q2⟩ := hoth j hj
                exact ⟨fun h => Place.mono (q1 h) id (fun w hw => hw) hnp (fun h => by simp [h]), fun h => (q2 h).mono hnp⟩)
          have hle := hown s' (by subst he; rfl) (by subst he; rfl) (by subst he; rfl) (by subst he; rfl) (by subst he; rfl) (by subst he; rfl) (by subst he; rfl) (by subst he; rfl) (by subst he; rfl) (by subst he; rfl)
          have hrl : s'.requested.length = s.requested.length := by subst he; rfl
          refine ⟨_, _, I1, ?_⟩
          simp [ANode.wt, AIn.wt, AOut.wt, AOut.probes, APhase.wt] at hm1
          omega
    · rw [dif_neg hk] at hs
      have he := Option.some.inj hs
      refine ⟨a, comp, ?_, ?_⟩
      · subst he
        refine ⟨I.fault, I.node, I.cmp, I.logLen, I.logN, I.logInd, I.reqLen, I.jobs, I.acc, ?_, fun _ => hen, slotsOk_of hslots, ?_⟩
        · intro hR; exact I.eq ⟨by rw [hph]; rfl, hR.2⟩
        · intro i
          have hN := I.nodes i
          rw [hph] at hN
          exact Place.phase (hN.1 (by have := i.isLt; omega)) (fun w => by simp) (hnr _ _)
      · have hown : ownWt c s' < ownWt c s := by
          have h1 : doneWt c s.done .poll = doneWt c s.done (.collect k) := rfl
          have h2 : primeWt c s.newPrime .poll = primeWt c s.newPrime (.collect k) := rfl
          subst he
          simp only [ownWt, hph, mwt]
          omega
        unfold measure
        omega
  | _ => rw [hph] at hs; simp at hs

/-- Every step keeps the invariant; all but the decisions of the rest of the program decrease the measure. -/
theorem step_keeps (V : c.Valid) (I : Inv c s a comp) (e : Event c.m) (hs : step c s e = some s') : ∃ a' comp', Inv c s' a' comp' ∧ (e.env = false → measure c s' a' < measure c s a) := by
  have up : Keeps c s s' a → ∃ a' comp', Inv c s' a' comp' ∧ (e.env = false → measure c s' a' < measure c s a) := fun ⟨a', comp', h1, h2⟩ => ⟨a', comp', h1, fun _ => h2⟩
  cases he : e.env with
  | true =>
    obtain ⟨a', comp', h⟩ := env_keeps I e he hs
    exact ⟨a', comp', h, fun h => by cases h⟩
  | false =>
    rw [he] at up
    apply up
    cases e with
    | first vs => exact first_keeps V I vs hs
    | recv i => exact recv_keeps V I i hs
    | reply => exact reply_keeps V I hs
    | restart => exact restart_keeps V I hs
    | notice => exact notice_keeps V I hs
    | barrier1 => exact barrier1_keeps V I hs
    | drain => exact drain_keeps V I hs
    | barrier2 => exact barrier2_keeps V I hs
    | start => exact start_keeps V I hs
    | collect => exact collect_keeps V I hs
    | send i => exact send_keeps V I i hs
    | take i => exact take_keeps V I i hs
    | queueJob i => exact queue_keeps V I i hs
    | count i => exact count_keeps V I i hs
    | compute i k => exact compute_keeps V I i k hs
    | last i => exact last_keeps V I i hs
    | setFlag => exact flags_keeps I hs
    | submit => exact submit_keeps I hs
    | getJob => exact getJob_keeps V I hs
    | localDone k => exact localDone_keeps I k hs
    | check => exact check_keeps I hs
    | clearFlag => exact clearFlag_keeps I hs
    | _ => simp [Event.env] at he

/-- The start. -/
theorem inv_init (c : Cfg) : Inv c ({} : State c.m) (fun _ => ⟨[], [], .top, 0, 0, [], []⟩) [] := by
  refine ⟨rfl, by funext i; simp [encNode, encPhase, packResults], rfl, by simp, by simp, rfl, by simp, by simp, ?_, ?_, fun _ => ⟨by simp, by simp⟩, ?_, ?_⟩
  · simp [ANode.acc, APhase.rest]
  · intro _; simp [ANode.acc, APhase.rest]
  · intro i h; exact absurd (h 0 rfl) (by omega)
  · intro i; exact ⟨fun h => absurd h (by omega), fun _ => .top (fun t ht => by simp at ht)⟩

end FireFly.Mpi
