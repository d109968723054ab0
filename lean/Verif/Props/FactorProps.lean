import Verif.Lemmas.FactorText
/-!
# C51: factors are divided out of every probe and come back in the result
-/
set_option linter.all false
namespace FireFly

/-! ### the factor as text -/

lemma prod_div {K : Type} [Field K] : ∀ (fs : List Factor) (x : ℕ → K), facValue fs x =
    ((fs.filter fun f => f.num ≠ []).map fun f => uniVal f.num (x f.pos)).prod / ((fs.filter fun f => f.den ≠ []).map fun f => uniVal f.den (x f.pos)).prod
  | [], x => by simp [facValue]
  | f :: fs, x => by
    have ih := prod_div fs x
    unfold facValue at ih ⊢
    rw [List.map_cons, List.prod_cons, ih]
    unfold Factor.value
    by_cases h1 : f.num = [] <;> by_cases h2 : f.den = [] <;> simp [h1, h2] <;> (try (rw [div_mul_div_comm])) <;> (try ring)

/-- **C51 (the parsed factor).** The factors `fs` of a function in `n` variables, at most one for each variable, with monic polynomials of degree at least one and below `B`. For every order in which the sets of strings are traversed the text of the factor is parsed,
its tokens are computed for a prime `p` and for any sequence of primes after it, and at every point the tokens give the value of the product of the factors modulo the last prime. -/
theorem C51_factor_value [LongDouble] {n B : ℕ} (hn : n ≤ 2 ^ 32) {fs : List Factor} (hpos : (fs.map Factor.pos).Nodup) (hok : ∀ f ∈ fs, f.OK n B)
    (hne : ∃ f ∈ fs, f.num ≠ [] ∨ f.den ≠ []) :
    ∃ s, factorStrings fs = some s ∧ ∀ nums dens, nums.Perm s.1 → dens.Perm s.2 → ∃ T, parse (factorText nums dens) = some T ∧
      ∀ (p : ℕ) (qs : List ℕ) [Fact (lastPrime p qs).Prime], (∀ q ∈ p :: qs, q.Prime ∧ q < 2 ^ 63 ∧ 3 < q ∧ B < q) →
        ∃ st, preHistory p (facNames n) T qs = some st ∧ ∀ values : List ℕ, values.length = n → (∀ x ∈ values, x < lastPrime p qs) →
          ∃ c, evaluatePre (lastPrime p qs) values st.1 = some c ∧ c < lastPrime p qs ∧
            (c : ZMod (lastPrime p qs)) = facValue fs (fun i => ((values.getD i 0 : ℕ) : ZMod (lastPrime p qs))) := by
  refine ⟨_, factorStrings_eq fs hpos hok, ?_⟩
  intro nums dens hnums hdens
  obtain ⟨F, hF1, hF2⟩ := perm_map_lift (fun f : Factor => uniText f.pos f.num) hnums _ rfl
  obtain ⟨G, hG1, hG2⟩ := perm_map_lift (fun f : Factor => uniText f.pos f.den) hdens _ rfl
  have hFm : ∀ f ∈ F, f ∈ fs ∧ f.num ≠ [] := by
    intro f hf
    have := hF1.mem_iff.mp hf
    rw [List.mem_filter] at this
    exact ⟨this.1, by simpa using this.2⟩
  have hGm : ∀ f ∈ G, f ∈ fs ∧ f.den ≠ [] := by
    intro f hf
    have := hG1.mem_iff.mp hf
    rw [List.mem_filter] at this
    exact ⟨this.1, by simpa using this.2⟩
  have hmem : ∀ f ∈ fs, facName f.pos ∈ facNames n := fun f hf => List.mem_map.mpr ⟨f.pos, List.mem_range.mpr (hok f hf).pos, rfl⟩
  have htq := factorText_tq (vars := facNames n) (P := B) (N := 0) (ps := F.map fun f => (uniText f.pos f.num, fun K _ env => uniVal f.num (env (facName f.pos))))
    (rs := G.map fun f => (uniText f.pos f.den, fun K _ env => uniVal f.den (env (facName f.pos)))) (by
      obtain ⟨f, hf, h | h⟩ := hne
      · left
        have : f ∈ F := hF1.mem_iff.mpr (List.mem_filter.mpr ⟨hf, by simpa using h⟩)
        intro h0
        rw [List.map_eq_nil_iff] at h0
        rw [h0] at this; simp at this
      · right
        have : f ∈ G := hG1.mem_iff.mpr (List.mem_filter.mpr ⟨hf, by simpa using h⟩)
        intro h0
        rw [List.map_eq_nil_iff] at h0
        rw [h0] at this; simp at this) (by
      intro q hq
      obtain ⟨f, hf, rfl⟩ := List.mem_map.mp hq
      obtain ⟨g1, g2⟩ := hFm f hf
      exact uni_tq (hmem f g1) ((hok f g1).num.resolve_left g2)) (by
      intro q hq
      obtain ⟨f, hf, rfl⟩ := List.mem_map.mp hq
      obtain ⟨g1, g2⟩ := hGm f hf
      exact uni_tq (hmem f g1) ((hok f g1).den.resolve_left g2))
  rw [List.map_map, List.map_map] at htq
  have eF : List.map (Prod.fst ∘ fun f : Factor => ((uniText f.pos f.num, fun K _ env => uniVal f.num (env (facName f.pos))) : Str × Val)) F = nums := by
    rw [← hF2]; rfl
  have eG : List.map (Prod.fst ∘ fun f : Factor => ((uniText f.pos f.den, fun K _ env => uniVal f.den (env (facName f.pos))) : Str × Val)) G = dens := by
    rw [← hG2]; rfl
  rw [eF, eG] at htq
  obtain ⟨e, h1, h2, h3, h4, h5, h6, h7, h8⟩ := htq
  refine ⟨_, by rw [← h1]; exact parse_code (facNames_isName hn) h2 h3, ?_⟩
  intro p qs _ hqs
  have hall : ∀ values : List ℕ, values.length = n → (∀ x ∈ values, x < lastPrime p qs) → ∃ st c, preHistory p (facNames n) (e.fixSign.code []) qs = some st ∧
      evaluatePre (lastPrime p qs) values st.1 = some c ∧ c < lastPrime p qs ∧ (c : ZMod (lastPrime p qs)) = facValue fs (fun i => ((values.getD i 0 : ℕ) : ZMod (lastPrime p qs))) := by
    intro values hlen hval
    obtain ⟨T, st, c, k1, k2, k3, k4, k5⟩ := C25_expression_plain (vars := facNames n) (p := p) (qs := qs) (e := e) (facNames_isName hn) (hqs p (by simp)).1 (hqs p (by simp)).2.1 (hqs p (by simp)).2.2.1
      (fun q hq => ⟨(hqs q (by simp [hq])).1, (hqs q (by simp [hq])).2.1, (hqs q (by simp [hq])).2.2.1⟩) (values := values) (by simp [facNames, hlen]) hval
      (fun q hq => WF_mono2 (by have := (hqs q hq).2.2.2; omega) (Nat.zero_le _) e h2) h3 h7
    rw [parse_code (facNames_isName hn) h2 h3] at k1
    obtain rfl := Option.some.inj k1
    refine ⟨st, c, k2, k3, k4, ?_⟩
    rw [k5, h6, prod_div]
    simp only [List.map_map, Function.comp_def]
    have hx : ∀ f ∈ fs, ((values.getD ((facNames n).idxOf (facName f.pos)) 0 : ℕ) : ZMod (lastPrime p qs)) = ((values.getD f.pos 0 : ℕ) : ZMod (lastPrime p qs)) := by
      intro f hf
      rw [idxOf_facName (hok f hf).pos]
    congr 1
    · rw [← (hF1.map fun f => uniVal f.num ((values.getD f.pos 0 : ℕ) : ZMod (lastPrime p qs))).prod_eq]
      congr 1
      apply List.map_congr_left
      intro f hf
      rw [hx f (hFm f hf).1]
    · rw [← (hG1.map fun f => uniVal f.den ((values.getD f.pos 0 : ℕ) : ZMod (lastPrime p qs))).prod_eq]
      congr 1
      apply List.map_congr_left
      intro f hf
      rw [hx f (hGm f hf).1]
  have hpos' : 0 < lastPrime p qs := (Fact.out : (lastPrime p qs).Prime).pos
  obtain ⟨st, c, k1, -⟩ := hall (List.replicate n 0) (by simp) (by intro x hx; rw [List.eq_of_mem_replicate hx]; exact hpos')
  refine ⟨st, k1, ?_⟩
  intro values hlen hval
  obtain ⟨st', c, g1, g2⟩ := hall values hlen hval
  rw [k1] at g1
  obtain rfl := Option.some.inj g1
  exact ⟨c, g2⟩

/-- **C51 (the probe).** The probe that is fed to the interpolation is the value of the black box divided by the value of the factors of this function; functions without factors are not changed. -/
theorem C51_probe [LongDouble] {n B : ℕ} (hn : n ≤ 2 ^ 32) {fs : List Factor} (hpos : (fs.map Factor.pos).Nodup) (hok : ∀ f ∈ fs, f.OK n B)
    (hne : ∃ f ∈ fs, f.num ≠ [] ∨ f.den ≠ []) :
    ∃ s, factorStrings fs = some s ∧ ∀ nums dens, nums.Perm s.1 → dens.Perm s.2 → ∃ T, parse (factorText nums dens) = some T ∧
      ∀ (p : ℕ) (qs : List ℕ) [Fact (lastPrime p qs).Prime], (∀ q ∈ p :: qs, q.Prime ∧ q < 2 ^ 63 ∧ 3 < q ∧ B < q) →
        ∃ st, preHistory p (facNames n) T qs = some st ∧ ∀ (i : ℕ) (factors : List (ℕ × List PTok)), factors.lookup i = some st.1 →
          ∀ values : List ℕ, values.length = n → (∀ x ∈ values, x < lastPrime p qs) →
          (∀ v < lastPrime p qs, ∃ c, divideProbe (lastPrime p qs) values factors i v = some c ∧ c < lastPrime p qs ∧
            (c : ZMod (lastPrime p qs)) = v / facValue fs (fun i => ((values.getD i 0 : ℕ) : ZMod (lastPrime p qs)))) ∧
          ∀ j v, factors.lookup j = none → divideProbe (lastPrime p qs) values factors j v = some v := by
  obtain ⟨s, h1, h2⟩ := C51_factor_value (B := B) hn hpos hok hne
  refine ⟨s, h1, ?_⟩
  intro nums dens g1 g2
  obtain ⟨T, h3, h4⟩ := h2 nums dens g1 g2
  refine ⟨T, h3, ?_⟩
  intro p qs hfact hqs
  obtain ⟨st, h5, h6⟩ := h4 p qs hqs
  refine ⟨st, h5, ?_⟩
  intro i factors hl values hlen hval
  refine ⟨?_, ?_⟩
  · intro v hv
    obtain ⟨r, k1, k2, k3⟩ := h6 values hlen hval
    have hmem : lastPrime p qs ∈ p :: qs := by
      unfold lastPrime
      rcases List.eq_nil_or_concat qs with rfl | ⟨A, a, rfl⟩
      · simp
      · simp
    have hlp := hqs _ hmem
    obtain ⟨c, c1, c2, c3, -⟩ := C01_div (a := v) hlp.1 hlp.2.1 k2
    refine ⟨c, ?_, c2, ?_⟩
    · unfold divideProbe
      rw [hl]
      show (evaluatePre (lastPrime p qs) values st.1).bind _ = _
      rw [k1, Option.bind_some, (C01_assign hlp.1 hlp.2.1 hv k2).2.2.2, c1]
    · rw [← k3]
      exact c3
  · intro j v hj
    unfold divideProbe
    rw [hj]

/-! ### the order of the variables -/

/-- **C51 (the order of the variables).** The new order is a permutation of the variables; the degrees do not increase, and variables with the same degree keep their order. -/
theorem C51_order (d : List ℕ) : (sortedIndices d).Perm (List.range d.length) ∧
    (sortedIndices d).Pairwise (fun i j => d.getD j 0 < d.getD i 0 ∨ (d.getD j 0 = d.getD i 0 ∧ i < j)) := by
  have hperm : (sortedIndices d).Perm (List.range d.length) := List.mergeSort_perm _ _
  have htrans : ∀ a b c : ℕ, decide (d.getD b 0 ≤ d.getD a 0) = true → decide (d.getD c 0 ≤ d.getD b 0) = true → decide (d.getD c 0 ≤ d.getD a 0) = true := by
    intro a b c h1 h2
    simp only [decide_eq_true_eq] at h1 h2 ⊢
    omega
  have htot : ∀ a b : ℕ, (decide (d.getD b 0 ≤ d.getD a 0) || decide (d.getD a 0 ≤ d.getD b 0)) = true := by
    intro a b
    simp only [Bool.or_eq_true, decide_eq_true_eq]
    omega
  have hsort := List.pairwise_mergeSort htrans htot (List.range d.length)
  have hnd : (sortedIndices d).Nodup := hperm.nodup_iff.mpr List.nodup_range
  refine ⟨hperm, ?_⟩
  rw [List.pairwise_iff_getElem] at hsort ⊢
  intro i j hi hj hij
  have h1 := hsort i j hi hj hij
  simp only [decide_eq_true_eq] at h1
  change d.getD ((sortedIndices d)[j]) 0 ≤ d.getD ((sortedIndices d)[i]) 0 at h1
  rcases Nat.lt_or_ge (d.getD ((sortedIndices d)[j]) 0) (d.getD ((sortedIndices d)[i]) 0) with h | h
  · exact Or.inl h
  · right
    have heq : d.getD ((sortedIndices d)[j]) 0 = d.getD ((sortedIndices d)[i]) 0 := by omega
    refine ⟨heq, ?_⟩
    by_contra hlt
    have hne : (sortedIndices d)[i] ≠ (sortedIndices d)[j] := by
      intro h
      have := (hnd.getElem_inj_iff (hi := hi) (hj := hj)).mp h
      omega
    -- stability: the pair keeps its order
    have hsub : [(sortedIndices d)[j], (sortedIndices d)[i]].Sublist (List.range d.length) := by
      have hmi : (sortedIndices d)[i] ∈ List.range d.length := hperm.mem_iff.mp (List.getElem_mem hi)
      have hmj : (sortedIndices d)[j] ∈ List.range d.length := hperm.mem_iff.mp (List.getElem_mem hj)
      rw [List.mem_range] at hmi hmj
      have hpw : List.Pairwise (· < ·) [(sortedIndices d)[j], (sortedIndices d)[i]] := by simp; omega
      refine List.sublist_of_subperm_of_pairwise (r := (· < ·)) (List.subperm_of_subset (by simpa using Ne.symm hne) ?_) hpw List.pairwise_lt_range
      intro z hz
      simp only [List.mem_cons, List.not_mem_nil, or_false] at hz
      rw [List.mem_range]
      rcases hz with rfl | rfl <;> assumption
    have hsub' := List.sublist_mergeSort (le := fun a b => decide (d.getD b 0 ≤ d.getD a 0)) htrans htot (ys := [(sortedIndices d)[j], (sortedIndices d)[i]]) (List.pairwise_pair.mpr (decide_eq_true heq.ge)) hsub
    change [(sortedIndices d)[j], (sortedIndices d)[i]].Sublist (sortedIndices d) at hsub'
    rw [List.sublist_iff_exists_fin_orderEmbedding_get_eq] at hsub'
    obtain ⟨g, hg⟩ := hsub'
    have e0 := hg ⟨0, by simp⟩
    have e1 := hg ⟨1, by simp⟩
    have hlt01 : g ⟨0, by simp⟩ < g ⟨1, by simp⟩ := g.strictMono (by simp [Fin.lt_def])
    simp only [List.get_eq_getElem] at e0 e1
    have k0 := (hnd.getElem_inj_iff (hi := hj) (hj := (g ⟨0, by simp⟩).2)).mp (by simpa using e0)
    have k1 := (hnd.getElem_inj_iff (hi := hi) (hj := (g ⟨1, by simp⟩).2)).mp (by simpa using e1)
    rw [Fin.lt_def] at hlt01
    omega

lemma sorted_length (d : List ℕ) : (sortedIndices d).length = d.length := by
  rw [(C51_order d).1.length_eq, List.length_range]

lemma sorted_nodup (d : List ℕ) : (sortedIndices d).Nodup := (C51_order d).1.nodup_iff.mpr List.nodup_range

lemma sorted_mem (d : List ℕ) {i : ℕ} : i ∈ sortedIndices d ↔ i < d.length := by
  rw [(C51_order d).1.mem_iff, List.mem_range]

lemma zipIdx_lookup : ∀ (l : List ℕ) (k i : ℕ), ((l.zipIdx k).map fun q => (q.2, q.1)).lookup (k + i) = l[i]?
  | [], k, i => rfl
  | a :: l, k, i => by
    rw [List.zipIdx_cons, List.map_cons]
    cases i with
    | zero => simp
    | succ i =>
      rw [List.lookup_cons, beq_eq_false_iff_ne.mpr (show k + (i + 1) ≠ k by omega)]
      have := zipIdx_lookup l (k + 1) i
      rw [show k + 1 + i = k + (i + 1) by omega] at this
      simpa using this

lemma varOrder_lookup (d : List ℕ) (i : ℕ) : (varOrder d).lookup i = (sortedIndices d)[i]? := by
  have := zipIdx_lookup (sortedIndices d) 0 i
  rw [zero_add] at this
  exact this

lemma mem_varOrder {d : List ℕ} {q : ℕ × ℕ} (h : q ∈ varOrder d) : (sortedIndices d)[q.1]? = some q.2 := by
  unfold varOrder at h
  rw [List.mem_map] at h
  obtain ⟨⟨a, i⟩, h1, rfl⟩ := h
  exact List.mem_zipIdx_iff_getElem?.mp h1

lemma unchanged {d : List ℕ} (h : changeOrder (varOrder d) = false) : sortedIndices d = List.range d.length := by
  apply List.ext_getElem?
  intro i
  by_cases hi : i < d.length
  · have hi' : i < (sortedIndices d).length := by rw [sorted_length]; exact hi
    have hm : (i, (sortedIndices d)[i]) ∈ varOrder d := by
      unfold varOrder
      rw [List.mem_map]
      exact ⟨((sortedIndices d)[i], i), List.mem_zipIdx_iff_getElem?.mpr (List.getElem?_eq_getElem hi'), rfl⟩
    unfold changeOrder at h
    rw [List.any_eq_false] at h
    have := h _ hm
    simp only [bne_iff_ne, ne_eq, not_not] at this
    rw [List.getElem?_eq_getElem hi', this, List.getElem?_range hi]
  · rw [List.getElem?_eq_none (by rw [sorted_length]; omega), List.getElem?_eq_none (by simp; omega)]

lemma orderOK (d : List ℕ) : OrderOK (varOrder d) d.length := by
  right
  refine ⟨?_, ?_, ?_⟩
  · unfold varOrder
    rw [List.map_map]
    have : (Prod.fst ∘ fun q : ℕ × ℕ => (q.2, q.1)) = Prod.snd := rfl
    rw [this, List.zipIdx_map_snd]
    exact List.nodup_range'
  · intro q hq
    have h := mem_varOrder hq
    obtain ⟨h1, h2⟩ := List.getElem?_eq_some_iff.mp h
    refine ⟨by rw [sorted_length] at h1; exact h1, ?_⟩
    rw [← h2]
    exact (sorted_mem d).mp (List.getElem_mem h1)
  · intro i hi
    have hi' : i < (sortedIndices d).length := by rw [sorted_length]; exact hi
    rw [List.mem_map]
    refine ⟨(i, (sortedIndices d)[i]), ?_, rfl⟩
    unfold varOrder
    rw [List.mem_map]
    exact ⟨((sortedIndices d)[i], i), List.mem_zipIdx_iff_getElem?.mpr (List.getElem?_eq_getElem hi'), rfl⟩

lemma set_zip {F : Type} (coord : ℕ → F) : ∀ (l : List ℕ) (k : ℕ) (v : List F), l.Nodup → (∀ a ∈ l, a < v.length) →
    let r := ((l.zipIdx k).map fun q => (q.2, q.1)).foldl (fun v el => v.set el.2 (coord el.1)) v
    r.length = v.length ∧ ∀ j, r[j]? = if j ∈ l then some (coord (k + l.idxOf j)) else v[j]?
  | [], k, v, _, _ => ⟨rfl, fun j => by simp⟩
  | a :: l, k, v, hn, hk => by
    rw [List.nodup_cons] at hn
    obtain ⟨h1, h2⟩ := set_zip coord l (k + 1) (v.set a (coord k)) hn.2 (by intro b hb; rw [List.length_set]; exact hk b (by simp [hb]))
    rw [List.zipIdx_cons, List.map_cons, List.foldl_cons]
    refine ⟨by rw [h1, List.length_set], ?_⟩
    intro j
    rw [h2 j]
    by_cases hj : j ∈ l
    · have hne : a ≠ j := by rintro rfl; exact hn.1 hj
      rw [if_pos hj, if_pos (by simp [hj]), List.idxOf_cons_ne _ hne]
      congr 2; omega
    · rw [if_neg hj]
      by_cases ha : j = a
      · subst ha
        rw [if_pos (by simp), List.idxOf_cons_self, List.getElem?_set_self (hk j (by simp)), add_zero]
      · rw [if_neg (by simp [ha, hj]), List.getElem?_set_ne (Ne.symm ha)]

lemma queueValues_eq {F : Type} [Zero F] (d : List ℕ) (coord : ℕ → F) :
    queueValues d.length (varOrder d) coord = (List.range d.length).map fun j => coord ((sortedIndices d).idxOf j) := by
  unfold queueValues
  cases hc : changeOrder (varOrder d)
  · rw [if_neg (by simp), unchanged hc]
    apply List.map_congr_left
    intro j hj
    have hl : j < (List.range d.length).length := by simpa using hj
    have : (List.range d.length)[j] = j := by simp
    conv_rhs => rw [← this, List.nodup_range.idxOf_getElem j hl]
  · rw [if_pos rfl]
    obtain ⟨h1, h2⟩ := set_zip coord (sortedIndices d) 0 (List.replicate d.length 0) (sorted_nodup d) (by
      intro a ha; rw [List.length_replicate]; exact (sorted_mem d).mp ha)
    apply List.ext_getElem?
    intro j
    have := h2 j
    unfold varOrder
    rw [this]
    by_cases hj : j < d.length
    · rw [if_pos ((sorted_mem d).mpr hj), zero_add, List.getElem?_map, List.getElem?_range hj]; rfl
    · rw [if_neg (fun h => hj ((sorted_mem d).mp h)), List.getElem?_eq_none (by simp; omega), List.getElem?_eq_none (by simp; omega)]

/-- **C51 (the point of a probe).** The variable that is at position `i` in the new order gets the coordinate `i`. -/
theorem C51_point {F : Type} [Zero F] (d : List ℕ) (coord : ℕ → F) : (queueValues d.length (varOrder d) coord).length = d.length ∧
    ∀ i j, (sortedIndices d)[i]? = some j → (queueValues d.length (varOrder d) coord)[j]? = some (coord i) := by
  rw [queueValues_eq]
  refine ⟨by simp, ?_⟩
  intro i j h
  obtain ⟨hi, rfl⟩ := List.getElem?_eq_some_iff.mp h
  have hj := (sorted_mem d).mp (List.getElem_mem hi)
  rw [List.getElem?_map, List.getElem?_range hj, Option.map_some, (sorted_nodup d).idxOf_getElem i hi]

/-- **C51 (the degrees).** The degrees of a function (and any other list with one entry for each variable) are stored in the new order: position `i` has the entry of the variable that is at position `i`. -/
theorem C51_degrees {α : Type} (d : List ℕ) (l : List α) (x : α) (hl : l.length = d.length) : (reorder (varOrder d) d.length l x).length = d.length ∧
    ∀ i j : ℕ, (sortedIndices d)[i]? = some j → (reorder (varOrder d) d.length l x)[i]? = l[j]? := by
  refine ⟨by simp [reorder], ?_⟩
  intro i j h
  obtain ⟨hi, e⟩ := List.getElem?_eq_some_iff.mp h
  have hlen : (sortedIndices d).length = d.length := by simpa using (C51_order d).1.length_eq
  have hj : j < d.length := (sorted_mem d).mp (e ▸ List.getElem_mem hi)
  have hlook : (varOrder d).lookup i = some j := by
    unfold varOrder
    have gen : ∀ (s : List ℕ) (n i : ℕ) (j : ℕ), s[i]? = some j → ((s.zipIdx n).map fun q => (q.2, q.1)).lookup (n + i) = some j := by
      intro s
      induction s with
      | nil => intro n i j h; simp at h
      | cons a s ih =>
        intro n i j h
        rw [List.zipIdx_cons, List.map_cons, List.lookup_cons]
        rcases i with _ | i
        · simp at h; simp [h]
        · have hne : (n + (i + 1) == n) = false := by simp
          simp only [hne]
          rw [show n + (i + 1) = (n + 1) + i by omega]
          exact ih (n + 1) i j (by simpa using h)
    simpa using gen (sortedIndices d) 0 i j h
  unfold reorder
  rw [List.getElem?_map, List.getElem?_range (by omega), Option.map_some, hlook, Option.getD_some, List.getD_eq_getElem?_getD, List.getElem?_eq_getElem (by omega)]
  rfl

/-! ### the results -/

lemma polyAt_value {K : Type} [Field K] {a : Polynomial} (hv : a.varPos = none) {names : List Str} {P : ℕ} (h : a.OK names.length P) (env : Str → K) :
    a.value names env = polyAt a.coefs (fun i => env (names.getD i [])) := by
  unfold Polynomial.value Polynomial.names polyVal polyAt
  rw [hv]
  congr 1
  apply List.map_congr_left
  intro t ht
  congr 1
  unfold monoVal
  exact zip_prod_le names t.1 env (Polynomial.len_le h t ht)

lemma facPoly_value {K : Type} [Field K] {pos : ℕ} {m : List (List ℕ × RationalNumber)} (hl : ∀ t ∈ m, t.1.length = 1) (vars : List Str) (env : Str → K) :
    (facPoly pos m).valueOrOne vars env = if m = [] then 1 else uniVal m (env (vars.getD pos [])) := by
  unfold facPoly Polynomial.valueOrOne
  by_cases h0 : m = []
  · simp [h0]
  · simp only [h0, if_false]
    unfold Polynomial.value Polynomial.names polyVal uniVal
    congr 1
    apply List.map_congr_left
    intro t ht
    congr 1
    have := hl t ht
    obtain ⟨e, c⟩ := t
    match e, this with
    | [k], _ => simp [monoVal]

lemma FacUniOK.len' {m : List (List ℕ × RationalNumber)} {B : ℕ} (h : m = [] ∨ FacUniOK m B) : ∀ t ∈ m, t.1.length = 1 := by
  rcases h with rfl | h
  · simp
  · exact h.len

/-- the value of a result with its factors and order -/
lemma dress_value {K : Type} [Field K] {d : List ℕ} {factors : List (ℕ × List Factor)} {i B P : ℕ} (hfac : ∀ f ∈ (factors.lookup i).getD [], f.OK d.length B)
    {num den : Polynomial} (hn : num.varPos = none ∧ num.OK d.length P) (hd : den.varPos = none ∧ den.OK d.length P) {vars : List Str} (hv : vars.length = d.length) (env : Str → K) :
    (dressResult (varOrder d) factors i num den).value vars env =
      facValue ((factors.lookup i).getD []) (fun i => env (vars.getD i [])) * ratAt num den (fun i => env (vars.getD ((sortedIndices d).getD i 0) [])) := by
  have hon : (dressResult (varOrder d) factors i num den).orderedNames vars = (List.range d.length).map fun i => vars.getD ((sortedIndices d).getD i 0) [] := by
    unfold RationalFunction.orderedNames dressResult
    simp only
    cases hc : changeOrder (varOrder d)
    · rw [if_pos (by simp), unchanged hc, ← hv]
      apply List.ext_getElem
      · simp
      · intro j h1 h2
        simp only [List.getElem_map, List.getElem_range]
        have e : (List.range vars.length).getD j 0 = j := by rw [List.getD_eq_getElem _ _ (by simpa using h1), List.getElem_range]
        rw [e, List.getD_eq_getElem _ _ h1]
    · have : varOrder d ≠ [] := by
        intro h; rw [h] at hc; simp [changeOrder] at hc
      simp only [if_true]
      rw [if_neg this, hv]
      apply List.map_congr_left
      intro j hj
      rw [varOrder_lookup, List.getD_eq_getElem?_getD (l := sortedIndices d)]
  have hlen : ((dressResult (varOrder d) factors i num den).orderedNames vars).length = d.length := by rw [hon]; simp
  have hval : ∀ a : Polynomial, a.varPos = none → a.OK d.length P → a.value ((dressResult (varOrder d) factors i num den).orderedNames vars) env =
      polyAt a.coefs (fun i => env (vars.getD ((sortedIndices d).getD i 0) [])) := by
    intro a h1 h2
    rw [polyAt_value h1 (P := P) (by rw [hlen]; exact h2)]
    unfold polyAt
    congr 1
    apply List.map_congr_left
    intro t ht
    congr 2
    apply List.map_congr_left
    intro j hj
    have hle := Polynomial.len_le h2 t ht
    have hj := List.mem_range.mp hj
    have : (((dressResult (varOrder d) factors i num den).orderedNames vars).getD j []) = vars.getD ((sortedIndices d).getD j 0) [] := by
      rw [hon, List.getD_eq_getElem _ _ (by simp; omega), List.getElem_map, List.getElem_range]
    simp only [this]
  have hfv : ∀ fs : List Factor, (∀ f ∈ fs, f.OK d.length B) → ((fs.map Factor.rf).map fun q => q.1.valueOrOne vars env).prod / ((fs.map Factor.rf).map fun q => q.2.valueOrOne vars env).prod =
      facValue fs (fun i => env (vars.getD i [])) := by
    intro fs
    induction fs with
    | nil => intro _; simp [facValue]
    | cons f fs ih =>
      intro h
      have := ih (fun f' h' => h f' (by simp [h']))
      unfold facValue at this ⊢
      rw [List.map_cons, List.map_cons, List.map_cons, List.prod_cons, List.prod_cons, List.map_cons, List.prod_cons, ← this]
      unfold Factor.value Factor.rf
      rw [facPoly_value (FacUniOK.len' (h f (by simp)).num), facPoly_value (FacUniOK.len' (h f (by simp)).den), mul_div_mul_comm]
  unfold RationalFunction.value
  have hden : den.valueOrOne ((dressResult (varOrder d) factors i num den).orderedNames vars) env =
      if den.coefs = [] then 1 else polyAt den.coefs (fun i => env (vars.getD ((sortedIndices d).getD i 0) [])) := by
    unfold Polynomial.valueOrOne
    rw [hval den hd.1 hd.2]
  have e1 : (dressResult (varOrder d) factors i num den).num = num := rfl
  have e2 : (dressResult (varOrder d) factors i num den).den = den := rfl
  have e3 : (dressResult (varOrder d) factors i num den).factors = ((factors.lookup i).getD []).map Factor.rf := rfl
  rw [e1, e2, e3]
  rw [hval num hn.1 hn.2, hden, mul_div_mul_comm, hfv _ hfac]
  rfl

/-- **C51 (the results).** The functions in `n` variables have the degrees `d` and the factors `factors`. If the reconstruction of the function `r.id` is done and its result is, as a function of the coordinates of the probes, the quotient of
`f` and the value of its factors, then `get_early_results` returns under this number a rational function with the value of `f` at every point where the factors do not vanish, and it is printed as such. -/
theorem C51_early_results {K : Type} [Field K] {d : List ℕ} {factors : List (ℕ × List Factor)} {rs : List RecEntry} {r : RecEntry} (hr : r ∈ rs) (hdone : r.state = .done) {B P N : ℕ}
    (hfac : ∀ f ∈ (factors.lookup r.id).getD [], f.OK d.length B) (hB : B ≤ P) (hn : r.num.varPos = none ∧ r.num.OK d.length P) (hd : r.den.varPos = none ∧ r.den.OK d.length P)
    {f : List K → K} (hR : ∀ coord : ℕ → K,
      facValue ((factors.lookup r.id).getD []) (fun i => (queueValues d.length (varOrder d) coord).getD i 0) ≠ 0 →
      ratAt r.num r.den coord = f (queueValues d.length (varOrder d) coord) / facValue ((factors.lookup r.id).getD []) (fun i => (queueValues d.length (varOrder d) coord).getD i 0))
    {vars : List Str} (hv : vars.length = d.length) :
    ∃ R, (r.id, R) ∈ (getEarlyResults (varOrder d) factors rs).1 ∧
      (∃ s, R.toStr vars = some s ∧ Denotes vars P N s (fun K _ env => R.value vars env)) ∧
      ∀ env : Str → K, facValue ((factors.lookup r.id).getD []) (fun i => env (vars.getD i [])) ≠ 0 → R.value vars env = f (vars.map env) := by
  refine ⟨dressResult (varOrder d) factors r.id r.num r.den, ?_, ?_, ?_⟩
  · unfold getEarlyResults
    exact List.mem_map.mpr ⟨r, List.mem_filter.mpr ⟨hr, by simpa using hdone⟩, rfl⟩
  · have ho : OrderOK (dressResult (varOrder d) factors r.id r.num r.den).order vars.length := by
      unfold dressResult
      simp only
      split
      · rw [hv]; exact orderOK d
      · exact Or.inl rfl
    have hP : ∀ pos < d.length, ∀ m : List (List ℕ × RationalNumber), m = [] ∨ FacUniOK m B → PrintsPoly vars P N Polynomial.toStr (facPoly pos m) vars := by
      intro pos hpos m hm
      by_cases h0 : m = []
      · subst h0
        exact ⟨['0'], rfl, (txt_zero.mono (by norm_num)).congr fun K _ env => by simp [facPoly, Polynomial.value, polyVal]⟩
      · have hu := hm.resolve_left h0
        apply polynomial_prints (fun x h => h)
        unfold facPoly
        rw [if_neg h0]
        refine ⟨hu.len, by rw [hv]; exact hpos, hu.den, ?_⟩
        intro t ht k hk
        have h1 := hu.len t ht
        have h2 := hu.deg t ht
        obtain ⟨e, c⟩ := t
        match e, h1 with
        | [j], _ =>
          obtain rfl : k = j := by simpa using hk
          simp at h2
          omega
    obtain ⟨s, h1, h2⟩ := print_txt (N := N) (P := P) (pr := Polynomial.toStr) ho (by
      intro q hq
      obtain ⟨f', hf', rfl⟩ := List.mem_map.mp hq
      have := hfac f' hf'
      exact ⟨hP _ this.pos _ this.num, hP _ this.pos _ this.den⟩)
      (polynomial_prints (orderedNames_mem ho) (by rw [orderedNames_length, hv]; exact hn.2)) (polynomial_prints (orderedNames_mem ho) (by rw [orderedNames_length, hv]; exact hd.2))
    exact ⟨s, h1, h2.denotes⟩
  · intro env h
    rw [dress_value hfac hn hd hv]
    obtain ⟨coord, hc⟩ : ∃ coord : ℕ → K, (fun i => env (vars.getD ((sortedIndices d).getD i 0) [])) = coord := ⟨_, rfl⟩
    have hq : queueValues d.length (varOrder d) coord = vars.map env := by
      rw [queueValues_eq]
      apply List.ext_getElem
      · simp [hv]
      · intro j h1 h2
        have hj : j < d.length := by simpa using h1
        have hm := (sorted_mem d).mpr hj
        rw [List.getElem_map, List.getElem_range, List.getElem_map, ← hc]
        show env (vars.getD ((sortedIndices d).getD ((sortedIndices d).idxOf j) 0) []) = _
        rw [List.getD_eq_getElem _ _ (List.idxOf_lt_length_of_mem hm), List.getElem_idxOf, List.getD_eq_getElem _ _ (by omega)]
    have hx : facValue ((factors.lookup r.id).getD []) (fun i => (queueValues d.length (varOrder d) coord).getD i 0) = facValue ((factors.lookup r.id).getD []) (fun i => env (vars.getD i [])) := by
      rw [hq]
      unfold facValue
      congr 1
      apply List.map_congr_left
      intro f' hf'
      have hp : f'.pos < (vars.map env).length := by rw [List.length_map, hv]; exact (hfac f' hf').pos
      have hp' : f'.pos < vars.length := by rw [hv]; exact (hfac f' hf').pos
      have e : (vars.map env).getD f'.pos 0 = env (vars.getD f'.pos []) := by
        rw [List.getD_eq_getElem _ _ hp, List.getElem_map, List.getD_eq_getElem _ _ hp']
      unfold Factor.value
      simp only [e]
    have := hR coord (by rw [hx]; exact h)
    rw [hc, this, hx, hq, mul_div_cancel₀ _ h]

/-- **C51 (each result once).** `get_early_results` returns the numbers of the functions that are done; a second call returns none of them again. -/
theorem C51_early_once (order : List (ℕ × ℕ)) (factors : List (ℕ × List Factor)) (rs : List RecEntry) :
    (getEarlyResults order factors rs).1.map Prod.fst = (rs.filter fun r => r.state = .done).map RecEntry.id ∧
      (getEarlyResults order factors (getEarlyResults order factors rs).2).1 = [] := by
  unfold getEarlyResults
  refine ⟨by rw [List.map_map]; rfl, ?_⟩
  simp only [List.map_eq_nil_iff, List.filter_eq_nil_iff, List.mem_map]
  rintro r ⟨r', -, rfl⟩
  split
  · simp
  · rename_i h; simpa using h

lemma getResult_fold (order : List (ℕ × ℕ)) (factors : List (ℕ × List Factor)) : ∀ (rs : List RecEntry) (A : List RationalFunction) (k : ℕ), (∀ r ∈ rs, r.state = .done) → rs.map RecEntry.id = List.range' k rs.length →
    (rs.foldl (fun (s : List RationalFunction × ℕ) r => if r.state = .done then (s.1 ++ [dressResult order factors s.2 r.num r.den], s.2 + 1) else s) (A, k)).1 =
      A ++ rs.map fun r => dressResult order factors r.id r.num r.den
  | [], A, k, _, _ => by simp
  | r :: rs, A, k, h, hid => by
    rw [List.map_cons, List.length_cons, List.range'_succ, List.cons.injEq] at hid
    rw [List.foldl_cons, if_pos (h r (by simp)), getResult_fold order factors rs _ (k + 1) (fun r' h' => h r' (by simp [h'])) hid.2, List.map_cons, hid.1]
    simp

/-- **C51 (`get_result`, all functions are done).** If all functions are done and none was taken before, `get_result` returns the same as `get_early_results`, in the order of the functions. -/
theorem C51_get_result (order : List (ℕ × ℕ)) (factors : List (ℕ × List Factor)) {rs : List RecEntry} (hdone : ∀ r ∈ rs, r.state = .done) (hid : rs.map RecEntry.id = List.range rs.length) :
    getResult order factors rs = (getEarlyResults order factors rs).1.map Prod.snd := by
  unfold getResult getEarlyResults
  rw [getResult_fold order factors rs [] 0 hdone (by rw [hid, List.range_eq_range']), List.nil_append, List.filter_eq_self.mpr (by intro r hr; simpa using hdone r hr), List.map_map]
  rfl

/-- the polynomial one in `n` variables -/
def onePoly (n : ℕ) : Polynomial := { n := n, coefs := [(List.replicate n 0, ⟨1, 1⟩)] }

/-- the factor `x` of the first function -/
def factorX : Factor := { pos := 0, num := [([1], ⟨1, 1⟩)], den := [] }

/-- **C51 (violated: `get_result` after `get_early_results`).** Two functions of one variable, `x` (with the factor `x`) and `1` (without a factor). The first one is done and taken with `get_early_results` while the second one is not done.
When the second one is done, `get_result` returns `x` for it instead of `1`: its counter counts only the functions that are still there. The same happens without `get_early_results` if the second function is done before the first one. -/
theorem C51_get_result_violated : ∃ (factors : List (ℕ × List Factor)) (a b : RecEntry), a.id = 0 ∧ b.id = 1 ∧ a.state = .done ∧ b.state = .done ∧
    (∀ q ∈ factors, ∀ f ∈ q.2, f.OK 1 2) ∧
    (getEarlyResults (varOrder [1]) factors [a, { b with state := .reconstructing }]).2 = [{ a with state := .delete }, { b with state := .reconstructing }] ∧
    ∀ (env : Str → ℚ), (getEarlyResults (varOrder [1]) factors [a, b]).1.map (fun q => (q.1, q.2.value [['x']] env)) = [(0, env ['x']), (1, 1)] ∧
      (getResult (varOrder [1]) factors [{ a with state := .delete }, b]).map (fun q => q.value [['x']] env) = [env ['x']] ∧
      (getResult (varOrder [1]) factors [{ a with state := .reconstructing }, b]).map (fun q => q.value [['x']] env) = [env ['x']] := by
  have hX : factorX.OK 1 2 := ⟨by decide, Or.inr ⟨by decide, by decide, by decide, by decide⟩, Or.inl rfl⟩
  have h1 : (onePoly 1).varPos = none ∧ (onePoly 1).OK ([1] : List ℕ).length 2 := by
    exact ⟨rfl, ⟨by decide, rfl, by decide, by decide⟩⟩
  refine ⟨[(0, [factorX])], ⟨0, .done, onePoly 1, onePoly 1⟩, ⟨1, .done, onePoly 1, onePoly 1⟩, rfl, rfl, rfl, rfl, ?_, rfl, ?_⟩
  · intro q hq f hf
    simp only [List.mem_singleton] at hq
    subst hq
    simp only [List.mem_singleton] at hf
    subst hf
    exact hX
  · intro env
    have v0 : (dressResult (varOrder [1]) [(0, [factorX])] 0 (onePoly 1) (onePoly 1)).value [['x']] env = env ['x'] := by
      rw [dress_value (B := 2) (P := 2) (by
        intro f hf
        have : f = factorX := by simpa using hf
        rw [this]; exact hX) h1 h1 rfl]
      simp [facValue, Factor.value, factorX, uniVal, ratVal, ratAt, onePoly, polyAt]
    have v1 : (dressResult (varOrder [1]) [(0, [factorX])] 1 (onePoly 1) (onePoly 1)).value [['x']] env = 1 := by
      rw [dress_value (B := 2) (P := 2) (by
        intro f hf
        have : f ∈ ([] : List Factor) := hf
        simp at this) h1 h1 rfl]
      have : (List.lookup 1 [(0, [factorX])]).getD [] = ([] : List Factor) := rfl
      rw [this]
      simp [facValue, ratVal, ratAt, onePoly, polyAt]
    refine ⟨?_, ?_, ?_⟩
    · show [(0, (dressResult (varOrder [1]) [(0, [factorX])] 0 (onePoly 1) (onePoly 1)).value [['x']] env), (1, (dressResult (varOrder [1]) [(0, [factorX])] 1 (onePoly 1) (onePoly 1)).value [['x']] env)] = _
      rw [v0, v1]
    · show [(dressResult (varOrder [1]) [(0, [factorX])] 0 (onePoly 1) (onePoly 1)).value [['x']] env] = _
      rw [v0]
    · show [(dressResult (varOrder [1]) [(0, [factorX])] 0 (onePoly 1) (onePoly 1)).value [['x']] env] = _
      rw [v0]

/-- **C51 (`get_factors_string`).** The text of the function `i` is a well-formed expression with the value of its factors. -/
theorem C51_factors_string {d : List ℕ} {factors : List (ℕ × List Factor)} {items B P N : ℕ} (hfac : ∀ i, ∀ f ∈ (factors.lookup i).getD [], f.OK d.length B) (hB : B ≤ P) (hP : 0 < P)
    {vars : List Str} (hv : vars.length = d.length) :
    ∃ l, getFactorsString d.length (varOrder d) factors items vars = some l ∧ l.length = items ∧
      ∀ i (h : i < l.length), Denotes vars P N l[i] (fun K _ env => facValue ((factors.lookup i).getD []) (fun j => env (vars.getD j []))) := by
  have h1 : (onePoly d.length).varPos = none ∧ (onePoly d.length).OK d.length P := by
    refine ⟨rfl, ⟨?_, rfl, ?_, ?_⟩⟩
    · intro t ht
      simp only [onePoly, List.mem_singleton] at ht
      subst ht
      simp [onePoly]
    · intro t ht
      simp only [onePoly, List.mem_singleton] at ht
      subst ht
      exact Int.one_pos
    · intro t ht k hk
      simp only [onePoly, List.mem_singleton] at ht
      subst ht
      rw [List.eq_of_mem_replicate hk]; exact hP
  have hone : ∀ (K : Type) [Field K] (y : ℕ → K), ratAt (onePoly d.length) (onePoly d.length) y = 1 := by
    intro K _ y
    simp [ratAt, onePoly, polyAt, ratVal]
  have key : ∀ i, ∃ s, (dressResult (varOrder d) factors i (onePoly d.length) (onePoly d.length)).toStr vars = some s ∧
      Denotes vars P N s (fun K _ env => facValue ((factors.lookup i).getD []) (fun j => env (vars.getD j []))) := by
    intro i
    obtain ⟨R, hR, ⟨s, hs, hden⟩, -⟩ := C51_early_results (K := ℚ) (d := d) (factors := factors) (rs := [⟨i, .done, onePoly d.length, onePoly d.length⟩]) (r := ⟨i, .done, onePoly d.length, onePoly d.length⟩) (by simp) rfl (N := N) (hfac i) hB h1 h1
      (f := fun v => facValue ((factors.lookup i).getD []) (fun i => v.getD i 0)) (by
        intro coord h
        rw [hone, div_self h]) hv
    have hR' : R = dressResult (varOrder d) factors i (onePoly d.length) (onePoly d.length) := by
      simp only [getEarlyResults, List.filter_cons, decide_true, if_true, List.filter_nil, List.map_cons, List.map_nil, List.mem_singleton, Prod.mk.injEq] at hR
      exact hR.2
    subst hR'
    refine ⟨s, hs, ?_⟩
    obtain ⟨e, g1, g2, g3⟩ := hden
    refine ⟨e, g1, g2, fun K _ env => ?_⟩
    rw [g3 K env]
    show (dressResult (varOrder d) factors i (onePoly d.length) (onePoly d.length)).value vars env = _
    rw [dress_value (hfac i) h1 h1 hv, hone, mul_one]
  choose g hg1 hg2 using key
  refine ⟨(List.range items).map g, ?_, by simp, ?_⟩
  · unfold getFactorsString
    generalize List.range items = l
    induction l with
    | nil => rfl
    | cons i l ih =>
      rw [List.mapM_cons]
      show ((dressResult (varOrder d) factors i (onePoly d.length) (onePoly d.length)).toStr vars).bind _ = _
      rw [hg1 i, Option.bind_some]
      exact congrArg (fun o => Option.bind o fun l => some (g i :: l)) ih
  · intro i h
    rw [List.getElem_map, List.getElem_range]
    exact hg2 i

/-! ### examples -/

/-- `x1 + 1` in the numerator, `x2^2 - 1/2` in the denominator -/
def twoFactors : List Factor :=
  [{ pos := 0, num := [([1], ⟨1, 1⟩), ([0], ⟨1, 1⟩)], den := [] }, { pos := 1, num := [], den := [([0], ⟨-1, 2⟩), ([2], ⟨1, 1⟩)] }]

/-- the hypotheses of `C51_factor_value`, `C51_probe` and `C51_early_results` -/
example : (2 ≤ 2 ^ 32) ∧ (twoFactors.map Factor.pos).Nodup ∧ (∀ f ∈ twoFactors, f.OK 2 3) ∧ (∃ f ∈ twoFactors, f.num ≠ [] ∨ f.den ≠ []) := by
  refine ⟨by norm_num, by decide, ?_, by decide⟩
  intro f hf
  simp only [twoFactors, List.mem_cons, List.not_mem_nil, or_false] at hf
  rcases hf with rfl | rfl
  · exact ⟨by decide, Or.inr ⟨by decide, by decide, by decide, by decide⟩, Or.inl rfl⟩
  · exact ⟨by decide, Or.inl rfl, Or.inr ⟨by decide, by decide, by decide, by decide⟩⟩

/-- its text -/
example : factorStrings twoFactors = some (["x1+1".toList], ["(-1/2)+x2^2".toList]) ∧ factorText ["x1+1".toList] ["(-1/2)+x2^2".toList] = "((x1+1))/(((-1/2)+x2^2))".toList := by decide +kernel

/-- the order of the variables changes -/
example : varOrder [1, 3, 0, 3] = [(0, 1), (1, 3), (2, 0), (3, 2)] ∧ changeOrder (varOrder [1, 3, 0, 3]) = true := by
  simp [varOrder, sortedIndices, List.range, List.range.loop, List.mergeSort, List.MergeSort.Internal.splitInTwo, List.merge, changeOrder]

end FireFly
