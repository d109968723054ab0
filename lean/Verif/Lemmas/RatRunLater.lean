import Verif.Lemmas.RatRunBasic
/-! # A further prime field: the assumptions of C45 -/
set_option linter.all false
namespace FireFly.RRun
open MvPolynomial FFMap

section
variable {p : ℕ} [hp : Fact p.Prime] {k : ℕ} {f : MvPolynomial ℕ ℚ} {M : ℤ} {g : RnMap} {comb : MpzMap} {U : FFMap (List (List ℕ))}

lemma sum_flatMap {α β R : Type} [AddCommMonoid R] (φ : β → R) (s : α → List β) : ∀ l : List α, ((l.flatMap s).map φ).sum = (l.map (fun a => ((s a).map φ).sum)).sum
  | [] => rfl
  | a :: l => by rw [List.flatMap_cons, List.map_append, List.sum_append, sum_flatMap φ s l, List.map_cons, List.sum_cons]

lemma side_split (hf : InVars k f) (h : SideOK (coefOf f) (monos k f) M g comb) (hU : Grouped (comb.map Prod.fst) U) {a : List (ZMod p)} (ha : ∀ x ∈ a, x ≠ 0)
    (hd : ∀ m ∈ f.support, ∀ m' ∈ f.support, m.degree = m'.degree →
      eval (RMulti.dir a (List.replicate (k - 1) 1)) (monomial m (1 : ZMod p)) = eval (RMulti.dir a (List.replicate (k - 1) 1)) (monomial m' 1) → m = m') :
    RLater.Split k a (red p f) (convertToFF p g) U := by
  obtain ⟨w, cn, ck⟩ := side_keys hf h
  have hflat : (U.flatMap Prod.snd).Nodup := hU.perm.nodup_iff.mpr cn
  have hmem : ∀ u ∈ U, ∀ e ∈ u.2, e.length = k ∧ coeff e.toFinsupp f ≠ 0 := by
    intro u hu e he
    exact ck e (hU.perm.mem_iff.mp (List.mem_flatMap.mpr ⟨u, hu, he⟩))
  refine ⟨wf_convert p w, hU.nodup, ?_, ?_, ?_, ha⟩
  · intro u hu
    obtain ⟨j, h1, h2, h3⟩ := hU.form u hu
    exact ⟨j, h1, h2, (List.nodup_flatMap.mp hflat).1 u hu, fun e he => ⟨(hmem u hu e he).1, h3 e he⟩⟩
  · conv_lhs => rw [red_monos p hf, ← (h.perm.map _).sum_eq, List.map_append, List.sum_append]
    congr 1
    · unfold denote convertToFF
      rw [List.map_map, List.map_map]
      congr 1
      apply List.map_congr_left
      intro t ht
      simp only [Function.comp]
      rw [val_cast p (h.known t ht).1, (h.known t ht).2]
    · rw [← (hU.perm.map _).sum_eq, sum_flatMap]
      congr 1
      apply List.map_congr_left
      intro u hu
      unfold denote RLater.terms
      rw [List.map_map]
      congr 1
      apply List.map_congr_left
      intro e he
      simp only [Function.comp]
      rw [red_coeff]; rfl
  · intro u hu e he e' he' heq
    obtain ⟨j, h1, h2, h3⟩ := hU.form u hu
    have := hd e.toFinsupp (mem_support_iff.mpr (hmem u hu e he).2) e'.toFinsupp (mem_support_iff.mpr (hmem u hu e' he').2)
      (by rw [degree_toFinsupp, degree_toFinsupp, h3 e he, h3 e' he']) heq
    exact toFinsupp_inj (hmem u hu e he).1 (hmem u hu e' he').1 this

/-- the degrees of the unknown coefficients -/
lemma grouped_degree (hf : InVars k f) (h : SideOK (coefOf f) (monos k f) M g comb) (hU : Grouped (comb.map Prod.fst) U) {j : ℕ} (hj : [j] ∈ U.map Prod.fst) :
    ∃ e ∈ comb.map Prod.fst, e.length = k ∧ e.toFinsupp ∈ f.support ∧ e.toFinsupp.degree = j := by
  obtain ⟨u, hu, hj⟩ := List.mem_map.mp hj
  obtain ⟨i, h1, h2, h3⟩ := hU.form u hu
  obtain ⟨e, he⟩ := List.exists_mem_of_ne_nil _ h2
  have hm := hU.perm.mem_iff.mp (List.mem_flatMap.mpr ⟨u, hu, he⟩)
  obtain ⟨h4, h5⟩ := (side_keys hf h).2.2 e hm
  refine ⟨e, hm, h4, mem_support_iff.mpr h5, ?_⟩
  rw [degree_toFinsupp, h3 e he]
  rw [h1] at hj
  simpa using hj

lemma degrees_le (hf : InVars k f) (h : SideOK (coefOf f) (monos k f) M g comb) (hU : Grouped (comb.map Prod.fst) U) (o : ℕ) : RLater.degrees U o ≤ numDegs f o := by
  classical
  obtain ⟨w, cn, ck⟩ := side_keys hf h
  have hflat : (U.flatMap Prod.snd).Nodup := hU.perm.nodup_iff.mpr cn
  have hmem : ∀ u ∈ U, ∀ e ∈ u.2, e.length = k ∧ coeff e.toFinsupp f ≠ 0 := by
    intro u hu e he
    exact ck e (hU.perm.mem_iff.mp (List.mem_flatMap.mpr ⟨u, hu, he⟩))
  unfold RLater.degrees numDegs
  have hnd : ((U.filter (fun u => decide (o ≤ u.2.length))).map (fun u => u.1.getD 0 0)).Nodup := by
    have h1 : ((U.filter (fun u => decide (o ≤ u.2.length))).map Prod.fst).Nodup := hU.nodup.sublist (List.Sublist.map _ List.filter_sublist)
    have h2 : (U.filter (fun u => decide (o ≤ u.2.length))).map (fun u => u.1.getD 0 0) = ((U.filter (fun u => decide (o ≤ u.2.length))).map Prod.fst).map (fun l => l.getD 0 0) := by
      rw [List.map_map]; rfl
    rw [h2]
    refine List.Nodup.map_on ?_ h1
    intro x hx y hy hxy
    obtain ⟨u, hu, rfl⟩ := List.mem_map.mp hx
    obtain ⟨v, hv, rfl⟩ := List.mem_map.mp hy
    obtain ⟨i, h3, -⟩ := hU.form u (List.mem_filter.mp hu).1
    obtain ⟨j, h4, -⟩ := hU.form v (List.mem_filter.mp hv).1
    rw [h3, h4] at hxy ⊢
    simp at hxy
    rw [hxy]
  rw [← List.length_map (f := fun u : List ℕ × List (List ℕ) => u.1.getD 0 0), ← List.toFinset_card_of_nodup hnd]
  apply Finset.card_le_card
  intro j hj
  rw [List.mem_toFinset] at hj
  obtain ⟨u, hu, rfl⟩ := List.mem_map.mp hj
  obtain ⟨hu, ho⟩ := List.mem_filter.mp hu
  have ho : o ≤ u.2.length := by simpa using ho
  obtain ⟨i, h1, h2, h3⟩ := hU.form u hu
  rw [h1]
  simp only [List.getD_cons_zero]
  have hdeg : ∀ e ∈ u.2, e.toFinsupp ∈ f.support.filter (fun m => m.degree = i) := by
    intro e he
    rw [Finset.mem_filter, degree_toFinsupp]
    exact ⟨mem_support_iff.mpr (hmem u hu e he).2, h3 e he⟩
  rw [Finset.mem_filter, Finset.mem_image]
  constructor
  · obtain ⟨e, he⟩ := List.exists_mem_of_ne_nil _ h2
    exact ⟨e.toFinsupp, (Finset.mem_filter.mp (hdeg e he)).1, (Finset.mem_filter.mp (hdeg e he)).2⟩
  · refine le_trans ho ?_
    have hn2 : (u.2.map (fun e => e.toFinsupp)).Nodup := by
      refine List.Nodup.map_on ?_ ((List.nodup_flatMap.mp hflat).1 u hu)
      intro x hx y hy hxy
      exact toFinsupp_inj (hmem u hu x hx).1 (hmem u hu y hy).1 hxy
    rw [← List.length_map (f := fun e : List ℕ => e.toFinsupp), ← List.toFinset_card_of_nodup hn2]
    apply Finset.card_le_card
    intro m hm
    rw [List.mem_toFinset] at hm
    obtain ⟨e, he, rfl⟩ := List.mem_map.mp hm
    exact hdeg e he

lemma numDegs_pos (h : f ≠ 0) : 1 ≤ numDegs f 1 := by
  classical
  unfold numDegs
  obtain ⟨m, hm⟩ := Finset.nonempty_iff_ne_empty.mpr (fun h0 => h (support_eq_empty.mp h0))
  apply Finset.card_pos.mpr
  refine ⟨m.degree, ?_⟩
  rw [Finset.mem_filter, Finset.mem_image]
  exact ⟨⟨m, hm, rfl⟩, Finset.card_pos.mpr ⟨m, Finset.mem_filter.mpr ⟨hm, rfl⟩⟩⟩

lemma grouped_nil (hU : Grouped (comb.map Prod.fst) U) (h : U = []) : comb = [] := by
  have := hU.perm
  rw [h] at this
  simpa using this.symm.eq_nil

end

lemma probes_eq {p : ℕ} [Fact p.Prime] {a : List (ZMod p)} {N D : MvPolynomial ℕ (ZMod p)} {probes : List (ZMod p × ZMod p × List ℕ)}
    (h : ∀ q ∈ probes, q.2.1 = RLater.value a N D q.1 q.2.2) : RLater.withValues a N D (probes.map (fun q => (q.1, q.2.2))) = probes := by
  unfold RLater.withValues
  rw [List.map_map]
  conv_rhs => rw [← List.map_id probes]
  apply List.map_congr_left
  intro q hq
  simp only [Function.comp, id]
  rw [← h q hq]

end FireFly.RRun
