import Verif.Spec.RatRun
import Verif.Props.RatReconstProps
/-! # Polynomials over the rational numbers and modulo primes -/
set_option linter.all false
namespace FireFly.RRun
open MvPolynomial FFMap

section
variable (p : ℕ) [hp : Fact p.Prime]

lemma red_coeff (f : MvPolynomial ℕ ℚ) (m : ℕ →₀ ℕ) : coeff m (red p f) = ((coeff m f : ℚ) : ZMod p) := by
  classical
  unfold red
  rw [coeff_sum]
  simp only [coeff_monomial]
  rw [Finset.sum_ite_eq' f.support m]
  split_ifs with h
  · rfl
  · rw [notMem_support_iff.mp h]; simp

lemma toFinsupp_exps {k : ℕ} {m : ℕ →₀ ℕ} (h : ∀ i, k ≤ i → m i = 0) : (exps k m).toFinsupp = m := by
  ext i
  rw [List.toFinsupp_apply]
  unfold exps
  by_cases hi : i < k
  · rw [List.getD_eq_getElem _ _ (by simpa using hi)]; simp
  · rw [List.getD_eq_default _ _ (by simpa using hi), h i (by omega)]

lemma exps_toFinsupp {k : ℕ} {e : List ℕ} (h : e.length = k) : exps k e.toFinsupp = e := by
  unfold exps
  apply List.ext_getElem
  · simp [h]
  · intro i h1 h2
    simp [List.getElem?_eq_getElem h2]

lemma mem_monos {k : ℕ} {f : MvPolynomial ℕ ℚ} (hf : InVars k f) {e : List ℕ} : e ∈ monos k f ↔ e.length = k ∧ coeff e.toFinsupp f ≠ 0 := by
  unfold monos
  rw [List.mem_map]
  constructor
  · rintro ⟨m, hm, rfl⟩
    rw [Finset.mem_toList] at hm
    rw [toFinsupp_exps (hf m hm)]
    exact ⟨by simp [exps], mem_support_iff.mp hm⟩
  · rintro ⟨h1, h2⟩
    exact ⟨e.toFinsupp, Finset.mem_toList.mpr (mem_support_iff.mpr h2), exps_toFinsupp h1⟩

lemma monos_nodup {k : ℕ} {f : MvPolynomial ℕ ℚ} (hf : InVars k f) : (monos k f).Nodup := by
  refine List.Nodup.map_on ?_ f.support.nodup_toList
  intro a ha b hb hab
  rw [Finset.mem_toList] at ha hb
  rw [← toFinsupp_exps (hf a ha), hab, toFinsupp_exps (hf b hb)]

lemma monos_len {k : ℕ} {f : MvPolynomial ℕ ℚ} (hf : InVars k f) {e : List ℕ} (h : e ∈ monos k f) : e.length = k := ((mem_monos hf).mp h).1

/-- a sum over the monomials -/
lemma monos_sum {k : ℕ} {f : MvPolynomial ℕ ℚ} (hf : InVars k f) {R : Type} [AddCommMonoid R] (φ : (ℕ →₀ ℕ) → R) :
    ((monos k f).map (fun e => φ e.toFinsupp)).sum = ∑ m ∈ f.support, φ m := by
  unfold monos
  rw [List.map_map]
  have : f.support.toList.map ((fun e : List ℕ => φ e.toFinsupp) ∘ exps k) = f.support.toList.map φ := by
    apply List.map_congr_left
    intro m hm
    simp only [Function.comp]
    rw [toFinsupp_exps (hf m (Finset.mem_toList.mp hm))]
  rw [this, Finset.sum_map_toList]

lemma red_monos {k : ℕ} {f : MvPolynomial ℕ ℚ} (hf : InVars k f) : red p f = ((monos k f).map (fun e => monomial e.toFinsupp ((coefOf f e : ℚ) : ZMod p))).sum := by
  exact (monos_sum hf (fun m => monomial m ((coeff m f : ℚ) : ZMod p))).symm

lemma rat_monos {k : ℕ} {f : MvPolynomial ℕ ℚ} (hf : InVars k f) : f = ((monos k f).map (fun e => monomial e.toFinsupp (coefOf f e))).sum := by
  exact f.as_sum.trans (monos_sum hf (fun m => monomial m (coeff m f))).symm

/-- an exact side denotes the polynomial -/
lemma rnPoly_exact {k : ℕ} {f : MvPolynomial ℕ ℚ} (hf : InVars k f) {g : RnMap} (h : SideExact (coefOf f) (monos k f) g) : rnPoly g = f := by
  unfold rnPoly denote
  rw [List.map_map]
  have e1 : g.map ((fun t : List ℕ × ℚ => monomial t.1.toFinsupp t.2) ∘ fun t => (t.1, t.2.val)) = (g.map Prod.fst).map (fun e => monomial e.toFinsupp (coefOf f e)) := by
    rw [List.map_map]
    apply List.map_congr_left
    intro t ht
    simp only [Function.comp]
    rw [(h.2 t ht).2]
  rw [e1, (h.1.map _).sum_eq]
  exact (rat_monos hf).symm

lemma wf_convert {k : ℕ} {g : RnMap} (h : WFMap k g) : WFMap k (convertToFF p g) := by
  unfold convertToFF
  refine ⟨by rw [List.map_map]; exact h.1, ?_⟩
  intro t ht
  obtain ⟨s, hs, rfl⟩ := List.mem_map.mp ht
  exact h.2 s hs

/-- what is computed with a guess -/
lemma red_rnPoly {k : ℕ} {g : RnMap} (hw : WFMap k g) (hv : ∀ t ∈ g, t.2.Valid) : red p (rnPoly g) = denote (convertToFF p g) := by
  have hw2 : WFMap k (g.map (fun t => (t.1, t.2.val))) := by
    refine ⟨by rw [List.map_map]; exact hw.1, ?_⟩
    intro t ht
    obtain ⟨s, hs, rfl⟩ := List.mem_map.mp ht
    exact hw.2 s hs
  symm
  apply denote_ext (wf_convert p hw)
  · intro e he
    rw [red_coeff]
    unfold rnPoly
    rw [coeff_denote hw2 he]
    unfold convertToFF
    induction g with
    | nil => simp [FFMap.find?]
    | cons t g ih =>
      rw [List.map_cons, List.map_cons, find?_cons, find?_cons]
      by_cases h : e = t.1
      · rw [if_pos h, if_pos h]
        simp only [Option.getD_some]
        exact (val_cast p (hv t (by simp))).symm
      · rw [if_neg h, if_neg h]
        refine ih ?_ (fun s hs => hv s (List.mem_cons_of_mem _ hs)) ?_
        · exact ⟨(List.nodup_cons.mp hw.1).2, fun s hs => hw.2 s (List.mem_cons_of_mem _ hs)⟩
        · exact ⟨(List.nodup_cons.mp hw2.1).2, fun s hs => hw2.2 s (List.mem_cons_of_mem _ hs)⟩
  · intro m hm
    rw [red_coeff]
    unfold rnPoly
    rw [coeff_denote_other hw2 hm]; simp

end

/-- the exponents of a side -/
lemma side_keys {c : List ℕ → ℚ} {k : ℕ} {f : MvPolynomial ℕ ℚ} (hf : InVars k f) {M : ℤ} {g : RnMap} {comb : MpzMap} (h : SideOK c (monos k f) M g comb) :
    WFMap k g ∧ (comb.map Prod.fst).Nodup ∧ ∀ e ∈ comb.map Prod.fst, e.length = k ∧ coeff e.toFinsupp f ≠ 0 := by
  have hnd := h.perm.nodup_iff.mpr h.nodup
  refine ⟨⟨(List.nodup_append.mp hnd).1, ?_⟩, (List.nodup_append.mp hnd).2.1, ?_⟩
  · intro t ht
    exact monos_len hf (h.perm.mem_iff.mp (List.mem_append_left _ (List.mem_map_of_mem ht)))
  · intro e he
    exact (mem_monos hf).mp (h.perm.mem_iff.mp (List.mem_append_right _ he))

lemma guess_facts {c : List ℕ → ℚ} {k : ℕ} {f : MvPolynomial ℕ ℚ} (hf : InVars k f) {M : ℤ} {g : RnMap} (h : GuessOK c (monos k f) M g) : (∀ t ∈ g, t.2.Valid) ∧ WFMap k g :=
  ⟨fun t ht => (h.2 t ht).1, h.1.nodup_iff.mpr (monos_nodup hf), fun t ht => monos_len hf (h.1.mem_iff.mp (List.mem_map_of_mem ht))⟩

/-! ## the unsolved degrees -/

lemma flatMap_set_perm (m : FFMap (List (List ℕ))) (h : (m.map Prod.fst).Nodup) (k : List ℕ) (e : List ℕ) :
    ((m.set k ((m.find? k).getD [] ++ [e])).flatMap Prod.snd).Perm (m.flatMap Prod.snd ++ [e]) := by
  by_cases hk : k ∈ m.map Prod.fst
  · have hset : m.set k ((m.find? k).getD [] ++ [e]) = m.map (fun t => if t.1 = k then (k, (m.find? k).getD [] ++ [e]) else t) := by
      unfold FFMap.set
      rw [if_pos]
      by_contra h0
      rw [Bool.not_eq_true, Option.isSome_eq_false_iff, Option.isNone_iff_eq_none, find?_eq_none] at h0
      exact h0 hk
    rw [hset]
    obtain ⟨v, hv⟩ : ∃ v, m.find? k = some v := by
      rcases hf : m.find? k with _ | v
      · exact absurd hk (find?_eq_none.mp hf)
      · exact ⟨v, rfl⟩
    rw [hv]
    simp only [Option.getD_some]
    have hmem := find?_mem hv
    clear hset hk
    induction m with
    | nil => simp at hmem
    | cons t m ih =>
      rw [List.map_cons, List.nodup_cons] at h
      rw [List.map_cons, List.flatMap_cons, List.flatMap_cons]
      rcases List.mem_cons.mp hmem with h1 | h1
      · rw [← h1]
        simp only [if_true]
        have : m.map (fun t => if t.1 = k then (k, v ++ [e]) else t) = m := by
          conv_rhs => rw [← List.map_id m]
          apply List.map_congr_left
          intro s hs
          rw [if_neg]
          · rfl
          · intro h2
            apply h.1
            rw [← h1]
            simp only
            rw [← h2]
            exact List.mem_map_of_mem hs
        rw [this, List.append_assoc, List.append_assoc]
        exact List.Perm.append_left _ List.perm_append_comm
      · have hne : t.1 ≠ k := by
          intro h2
          exact h.1 (h2 ▸ List.mem_map_of_mem (f := Prod.fst) h1)
        rw [if_neg hne, List.append_assoc]
        apply List.Perm.append_left
        apply ih h.2 ?_ h1
        rw [find?_cons, if_neg (fun e => hne e.symm)] at hv
        exact hv
  · have hset : m.set k ((m.find? k).getD [] ++ [e]) = m ++ [(k, (m.find? k).getD [] ++ [e])] := by
      unfold FFMap.set
      rw [if_neg]
      rw [find?_eq_none.mpr hk]; simp
    rw [hset, find?_eq_none.mpr hk, List.flatMap_append]
    simp

lemma grouped_group (keys : List (List ℕ)) : Grouped keys (groupByDegree keys) := by
  have key : ∀ (keys past : List (List ℕ)) (m : FFMap (List (List ℕ))), Grouped past m →
      Grouped (past ++ keys) (keys.foldl (fun (m : FFMap (List (List ℕ))) e => m.set [e.sum] ((m.find? [e.sum]).getD [] ++ [e])) m) := by
    intro keys
    induction keys with
    | nil => intro past m h; simpa using h
    | cons e keys ih =>
      intro past m h
      rw [List.foldl_cons]
      have : past ++ e :: keys = (past ++ [e]) ++ keys := by simp
      rw [this]
      apply ih
      refine ⟨?_, ?_, ?_⟩
      · rw [keys_set]
        split_ifs with hk
        · exact h.nodup
        · rw [List.nodup_append]
          exact ⟨h.nodup, by simp, by
            intro a ha b hb hab
            rw [List.mem_singleton.mp hb] at hab
            exact hk (hab ▸ ha)⟩
      · intro u hu
        rcases mem_set hu with hu | rfl
        · exact h.form u hu
        · refine ⟨e.sum, rfl, by simp, ?_⟩
          intro e' he'
          rcases List.mem_append.mp he' with he' | he'
          · cases hf : m.find? [e.sum] with
            | none => rw [hf] at he'; simp at he'
            | some v =>
              rw [hf] at he'
              obtain ⟨j, h1, -, h3⟩ := h.form _ (find?_mem hf)
              have : e.sum = j := by simpa using h1
              rw [this]
              exact h3 e' he'
          · rw [List.mem_singleton.mp he']
      · exact (flatMap_set_perm m h.nodup _ e).trans (h.perm.append_right _)
  exact key keys [] [] ⟨by simp, by simp, by simp⟩

/-- the iteration orders permute -/
structure Order.OK (o : Order) : Prop where
  exps : ∀ l, (o.exps l).Perm l
  degs : ∀ l, (o.degs l).Perm l

lemma Grouped.perm_keys {keys keys' : List (List ℕ)} {U : FFMap (List (List ℕ))} (h : Grouped keys U) (hp : keys.Perm keys') : Grouped keys' U :=
  ⟨h.nodup, h.form, h.perm.trans hp⟩

lemma Grouped.perm_map {keys : List (List ℕ)} {U U' : FFMap (List (List ℕ))} (h : Grouped keys U) (hp : U'.Perm U) : Grouped keys U' :=
  ⟨(hp.map _).nodup_iff.mpr h.nodup, fun u hu => h.form u (hp.mem_iff.mp hu), (hp.flatMap_right _).trans h.perm⟩

lemma grouped_end {o : Order} (ho : o.OK) (keys : List (List ℕ)) : Grouped keys (o.degs (groupByDegree (o.exps keys))) :=
  ((grouped_group _).perm_keys (ho.exps keys)).perm_map (ho.degs _)

end FireFly.RRun
