import Verif.Lemmas.PolyClassBase
import Mathlib.Algebra.Polynomial.Div
import Mathlib.Algebra.Polynomial.FieldDivision
import Mathlib.Tactic.LinearCombination
set_option linter.all false

open Polynomial

namespace FireFly

namespace PolyC

variable {F : Type*} [Field F] [DecidableEq F]

theorem truncRev_spec (n : ℕ) (hn : 1 ≤ n) (l : List F) (hl : l ≠ []) :
    (∀ j, (polyOf (truncRev n l).reverse).coeff j = if j < n then (polyOf l.reverse).coeff j else 0) ∧
    truncRev n l ≠ [] := by
  induction l with
  | nil => exact absurd rfl hl
  | cons x l ih =>
    rw [truncRev]
    split_ifs with h
    · have hl' : l ≠ [] := by
        rintro rfl
        have := degC_lt ([x] : List F) (by simp)
        simp at h this; omega
      obtain ⟨h1, h2⟩ := ih hl'
      refine ⟨fun j => ?_, h2⟩
      rw [h1]
      split_ifs with hj
      · rw [polyOf_coeff, polyOf_coeff, List.reverse_cons]
        have h3 := degC_lt ((x :: l).reverse : List F) (by simp)
        simp only [List.length_reverse, List.length_cons] at h3
        rw [List.getD_eq_getElem?_getD, List.getD_eq_getElem?_getD,
          List.getElem?_append_left (by simp; omega)]
      · rfl
    · refine ⟨fun j => ?_, by simp⟩
      split_ifs with hj
      · rfl
      · rw [polyOf_coeff]; exact degC_above _ (by omega)

theorem truncC_spec (c : List F) (n : ℕ) (hn : 1 ≤ n) (hc : c ≠ []) :
    (∀ j, (polyOf (truncC c n)).coeff j = if j < n then (polyOf c).coeff j else 0) ∧
    truncC c n ≠ [] := by
  obtain ⟨h1, h2⟩ := truncRev_spec n hn c.reverse (by simpa using hc)
  refine ⟨fun j => ?_, by simpa [truncC] using h2⟩
  rw [truncC, h1, List.reverse_reverse]

theorem truncC_dvd (c : List F) (n : ℕ) (hn : 1 ≤ n) (hc : c ≠ []) :
    X ^ n ∣ polyOf c - polyOf (truncC c n) := by
  rw [X_pow_dvd_iff]; intro d hd
  rw [coeff_sub, (truncC_spec c n hn hc).1, if_pos hd, sub_self]

theorem newtonStep_spec (f gi : List F) (i : ℕ) (hgi : gi ≠ []) (N : ℕ) (hN : N = 2 ^ i)
    (h : X ^ N ∣ 1 - polyOf f * polyOf gi) :
    X ^ (2 * N) ∣ 1 - polyOf f * polyOf (newtonStep f gi (i + 1)) ∧ newtonStep f gi (i + 1) ≠ [] := by
  unfold newtonStep
  obtain ⟨h1, h2, -⟩ := smulC_spec gi (2 : F) hgi
  obtain ⟨h3, h4⟩ := subC_spec (smulC gi 2) (mulC (mulC gi gi) f) h2
  rw [(mulC_spec _ _).1, (mulC_spec _ _).1, h1] at h3
  have h5 : 2 * N = 2 ^ (i + 1) := by rw [hN, pow_succ]; omega
  have hpos : 1 ≤ 2 ^ (i + 1) := Nat.one_le_two_pow
  have h6 := truncC_dvd (subC (smulC gi 2) (mulC (mulC gi gi) f)) (2 ^ (i + 1)) hpos h4
  refine ⟨?_, (truncC_spec _ _ hpos h4).2⟩
  obtain ⟨T, hT⟩ : ∃ T, polyOf (truncC (subC (smulC gi 2) (mulC (mulC gi gi) f)) (2 ^ (i + 1))) = T :=
    ⟨_, rfl⟩
  simp only
  rw [hT] at h6 ⊢
  rw [h3, ← h5] at h6
  have h7 : X ^ (2 * N) ∣ (1 - polyOf f * polyOf gi) * (1 - polyOf f * polyOf gi) := by
    rw [two_mul, pow_add]; exact mul_dvd_mul h h
  have h8 : 1 - polyOf f * T = (1 - polyOf f * polyOf gi) * (1 - polyOf f * polyOf gi) +
      polyOf f * (C 2 * polyOf gi - polyOf gi * polyOf gi * polyOf f - T) := by
    have : (C 2 : F[X]) = 2 := rfl
    rw [this]; ring
  rw [h8]
  exact dvd_add h7 (Dvd.dvd.mul_left h6 _)

theorem polyOf_one : polyOf ([1] : List F) = 1 := by
  rw [polyOf_eq_iff]; intro n
  rw [coeff_one]
  cases n <;> simp

theorem newtonC_spec (f : List F) (h0 : (polyOf f).coeff 0 = 1) (k : ℕ) :
    X ^ (2 ^ k) ∣ 1 - polyOf f * polyOf (newtonC f k) ∧ newtonC f k ≠ [] := by
  induction k with
  | zero =>
    refine ⟨?_, by simp [newtonC]⟩
    simp only [newtonC, List.range_zero, List.foldl_nil, polyOf_one, mul_one, pow_zero, pow_one]
    rw [X_dvd_iff]; simp [h0]
  | succ k ih =>
    have h1 : newtonC f (k + 1) = newtonStep f (newtonC f k) (k + 1) := by
      simp [newtonC, List.range_succ]
    rw [h1, pow_succ, mul_comm]
    exact newtonStep_spec f _ k ih.2 _ rfl ih.1

theorem polyOf_zeros_append (e : ℕ) (s : List F) :
    polyOf (List.replicate e 0 ++ s) = X ^ e * polyOf s := by
  rw [polyOf_eq_iff]; intro n
  rw [coeff_X_pow_mul']
  split_ifs with h
  · rw [polyOf_coeff, List.getD_eq_getElem?_getD, List.getElem?_append_right (by simpa using h),
      List.getD_eq_getElem?_getD]; simp
  · rw [List.getD_eq_getElem?_getD, List.getElem?_append_left (by simpa using h),
      List.getElem?_replicate, if_pos (by omega)]; rfl

theorem reflect_pad (S : F[X]) (m : ℕ) (h : S.natDegree ≤ m) :
    X ^ (m - S.natDegree) * reflect S.natDegree S = reflect m S := by
  have := reflect_mul S 1 (F := S.natDegree) (G := m - S.natDegree) le_rfl (by simp)
  rw [mul_one, reflect_one, Nat.add_sub_cancel' h] at this
  rw [this, mul_comm]

/-- The algebra behind the division with a reversed inverse. -/
theorem reversed_quotient (A B G : F[X]) (hB : B.Monic) (m : ℕ) (hm : A.natDegree = B.natDegree + m)
    (hG : X ^ (m + 1) ∣ 1 - reflect B.natDegree B * G) (j : ℕ) :
    (if j < m + 1 then (reflect A.natDegree A * G).coeff j else 0) = (reflect m (A /ₘ B)).coeff j := by
  have hQ : (A /ₘ B).natDegree = m := by rw [natDegree_divByMonic _ hB]; omega
  have hA := modByMonic_add_div A B
  have hR := degree_modByMonic_lt A hB
  have h1 : reflect A.natDegree A = reflect A.natDegree (A %ₘ B) +
      reflect B.natDegree B * reflect m (A /ₘ B) := by
    conv_lhs => rw [← hA]
    rw [reflect_add, hA, hm, reflect_mul B _ le_rfl hQ.le]
  have h2 : X ^ (m + 1) ∣ reflect A.natDegree (A %ₘ B) := by
    rw [X_pow_dvd_iff]; intro d hd
    rw [coeff_reflect, revAt_le (by omega)]
    apply coeff_eq_zero_of_degree_lt
    refine lt_of_lt_of_le hR ?_
    rw [degree_eq_natDegree hB.ne_zero]
    exact_mod_cast (by omega : B.natDegree ≤ A.natDegree - d)
  have h3 : X ^ (m + 1) ∣ reflect A.natDegree A * G - reflect m (A /ₘ B) := by
    have : reflect A.natDegree A * G - reflect m (A /ₘ B) =
        reflect A.natDegree (A %ₘ B) * G - reflect m (A /ₘ B) * (1 - reflect B.natDegree B * G) := by
      rw [h1]; ring
    rw [this]
    exact dvd_sub (Dvd.dvd.mul_right h2 _) (Dvd.dvd.mul_left hG _)
  split_ifs with hj
  · rw [X_pow_dvd_iff] at h3
    have := h3 j hj
    rw [coeff_sub, sub_eq_zero] at this
    exact this
  · rw [coeff_reflect, revAt_eq_self_of_lt (by omega), coeff_eq_zero_of_natDegree_lt (by omega)]

/-- `fast_euclidean_division` returns quotient and remainder, whenever the divisor is not zero and
the dividend is not zero or the divisor not constant. -/
theorem divC_ok (a z : List F) (ha : a ≠ []) (hz : polyOf z ≠ 0)
    (h : polyOf a ≠ 0 ∨ 0 < (polyOf z).natDegree) :
    ∃ q r, divC a z = .ok (q, r) ∧ polyOf a = polyOf z * polyOf q + polyOf r ∧
      (polyOf r).degree < (polyOf z).degree ∧ q ≠ [] ∧ r ≠ [] := by
  have hz0 : z ≠ [] := by rintro rfl; simp [polyOf] at hz
  unfold divC
  rw [if_neg (by simp [ha, hz0])]
  by_cases hlt : degC a < degC z
  · rw [if_pos hlt]
    refine ⟨[0], a, rfl, ?_, ?_, by simp, ha⟩
    · have : polyOf ([0] : List F) = 0 := polyOf_replicate 1
      rw [this]; ring
    · rw [degC_eq, degC_eq] at hlt
      exact degree_lt_degree hlt
  · rw [if_neg hlt]
    have hA : polyOf a ≠ 0 := by
      rcases h with h | h
      · exact h
      · rintro h0
        rw [degC_eq, degC_eq, h0] at hlt; simp at hlt; omega
    obtain ⟨b, hb1, hb2, hb3, hb4, hb5⟩ := shrink_ok hz
    rw [hb1]
    simp only [bind, Except.bind]
    obtain ⟨b', hb'⟩ : ∃ b', sdivC b (b.getLastD 0) = b' := ⟨_, rfl⟩
    rw [hb']
    have hb6 : polyOf b' = C ((polyOf z).leadingCoeff)⁻¹ * polyOf z ∧ b' ≠ [] := by
      rw [← hb', sdivC_eq, hb4, ← hb2]
      exact ⟨(smulC_spec b _ hb3).1, (smulC_spec b _ hb3).2.1⟩
    have hlead : (polyOf z).leadingCoeff ≠ 0 := leadingCoeff_ne_zero.2 hz
    have hmon : (polyOf b').Monic := by
      rw [hb6.1, mul_comm]; exact monic_mul_leadingCoeff_inv hz
    have hBne : polyOf b' ≠ 0 := hmon.ne_zero
    have hdeg : (polyOf b').natDegree = (polyOf z).natDegree := by
      rw [hb6.1, natDegree_C_mul (inv_ne_zero hlead)]
    obtain ⟨f, hf1, hf2, hf3⟩ := rev_ok hBne
    rw [hf1]
    simp only
    obtain ⟨s, hs1, hs2, hs3⟩ := rev_ok hA
    rw [hs1]
    simp only
    obtain ⟨m, hm⟩ : ∃ m, degC a - degC b' = m := ⟨_, rfl⟩
    rw [hm]
    have hm' : (polyOf a).natDegree = (polyOf b').natDegree + m := by
      rw [degC_eq, degC_eq] at hm hlt; omega
    obtain ⟨g, hg⟩ : ∃ g, newtonC f (Nat.clog 2 (m + 1)) = g := ⟨_, rfl⟩
    rw [hg]
    have hf0 : (polyOf f).coeff 0 = 1 := by
      rw [hf2, coeff_reflect, revAt_zero]; exact hmon
    obtain ⟨hg1, hg2⟩ := newtonC_spec f hf0 (Nat.clog 2 (m + 1))
    rw [hg] at hg1 hg2
    have hg3 : X ^ (m + 1) ∣ 1 - reflect (polyOf b').natDegree (polyOf b') * polyOf g := by
      rw [← hf2]
      exact (pow_dvd_pow X (Nat.le_pow_clog (by norm_num) _)).trans hg1
    obtain ⟨t, ht⟩ : ∃ t, truncC (mulC s g) (m + 1) = t := ⟨_, rfl⟩
    obtain ⟨ht1, ht2⟩ := truncC_spec (mulC s g) (m + 1) (by omega) (mulC_spec s g).2
    rw [ht] at ht1 ht2 ⊢
    have hT : polyOf t = reflect m (polyOf a /ₘ polyOf b') := by
      ext j
      rw [ht1, (mulC_spec s g).1, hs2]
      exact reversed_quotient _ _ _ hmon m hm' hg3 j
    have hQdeg : (polyOf a /ₘ polyOf b').natDegree = m := by
      rw [natDegree_divByMonic _ hmon]; omega
    have hQ0 : polyOf a /ₘ polyOf b' ≠ 0 := by
      intro h0
      have h1 := modByMonic_add_div (polyOf a) (polyOf b')
      rw [h0, mul_zero, add_zero] at h1
      have h2 := degree_modByMonic_lt (polyOf a) hmon
      rw [h1] at h2
      have := natDegree_lt_natDegree hA h2
      omega
    have hTne : polyOf t ≠ 0 := by
      rw [hT]; exact fun h => hQ0 (reflect_eq_zero_iff.1 h)
    obtain ⟨u, hu1, hu2, hu3⟩ := rev_ok hTne
    rw [hu1]
    simp only
    have hTdeg : (polyOf t).natDegree ≤ m := by
      rw [natDegree_le_iff_coeff_eq_zero]; intro n hn
      rw [ht1, if_neg (by omega)]
    obtain ⟨v, hv⟩ : ∃ v, List.replicate (m - degC t) 0 ++ u = v := ⟨_, rfl⟩
    rw [hv]
    have hV : polyOf v = polyOf a /ₘ polyOf b' := by
      rw [← hv, polyOf_zeros_append, hu2, degC_eq, reflect_pad _ _ hTdeg, hT, reflect_reflect]
    have hv0 : v ≠ [] := by rw [← hv]; simp [hu3]
    refine ⟨_, _, rfl, ?_, ?_, ?_, (subC_spec a _ ha).2⟩
    · rw [(subC_spec a _ ha).1, (mulC_spec _ _).1, hV, sdivC_eq, (smulC_spec v _ hv0).1, lead_getD, hV,
        hb6.1]
      ring
    · rw [(subC_spec a _ ha).1, (mulC_spec _ _).1, hV]
      have h1 := modByMonic_add_div (polyOf a) (polyOf b')
      have h2 : polyOf a - polyOf b' * (polyOf a /ₘ polyOf b') = polyOf a %ₘ polyOf b' := by
        linear_combination -h1
      rw [h2]
      refine lt_of_lt_of_eq (degree_modByMonic_lt (polyOf a) hmon) ?_
      rw [degree_eq_natDegree hBne, degree_eq_natDegree hz, hdeg]
    · rw [sdivC_eq]; exact (smulC_spec v _ hv0).2.1

theorem divC_zero_divisor (a z : List F) (ha : a ≠ []) (hz0 : z ≠ []) (hz : polyOf z = 0) :
    divC a z = .error .undefined := by
  unfold divC
  rw [if_neg (by simp [ha, hz0]), if_neg (by rw [degC_eq z, hz]; simp), shrink_zero hz]
  rfl

theorem divC_zero_by_constant (a z : List F) (ha0 : a ≠ []) (ha : polyOf a = 0) (hz : polyOf z ≠ 0)
    (hc : (polyOf z).natDegree = 0) : divC a z = .error .undefined := by
  have hz0 : z ≠ [] := by rintro rfl; simp [polyOf] at hz
  unfold divC
  rw [if_neg (by simp [ha0, hz0]), if_neg (by rw [degC_eq z, hc]; simp)]
  obtain ⟨b, hb1, hb2, hb3, hb4, hb5⟩ := shrink_ok hz
  rw [hb1]
  simp only [bind, Except.bind]
  have hlead : (polyOf z).leadingCoeff ≠ 0 := leadingCoeff_ne_zero.2 hz
  have hB : polyOf (sdivC b (b.getLastD 0)) ≠ 0 := by
    rw [sdivC_eq, (smulC_spec b _ hb3).1, hb2, hb4]
    exact mul_ne_zero (C_ne_zero.2 (inv_ne_zero hlead)) hz
  obtain ⟨f, hf1, hf2, hf3⟩ := rev_ok hB
  rw [hf1, rev_zero ha]

end PolyC

end FireFly
