import Verif.Props.RatMultiProps
/-!
# C44: examples
-/
set_option linter.all false
namespace FireFly.RMulti
open MvPolynomial

/-- `gt` on rational numbers -/
def exGtQ (a b : ℚ) : Bool := decide (|b| < |a|)

lemma exGtQ_spec : PivotOrder exGtQ := by
  constructor
  · intro x y h
    have h : |y| < |x| := by simpa [exGtQ] using h
    intro h0
    rw [h0, abs_zero] at h
    exact absurd (abs_nonneg y) (not_le.mpr h)
  · intro x h
    simpa [exGtQ] using h

/-- `b x + a` in one variable -/
lemma fits_lin {a b : ℚ} (ha : 0 < a) (hb : 0 < b) {d : ℕ} (hd : 1 ≤ d) (hd2 : d < 2 ^ 31) :
    MPoly.Fits ({ n := 1, deg := some d, anchor := [2] } : MPoly.Cfg ℚ) [([1], b), ([0], a)] := by
  have hs : ∀ t ∈ ([([1], b), ([0], a)] : FFMap ℚ), MPoly.slice 1 [2] [([1], b), ([0], a)] 0 (t.1.take 0) = Polynomial.C b * Polynomial.X + Polynomial.C a := by
    intro t ht
    simp [MPoly.slice]
  have c3 : (Polynomial.C b * Polynomial.X + Polynomial.C a : Polynomial ℚ).natDegree = 1 := Polynomial.natDegree_linear hb.ne'
  have c4 : (Polynomial.C b * Polynomial.X + Polynomial.C a : Polynomial ℚ).support.card = 2 := by
    have : (Polynomial.C b * Polynomial.X + Polynomial.C a : Polynomial ℚ) = Polynomial.C b * Polynomial.X ^ 1 + Polynomial.C a * Polynomial.X ^ 0 := by simp
    rw [this, Polynomial.card_support_binomial (by norm_num) hb.ne' ha.ne']
  refine ⟨by norm_num, ⟨by simp, by simp⟩, ?_, by simp, ?_, ?_, ?_, Or.inl rfl, ?_⟩
  · intro t ht
    simp only [List.mem_cons, List.not_mem_nil, or_false] at ht
    rcases ht with rfl | rfl
    · exact hb.ne'
    · exact ha.ne'
  · intro d' hd'
    obtain rfl : d = d' := by simpa using hd'
    refine ⟨hd2, ?_⟩
    intro t ht
    simp only [List.mem_cons, List.not_mem_nil, or_false] at ht
    rcases ht with rfl | rfl <;> simp <;> omega
  · intro b hb; cases hb
  · intro t ht
    simp only [List.mem_cons, List.not_mem_nil, or_false] at ht
    rcases ht with rfl | rfl <;> simp
  · refine ⟨?_, ?_, ?_, ?_, ?_, ?_⟩
    · intro s hs'
      have hs' : s < 1 := hs'
      interval_cases s; norm_num
    · intro s hs' t ht t' ht' _
      have hs' : s < 1 := hs'
      interval_cases s; simp
    · intro s hs' t ht j h1 h2
      have hs' : s < 1 := hs'
      interval_cases s
      simp only [List.mem_cons, List.not_mem_nil, or_false] at ht
      have h3 : j ≤ 2 := by
        rcases ht with rfl | rfl <;> simp at h2 <;> omega
      interval_cases j <;> norm_num
    · intro s hs' t ht
      have hs' : s < 1 := hs'
      interval_cases s
      show (MPoly.slice 1 [2] _ 0 (t.1.take 0)).coeff _ ≠ 0
      rw [hs t ht]
      simp only [List.mem_cons, List.not_mem_nil, or_false] at ht
      rcases ht with rfl | rfl
      · simp [Polynomial.coeff_C, hb.ne']
      · simp [ha.ne']
    · intro _ s hs' t ht
      have hs' : s < 1 := hs'
      interval_cases s
      show MPoly.NoLowerDegree (2 : ℚ) (MPoly.slice 1 [2] _ 0 (t.1.take 0))
      rw [hs t ht]
      refine MPoly.noLower_le_one ?_ (by omega) (fun _ => ?_)
      · simp; positivity
      · intro h
        simp only [Polynomial.eval_add, Polynomial.eval_mul, Polynomial.eval_C, Polynomial.eval_X] at h
        nlinarith
    · intro _ s hs' t ht
      have hs' : s < 1 := hs'
      interval_cases s
      show MPoly.NoShortRecurrence (2 : ℚ) (MPoly.slice 1 [2] _ 0 (t.1.take 0))
      rw [hs t ht]
      intro r hr l
      rw [c4] at hr
      interval_cases r
      · exact ⟨0, le_rfl, by omega, by simp; positivity⟩
      · by_contra hall
        push Not at hall
        have e1 := hall 1 le_rfl (by omega)
        have e2 := hall 2 (by omega) (by omega)
        norm_num at e1 e2
        have h2 : (b * 2 + a) * (b * 8 + a) = (b * 4 + a) * (b * 4 + a) := by
          have h1 : b * 8 + a = - l 1 * (b * 4 + a) := by linarith
          have h2 : b * 4 + a = - l 1 * (b * 2 + a) := by linarith
          rw [h1]
          nth_rw 2 [h2]; ring
        nlinarith [mul_pos ha hb]

/-- one monomial of degree at most one in one variable -/
lemma fits_mono {e : ℕ} (he : e ≤ 1) {d : ℕ} (hd : 1 ≤ d) (hd2 : d < 2 ^ 31) :
    MPoly.Fits ({ n := 1, deg := some d, anchor := [2] } : MPoly.Cfg ℚ) [([e], (1 : ℚ))] := by
  have hs : ∀ t ∈ ([([e], (1 : ℚ))] : FFMap ℚ), MPoly.slice 1 [2] ([([e], (1 : ℚ))] : FFMap ℚ) 0 (t.1.take 0) = Polynomial.X ^ e := by
    intro t ht
    simp [MPoly.slice]
  refine ⟨by norm_num, ⟨by simp, by simp⟩, by simp, by simp, ?_, ?_, ?_, Or.inl rfl, ?_⟩
  · intro d' hd'
    obtain rfl : d = d' := by simpa using hd'
    refine ⟨hd2, ?_⟩
    intro t ht
    rw [List.mem_singleton.mp ht]; simp; omega
  · intro b hb; cases hb
  · intro t ht
    rw [List.mem_singleton.mp ht]; simp; omega
  · refine ⟨?_, ?_, ?_, ?_, ?_, ?_⟩
    · intro s hs'
      have hs' : s < 1 := hs'
      interval_cases s; norm_num
    · intro s hs' t ht t' ht' _
      have hs' : s < 1 := hs'
      interval_cases s; simp
    · intro s hs' t ht j h1 h2
      have hs' : s < 1 := hs'
      interval_cases s
      have h3 : j ≤ 2 := by
        rw [List.mem_singleton.mp ht] at h2; simp at h2; omega
      interval_cases j <;> norm_num
    · intro s hs' t ht
      have hs' : s < 1 := hs'
      interval_cases s
      show (MPoly.slice 1 [2] _ 0 (t.1.take 0)).coeff _ ≠ 0
      rw [hs t ht, List.mem_singleton.mp ht]
      simp
    · intro _ s hs' t ht
      have hs' : s < 1 := hs'
      interval_cases s
      show MPoly.NoLowerDegree (2 : ℚ) (MPoly.slice 1 [2] _ 0 (t.1.take 0))
      rw [hs t ht]
      refine MPoly.noLower_le_one (by simp) (by simpa using he) (fun h => ?_)
      have : e = 1 := by simpa using h
      subst this; norm_num
    · intro _ s hs' t ht
      have hs' : s < 1 := hs'
      interval_cases s
      show MPoly.NoShortRecurrence (2 : ℚ) (MPoly.slice 1 [2] _ 0 (t.1.take 0))
      rw [hs t ht]
      intro r hr l
      have : (Polynomial.X ^ e : Polynomial ℚ).support.card = 1 := by
        rw [Polynomial.support_X_pow e]; simp
      rw [this] at hr
      interval_cases r
      exact ⟨0, le_rfl, by omega, by simp⟩

lemma mono_single (v : ℚ) : monomial ([1] : List ℕ).toFinsupp v = C v * X 0 := by
  have : ([1] : List ℕ).toFinsupp = Finsupp.single 0 1 := by
    ext i; rcases i with _ | i <;> simp [Finsupp.single_apply]
  rw [this, C_mul_X_eq_monomial]
lemma mono_zero (v : ℚ) : monomial ([0] : List ℕ).toFinsupp v = C v := by
  rw [show ([0] : List ℕ).toFinsupp = 0 from zeros_toFinsupp 1]; rfl

lemma target_lin {a b : ℚ} (ha : 0 < a) (hb : 0 < b) {d : ℕ} (hd : 1 ≤ d) (hd2 : d < 2 ^ 31) :
    Target ({ n := 1, deg := some d, anchor := [2] } : MPoly.Cfg ℚ) (C a * X 0 + C b * X 1) := by
  refine ⟨[([1], b), ([0], a)], ?_, Or.inr (fits_lin ha hb hd hd2)⟩
  unfold denote dehomogenize
  simp [mono_single, mono_zero]
  ring

lemma target_x {d : ℕ} (hd : 1 ≤ d) (hd2 : d < 2 ^ 31) : Target ({ n := 1, deg := some d, anchor := [2] } : MPoly.Cfg ℚ) (X 0) := by
  refine ⟨[([0], 1)], ?_, Or.inr (fits_mono (by norm_num) hd hd2)⟩
  unfold denote dehomogenize
  simp [mono_zero]

lemma target_xy {d : ℕ} (hd : 1 ≤ d) (hd2 : d < 2 ^ 31) : Target ({ n := 1, deg := some d, anchor := [2] } : MPoly.Cfg ℚ) (X 0 * X 1) := by
  refine ⟨[([1], 1)], ?_, Or.inr (fits_mono (by norm_num) hd hd2)⟩
  unfold denote dehomogenize
  simp [mono_single]

lemma card_lin {a b : ℚ} (ha : 0 < a) (hb : 0 < b) : (dehomogenize (C a * X 0 + C b * X 1 : MvPolynomial ℕ ℚ)).support.card ≤ 2 := by
  have : dehomogenize (C a * X 0 + C b * X 1 : MvPolynomial ℕ ℚ) = denote [([1], b), ([0], a)] := by
    unfold denote dehomogenize
    simp [mono_single, mono_zero]
    ring
  rw [this, ← support_card (n := 1) (fits_lin ha hb le_rfl (by norm_num)).wf (fits_lin ha hb le_rfl (by norm_num)).nonzero]
  simp

lemma card_x : (dehomogenize (X 0 : MvPolynomial ℕ ℚ)).support.card ≤ 2 := by
  have : dehomogenize (X 0 : MvPolynomial ℕ ℚ) = 1 := by unfold dehomogenize; simp
  rw [this, show (1 : MvPolynomial ℕ ℚ) = monomial 0 1 from rfl]
  exact (Finset.card_le_card support_monomial_subset).trans (by simp)

lemma card_xy : (dehomogenize (X 0 * X 1 : MvPolynomial ℕ ℚ)).support.card ≤ 2 := by
  have : dehomogenize (X 0 * X 1 : MvPolynomial ℕ ℚ) = X 0 := by unfold dehomogenize; simp
  rw [this, support_X]; simp

lemma card_one : (dehomogenize (1 : MvPolynomial ℕ ℚ)).support.card ≤ 2 := by
  have : dehomogenize (1 : MvPolynomial ℕ ℚ) = 1 := by unfold dehomogenize; simp
  rw [this, show (1 : MvPolynomial ℕ ℚ) = monomial 0 1 from rfl]
  exact (Finset.card_le_card support_monomial_subset).trans (by simp)

lemma card_zero : (dehomogenize (0 : MvPolynomial ℕ ℚ)).support.card ≤ 2 := by unfold dehomogenize; simp

lemma hom_lin (a b : ℚ) : (C a * X 0 + C b * X 1 : MvPolynomial ℕ ℚ).IsHomogeneous 1 := by
  have h : ∀ (a : ℚ) (i : ℕ), (C a * X i : MvPolynomial ℕ ℚ).IsHomogeneous 1 := fun a i => by simpa using (isHomogeneous_C ℕ a).mul (isHomogeneous_X ℚ i)
  exact (h a 0).add (h b 1)

/-- a homogeneous polynomial and a constant -/
lemma comp_split {p : MvPolynomial ℕ ℚ} {m : ℕ} (hm : 1 ≤ m) (hp : p.IsHomogeneous m) (a : ℚ) (k : ℕ) :
    homogeneousComponent k (p + C a) = if k = m then p else if k = 0 then C a else 0 := by
  rw [map_add, homogeneousComponent_of_mem ((mem_homogeneousSubmodule _ _).mpr hp), homogeneousComponent_of_mem ((mem_homogeneousSubmodule _ _).mpr (isHomogeneous_C ℕ a))]
  split_ifs <;> first | omega | simp_all

/-! ### `x / (x + y)` with the shift `(1, 0)` -/

def exShift : Cfg ℚ := { n := 2, shift := [1, 0], anchor := [2], gt := exGtQ, fuel := 100 }

lemma exShift_part (a b : ℚ) (k : ℕ) : part exShift.shift (C a * X 0 + C b * X 1) k = if k = 1 then C a * X 0 + C b * X 1 else if k = 0 then C a else 0 := by
  rw [← comp_split le_rfl (hom_lin a b) a]
  unfold part
  congr 1
  simp [exShift]
  ring

lemma exShift_side {a b : ℚ} (ha : 0 < a) (hx : (b = 0 ∧ a = 1) ∨ 0 < b) : SideOK exShift none (C a * X 0 + C b * X 1) 1 := by
  have hT : Target (exShift.poly none 1) (C a * X 0 + C b * X 1) ∧ (dehomogenize (C a * X 0 + C b * X 1 : MvPolynomial ℕ ℚ)).support.card ≤ 2 := by
    rcases hx with ⟨rfl, rfl⟩ | hb
    · simp only [map_one, one_mul, map_zero, zero_mul, add_zero]
      exact ⟨target_x le_rfl (by norm_num), card_x⟩
    · exact ⟨target_lin ha hb le_rfl (by norm_num), card_lin ha hb⟩
  have hC : (dehomogenize (C a : MvPolynomial ℕ ℚ)).support.card ≤ 2 := by
    have : dehomogenize (C a : MvPolynomial ℕ ℚ) = monomial 0 a := by unfold dehomogenize; simp [← C_apply]
    rw [this]
    exact (Finset.card_le_card support_monomial_subset).trans (by simp)
  have hc : ∀ k, homogeneousComponent k (C a * X 0 + C b * X 1 : MvPolynomial ℕ ℚ) = if k = 1 then C a * X 0 + C b * X 1 else 0 :=
    fun k => homogeneousComponent_of_mem ((mem_homogeneousSubmodule _ _).mpr (hom_lin a b))
  have hne : (C a * X 0 + C b * X 1 : MvPolynomial ℕ ℚ) ≠ 0 := by
    intro h0
    have := congrArg (eval (fun i => if i = 0 then (1 : ℚ) else 0)) h0
    simp at this
    exact ha.ne' this
  have hb : 0 ≤ b := by rcases hx with ⟨rfl, -⟩ | hb <;> linarith
  refine ⟨?_, ?_, ?_, ?_, ?_, by norm_num, ?_, ?_⟩
  · intro k hk
    rw [exShift_part, if_neg (by omega), if_neg (by omega)]
  · rw [exShift_part, if_pos rfl]; exact hne
  · intro k hk
    rw [hc]
    split
    · rename_i h1; rw [exShift_part, if_pos h1] at hk; exact hk
    · rfl
  · intro k hk
    rw [exShift_part] at hk ⊢
    split_ifs at hk ⊢
    · simp [dir, exShift]
      positivity
    · simpa using ha.ne'
    · exact absurd rfl hk
  · intro k h1 hk
    rw [exShift_part] at hk
    have hk1 : k = 1 := by
      by_contra h0
      rw [if_neg h0, if_neg (by omega)] at hk
      exact hk rfl
    subst hk1
    rw [exShift_part, hc, if_pos rfl, if_pos rfl]
    exact ⟨hT.1, hT.1⟩
  · intro i h1 h2
    have : i = 1 := by omega
    subst this; norm_num
  · intro k hk
    have hcard : ∀ p : MvPolynomial ℕ ℚ, (dehomogenize p).support.card ≤ 2 → bnd exShift k p + 2 ≤ exShift.fuel := by
      intro p hp
      unfold bnd
      have : (2 * (k + 1) + 1 + 1) * (dehomogenize p).support.card ≤ 6 * 2 := Nat.mul_le_mul (by omega) hp
      show 1 * ((2 * (k + 1) + 1 + 1) * (dehomogenize p).support.card) + 2 ≤ 100
      omega
    rw [exShift_part, hc]
    constructor
    · split_ifs
      · exact hcard _ hT.2
      · exact hcard _ hC
      · exact hcard _ card_zero
    · split_ifs
      · exact hcard _ hT.2
      · exact hcard _ card_zero

noncomputable def exNum : MvPolynomial ℕ ℚ := C 1 * X 0 + C 0 * X 1
noncomputable def exDen : MvPolynomial ℕ ℚ := C 1 * X 0 + C 1 * X 1

lemma exShift_prob : Prob exShift exNum exDen 1 1 := by
  refine ⟨rfl, le_rfl, exShift_side one_pos (Or.inl ⟨rfl, rfl⟩), exShift_side one_pos (Or.inr one_pos), ?_⟩
  show eval _ exDen = 1
  simp [exDen, exShift]

lemma exShift_num (t : ℚ) (ord : List ℕ) : eval (pt exShift.shift exShift.anchor t ord) exNum = t + 1 := by
  simp [exNum, pt, dir, exShift]

lemma exShift_den (t : ℚ) (ord : List ℕ) : eval (pt exShift.shift exShift.anchor t ord) exDen = t + 1 + t * 2 ^ ord.getD 0 0 := by
  simp [exDen, pt, dir, exShift]

lemma exShift_value (t : ℚ) (ord : List ℕ) : valueOf exShift.shift exShift.anchor exNum exDen t ord = (t + 1) / (t + 1 + t * 2 ^ ord.getD 0 0) := by
  unfold valueOf; rw [exShift_num, exShift_den]

lemma sub_singleton {A : Finset ℕ} {k : ℕ} (h : ∀ x ∈ A, x = k) : A = ∅ ∨ A = {k} := by
  rw [← Finset.subset_singleton_iff]; intro x hx; rw [h x hx]; simp

/-- all probes with positive `t` are good -/
lemma exShift_good (G : ℚ → List ℕ → Prop) (hG : ∀ t ord, G t ord → 0 < t) : GoodPts exShift exNum exDen G := by
  have hpos : ∀ (t : ℚ) (ord : List ℕ), 0 < t → 0 < t + 1 + t * 2 ^ ord.getD 0 0 := fun t ord h => by positivity
  refine ⟨?_, ?_⟩
  · intro t ord h
    rw [exShift_den]
    exact (hpos t ord (hG t ord h)).ne'
  · intro ord A B ts hA hB hnd hts hlen a b heq
    have hpart : ∀ (a b : ℚ) k, 1 ≤ k → part exShift.shift (C a * X 0 + C b * X 1) k ≠ 0 → k = 1 := by
      intro a b k h1 hk
      rw [exShift_part] at hk
      by_contra h0
      rw [if_neg h0, if_neg (by omega)] at hk
      exact hk rfl
    have hA' := sub_singleton (fun k hk => hpart _ _ k (hA k hk).1 (hA k hk).2)
    have hB' := sub_singleton (fun k hk => hpart _ _ k (hB k hk).1 (hB k hk).2)
    have heq' : ∀ t ∈ ts, 0 < t ∧ (∑ k ∈ A, a k * t ^ k) * (t + 1 + t * 2 ^ ord.getD 0 0) = (t + 1) * ∑ k ∈ B, b k * t ^ k := by
      intro t ht
      have h0 := hG t ord (hts t ht)
      refine ⟨h0, ?_⟩
      have h1 := heq t ht
      have h2 := (hpos t ord h0).ne'
      rw [exShift_value] at h1
      rw [h1]; field_simp
    have hy : (0 : ℚ) < 2 ^ ord.getD 0 0 := by positivity
    generalize (2 : ℚ) ^ ord.getD 0 0 = y at heq' hy
    rcases hA' with rfl | rfl <;> rcases hB' with rfl | rfl
    · simp
    · refine ⟨by simp, ?_⟩
      intro k hk
      rw [Finset.mem_singleton.mp hk]
      obtain ⟨t, rfl⟩ := List.length_eq_one_iff.mp (by simpa using hlen)
      obtain ⟨h1, h2⟩ := heq' t (by simp)
      simp only [Finset.sum_empty, Finset.sum_singleton, zero_mul, pow_one] at h2
      have : t + 1 ≠ 0 := by linarith
      have h3 : b 1 * t = 0 := by
        rcases mul_eq_zero.mp h2.symm with h | h
        · exact absurd h this
        · exact h
      exact (mul_eq_zero.mp h3).resolve_right h1.ne'
    · refine ⟨?_, by simp⟩
      intro k hk
      rw [Finset.mem_singleton.mp hk]
      obtain ⟨t, rfl⟩ := List.length_eq_one_iff.mp (by simpa using hlen)
      obtain ⟨h1, h2⟩ := heq' t (by simp)
      simp only [Finset.sum_empty, Finset.sum_singleton, mul_zero, pow_one] at h2
      have h3 : t + 1 + t * y ≠ 0 := by positivity
      exact (mul_eq_zero.mp ((mul_eq_zero.mp h2).resolve_right h3)).resolve_right h1.ne'
    · obtain ⟨t, u, rfl⟩ := List.length_eq_two.mp (by simpa using hlen)
      obtain ⟨h1, h2⟩ := heq' t (by simp)
      obtain ⟨h3, h4⟩ := heq' u (by simp)
      simp only [Finset.sum_singleton, pow_one] at h2 h4
      have htu : t - u ≠ 0 := by
        intro h
        have : t = u := by linarith
        simp [this] at hnd
      have h5 : a 1 * (t + 1 + t * y) = (t + 1) * b 1 := by
        apply mul_left_cancel₀ h1.ne'; linarith
      have h6 : a 1 * (u + 1 + u * y) = (u + 1) * b 1 := by
        apply mul_left_cancel₀ h3.ne'; linarith
      have h7 : (a 1 * (1 + y) - b 1) * (t - u) = 0 := by linarith
      have h8 : a 1 * (1 + y) = b 1 := by
        have := (mul_eq_zero.mp h7).resolve_right htu
        linarith
      rw [← h8] at h5
      have h9 : a 1 * y = 0 := by linarith
      have h10 : a 1 = 0 := (mul_eq_zero.mp h9).resolve_right hy.ne'
      refine ⟨fun k hk => by rw [Finset.mem_singleton.mp hk]; exact h10, fun k hk => ?_⟩
      rw [Finset.mem_singleton.mp hk, ← h8, h10, zero_mul]

/-- the probes that are asked for, and more -/
def exProbes (k : ℕ) : List (ℚ × List ℕ) := [(1, [1]), (2, [1]), (3, [1]), (4, [1]), (5, [2]), (6, [2])] ++ (List.range k).map (fun i : ℕ => ((i : ℚ) + 7, [1]))

lemma exProbes_pos {k : ℕ} {q : ℚ × List ℕ} (h : q ∈ exProbes k) : 0 < q.1 := by
  unfold exProbes at h
  rcases List.mem_append.mp h with h | h
  · rename_i h0; clear h0; revert q; decide +kernel
  · obtain ⟨i, -, rfl⟩ := List.mem_map.mp h
    show (0 : ℚ) < i + 7
    positivity

lemma exProbes_nodup (k : ℕ) : (exProbes k).Nodup := by
  unfold exProbes
  rw [List.nodup_append]
  refine ⟨by decide +kernel, ?_, ?_⟩
  · refine List.Nodup.map ?_ List.nodup_range
    intro i j h
    simpa using h
  · intro a ha b hb hab
    obtain ⟨i, -, rfl⟩ := List.mem_map.mp hb
    have h1 : a.1 ≤ 6 := by clear hab; revert a; decide +kernel
    rw [hab] at h1
    have : (0 : ℚ) ≤ i := by positivity
    simp at h1
    linarith

def exRun : List (ℚ × ℚ × List ℕ) := [(1, 1 / 2, [1]), (2, 3 / 7, [1]), (3, 2 / 5, [1]), (4, 5 / 13, [1]), (5, 3 / 13, [2]), (6, 7 / 31, [2])]

lemma exRun_eq : withValues exShift exNum exDen (exProbes 0) = exRun := by
  unfold withValues exProbes exRun
  simp only [List.range_zero, List.map_nil, List.append_nil, List.map_cons, exShift_value]
  norm_num

lemma exRun_done : (exShift.feedAll exShift.init exRun).map (fun s => (s.result.isSome, s.ord)) = some (true, [1]) := by decide +kernel

lemma exThiele : (({} : Thiele ℚ).runChecked [(1 / 2, 1), (3 / 7, 2), (2 / 5, 3), (5 / 13, 4)]).map (fun r => (r.2, r.1.ti.length)) = some (true, 4) := by decide +kernel

lemma exProbes_first (k : ℕ) : first exShift exNum exDen (exProbes k) =
    [(1 / 2, 1), (3 / 7, 2), (2 / 5, 3), (5 / 13, 4)] ++ first exShift exNum exDen ((List.range k).map (fun i : ℕ => ((i : ℚ) + 7, [1]))) := by
  unfold exProbes
  rw [first_append]
  congr 1
  unfold first
  simp [List.filter_cons, ones, exShift_value]
  norm_num [exShift, exShift_value]

lemma exShift_thiele {k : ℕ} (hk : k < 2 ^ 31) : ThieleOK exShift exNum exDen 1 1 (first exShift exNum exDen (exProbes k)) := by
  obtain ⟨r, hr, hr2⟩ := Option.map_eq_some_iff.mp exThiele
  obtain ⟨h1, h2⟩ : r.2 = true ∧ r.1.ti.length = 4 := by simpa using hr2
  refine ⟨⟨r, ?_, ?_⟩, ?_, ?_, ?_, ?_⟩
  · rw [exProbes_first]
    have : r = (r.1, true) := Prod.ext rfl h1
    rw [this] at hr ⊢
    exact runChecked_true _ _ _ _ hr
  · intro _; rw [h2]; omega
  · intro q hq
    rw [exProbes_first] at hq
    simp at hq
    rw [← hq]; norm_num
  · intro q hq
    unfold first at hq
    obtain ⟨x, hx, rfl⟩ := List.mem_map.mp hq
    exact (exProbes_pos (List.mem_filter.mp hx).1).ne'
  · unfold first
    rw [List.length_map]
    refine lt_of_le_of_lt (List.length_filter_le _ _) ?_
    unfold exProbes
    simp
    omega
  · have e1 : line exShift.shift exShift.anchor (ones exShift) exNum = Polynomial.X + 1 := by
      unfold line
      simp [exNum, exShift, ones, dir]
    have e2 : line exShift.shift exShift.anchor (ones exShift) exDen = Polynomial.X + 1 + Polynomial.X * Polynomial.C 2 := by
      unfold line
      simp [exDen, exShift, ones, dir]
    rw [e1, e2]
    refine ⟨Polynomial.C (3 / 2), Polynomial.C (-1 / 2), ?_⟩
    apply Polynomial.funext
    intro x
    simp
    ring

/-- Six probes are enough for `x / (x + y)`, and the result is right. -/
example : ∃ s r, exShift.feedAll exShift.init (withValues exShift exNum exDen (exProbes 0)) = some s ∧ s.result = some r ∧ Good exShift exNum exDen r := by
  obtain ⟨s, e1, e2, -⟩ := C44_reconstruct (c := exShift) exGtQ_spec exShift_prob (exProbes 0) (exProbes_nodup 0)
    (exShift_good _ (fun t ord h => exProbes_pos h)) (exShift_thiele (by norm_num))
  rw [exRun_eq] at e1
  have := exRun_done
  rw [e1] at this
  obtain ⟨h1, -⟩ : s.result.isSome = true ∧ s.ord = [1] := by simpa using this
  obtain ⟨r, hr⟩ := Option.isSome_iff_exists.mp h1
  exact ⟨s, r, by rw [exRun_eq]; exact e1, hr, e2 r hr⟩

/-! ### the hypotheses of the second theorem hold as well -/

/-- `Answers`, computed -/
def answersB (c : Cfg ℚ) : St ℚ → List (ℚ × ℚ × List ℕ) → Bool
  | _, [] => true
  | s, q :: rest => decide (q.2.2 = s.ord) && match c.feed s q with
    | none => true
    | some s' => answersB c s' rest

lemma answersB_spec (c : Cfg ℚ) : ∀ (l : List (ℚ × ℚ × List ℕ)) (s : St ℚ), answersB c s l = true → Answers c s l := by
  intro l
  induction l with
  | nil => intro s _; trivial
  | cons q l ih =>
    intro s h
    rw [answersB, Bool.and_eq_true] at h
    refine ⟨fun _ => by simpa using h.1, ?_⟩
    intro s' hs'
    have := h.2
    rw [hs'] at this
    exact ih s' this

lemma answers_append (c : Cfg ℚ) (b : List (ℚ × ℚ × List ℕ)) : ∀ (a : List (ℚ × ℚ × List ℕ)) (s : St ℚ), Answers c s a → (∀ s', c.feedAll s a = some s' → Answers c s' b) → Answers c s (a ++ b) := by
  intro a
  induction a with
  | nil => intro s _ h; exact h s rfl
  | cons q a ih =>
    intro s h1 h2
    refine ⟨h1.1, ?_⟩
    intro s' hs'
    refine ih s' (h1.2 s' hs') ?_
    intro s'' h3
    apply h2
    unfold Cfg.feedAll at h3 ⊢
    rw [List.foldlM_cons, hs']
    exact h3

lemma answers_done (c : Cfg ℚ) {s : St ℚ} (h1 : s.result.isSome = true) (h2 : s.savedTi = []) : ∀ l : List (ℚ × ℚ × List ℕ), (∀ q ∈ l, q.2.2 = s.ord) → Answers c s l := by
  intro l
  induction l with
  | nil => intro _; trivial
  | cons q l ih =>
    intro h
    refine ⟨fun _ => h q (by simp), ?_⟩
    intro s' hs'
    have hd : ∀ k, c.drain k s = some s := by intro k; cases k <;> rw [Cfg.drain, h2] <;> rfl
    have : c.feed s q = some s := by
      unfold Cfg.feed Cfg.probe
      rw [if_pos h1]
      simp only [Option.bind_eq_bind, Option.bind_some]
      exact hd _
    rw [this] at hs'
    rw [← Option.some.inj hs']
    exact ih (fun x hx => h x (by simp [hx]))

lemma exRun_answers : answersB exShift exShift.init exRun = true := by decide +kernel
lemma exRun_saved : (exShift.feedAll exShift.init exRun).map (fun s => s.savedTi.length) = some 0 := by decide +kernel

lemma exProbes_answers (k : ℕ) : Answers exShift exShift.init (withValues exShift exNum exDen (exProbes k)) := by
  have e : withValues exShift exNum exDen (exProbes k) = exRun ++ withValues exShift exNum exDen ((List.range k).map (fun i : ℕ => ((i : ℚ) + 7, [1]))) := by
    rw [← exRun_eq]
    unfold withValues exProbes
    simp
  rw [e]
  apply answers_append
  · exact answersB_spec _ _ _ exRun_answers
  · intro s hs
    have h1 := exRun_done
    have h2 := exRun_saved
    rw [hs] at h1 h2
    obtain ⟨h3, h4⟩ : s.result.isSome = true ∧ s.ord = [1] := by simpa using h1
    refine answers_done _ h3 (by simpa using h2) _ ?_
    intro q hq
    unfold withValues at hq
    obtain ⟨x, hx, rfl⟩ := List.mem_map.mp hq
    obtain ⟨i, -, rfl⟩ := List.mem_map.mp hx
    exact h4.symm

lemma exShift_max : maxProbes exShift exNum exDen 1 1 ≤ 4006 := by
  have hb : ∀ (Q : MvPolynomial ℕ ℚ), SideOK exShift none Q 1 → needs exShift Q 1 ≤ 396 := by
    intro Q h
    unfold needs
    rw [Finset.sum_range_succ, Finset.sum_range_succ, Finset.sum_range_zero]
    obtain ⟨a1, a2⟩ := h.fuel 0 (by omega)
    obtain ⟨b1, b2⟩ := h.fuel 1 (by omega)
    have : exShift.fuel = 100 := rfl
    omega
  have h1 := hb exNum exShift_prob.okN
  have h2 := hb exDen exShift_prob.okD
  unfold maxProbes
  have : thieleMax 1 1 = 4 := rfl
  omega

/-- the hypotheses of `C44_complete` hold -/
example : ∃ s r, exShift.feedAll exShift.init (withValues exShift exNum exDen (exProbes 4000)) = some s ∧ s.result = some r ∧ Good exShift exNum exDen r :=
  C44_complete (c := exShift) exGtQ_spec exShift_prob (exProbes 4000) (exProbes_nodup 4000) (exShift_good _ (fun t ord h => exProbes_pos h)) (exShift_thiele (by norm_num))
    (exProbes_answers 4000) (by
      refine exShift_max.trans ?_
      unfold exProbes
      rw [List.length_append, List.length_map, List.length_range]
      simp)

end FireFly.RMulti
