import Verif.Spec.RatMulti
import Verif.Props.PolyShiftProps
/-! # Homogeneous parts of shifted polynomials -/
set_option linter.all false
namespace FireFly.RMulti
open MvPolynomial
variable {F : Type} [Field F] [DecidableEq F]

lemma part_eq (s : List F) (Q : MvPolynomial ℕ F) (k : ℕ) : part s Q k = homogeneousComponent k (shiftPoly s Q) := rfl

lemma eval_shiftPoly (s : List F) (Q : MvPolynomial ℕ F) (x : ℕ → F) : eval x (shiftPoly s Q) = eval (fun i => x i + s.getD i 0) Q := by
  unfold shiftPoly
  rw [aeval_def, eval_eval₂]
  simp only [algebraMap_eq]
  rw [show ((eval x).comp (C : F →+* MvPolynomial ℕ F)) = RingHom.id F by ext; simp]
  show eval _ Q = _
  congr 2
  funext i
  simp

lemma homog_deg {p : MvPolynomial ℕ F} {k : ℕ} (h : p.IsHomogeneous k) {d : ℕ →₀ ℕ} (hd : coeff d p ≠ 0) : d.degree = k := by
  have h1 : Finsupp.weight 1 d = k := h hd
  rw [Finsupp.degree_eq_weight_one]
  exact h1

lemma eval_homog {p : MvPolynomial ℕ F} {k : ℕ} (h : p.IsHomogeneous k) (t : F) (x : ℕ → F) : eval (fun j => t * x j) p = t ^ k * eval x p := by
  rw [eval_eq, eval_eq, Finset.mul_sum]
  apply Finset.sum_congr rfl
  intro d hd
  have h1 : d.degree = k := homog_deg h (mem_support_iff.mp hd)
  have h2 : ∏ i ∈ d.support, (t * x i) ^ d i = t ^ k * ∏ i ∈ d.support, x i ^ d i := by
    simp only [mul_pow, Finset.prod_mul_distrib]
    congr 1
    rw [Finset.prod_pow_eq_pow_sum, ← h1, Finsupp.degree_apply]
  rw [h2]; ring

/-- the value on the line as a polynomial in `t` -/
lemma eval_pt (s a : List F) (Q : MvPolynomial ℕ F) (m : ℕ) (hm : ∀ k, m < k → part s Q k = 0) (t : F) (ord : List ℕ) :
    eval (pt s a t ord) Q = ∑ k ∈ Finset.range (m + 1), eval (dir a ord) (part s Q k) * t ^ k := by
  have h1 : eval (pt s a t ord) Q = eval (fun j => t * dir a ord j) (shiftPoly s Q) := by
    rw [eval_shiftPoly]; rfl
  rw [h1]
  conv_lhs => rw [← sum_homogeneousComponent (shiftPoly s Q)]
  rw [map_sum]
  have h2 : ∀ k, eval (fun j => t * dir a ord j) (homogeneousComponent k (shiftPoly s Q)) = eval (dir a ord) (part s Q k) * t ^ k := by
    intro k
    rw [eval_homog (homogeneousComponent_isHomogeneous k _), mul_comm]; rfl
  simp only [h2]
  rcases le_total (shiftPoly s Q).totalDegree m with h | h
  · apply Finset.sum_subset (by intro k; simp; omega)
    intro k _ hk
    rw [Finset.mem_range] at hk
    rw [part_eq, homogeneousComponent_eq_zero _ _ (by omega)]; simp
  · symm
    apply Finset.sum_subset (by intro k; simp; omega)
    intro k _ hk
    rw [Finset.mem_range] at hk
    rw [hm k (by omega)]; simp

lemma shiftPoly_add (s : List F) (p q : MvPolynomial ℕ F) : shiftPoly s (p + q) = shiftPoly s p + shiftPoly s q := map_add _ _ _

lemma shiftPoly_sum (s : List F) {ι : Type} (S : Finset ι) (f : ι → MvPolynomial ℕ F) : shiftPoly s (∑ k ∈ S, f k) = ∑ k ∈ S, shiftPoly s (f k) := map_sum _ _ _

/-- all terms have a degree below `n` -/
def Lt (n : ℕ) (q : MvPolynomial ℕ F) : Prop := ∀ d, coeff d q ≠ 0 → d.degree < n

lemma Lt.zero (n : ℕ) : Lt n (0 : MvPolynomial ℕ F) := fun d h => absurd (coeff_zero d) h

lemma Lt.add {n : ℕ} {p q : MvPolynomial ℕ F} (hp : Lt n p) (hq : Lt n q) : Lt n (p + q) := by
  intro d h
  rw [coeff_add] at h
  by_cases h1 : coeff d p = 0
  · rw [h1, zero_add] at h; exact hq d h
  · exact hp d h1

lemma Lt.mono {n n' : ℕ} {p : MvPolynomial ℕ F} (hp : Lt n p) (h : n ≤ n') : Lt n' p := fun d hd => lt_of_lt_of_le (hp d hd) h

lemma Lt.mul {n l : ℕ} {p q : MvPolynomial ℕ F} (hp : Lt n p) (hq : Lt (l + 1) q) : Lt (n + l) (p * q) := by
  intro d h
  have h1 := MvPolynomial.support_mul p q (mem_support_iff.mpr h)
  obtain ⟨d1, h2, d2, h3, rfl⟩ := Finset.mem_add.mp h1
  have h4 := hp d1 (mem_support_iff.mp h2)
  have h5 := hq d2 (mem_support_iff.mp h3)
  rw [map_add]
  omega

lemma Lt.monomial (d : ℕ →₀ ℕ) (c : F) : Lt (d.degree + 1) (monomial d c : MvPolynomial ℕ F) := by
  intro e h
  rw [coeff_monomial] at h
  split_ifs at h with h1
  · rw [h1]; omega
  · exact absurd rfl h

lemma Lt.hc {n : ℕ} {q : MvPolynomial ℕ F} (h : Lt n q) {j : ℕ} (hj : n ≤ j) : homogeneousComponent j q = 0 := by
  ext d
  rw [coeff_homogeneousComponent, coeff_zero]
  split_ifs with h1
  · by_contra h2
    have := h d h2
    omega
  · rfl

lemma shift_monomial (s : List F) (d : ℕ →₀ ℕ) : ∀ c : F, ∃ q : MvPolynomial ℕ F, shiftPoly s (monomial d c) = monomial d c + q ∧ Lt d.degree q := by
  have hC : ∀ c : F, shiftPoly s (C c) = C c := fun c => by unfold shiftPoly; rw [aeval_C, algebraMap_eq]
  have hmul : ∀ p q : MvPolynomial ℕ F, shiftPoly s (p * q) = shiftPoly s p * shiftPoly s q := fun p q => map_mul _ p q
  have hX : ∀ i (e : ℕ), ∃ q : MvPolynomial ℕ F, shiftPoly s (X i ^ e) = X i ^ e + q ∧ Lt e q := by
    intro i e
    induction e with
    | zero => exact ⟨0, by rw [pow_zero, ← C_1, hC, add_zero], Lt.zero 0⟩
    | succ e ih =>
      obtain ⟨q, h1, h2⟩ := ih
      refine ⟨X i ^ e * C (s.getD i 0) + q * (X i + C (s.getD i 0)), ?_, ?_⟩
      · rw [pow_succ, hmul, h1]
        have : shiftPoly s (X i) = X i + C (s.getD i 0) := by unfold shiftPoly; rw [aeval_X]
        rw [this]; ring
      · have e1 : Lt (e + 1) (X i ^ e : MvPolynomial ℕ F) := by
          have := Lt.monomial (Finsupp.single i e) (1 : F)
          rw [← C_mul_X_pow_eq_monomial, C_1, one_mul] at this
          simpa using this
        have e0 : Lt (0 + 1) (C (s.getD i 0) : MvPolynomial ℕ F) := by
          have := Lt.monomial (0 : ℕ →₀ ℕ) (s.getD i 0)
          simpa using this
        have e2 : Lt (1 + 1) (X i + C (s.getD i 0) : MvPolynomial ℕ F) := by
          refine Lt.add ?_ (e0.mono (by omega))
          have := Lt.monomial (Finsupp.single i 1) (1 : F)
          rw [← C_mul_X_pow_eq_monomial, C_1, one_mul, pow_one] at this
          simpa using this
        exact Lt.add (e1.mul e0) (h2.mul e2)
  induction d using Finsupp.induction_linear with
  | zero => intro c; exact ⟨0, by rw [add_zero]; exact hC c, Lt.zero _⟩
  | single i e =>
    intro c
    obtain ⟨q, h1, h2⟩ := hX i e
    refine ⟨C c * q, ?_, ?_⟩
    · rw [← C_mul_X_pow_eq_monomial, hmul, hC, h1]; ring
    · intro d h
      rw [coeff_C_mul] at h
      have := h2 d (right_ne_zero_of_mul h)
      simpa using this
  | add d e hd he =>
    intro c
    obtain ⟨q1, a1, a2⟩ := hd c
    obtain ⟨q2, b1, b2⟩ := he 1
    refine ⟨monomial d c * q2 + q1 * (monomial e 1 + q2), ?_, ?_⟩
    · have : (monomial (d + e) c : MvPolynomial ℕ F) = monomial d c * monomial e 1 := by rw [monomial_mul, mul_one]
      rw [this, hmul, a1, b1]; ring
    · rw [map_add]
      refine Lt.add ?_ (a2.mul ?_)
      · rw [mul_comm, add_comm]; exact b2.mul (Lt.monomial d c)
      · exact Lt.add (Lt.monomial e 1) (b2.mono (by omega))

lemma shift_homog (s : List F) {p : MvPolynomial ℕ F} {k : ℕ} (h : p.IsHomogeneous k) : ∃ q : MvPolynomial ℕ F, shiftPoly s p = p + q ∧ Lt k q := by
  have key : ∀ S : Finset (ℕ →₀ ℕ), S ⊆ p.support → ∃ q : MvPolynomial ℕ F, shiftPoly s (∑ d ∈ S, monomial d (coeff d p)) = (∑ d ∈ S, monomial d (coeff d p)) + q ∧ Lt k q := by
    intro S
    induction S using Finset.induction_on with
    | empty => intro _; exact ⟨0, by simp [shiftPoly], Lt.zero _⟩
    | insert d S hd ih =>
      intro hS
      obtain ⟨q, h1, h2⟩ := ih (fun x hx => hS (Finset.mem_insert_of_mem hx))
      obtain ⟨q', h3, h4⟩ := shift_monomial s d (coeff d p)
      have h5 : d.degree = k := homog_deg h (mem_support_iff.mp (hS (Finset.mem_insert_self _ _)))
      rw [h5] at h4
      refine ⟨q' + q, ?_, h4.add h2⟩
      rw [Finset.sum_insert hd, shiftPoly_add, h1, h3]; ring
  obtain ⟨q, h1, h2⟩ := key p.support (Finset.Subset.refl _)
  rw [support_sum_monomial_coeff] at h1
  exact ⟨q, h1, h2⟩

/-- the part of degree `j` of the shifted homogeneous part of degree `k` -/
noncomputable def sh (s : List F) (Q : MvPolynomial ℕ F) (j k : ℕ) : MvPolynomial ℕ F := part s (homogeneousComponent k Q) j

lemma sh_self (s : List F) (Q : MvPolynomial ℕ F) (k : ℕ) : sh s Q k k = homogeneousComponent k Q := by
  obtain ⟨q, h1, h2⟩ := shift_homog s (homogeneousComponent_isHomogeneous k Q)
  unfold sh
  rw [part_eq, h1, map_add, h2.hc le_rfl, add_zero, homogeneousComponent_of_mem (n := k) (homogeneousComponent_isHomogeneous k Q), if_pos rfl]

lemma sh_above (s : List F) (Q : MvPolynomial ℕ F) {j k : ℕ} (h : k < j) : sh s Q j k = 0 := by
  obtain ⟨q, h1, h2⟩ := shift_homog s (homogeneousComponent_isHomogeneous k Q)
  unfold sh
  rw [part_eq, h1, map_add, h2.hc h.le, add_zero, homogeneousComponent_of_mem (n := k) (homogeneousComponent_isHomogeneous k Q), if_neg (by omega)]

/-- how the parts of the shifted polynomial come about -/
lemma part_sum (s : List F) (Q : MvPolynomial ℕ F) (m : ℕ) (hm : ∀ k, m < k → homogeneousComponent k Q = 0) {j : ℕ} (hj : j ≤ m) :
    part s Q j = homogeneousComponent j Q + ∑ k ∈ Finset.range (m + 1) with j < k, sh s Q j k := by
  have h0 : Q = ∑ k ∈ Finset.range (m + 1), homogeneousComponent k Q := by
    conv_lhs => rw [← sum_homogeneousComponent Q]
    rcases le_total Q.totalDegree m with h | h
    · apply Finset.sum_subset (by intro k; simp; omega)
      intro k _ hk
      rw [Finset.mem_range] at hk
      exact homogeneousComponent_eq_zero _ _ (by omega)
    · symm
      apply Finset.sum_subset (by intro k; simp; omega)
      intro k _ hk
      rw [Finset.mem_range] at hk
      exact hm k (by omega)
  have h1 : part s Q j = ∑ k ∈ Finset.range (m + 1), sh s Q j k := by
    conv_lhs => rw [part_eq, h0, shiftPoly_sum, map_sum]
    rfl
  rw [h1, ← Finset.sum_filter_add_sum_filter_not _ (fun k => j < k), add_comm]
  congr 1
  rw [Finset.sum_eq_single j]
  · exact sh_self s Q j
  · intro k hk hne
    rw [Finset.mem_filter, not_lt] at hk
    exact sh_above s Q (by omega)
  · intro h
    exact absurd (Finset.mem_filter.mpr ⟨Finset.mem_range.mpr (by omega), by omega⟩) h

lemma part_noshift {s : List F} (hs : ∀ i, s.getD i 0 = 0) (Q : MvPolynomial ℕ F) (k : ℕ) : part s Q k = homogeneousComponent k Q := by
  rw [part_eq]
  congr 1
  unfold shiftPoly
  have : (fun i : ℕ => (X i + C (s.getD i 0) : MvPolynomial ℕ F)) = X := by
    funext i; rw [hs i]; simp
  rw [this, aeval_X_left]; rfl

/-! ### removal of the first variable -/

/-- the exponents without the first one -/
noncomputable def tl (d : ℕ →₀ ℕ) : ℕ →₀ ℕ := d.comapDomain (· + 1) (fun x _ y _ h => by simpa using h)

lemma tl_apply (d : ℕ →₀ ℕ) (i : ℕ) : tl d i = d (i + 1) := rfl

lemma dehom_monomial (d : ℕ →₀ ℕ) (c : F) : dehomogenize (monomial d c) = monomial (tl d) c := by
  unfold dehomogenize
  rw [aeval_monomial, algebraMap_eq, monomial_eq]
  congr 1
  rw [Finsupp.prod, Finsupp.prod]
  have h1 : ∏ i ∈ d.support, (if i = 0 then (1 : MvPolynomial ℕ F) else X (i - 1)) ^ d i = ∏ i ∈ d.support.filter (· ≠ 0), (X (i - 1) : MvPolynomial ℕ F) ^ d i := by
    rw [Finset.prod_filter]
    apply Finset.prod_congr rfl
    intro i _
    by_cases h : i = 0 <;> simp [h]
  rw [h1]
  symm
  apply Finset.prod_bij (fun i _ => i + 1)
  · intro i hi
    rw [Finsupp.mem_support_iff, tl_apply] at hi
    simp [hi]
  · intro i _ j _ h; simpa using h
  · intro i hi
    rw [Finset.mem_filter, Finsupp.mem_support_iff] at hi
    refine ⟨i - 1, ?_, by omega⟩
    rw [Finsupp.mem_support_iff, tl_apply, Nat.sub_add_cancel (by omega)]
    exact hi.1
  · intro i _; rw [tl_apply]; simp

lemma tl_degree (d : ℕ →₀ ℕ) : d.degree = d 0 + (tl d).degree := by
  have key : ∀ N, (∀ i, N ≤ i → d (i + 1) = 0) → d.degree = ∑ i ∈ Finset.range (N + 1), d i ∧ (tl d).degree = ∑ i ∈ Finset.range N, d (i + 1) := by
    intro N hN
    constructor
    · rw [Finsupp.degree_apply]
      apply Finset.sum_subset
      · intro i hi
        rw [Finsupp.mem_support_iff] at hi
        rw [Finset.mem_range]
        by_contra hge
        obtain ⟨i', rfl⟩ : ∃ i', i = i' + 1 := ⟨i - 1, by omega⟩
        exact hi (hN i' (by omega))
      · intro i _ hi
        rwa [Finsupp.notMem_support_iff] at hi
    · rw [Finsupp.degree_apply]
      apply Finset.sum_subset
      · intro i hi
        rw [Finsupp.mem_support_iff, tl_apply] at hi
        rw [Finset.mem_range]
        by_contra hge
        exact hi (hN i (by omega))
      · intro i _ hi
        rw [Finsupp.notMem_support_iff] at hi
        exact hi
  obtain ⟨h1, h2⟩ := key (d.support.sup id) (by
    intro i hi
    by_contra h
    have h3 : i + 1 ≤ d.support.sup id := Finset.le_sup (f := id) (Finsupp.mem_support_iff.mpr h)
    omega)
  rw [h1, h2, Finset.sum_range_succ', add_comm]

lemma tl_inj {d e : ℕ →₀ ℕ} (h : d.degree = e.degree) (ht : tl d = tl e) : d = e := by
  ext i
  rcases i with _ | i
  · rw [tl_degree d, tl_degree e, ht] at h; omega
  · rw [← tl_apply, ← tl_apply, ht]

lemma dehom_coeff {p : MvPolynomial ℕ F} {k : ℕ} (h : p.IsHomogeneous k) {d : ℕ →₀ ℕ} (hd : d.degree = k) : coeff (tl d) (dehomogenize p) = coeff d p := by
  conv_lhs => rw [← support_sum_monomial_coeff p]
  have : dehomogenize (∑ v ∈ p.support, monomial v (coeff v p)) = ∑ v ∈ p.support, monomial (tl v) (coeff v p) := by
    unfold dehomogenize
    rw [map_sum]
    exact Finset.sum_congr rfl fun v _ => dehom_monomial v _
  rw [this, coeff_sum, Finset.sum_eq_single d]
  · rw [coeff_monomial, if_pos rfl]
  · intro e he hne
    rw [coeff_monomial, if_neg]
    intro h1
    exact hne (tl_inj ((homog_deg h (mem_support_iff.mp he)).trans hd.symm) h1)
  · intro hd'
    rw [coeff_monomial, if_pos rfl]
    simpa using hd'

/-- a homogeneous polynomial is determined by its value with the first variable set to one -/
lemma dehom_inj {p q : MvPolynomial ℕ F} {k : ℕ} (hp : p.IsHomogeneous k) (hq : q.IsHomogeneous k) (h : dehomogenize p = dehomogenize q) : p = q := by
  ext d
  by_cases hd : d.degree = k
  · rw [← dehom_coeff hp hd, ← dehom_coeff hq hd, h]
  · have h1 : coeff d p = 0 := by
      by_contra h1; exact hd (homog_deg hp h1)
    have h2 : coeff d q = 0 := by
      by_contra h2; exact hd (homog_deg hq h2)
    rw [h1, h2]

lemma eval_dehom (p : MvPolynomial ℕ F) (y : ℕ → F) : eval y (dehomogenize p) = eval (fun i => if i = 0 then 1 else y (i - 1)) p := by
  unfold dehomogenize
  rw [aeval_def, eval_eval₂]
  simp only [algebraMap_eq]
  rw [show ((eval y).comp (C : F →+* MvPolynomial ℕ F)) = RingHom.id F by ext; simp]
  show eval _ p = _
  congr 2
  funext i
  by_cases h : i = 0 <;> simp [h]

lemma dir_eq (a : List F) (ord : List ℕ) : dir a ord = fun i => if i = 0 then 1 else a.getD (i - 1) 0 ^ ord.getD (i - 1) 0 := by
  funext i
  rcases i with _ | i <;> simp [dir]

end FireFly.RMulti
