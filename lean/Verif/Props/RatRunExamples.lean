import Verif.Props.RatRunProps
import Verif.Props.RatReconstExamples
import Verif.Props.RatMultiExamples
/-!
# C46: examples
-/
set_option linter.all false
set_option maxRecDepth 20000
namespace FireFly.RRun
open MvPolynomial

/-! ### the first prime field, `x / (x + c y)` with the shift `(1, 0)` -/

section
open RMulti
variable {F : Type} [Field F] [DecidableEq F]

lemma deg_one_const {P : Polynomial F} (h : P.degree < (1 : ℕ)) (x y : F) : P.eval x = P.eval y := by
  have : P.degree ≤ 0 := by
    rw [← Nat.WithBot.lt_one_iff_le_zero]; exact_mod_cast h
  rw [Polynomial.eq_C_of_degree_le_zero this]; simp

lemma noLower_le_one {y : F} {g : Polynomial F} (h0 : g.eval y ≠ 0) (hd : g.natDegree ≤ 1) (h1 : g.natDegree = 1 → g.eval y ≠ g.eval (y ^ 2)) : MPoly.NoLowerDegree y g := by
  intro i hi P hP
  rcases Nat.lt_or_ge i 1 with h | h
  · have hi0 : i = 0 := by omega
    subst hi0
    have : P = 0 := by
      rw [← Polynomial.degree_eq_bot, ← Nat.WithBot.lt_zero_iff]
      exact_mod_cast hP
    refine ⟨0, le_rfl, ?_⟩
    rw [this]; simpa using h0.symm
  · have hi1 : i = 1 := by omega
    subst hi1
    have hc := deg_one_const hP (y ^ (0 + 1)) (y ^ (1 + 1))
    by_contra hall
    push Not at hall
    have e0 := hall 0 (by omega)
    have e1 := hall 1 le_rfl
    rw [hc, e1] at e0
    exact h1 (by omega) (by simpa using e0.symm)

/-- the conditions on the coefficients of `a x + b y` -/
structure Coefs (a b : F) : Prop where
  two : (2 : F) ≠ 0
  three : (3 : F) ≠ 0
  ha : a ≠ 0
  hb : b ≠ 0
  ab : b * 2 + a ≠ 0

lemma pow2_ne_one (htwo : (2 : F) ≠ 0) (hthree : (3 : F) ≠ 0) : (2 : F) ^ 1 ≠ 1 ∧ (2 : F) ^ 2 ≠ 1 := by
  refine ⟨fun h => ?_, fun h => hthree ?_⟩
  · exact one_ne_zero (α := F) (by linear_combination h)
  · linear_combination h

/-- `b x + a` in one variable -/
lemma fits_lin {a b : F} (hab : Coefs a b) {d : ℕ} (hd : 1 ≤ d) (hd2 : d < 2 ^ 31) :
    MPoly.Fits ({ n := 1, deg := some d, anchor := [2] } : MPoly.Cfg F) [([1], b), ([0], a)] := by
  have hs : ∀ t ∈ ([([1], b), ([0], a)] : FFMap F), MPoly.slice 1 [2] [([1], b), ([0], a)] 0 (t.1.take 0) = Polynomial.C b * Polynomial.X + Polynomial.C a := by
    intro t ht
    simp [MPoly.slice]
  have c3 : (Polynomial.C b * Polynomial.X + Polynomial.C a : Polynomial F).natDegree = 1 := Polynomial.natDegree_linear hab.hb
  have c4 : (Polynomial.C b * Polynomial.X + Polynomial.C a : Polynomial F).support.card = 2 := by
    have : (Polynomial.C b * Polynomial.X + Polynomial.C a : Polynomial F) = Polynomial.C b * Polynomial.X ^ 1 + Polynomial.C a * Polynomial.X ^ 0 := by simp
    rw [this, Polynomial.card_support_binomial (by norm_num) hab.hb hab.ha]
  refine ⟨by norm_num, ⟨by simp, by simp⟩, ?_, by simp, ?_, ?_, ?_, Or.inl rfl, ?_⟩
  · intro t ht
    simp only [List.mem_cons, List.not_mem_nil, or_false] at ht
    rcases ht with rfl | rfl
    · exact hab.hb
    · exact hab.ha
  · intro d' hd'
    obtain rfl : d = d' := by simpa using hd'
    refine ⟨hd2, ?_⟩
    intro t ht
    simp only [List.mem_cons, List.not_mem_nil, or_false] at ht
    rcases ht with rfl | rfl <;> simp <;> omega
  · intro b hb; cases hb
  · intro t ht
    simp only [List.mem_cons, List.not_mem_nil, or_false] at ht
    rcases ht with rfl | rfl <;> simp
  · refine ⟨?_, ?_, ?_, ?_, ?_, ?_⟩
    · intro s hs'
      have hs' : s < 1 := hs'
      interval_cases s; exact hab.two
    · intro s hs' t ht t' ht' _
      have hs' : s < 1 := hs'
      interval_cases s; simp
    · intro s hs' t ht j h1 h2
      have hs' : s < 1 := hs'
      interval_cases s
      simp only [List.mem_cons, List.not_mem_nil, or_false] at ht
      have h3 : j ≤ 2 := by
        rcases ht with rfl | rfl <;> simp at h2 <;> omega
      have e2 := pow2_ne_one hab.two hab.three
      interval_cases j
      · exact e2.1
      · exact e2.2
    · intro s hs' t ht
      have hs' : s < 1 := hs'
      interval_cases s
      show (MPoly.slice 1 [2] _ 0 (t.1.take 0)).coeff _ ≠ 0
      rw [hs t ht]
      simp only [List.mem_cons, List.not_mem_nil, or_false] at ht
      rcases ht with rfl | rfl
      · simp [Polynomial.coeff_C, hab.hb]
      · simp [hab.ha]
    · intro _ s hs' t ht
      have hs' : s < 1 := hs'
      interval_cases s
      show MPoly.NoLowerDegree (2 : F) (MPoly.slice 1 [2] _ 0 (t.1.take 0))
      rw [hs t ht]
      refine noLower_le_one ?_ (by omega) (fun _ => ?_)
      · simpa using hab.ab
      · intro h
        simp only [Polynomial.eval_add, Polynomial.eval_mul, Polynomial.eval_C, Polynomial.eval_X] at h
        have h2 : b * 2 = 0 := by linear_combination -h
        exact mul_ne_zero hab.hb hab.two h2
    · intro _ s hs' t ht
      have hs' : s < 1 := hs'
      interval_cases s
      show MPoly.NoShortRecurrence (2 : F) (MPoly.slice 1 [2] _ 0 (t.1.take 0))
      rw [hs t ht]
      intro r hr l
      rw [c4] at hr
      interval_cases r
      · exact ⟨0, le_rfl, by omega, by simpa using hab.ab⟩
      · by_contra hall
        push Not at hall
        have e1 := hall 1 le_rfl (by omega)
        have e2 := hall 2 (by omega) (by omega)
        norm_num at e1 e2
        have h2 : (b * 2 + a) * (b * 8 + a) = (b * 4 + a) * (b * 4 + a) := by
          have h1 : b * 8 + a = - l 1 * (b * 4 + a) := by linear_combination e2
          have h2 : b * 4 + a = - l 1 * (b * 2 + a) := by linear_combination e1
          rw [h1]
          nth_rw 2 [h2]; ring
        have h3 : 2 * (a * b) = 0 := by linear_combination h2
        exact mul_ne_zero hab.two (mul_ne_zero hab.ha hab.hb) h3

/-- one monomial of degree at most one in one variable -/
lemma fits_mono (htwo : (2 : F) ≠ 0) (hthree : (3 : F) ≠ 0) {e : ℕ} (he : e ≤ 1) {d : ℕ} (hd : 1 ≤ d) (hd2 : d < 2 ^ 31) :
    MPoly.Fits ({ n := 1, deg := some d, anchor := [2] } : MPoly.Cfg F) [([e], (1 : F))] := by
  have hs : ∀ t ∈ ([([e], (1 : F))] : FFMap F), MPoly.slice 1 [2] ([([e], (1 : F))] : FFMap F) 0 (t.1.take 0) = Polynomial.X ^ e := by
    intro t ht
    simp [MPoly.slice]
  refine ⟨by norm_num, ⟨by simp, by simp⟩, by simp, by simp, ?_, ?_, ?_, Or.inl rfl, ?_⟩
  · intro d' hd'
    obtain rfl : d = d' := by simpa using hd'
    refine ⟨hd2, ?_⟩
    intro t ht
    rw [List.mem_singleton.mp ht]; simp; omega
  · intro b hb; cases hb
  · intro t ht
    rw [List.mem_singleton.mp ht]; simp; omega
  · refine ⟨?_, ?_, ?_, ?_, ?_, ?_⟩
    · intro s hs'
      have hs' : s < 1 := hs'
      interval_cases s; exact htwo
    · intro s hs' t ht t' ht' _
      have hs' : s < 1 := hs'
      interval_cases s; simp
    · intro s hs' t ht j h1 h2
      have hs' : s < 1 := hs'
      interval_cases s
      have h3 : j ≤ 2 := by
        rw [List.mem_singleton.mp ht] at h2; simp at h2; omega
      have e2 := pow2_ne_one htwo hthree
      interval_cases j
      · exact e2.1
      · exact e2.2
    · intro s hs' t ht
      have hs' : s < 1 := hs'
      interval_cases s
      show (MPoly.slice 1 [2] _ 0 (t.1.take 0)).coeff _ ≠ 0
      rw [hs t ht, List.mem_singleton.mp ht]
      simp
    · intro _ s hs' t ht
      have hs' : s < 1 := hs'
      interval_cases s
      show MPoly.NoLowerDegree (2 : F) (MPoly.slice 1 [2] _ 0 (t.1.take 0))
      rw [hs t ht]
      refine noLower_le_one (by simpa using fun h => absurd h htwo) (by simpa using he) (fun h => ?_)
      have : e = 1 := by simpa using h
      subst this
      intro h3
      simp only [pow_one, Polynomial.eval_X] at h3
      exact htwo (by linear_combination -h3)
    · intro _ s hs' t ht
      have hs' : s < 1 := hs'
      interval_cases s
      show MPoly.NoShortRecurrence (2 : F) (MPoly.slice 1 [2] _ 0 (t.1.take 0))
      rw [hs t ht]
      intro r hr l
      have : (Polynomial.X ^ e : Polynomial F).support.card = 1 := by
        rw [Polynomial.support_X_pow e]; simp
      rw [this] at hr
      interval_cases r
      exact ⟨0, le_rfl, by omega, by simpa using fun h => absurd h htwo⟩

lemma mono_single (v : F) : monomial ([1] : List ℕ).toFinsupp v = C v * X 0 := by
  have : ([1] : List ℕ).toFinsupp = Finsupp.single 0 1 := by
    ext i; rcases i with _ | i <;> simp [Finsupp.single_apply]
  rw [this, C_mul_X_eq_monomial]
lemma mono_zero (v : F) : monomial ([0] : List ℕ).toFinsupp v = C v := by
  rw [show ([0] : List ℕ).toFinsupp = 0 from zeros_toFinsupp 1]; rfl

lemma target_lin {a b : F} (hab : Coefs a b) {d : ℕ} (hd : 1 ≤ d) (hd2 : d < 2 ^ 31) :
    Target ({ n := 1, deg := some d, anchor := [2] } : MPoly.Cfg F) (C a * X 0 + C b * X 1) := by
  refine ⟨[([1], b), ([0], a)], ?_, Or.inr (fits_lin hab hd hd2)⟩
  unfold denote dehomogenize
  simp [mono_single, mono_zero]
  ring

lemma target_x (htwo : (2 : F) ≠ 0) (hthree : (3 : F) ≠ 0) {d : ℕ} (hd : 1 ≤ d) (hd2 : d < 2 ^ 31) : Target ({ n := 1, deg := some d, anchor := [2] } : MPoly.Cfg F) (X 0) := by
  refine ⟨[([0], 1)], ?_, Or.inr (fits_mono htwo hthree (by norm_num) hd hd2)⟩
  unfold denote dehomogenize
  simp [mono_zero]

lemma target_xy (htwo : (2 : F) ≠ 0) (hthree : (3 : F) ≠ 0) {d : ℕ} (hd : 1 ≤ d) (hd2 : d < 2 ^ 31) : Target ({ n := 1, deg := some d, anchor := [2] } : MPoly.Cfg F) (X 0 * X 1) := by
  refine ⟨[([1], 1)], ?_, Or.inr (fits_mono htwo hthree (by norm_num) hd hd2)⟩
  unfold denote dehomogenize
  simp [mono_single]

lemma card_lin {a b : F} (hab : Coefs a b) : (dehomogenize (C a * X 0 + C b * X 1 : MvPolynomial ℕ F)).support.card ≤ 2 := by
  have : dehomogenize (C a * X 0 + C b * X 1 : MvPolynomial ℕ F) = denote [([1], b), ([0], a)] := by
    unfold denote dehomogenize
    simp [mono_single, mono_zero]
    ring
  rw [this, ← support_card (n := 1) (fits_lin hab le_rfl (by norm_num)).wf (fits_lin hab le_rfl (by norm_num)).nonzero]
  simp

lemma card_x : (dehomogenize (X 0 : MvPolynomial ℕ F)).support.card ≤ 2 := by
  have : dehomogenize (X 0 : MvPolynomial ℕ F) = 1 := by unfold dehomogenize; simp
  rw [this, show (1 : MvPolynomial ℕ F) = monomial 0 1 from rfl]
  exact (Finset.card_le_card support_monomial_subset).trans (by simp)

lemma card_xy : (dehomogenize (X 0 * X 1 : MvPolynomial ℕ F)).support.card ≤ 2 := by
  have : dehomogenize (X 0 * X 1 : MvPolynomial ℕ F) = X 0 := by unfold dehomogenize; simp
  rw [this, support_X]; simp

lemma card_one : (dehomogenize (1 : MvPolynomial ℕ F)).support.card ≤ 2 := by
  have : dehomogenize (1 : MvPolynomial ℕ F) = 1 := by unfold dehomogenize; simp
  rw [this, show (1 : MvPolynomial ℕ F) = monomial 0 1 from rfl]
  exact (Finset.card_le_card support_monomial_subset).trans (by simp)

lemma card_zero : (dehomogenize (0 : MvPolynomial ℕ F)).support.card ≤ 2 := by unfold dehomogenize; simp

lemma hom_lin (a b : F) : (C a * X 0 + C b * X 1 : MvPolynomial ℕ F).IsHomogeneous 1 := by
  have h : ∀ (a : F) (i : ℕ), (C a * X i : MvPolynomial ℕ F).IsHomogeneous 1 := fun a i => by simpa using (isHomogeneous_C ℕ a).mul (isHomogeneous_X F i)
  exact (h a 0).add (h b 1)

/-- a homogeneous polynomial and a constant -/
lemma comp_split {p : MvPolynomial ℕ F} {m : ℕ} (hm : 1 ≤ m) (hp : p.IsHomogeneous m) (a : F) (k : ℕ) :
    homogeneousComponent k (p + C a) = if k = m then p else if k = 0 then C a else 0 := by
  rw [map_add, homogeneousComponent_of_mem ((mem_homogeneousSubmodule _ _).mpr hp), homogeneousComponent_of_mem ((mem_homogeneousSubmodule _ _).mpr (isHomogeneous_C ℕ a))]
  split_ifs <;> first | omega | simp_all

/-! ### `x / (x + y)` with the shift `(1, 0)` -/

def exShift (gt : F → F → Bool) : Cfg F := { n := 2, shift := [1, 0], anchor := [2], gt := gt, fuel := 100 }

variable {gt : F → F → Bool}


lemma exShift_part (a b : F) (k : ℕ) : part (exShift gt).shift (C a * X 0 + C b * X 1) k = if k = 1 then C a * X 0 + C b * X 1 else if k = 0 then C a else 0 := by
  rw [← comp_split le_rfl (hom_lin a b) a]
  unfold part
  congr 1
  simp [exShift]
  ring

lemma exShift_side {a b : F} (htwo : (2 : F) ≠ 0) (hthree : (3 : F) ≠ 0) (hx : (b = 0 ∧ a = 1) ∨ Coefs a b) : RMulti.SideOK (exShift gt) none (C a * X 0 + C b * X 1) 1 := by
  have ha : a ≠ 0 := by
    rcases hx with ⟨-, rfl⟩ | hb
    · exact one_ne_zero
    · exact hb.ha
  have hT : Target ((exShift gt).poly none 1) (C a * X 0 + C b * X 1) ∧ (dehomogenize (C a * X 0 + C b * X 1 : MvPolynomial ℕ F)).support.card ≤ 2 := by
    rcases hx with ⟨rfl, rfl⟩ | hb
    · simp only [map_one, one_mul, map_zero, zero_mul, add_zero]
      exact ⟨target_x htwo hthree le_rfl (by norm_num), card_x⟩
    · exact ⟨target_lin hb le_rfl (by norm_num), card_lin hb⟩
  have hC : (dehomogenize (C a : MvPolynomial ℕ F)).support.card ≤ 2 := by
    have : dehomogenize (C a : MvPolynomial ℕ F) = monomial 0 a := by unfold dehomogenize; simp [← C_apply]
    rw [this]
    exact (Finset.card_le_card support_monomial_subset).trans (by simp)
  have hc : ∀ k, homogeneousComponent k (C a * X 0 + C b * X 1 : MvPolynomial ℕ F) = if k = 1 then C a * X 0 + C b * X 1 else 0 :=
    fun k => homogeneousComponent_of_mem ((mem_homogeneousSubmodule _ _).mpr (hom_lin a b))
  have hne : (C a * X 0 + C b * X 1 : MvPolynomial ℕ F) ≠ 0 := by
    intro h0
    have := congrArg (eval (fun i => if i = 0 then (1 : F) else 0)) h0
    simp at this
    exact ha this
  have hs : a + 2 * b ≠ 0 := by
    rcases hx with ⟨rfl, rfl⟩ | hb
    · simp
    · intro h; exact hb.ab (by linear_combination h)
  refine ⟨?_, ?_, ?_, ?_, ?_, by norm_num, ?_, ?_⟩
  · intro k hk
    rw [exShift_part, if_neg (by omega), if_neg (by omega)]
  · rw [exShift_part, if_pos rfl]; exact hne
  · intro k hk
    rw [hc]
    split
    · rename_i h1; rw [exShift_part, if_pos h1] at hk; exact hk
    · rfl
  · intro k hk
    rw [exShift_part] at hk ⊢
    split_ifs at hk ⊢
    · simp [dir, exShift]
      intro h; exact hs (by linear_combination h)
    · simpa using ha
    · exact absurd rfl hk
  · intro k h1 hk
    rw [exShift_part] at hk
    have hk1 : k = 1 := by
      by_contra h0
      rw [if_neg h0, if_neg (by omega)] at hk
      exact hk rfl
    subst hk1
    rw [exShift_part, hc, if_pos rfl, if_pos rfl]
    exact ⟨hT.1, hT.1⟩
  · intro i h1 h2
    have : i = 1 := by omega
    subst this; norm_num
  · intro k hk
    have hcard : ∀ p : MvPolynomial ℕ F, (dehomogenize p).support.card ≤ 2 → bnd (exShift gt) k p + 2 ≤ (exShift gt).fuel := by
      intro p hp
      unfold bnd
      have : (2 * (k + 1) + 1 + 1) * (dehomogenize p).support.card ≤ 6 * 2 := Nat.mul_le_mul (by omega) hp
      show 1 * ((2 * (k + 1) + 1 + 1) * (dehomogenize p).support.card) + 2 ≤ 100
      omega
    rw [exShift_part, hc]
    constructor
    · split_ifs
      · exact hcard _ hT.2
      · exact hcard _ hC
      · exact hcard _ card_zero
    · split_ifs
      · exact hcard _ hT.2
      · exact hcard _ card_zero


lemma ex_single : ∀ {A : Finset ℕ} {k : ℕ}, (∀ x ∈ A, x = k) → A = ∅ ∨ A = {k} := by
  intro A k h
  rw [← Finset.subset_singleton_iff]; intro x hx; rw [h x hx]; simp

lemma exShift_eval (a b t : F) (ord : List ℕ) : eval (pt (exShift gt).shift (exShift gt).anchor t ord) (C a * X 0 + C b * X 1) = a * (t + 1) + b * (t * 2 ^ ord.getD 0 0) := by
  simp [pt, dir, exShift]

lemma exShift_good {c : F} (G : F → List ℕ → Prop) (hG : ∀ t ord, G t ord → t ≠ 0 ∧ t + 1 ≠ 0 ∧ t + 1 + c * (t * 2 ^ ord.getD 0 0) ≠ 0 ∧ c * 2 ^ ord.getD 0 0 ≠ 0) :
    RMulti.GoodPts (exShift gt) (C 1 * X 0 + C 0 * X 1) (C 1 * X 0 + C c * X 1) G := by
  refine ⟨?_, ?_⟩
  · intro t ord h
    rw [exShift_eval, one_mul]
    exact (hG t ord h).2.2.1
  · intro ord A B ts hA hB hnd hts hlen a b heq
    have hpart : ∀ (a b : F) k, 1 ≤ k → part (exShift gt).shift (C a * X 0 + C b * X 1) k ≠ 0 → k = 1 := by
      intro a b k h1 hk
      rw [exShift_part] at hk
      by_contra h0
      rw [if_neg h0, if_neg (by omega)] at hk
      exact hk rfl
    have hA' := ex_single (fun k hk => hpart _ _ k (hA k hk).1 (hA k hk).2)
    have hB' := ex_single (fun k hk => hpart _ _ k (hB k hk).1 (hB k hk).2)
    have hg : ∀ t ∈ ts, t ≠ 0 ∧ t + 1 ≠ 0 ∧ t + 1 + c * (t * 2 ^ ord.getD 0 0) ≠ 0 ∧ c * 2 ^ ord.getD 0 0 ≠ 0 := fun t ht => hG t ord (hts t ht)
    have heq' : ∀ t ∈ ts, (∑ k ∈ A, a k * t ^ k) * (t + 1 + c * (t * 2 ^ ord.getD 0 0)) = (t + 1) * ∑ k ∈ B, b k * t ^ k := by
      intro t ht
      have h1 := heq t ht
      have h2 := (hg t ht).2.2.1
      unfold valueOf at h1
      rw [exShift_eval, exShift_eval] at h1
      rw [h1]
      simp only [one_mul, zero_mul, add_zero]
      rw [mul_assoc, mul_comm (∑ k ∈ B, _), ← mul_assoc, div_mul_cancel₀ _ h2]
    generalize (2 : F) ^ ord.getD 0 0 = y at heq' hg
    rcases hA' with rfl | rfl <;> rcases hB' with rfl | rfl
    · simp
    · refine ⟨by simp, ?_⟩
      intro k hk
      rw [Finset.mem_singleton.mp hk]
      obtain ⟨t, rfl⟩ := List.length_eq_one_iff.mp (by simpa using hlen)
      have h2 := heq' t (by simp)
      obtain ⟨g1, g2, g3, g4⟩ := hg t (by simp)
      simp only [Finset.sum_empty, Finset.sum_singleton, zero_mul, pow_one] at h2
      exact (mul_eq_zero.mp ((mul_eq_zero.mp h2.symm).resolve_left g2)).resolve_right g1
    · refine ⟨?_, by simp⟩
      intro k hk
      rw [Finset.mem_singleton.mp hk]
      obtain ⟨t, rfl⟩ := List.length_eq_one_iff.mp (by simpa using hlen)
      have h2 := heq' t (by simp)
      obtain ⟨g1, g2, g3, g4⟩ := hg t (by simp)
      simp only [Finset.sum_empty, Finset.sum_singleton, mul_zero, pow_one] at h2
      exact (mul_eq_zero.mp ((mul_eq_zero.mp h2).resolve_right g3)).resolve_right g1
    · obtain ⟨t, u, rfl⟩ := List.length_eq_two.mp (by simpa using hlen)
      have h2 := heq' t (by simp)
      have h4 := heq' u (by simp)
      obtain ⟨g1, g2, g3, g4⟩ := hg t (by simp)
      obtain ⟨k1, k2, k3, k4⟩ := hg u (by simp)
      simp only [Finset.sum_singleton, pow_one] at h2 h4
      have htu : t - u ≠ 0 := by
        intro h
        have : t = u := by linear_combination h
        simp [this] at hnd
      have h5 : a 1 * (t + 1 + c * (t * y)) = (t + 1) * b 1 := by
        apply mul_left_cancel₀ g1; linear_combination h2
      have h6 : a 1 * (u + 1 + c * (u * y)) = (u + 1) * b 1 := by
        apply mul_left_cancel₀ k1; linear_combination h4
      have h7 : (a 1 * (1 + c * y) - b 1) * (t - u) = 0 := by linear_combination h5 - h6
      have h8 : a 1 * (1 + c * y) = b 1 := by
        have := (mul_eq_zero.mp h7).resolve_right htu
        linear_combination this
      rw [← h8] at h5
      have h9 : a 1 * (c * y) = 0 := by linear_combination -h5
      have h10 : a 1 = 0 := (mul_eq_zero.mp h9).resolve_right g4
      refine ⟨fun k hk => by rw [Finset.mem_singleton.mp hk]; exact h10, fun k hk => ?_⟩
      rw [Finset.mem_singleton.mp hk, ← h8, h10, zero_mul]

lemma exShift_prob {c : F} (hc : Coefs 1 c) : RMulti.Prob (exShift gt) (C 1 * X 0 + C 0 * X 1) (C 1 * X 0 + C c * X 1) 1 1 := by
  refine ⟨rfl, le_rfl, exShift_side hc.two hc.three (Or.inl ⟨rfl, rfl⟩), exShift_side hc.two hc.three (Or.inr hc), ?_⟩
  show eval _ (C 1 * X 0 + C c * X 1) = 1
  simp [exShift]

lemma exShift_coprime {c : F} (hc : 2 * c ≠ 0) : IsCoprime (line (exShift gt).shift (exShift gt).anchor (ones (exShift gt)) (C 1 * X 0 + C 0 * X 1)) (line (exShift gt).shift (exShift gt).anchor (ones (exShift gt)) (C 1 * X 0 + C c * X 1)) := by
  have e1 : line (exShift gt).shift (exShift gt).anchor (ones (exShift gt)) (C 1 * X 0 + C 0 * X 1) = Polynomial.X + 1 := by
    unfold line
    simp [exShift, ones, dir]
  have e2 : line (exShift gt).shift (exShift gt).anchor (ones (exShift gt)) (C 1 * X 0 + C c * X 1) = Polynomial.X + 1 + Polynomial.C (2 * c) * Polynomial.X := by
    unfold line
    simp [exShift, ones, dir]
    ring
  rw [e1, e2]
  refine ⟨Polynomial.C ((1 + 2 * c) / (2 * c)), Polynomial.C (-1 / (2 * c)), ?_⟩
  have : (Polynomial.C ((1 + 2 * c) / (2 * c)) : Polynomial F) = Polynomial.C (1 / (2 * c)) + 1 := by
    rw [← Polynomial.C_1, ← Polynomial.C_add]; congr 1; rw [add_div, div_self hc]
  rw [this, neg_div, Polynomial.C_neg]
  have h3 : (Polynomial.C (1 / (2 * c)) * Polynomial.C (2 * c) : Polynomial F) = 1 := by
    rw [← Polynomial.C_mul, one_div, inv_mul_cancel₀ hc, Polynomial.C_1]
  linear_combination (-Polynomial.X) * h3

end

/-! ### linear polynomials over the rational numbers and their residues -/

section
variable {R : Type} [Field R]

lemma s01 : (Finsupp.single 0 1 : ℕ →₀ ℕ) ≠ Finsupp.single 1 1 := by
  intro h
  have := DFunLike.congr_fun h 0
  simp at this

lemma coeff_lin (a b : R) (m : ℕ →₀ ℕ) : coeff m (C a * X 0 + C b * X 1) = if m = Finsupp.single 0 1 then a else if m = Finsupp.single 1 1 then b else 0 := by
  rw [coeff_add, coeff_C_mul, coeff_C_mul, coeff_X, coeff_X]
  by_cases h1 : m = Finsupp.single 0 1
  · subst h1; simp [s01.symm]
  · rw [if_neg h1, if_neg (fun h => h1 h.symm)]
    by_cases h2 : m = Finsupp.single 1 1
    · subst h2; simp
    · rw [if_neg h2, if_neg (fun h => h2 h.symm)]; simp
end

lemma red_lin (p : ℕ) [Fact p.Prime] (a b : ℚ) : red p (C a * X 0 + C b * X 1) = C (a : ZMod p) * X 0 + C (b : ZMod p) * X 1 := by
  ext m
  rw [red_coeff, coeff_lin, coeff_lin]
  split_ifs <;> simp

/-- `x` -/
noncomputable def exN : MvPolynomial ℕ ℚ := C 1 * X 0 + C 0 * X 1
/-- `x + 40/3 y` -/
noncomputable def exD : MvPolynomial ℕ ℚ := C 1 * X 0 + C (40 / 3) * X 1

lemma exN_support : exN.support = {Finsupp.single 0 1} := by
  ext m
  rw [mem_support_iff, exN, coeff_lin]
  by_cases h : m = Finsupp.single 0 1 <;> simp [h]

lemma exD_support : exD.support = {Finsupp.single 0 1, Finsupp.single 1 1} := by
  ext m
  rw [mem_support_iff, exD, coeff_lin]
  by_cases h : m = Finsupp.single 0 1
  · simp [h]
  · rw [if_neg h]
    by_cases h' : m = Finsupp.single 1 1
    · rw [if_pos h']; simp [h']
    · simp [h, h']

lemma deg_single (i : ℕ) : (Finsupp.single i 1 : ℕ →₀ ℕ).degree = 1 := by simp

lemma exN_vars : InVars 2 exN := by
  intro m hm i hi
  rw [exN_support, Finset.mem_singleton] at hm
  subst hm
  simp [Finsupp.single_apply]; omega

lemma exD_vars : InVars 2 exD := by
  intro m hm i hi
  rw [exD_support, Finset.mem_insert, Finset.mem_singleton] at hm
  rcases hm with rfl | rfl <;> · simp [Finsupp.single_apply]; omega

/-- the only normalization: to `x` in the numerator -/
lemma ex_norm {l : ℚ} {b : Bool} {e : List ℕ} (hl : l ≠ 0) (h : Normalized 2 (C l * exN) (C l * exD) b e) : l = 1 ∧ b = false ∧ e.toFinsupp = Finsupp.single 0 1 := by
  have h1 := h.one
  have h2 := h.lone
  cases b with
  | true =>
    exfalso
    simp only [if_true] at h1 h2
    have hs : (C l * exD).support = exD.support := support_scale hl
    rw [hs, exD_support] at h2
    have he : e.toFinsupp ∈ exD.support := by rw [← hs, mem_support_iff, h1]; exact one_ne_zero
    have hsum : e.sum = 1 := by
      rw [← degree_toFinsupp]
      rw [exD_support, Finset.mem_insert, Finset.mem_singleton] at he
      rcases he with he | he <;> rw [he] <;> simp
    have a1 := h2 (Finsupp.single 0 1) (by simp) (by rw [hsum]; simp)
    have a2 := h2 (Finsupp.single 1 1) (by simp) (by rw [hsum]; simp)
    exact s01 (a1.trans a2.symm)
  | false =>
    simp only [Bool.false_eq_true, if_false] at h1
    rw [coeff_C_mul, exN, coeff_lin] at h1
    by_cases h3 : e.toFinsupp = Finsupp.single 0 1
    · rw [if_pos h3, mul_one] at h1
      exact ⟨h1, rfl, h3⟩
    · rw [if_neg h3] at h1
      simp at h1

lemma ex_below {q : ℕ} (hq : 80 < q) : Below exN q ∧ Below exD q := by
  have h40 : ((40 / 3 : ℚ)).num = 40 ∧ ((40 / 3 : ℚ)).den = 3 := by decide +kernel
  have key : ∀ f ∈ [exN, exD], ∀ m, coeff m f = 1 ∨ coeff m f = 0 ∨ coeff m f = 40 / 3 := by
    intro f hf m
    simp only [List.mem_cons, List.not_mem_nil, or_false] at hf
    rcases hf with rfl | rfl
    · rw [exN, coeff_lin]; split_ifs <;> simp
    · rw [exD, coeff_lin]; split_ifs <;> simp
  have : ∀ f ∈ [exN, exD], Below f q := by
    intro f hf m
    have hq' : (80 : ℤ) < q := by exact_mod_cast hq
    rcases key f hf m with h | h | h <;> rw [h]
    · simp; omega
    · simp; omega
    · rw [h40.1, h40.2]; norm_num; omega
  exact ⟨this _ (by simp), this _ (by simp)⟩

lemma ex_den {p : ℕ} (hp : p.Prime) (h3 : 3 < p) (m : ℕ →₀ ℕ) : (¬ (p : ℤ) ∣ (coeff m exN).den) ∧ ¬ (p : ℤ) ∣ (coeff m exD).den := by
  have h40 : ((40 / 3 : ℚ)).den = 3 := by decide +kernel
  have a1 : ¬ (p : ℤ) ∣ ((1 : ℕ) : ℤ) := by
    intro h
    have := Nat.le_of_dvd one_pos (Int.natCast_dvd_natCast.mp h)
    omega
  have a3 : ¬ (p : ℤ) ∣ ((3 : ℕ) : ℤ) := by
    intro h
    have := Nat.le_of_dvd (by norm_num) (Int.natCast_dvd_natCast.mp h)
    omega
  constructor
  · rw [exN, coeff_lin]; split_ifs <;> exact a1
  · rw [exD, coeff_lin]; split_ifs
    · exact a1
    · rw [h40]; exact a3
    · exact a1


/-! ### three prime fields -/

def rr0Probes : List (ZMod 101 × ZMod 101 × List ℕ) := [(1, 2 / (2 + 40 / 3 * 2), [1]), (2, 3 / (3 + 40 / 3 * 4), [1]), (3, 4 / (4 + 40 / 3 * 6), [1]), (4, 5 / (5 + 40 / 3 * 8), [1]), (5, 6 / (6 + 40 / 3 * 20), [2]), (6, 7 / (7 + 40 / 3 * 24), [2])]
def rr0 : Prime := ⟨101, fact101, { n := 2, shift := [1, 0], anchor := [2], gt := exGt 101, fuel := 100 }, rr0Probes, 103⟩
def rr1 : Prime := ⟨103, fact103, { n := 2, shift := [0, 0], anchor := [3], gt := exGt 103, fuel := 100 },
  [(5, 1 / (1 + 40 / 3 * 9), [2]), (1, 1 / (1 + 40 / 3 * 3), [1]), (2, 1 / (1 + 40 / 3 * 3), [1])], 107⟩
def rr2 : Prime := ⟨107, fact107, { n := 2, shift := [0, 0], anchor := [5], gt := exGt 107, fuel := 100 }, [(7, 1 / (1 + 40 / 3 * 5), [1])], 109⟩

def isResult (N0 D0 : List (List ℕ × ℤ × ℤ)) : Option RunOut → Bool
  | some (.finished N D) => decide (N.map (fun t => (t.1, t.2.num, t.2.den)) = N0) && decide (D.map (fun t => (t.1, t.2.num, t.2.den)) = D0)
  | _ => false

def isWaiting (k : ℕ) : Option RunOut → Bool
  | some (.waiting c) => decide (c.primeNumber = k)
  | _ => false

lemma later_eval {p : ℕ} [Fact p.Prime] (y t a b : ZMod p) (o : ℕ) : eval (RLater.at_ [y] t [o]) (C a * X 0 + C b * X 1) = t * (a + b * y ^ o) := by
  simp [RLater.at_, RMulti.dir]; ring

lemma cast_40 (p : ℕ) [Fact p.Prime] : ((40 / 3 : ℚ) : ZMod p) = 40 / 3 := by
  rw [Rat.cast_def, show ((40 / 3 : ℚ)).num = 40 by decide +kernel, show ((40 / 3 : ℚ)).den = 3 by decide +kernel]
  norm_num

/-- a further prime field with the anchor point `y` -/
lemma ex_later {e : List ℕ} (he : e.toFinsupp = Finsupp.single 0 1) {r : Prime} {y : ZMod r.p} (hn : r.cfg.n = 2) (ha : r.cfg.anchor = [y]) (hp : 3 < r.p) (hgt : haveI := r.fact; PivotOrder r.cfg.gt)
    (hy : haveI := r.fact; y ≠ 0 ∧ y ≠ 1) (hq : haveI := r.fact; ∀ q ∈ r.probes, ∃ o, q.2.2 = [o] ∧ q.1 ≠ 0 ∧ 1 + (40 / 3 : ZMod r.p) * y ^ o ≠ 0 ∧ q.2.1 = 1 / (1 + 40 / 3 * y ^ o))
    (hnd : (r.probes.map (fun q => (q.1, q.2.2))).Nodup) : LaterOK 2 exN exD false e r := by
  haveI := r.fact
  have eN : red r.p exN = C 1 * X 0 + C 0 * X 1 := by rw [exN, red_lin]; simp
  have eD : red r.p exD = C 1 * X 0 + C (40 / 3) * X 1 := by
    rw [exD, red_lin]
    rw [cast_40]; simp
  have hv : ∀ (t : ZMod r.p) (o : ℕ), t ≠ 0 → 1 + (40 / 3 : ZMod r.p) * y ^ o ≠ 0 → eval (RLater.at_ r.cfg.anchor t [o]) (red r.p exD) ≠ 0 ∧
      RLater.value r.cfg.anchor (red r.p exN) (red r.p exD) t [o] = 1 / (1 + 40 / 3 * y ^ o) := by
    intro t o h1 h2
    unfold RLater.value
    rw [eN, eD, ha, later_eval, later_eval]
    refine ⟨mul_ne_zero h1 h2, ?_⟩
    rw [zero_mul, add_zero, mul_div_mul_left _ _ h1]
  refine ⟨hn, by rw [ha]; rfl, by rw [ha]; simpa using hy.1, hgt, fun m => (ex_den r.fact.out hp m).1, fun m => (ex_den r.fact.out hp m).2, ?_, ?_, hnd, ?_⟩
  · intro f hf m hm m' hm' _ h
    simp only [List.mem_cons, List.not_mem_nil, or_false] at hf
    have e0 : eval (RMulti.dir r.cfg.anchor (List.replicate (2 - 1) 1)) (monomial (Finsupp.single 0 1) (1 : ZMod r.p)) = 1 := by
      rw [ha]; simp [RMulti.dir, eval_monomial]
    have e1 : eval (RMulti.dir r.cfg.anchor (List.replicate (2 - 1) 1)) (monomial (Finsupp.single 1 1) (1 : ZMod r.p)) = y := by
      rw [ha]; simp [RMulti.dir, eval_monomial]
    rcases hf with rfl | rfl
    · rw [exN_support, Finset.mem_singleton] at hm hm'
      rw [hm, hm']
    · rw [exD_support, Finset.mem_insert, Finset.mem_singleton] at hm hm'
      rcases hm with rfl | rfl <;> rcases hm' with rfl | rfl
      · rfl
      · rw [e0, e1] at h; exact absurd h.symm hy.2
      · rw [e0, e1] at h; exact absurd h hy.2
      · rfl
  · intro q hq'
    obtain ⟨o, h1, h2, h3, h4⟩ := hq q hq'
    rw [h1, h4]
    exact ⟨by simp, (hv q.1 o h2 h3).1, (hv q.1 o h2 h3).2.symm⟩
  · intro ord A B ts hA hB hnd' hts hlen x z heq
    have hA' : A = ∅ := by
      by_contra hc
      obtain ⟨j, hj⟩ := Finset.nonempty_iff_ne_empty.mpr hc
      obtain ⟨m, h1, -, h2⟩ := hA j hj
      rw [exN_support, Finset.mem_singleton] at h1
      exact h2 rfl (h1.trans he.symm)
    subst hA'
    have hB' := ex_single (A := B) (k := 1) (by
      intro j hj
      obtain ⟨m, h1, h2, -⟩ := hB j hj
      rw [exD_support, Finset.mem_insert, Finset.mem_singleton] at h1
      rw [← h2]
      rcases h1 with rfl | rfl <;> simp)
    refine ⟨by simp, ?_⟩
    rcases hB' with rfl | rfl
    · simp
    · intro k hk
      rw [Finset.mem_singleton.mp hk]
      obtain ⟨t, rfl⟩ := List.length_eq_one_iff.mp (by simpa using hlen)
      obtain ⟨q, hq1, hq2⟩ := List.mem_map.mp (hts t (by simp))
      obtain ⟨rfl, rfl⟩ := Prod.mk.inj hq2
      obtain ⟨o, h1, h2, h3, h4⟩ := hq q hq1
      have := heq q.1 (by simp)
      rw [h1, (hv q.1 o h2 h3).2] at this
      simp only [Finset.sum_empty, Finset.sum_singleton, pow_one] at this
      have h5 := (mul_eq_zero.mp this.symm).resolve_left (one_div_ne_zero h3)
      exact (mul_eq_zero.mp h5).resolve_right h2


lemma ex_enough : Enough 2 exN exD rr1 := by
  intro o ho
  have hN : (exN.support.image Finsupp.degree) = {1} := by rw [exN_support]; simp
  have hD : (exD.support.image Finsupp.degree) = {1} := by rw [exD_support]; simp
  have cN : (exN.support.filter (fun m => m.degree = 1)).card = 1 := by rw [exN_support]; simp [Finset.filter_singleton]
  have cD : (exD.support.filter (fun m => m.degree = 1)).card = 2 := by
    rw [exD_support, Finset.filter_true_of_mem]
    · rw [Finset.card_pair s01]
    · intro x hx; rw [Finset.mem_insert, Finset.mem_singleton] at hx; rcases hx with rfl | rfl <;> simp
  unfold numDegs
  rw [hN, hD, Finset.filter_singleton, Finset.filter_singleton, cN, cD]
  rcases Nat.lt_or_ge o 3 with h | h
  · interval_cases o
    · simp; decide
    · simp; decide
  · rw [if_neg (by omega), if_neg (by omega)]; simp

lemma rr0_coefs : Coefs (1 : ZMod 101) (40 / 3) := by
  refine ⟨by decide, by decide, by decide, by decide +kernel, by decide +kernel⟩

lemma rr0_good : ∀ q ∈ rr0Probes, (q.1 : ZMod 101) ≠ 0 ∧ q.1 + 1 ≠ 0 ∧ q.1 + 1 + (40 / 3) * (q.1 * 2 ^ q.2.2.getD 0 0) ≠ 0 ∧ (40 / 3 : ZMod 101) * 2 ^ q.2.2.getD 0 0 ≠ 0 := by decide +kernel

lemma rr0_values : ∀ q ∈ rr0Probes, (q.2.1 : ZMod 101) = (q.1 + 1) / (q.1 + 1 + (40 / 3) * (q.1 * 2 ^ q.2.2.getD 0 0)) := by decide +kernel

lemma rr0_thiele : (({} : Thiele (ZMod 101)).runChecked [(2 / (2 + 40 / 3 * 2), 1), (3 / (3 + 40 / 3 * 4), 2), (4 / (4 + 40 / 3 * 6), 3), (5 / (5 + 40 / 3 * 8), 4)]).map (fun r => (r.2, r.1.ti.length)) = some (true, 4) := by decide +kernel

lemma rr0_value (t : ZMod 101) (ord : List ℕ) : RMulti.valueOf (F := ZMod 101) rr0.cfg.shift rr0.cfg.anchor (C 1 * X 0 + C 0 * X 1) (C 1 * X 0 + C (40 / 3) * X 1) t ord =
    (t + 1) / (t + 1 + (40 / 3) * (t * 2 ^ ord.getD 0 0)) := by
  unfold RMulti.valueOf
  have h := exShift_eval (gt := exGt 101) (F := ZMod 101)
  have h1 := h 1 0 t ord
  have h2 := h 1 (40 / 3) t ord
  rw [show rr0.cfg.shift = (exShift (exGt 101)).shift from rfl, show rr0.cfg.anchor = (exShift (exGt 101)).anchor from rfl, h1, h2]
  simp

lemma ex_first : FirstOK 2 exN exD rr0 1 1 1 := by
  have eN : red 101 exN = C 1 * X 0 + C 0 * X 1 := by rw [exN, red_lin]; simp
  have eD : red 101 exD = C 1 * X 0 + C (40 / 3) * X 1 := by rw [exD, red_lin, cast_40]; simp
  have eN' : (haveI := rr0.fact; red rr0.p exN) = (C 1 * X 0 + C 0 * X 1 : MvPolynomial ℕ (ZMod 101)) := eN
  have eD' : (haveI := rr0.fact; red rr0.p exD) = (C 1 * X 0 + C (40 / 3) * X 1 : MvPolynomial ℕ (ZMod 101)) := eD
  have gN : C (1 : ZMod 101) * red 101 exN = C 1 * X 0 + C 0 * X 1 := by rw [eN, C_1, one_mul]
  have gD : C (1 : ZMod 101) * red 101 exD = C 1 * X 0 + C (40 / 3) * X 1 := by rw [eD, C_1, one_mul]
  have hcfg : rr0.cfg = (exShift (exGt 101) : RMulti.Cfg (ZMod 101)) := rfl
  refine ⟨rfl, exGt_spec 101, fun m => (ex_den (p := 101) fact101.out (by norm_num) m).1, fun m => (ex_den (p := 101) fact101.out (by norm_num) m).2, ?_, ?_, ?_, by decide +kernel, ?_, by simp [rr0, rr0Probes], ?_, ?_, ?_⟩
  · intro m hm
    rw [exN_support, Finset.mem_singleton] at hm
    rw [exN, coeff_lin, if_pos hm]
    show ((1 : ℚ) : ZMod 101) ≠ 0
    rw [Rat.cast_one]; decide
  · intro m hm
    rw [exD_support, Finset.mem_insert, Finset.mem_singleton] at hm
    rw [exD, coeff_lin]
    rcases hm with rfl | rfl
    · rw [if_pos rfl]
      show ((1 : ℚ) : ZMod 101) ≠ 0
      rw [Rat.cast_one]; decide
    · rw [if_neg s01.symm, if_pos rfl]
      show ((40 / 3 : ℚ) : ZMod 101) ≠ 0
      rw [cast_40]; decide +kernel
  · intro q hq
    rw [eN', eD']
    exact (rr0_values q hq).trans (rr0_value _ _).symm
  · rintro ⟨q, rest, h1, h2⟩
    have : q = ((1, 2 / (2 + 40 / 3 * 2), [1]) : ZMod 101 × ZMod 101 × List ℕ) := by
      have := congrArg List.head? h1
      exact (Option.some.inj this).symm
    subst this
    revert h2
    show ¬ ((2 / (2 + 40 / 3 * 2) : ZMod 101) = 0)
    decide +kernel
  · suffices RMulti.Prob (exShift (exGt 101)) (C (1 : ZMod 101) * red 101 exN) (C (1 : ZMod 101) * red 101 exD) 1 1 from this
    rw [gN, gD]
    exact exShift_prob (gt := exGt 101) rr0_coefs
  · suffices RMulti.GoodPts (exShift (exGt 101)) (C (1 : ZMod 101) * red 101 exN) (C (1 : ZMod 101) * red 101 exD) (fun t ord => (t, ord) ∈ rr0Probes.map (fun q => (q.1, q.2.2))) from this
    rw [gN, gD]
    refine exShift_good (gt := exGt 101) (c := (40 / 3 : ZMod 101)) (fun t ord => (t, ord) ∈ rr0Probes.map (fun q => (q.1, q.2.2))) ?_
    intro t ord h
    obtain ⟨q, hq, hq2⟩ := List.mem_map.mp h
    obtain ⟨rfl, rfl⟩ := Prod.mk.inj hq2
    exact rr0_good q hq
  · suffices RMulti.ThieleOK (exShift (exGt 101)) (C (1 : ZMod 101) * red 101 exN) (C (1 : ZMod 101) * red 101 exD) 1 1
      (RMulti.first (exShift (exGt 101)) (C (1 : ZMod 101) * red 101 exN) (C (1 : ZMod 101) * red 101 exD) (rr0Probes.map (fun q => (q.1, q.2.2)))) from this
    rw [gN, gD]
    have hfirst : RMulti.first (exShift (exGt 101)) (C 1 * X 0 + C 0 * X 1) (C 1 * X 0 + C (40 / 3) * X 1) (rr0Probes.map (fun q => (q.1, q.2.2))) =
        [(2 / (2 + 40 / 3 * 2), 1), (3 / (3 + 40 / 3 * 4), 2), (4 / (4 + 40 / 3 * 6), 3), (5 / (5 + 40 / 3 * 8), 4)] := by
      unfold RMulti.first
      have hv := rr0_value
      have : ((rr0Probes.map (fun q => (q.1, q.2.2))).filter (fun q => decide (q.2 = RMulti.ones (exShift (exGt 101))))) = [(1, [1]), (2, [1]), (3, [1]), (4, [1])] := by decide +kernel
      rw [this]
      simp only [List.map_cons, List.map_nil]
      erw [hv, hv, hv, hv]
      decide +kernel
    rw [hfirst]
    obtain ⟨r, hr, hr2⟩ := Option.map_eq_some_iff.mp rr0_thiele
    obtain ⟨h1, h2⟩ : r.2 = true ∧ r.1.ti.length = 4 := by simpa using hr2
    refine ⟨⟨r, hr, ?_⟩, ?_, ?_, ?_, ?_⟩
    · intro _; rw [h2]; omega
    · decide +kernel
    · decide +kernel
    · decide
    · exact exShift_coprime (gt := exGt 101) (by decide +kernel)

lemma rr_ns : ∀ r ∈ [rr1, rr2], ¬ r.Skipped ∧ r.probes ≠ [] := by
  intro r hr
  simp only [List.mem_cons, List.not_mem_nil, or_false] at hr
  rcases hr with rfl | rfl
  · refine ⟨?_, by simp [rr1]⟩
    rintro ⟨q, rest, h1, h2⟩
    have : q = ((5, 1 / (1 + 40 / 3 * 9), [2]) : ZMod 103 × ZMod 103 × List ℕ) := by
      have := congrArg List.head? h1
      exact (Option.some.inj this).symm
    subst this
    revert h2
    show ¬ ((1 / (1 + 40 / 3 * 9) : ZMod 103) = 0)
    decide +kernel
  · refine ⟨?_, by simp [rr2]⟩
    rintro ⟨q, rest, h1, h2⟩
    have : q = ((7, 1 / (1 + 40 / 3 * 5), [1]) : ZMod 107 × ZMod 107 × List ℕ) := by
      have := congrArg List.head? h1
      exact (Option.some.inj this).symm
    subst this
    revert h2
    show ¬ ((1 / (1 + 40 / 3 * 5) : ZMod 107) = 0)
    decide +kernel

def idOrder : Order := ⟨id, id⟩
lemma idOrder_ok : idOrder.OK := ⟨fun l => List.Perm.refl _, fun l => List.Perm.refl _⟩

lemma rr1_q : ∀ q ∈ ([(5, 1 / (1 + 40 / 3 * 9), [2]), (1, 1 / (1 + 40 / 3 * 3), [1]), (2, 1 / (1 + 40 / 3 * 3), [1])] : List (ZMod 103 × ZMod 103 × List ℕ)),
    q.2.2 = [q.2.2.getD 0 0] ∧ q.1 ≠ 0 ∧ 1 + (40 / 3 : ZMod 103) * 3 ^ q.2.2.getD 0 0 ≠ 0 ∧ q.2.1 = 1 / (1 + 40 / 3 * 3 ^ q.2.2.getD 0 0) := by decide +kernel
lemma rr2_q : ∀ q ∈ ([(7, 1 / (1 + 40 / 3 * 5), [1])] : List (ZMod 107 × ZMod 107 × List ℕ)),
    q.2.2 = [q.2.2.getD 0 0] ∧ q.1 ≠ 0 ∧ 1 + (40 / 3 : ZMod 107) * 5 ^ q.2.2.getD 0 0 ≠ 0 ∧ q.2.1 = 1 / (1 + 40 / 3 * 5 ^ q.2.2.getD 0 0) := by decide +kernel

lemma rr_later {e : List ℕ} (he : e.toFinsupp = Finsupp.single 0 1) : ∀ r ∈ [rr1, rr2], LaterOK 2 exN exD false e r := by
  intro r hr
  simp only [List.mem_cons, List.not_mem_nil, or_false] at hr
  rcases hr with rfl | rfl
  · exact ex_later he (r := rr1) (y := (3 : ZMod 103)) rfl rfl (by decide) (exGt_spec 103) (show (3 : ZMod 103) ≠ 0 ∧ (3 : ZMod 103) ≠ 1 by decide) (fun q hq => ⟨_, rr1_q q hq⟩) (by decide +kernel)
  · exact ex_later he (r := rr2) (y := (5 : ZMod 107)) rfl rfl (by decide) (exGt_spec 107) (show (5 : ZMod 107) ≠ 0 ∧ (5 : ZMod 107) ≠ 1 by decide) (fun q hq => ⟨_, rr2_q q hq⟩) (by decide +kernel)

/-- the computation -/
lemma ex_run : isResult [([1, 0], 1, 1)] [([1, 0], 1, 1), ([0, 1], 40, 3)] (run mpzInvert idOrder (Cross.initial 101) [rr0, rr1, rr2]) = true := by decide +kernel
lemma ex_run_first : isWaiting 1 (run mpzInvert idOrder (Cross.initial 101) [rr0]) = true := by decide +kernel
lemma ex_run_second : isWaiting 2 (run mpzInvert idOrder (Cross.initial 101) [rr0, rr1]) = true := by decide +kernel

/-- The hypotheses of `C46_three_primes` hold: `x / (x + 40/3 y)` is reconstructed with the primes 101, 103, 107 (in 103 the guess is not yet right). -/
example : ∃ (l : ℚ) (N D : RnMap), l ≠ 0 ∧ run mpzInvert idOrder (Cross.initial rr0.p) [rr0, rr1, rr2] = some (.finished N D) ∧
    ((rnPoly N = C l * exN ∧ rnPoly D = C l * exD) ∨ Certified 2 (C l * exN) (C l * exD) rr0.p rr1 N D) := by
  have hone : ∀ f : MvPolynomial ℕ ℚ, C 1 * f = f := fun f => by rw [C_1, one_mul]
  refine C46_three_primes mpzInvert_spec idOrder_ok exN_vars exD_vars rr0 rr1 rr2 ex_first ?_ ?_ ?_ rr_ns ex_enough ⟨_, List.mem_cons_self, rfl⟩ ⟨by decide, by decide, by decide⟩ ?_
  · intro h
    have := ex_run_first
    unfold run at this
    rw [show Cross.initial rr0.p = Cross.initial 101 from rfl] at h
    rw [h] at this
    simp [isWaiting] at this
  · refine ⟨exN, by simp, Finsupp.single 0 1, by rw [exN_support]; simp, ?_⟩
    intro m hm _
    rw [exN_support, Finset.mem_singleton] at hm
    exact hm
  · intro l b e hl hno
    obtain ⟨rfl, rfl, he⟩ := ex_norm hl hno
    rw [hone, hone]
    exact rr_later he
  · intro l b e hl hno q hq
    obtain ⟨rfl, rfl, he⟩ := ex_norm hl hno
    rw [hone, hone]
    apply ex_below
    simp only [List.mem_cons, List.not_mem_nil, or_false] at hq
    rcases hq with rfl | rfl | rfl <;> decide

/-! ### the defect: `(5 x + 5 y)` with 5 as first prime -/

instance fact5 : Fact (Nat.Prime 5) := ⟨by norm_num⟩

def zz0 : Prime := ⟨5, fact5, { n := 2, shift := [0, 0], anchor := [2], gt := exGt 5, fuel := 100 }, [(1, 0, [1])], 101⟩
def zz1 : Prime := ⟨101, fact101, { n := 2, shift := [0, 0], anchor := [2], gt := exGt 101, fuel := 100 }, [(1, 15, [1]), (2, 30, [1]), (3, 45, [1]), (4, 60, [1]), (5, 75, [1])], 103⟩

/-- The hypotheses of `C46_zero_first_violated` hold: `5 x + 5 y`, the first two primes 5 and 101. -/
example (rs : List Prime) : run mpzInvert idOrder (Cross.initial 5) (zz0 :: zz1 :: rs) = none := by
  refine C46_zero_first_violated mpzInvert idOrder zz0 zz1 rs ⟨_, _, rfl, rfl⟩ ?_ (by simp [zz1]) (by decide +kernel) ⟨[1], by decide +kernel, by decide⟩
  rintro ⟨q, rest, h1, h2⟩
  have : q = ((1, 15, [1]) : ZMod 101 × ZMod 101 × List ℕ) := by
    have := congrArg List.head? h1
    exact (Option.some.inj this).symm
  subst this
  revert h2
  show ¬ ((15 : ZMod 101) = 0)
  decide

/-- The hypotheses of `C46_zero` hold. -/
example (rs : List Prime) : ∃ N D, run mpzInvert idOrder (Cross.initial 5) (zz0 :: zz0 :: zz0 :: rs) = some (.finished N D) ∧ rnPoly N = 0 ∧ rnPoly D = 1 := by
  obtain ⟨N, D, h1, h2, h3, -⟩ := C46_zero mpzInvert idOrder zz0 zz0 zz0 rs (by
    intro r hr
    have : r = zz0 := by simpa using hr
    subst this
    exact ⟨_, _, rfl, rfl⟩)
  exact ⟨N, D, h1, h2, h3⟩

/-- The hypotheses of `C46_skip` hold: the state after the first prime field. -/
example : ∃ (l : ℚ) (b : Bool) (e : List ℕ) (c c' : Cross), OK 2 (C l * exN) (C l * exD) b e 101 c ∧ prime mpzInvert idOrder c zz0 = some (.nextPrime c') ∧ OK 2 (C l * exN) (C l * exD) b e 101 c' := by
  rcases C46_first (inv := mpzInvert) idOrder_ok exN_vars exD_vars ex_first with ⟨h, -⟩ | ⟨h, -⟩ | ⟨l, b, e, c, -, -, -, hc, hnum⟩
  · exfalso
    have := ex_run_first
    unfold run at this
    rw [show Cross.initial rr0.p = Cross.initial 101 from rfl] at h
    rw [h] at this
    simp [isWaiting] at this
  · exfalso
    have := ex_run_first
    unfold run at this
    rw [show Cross.initial rr0.p = Cross.initial 101 from rfl] at h
    rw [h] at this
    simp [isWaiting] at this
  · obtain ⟨c', h1, h2, -⟩ := C46_skip mpzInvert idOrder hc (r := zz0) ⟨_, _, rfl, rfl⟩ (by rw [hnum]; norm_num)
    exact ⟨l, b, e, c, c', hc, h1, h2⟩

end FireFly.RRun
