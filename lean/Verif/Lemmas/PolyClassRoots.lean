import Verif.Lemmas.PolyClassDiv
import Mathlib.Algebra.Polynomial.Roots
import Mathlib.Algebra.Polynomial.Derivative
import Mathlib.Data.ZMod.Basic
import Mathlib.Algebra.Field.ZMod
set_option linter.all false

open Polynomial

namespace FireFly

namespace PolyC

variable {F : Type*} [Field F] [DecidableEq F]

theorem nonzero_cond (b : List F) : (degC b ≠ 0 ∨ b.getD 0 0 ≠ 0) ↔ polyOf b ≠ 0 := by
  constructor
  · rintro h h0
    rw [degC_eq, ← polyOf_coeff, h0] at h
    simp at h
  · intro h
    by_contra h1
    push Not at h1
    apply h
    rw [degC_eq, ← polyOf_coeff] at h1
    rw [eq_C_of_natDegree_eq_zero h1.1, h1.2, C_0]

theorem mod_ok (a z : List F) (ha : a ≠ []) (hz : polyOf z ≠ 0)
    (h : polyOf a ≠ 0 ∨ 0 < (polyOf z).natDegree) :
    ∃ r, mod a z = .ok r ∧ polyOf z ∣ polyOf a - polyOf r ∧
      (polyOf r).degree < (polyOf z).degree ∧ r ≠ [] := by
  obtain ⟨q, r, h1, h2, h3, h4, h5⟩ := divC_ok a z ha hz h
  refine ⟨r, by rw [mod, h1]; rfl, ⟨polyOf q, by rw [h2]; ring⟩, h3, h5⟩

theorem gcdLoop_ok (n : ℕ) (a b : List F) (ha : a ≠ []) (hb : b ≠ [])
    (hn : 1 ≤ n) (hn2 : polyOf b ≠ 0 → (polyOf b).natDegree + 2 ≤ n)
    (h : polyOf a ≠ 0 ∨ polyOf b = 0 ∨ 0 < (polyOf b).natDegree) :
    ∃ g, gcdLoop n a b = .ok g ∧ IsGCD (polyOf g) (polyOf a) (polyOf b) ∧ g ≠ [] := by
  induction n generalizing a b with
  | zero => omega
  | succ n ih =>
    rw [gcdLoop, if_neg hb]
    by_cases h0 : polyOf b = 0
    · rw [if_neg (by rw [nonzero_cond]; simpa using h0)]
      exact ⟨a, rfl, ⟨dvd_rfl, by rw [h0]; exact dvd_zero _, fun d h1 _ => h1⟩, ha⟩
    · rw [if_pos ((nonzero_cond b).2 h0)]
      obtain ⟨r, h1, ⟨w, hw⟩, h3, h4⟩ := mod_ok a b ha h0 (by tauto)
      rw [h1]
      simp only
      have hn3 := hn2 h0
      obtain ⟨g, hg1, hg2, hg3⟩ := ih b r hb h4 (by omega)
        (fun hr => by have := natDegree_lt_natDegree hr h3; omega) (Or.inl h0)
      refine ⟨g, hg1, ⟨?_, hg2.1, ?_⟩, hg3⟩
      · have : polyOf a = polyOf b * w + polyOf r := by rw [← hw]; ring
        rw [this]
        exact dvd_add (Dvd.dvd.mul_right hg2.1 _) hg2.2.1
      · intro d hd1 hd2
        apply hg2.2.2 d hd2
        have : polyOf r = polyOf a - polyOf b * w := by rw [← hw]; ring
        rw [this]
        exact dvd_sub hd1 (Dvd.dvd.mul_right hd2 _)

theorem gcd_ok (c d : List F) (hc : c ≠ []) (hd : d ≠ [])
    (h : polyOf c ≠ 0 ∨ polyOf d = 0 ∨ 0 < (polyOf d).natDegree) :
    ∃ g, gcd c d = .ok g ∧ IsGCD (polyOf g) (polyOf c) (polyOf d) ∧ g ≠ [] := by
  refine gcdLoop_ok _ c d hc hd (by omega) (fun h0 => ?_) h
  have := degC_lt d hd
  rw [degC_eq] at this; omega

theorem gcd_undefined (c d : List F) (hc : c ≠ []) (h : polyOf c = 0) (hd : polyOf d ≠ 0)
    (hdeg : (polyOf d).natDegree = 0) : gcd c d = .error .undefined := by
  have hd0 : d ≠ [] := by rintro rfl; simp [polyOf] at hd
  rw [gcd, gcdLoop, if_neg hd0, if_pos ((nonzero_cond d).2 hd), mod,
    divC_zero_by_constant c d hc h hd hdeg]
  rfl

/-! ### powers and splitting -/

theorem powLoop_ok (multi q : List F) (hq : 0 < (polyOf q).natDegree) (n : ℕ) (master : List F) :
    master ≠ [] → ∃ r, powLoop multi q n master = .ok r ∧
      polyOf q ∣ polyOf master * polyOf multi ^ n - polyOf r ∧ r ≠ [] := by
  have hq0 : polyOf q ≠ 0 := by rintro h; rw [h] at hq; simp at hq
  induction n generalizing master with
  | zero => intro hm; exact ⟨master, rfl, by simp, hm⟩
  | succ n ih =>
    intro hm
    obtain ⟨r, h1, h2, -, h3⟩ := mod_ok (mulC master multi) q (mulC_spec _ _).2 hq0 (Or.inr hq)
    obtain ⟨r', h4, h5, h6⟩ := ih r h3
    refine ⟨r', by rw [powLoop, h1]; exact h4, ?_, h6⟩
    rw [(mulC_spec _ _).1] at h2
    have : polyOf master * polyOf multi ^ (n + 1) - polyOf r' =
        (polyOf master * polyOf multi - polyOf r) * polyOf multi ^ n +
        (polyOf r * polyOf multi ^ n - polyOf r') := by ring
    rw [this]
    exact dvd_add (Dvd.dvd.mul_right h2 _) h5

theorem polyOf_pair (d : F) : polyOf ([d, 1] : List F) = X + C d := by
  rw [polyOf_eq_iff]; intro n
  rw [coeff_add, coeff_X, coeff_C]
  match n with
  | 0 => simp
  | 1 => simp
  | n + 2 => simp

theorem split_ok (s : ℕ) (q : List F) (delta : F) (hq : 0 < (polyOf q).natDegree) :
    ∃ h f, split s q delta = .ok (h, f) ∧ h ≠ [] ∧ f ≠ [] ∧
      polyOf q = polyOf h * polyOf f ∧ IsGCD (polyOf h) (polyOf q) ((X + C delta) ^ s - 1) := by
  have hq0 : polyOf q ≠ 0 := by rintro h; rw [h] at hq; simp at hq
  have hq1 : q ≠ [] := by rintro rfl; simp [polyOf] at hq0
  have hm0 : resize ([1] : List F) (degC q + 2) ≠ [] := by
    intro h1; have := congrArg List.length h1; rw [resize_length] at this; simp at this
  obtain ⟨r, h1, h2, h3⟩ := powLoop_ok [delta, 1] q hq s _ hm0
  have hone : degC ([1] : List F) = 0 := rfl
  rw [polyOf_resize _ (by omega), polyOf_one, one_mul, polyOf_pair] at h2
  unfold split
  rw [h1]
  simp only [bind, Except.bind]
  obtain ⟨t, ht⟩ : ∃ t, r.set 0 (r.getD 0 0 - 1) = t := ⟨_, rfl⟩
  rw [ht]
  have hT : polyOf t = polyOf r - 1 := by
    rw [← ht, sub_eq_add_neg, polyOf_set r (List.length_pos_iff.2 h3)]
    rw [monomial_zero_left, map_neg, C_1, ← sub_eq_add_neg]
  have ht0 : t ≠ [] := by
    intro h; apply h3; have := congrArg List.length (ht.trans h); simpa using this
  obtain ⟨g, hg1, hg2, hg3⟩ := gcd_ok q t hq1 ht0 (Or.inl hq0)
  rw [hg1]
  simp only
  have hg0 : polyOf g ≠ 0 := by
    rintro h0; have := hg2.1; rw [h0, zero_dvd_iff] at this; exact hq0 this
  obtain ⟨f, rem, hf1, hf2, hf3, hf4, hf5⟩ := divC_ok q g hq1 hg0 (Or.inl hq0)
  have hrem : polyOf rem = 0 := by
    by_contra hr
    have hd : polyOf g ∣ polyOf rem := by
      have : polyOf rem = polyOf q - polyOf g * polyOf f := by rw [hf2]; ring
      rw [this]; exact dvd_sub hg2.1 (dvd_mul_right _ _)
    exact absurd (degree_le_of_dvd hd hr) (not_le.2 hf3)
  rw [hrem, add_zero] at hf2
  have hdiv : div q g = .ok f := by rw [div, hf1]; rfl
  rw [hdiv]
  simp only
  have hf0 : polyOf f ≠ 0 := by rintro h0; rw [h0, mul_zero] at hf2; exact hq0 hf2
  obtain ⟨g', hg'1, hg'2, hg'3, -, -⟩ := shrink_ok hg0
  obtain ⟨f', hf'1, hf'2, hf'3, -, -⟩ := shrink_ok hf0
  rw [hg'1, hf'1]
  refine ⟨g', f', rfl, hg'3, hf'3, by rw [hg'2, hf'2, hf2], ?_⟩
  rw [hg'2]
  obtain ⟨w, hw⟩ := h2
  have e : (X + C delta) ^ s - 1 = polyOf q * w + polyOf t := by rw [← hw, hT]; ring
  refine ⟨hg2.1, ?_, fun d hd1 hd2 => hg2.2.2 d hd1 ?_⟩
  · rw [e]; exact dvd_add (Dvd.dvd.mul_right hg2.1 _) hg2.2.1
  · have : polyOf t = ((X + C delta) ^ s - 1) - polyOf q * w := by rw [e]; ring
    rw [this]; exact dvd_sub hd2 (Dvd.dvd.mul_right hd1 _)

/-! ### the loop of `roots` -/

/-- The product of the polynomials in the queue and of the linear factors found so far. -/
noncomputable def val (queue : List (List F)) (rs : List F) : F[X] :=
  (queue.map polyOf).prod * (rs.map (fun r => X - C r)).prod

def Good (queue : List (List F)) : Prop := ∀ q ∈ queue, polyOf q ≠ 0

theorem settle_spec (queue : List (List F)) (rs : List F) (hq : Good queue) :
    (∃ u : F, u ≠ 0 ∧ val queue rs = C u * val (settle queue rs).1 (settle queue rs).2) ∧
    (settle queue rs).1 <:+ queue ∧
    (∀ q qs, (settle queue rs).1 = q :: qs → 2 ≤ (polyOf q).natDegree) := by
  induction queue generalizing rs with
  | nil => exact ⟨⟨1, one_ne_zero, by simp [settle]⟩, by simp [settle], by simp [settle]⟩
  | cons q qs ih =>
    have hq0 : polyOf q ≠ 0 := hq q (by simp)
    have hqs : Good qs := fun x hx => hq x (by simp [hx])
    rw [settle]
    split_ifs with h0 h1
    · obtain ⟨⟨u, hu, hv⟩, h2, h3⟩ := ih rs hqs
      refine ⟨⟨(polyOf q).coeff 0 * u, ?_, ?_⟩, h2.trans (List.suffix_cons _ _), h3⟩
      · refine mul_ne_zero (fun h => hq0 ?_) hu
        rw [eq_C_of_natDegree_eq_zero (p := polyOf q) (by rw [← degC_eq]; exact h0), h, C_0]
      · have e : polyOf q = C ((polyOf q).coeff 0) :=
          eq_C_of_natDegree_eq_zero (by rw [← degC_eq]; exact h0)
        have : val (q :: qs) rs = polyOf q * val qs rs := by simp [val, mul_assoc]
        rw [this, hv, C_mul, mul_assoc]
        conv_lhs => rw [e]
    · obtain ⟨⟨u, hu, hv⟩, h2, h3⟩ := ih (rs ++ [-q.getD 0 0 / q.getD 1 0]) hqs
      have hl : q.getD 1 0 ≠ 0 := by
        have := degC_ne q (by omega); rwa [h1] at this
      refine ⟨⟨q.getD 1 0 * u, mul_ne_zero hl hu, ?_⟩, h2.trans (List.suffix_cons _ _), h3⟩
      have e : polyOf q = C (q.getD 1 0) * (X - C (-q.getD 0 0 / q.getD 1 0)) := by
        rw [eq_X_add_C_of_natDegree_le_one (p := polyOf q) (by rw [← degC_eq]; omega), polyOf_coeff,
          polyOf_coeff, mul_sub, ← C_mul, mul_div_cancel₀ _ hl, C_neg]
        ring
      have : val (q :: qs) rs = C (q.getD 1 0) * val qs (rs ++ [-q.getD 0 0 / q.getD 1 0]) := by
        simp only [val, List.map_cons, List.prod_cons, List.map_append, List.map_nil, List.prod_append,
          List.prod_nil, mul_one]
        conv_lhs => rw [e]
        ring
      rw [this, hv, C_mul, mul_assoc]
    · refine ⟨⟨1, one_ne_zero, by simp⟩, List.suffix_rfl, ?_⟩
      rintro q' qs' h
      simp only [List.cons.injEq] at h
      rw [← h.1, ← degC_eq]; omega

theorem good_suffix {a b : List (List F)} (h : a <:+ b) (hb : Good b) : Good a :=
  fun q hq => hb q (h.subset hq)

/-- The outer loop never fails, and what it returns are the linear factors. -/
theorem rootsLoop_spec (s : ℕ) (draws : List F) (queue : List (List F)) (rs : List F)
    (hq : Good queue) :
    ∃ o, rootsLoop s draws queue rs = .ok o ∧
      ∀ out, o = some out → ∃ u : F, u ≠ 0 ∧ val queue rs = C u * val [] out := by
  induction draws generalizing queue rs with
  | nil =>
    obtain ⟨h1, h2, h3⟩ := settle_spec queue rs hq
    rw [rootsLoop]
    obtain ⟨⟨q', rs'⟩, hs⟩ : ∃ x, settle queue rs = x := ⟨_, rfl⟩
    rw [hs] at h1 h2 h3 ⊢
    cases q' with
    | nil => exact ⟨_, rfl, fun out ho => by simp at ho; subst ho; exact h1⟩
    | cons q qs => exact ⟨_, rfl, fun out ho => by simp at ho⟩
  | cons d ds ih =>
    obtain ⟨h1, h2, h3⟩ := settle_spec queue rs hq
    rw [rootsLoop]
    obtain ⟨⟨q', rs'⟩, hs⟩ : ∃ x, settle queue rs = x := ⟨_, rfl⟩
    rw [hs] at h1 h2 h3 ⊢
    cases q' with
    | nil => exact ⟨_, rfl, fun out ho => by simp at ho; subst ho; exact h1⟩
    | cons q qs =>
      have hdeg := h3 q qs rfl
      obtain ⟨h, f, e1, e2, e3, e4, e5⟩ := split_ok s q d (by omega)
      simp only [e1]
      have hq0 : polyOf q ≠ 0 := good_suffix h2 hq q (by simp)
      have hgood : Good (f :: h :: qs) := by
        intro x hx
        rw [List.mem_cons, List.mem_cons] at hx
        rcases hx with rfl | rfl | hx
        · rintro h0; rw [h0, mul_zero] at e4; exact hq0 e4
        · rintro h0; rw [h0, zero_mul] at e4; exact hq0 e4
        · exact good_suffix h2 hq x (by simp [hx])
      obtain ⟨o, ho1, ho2⟩ := ih (f :: h :: qs) rs' hgood
      refine ⟨o, ho1, fun out hout => ?_⟩
      obtain ⟨u, hu, hu2⟩ := ho2 out hout
      obtain ⟨w, hw, hw2⟩ := h1
      refine ⟨w * u, mul_ne_zero hw hu, ?_⟩
      rw [hw2, C_mul, mul_assoc, ← hu2]
      simp only [val, List.map_cons, List.prod_cons]
      rw [e4]; ring

theorem stripZeros_spec (c rs : List F) (hc : polyOf c ≠ 0) :
    ∃ k a, stripZeros c rs = .ok (a, rs ++ List.replicate k 0) ∧ polyOf c = X ^ k * polyOf a := by
  induction c generalizing rs with
  | nil => simp [polyOf] at hc
  | cons x l ih =>
    rw [stripZeros]
    split_ifs with h
    · subst h
      have e : polyOf (0 :: l) = X * polyOf l := by
        have := polyOf_zeros_append 1 l
        simpa using this
      obtain ⟨k, a, h1, h2⟩ := ih (rs ++ [0]) (by rintro h0; rw [e, h0, mul_zero] at hc; exact hc rfl)
      refine ⟨k + 1, a, ?_, ?_⟩
      · rw [h1]; simp [List.replicate_succ]
      · rw [e, h2]; ring
    · exact ⟨0, x :: l, by simp, by simp⟩

theorem prod_replicate_zero (k : ℕ) :
    ((List.replicate k (0 : F)).map (fun r => X - C r)).prod = X ^ k := by
  simp

/-- The state in which the outer loop of `roots` starts. -/
theorem roots_start (s : ℕ) (c : List F) (hc : polyOf c ≠ 0) :
    ∃ a rs, (∀ draws, roots s c draws = rootsLoop s draws [a] rs) ∧ polyOf a ≠ 0 ∧
      polyOf c = C (polyOf c).leadingCoeff * val [a] rs := by
  obtain ⟨b, hb1, hb2, hb3, hb4, hb5⟩ := shrink_ok hc
  have hlead : (polyOf c).leadingCoeff ≠ 0 := leadingCoeff_ne_zero.2 hc
  have hB : polyOf (sdivC b (b.getLastD 0)) = C ((polyOf c).leadingCoeff)⁻¹ * polyOf c := by
    rw [sdivC_eq, (smulC_spec b _ hb3).1, hb2, hb4]
  have hB0 : polyOf (sdivC b (b.getLastD 0)) ≠ 0 := by
    rw [hB]; exact mul_ne_zero (C_ne_zero.2 (inv_ne_zero hlead)) hc
  obtain ⟨k, a, h1, h2⟩ := stripZeros_spec (sdivC b (b.getLastD 0)) [] hB0
  refine ⟨a, List.replicate k 0, ?_, ?_, ?_⟩
  · intro draws
    rw [roots, hb1]
    simp only [bind, Except.bind, h1, List.nil_append]
  · rintro h0; rw [h0, mul_zero] at h2; exact hB0 h2
  · have : val [a] (List.replicate k 0) = polyOf (sdivC b (b.getLastD 0)) := by
      rw [val, prod_replicate_zero, h2]; simp; ring
    rw [this, hB, ← mul_assoc, ← C_mul, mul_inv_cancel₀ hlead, C_1, one_mul]

theorem roots_undefined (s : ℕ) (c draws : List F) (hc : polyOf c = 0) :
    roots s c draws = .error .undefined := by
  rw [roots, shrink_zero hc]; rfl

end PolyC

end FireFly
