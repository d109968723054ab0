import Verif.Model.Rational
import Verif.Tac
import Mathlib.RingTheory.Coprime.Lemmas
import Mathlib.RingTheory.Int.Basic
import Mathlib.Algebra.Order.Ring.Abs

namespace FireFly

/-- invariant of the extended Euclidean algorithm on `(p, a)` -/
structure EuInv (a p t newt r newr : Int) : Prop where
  sgn : (0 ≤ t ∧ newt < 0) ∨ (t ≤ 0 ∧ 0 < newt)
  det : |newt| * r + |t| * newr = p
  t1 : p ∣ t * a - r
  t2 : p ∣ newt * a - newr
  nn : 0 ≤ newr
  lt : newr < r

lemma EuInv.init {a p : Int} (h0 : 0 ≤ a) (h : a < p) : EuInv a p 0 1 p a where
  sgn := by simp
  det := by simp
  t1 := by simp
  t2 := by simp
  nn := h0
  lt := h

lemma EuInv.step {a p t newt r newr : Int} (h : EuInv a p t newt r newr) (h0 : newr ≠ 0) :
    EuInv a p newt (t - Int.tdiv r newr * newt) newr (r - Int.tdiv r newr * newr) := by
  obtain ⟨sgn, det, t1, t2, nn, lt⟩ := h
  have hpos : 0 < newr := by omega
  have hq : Int.tdiv r newr = r / newr := Int.tdiv_eq_ediv_of_nonneg (by omega)
  rw [hq]
  set q := r / newr with hqd
  have hq1 : 1 ≤ q := by
    rw [hqd, Int.le_ediv_iff_mul_le hpos]; omega
  have hdm := Int.mul_ediv_add_emod r newr
  have hm0 := Int.emod_nonneg r h0
  have hm1 := Int.emod_lt_of_pos r hpos
  have hr : r - q * newr = r % newr := by rw [hqd]; linarith [mul_comm newr (r/newr)]
  have habs : |t - q * newt| = |t| + q * |newt| := by
    rcases sgn with ⟨h1, h2⟩ | ⟨h1, h2⟩
    · rw [abs_of_nonneg h1, abs_of_neg h2, abs_of_nonneg]; · ring
      nlinarith
    · rw [abs_of_nonpos h1, abs_of_pos h2, abs_of_nonpos]; · ring
      nlinarith
  refine ⟨?_, ?_, t2, ?_, by omega, by omega⟩
  · rcases sgn with ⟨h1, h2⟩ | ⟨h1, h2⟩
    · right; exact ⟨h2.le, by nlinarith⟩
    · left; exact ⟨h2.le, by nlinarith⟩
  · rw [habs, ← det]; ring
  · have : (t - q * newt) * a - (r - q * newr) = (t * a - r) - q * (newt * a - newr) := by ring
    rw [this]; exact dvd_sub t1 (Dvd.dvd.mul_left t2 _)

lemma EuInv.newt_ne {a p t newt r newr : Int} (h : EuInv a p t newt r newr) : newt ≠ 0 := by
  rcases h.sgn with h | h <;> omega

lemma ratLoop_spec {a p : Int} (hp : 0 < p) : ∀ s : EuState, EuInv a p s.t s.newt s.r s.newr →
    2 * s.r * s.r > p →
    ∃ s', ratLoop p s = some s' ∧ EuInv a p s'.t s'.newt s'.r s'.newr ∧ 2 * s'.r * s'.r > p ∧
      2 * s'.newr * s'.newr ≤ p := by
  intro s
  induction hn : s.newr.natAbs using Nat.strong_induction_on generalizing s with
  | _ n ih =>
  intro hi hr
  unfold ratLoop
  split_ifs with h1 h2
  · rw [h2] at h1; omega
  · exact ih _ (by have := s.step_natAbs_lt h2; omega) s.step rfl (hi.step h2) h1
  · exact ⟨s, rfl, hi, hr, by omega⟩

lemma ctor_coprime {n d : Int} (hd : 0 < d) (hg : Int.gcd n d = 1) :
    RationalNumber.ctor n d = some ⟨n, d⟩ := by
  unfold RationalNumber.ctor
  simp only [hg]
  norm_num
  intro h; omega

lemma EuInv.detEq {a p t newt r newr : Int} (h : EuInv a p t newt r newr) :
    newt * r - t * newr = p ∨ newt * r - t * newr = -p := by
  have := h.det
  rcases h.sgn with ⟨h1, h2⟩ | ⟨h1, h2⟩
  · right; rw [abs_of_nonneg h1, abs_of_neg h2] at this; linarith
  · left; rw [abs_of_nonpos h1, abs_of_pos h2] at this; linarith

lemma abs_comb {u v t newt : Int} (huv : (0 < u ∧ 0 < v) ∨ (u < 0 ∧ v < 0))
    (sgn : (0 ≤ t ∧ newt < 0) ∨ (t ≤ 0 ∧ 0 < newt)) : |newt| ≤ |u * t - v * newt| := by
  have key : |newt| ≤ |v| * |newt| := by
    have : 1 ≤ |v| := Int.one_le_abs (by rcases huv with h | h <;> omega)
    nlinarith [abs_nonneg newt]
  refine key.trans ?_
  rw [← abs_mul]
  rcases huv with ⟨hu1, hv1⟩ | ⟨hu1, hv1⟩ <;> rcases sgn with ⟨h1, h2⟩ | ⟨h1, h2⟩
  · have a1 : 0 ≤ u * t := mul_nonneg hu1.le h1
    have a2 : v * newt < 0 := mul_neg_of_pos_of_neg hv1 h2
    rw [abs_of_neg a2, abs_of_nonneg (by linarith)]; linarith
  · have a1 : u * t ≤ 0 := mul_nonpos_of_nonneg_of_nonpos hu1.le h1
    have a2 : 0 < v * newt := mul_pos hv1 h2
    rw [abs_of_pos a2, abs_of_nonpos (by linarith)]; linarith
  · have a1 : u * t ≤ 0 := mul_nonpos_of_nonpos_of_nonneg hu1.le h1
    have a2 : 0 < v * newt := mul_pos_of_neg_of_neg hv1 h2
    rw [abs_of_pos a2, abs_of_nonpos (by linarith)]; linarith
  · have a1 : 0 ≤ u * t := mul_nonneg_of_nonpos_of_nonpos hu1.le h1
    have a2 : v * newt < 0 := mul_neg_of_neg_of_pos hv1 h2
    rw [abs_of_neg a2, abs_of_nonneg (by linarith)]; linarith

/-- the lattice argument: a small solution is a multiple of the state reached by the loop -/
lemma lattice_eq {a p t newt r newr n d : Int} (h : EuInv a p t newt r newr) (hp : 0 < p)
    (hr : 2 * r * r > p) (hnr : 2 * newr * newr ≤ p)
    (hn : 2 * n * n < p) (hd : 2 * d * d < p) (hcong : p ∣ n - a * d) :
    n * newt = d * newr := by
  have hdet := h.detEq
  obtain ⟨sgn, det, t1, t2, nn, lt⟩ := h
  have hX : p ∣ n * newt - d * newr := by
    have : n * newt - d * newr = (n - a * d) * newt + d * (newt * a - newr) := by ring
    rw [this]; exact dvd_add (Dvd.dvd.mul_right hcong _) (Dvd.dvd.mul_left t2 _)
  have hY : p ∣ n * t - d * r := by
    have : n * t - d * r = (n - a * d) * t + d * (t * a - r) := by ring
    rw [this]; exact dvd_add (Dvd.dvd.mul_right hcong _) (Dvd.dvd.mul_left t1 _)
  obtain ⟨u, hu⟩ := hX
  obtain ⟨v, hv⟩ := hY
  by_contra hne
  have hu0 : u ≠ 0 := by
    intro h0; rw [h0, mul_zero] at hu; exact hne (by linarith)
  -- n = ±(u r - v newr), d = ±(u t - v newt)
  have hrpos : 0 < r := by omega
  have hn1 : |n| < r := by
    have : |n| * |n| < r * r := by rw [abs_mul_abs_self]; nlinarith
    exact abs_lt_of_sq_lt_sq (by nlinarith [abs_mul_abs_self n]) hrpos.le
  have hdr : |d| < r := by
    exact abs_lt_of_sq_lt_sq (by nlinarith [abs_mul_abs_self d]) hrpos.le
  -- expressions
  have e1 : (newt * r - t * newr) * n = p * (u * r - v * newr) := by
    linear_combination r * hu - newr * hv
  have e2 : (newt * r - t * newr) * d = p * (u * t - v * newt) := by
    linear_combination t * hu - newt * hv
  -- normalise to n = u r - v newr up to a common sign
  obtain ⟨e, he, hn2, hd2⟩ : ∃ e : Int, (e = 1 ∨ e = -1) ∧ n = e * (u * r - v * newr) ∧
      d = e * (u * t - v * newt) := by
    rcases hdet with h1 | h1
    · rw [h1] at e1 e2
      exact ⟨1, Or.inl rfl, by rw [one_mul]; exact mul_left_cancel₀ hp.ne' e1,
        by rw [one_mul]; exact mul_left_cancel₀ hp.ne' e2⟩
    · rw [h1] at e1 e2
      refine ⟨-1, Or.inr rfl, ?_, ?_⟩
      · apply mul_left_cancel₀ hp.ne'; linear_combination -e1
      · apply mul_left_cancel₀ hp.ne'; linear_combination -e2
  have hnabs : |n| = |u * r - v * newr| := by
    rw [hn2, abs_mul]; rcases he with rfl | rfl <;> simp
  have hdabs : |d| = |u * t - v * newt| := by
    rw [hd2, abs_mul]; rcases he with rfl | rfl <;> simp
  -- u and v have the same sign, v ≠ 0
  have huv : (0 < u ∧ 0 < v) ∨ (u < 0 ∧ v < 0) := by
    rcases lt_or_gt_of_ne hu0 with hneg | hpos
    · right; refine ⟨hneg, ?_⟩
      by_contra hv0
      push Not at hv0
      have : u * r - v * newr ≤ -r := by nlinarith
      rw [hnabs, abs_of_nonpos (by linarith)] at hn1; linarith
    · left; refine ⟨hpos, ?_⟩
      by_contra hv0
      push Not at hv0
      have : r ≤ u * r - v * newr := by nlinarith
      rw [hnabs, abs_of_nonneg (by linarith)] at hn1; linarith
  have hdn : |newt| ≤ |d| := by
    rw [hdabs]
    exact abs_comb huv sgn
  have hX2 : p ≤ |n * newt - d * newr| := by
    rw [hu, abs_mul, abs_of_pos hp]
    have : 1 ≤ |u| := Int.one_le_abs hu0
    nlinarith
  have h3 : |n * newt - d * newr| ≤ |n| * |newt| + |d| * newr := by
    calc |n * newt - d * newr| ≤ |n * newt| + |d * newr| := abs_sub _ _
      _ = |n| * |newt| + |d| * newr := by rw [abs_mul, abs_mul, abs_of_nonneg nn]
  have h4 : |n| * |newt| ≤ |n| * |d| := mul_le_mul_of_nonneg_left hdn (abs_nonneg _)
  have hnn := abs_mul_abs_self n
  have hdd := abs_mul_abs_self d
  have h5 : 2 * (|n| * |d|) ≤ |n| * |n| + |d| * |d| := by nlinarith [sq_nonneg (|n| - |d|)]
  have h6 : 2 * (|d| * newr) ≤ |d| * |d| + newr * newr := by nlinarith [sq_nonneg (|d| - newr)]
  clear hnabs hdabs hn2 hd2 e1 e2 hu hv t1 t2 hcong det hdet huv sgn
  linarith

lemma lattice_unit {a p t newt r newr n d : Int} (h : EuInv a p t newt r newr) (hp : 0 < p)
    (hg : Int.gcd n d = 1) (hcong : p ∣ n - a * d) (heq : n * newt = d * newr) :
    (newr = n ∧ newt = d) ∨ (newr = -n ∧ newt = -d) := by
  have hcop : IsCoprime n d := Int.isCoprime_iff_gcd_eq_one.mpr hg
  have hdv : d ∣ newt := by
    refine hcop.symm.dvd_of_dvd_mul_left (z := newt) ?_
    exact ⟨newr, heq⟩
  obtain ⟨k, hk⟩ := hdv
  have hnk : newr = n * k := by
    by_cases hd0 : d = 0
    · rw [hd0, zero_mul] at hk
      exact absurd hk h.newt_ne
    · have : d * newr = d * (n * k) := by rw [← heq, hk]; ring
      exact mul_left_cancel₀ hd0 this
  have hY : p ∣ d * r - t * n := by
    have : d * r - t * n = -((n - a * d) * t + d * (t * a - r)) := by ring
    rw [this, dvd_neg]; exact dvd_add (Dvd.dvd.mul_right hcong _) (Dvd.dvd.mul_left h.t1 _)
  obtain ⟨w, hw⟩ := hY
  have hkw : k * w = 1 ∨ k * w = -1 := by
    have hdet := h.detEq
    rw [hk, hnk] at hdet
    have e : d * k * r - t * (n * k) = p * (k * w) := by
      have : d * k * r - t * (n * k) = k * (d * r - t * n) := by ring
      rw [this, hw]; ring
    rw [e] at hdet
    rcases hdet with h1 | h1
    · left; apply mul_left_cancel₀ hp.ne'; linarith
    · right; apply mul_left_cancel₀ hp.ne'; linarith
  have hk1 : k = 1 ∨ k = -1 := by
    rcases hkw with h1 | h1
    · exact Int.eq_one_or_neg_one_of_mul_eq_one h1
    · exact Int.eq_one_or_neg_one_of_mul_eq_one (u := k) (v := -w) (by linarith)
  rcases hk1 with rfl | rfl
  · left; exact ⟨by linarith, by linarith⟩
  · right; exact ⟨by linarith, by linarith⟩

end FireFly
