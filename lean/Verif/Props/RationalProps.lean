import Verif.Lemmas.RationalLemmas
import Mathlib.Data.Rat.Defs
import Mathlib.Algebra.Field.Rat
import Mathlib.Data.Rat.Lemmas
import Mathlib.Data.Int.ModEq
/-! # C08–C12: Chinese remaindering, rational reconstruction, rational numbers -/
namespace FireFly

/-! ## C08 -/

theorem mpzInvert_spec : InvertSpec mpzInvert := by
  intro x m hm hg
  unfold mpzInvert
  refine ⟨Int.emod_nonneg _ hm.ne', ?_⟩
  have h1 := Int.gcd_eq_gcd_ab x m
  rw [hg] at h1
  have h2 := Int.mul_ediv_add_emod (Int.gcdA x m) m
  refine ⟨-(Int.gcdA x m / m) * x - Int.gcdB x m, ?_⟩
  push_cast at h1
  linear_combination h2 * x - h1

/-- C08: for coprime positive moduli and non-negative residues the result is the unique
simultaneous solution in `[0, n1*n2)`, for every `mpz_invert` obeying its documented contract. -/
theorem C08_crt (inv : ℤ → ℤ → ℤ) (hinv : InvertSpec inv) (a1 n1 a2 n2 : ℤ)
    (h1 : 0 < n1) (h2 : 0 < n2) (hc : Int.gcd n1 n2 = 1) (ha1 : 0 ≤ a1) (ha2 : 0 ≤ a2) :
    let res := runChineseRemainder inv (a1, n1) (a2, n2)
    res.2 = n1 * n2 ∧ 0 ≤ res.1 ∧ res.1 < n1 * n2 ∧
    res.1 ≡ a1 [ZMOD n1] ∧ res.1 ≡ a2 [ZMOD n2] ∧
    ∀ b, 0 ≤ b → b < n1 * n2 → b ≡ a1 [ZMOD n1] → b ≡ a2 [ZMOD n2] → b = res.1 := by
  intro res
  obtain ⟨hi0, hi1⟩ := hinv n2 n1 h1 (by rw [Int.gcd_comm]; exact hc)
  set n := n1 * n2 with hn
  have hnpos : 0 < n := by positivity
  set m1 := inv n2 n1 * n2 with hm1
  have hm1nn : 0 ≤ m1 := by positivity
  -- m2
  set m2' := Int.tmod (1 - m1) n with hm2'
  set m2 := if m2' < 0 then m2' + n else m2' with hm2
  have htm : m2' = (1 - m1) - n * Int.tdiv (1 - m1) n := by
    have := Int.mul_tdiv_add_tmod (1 - m1) n; rw [hm2']; linarith
  have hlow : -n < m2' := by
    have := Int.neg_tmod (-(1 - m1)) n
    have h3 := Int.tmod_lt_of_pos (-(1 - m1)) hnpos
    rw [neg_neg] at this; rw [hm2']; linarith
  have hm2nn : 0 ≤ m2 := by rw [hm2]; split_ifs <;> omega
  have hm2n : n ∣ m2 - (1 - m1) := by
    rw [hm2]; split_ifs
    · exact ⟨1 - Int.tdiv (1 - m1) n, by rw [htm]; ring⟩
    · exact ⟨-Int.tdiv (1 - m1) n, by rw [htm]; ring⟩
  have hsum : 0 ≤ m1 * a1 + m2 * a2 := by positivity
  have hres1 : res.1 = (m1 * a1 + m2 * a2) % n := by
    have : res.1 = Int.tmod (m1 * a1 + m2 * a2) n := rfl
    rw [this, Int.tmod_eq_emod_of_nonneg hsum]
  have hd1 : n1 ∣ m2 - (1 - m1) := (Dvd.intro _ rfl).trans hm2n
  have hd2 : n2 ∣ m2 - (1 - m1) := (Dvd.intro_left _ rfl).trans hm2n
  have e1 : m1 * a1 + m2 * a2 ≡ a1 [ZMOD n1] := by
    rw [Int.modEq_iff_dvd]
    have : a1 - (m1 * a1 + m2 * a2) = -((m1 - 1) * (a1 - a2)) - (m2 - (1 - m1)) * a2 := by ring
    rw [this]
    exact dvd_sub (dvd_neg.mpr (Dvd.dvd.mul_right hi1 _)) (Dvd.dvd.mul_right hd1 _)
  have e2 : m1 * a1 + m2 * a2 ≡ a2 [ZMOD n2] := by
    rw [Int.modEq_iff_dvd]
    have : a2 - (m1 * a1 + m2 * a2) = n2 * (inv n2 n1 * (a2 - a1)) - (m2 - (1 - m1)) * a2 := by
      rw [hm1]; ring
    rw [this]
    exact dvd_sub (Dvd.intro _ rfl) (Dvd.dvd.mul_right hd2 _)
  have hmod : res.1 ≡ m1 * a1 + m2 * a2 [ZMOD n] := by rw [hres1]; exact Int.mod_modEq _ _
  have f1 : res.1 ≡ a1 [ZMOD n1] := (hmod.of_mul_right n2).trans e1
  have f2 : res.1 ≡ a2 [ZMOD n2] := (hmod.of_mul_left n1).trans e2
  have r0 : 0 ≤ res.1 := by rw [hres1]; exact Int.emod_nonneg _ hnpos.ne'
  have r1 : res.1 < n := by rw [hres1]; exact Int.emod_lt_of_pos _ hnpos
  refine ⟨rfl, r0, r1, f1, f2, fun b hb0 hb1 hb2 hb3 => ?_⟩
  have g1 : n1 ∣ b - res.1 := (Int.modEq_iff_dvd.mp (f1.trans hb2.symm))
  have g2 : n2 ∣ b - res.1 := (Int.modEq_iff_dvd.mp (f2.trans hb3.symm))
  have hcop : IsCoprime n1 n2 := Int.isCoprime_iff_gcd_eq_one.mpr hc
  obtain ⟨k, hk⟩ := hcop.mul_dvd g1 g2
  have : k = 0 := by
    by_contra hk0
    have h3 : 1 ≤ |k| := Int.one_le_abs hk0
    have h4 : |b - res.1| < n := by rw [abs_lt]; constructor <;> linarith
    rw [hk, abs_mul, abs_of_pos hnpos] at h4
    nlinarith
  rw [this, mul_zero] at hk; linarith

example : runChineseRemainder mpzInvert (2, 3) (3, 5) = (8, 15) := by decide +kernel

/-! ## C09, C10 -/

/-- Specification: `n/d` is a reduced fraction with positive denominator that represents `a`
modulo `p`. -/
def Represents (n d a p : ℤ) : Prop := 0 < d ∧ Int.gcd n d = 1 ∧ n ≡ a * d [ZMOD p]

lemma getRationalCoef_unfold {a p : ℤ} (ha : 0 ≤ a) (hap : a < p) :
    ∃ s : EuState, EuInv a p s.t s.newt s.r s.newr ∧ 2 * s.r * s.r > p ∧ 2 * s.newr * s.newr ≤ p ∧
      getRationalCoef a p = some
        (if 2 * s.newt * s.newt > p ∨ Int.gcd s.newr s.newt ≠ 1 then (false, ⟨1, 1⟩)
         else (true, if s.newt < 0 then ⟨-s.newr, -s.newt⟩ else ⟨s.newr, s.newt⟩)) := by
  have hp : 0 < p := by omega
  obtain ⟨s, e1, e2, e3, e4⟩ := ratLoop_spec hp ⟨0, 1, p, a⟩ (EuInv.init ha hap) (by
    change 2 * p * p > p; nlinarith)
  refine ⟨s, e2, e3, e4, ?_⟩
  unfold getRationalCoef
  rw [e1]
  simp only [Option.bind_eq_bind, Option.bind_some]
  by_cases hbad : 2 * s.newt * s.newt > p ∨ Int.gcd s.newr s.newt ≠ 1
  · simp only [if_pos hbad]
    have : RationalNumber.ctor 1 1 = some ⟨1, 1⟩ := by decide
    rw [if_neg (by norm_num), this]; simp [hbad]
  · simp only [if_neg hbad]
    have hg : Int.gcd s.newr s.newt = 1 := by tauto
    have hne := e2.newt_ne
    by_cases hneg : s.newt < 0
    · rw [if_pos hneg]
      have hna : ((s.newt.natAbs : ℕ) : ℤ) = -s.newt := by omega
      rw [hna, ctor_coprime (by omega) (by rw [Int.gcd_neg, Int.neg_gcd]; exact hg)]
      simp [hbad, hneg]
    · rw [if_neg hneg, ctor_coprime (by omega) hg]
      simp [hbad, hneg]

/-- C09: whenever `get_rational_coef` reports success the result is a reduced fraction that
represents `a` modulo `p` within the size bounds; on failure it is `1/1`; it always terminates
without error (`0 ≤ a < p`). -/
theorem C09_sound (a p : ℤ) (ha : 0 ≤ a) (hap : a < p) :
    ∃ ok rn, getRationalCoef a p = some (ok, rn) ∧
      (ok = true → Represents rn.num rn.den a p ∧ 2 * rn.num ^ 2 ≤ p ∧ 2 * rn.den ^ 2 ≤ p) ∧
      (ok = false → rn = ⟨1, 1⟩) := by
  obtain ⟨s, hi, h1, h2, h3⟩ := getRationalCoef_unfold ha hap
  rw [h3]
  have hne := hi.newt_ne
  split_ifs with hbad hneg
  · exact ⟨false, ⟨1, 1⟩, rfl, by simp, by simp⟩
  · push Not at hbad
    refine ⟨true, _, rfl, fun _ => ⟨⟨by simp only; omega, ?_, ?_⟩, by simp only; nlinarith, by simp only; nlinarith⟩, by simp⟩
    · simp only [Int.gcd_neg, Int.neg_gcd]; exact hbad.2
    · rw [Int.modEq_iff_dvd]
      have : a * -s.newt - -s.newr = -(s.newt * a - s.newr) := by ring
      rw [this]; exact dvd_neg.mpr hi.t2
  · push Not at hbad
    refine ⟨true, _, rfl, fun _ => ⟨⟨by simp only; omega, hbad.2, ?_⟩, by simp only; nlinarith, by simp only; nlinarith⟩, by simp⟩
    rw [Int.modEq_iff_dvd]
    have : a * s.newt - s.newr = (s.newt * a - s.newr) := by ring
    rw [this]; exact hi.t2

/-- C10: every reduced fraction within the bounds is found. -/
theorem C10_complete (a p n d : ℤ) (ha : 0 ≤ a) (hap : a < p) (hrep : Represents n d a p)
    (hn : 2 * n ^ 2 < p) (hd : 2 * d ^ 2 < p) : getRationalCoef a p = some (true, ⟨n, d⟩) := by
  obtain ⟨hd0, hg, hmod⟩ := hrep
  have hp : 0 < p := by omega
  obtain ⟨s, hi, h1, h2, h3⟩ := getRationalCoef_unfold ha hap
  have hcong : p ∣ n - a * d := by
    have := Int.modEq_iff_dvd.mp hmod
    rw [← dvd_neg]; simpa using this
  have heq := lattice_eq hi hp h1 h2 (by nlinarith : 2 * n * n < p) (by nlinarith : 2 * d * d < p) hcong
  rw [h3]
  rcases lattice_unit hi hp hg hcong heq with ⟨e1, e2⟩ | ⟨e1, e2⟩
  · rw [if_neg, if_neg (by omega), e1, e2]
    push Not; rw [e1, e2]; exact ⟨by nlinarith, hg⟩
  · rw [if_neg, if_pos (by omega), e1, e2, neg_neg, neg_neg]
    push Not; rw [e1, e2, Int.gcd_neg, Int.neg_gcd]; exact ⟨by nlinarith, hg⟩

/-- C10: hence the fraction within the bounds is unique. -/
theorem C10_unique (a p n d n' d' : ℤ) (ha : 0 ≤ a) (hap : a < p) (h : Represents n d a p)
    (h' : Represents n' d' a p) (hn : 2 * n ^ 2 < p) (hd : 2 * d ^ 2 < p)
    (hn' : 2 * n' ^ 2 < p) (hd' : 2 * d' ^ 2 < p) : n = n' ∧ d = d' := by
  have e1 := C10_complete a p n d ha hap h hn hd
  have e2 := C10_complete a p n' d' ha hap h' hn' hd'
  rw [e1] at e2; simpa using e2

/-- Non-vacuity: -22/7 modulo the prime 10007. -/
example : getRationalCoef (2856) 10007 = some (true, ⟨-22, 7⟩) :=
  C10_complete 2856 10007 (-22) 7 (by norm_num) (by norm_num)
    ⟨by norm_num, by decide, by decide⟩ (by norm_num) (by norm_num)

/-! ## C11 -/

/-- invariant of the MQRR loop -/
structure MqInv (u p T0 : ℤ) (s : MqState) : Prop where
  eu : EuInv u p s.t0 s.t1 s.r0 s.r1
  T : T0 ≤ s.T
  cand : (s.n = 0 ∧ s.d = 0 ∧ s.T = T0) ∨
    (s.d ≠ 0 ∧ 0 < s.n ∧ p ∣ s.d * u - s.n ∧ T0 < s.T ∧ s.n * |s.d| * s.T ≤ p)

lemma mqLoop_spec {u p T0 : ℤ} : ∀ s : MqState, MqInv u p T0 s → MqInv u p T0 (mqLoop s) := by
  intro s
  induction hn : s.r1.natAbs using Nat.strong_induction_on generalizing s with
  | _ n ih =>
  intro hi
  unfold mqLoop
  split_ifs with h
  · refine ih _ (by have := s.step_natAbs_lt h.1; omega) s.step rfl ?_
    have heu := hi.eu.step h.1
    refine ⟨heu, ?_, ?_⟩
    · simp only [MqState.step]; split_ifs with hq <;> have := hi.T <;> omega
    · by_cases hq : Int.tdiv s.r0 s.r1 > s.T
      · right
        simp only [MqState.step, if_pos hq]
        have hr1 : 0 < s.r1 := by have := hi.eu.nn; have := h.1; omega
        have hr0 : 0 ≤ s.r0 := by have := hi.eu.lt; omega
        refine ⟨hi.eu.newt_ne, hr1, hi.eu.t2, by have := hi.T; omega, ?_⟩
        have hle : Int.tdiv s.r0 s.r1 * s.r1 ≤ s.r0 := by
          rw [Int.tdiv_eq_ediv_of_nonneg hr0]; exact Int.ediv_mul_le _ hr1.ne'
        have hdet := hi.eu.det
        have h1 : |s.t1| * (Int.tdiv s.r0 s.r1 * s.r1) ≤ |s.t1| * s.r0 :=
          mul_le_mul_of_nonneg_left hle (abs_nonneg _)
        have h2 : 0 ≤ |s.t0| * s.r1 := mul_nonneg (abs_nonneg _) hr1.le
        calc s.r1 * |s.t1| * Int.tdiv s.r0 s.r1 = |s.t1| * (Int.tdiv s.r0 s.r1 * s.r1) := by ring
          _ ≤ p := by linarith
      · simp only [MqState.step, if_neg hq]; exact hi.cand
  · exact hi

/-- C11: `get_rational_coef_mqrr` terminates without error for `0 ≤ u < p`; for `u ≠ 0` a reported
success means a reduced fraction representing `u` modulo `p` with `|n| * d * (T+1) ≤ p`, where
`T = 1024 * bitlength(p)`; for `u = 0` the result is `0/1`, accepted exactly if `p > T`. -/
theorem C11_mqrr_sound (u p : ℤ) (hu : 0 ≤ u) (hup : u < p) :
    let T : ℤ := 1024 * (Nat.log2 p.natAbs + 1 : ℕ)
    ∃ ok rn, getRationalCoefMqrr u p = some (ok, rn) ∧
      (u = 0 → rn = ⟨0, 1⟩ ∧ (ok = true ↔ p > T)) ∧
      (u ≠ 0 → ok = true → Represents rn.num rn.den u p ∧ |rn.num| * rn.den * (T + 1) ≤ p) ∧
      (u ≠ 0 → ok = false → rn = ⟨1, 1⟩) := by
  intro T
  have hp : 0 < p := by omega
  have hsz : (1024 * (sizeInBase2 p : ℤ)) = T := by
    unfold sizeInBase2; rw [if_neg hp.ne']
  unfold getRationalCoefMqrr
  simp only [hsz]
  by_cases h0 : u = 0
  · subst h0
    rw [if_pos rfl]
    have : RationalNumber.ctor 0 1 = some ⟨0, 1⟩ := by decide
    rw [this]
    exact ⟨_, _, rfl, fun _ => ⟨rfl, by simp⟩, by simp, by simp⟩
  · rw [if_neg h0]
    have hinv := mqLoop_spec (u := u) (p := p) (T0 := T) ⟨0, 0, 0, 1, p, u, T⟩
      ⟨EuInv.init hu hup, le_refl _, Or.inl ⟨rfl, rfl, rfl⟩⟩
    set s := mqLoop ⟨0, 0, 0, 1, p, u, T⟩ with hs
    have h1 : RationalNumber.ctor 1 1 = some ⟨1, 1⟩ := by decide
    by_cases hbad : s.d = 0 ∨ Int.gcd s.n s.d ≠ 1
    · simp only [if_pos hbad]
      rw [if_neg (by norm_num), h1]
      refine ⟨false, ⟨1, 1⟩, by simp [hbad], fun h => absurd h h0, by simp, by simp⟩
    · simp only [if_neg hbad]
      push Not at hbad
      have hT0 : 0 ≤ T := by positivity
      rcases hinv.cand with ⟨_, hd, _⟩ | ⟨hd, hn, hdv, hT, hb⟩
      · exact absurd hd hbad.1
      have hb2 : s.n * |s.d| * (T + 1) ≤ p := by
        have : s.n * |s.d| * (T + 1) ≤ s.n * |s.d| * s.T :=
          mul_le_mul_of_nonneg_left (by omega) (mul_nonneg hn.le (abs_nonneg _))
        linarith
      by_cases hneg : s.d < 0
      · rw [if_pos hneg]
        have hna : ((s.d.natAbs : ℕ) : ℤ) = -s.d := by omega
        rw [hna, ctor_coprime (by omega) (by rw [Int.gcd_neg, Int.neg_gcd]; exact hbad.2)]
        refine ⟨true, ⟨-s.n, -s.d⟩, by simp [hbad], fun h => absurd h h0, fun _ _ => ⟨⟨by simp only; omega, ?_, ?_⟩, ?_⟩, by simp⟩
        · simp only [Int.gcd_neg, Int.neg_gcd]; exact hbad.2
        · rw [Int.modEq_iff_dvd]
          have : u * -s.d - -s.n = -(s.d * u - s.n) := by ring
          rw [this]; exact dvd_neg.mpr hdv
        · simp only; rw [abs_neg, abs_of_pos hn]; rw [abs_of_neg hneg] at hb2; exact hb2
      · rw [if_neg hneg, ctor_coprime (by omega) hbad.2]
        refine ⟨true, ⟨s.n, s.d⟩, by simp [hbad], fun h => absurd h h0, fun _ _ => ⟨⟨by simp only; omega, hbad.2, ?_⟩, ?_⟩, by simp⟩
        · rw [Int.modEq_iff_dvd]
          have : u * s.d - s.n = s.d * u - s.n := by ring
          rw [this]; exact hdv
        · simp only; rw [abs_of_pos hn]; rw [abs_of_nonneg (by omega : 0 ≤ s.d)] at hb2; exact hb2

example : ∃ rn, getRationalCoefMqrr 6148914691236517189 9223372036854775783 = some (true, rn) ∧
    rn.num = 1 ∧ rn.den = 3 := ⟨⟨1, 3⟩, by decide +kernel, rfl, rfl⟩

/-! ## C12 -/
namespace RationalNumber

/-- Specification: lowest terms with positive denominator. -/
def Valid (a : RationalNumber) : Prop := 0 < a.den ∧ Int.gcd a.num a.den = 1

/-- Specification: the rational number denoted. -/
def val (a : RationalNumber) : ℚ := (a.num : ℚ) / a.den

lemma reduce_valid {n d : ℤ} (hd : 0 < d) :
    (Int.gcd n d : ℤ) ≠ 0 ∧ Valid ⟨Int.tdiv n (Int.gcd n d), Int.tdiv d (Int.gcd n d)⟩ ∧
    val ⟨Int.tdiv n (Int.gcd n d), Int.tdiv d (Int.gcd n d)⟩ = (n : ℚ) / d := by
  have hg : 0 < Int.gcd n d := Int.gcd_pos_of_ne_zero_right _ hd.ne'
  have hgz : (0:ℤ) < (Int.gcd n d : ℤ) := by exact_mod_cast hg
  have e1 : Int.tdiv n (Int.gcd n d) = n / (Int.gcd n d : ℤ) :=
    Int.tdiv_eq_ediv_of_dvd (Int.gcd_dvd_left ..)
  have e2 : Int.tdiv d (Int.gcd n d) = d / (Int.gcd n d : ℤ) :=
    Int.tdiv_eq_ediv_of_dvd (Int.gcd_dvd_right ..)
  rw [e1, e2]
  refine ⟨hgz.ne', ⟨?_, ?_⟩, ?_⟩
  · exact Int.ediv_pos_of_pos_of_dvd hd hgz.le (Int.gcd_dvd_right ..)
  · exact Int.gcd_ediv_gcd_ediv_gcd hg
  · obtain ⟨x, hx⟩ := Int.gcd_dvd_left n d
    obtain ⟨y, hy⟩ := Int.gcd_dvd_right n d
    unfold val
    have hx' : n / (Int.gcd n d : ℤ) = x := by
      exact Int.ediv_eq_of_eq_mul_right hgz.ne' hx
    have hy' : d / (Int.gcd n d : ℤ) = y := by
      exact Int.ediv_eq_of_eq_mul_right hgz.ne' hy
    simp only [hx', hy']
    have hgq : ((Int.gcd n d : ℤ) : ℚ) ≠ 0 := by exact_mod_cast hgz.ne'
    have : (n : ℚ) / d = (((Int.gcd n d : ℤ) : ℚ) * x) / (((Int.gcd n d : ℤ) : ℚ) * y) := by
      rw [← Int.cast_mul, ← Int.cast_mul, ← hx, ← hy]
    rw [this, mul_div_mul_left _ _ hgq]

end RationalNumber
open RationalNumber

/-- C12: two-argument constructor. -/
theorem C12_ctor (n d : ℤ) (hd : d ≠ 0) :
    ∃ r, ctor n d = some r ∧ r.Valid ∧ r.val = (n : ℚ) / d := by
  unfold ctor
  simp only
  rcases lt_or_gt_of_ne hd with h | h
  · obtain ⟨g0, v, e⟩ := reduce_valid (n := -n) (d := -d) (by omega)
    rw [Int.gcd_neg, Int.neg_gcd] at g0 v e
    rw [Int.neg_tdiv, Int.neg_tdiv] at v e
    rw [if_neg g0]
    have hneg : Int.tdiv d (Int.gcd n d) < 0 := by have := v.1; simp only at this; omega
    rw [if_pos hneg]
    refine ⟨_, rfl, v, ?_⟩
    rw [e]; push_cast; rw [neg_div_neg_eq]
  · obtain ⟨g0, v, e⟩ := reduce_valid (n := n) (d := d) h
    rw [if_neg g0]
    have hpos : ¬ Int.tdiv d (Int.gcd n d) < 0 := by have := v.1; simp only at this; omega
    rw [if_neg hpos]
    exact ⟨_, rfl, v, e⟩

section
variable {a b : RationalNumber} (ha : a.Valid) (hb : b.Valid)
include ha hb

lemma val_den_ne : (a.den : ℚ) ≠ 0 ∧ (b.den : ℚ) ≠ 0 :=
  ⟨by exact_mod_cast ha.1.ne', by exact_mod_cast hb.1.ne'⟩

/-- C12: `*=` (and `*`). -/
theorem C12_mul : ∃ r, mulAssign a b = some r ∧ r.Valid ∧ r.val = a.val * b.val := by
  have hd : 0 < a.den * b.den := mul_pos ha.1 hb.1
  unfold mulAssign
  simp only [if_neg (not_lt.mpr hd.le)]
  obtain ⟨g0, v, e⟩ := reduce_valid (n := a.num * b.num) (d := a.den * b.den) hd
  rw [if_neg g0]
  refine ⟨_, rfl, v, ?_⟩
  rw [e]; unfold val; push_cast; rw [mul_div_mul_comm]

/-- C12: `+=`. -/
theorem C12_add : ∃ r, addAssign a b = some r ∧ r.Valid ∧ r.val = a.val + b.val := by
  obtain ⟨h1, h2⟩ := val_den_ne ha hb
  unfold addAssign
  simp only
  by_cases h : b.den ≠ a.den
  · simp only [if_pos h]
    obtain ⟨g0, v, e⟩ := reduce_valid (n := a.num * b.den + b.num * a.den) (d := a.den * b.den) (mul_pos ha.1 hb.1)
    rw [if_neg g0]
    refine ⟨_, rfl, v, ?_⟩
    rw [e]; unfold val; push_cast; field_simp
  · simp only [if_neg h]
    obtain ⟨g0, v, e⟩ := reduce_valid (n := a.num + b.num) (d := a.den) ha.1
    rw [if_neg g0]
    refine ⟨_, rfl, v, ?_⟩
    push Not at h
    rw [e]; unfold val; rw [h]; push_cast; field_simp

/-- C12: `-=`. -/
theorem C12_sub : ∃ r, subAssign a b = some r ∧ r.Valid ∧ r.val = a.val - b.val := by
  obtain ⟨h1, h2⟩ := val_den_ne ha hb
  unfold subAssign
  simp only
  by_cases h : b.den ≠ a.den
  · simp only [if_pos h]
    have hd := mul_pos ha.1 hb.1
    simp only [if_neg (not_lt.mpr hd.le)]
    obtain ⟨g0, v, e⟩ := reduce_valid (n := a.num * b.den - b.num * a.den) (d := a.den * b.den) hd
    rw [if_neg g0]
    refine ⟨_, rfl, v, ?_⟩
    rw [e]; unfold val; push_cast; field_simp
  · simp only [if_neg h, if_neg (not_lt.mpr ha.1.le)]
    obtain ⟨g0, v, e⟩ := reduce_valid (n := a.num - b.num) (d := a.den) ha.1
    rw [if_neg g0]
    refine ⟨_, rfl, v, ?_⟩
    push Not at h
    rw [e]; unfold val; rw [h]; push_cast; field_simp

/-- C12: `==` decides equality of the denoted rationals. -/
theorem C12_eq : eq a b = true ↔ a.val = b.val := by
  unfold eq
  simp only [Bool.and_eq_true, beq_iff_eq]
  constructor
  · rintro ⟨h1, h2⟩; unfold val; rw [h1, h2]
  · intro h
    have h1 : ∀ c : RationalNumber, c.Valid → (c.val.num = c.num ∧ (c.val.den : ℤ) = c.den) := by
      intro c hc
      unfold val
      have hcop : Nat.Coprime c.num.natAbs c.den.natAbs := hc.2
      exact ⟨Rat.num_div_eq_of_coprime hc.1 hcop, Rat.den_div_eq_of_coprime hc.1 hcop⟩
    obtain ⟨x1, x2⟩ := h1 a ha
    obtain ⟨y1, y2⟩ := h1 b hb
    rw [← x1, ← y1, ← x2, ← y2, h]; exact ⟨rfl, rfl⟩

omit hb in
/-- C12: unary minus. -/
theorem C12_neg : ∃ r, neg a = some r ∧ r.Valid ∧ r.val = -a.val := by
  obtain ⟨r, h1, h2, h3⟩ := C12_ctor (-a.num) a.den ha.1.ne'
  refine ⟨r, h1, h2, ?_⟩
  rw [h3]; unfold val; push_cast; rw [neg_div]

/-- C12: `gcd` of two rationals `a`, `b` is a valid rational that divides both with integer
quotients, and every rational dividing both divides it. -/
theorem C12_gcd : ∃ r, rgcd a b = some r ∧ r.Valid ∧
    (∃ k : ℤ, a.val = k * r.val) ∧ (∃ k : ℤ, b.val = k * r.val) ∧
    ∀ c : ℚ, (∃ k : ℤ, a.val = k * c) → (∃ k : ℤ, b.val = k * c) → ∃ k : ℤ, r.val = k * c := by
  obtain ⟨h1, h2⟩ := val_den_ne ha hb
  obtain ⟨r, e1, e2, e3⟩ := C12_ctor (Int.gcd (a.num * b.den) (b.num * a.den)) (a.den * b.den)
    (mul_pos ha.1 hb.1).ne'
  refine ⟨r, e1, e2, ?_, ?_, ?_⟩
  · obtain ⟨k, hk⟩ := Int.gcd_dvd_left (a.num * b.den) (b.num * a.den)
    refine ⟨k, ?_⟩
    have hkq : (a.num : ℚ) * b.den = ((Int.gcd (a.num * b.den) (b.num * a.den) : ℤ) : ℚ) * k := by exact_mod_cast hk
    rw [e3]; unfold val; push_cast at hkq ⊢; field_simp; linarith
  · obtain ⟨k, hk⟩ := Int.gcd_dvd_right (a.num * b.den) (b.num * a.den)
    refine ⟨k, ?_⟩
    have hkq : (b.num : ℚ) * a.den = ((Int.gcd (a.num * b.den) (b.num * a.den) : ℤ) : ℚ) * k := by exact_mod_cast hk
    rw [e3]; unfold val; push_cast at hkq ⊢; field_simp; linarith
  · rintro c ⟨k, hk⟩ ⟨l, hl⟩
    have hbz := Int.gcd_eq_gcd_ab (a.num * b.den) (b.num * a.den)
    refine ⟨Int.gcdA (a.num * b.den) (b.num * a.den) * k + Int.gcdB (a.num * b.den) (b.num * a.den) * l, ?_⟩
    have : r.val = Int.gcdA (a.num * b.den) (b.num * a.den) * a.val
        + Int.gcdB (a.num * b.den) (b.num * a.den) * b.val := by
      rw [e3, hbz]; unfold val; push_cast; field_simp
    rw [this, hk, hl]; push_cast; ring

end

/-- Corner recorded with C12: the default constructed `0/0` is outside the domain; multiplying it
by anything, or adding it to itself, divides by zero. -/
theorem C12_default_undefined (b : RationalNumber) :
    mulAssign dflt b = none ∧ addAssign dflt dflt = none ∧ ¬ dflt.Valid := by
  refine ⟨?_, by decide, ?_⟩
  · unfold mulAssign dflt; simp
  · unfold Valid dflt; simp

example : (⟨-3, 4⟩ : RationalNumber).Valid ∧ addAssign ⟨-3, 4⟩ ⟨1, 4⟩ = some ⟨-1, 2⟩ := by
  unfold Valid; decide

end FireFly
