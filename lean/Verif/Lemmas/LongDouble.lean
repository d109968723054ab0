import Verif.Model.Machine
import Mathlib.Tactic.Linarith
import Mathlib.Tactic.Ring
import Mathlib.Tactic.FieldSimp
import Mathlib.Tactic.NormNum
import Mathlib.Algebra.Order.Round
import Mathlib.Algebra.Order.Field.Power
import Mathlib.Tactic.Positivity
import Mathlib.Tactic.GCongr

namespace FireFly
open LongDouble

lemma isFloat_nat {n : ℕ} (h : n < 2 ^ 64) : IsFloat n := ⟨n, 0, h, by simp⟩

lemma isFloat_int {n : ℤ} (h0 : 0 ≤ n) (h : n < 2 ^ 64) : IsFloat n := by
  obtain ⟨k, rfl⟩ := Int.eq_ofNat_of_zero_le h0
  exact_mod_cast isFloat_nat (by exact_mod_cast h)

lemma isFloat_nat_mul {n : ℕ} (e : ℤ) (h : n < 2 ^ 64) : IsFloat (n * (2:ℚ)^e) := ⟨n, e, h, rfl⟩

lemma isFloat_nat_mul_le {n : ℕ} (e : ℤ) (h : n ≤ 2 ^ 64) : IsFloat (n * (2:ℚ)^e) := by
  rcases Nat.lt_or_ge n (2^64) with h1 | h1
  · exact isFloat_nat_mul e h1
  · have : n = 2^64 := le_antisymm h h1
    refine ⟨1, 64 + e, by norm_num, ?_⟩
    rw [this, zpow_add₀ (by norm_num : (2:ℚ) ≠ 0)]
    norm_num

variable [LongDouble]

lemma rnd_of_isFloat {x : ℚ} (h0 : 0 ≤ x) (h : IsFloat x) : rnd x = x := by
  have := nearest x x h0 h
  simp only [sub_self, abs_zero] at this
  have := abs_nonpos_iff.mp this
  linarith

lemma le_rnd {x y : ℚ} (hy : IsFloat y) (h0 : 0 ≤ x) (h : y ≤ x) : y ≤ rnd x := by
  have := nearest x y h0 hy
  rw [abs_of_nonpos (by linarith : y - x ≤ 0)] at this
  have := (abs_le.mp this).1
  linarith

lemma rnd_le {x y : ℚ} (hy : IsFloat y) (h0 : 0 ≤ x) (h : x ≤ y) : rnd x ≤ y := by
  have := nearest x y h0 hy
  rw [abs_of_nonneg (by linarith : 0 ≤ y - x)] at this
  have := (abs_le.mp this).2
  linarith

lemma rnd_nonneg {x : ℚ} (h0 : 0 ≤ x) : 0 ≤ rnd x :=
  le_rnd (y := 0) (by simpa using isFloat_nat (n := 0) (by norm_num)) h0 h0

/-- absolute error: below `2^(64+k)` the error is at most `2^(k-1)`. -/
lemma rnd_err {x : ℚ} (k : ℤ) (h0 : 0 ≤ x) (h : x ≤ (2:ℚ)^(64 + k)) :
    |rnd x - x| ≤ (2:ℚ)^(k-1) := by
  have hk : (0:ℚ) < (2:ℚ)^k := by positivity
  set y := x / (2:ℚ)^k with hy
  have hy0 : 0 ≤ y := by positivity
  have hy1 : y ≤ 2^64 := by
    rw [hy, div_le_iff₀ hk]
    rw [zpow_add₀ (by norm_num : (2:ℚ) ≠ 0)] at h
    exact_mod_cast h
  have hr0 : 0 ≤ round y := by
    rw [round_eq]; exact Int.floor_nonneg.mpr (by linarith)
  have hr1 : round y ≤ 2^64 := by
    rw [round_eq]
    have : ⌊y + 1/2⌋ < 2^64 + 1 := by
      rw [Int.floor_lt]; push_cast; linarith
    linarith
  obtain ⟨n, hn⟩ := Int.eq_ofNat_of_zero_le hr0
  have hn1 : n ≤ 2^64 := by
    rw [hn] at hr1; exact_mod_cast hr1
  have hf := isFloat_nat_mul_le k hn1
  have h1 := nearest x _ h0 hf
  refine h1.trans ?_
  have h2 := abs_sub_round y
  rw [hn] at h2
  have hx : x = y * (2:ℚ)^k := by rw [hy]; field_simp
  have : (n:ℚ) * (2:ℚ)^k - x = -((y - n) * (2:ℚ)^k) := by rw [hx]; ring
  rw [this, abs_neg, abs_mul, abs_of_pos hk]
  have h3 : |y - (n:ℚ)| ≤ 1/2 := by simpa using h2
  calc |y - (n:ℚ)| * (2:ℚ)^k ≤ 1/2 * (2:ℚ)^k := by gcongr
    _ = (2:ℚ)^(k-1) := by rw [zpow_sub_one₀ (by norm_num : (2:ℚ) ≠ 0)]; ring

omit [LongDouble] in
/-- spacing: a float `≥ 2^j` is an integer multiple of `2^(j-63)`. -/
lemma float_grid {y : ℚ} (j : ℤ) (hy : IsFloat y) (h : (2:ℚ)^j ≤ y) :
    ∃ n : ℤ, y = n * (2:ℚ)^(j-63) := by
  obtain ⟨k, e, hk, rfl⟩ := hy
  have h2 : (2:ℚ) ≠ 0 := by norm_num
  have he : j - 63 ≤ e := by
    by_contra hlt
    have hlt' : e ≤ j - 64 := by omega
    have h3 : (2:ℚ)^e ≤ (2:ℚ)^(j-64) := zpow_le_zpow_right₀ (by norm_num) hlt'
    have h4 : (k:ℚ) < 2^64 := by exact_mod_cast hk
    have h5 : (0:ℚ) < (2:ℚ)^e := by positivity
    have : (k:ℚ) * (2:ℚ)^e < (2:ℚ)^j := by
      calc (k:ℚ) * (2:ℚ)^e < 2^64 * (2:ℚ)^e := by gcongr
        _ ≤ 2^64 * (2:ℚ)^(j-64) := by gcongr
        _ = (2:ℚ)^j := by
          rw [zpow_sub₀ h2]; field_simp
    linarith
  obtain ⟨d, hd⟩ := Int.eq_ofNat_of_zero_le (by omega : 0 ≤ e - (j-63))
  refine ⟨k * 2^d, ?_⟩
  have : e = d + (j - 63) := by omega
  rw [this, zpow_add₀ h2]
  push_cast
  rw [zpow_natCast]; ring

/-- The quotient estimate of `mod_mul` is off by at most one, and if it is too small the
remainder still fits into 63 bits. -/
lemma quotient_estimate {a b m : ℕ} (hm : m < 2^63) (ha : a < m) (hb : b < m) :
    let N := a * b
    let Q : ℚ := rnd (rnd ((rnd a : ℚ) * rnd b) / rnd m)
    0 ≤ Q ∧ (N / m : ℕ) ≤ ⌊Q⌋ + 1 ∧ ⌊Q⌋ ≤ (N / m : ℕ) + 1 ∧
      (⌊Q⌋ < (N / m : ℕ) → N % m + m < 2^63) := by
  intro N Q
  have h2 : (2:ℚ) ≠ 0 := by norm_num
  have hm0 : 0 < m := by omega
  have hmQ : (0:ℚ) < m := by exact_mod_cast hm0
  have hmlt : (m:ℚ) < 2^63 := by exact_mod_cast hm
  have e1 : (rnd (a:ℚ)) = a := rnd_of_isFloat (by positivity) (isFloat_nat (by omega))
  have e2 : (rnd (b:ℚ)) = b := rnd_of_isFloat (by positivity) (isFloat_nat (by omega))
  have e3 : (rnd (m:ℚ)) = m := rnd_of_isFloat (by positivity) (isFloat_nat (by omega))
  have eQ : Q = rnd (rnd ((N:ℕ):ℚ) / m) := by
    simp only [Q, N, e1, e2, e3]; push_cast; rfl
  set P : ℚ := rnd ((N:ℕ):ℚ) with hP
  have hN0 : (0:ℚ) ≤ (N:ℕ) := by positivity
  have hP0 : 0 ≤ P := rnd_nonneg hN0
  have hPm0 : 0 ≤ P / m := by positivity
  have hQ0 : 0 ≤ Q := by rw [eQ]; exact rnd_nonneg hPm0
  -- division
  set I := N / m with hI
  set r := N % m with hr
  have hdm : (N:ℚ) = I * m + r := by
    have := Nat.div_add_mod N m
    rw [← hI, ← hr] at this
    have h' : ((m * I + r : ℕ):ℚ) = N := by exact_mod_cast this
    rw [← h']; push_cast; ring
  have hrm : (r:ℚ) < m := by exact_mod_cast Nat.mod_lt _ hm0
  have hr0 : (0:ℚ) ≤ r := by positivity
  have hNlt : N < m * m := Nat.mul_lt_mul'' ha hb
  have hIm : I < m := Nat.div_lt_of_lt_mul hNlt
  have hIlt : I < 2^63 := lt_trans hIm hm
  -- coarse bounds
  obtain ⟨s, hs1, hs2⟩ : ∃ s : ℕ, (2:ℕ)^s ≤ m ∧ m < 2^(s+1) := by
    refine ⟨Nat.log 2 m, Nat.pow_log_le_self 2 (by omega), Nat.lt_pow_succ_log_self (by norm_num) m⟩
  have hs : s ≤ 62 := by
    by_contra hlt
    have : (2:ℕ)^63 ≤ 2^s := Nat.pow_le_pow_right (by norm_num) (by omega)
    omega
  have hs1Q : (2:ℚ)^s ≤ m := by exact_mod_cast hs1
  have hs2Q : (m:ℚ) < 2^(s+1) := by exact_mod_cast hs2
  have hNle : (N:ℚ) ≤ (2:ℚ)^(64 + (2*(s:ℤ) - 62)) := by
    have : (N:ℚ) ≤ m * m := by exact_mod_cast hNlt.le
    have h3 : (m:ℚ) * m ≤ 2^(s+1) * 2^(s+1) := by gcongr
    have h4 : (2:ℚ)^(64 + (2*(s:ℤ) - 62)) = 2^(s+1) * 2^(s+1) := by
      rw [← pow_add, ← zpow_natCast]; congr 1; push_cast; ring
    linarith
  have hPerr : |P - N| ≤ (2:ℚ)^((2*(s:ℤ) - 62) - 1) := rnd_err _ hN0 hNle
  have hPerr2 : |P - N| ≤ m / 2 := by
    refine hPerr.trans ?_
    have h5 : (2:ℚ)^((2*(s:ℤ) - 62) - 1) ≤ (2:ℚ)^((s:ℤ) - 1) :=
      zpow_le_zpow_right₀ (by norm_num) (by omega)
    have h6 : (2:ℚ)^((s:ℤ) - 1) = 2^s / 2 := by
      rw [zpow_sub_one₀ h2, zpow_natCast]; ring
    linarith
  have hPle : P ≤ m * (2:ℚ)^(63:ℤ) := by
    refine rnd_le (isFloat_nat_mul 63 (by omega)) hN0 ?_
    have : (N:ℚ) ≤ m * m := by exact_mod_cast hNlt.le
    have h3 : (m:ℚ) * m ≤ m * (2:ℚ)^(63:ℤ) := by
      gcongr
      exact_mod_cast hm.le
    linarith
  have hPmle : P / m ≤ (2:ℚ)^(64 + (-1:ℤ)) := by
    rw [div_le_iff₀ hmQ]
    calc P ≤ m * (2:ℚ)^(63:ℤ) := hPle
      _ = (2:ℚ)^(64 + (-1:ℤ)) * m := by norm_num [mul_comm]
  have hQerr : |Q - P / m| ≤ (2:ℚ)^((-1:ℤ)-1) := by rw [eQ]; exact rnd_err _ hPm0 hPmle
  have hQerr' : |Q - P / m| ≤ 1/4 := by
    refine hQerr.trans (by norm_num)
  have hPm : |P / m - N / m| ≤ 1/2 := by
    rw [← sub_div, abs_div, abs_of_pos hmQ, div_le_iff₀ hmQ]; linarith
  have hNm : (N:ℚ) / m = I + r / m := by rw [hdm]; field_simp
  have hrm1 : (r:ℚ) / m < 1 := by rw [div_lt_one hmQ]; exact hrm
  have hrm0 : (0:ℚ) ≤ r / m := by positivity
  obtain ⟨q1, q2⟩ := abs_le.mp hQerr'
  obtain ⟨p1, p2⟩ := abs_le.mp hPm
  refine ⟨hQ0, ?_, ?_, ?_⟩
  · have : ((I:ℤ) - 1) ≤ ⌊Q⌋ := by
      rw [Int.le_floor]; push_cast; linarith
    linarith
  · have : ⌊Q⌋ < (I:ℤ) + 2 := by
      rw [Int.floor_lt]; push_cast; linarith
    linarith
  · intro hlt
    have hQI : Q < I := by
      have := Int.floor_lt.mp hlt
      exact_mod_cast this
    have hI1 : 1 ≤ I := by
      rcases Nat.eq_zero_or_pos I with h0 | h0
      · rw [h0] at hQI; push_cast at hQI; linarith
      · exact h0
    have hIfl : IsFloat (I:ℚ) := isFloat_nat (by omega)
    have hPI : P / m < I := by
      by_contra hge
      have := le_rnd hIfl hPm0 (not_lt.mp hge)
      rw [← eQ] at this; linarith
    -- binade of I
    obtain ⟨j, hj1, hj2⟩ : ∃ j : ℤ, (2:ℚ)^(j-1) < I ∧ (I:ℚ) ≤ (2:ℚ)^j := by
      refine ⟨(Nat.clog 2 I : ℕ), ?_, ?_⟩
      · rcases Nat.lt_or_ge 1 I with h1 | h1
        · have h3 := Nat.pow_pred_clog_lt_self (b := 2) (by norm_num) h1
          have h4 : 0 < Nat.clog 2 I := Nat.clog_pos (by norm_num) h1
          have h5 : (((Nat.clog 2 I : ℕ):ℤ) - 1) = ((Nat.clog 2 I).pred : ℕ) := by
            rw [Nat.pred_eq_sub_one]; omega
          rw [h5, zpow_natCast]; exact_mod_cast h3
        · have : I = 1 := by omega
          rw [this]; norm_num
      · rw [zpow_natCast]
        exact_mod_cast Nat.le_pow_clog (by norm_num) I
    -- Q on the grid
    have hgrid : P / m ≤ I - (2:ℚ)^(j-65) := by
      by_contra hgt
      push Not at hgt
      have hnear := nearest (P/m) (I:ℚ) hPm0 hIfl
      rw [← eQ, abs_of_pos (by linarith : (0:ℚ) < I - P/m)] at hnear
      have hQl := (abs_le.mp hnear).1
      have e6 : (2:ℚ)^(j-64) = 2 * (2:ℚ)^(j-65) := by
        have : j - 64 = (j - 65) + 1 := by ring
        rw [this, zpow_add_one₀ h2]; ring
      have hQl2 : (I:ℚ) - (2:ℚ)^(j-64) < Q := by rw [e6]; linarith
      have hjm : (2:ℚ)^(j-1) = 2^63 * (2:ℚ)^(j-64) := by
        have : j - 1 = (j - 64) + 63 := by ring
        rw [this, zpow_add₀ h2]; norm_num; ring
      -- I on the grid as well
      obtain ⟨nI, hnI⟩ := float_grid (j-1) hIfl hj1.le
      have hj64 : j - 1 - 63 = j - 64 := by ring
      rw [hj64] at hnI
      have hpos : (0:ℚ) < (2:ℚ)^(j-64) := by positivity
      have hQge : (2:ℚ)^(j-1) ≤ Q := by
        have : (2^63 : ℤ) < nI := by
          have h7 : (2:ℚ)^63 * (2:ℚ)^(j-64) < nI * (2:ℚ)^(j-64) := by rw [← hjm, ← hnI]; exact hj1
          have h8 := lt_of_mul_lt_mul_right h7 hpos.le
          exact_mod_cast h8
        have h9 : ((2:ℚ)^63) ≤ nI - 1 := by
          have : (2^63 : ℤ) ≤ nI - 1 := by omega
          exact_mod_cast this
        have : (2:ℚ)^63 * (2:ℚ)^(j-64) ≤ (nI - 1) * (2:ℚ)^(j-64) := by gcongr
        rw [hjm]; linarith
      have hQfl : IsFloat Q := by rw [eQ]; exact LongDouble.isFloat_rnd _ hPm0
      obtain ⟨nQ, hnQ⟩ := float_grid (j-1) hQfl hQge
      rw [hj64] at hnQ
      have c1 : (nQ:ℚ) * (2:ℚ)^(j-64) < nI * (2:ℚ)^(j-64) := by rw [← hnQ, ← hnI]; exact hQI
      have c2 : ((nI:ℚ) - 1) * (2:ℚ)^(j-64) < nQ * (2:ℚ)^(j-64) := by
        rw [← hnQ]; linarith
      have d1 := lt_of_mul_lt_mul_right c1 hpos.le
      have d2 := lt_of_mul_lt_mul_right c2 hpos.le
      have d1' : nQ < nI := by exact_mod_cast d1
      have d2' : nI - 1 < nQ := by exact_mod_cast d2
      omega
    have hPle2 : P ≤ I * m - m * (2:ℚ)^(j-65) := by
      have := (div_le_iff₀ hmQ).mp hgrid
      linarith
    -- error of the product
    have hNj : (N:ℚ) ≤ (2:ℚ)^(64 + j) := by
      have h64 : (2:ℚ)^(64 + j) = 2 * (2:ℚ)^j * 2^63 := by
        rw [zpow_add₀ h2]; norm_num; ring
      have : (N:ℚ) ≤ (I + 1) * m := by rw [hdm]; linarith
      have hI1Q : (1:ℚ) ≤ I := by exact_mod_cast hI1
      have h5 : ((I:ℚ) + 1) * m ≤ (2 * (2:ℚ)^j) * 2^63 := by
        apply mul_le_mul _ hmlt.le hmQ.le (by positivity)
        linarith
      linarith
    have hd1 := rnd_err j hN0 hNj
    rw [← hP] at hd1
    have hpj : (0:ℚ) < (2:ℚ)^(j-65) := by positivity
    have e65 : (2:ℚ)^(j-1) = 2^64 * (2:ℚ)^(j-65) := by
      have : j - 1 = (j - 65) + 64 := by ring
      rw [this, zpow_add₀ h2]; norm_num; ring
    have e2j : (2:ℚ)^j = 2^65 * (2:ℚ)^(j-65) := by
      have : j = (j - 65) + 65 := by ring
      nth_rw 1 [this]
      rw [zpow_add₀ h2]; norm_num; ring
    have hle63 : (N:ℚ) ≤ (2:ℚ)^(64 + (j-1)) := by
      by_contra hgt
      push Not at hgt
      have h63 : (2:ℚ)^(64 + (j-1)) = (2:ℚ)^j * 2^63 := by
        have : 64 + (j-1) = j + 63 := by ring
        rw [this, zpow_add₀ h2]; norm_num
      have hm1 : (m:ℚ) ≤ 2^63 - 1 := by
        have : m + 1 ≤ 2^63 := hm
        have : ((m + 1 : ℕ):ℚ) ≤ ((2^63 : ℕ):ℚ) := by exact_mod_cast this
        push_cast at this; linarith
      have hIm' : (I:ℚ) * m ≤ (2:ℚ)^j * (2^63 - 1) := by
        apply mul_le_mul hj2 hm1 hmQ.le (by positivity)
      have hrj : (2:ℚ)^j < r := by
        have : (N:ℚ) > (2:ℚ)^j * 2^63 := by rw [← h63]; exact hgt
        rw [hdm] at this
        linarith
      have := (abs_le.mp hd1).1
      have hmp : (0:ℚ) < m * (2:ℚ)^(j-65) := by positivity
      rw [e65] at this
      rw [e2j] at hrj
      linarith
    have hd2 := rnd_err (j-1) hN0 hle63
    rw [← hP] at hd2
    have e66 : (2:ℚ)^(j-1-1) = 2^63 * (2:ℚ)^(j-65) := by
      have : j - 1 - 1 = (j - 65) + 63 := by ring
      rw [this, zpow_add₀ h2]; norm_num; ring
    rw [e66] at hd2
    have h10 := (abs_le.mp hd2).1
    have h11 : (r:ℚ) ≤ (2^63 - m) * (2:ℚ)^(j-65) := by linarith
    have h12 : (2:ℚ)^(j-65) < 1 := by
      have hj63 : j ≤ 63 := by
        by_contra hj
        have : (2:ℚ)^(63:ℤ) ≤ (2:ℚ)^(j-1) := zpow_le_zpow_right₀ (by norm_num) (by omega)
        have hI63 : (I:ℚ) < 2^63 := by exact_mod_cast hIlt
        have : (2:ℚ)^(63:ℤ) = 2^63 := by norm_num
        linarith
      exact zpow_lt_one_of_neg₀ (by norm_num) (by omega)
    have h13 : (r:ℚ) < 2^63 - m := by
      have : (2^63 - (m:ℚ)) * (2:ℚ)^(j-65) < (2^63 - m) * 1 := by
        apply mul_lt_mul_of_pos_left h12; linarith
      linarith
    have h14 : ((r + m : ℕ):ℚ) < ((2^63 : ℕ):ℚ) := by push_cast; linarith
    exact_mod_cast h14

end FireFly
