import Verif.Lemmas.LongDouble

/-! The x87 round-half-even function satisfies the `LongDouble` interface, so the interface is
inhabited and theorems quantified over it are not vacuous. -/
namespace FireFly

lemma rneInt_bounds (y : ℚ) : ⌊y⌋ ≤ rneInt y ∧ rneInt y ≤ ⌊y⌋ + 1 := by
  unfold rneInt; simp only
  split_ifs <;> constructor <;> omega

lemma rneInt_nearest (y : ℚ) (n : ℤ) : |(rneInt y : ℚ) - y| ≤ |(n:ℚ) - y| := by
  have hf0 := Int.floor_le y
  have hf1 := Int.lt_floor_add_one y
  have hn : n ≤ ⌊y⌋ ∨ ⌊y⌋ + 1 ≤ n := by omega
  have key : |(rneInt y : ℚ) - y| ≤ y - ⌊y⌋ ∧ |(rneInt y : ℚ) - y| ≤ ⌊y⌋ + 1 - y := by
    unfold rneInt; simp only
    split_ifs with h1 h2 h3
    · rw [abs_of_nonpos (by linarith)]; constructor <;> linarith
    · push_cast; rw [abs_of_nonneg (by linarith)]; constructor <;> linarith
    · rw [abs_of_nonpos (by linarith)]; constructor <;> linarith
    · push_cast; rw [abs_of_nonneg (by linarith)]; constructor <;> linarith
  rcases hn with h | h
  · have : (n:ℚ) ≤ ⌊y⌋ := by exact_mod_cast h
    rw [abs_of_nonpos (by linarith : (n:ℚ) - y ≤ 0)]; linarith [key.1]
  · have : (⌊y⌋:ℚ) + 1 ≤ n := by exact_mod_cast h
    rw [abs_of_nonneg (by linarith : 0 ≤ (n:ℚ) - y)]; linarith [key.2]

/-- Instance of the rounding interface: 64-bit significand, round half to even. -/
@[reducible] def x87 : LongDouble where
  rnd := rne64
  isFloat_rnd := by
    intro x hx
    unfold rne64
    split_ifs with h
    · exact ⟨0, 0, by norm_num, by simp⟩
    · push Not at h
      simp only
      set e : ℤ := Int.log 2 x - 63 with he
      have h2 : (2:ℚ) ≠ 0 := by norm_num
      have hp : (0:ℚ) < (2:ℚ)^e := by positivity
      have hlo : 2^63 ≤ x / (2:ℚ)^e := by
        rw [le_div_iff₀ hp]
        have := Int.zpow_log_le_self (b := 2) (by norm_num) h
        have e1 : (2:ℚ)^63 * (2:ℚ)^e = (2:ℚ)^(Int.log 2 x) := by
          rw [he, zpow_sub₀ h2]; norm_num; ring
        rw [e1]; exact_mod_cast this
      have hhi : x / (2:ℚ)^e < 2^64 := by
        rw [div_lt_iff₀ hp]
        have := Int.lt_zpow_succ_log_self (b := 2) (by norm_num) x
        have e1 : (2:ℚ)^64 * (2:ℚ)^e = (2:ℚ)^(Int.log 2 x + 1) := by
          rw [he, zpow_sub₀ h2, zpow_add₀ h2]; norm_num; ring
        rw [e1]; exact_mod_cast this
      obtain ⟨b1, b2⟩ := rneInt_bounds (x / (2:ℚ)^e)
      have f1 : (2^63:ℤ) ≤ ⌊x / (2:ℚ)^e⌋ := by rw [Int.le_floor]; exact_mod_cast hlo
      have f2 : ⌊x / (2:ℚ)^e⌋ < 2^64 := by rw [Int.floor_lt]; exact_mod_cast hhi
      obtain ⟨n, hn⟩ := Int.eq_ofNat_of_zero_le (by omega : 0 ≤ rneInt (x / (2:ℚ)^e))
      rw [hn]
      exact_mod_cast isFloat_nat_mul_le e (n := n) (by omega)
  nearest := by
    intro x y hx hy
    unfold rne64
    split_ifs with h
    · have : x = 0 := le_antisymm h hx
      subst this; simp
    · push Not at h
      simp only
      set e : ℤ := Int.log 2 x - 63 with he
      have h2 : (2:ℚ) ≠ 0 := by norm_num
      have hp : (0:ℚ) < (2:ℚ)^e := by positivity
      have hx' : x = (x / (2:ℚ)^e) * (2:ℚ)^e := by field_simp
      set z := x / (2:ℚ)^e with hz
      have hl : |(rneInt z:ℚ) * (2:ℚ)^e - x| = |(rneInt z:ℚ) - z| * (2:ℚ)^e := by
        rw [hx', ← sub_mul, abs_mul, abs_of_pos hp]
      rw [hl]
      have hgrid : ∀ n : ℤ, |(rneInt z:ℚ) - z| * (2:ℚ)^e ≤ |(n:ℚ) * (2:ℚ)^e - x| := by
        intro n
        have : |(n:ℚ) * (2:ℚ)^e - x| = |(n:ℚ) - z| * (2:ℚ)^e := by
          rw [hx', ← sub_mul, abs_mul, abs_of_pos hp]
        rw [this]
        exact mul_le_mul_of_nonneg_right (rneInt_nearest z n) hp.le
      by_cases hc : (2:ℚ)^(Int.log 2 x) ≤ y
      · obtain ⟨n, hn⟩ := float_grid _ hy hc
        rw [hn]; exact hgrid n
      · push Not at hc
        have hlo := Int.zpow_log_le_self (b := 2) (by norm_num) h
        have hlo' : (2:ℚ)^(Int.log 2 x) ≤ x := by exact_mod_cast hlo
        have h3 := hgrid (2^63)
        have e1 : ((2^63 : ℤ):ℚ) * (2:ℚ)^e = (2:ℚ)^(Int.log 2 x) := by
          rw [he, zpow_sub₀ h2]; norm_num; ring
        rw [e1] at h3
        refine h3.trans ?_
        rw [abs_of_nonpos (by linarith), abs_of_nonpos (by linarith)]
        linarith

end FireFly
