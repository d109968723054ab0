import Verif.Lemmas.LongDouble
import Verif.Model.FFInt
import Mathlib.Tactic.Ring
import Mathlib.Tactic.Linarith
import Mathlib.Data.Int.ModEq

namespace FireFly

lemma u64_of_range {x : Int} (h0 : 0 ≤ x) (h1 : x < 2^64) : u64 x = x.toNat := by
  unfold u64; rw [Int.emod_eq_of_lt h0 h1]

lemma u64_lt (x : Int) : u64 x < 2^64 := by unfold u64; omega

lemma u64_cast (x : Int) : ((u64 x : Nat) : Int) = x % 2^64 := by unfold u64; omega

lemma u64_nat {n : Nat} (h : n < 2^64) : u64 n = n := by unfold u64; omega

lemma u64_congr {x y : Int} (h : x % 2^64 = y % 2^64) : u64 x = u64 y := by unfold u64; rw [h]

lemma i64_u64 {x : Int} (h0 : -2^63 ≤ x) (h1 : x < 2^63) : i64 (u64 x) = x := by
  unfold i64 u64; split <;> omega

lemma i64_nat {n : Nat} (h : n < 2^63) : i64 n = n := by unfold i64; rw [if_pos h]

lemma u64_sub_mul (x y z : Int) : u64 ((u64 x : Int) - u64 (y * u64 z)) = u64 (x - y * z) := by
  apply u64_congr
  simp only [u64_cast]
  rw [Int.sub_emod, Int.emod_emod, Int.emod_emod, Int.mul_emod, Int.emod_emod, ← Int.mul_emod,
    ← Int.sub_emod]

lemma u64_sub_mul' (x y z : Int) : u64 ((u64 x : Int) - u64 (y * z)) = u64 (x - y * z) := by
  apply u64_congr
  simp only [u64_cast]
  rw [Int.sub_emod, Int.emod_emod, Int.emod_emod, ← Int.sub_emod]

lemma u64_sub_mul'' (x : Nat) (y z : Int) : u64 ((x : Int) - u64 (y * z)) = u64 (x - y * z) := by
  apply u64_congr
  simp only [u64_cast]
  rw [Int.sub_emod, Int.emod_emod, ← Int.sub_emod]

variable [LongDouble]

lemma modMul_core {a b m : Nat} (hm : m < 2^63) (ha : a < m) (hb : b < m) :
    modMul a b m = some (a * b % m) := by
  obtain ⟨hQ0, hlo, hhi, hbig⟩ := quotient_estimate hm ha hb
  have hm0 : m ≠ 0 := by omega
  unfold modMul
  rw [if_neg hm0, if_neg (by omega : ¬ a ≥ m), if_neg (by omega : ¬ b ≥ m)]
  simp only
  set Q : ℚ := rnd (rnd ((rnd a : ℚ) * rnd b) / rnd m) with hQ
  set N := a * b with hN
  have hNlt : N < m * m := Nat.mul_lt_mul'' ha hb
  have hIm : N / m < m := Nat.div_lt_of_lt_mul hNlt
  have hfl0 : 0 ≤ ⌊Q⌋ := Int.floor_nonneg.mpr hQ0
  have hfl : ⌊Q⌋ ≤ 2^63 := by omega
  have hQlt : Q < 2^64 := by
    have := Int.lt_floor_add_one Q
    have h2 : ((⌊Q⌋ : ℤ):ℚ) ≤ 2^63 := by exact_mod_cast hfl
    linarith
  have hld : ldToU64 Q = some ⌊Q⌋.toNat := by
    unfold ldToU64; rw [if_pos ⟨hQ0, hQlt⟩]
  rw [hld]
  simp only
  obtain ⟨c, hc⟩ := Int.eq_ofNat_of_zero_le hfl0
  rw [hc] at hlo hhi hbig ⊢
  have hcc : ((c : ℤ)).toNat = c := by simp
  rw [hcc]
  have hdm := Nat.div_add_mod N m
  have hrm := Nat.mod_lt N (by omega : 0 < m)
  set I := N / m with hI
  set r := N % m with hr
  have hv : ((a:ℤ) * b) - (c:ℤ) * m = r + ((I:ℤ) - c) * m := by
    have : ((m * I + r : ℕ):ℤ) = (a:ℤ) * b := by rw [hdm, hN]; push_cast; rfl
    rw [← this]; push_cast; ring
  rw [u64_sub_mul', hv, i64_nat hm]
  have hI3 : (I:ℤ) - c = 0 ∨ (I:ℤ) - c = 1 ∨ (I:ℤ) - c = -1 := by omega
  rcases hI3 with h | h | h
  · rw [h, zero_mul, add_zero, i64_u64 (by omega) (by omega)]
    have : Int.tmod (r:ℤ) m = r := by
      rw [Int.tmod_eq_emod_of_nonneg (by omega), Int.emod_eq_of_lt (by omega) (by omega)]
    rw [this, if_neg (by omega), u64_nat (by omega)]
  · have hb := hbig (by omega)
    rw [h, one_mul, i64_u64 (by omega) (by omega)]
    have : Int.tmod ((r:ℤ) + m) m = r := by
      rw [Int.tmod_eq_emod_of_nonneg (by omega), Int.add_emod_right,
        Int.emod_eq_of_lt (by omega) (by omega)]
    rw [this, if_neg (by omega), u64_nat (by omega)]
  · rw [h, i64_u64 (by omega) (by omega)]
    have hneg : (r:ℤ) + -1 * m = -((m:ℤ) - r) := by ring
    rw [hneg, Int.neg_tmod]
    rcases Nat.eq_zero_or_pos r with h0 | h0
    · rw [h0]; simp [u64]
    · have : Int.tmod ((m:ℤ) - r) m = m - r := by
        rw [Int.tmod_eq_emod_of_nonneg (by omega), Int.emod_eq_of_lt (by omega) (by omega)]
      rw [this, if_pos (by omega)]
      have : -((m:ℤ) - r) + m = r := by ring
      rw [this, u64_nat (by omega)]

lemma modMul_eq {a b m : Nat} (hm0 : 0 < m) (hm : m < 2^63) : modMul a b m = some (a * b % m) := by
  have key : modMul a b m = modMul (a % m) (b % m) m := by
    have h1 : (if a ≥ m then a % m else a) = a % m := by
      split
      · rfl
      · rw [Nat.mod_eq_of_lt (by omega)]
    have h2 : (if b ≥ m then b % m else b) = b % m := by
      split
      · rfl
      · rw [Nat.mod_eq_of_lt (by omega)]
    have ha := Nat.mod_lt a hm0
    have hb := Nat.mod_lt b hm0
    unfold modMul
    rw [h1, h2, if_neg (by omega : ¬ a % m ≥ m), if_neg (by omega : ¬ b % m ≥ m)]
  rw [key, modMul_core hm (Nat.mod_lt _ hm0) (Nat.mod_lt _ hm0), ← Nat.mul_mod]

end FireFly
