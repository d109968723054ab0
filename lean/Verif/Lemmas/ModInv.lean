import Verif.Lemmas.Word
import Verif.Tac
import Mathlib.Tactic.NormNum.GCD
import Mathlib.Data.Int.GCD
import Mathlib.Data.ZMod.Basic

namespace FireFly

/-- invariant of the `mod_inv` loop -/
structure InvInv (a m : Nat) (s : InvState) : Prop where
  sgn : (0 ≤ s.t ∧ s.newt ≤ 0) ∨ (s.t ≤ 0 ∧ 0 ≤ s.newt)
  det : s.newt.natAbs * s.r + s.t.natAbs * s.newr = m
  t1 : (m : Int) ∣ s.t * a - s.r
  t2 : (m : Int) ∣ s.newt * a - s.newr
  g : Nat.gcd s.r s.newr = Nat.gcd a m
  lt : s.newr < s.r
  tb : s.t.natAbs ≤ m

lemma InvInv.init {a m : Nat} (h : a < m) : InvInv a m ⟨0, 1, m, a⟩ where
  sgn := by simp
  det := by simp
  t1 := by simp
  t2 := by simp
  g := Nat.gcd_comm _ _
  lt := h
  tb := by simp

lemma InvInv.newt_le {a m : Nat} {s : InvState} (h : InvInv a m s) : s.newt.natAbs ≤ m := by
  have := h.det
  have hr : 1 ≤ s.r := by have := h.lt; omega
  calc s.newt.natAbs ≤ s.newt.natAbs * s.r := Nat.le_mul_of_pos_right _ hr
    _ ≤ m := by omega

/-- one exact step -/
def InvState.stepZ (s : InvState) : InvState :=
  { t := s.newt, newt := s.t - (s.r / s.newr : Nat) * s.newt, r := s.newr, newr := s.r % s.newr }

lemma InvInv.stepZ {a m : Nat} {s : InvState} (h : InvInv a m s) (h0 : s.newr ≠ 0) :
    InvInv a m s.stepZ := by
  have hdm := Nat.div_add_mod s.r s.newr
  have hpos := Nat.pos_of_ne_zero h0
  have hmod := Nat.mod_lt s.r hpos
  obtain ⟨sgn, det, t1, t2, g, lt, tb⟩ := h
  have hq : (0:Int) ≤ ((s.r / s.newr : Nat) : Int) := Int.natCast_nonneg _
  have habs : (s.t - (s.r / s.newr : Nat) * s.newt).natAbs
      = s.t.natAbs + (s.r / s.newr) * s.newt.natAbs := by
    generalize s.r / s.newr = q at *
    rcases sgn with ⟨h1, h2⟩ | ⟨h1, h2⟩
    · have h3 : (0:Int) ≤ q * (-s.newt) := Int.mul_nonneg hq (by omega)
      zify
      rw [abs_of_nonneg (by linarith), abs_of_nonneg h1, abs_of_nonpos h2]; ring
    · have h3 : (0:Int) ≤ q * s.newt := Int.mul_nonneg hq (by omega)
      zify
      rw [abs_of_nonpos (by linarith), abs_of_nonpos h1, abs_of_nonneg h2]; ring
  have hrq : (s.r : Int) = (s.r / s.newr : Nat) * s.newr + (s.r % s.newr : Nat) := by
    have : s.r = (s.r / s.newr) * s.newr + s.r % s.newr := by rw [Nat.mul_comm]; exact hdm.symm
    exact_mod_cast this
  refine ⟨?_, ?_, t2, ?_, ?_, hmod, ?_⟩
  · simp only [InvState.stepZ]
    generalize s.r / s.newr = q at *
    rcases sgn with ⟨h1, h2⟩ | ⟨h1, h2⟩
    · right; refine ⟨h2, ?_⟩
      have h3 : (0:Int) ≤ q * (-s.newt) := Int.mul_nonneg hq (by omega)
      linarith
    · left; refine ⟨h2, ?_⟩
      have h3 : (0:Int) ≤ q * s.newt := Int.mul_nonneg hq (by omega)
      linarith
  · simp only [InvState.stepZ]
    rw [habs, ← det]
    have : s.r = (s.r / s.newr) * s.newr + s.r % s.newr := by rw [Nat.mul_comm]; exact hdm.symm
    conv_rhs => rw [this]
    ring
  · simp only [InvState.stepZ]
    have : (s.t - (s.r / s.newr : Nat) * s.newt) * a - (s.r % s.newr : Nat)
        = (s.t * a - s.r) - (s.r / s.newr : Nat) * (s.newt * a - s.newr) := by
      linear_combination hrq
    rw [this]
    exact dvd_sub t1 (Dvd.dvd.mul_left t2 _)
  · simp only [InvState.stepZ]
    rw [← g, Nat.gcd_comm s.r s.newr, Nat.gcd_comm s.newr (s.r % s.newr), ← Nat.gcd_rec]
  · simp only [InvState.stepZ]
    exact InvInv.newt_le ⟨sgn, det, t1, t2, g, lt, tb⟩

lemma InvInv.step_eq {a m : Nat} {s : InvState} (hm : m < 2^63) (h : InvInv a m s)
    (hr : s.r < 2^64) (h0 : s.newr ≠ 0) : s.step = s.stepZ := by
  have h' := h.stepZ h0
  have hb := h'.newt_le
  have hdm := Nat.div_add_mod s.r s.newr
  have hmod := Nat.mod_lt s.r (Nat.pos_of_ne_zero h0)
  unfold InvState.step
  simp only
  rw [u64_sub_mul, u64_sub_mul'']
  simp only [InvState.stepZ] at hb ⊢
  congr 1
  · apply i64_u64 <;> omega
  · have : (s.r : Int) - (s.r / s.newr : Nat) * s.newr = (s.r % s.newr : Nat) := by
      have : s.r = (s.r / s.newr) * s.newr + s.r % s.newr := by rw [Nat.mul_comm]; exact hdm.symm
      have h3 : (s.r : Int) = (s.r / s.newr : Nat) * s.newr + (s.r % s.newr : Nat) := by exact_mod_cast this
      linarith
    rw [this, u64_nat (by omega)]

lemma invLoop_spec {a m : Nat} (hm : m < 2^63) : ∀ (s : InvState), InvInv a m s → s.r < 2^64 →
    InvInv a m (invLoop s) ∧ (invLoop s).newr = 0 := by
  intro s
  induction s using invLoop.induct with
  | case1 s h => intro hi hr; unfold invLoop; simp [h, hi]
  | case2 s h ih =>
    intro hi hr
    unfold invLoop; rw [dif_neg h]
    have heq := hi.step_eq hm hr h
    rw [heq] at ih ⊢
    refine ih (hi.stepZ h) ?_
    simp only [InvState.stepZ]
    have := hi.lt; omega

lemma modInv_spec {a m : Nat} (h1 : 1 < m) (hm : m < 2^63) (ha : a < m) (hg : Nat.gcd a m = 1) :
    modInv a m < m ∧ a * modInv a m % m = 1 := by
  obtain ⟨⟨sgn, det, t1, t2, g, lt, tb⟩, h0⟩ :=
    invLoop_spec hm _ (InvInv.init ha) (by simpa using by omega)
  unfold modInv
  simp only
  set s := invLoop ⟨0, 1, m, a⟩
  rw [h0, Nat.gcd_zero_right, hg] at g
  rw [g] at t1
  have hcop : s.t.natAbs ≠ m := by
    intro h
    have : (m:Int) ∣ s.t := by
      rw [← Int.natAbs_dvd_natAbs]; simp [h]
    have h2 : (m:Int) ∣ 1 := by
      have h3 := dvd_sub (Dvd.dvd.mul_right this (a:Int)) t1
      simpa using h3
    have := Int.le_of_dvd (by norm_num) h2
    omega
  obtain ⟨k, hk⟩ := t1
  push_cast at hk
  split_ifs with hneg
  · rw [u64_of_range (by omega) (by omega)]
    refine ⟨by omega, ?_⟩
    have hz : ((a * (s.t + m).toNat : Nat) : Int) = 1 + m * (k + a) := by
      push_cast
      rw [Int.toNat_of_nonneg (by omega)]
      linear_combination hk
    have : ((a * (s.t + m).toNat % m : Nat) : Int) = 1 := by
      rw [Int.natCast_mod, hz, Int.add_mul_emod_self_left, Int.emod_eq_of_lt (by norm_num) (by omega)]
    exact_mod_cast this
  · rw [u64_of_range (by omega) (by omega)]
    refine ⟨by omega, ?_⟩
    have hz : ((a * (s.t).toNat : Nat) : Int) = 1 + m * k := by
      push_cast
      rw [Int.toNat_of_nonneg (by omega)]
      linear_combination hk
    have : ((a * (s.t).toNat % m : Nat) : Int) = 1 := by
      rw [Int.natCast_mod, hz, Int.add_mul_emod_self_left, Int.emod_eq_of_lt (by norm_num) (by omega)]
    exact_mod_cast this

/-- iterating the machine step agrees with iterating the exact step as long as the loop runs -/
lemma iter_step_eq {a m : Nat} (hm : m < 2^63) (ha : a < m) (k : Nat)
    (hrun : ∀ j < k, (InvState.step^[j] ⟨0, 1, m, a⟩).newr ≠ 0) :
    InvState.step^[k] ⟨0, 1, m, a⟩ = InvState.stepZ^[k] ⟨0, 1, m, a⟩ ∧
    InvInv a m (InvState.step^[k] ⟨0, 1, m, a⟩) ∧ (InvState.step^[k] ⟨0, 1, m, a⟩).r ≤ m := by
  induction k with
  | zero => exact ⟨rfl, InvInv.init ha, le_refl _⟩
  | succ k ih =>
    obtain ⟨h1, h2, h3⟩ := ih (fun j hj => hrun j (by omega))
    have h4 := hrun k (by omega)
    rw [Function.iterate_succ_apply', Function.iterate_succ_apply', ← h1,
      h2.step_eq hm (by omega) h4]
    refine ⟨rfl, h2.stepZ h4, ?_⟩
    simp only [InvState.stepZ]
    have := h2.lt; omega

lemma invLoop_zero (m : Nat) : invLoop ⟨0, 1, m, 0⟩ = ⟨0, 1, m, 0⟩ := by
  unfold invLoop; simp

lemma modInv_zero (m : Nat) : modInv 0 m = 0 := by
  unfold modInv; rw [invLoop_zero]; simp [u64]

end FireFly
