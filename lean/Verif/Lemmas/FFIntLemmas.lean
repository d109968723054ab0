import Verif.Lemmas.ModInv
import Verif.Model.FFIntString
import Mathlib.FieldTheory.Finite.Basic
import Mathlib.Algebra.Field.ZMod

namespace FireFly

lemma ctorU_eq (p n : Nat) : ctorU p n = n % p := by
  unfold ctorU; split
  · rw [Nat.mod_eq_of_lt (by assumption)]
  · rfl

lemma ffAddAssign_eq {p a b : Nat} (hp : p < 2^63) (ha : a < p) (hb : b < p) :
    ffAddAssign p a b = (a + b) % p := by
  unfold ffAddAssign u64
  split_ifs with h
  · rw [Nat.mod_eq_of_lt (by omega)]; omega
  · have h1 : a + b = (a + b - p) + p := by omega
    rw [h1, Nat.add_mod_right, Nat.mod_eq_of_lt (by omega)]; omega

lemma ffSubAssign_eq {p a b : Nat} (hp : p < 2^63) (ha : a < p) (hb : b < p) :
    ffSubAssign p a b = (a + (p - b)) % p := by
  unfold ffSubAssign u64
  split_ifs with h
  · rw [Nat.mod_eq_of_lt (by omega)]; omega
  · have h1 : a + (p - b) = (a - b) + p := by omega
    rw [h1, Nat.add_mod_right, Nat.mod_eq_of_lt (by omega)]; omega

variable [LongDouble]

lemma modPowLoop_spec {m : Nat} (hm : m < 2^63) (h1 : 1 < m) :
    ∀ (exp res base : Nat), res < m → ∃ c, modPowLoop res base exp m = some c ∧ c < m ∧
      c % m = (res * base ^ exp) % m := by
  intro exp
  induction exp using Nat.strong_induction_on with
  | _ exp ih =>
    intro res base hres
    unfold modPowLoop
    by_cases h : exp = 0
    · subst h; simp [hres]
    · rw [dif_neg h]
      have hdm := Nat.div_add_mod exp 2
      have hlt : exp / 2 < exp := Nat.div_lt_self (Nat.pos_of_ne_zero h) (by decide)
      have hm0 : 0 < m := by omega
      have hpow : base ^ exp = base ^ (exp % 2) * (base * base) ^ (exp / 2) := by
        conv_lhs => rw [← hdm]
        rw [pow_add, pow_mul, mul_comm, pow_two]
      have hsq : (base * base % m) ^ (exp / 2) ≡ (base * base) ^ (exp / 2) [MOD m] :=
        (Nat.mod_modEq _ _).pow _
      by_cases ho : exp % 2 = 1
      · simp only [ho, if_true, modMul_eq hm0 hm, Option.bind_eq_bind, Option.bind_some]
        obtain ⟨c, e1, e2, e3⟩ := ih _ hlt (res * base % m) (base * base % m) (Nat.mod_lt _ hm0)
        refine ⟨c, e1, e2, e3.trans ?_⟩
        rw [hpow, ho, pow_one, ← mul_assoc]
        exact Nat.ModEq.mul (Nat.mod_modEq _ _) hsq
      · have ho' : exp % 2 = 0 := by omega
        simp only [ho', modMul_eq hm0 hm, Option.bind_eq_bind, Option.bind_some]
        obtain ⟨c, e1, e2, e3⟩ := ih _ hlt res (base * base % m) hres
        refine ⟨c, by simpa using e1, e2, e3.trans ?_⟩
        rw [hpow, ho', pow_zero, one_mul]
        exact Nat.ModEq.mul rfl hsq

lemma modPow_eq {m : Nat} (hm : m < 2^63) (h1 : 1 < m) (base exp : Nat) :
    modPow base exp m = some (base ^ exp % m) := by
  obtain ⟨c, e1, e2, e3⟩ := modPowLoop_spec hm h1 exp 1 base h1
  unfold modPow
  rw [e1, ← Nat.mod_eq_of_lt e2, e3, one_mul]

omit [LongDouble] in
lemma modInv_prime {p a : Nat} (hp : p.Prime) (hlt : p < 2^63) (ha : a < p) :
    modInv a p < p ∧ haveI := Fact.mk hp; ((modInv a p : Nat) : ZMod p) = (a : ZMod p)⁻¹ := by
  have := Fact.mk hp
  rcases Nat.eq_zero_or_pos a with h0 | h0
  · subst h0; rw [modInv_zero]; exact ⟨hp.pos, by simp⟩
  · have hg : Nat.gcd a p = 1 := by
      rw [Nat.gcd_comm]; exact (Nat.Prime.coprime_iff_not_dvd hp).mpr (Nat.not_dvd_of_pos_of_lt h0 ha)
    obtain ⟨h1, h2⟩ := modInv_spec hp.one_lt hlt ha hg
    refine ⟨h1, ?_⟩
    have ha0 : (a : ZMod p) ≠ 0 := by
      intro h; rw [ZMod.natCast_eq_zero_iff] at h
      exact Nat.not_dvd_of_pos_of_lt h0 ha h
    apply eq_inv_of_mul_eq_one_right
    have : ((a * modInv a p : Nat) : ZMod p) = ((1 : Nat) : ZMod p) := by
      rw [ZMod.natCast_eq_natCast_iff]
      unfold Nat.ModEq; rw [h2, Nat.mod_eq_of_lt hp.one_lt]
    push_cast at this; exact this

end FireFly
