import Verif.Lemmas.RatSafeStep
/-!
# How many prime fields determine a coefficient if it vanishes in some of them
-/
set_option linter.all false
namespace FireFly.RRun.Safe

/-- the place of an element with `P` before which there are `k` others -/
lemma split_last {A : Type} (P : A → Bool) (k : ℕ) : ∀ l : List A, k + 1 ≤ (l.filter P).length → ∃ l1 a l2, l = l1 ++ a :: l2 ∧ P a = true ∧ k ≤ (l1.filter P).length := by
  intro l
  induction l using List.reverseRecOn with
  | nil => intro h; simp at h
  | append_singleton l x ih =>
    intro h
    rw [List.filter_append, List.length_append] at h
    by_cases hx : P x = true
    · refine ⟨l, x, [], rfl, hx, ?_⟩
      rw [List.filter_cons, if_pos hx] at h
      simp at h
      exact h
    · rw [List.filter_cons, if_neg hx] at h
      simp at h
      obtain ⟨l1, a, l2, rfl, h1, h2⟩ := ih h
      exact ⟨l1, a, l2 ++ [x], by simp, h1, h2⟩

lemma modulus_ge (q : ℚ) : ∀ ps : List ℕ, (∀ p ∈ ps, p.Prime) → (2 : ℤ) ^ (ps.filter (fun p : ℕ => decide (¬ (p : ℤ) ∣ q.num))).length ≤ modulus q ps
  | [], _ => by simp [modulus]
  | p :: ps, h => by
    have ih := modulus_ge q ps (fun x hx => h x (by simp [hx]))
    have hp : (2 : ℤ) ≤ p := by exact_mod_cast (h p (by simp)).two_le
    have e : modulus q (p :: ps) = (if (p : ℤ) ∣ q.num then 1 else (p : ℤ)) * modulus q ps := by unfold modulus; rw [List.map_cons, List.prod_cons]
    rw [e, List.filter_cons]
    by_cases hd : (p : ℤ) ∣ q.num
    · rw [if_pos hd, if_neg (by simp [hd]), one_mul]; exact ih
    · rw [if_neg hd, if_pos (by simp [hd]), List.length_cons, pow_succ, mul_comm]
      have : (0 : ℤ) ≤ 2 ^ (ps.filter (fun p : ℕ => decide (¬ (p : ℤ) ∣ q.num))).length := by positivity
      nlinarith

lemma divisors_le {q : ℚ} (hq : q ≠ 0) {b : ℕ} (hb : |q.num| < 2 ^ b) {ps : List ℕ} (hp : ∀ p ∈ ps, p.Prime) (hnd : ps.Nodup) : (ps.filter (fun p : ℕ => decide ((p : ℤ) ∣ q.num))).length ≤ b := by
  set l := ps.filter (fun p : ℕ => decide ((p : ℤ) ∣ q.num)) with hl
  have hlnd : l.Nodup := hnd.filter _
  have hmem : ∀ p ∈ l, p.Prime ∧ p ∣ q.num.natAbs := by
    intro p h
    rw [hl, List.mem_filter] at h
    exact ⟨hp p h.1, Int.natCast_dvd.mp (by simpa using h.2)⟩
  have hn0 : q.num.natAbs ≠ 0 := by simpa using hq
  have h1 : (∏ p ∈ l.toFinset, p) ∣ q.num.natAbs := Finset.prod_primes_dvd _ (fun p h => (hmem p (by simpa using h)).1.prime) (fun p h => (hmem p (by simpa using h)).2)
  have h2 : 2 ^ l.toFinset.card ≤ ∏ p ∈ l.toFinset, p := by
    rw [← Finset.prod_const]
    exact Finset.prod_le_prod' (fun p h => (hmem p (by simpa using h)).1.two_le)
  rw [List.toFinset_card_of_nodup hlnd] at h2
  have h3 : q.num.natAbs < 2 ^ b := by
    have : (q.num.natAbs : ℤ) < 2 ^ b := by rw [Int.natCast_natAbs]; exact hb
    exact_mod_cast this
  have h4 : 2 ^ l.length < 2 ^ b := lt_of_le_of_lt (h2.trans (Nat.le_of_dvd (Nat.pos_of_ne_zero hn0) h1)) h3
  exact ((Nat.pow_lt_pow_iff_right (by norm_num)).mp h4).le

lemma settled_of_length {q : ℚ} (hq : q ≠ 0) {b : ℕ} (hn : |q.num| < 2 ^ b) (hd : (q.den : ℤ) < 2 ^ b) {ps : List ℕ} (hp : ∀ p ∈ ps, p.Prime) (hnd : ps.Nodup) (h : 3 * b + 2 ≤ ps.length) : Settled q ps := by
  have h1 := divisors_le hq hn hp hnd
  have h2 : ps.length = (ps.filter (fun p : ℕ => decide ((p : ℤ) ∣ q.num))).length + (ps.filter (fun p : ℕ => decide (¬ (p : ℤ) ∣ q.num))).length := by
    rw [← List.countP_eq_length_filter, ← List.countP_eq_length_filter, List.length_eq_countP_add_countP (fun p : ℕ => decide ((p : ℤ) ∣ q.num))]
    congr 2
    funext p
    simp
  obtain ⟨l1, p, l2, rfl, hpp, hk⟩ := split_last (fun p : ℕ => decide (¬ (p : ℤ) ∣ q.num)) (2 * b + 1) ps (by omega)
  refine ⟨l1, p, l2, rfl, by simpa using hpp, ?_⟩
  have hM : (2 : ℤ) ^ (2 * b + 1) ≤ modulus q l1 := (pow_le_pow_right₀ (by norm_num) hk).trans (modulus_ge q l1 (fun x hx => hp x (by simp [hx])))
  have hsq : (2 : ℤ) ^ (2 * b + 1) = 2 * (2 ^ b) ^ 2 := by rw [pow_succ, pow_mul, ← pow_mul, mul_comm 2 b, pow_mul, mul_comm]
  have hn2 : q.num ^ 2 < (2 ^ b) ^ 2 := sq_lt_sq' (neg_lt_of_abs_lt hn) (lt_of_abs_lt hn)
  have hd2 : (q.den : ℤ) ^ 2 < (2 ^ b) ^ 2 := sq_lt_sq' (by have : (0 : ℤ) ≤ q.den := by positivity
                                                            linarith) hd
  exact ⟨by linarith, by linarith⟩

end FireFly.RRun.Safe
