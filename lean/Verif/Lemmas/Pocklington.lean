import Verif.Tac
import Mathlib.FieldTheory.Finite.Basic
import Mathlib.Data.Nat.Factorization.Basic
import Mathlib.GroupTheory.OrderOfElement
/-! # A kernel-checkable primality checker (Pocklington) and a compositeness checker -/
namespace FireFly

/-- square-and-multiply with `k` bits of exponent -/
def powMod (m a : ℕ) : ℕ → ℕ → ℕ
  | 0, _ => 1 % m
  | k + 1, e =>
    if e % 2 = 1 then (powMod m a k (e / 2)) ^ 2 % m * a % m else (powMod m a k (e / 2)) ^ 2 % m

lemma powMod_eq (m a : ℕ) : ∀ k e, e < 2 ^ k → powMod m a k e = a ^ e % m
  | 0, e, h => by
    have : e = 0 := by simpa using h
    subst this; simp [powMod]
  | k + 1, e, h => by
    unfold powMod
    rw [powMod_eq m a k (e / 2) (by rw [pow_succ] at h; omega)]
    have he : e = 2 * (e / 2) + e % 2 := by omega
    split
    · rename_i h1
      conv_rhs => rw [he, h1]
      rw [Nat.mod_mul_mod, pow_succ a (2 * (e / 2)), pow_mul', Nat.mul_mod, ← Nat.pow_mod, ← Nat.mul_mod]
    · rename_i h1
      have h0 : e % 2 = 0 := by omega
      conv_rhs => rw [he, h0]
      rw [add_zero, pow_mul', ← Nat.pow_mod]

/-- one entry of a certificate: the number, the base, the used prime powers of the predecessor -/
abbrev CertEntry := ℕ × ℕ × List (ℕ × ℕ)

/-- product of the prime powers -/
def factoredPart (fs : List (ℕ × ℕ)) : ℕ := (fs.map (fun f => f.1 ^ f.2)).prod

/-- Pocklington's criterion -/
def checkEntry (known : List ℕ) (c : CertEntry) : Bool :=
  let p := c.1
  let a := c.2.1
  let fs := c.2.2
  Nat.blt 1 p && Nat.blt p (2 ^ 130) && ((p - 1) % factoredPart fs == 0) &&
  Nat.blt p (factoredPart fs ^ 2) &&
  decide (fs.map Prod.fst).Nodup && fs.all (fun f => known.elem f.1 && Nat.blt 0 f.2) &&
  (powMod p a (Nat.log2 p + 1) (p - 1) == 1) &&
  fs.all (fun f => Nat.gcd (powMod p a (Nat.log2 p + 1) ((p - 1) / f.1) + p - 1) p == 1)

/-- a list of entries in dependency order -/
def checkChain : List CertEntry → List ℕ → Bool
  | [], _ => true
  | c :: cs, known => checkEntry known c && checkChain cs (c.1 :: known)

lemma pocklington {p a F : ℕ} (fs : List (ℕ × ℕ)) (hp : 1 < p) (hF : factoredPart fs = F)
    (hdvd : F ∣ p - 1) (hbig : p < F ^ 2) (hnd : (fs.map Prod.fst).Nodup)
    (hpr : ∀ f ∈ fs, f.1.Prime ∧ 0 < f.2) (h1 : a ^ (p - 1) % p = 1)
    (hg : ∀ f ∈ fs, Nat.gcd (a ^ ((p - 1) / f.1) % p + p - 1) p = 1) : p.Prime := by
  by_contra hnp
  set r := p.minFac with hr
  have hrp : r.Prime := Nat.minFac_prime (by omega)
  have hrd : r ∣ p := Nat.minFac_dvd p
  have hr2 : r ^ 2 ≤ p := Nat.minFac_sq_le_self (by omega) hnp
  have := Fact.mk hrp
  -- the order of `a` modulo `r`
  have hmodr : ∀ x y : ℕ, x % p = y % p → (x : ZMod r) = (y : ZMod r) := by
    intro x y h
    exact (ZMod.natCast_eq_natCast_iff x y r).mpr (Nat.ModEq.of_dvd hrd h)
  have ha1 : (a : ZMod r) ^ (p - 1) = 1 := by
    have := hmodr (a ^ (p - 1)) 1 (by rw [h1, Nat.mod_eq_of_lt hp])
    push_cast at this; exact this
  have ha0 : (a : ZMod r) ≠ 0 := by
    intro h; rw [h, zero_pow (by omega)] at ha1; exact zero_ne_one ha1
  have hord1 : orderOf (a : ZMod r) ∣ p - 1 := orderOf_dvd_of_pow_eq_one ha1
  have hord2 : orderOf (a : ZMod r) ∣ r - 1 :=
    orderOf_dvd_of_pow_eq_one (ZMod.pow_card_sub_one_eq_one ha0)
  have hpm : p - 1 ≠ 0 := by omega
  have hord0 : orderOf (a : ZMod r) ≠ 0 := fun h => by rw [h] at hord1; exact hpm (Nat.eq_zero_of_zero_dvd hord1)
  have hq : ∀ f ∈ fs, f.1 ^ f.2 ∣ orderOf (a : ZMod r) := by
    intro f hf
    obtain ⟨hqp, hf2⟩ := hpr f hf
    have hfF : f.1 ^ f.2 ∣ p - 1 := by
      refine dvd_trans ?_ hdvd
      rw [← hF]
      exact List.dvd_prod (List.mem_map.mpr ⟨f, hf, rfl⟩)
    have hqd : f.1 ∣ p - 1 := dvd_trans (dvd_pow_self _ (by omega)) hfF
    -- the order does not divide `(p-1)/q`
    have hnot : ¬ orderOf (a : ZMod r) ∣ (p - 1) / f.1 := by
      intro h
      have h2 : (a : ZMod r) ^ ((p - 1) / f.1) = 1 := orderOf_dvd_iff_pow_eq_one.mp h
      have h3 : (((a ^ ((p - 1) / f.1) % p + p - 1 : ℕ)) : ZMod r) = 0 := by
        have hm := hmodr (a ^ ((p - 1) / f.1)) (a ^ ((p - 1) / f.1) % p) (by simp)
        push_cast at hm
        rw [Nat.cast_sub (by omega), Nat.cast_add]
        rw [← hm, h2, (ZMod.natCast_eq_zero_iff p r).mpr hrd]; simp
      have h4 : r ∣ a ^ ((p - 1) / f.1) % p + p - 1 := (ZMod.natCast_eq_zero_iff _ _).mp h3
      have h5 := Nat.dvd_gcd h4 hrd
      rw [hg f hf] at h5
      exact hrp.one_lt.ne' (Nat.dvd_one.mp h5)
    -- hence the full power of `q` divides the order
    by_contra hcon
    apply hnot
    have hfac1 : f.2 ≤ (p - 1).factorization f.1 := (hqp.pow_dvd_iff_le_factorization hpm).mp hfF
    have hfac2 : (orderOf (a : ZMod r)).factorization f.1 < f.2 := by
      by_contra h; push Not at h
      exact hcon ((hqp.pow_dvd_iff_le_factorization hord0).mpr h)
    have hdiv0 : (p - 1) / f.1 ≠ 0 := by
      intro h
      rw [Nat.div_eq_zero_iff] at h
      rcases h with h | h
      · exact hqp.ne_zero h
      · exact absurd (Nat.le_of_dvd (by omega) hqd) (by omega)
    rw [← Nat.factorization_le_iff_dvd hord0 hdiv0, Nat.factorization_div hqd]
    intro s
    have h6 := (Nat.factorization_le_iff_dvd hord0 hpm).mpr hord1 s
    rw [Finsupp.tsub_apply, hqp.factorization, Finsupp.single_apply]
    by_cases hs : f.1 = s
    · subst hs; rw [if_pos rfl]; omega
    · rw [if_neg hs]; omega
  have hFord : F ∣ orderOf (a : ZMod r) := by
    rw [← hF]
    clear hF hdvd hbig hg
    induction fs with
    | nil => simp [factoredPart]
    | cons f fs ih =>
      rw [List.map_cons, List.nodup_cons] at hnd
      have ih' := ih hnd.2 (fun g hg => hpr g (by simp [hg])) (fun g hg => hq g (by simp [hg]))
      unfold factoredPart at ih' ⊢
      rw [List.map_cons, List.prod_cons]
      refine Nat.Coprime.mul_dvd_of_dvd_of_dvd ?_ (hq f (by simp)) ih'
      rw [Nat.coprime_list_prod_right_iff]
      intro k hk
      obtain ⟨g, hg, rfl⟩ := List.mem_map.mp hk
      apply Nat.Coprime.pow
      rw [Nat.coprime_primes (hpr f (by simp)).1 (hpr g (by simp [hg])).1]
      intro he
      exact hnd.1 (he ▸ List.mem_map.mpr ⟨g, hg, rfl⟩)
  have hle : F ≤ r - 1 := Nat.le_of_dvd (by have := hrp.two_le; omega) (dvd_trans hFord hord2)
  have : F ^ 2 ≤ r ^ 2 := Nat.pow_le_pow_left (by omega) 2
  omega

lemma checkEntry_prime {known : List ℕ} (hk : ∀ q ∈ known, q.Prime) {c : CertEntry}
    (h : checkEntry known c = true) : c.1.Prime := by
  unfold checkEntry at h
  simp only [Bool.and_eq_true, Nat.blt_eq, beq_iff_eq, decide_eq_true_eq, List.all_eq_true,
    List.elem_eq_mem] at h
  obtain ⟨⟨⟨⟨⟨⟨⟨h1, h2⟩, h3⟩, h4⟩, h5⟩, h6⟩, h7⟩, h8⟩ := h
  refine pocklington (a := c.2.1) c.2.2 h1 rfl (Nat.dvd_of_mod_eq_zero h3) h4 h5
    (fun f hf => ⟨hk _ (h6 f hf).1, (h6 f hf).2⟩) ?_ ?_
  · rw [powMod_eq _ _ _ _ (by have := @Nat.lt_log2_self c.1; omega)] at h7; exact h7
  · intro f hf
    have h9 := h8 f hf
    rw [powMod_eq _ _ _ _ (by have := Nat.div_le_self (c.1 - 1) f.1; have := @Nat.lt_log2_self c.1; omega)] at h9
    exact h9

lemma checkChain_prime : ∀ (cs : List CertEntry) (known : List ℕ), (∀ q ∈ known, q.Prime) →
    checkChain cs known = true → ∀ c ∈ cs, c.1.Prime
  | [], _, _, _ => by simp
  | c :: cs, known, hk, h => by
    unfold checkChain at h
    rw [Bool.and_eq_true] at h
    have hc := checkEntry_prime hk h.1
    intro d hd
    rcases List.mem_cons.mp hd with rfl | hd
    · exact hc
    · refine checkChain_prime cs (c.1 :: known) ?_ h.2 d hd
      intro q hq
      rcases List.mem_cons.mp hq with rfl | hq
      · exact hc
      · exact hk q hq

/-- compositeness: a nontrivial common divisor with the primorial of 97, or a failing Fermat test -/
def comp (n : ℕ) : Bool :=
  let g := Nat.gcd n 2305567963945518424753102147331756070
  (Nat.blt 1 g && Nat.blt g n) ||
    (Nat.blt 2 n && Nat.blt n (2 ^ 130) && !(powMod n 2 (Nat.log2 n + 1) (n - 1) == 1))

lemma comp_sound {n : ℕ} (h : comp n = true) : ¬ n.Prime := by
  intro hp
  unfold comp at h
  simp only [Bool.or_eq_true, Bool.and_eq_true, Nat.blt_eq, Bool.not_eq_true', beq_eq_false_iff_ne] at h
  rcases h with ⟨h1, h2⟩ | ⟨⟨h1, h2⟩, h3⟩
  · rcases (Nat.dvd_prime hp).mp (Nat.gcd_dvd_left n 2305567963945518424753102147331756070) with h | h
    · omega
    · omega
  · apply h3
    rw [powMod_eq _ _ _ _ (by have := @Nat.lt_log2_self n; omega)]
    have := Fact.mk hp
    have h20 : (2 : ZMod n) ≠ 0 := by
      intro h
      have : ((2 : ℕ) : ZMod n) = 0 := by exact_mod_cast h
      rw [ZMod.natCast_eq_zero_iff] at this
      have := Nat.le_of_dvd (by norm_num) this
      omega
    have := ZMod.pow_card_sub_one_eq_one h20
    have h4 : ((2 ^ (n - 1) : ℕ) : ZMod n) = ((1 : ℕ) : ZMod n) := by push_cast; exact this
    rw [ZMod.natCast_eq_natCast_iff] at h4
    have h5 : 2 ^ (n - 1) % n = 1 % n := h4
    rw [h5, Nat.mod_eq_of_lt (by omega)]

/-- all numbers strictly between consecutive entries of a decreasing list are composite -/
def gapsOK : ℕ → List ℕ → Bool
  | _, [] => true
  | up, p :: ps => Nat.blt p up && (List.range (up - p - 1)).all (fun i => comp (p + 1 + i)) && gapsOK p ps

lemma gapsOK_sound : ∀ (l : List ℕ) (up : ℕ), gapsOK up l = true →
    (l.Pairwise (· > ·)) ∧ (∀ p ∈ l, p < up) ∧
    ∀ q, q.Prime → q < up → q ∉ l → ∀ p ∈ l, q < p
  | [], _, _ => by simp
  | p :: ps, up, h => by
    unfold gapsOK at h
    simp only [Bool.and_eq_true, Nat.blt_eq, List.all_eq_true, List.mem_range] at h
    obtain ⟨⟨h1, h2⟩, h3⟩ := h
    obtain ⟨g1, g2, g3⟩ := gapsOK_sound ps p h3
    refine ⟨List.pairwise_cons.mpr ⟨g2, g1⟩, ?_, ?_⟩
    · intro q hq
      rcases List.mem_cons.mp hq with rfl | hq
      · exact h1
      · have := g2 q hq; omega
    · intro q hq hlt hmem
      have hqp : q < p := by
        by_contra hcon
        have hne : q ≠ p := fun h => hmem (by simp [h])
        have := h2 (q - p - 1) (by omega)
        rw [show p + 1 + (q - p - 1) = q by omega] at this
        exact comp_sound this hq
      intro r hr
      rcases List.mem_cons.mp hr with rfl | hr
      · exact hqp
      · exact g3 q hq hqp (fun h => hmem (by simp [h])) r hr

end FireFly
