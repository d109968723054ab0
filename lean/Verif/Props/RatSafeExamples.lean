import Verif.Props.RatSafeProps
import Verif.Props.RatRunExamples
/-!
# C62: examples
-/
set_option linter.all false
set_option maxRecDepth 20000
namespace FireFly.RRun.Safe
open MvPolynomial

/-! ### a field: `(a x + b y) / (a' x + b' y)` with the shift `(1, 0)` -/

section
open RMulti
variable {F : Type} [Field F] [DecidableEq F]

def sCfg (gt : F → F → Bool) (nd : Bool) : RMulti.Cfg F := { exShift gt with normDen := nd }

variable {gt : F → F → Bool} {nd : Bool}

/-- the polynomials that are covered -/
def Lin (a b : F) : Prop := (b = 0 ∧ a = 1) ∨ (a = 0 ∧ b = 1) ∨ Coefs a b

lemma Lin.sum {a b : F} (htwo : (2 : F) ≠ 0) (h : Lin a b) : a + 2 * b ≠ 0 := by
  rcases h with ⟨rfl, rfl⟩ | ⟨rfl, rfl⟩ | hb
  · simp
  · simpa using htwo
  · intro h; exact hb.ab (by linear_combination h)

lemma Lin.ne {a b : F} (h : Lin a b) : a ≠ 0 ∨ b ≠ 0 := by
  rcases h with ⟨rfl, rfl⟩ | ⟨rfl, rfl⟩ | hb
  · exact Or.inl one_ne_zero
  · exact Or.inr one_ne_zero
  · exact Or.inl hb.ha

lemma target_y (htwo : (2 : F) ≠ 0) (hthree : (3 : F) ≠ 0) {d : ℕ} (hd : 1 ≤ d) (hd2 : d < 2 ^ 31) : Target ({ n := 1, deg := some d, anchor := [2] } : MPoly.Cfg F) (X 1) := by
  refine ⟨[([1], 1)], ?_, Or.inr (fits_mono htwo hthree (by norm_num) hd hd2)⟩
  unfold denote dehomogenize
  simp [mono_single]

lemma card_y : (dehomogenize (X 1 : MvPolynomial ℕ F)).support.card ≤ 2 := by
  have : dehomogenize (X 1 : MvPolynomial ℕ F) = X 0 := by unfold dehomogenize; simp
  rw [this, support_X]; simp

lemma lin_part (a b : F) (k : ℕ) : part (sCfg gt nd).shift (C a * X 0 + C b * X 1) k = if k = 1 then C a * X 0 + C b * X 1 else if k = 0 then C a else 0 := exShift_part (gt := gt) a b k

lemma lin_side {a b : F} (htwo : (2 : F) ≠ 0) (hthree : (3 : F) ≠ 0) (hx : Lin a b) : RMulti.SideOK (sCfg gt nd) none (C a * X 0 + C b * X 1) 1 := by
  have hT : Target ((sCfg gt nd).poly none 1) (C a * X 0 + C b * X 1) ∧ (dehomogenize (C a * X 0 + C b * X 1 : MvPolynomial ℕ F)).support.card ≤ 2 := by
    rcases hx with ⟨rfl, rfl⟩ | ⟨rfl, rfl⟩ | hb
    · simp only [map_one, one_mul, map_zero, zero_mul, add_zero]
      exact ⟨target_x htwo hthree le_rfl (by norm_num), card_x⟩
    · simp only [map_one, one_mul, map_zero, zero_mul, zero_add]
      exact ⟨target_y htwo hthree le_rfl (by norm_num), card_y⟩
    · exact ⟨target_lin hb le_rfl (by norm_num), card_lin hb⟩
  have hC : (dehomogenize (C a : MvPolynomial ℕ F)).support.card ≤ 2 := by
    have : dehomogenize (C a : MvPolynomial ℕ F) = monomial 0 a := by unfold dehomogenize; simp [← C_apply]
    rw [this]
    exact (Finset.card_le_card support_monomial_subset).trans (by simp)
  have hc : ∀ k, homogeneousComponent k (C a * X 0 + C b * X 1 : MvPolynomial ℕ F) = if k = 1 then C a * X 0 + C b * X 1 else 0 :=
    fun k => homogeneousComponent_of_mem ((mem_homogeneousSubmodule _ _).mpr (hom_lin a b))
  have hs := hx.sum htwo
  have hne : (C a * X 0 + C b * X 1 : MvPolynomial ℕ F) ≠ 0 := by
    intro h0
    have := congrArg (eval (fun i => if i = 0 then (1 : F) else 2)) h0
    simp at this
    exact hs (by linear_combination this)
  refine ⟨?_, ?_, ?_, ?_, ?_, by norm_num, ?_, ?_⟩
  · intro k hk
    rw [lin_part, if_neg (by omega), if_neg (by omega)]
  · rw [lin_part, if_pos rfl]; exact hne
  · intro k hk
    rw [hc]
    split
    · rename_i h1; rw [lin_part, if_pos h1] at hk; exact hk
    · rfl
  · intro k hk
    rw [lin_part] at hk ⊢
    split_ifs at hk ⊢
    · simp [dir, sCfg, exShift]
      intro h; exact hs (by linear_combination h)
    · simpa using hk
    · exact absurd rfl hk
  · intro k h1 hk
    rw [lin_part] at hk
    have hk1 : k = 1 := by
      by_contra h0
      rw [if_neg h0, if_neg (by omega)] at hk
      exact hk rfl
    subst hk1
    rw [lin_part, hc, if_pos rfl, if_pos rfl]
    exact ⟨hT.1, hT.1⟩
  · intro i h1 h2
    have : i = 1 := by omega
    subst this; norm_num
  · intro k hk
    have hcard : ∀ p : MvPolynomial ℕ F, (dehomogenize p).support.card ≤ 2 → bnd (sCfg gt nd) k p + 2 ≤ (sCfg gt nd).fuel := by
      intro p hp
      unfold bnd
      have : (2 * (k + 1) + 1 + 1) * (dehomogenize p).support.card ≤ 6 * 2 := Nat.mul_le_mul (by omega) hp
      show 1 * ((2 * (k + 1) + 1 + 1) * (dehomogenize p).support.card) + 2 ≤ 100
      omega
    rw [lin_part, hc]
    constructor
    · split_ifs
      · exact hcard _ hT.2
      · exact hcard _ hC
      · exact hcard _ card_zero
    · split_ifs
      · exact hcard _ hT.2
      · exact hcard _ card_zero

lemma lin_eval (a b t : F) (ord : List ℕ) : eval (pt (sCfg gt nd).shift (sCfg gt nd).anchor t ord) (C a * X 0 + C b * X 1) = a * (t + 1) + b * (t * 2 ^ ord.getD 0 0) := exShift_eval (gt := gt) a b t ord

lemma lin_good {a b a' b' : F} (hne : a * b' - a' * b ≠ 0) (hab : a ≠ 0 ∨ b ≠ 0) (htwo : (2 : F) ≠ 0) (G : F → List ℕ → Prop)
    (hG : ∀ t ord, G t ord → t ≠ 0 ∧ a * (t + 1) + b * (t * 2 ^ ord.getD 0 0) ≠ 0 ∧ a' * (t + 1) + b' * (t * 2 ^ ord.getD 0 0) ≠ 0) :
    RMulti.GoodPts (sCfg gt nd) (C a * X 0 + C b * X 1) (C a' * X 0 + C b' * X 1) G := by
  refine ⟨?_, ?_⟩
  · intro t ord h
    rw [lin_eval]
    exact (hG t ord h).2.2
  · intro ord A B ts hA hB hnd hts hlen u v heq
    have hpart : ∀ (a b : F) k, 1 ≤ k → part (sCfg gt nd).shift (C a * X 0 + C b * X 1) k ≠ 0 → k = 1 := by
      intro a b k h1 hk
      rw [lin_part] at hk
      by_contra h0
      rw [if_neg h0, if_neg (by omega)] at hk
      exact hk rfl
    have hA' := ex_single (fun k hk => hpart _ _ k (hA k hk).1 (hA k hk).2)
    have hB' := ex_single (fun k hk => hpart _ _ k (hB k hk).1 (hB k hk).2)
    have hg : ∀ t ∈ ts, t ≠ 0 ∧ a * (t + 1) + b * (t * 2 ^ ord.getD 0 0) ≠ 0 ∧ a' * (t + 1) + b' * (t * 2 ^ ord.getD 0 0) ≠ 0 := fun t ht => hG t ord (hts t ht)
    have heq' : ∀ t ∈ ts, (∑ k ∈ A, u k * t ^ k) * (a' * (t + 1) + b' * (t * 2 ^ ord.getD 0 0)) = (a * (t + 1) + b * (t * 2 ^ ord.getD 0 0)) * ∑ k ∈ B, v k * t ^ k := by
      intro t ht
      have h1 := heq t ht
      have h2 := (hg t ht).2.2
      unfold valueOf at h1
      rw [lin_eval, lin_eval] at h1
      rw [h1]
      rw [mul_assoc, mul_comm (∑ k ∈ B, _), ← mul_assoc, div_mul_cancel₀ _ h2]
    have hy : (2 : F) ^ ord.getD 0 0 ≠ 0 := pow_ne_zero _ htwo
    generalize (2 : F) ^ ord.getD 0 0 = y at heq' hg hy
    rcases hA' with rfl | rfl <;> rcases hB' with rfl | rfl
    · simp
    · refine ⟨by simp, ?_⟩
      intro k hk
      rw [Finset.mem_singleton.mp hk]
      obtain ⟨t, rfl⟩ := List.length_eq_one_iff.mp (by simpa using hlen)
      have h2 := heq' t (by simp)
      obtain ⟨g1, g2, g3⟩ := hg t (by simp)
      simp only [Finset.sum_empty, Finset.sum_singleton, zero_mul, pow_one] at h2
      exact (mul_eq_zero.mp ((mul_eq_zero.mp h2.symm).resolve_left g2)).resolve_right g1
    · refine ⟨?_, by simp⟩
      intro k hk
      rw [Finset.mem_singleton.mp hk]
      obtain ⟨t, rfl⟩ := List.length_eq_one_iff.mp (by simpa using hlen)
      have h2 := heq' t (by simp)
      obtain ⟨g1, g2, g3⟩ := hg t (by simp)
      simp only [Finset.sum_empty, Finset.sum_singleton, mul_zero, pow_one] at h2
      exact (mul_eq_zero.mp ((mul_eq_zero.mp h2).resolve_right g3)).resolve_right g1
    · obtain ⟨t, s, rfl⟩ := List.length_eq_two.mp (by simpa using hlen)
      have h2 := heq' t (by simp)
      have h4 := heq' s (by simp)
      obtain ⟨g1, g2, g3⟩ := hg t (by simp)
      obtain ⟨k1, k2, k3⟩ := hg s (by simp)
      simp only [Finset.sum_singleton, pow_one] at h2 h4
      have hts' : t - s ≠ 0 := by
        intro h
        have : t = s := by linear_combination h
        simp [this] at hnd
      have h5 : u 1 * (a' * (t + 1) + b' * (t * y)) = (a * (t + 1) + b * (t * y)) * v 1 := by
        apply mul_left_cancel₀ g1; linear_combination h2
      have h6 : u 1 * (a' * (s + 1) + b' * (s * y)) = (a * (s + 1) + b * (s * y)) * v 1 := by
        apply mul_left_cancel₀ k1; linear_combination h4
      have h7 : (u 1 * (a' + b' * y) - (a + b * y) * v 1) * (t - s) = 0 := by linear_combination h5 - h6
      have h8 : u 1 * (a' + b' * y) = (a + b * y) * v 1 := by
        have := (mul_eq_zero.mp h7).resolve_right hts'
        linear_combination this
      have h9 : u 1 * a' = a * v 1 := by linear_combination h5 - t * h8
      have h10 : u 1 * b' = b * v 1 := by
        apply mul_right_cancel₀ hy; linear_combination h8 - h9
      have h11 : u 1 * (a * b' - a' * b) = 0 := by linear_combination a * h10 - b * h9
      have h12 : u 1 = 0 := (mul_eq_zero.mp h11).resolve_right hne
      rw [h12, zero_mul] at h9 h10
      have h13 : v 1 = 0 := by
        rcases hab with h | h
        · exact (mul_eq_zero.mp h9.symm).resolve_left h
        · exact (mul_eq_zero.mp h10.symm).resolve_left h
      exact ⟨fun k hk => by rw [Finset.mem_singleton.mp hk]; exact h12, fun k hk => by rw [Finset.mem_singleton.mp hk]; exact h13⟩

lemma lin_prob {a b a' b' : F} (htwo : (2 : F) ≠ 0) (hthree : (3 : F) ≠ 0) (h1 : Lin a b) (h2 : Lin a' b') (h3 : (if nd then a' else a) = 1) :
    RMulti.Prob (sCfg gt nd) (C a * X 0 + C b * X 1) (C a' * X 0 + C b' * X 1) 1 1 := by
  refine ⟨rfl, le_rfl, lin_side htwo hthree h1, lin_side htwo hthree h2, ?_⟩
  cases nd with
  | true =>
    show eval _ (C a' * X 0 + C b' * X 1) = 1
    simpa [sCfg, exShift] using h3
  | false =>
    show eval _ (C a * X 0 + C b * X 1) = 1
    simpa [sCfg, exShift] using h3

lemma lin_coprime {a b a' b' : F} (hne : a * b' - a' * b ≠ 0) (htwo : (2 : F) ≠ 0) :
    IsCoprime (line (sCfg gt nd).shift (sCfg gt nd).anchor (ones (sCfg gt nd)) (C a * X 0 + C b * X 1)) (line (sCfg gt nd).shift (sCfg gt nd).anchor (ones (sCfg gt nd)) (C a' * X 0 + C b' * X 1)) := by
  have e : ∀ a b : F, line (sCfg gt nd).shift (sCfg gt nd).anchor (ones (sCfg gt nd)) (C a * X 0 + C b * X 1) = Polynomial.C (a + 2 * b) * Polynomial.X + Polynomial.C a := by
    intro a b
    unfold line
    simp [sCfg, exShift, ones, dir]
    ring
  rw [e, e]
  have hδ : 2 * (a * b' - a' * b) ≠ 0 := mul_ne_zero htwo hne
  refine ⟨Polynomial.C ((2 * (a * b' - a' * b))⁻¹ * (a' + 2 * b')), Polynomial.C (-((2 * (a * b' - a' * b))⁻¹ * (a + 2 * b))), ?_⟩
  have h1 : (2 * (a * b' - a' * b))⁻¹ * (2 * (a * b' - a' * b)) = 1 := inv_mul_cancel₀ hδ
  have h2 : (Polynomial.C ((2 * (a * b' - a' * b))⁻¹ * (2 * (a * b' - a' * b))) : Polynomial F) = 1 := by rw [h1, Polynomial.C_1]
  rw [← h2]
  simp only [Polynomial.C_mul, Polynomial.C_add, Polynomial.C_neg, Polynomial.C_sub]
  ring

end

def sProbes {p : ℕ} [hp : Fact p.Prime] (a b a' b' : ZMod p) (ts : List (ZMod p × ℕ)) : List (ZMod p × ZMod p × List ℕ) :=
  ts.map (fun t => (t.1, (a * (t.1 + 1) + b * (t.1 * 2 ^ t.2)) / (a' * (t.1 + 1) + b' * (t.1 * 2 ^ t.2)), [t.2]))

/-- The field of `p` for `(a x + b y) / (a' x + b' y)`, with the probes `(t, o)`. -/
def sfield (p : ℕ) [hp : Fact p.Prime] (nd : Bool) (a b a' b' : ZMod p) (ts : List (ZMod p × ℕ)) : RRun.Prime :=
  ⟨p, hp, sCfg (exGt p) nd, sProbes a b a' b' ts, 0⟩

/-- everything that has to be checked for a field -/
structure FieldCheck (p : ℕ) [hp : Fact p.Prime] (nd : Bool) (a b a' b' : ZMod p) (ts : List (ZMod p × ℕ)) : Prop where
  two : (2 : ZMod p) ≠ 0
  three : (3 : ZMod p) ≠ 0
  num : Lin a b
  den : Lin a' b'
  norm : (if nd then a' else a) = 1
  det : a * b' - a' * b ≠ 0
  good : ∀ t ∈ ts, t.1 ≠ 0 ∧ a * (t.1 + 1) + b * (t.1 * 2 ^ t.2) ≠ 0 ∧ a' * (t.1 + 1) + b' * (t.1 * 2 ^ t.2) ≠ 0
  nodup : ts.Nodup
  ne : ts ≠ []
  short : ts.length < 2 ^ 32
  thiele : ((({} : Thiele (ZMod p)).runChecked ((ts.filter (fun t => decide (t.2 = 1))).map (fun t => ((a * (t.1 + 1) + b * (t.1 * 2 ^ t.2)) / (a' * (t.1 + 1) + b' * (t.1 * 2 ^ t.2)), t.1)))).map (fun r => !r.2 || decide (2 ≤ r.1.ti.length))) = some true

lemma field_ok {p : ℕ} [hp : Fact p.Prime] {nd : Bool} {A B A' B' l : ℚ} {ts : List (ZMod p × ℕ)} {a b a' b' : ZMod p} (h : FieldCheck p nd a b a' b' ts) (hl : l ≠ 0)
    (c1 : (A : ZMod p) = a) (c2 : (B : ZMod p) = b) (c3 : (A' : ZMod p) = a') (c4 : (B' : ZMod p) = b') (hd : ∀ q ∈ [A, B, A', B'], ¬ (p : ℤ) ∣ q.den) {n d : MvPolynomial ℕ ℚ} (hn : C l * n = C A * X 0 + C B * X 1) (hdd : C l * d = C A' * X 0 + C B' * X 1) :
    FieldOK 2 n d (sfield p nd a b a' b' ts) l (1 : ZMod p) 1 1 := by
  have h1 : ¬ (p : ℤ) ∣ ((1 : ℕ) : ℤ) := by
    intro h
    have := Nat.le_of_dvd one_pos (Int.natCast_dvd_natCast.mp h)
    have := hp.out.two_le
    omega
  have hden : ∀ (A B : ℚ), A ∈ [A, B] → ¬ (p : ℤ) ∣ A.den → ¬ (p : ℤ) ∣ B.den → ∀ m, ¬ (p : ℤ) ∣ (coeff m (C A * X 0 + C B * X 1 : MvPolynomial ℕ ℚ)).den := by
    intro A B _ hA hB m
    rw [coeff_lin]
    split_ifs
    · exact hA
    · exact hB
    · exact h1
  have eN : red p (C l * n) = C a * X 0 + C b * X 1 := by rw [hn, red_lin, c1, c2]
  have eD : red p (C l * d) = C a' * X 0 + C b' * X 1 := by rw [hdd, red_lin, c3, c4]
  have gN : C (1 : ZMod p) * red p (C l * n) = C a * X 0 + C b * X 1 := by rw [eN, C_1, one_mul]
  have gD : C (1 : ZMod p) * red p (C l * d) = C a' * X 0 + C b' * X 1 := by rw [eD, C_1, one_mul]
  have hv : ∀ (t : ZMod p) (o : ℕ), RMulti.valueOf (sCfg (exGt p) nd).shift (sCfg (exGt p) nd).anchor (C a * X 0 + C b * X 1) (C a' * X 0 + C b' * X 1) t [o] = (a * (t + 1) + b * (t * 2 ^ o)) / (a' * (t + 1) + b' * (t * 2 ^ o)) := by
    intro t o
    unfold RMulti.valueOf
    rw [lin_eval, lin_eval]
    rfl
  have hpm : (sProbes a b a' b' ts).map (fun q => (q.1, q.2.2)) = ts.map (fun t => (t.1, [t.2])) := by
    unfold sProbes
    rw [List.map_map]; rfl
  refine ⟨hl, rfl, exGt_spec p, ?_, ?_, ?_, ?_, ?_, ?_, ?_, ?_, ?_⟩
  · rw [hn]; exact hden A B (by simp) (hd A (by simp)) (hd B (by simp))
  · rw [hdd]; exact hden A' B' (by simp) (hd A' (by simp)) (hd B' (by simp))
  · intro q hq
    obtain ⟨t, ht, rfl⟩ := List.mem_map.mp hq
    show _ = RMulti.valueOf (sCfg (exGt p) nd).shift (sCfg (exGt p) nd).anchor (red p (C l * n)) (red p (C l * d)) t.1 [t.2]
    rw [eN, eD, hv]
  · show ((sProbes a b a' b' ts).map (fun q => (q.1, q.2.2))).Nodup
    rw [hpm]
    apply h.nodup.map
    rintro ⟨t, o⟩ ⟨t', o'⟩ h
    obtain ⟨h1, h2⟩ := Prod.mk.inj h
    have h3 : o = o' := (List.cons.inj h2).1
    rw [show t = t' from h1, h3]
  · rintro ⟨q, rest, x1, x2⟩
    have : q ∈ (sfield p nd a b a' b' ts).probes := by rw [x1]; simp
    obtain ⟨t, ht, rfl⟩ := List.mem_map.mp this
    obtain ⟨y1, y2, y3⟩ := h.good t ht
    exact div_ne_zero y2 y3 x2
  · intro h0
    exact h.ne (List.map_eq_nil_iff.mp h0)
  · suffices RMulti.Prob (sCfg (exGt p) nd) (C (1 : ZMod p) * red p (C l * n)) (C (1 : ZMod p) * red p (C l * d)) 1 1 from this
    rw [gN, gD]
    exact lin_prob h.two h.three h.num h.den h.norm
  · suffices RMulti.GoodPts (sCfg (exGt p) nd) (C (1 : ZMod p) * red p (C l * n)) (C (1 : ZMod p) * red p (C l * d)) (fun t ord => (t, ord) ∈ (sProbes a b a' b' ts).map (fun q => (q.1, q.2.2))) from this
    rw [gN, gD, hpm]
    refine lin_good h.det h.num.ne h.two _ ?_
    intro t ord hm
    obtain ⟨t', ht', hq⟩ := List.mem_map.mp hm
    obtain ⟨rfl, rfl⟩ := Prod.mk.inj hq
    exact h.good t' ht'
  · suffices RMulti.ThieleOK (sCfg (exGt p) nd) (C (1 : ZMod p) * red p (C l * n)) (C (1 : ZMod p) * red p (C l * d)) 1 1
      (RMulti.first (sCfg (exGt p) nd) (C (1 : ZMod p) * red p (C l * n)) (C (1 : ZMod p) * red p (C l * d)) ((sProbes a b a' b' ts).map (fun q => (q.1, q.2.2)))) from this
    rw [gN, gD, hpm]
    have hfirst : RMulti.first (sCfg (exGt p) nd) (C a * X 0 + C b * X 1) (C a' * X 0 + C b' * X 1) (ts.map (fun t => (t.1, [t.2]))) =
        (ts.filter (fun t => decide (t.2 = 1))).map (fun t => ((a * (t.1 + 1) + b * (t.1 * 2 ^ t.2)) / (a' * (t.1 + 1) + b' * (t.1 * 2 ^ t.2)), t.1)) := by
      unfold RMulti.first
      rw [List.filter_map, List.map_map]
      have hf : (fun q : ZMod p × List ℕ => decide (q.2 = RMulti.ones (sCfg (exGt p) nd))) ∘ (fun t : ZMod p × ℕ => (t.1, [t.2])) = fun t => decide (t.2 = 1) := by
        funext t
        show decide ([t.2] = [1]) = _
        simp
      rw [hf]
      apply List.map_congr_left
      intro t ht
      have h1 : t.2 = 1 := by simpa using (List.mem_filter.mp ht).2
      show (RMulti.valueOf _ _ _ _ t.1 (RMulti.ones (sCfg (exGt p) nd)), t.1) = _
      rw [show RMulti.ones (sCfg (exGt p) nd) = [1] from rfl, hv, h1]
    rw [hfirst]
    obtain ⟨r, hr, hr2⟩ := Option.map_eq_some_iff.mp h.thiele
    refine ⟨⟨r, hr, ?_⟩, ?_, ?_, ?_, lin_coprime h.det h.two⟩
    · intro h1
      rw [h1] at hr2
      have : 2 ≤ r.1.ti.length := by simpa using hr2
      omega
    · intro q hq
      have := List.mem_of_mem_head? hq
      obtain ⟨t, ht, rfl⟩ := List.mem_map.mp this
      obtain ⟨y1, y2, y3⟩ := h.good t (List.mem_of_mem_filter ht)
      exact div_ne_zero y2 y3
    · intro q hq
      obtain ⟨t, ht, rfl⟩ := List.mem_map.mp hq
      exact (h.good t (List.mem_of_mem_filter ht)).1
    · rw [List.length_map]
      exact lt_of_le_of_lt (List.length_filter_le _ _) h.short

/-- Coefficients that are small compared to the new prime cannot be mistaken. -/
lemma clear_of_small {f : MvPolynomial ℕ ℚ} {ps : List ℕ} {p : ℕ} (hps : ∀ p ∈ ps, p.Prime) (h : ∀ m, |(coeff m f).num| + (coeff m f).den < p) : Clear f ps p := by
  rintro m hm ⟨g, hne, hcong, hsm⟩
  obtain ⟨c, hc⟩ : ∃ c, c = coeff m f := ⟨_, rfl⟩
  have hb := h m
  rw [← hc] at hm hne hcong hsm hb
  have hM := modulus_pos (q := c) hps
  obtain ⟨M, hMd⟩ : ∃ M, M = modulus c ps := ⟨_, rfl⟩
  rw [← hMd] at hM hcong hsm
  have hgd : (1 : ℤ) ≤ g.den := by exact_mod_cast g.pos
  have hcd : (1 : ℤ) ≤ c.den := by exact_mod_cast c.pos
  have hbounds : |g.num| ≤ M ∧ (g.den : ℤ) ≤ M := by
    rcases hsm with ⟨x1, x2⟩ | x
    · constructor
      · rw [← sq_abs] at x1
        nlinarith [abs_nonneg g.num]
      · nlinarith
    · have h0 := abs_nonneg g.num
      constructor
      · nlinarith
      · by_cases hz : g.num = 0
        · have : g.den = 1 := by
            have := g.reduced
            rw [hz] at this
            simpa using this
          rw [this]; push_cast; omega
        · have : 1 ≤ |g.num| := Int.one_le_abs hz
          nlinarith
  have hdvd : M * p ∣ g.num * c.den - c.num * g.den := (Int.modEq_iff_dvd.mp hcong.symm)
  have hzero : g.num * c.den - c.num * g.den = 0 := by
    apply Int.eq_zero_of_abs_lt_dvd hdvd
    have h1 : |g.num * c.den - c.num * g.den| ≤ |g.num| * c.den + |c.num| * g.den := by
      refine (abs_sub _ _).trans ?_
      rw [abs_mul, abs_mul, abs_of_nonneg (by omega : (0 : ℤ) ≤ c.den), abs_of_nonneg (by omega : (0 : ℤ) ≤ g.den)]
    have h2 : |g.num| * c.den ≤ M * c.den := by nlinarith [hbounds.1]
    have h3 : |c.num| * g.den ≤ |c.num| * M := by nlinarith [hbounds.2, abs_nonneg c.num]
    nlinarith
  apply hne
  rw [← Rat.num_div_den g, ← Rat.num_div_den c, div_eq_div_iff (by exact_mod_cast g.pos.ne') (by exact_mod_cast c.pos.ne')]
  exact_mod_cast sub_eq_zero.mp hzero

/-! ### `(x + 13 y) / (x + 40/3 y)` with the primes 13, 3299, 3301, 3307 -/

instance fact13s : Fact (Nat.Prime 13) := ⟨by norm_num⟩
instance fact3299 : Fact (Nat.Prime 3299) := ⟨by norm_num⟩
instance fact3301 : Fact (Nat.Prime 3301) := ⟨by norm_num⟩
instance fact3307 : Fact (Nat.Prime 3307) := ⟨by norm_num⟩

noncomputable def sN : MvPolynomial ℕ ℚ := C 1 * X 0 + C 13 * X 1
noncomputable def sD : MvPolynomial ℕ ℚ := C 1 * X 0 + C (40 / 3) * X 1

def sT (p : ℕ) : List (ZMod p × ℕ) := [(1, 1), (3, 1), (4, 1), (5, 1), (6, 2), (8, 2)]
/-- the coefficient of `y` in the numerator vanishes -/
def s0 : RRun.Prime := sfield 13 true 1 0 1 (40 / 3) (sT 13)
def s1 : RRun.Prime := sfield 3299 true 1 13 1 (40 / 3) (sT 3299)
def s2 : RRun.Prime := sfield 3301 true 1 13 1 (40 / 3) (sT 3301)
def s3 : RRun.Prime := sfield 3307 true 1 13 1 (40 / 3) (sT 3307)

lemma s0_check : FieldCheck 13 true 1 0 1 (40 / 3) (sT 13) :=
  ⟨by decide, by decide, Or.inl ⟨rfl, rfl⟩, Or.inr (Or.inr ⟨by decide, by decide, by decide, by decide +kernel, by decide +kernel⟩), rfl, by decide +kernel, by decide +kernel, by decide +kernel, by simp [sT], by simp [sT], by decide +kernel⟩
lemma s1_check : FieldCheck 3299 true 1 13 1 (40 / 3) (sT 3299) :=
  ⟨by decide +kernel, by decide +kernel, Or.inr (Or.inr ⟨by decide +kernel, by decide +kernel, by decide +kernel, by decide +kernel, by decide +kernel⟩),
   Or.inr (Or.inr ⟨by decide +kernel, by decide +kernel, by decide +kernel, by decide +kernel, by decide +kernel⟩), rfl, by decide +kernel, by decide +kernel, by decide +kernel, by simp [sT], by simp [sT], by decide +kernel⟩
lemma s2_check : FieldCheck 3301 true 1 13 1 (40 / 3) (sT 3301) :=
  ⟨by decide +kernel, by decide +kernel, Or.inr (Or.inr ⟨by decide +kernel, by decide +kernel, by decide +kernel, by decide +kernel, by decide +kernel⟩),
   Or.inr (Or.inr ⟨by decide +kernel, by decide +kernel, by decide +kernel, by decide +kernel, by decide +kernel⟩), rfl, by decide +kernel, by decide +kernel, by decide +kernel, by simp [sT], by simp [sT], by decide +kernel⟩
lemma s3_check : FieldCheck 3307 true 1 13 1 (40 / 3) (sT 3307) :=
  ⟨by decide +kernel, by decide +kernel, Or.inr (Or.inr ⟨by decide +kernel, by decide +kernel, by decide +kernel, by decide +kernel, by decide +kernel⟩),
   Or.inr (Or.inr ⟨by decide +kernel, by decide +kernel, by decide +kernel, by decide +kernel, by decide +kernel⟩), rfl, by decide +kernel, by decide +kernel, by decide +kernel, by simp [sT], by simp [sT], by decide +kernel⟩

lemma s_dens {p : ℕ} (hp : 3 < p) : ∀ q ∈ [(1 : ℚ), 13, 1, 40 / 3], ¬ (p : ℤ) ∣ q.den := by
  intro q hq hd
  have : q.den ≤ 3 := by
    simp only [List.mem_cons, List.not_mem_nil, or_false] at hq
    rcases hq with rfl | rfl | rfl | rfl
    · decide
    · decide +kernel
    · decide
    · decide +kernel
  have := Nat.le_of_dvd q.pos (Int.natCast_dvd_natCast.mp hd)
  omega

lemma s_scale (l : ℚ) (hl : l ≠ 0) (f : MvPolynomial ℕ ℚ) : C l⁻¹ * (C l * f) = f := by rw [← mul_assoc, ← C_mul, inv_mul_cancel₀ hl, C_1, one_mul]

lemma s0_ok : FieldOK 2 sN sD s0 1 (1 : ZMod 13) 1 1 :=
  field_ok s0_check one_ne_zero (by simp) (by rw [show (13 : ℚ) = ((13 : ℕ) : ℚ) by norm_num, Rat.cast_natCast]; decide) (by simp) (cast_40 13) (s_dens (by norm_num)) (by rw [C_1, one_mul]; rfl) (by rw [C_1, one_mul]; rfl)

lemma s1_ok {l : ℚ} (hl : l ≠ 0) : FieldOK 2 (C l * sN) (C l * sD) s1 l⁻¹ (1 : ZMod 3299) 1 1 :=
  field_ok s1_check (inv_ne_zero hl) (by simp) (by rw [show (13 : ℚ) = ((13 : ℕ) : ℚ) by norm_num, Rat.cast_natCast]; rfl) (by simp) (cast_40 3299) (s_dens (by norm_num)) (s_scale l hl _) (s_scale l hl _)
lemma s2_ok {l : ℚ} (hl : l ≠ 0) : FieldOK 2 (C l * sN) (C l * sD) s2 l⁻¹ (1 : ZMod 3301) 1 1 :=
  field_ok s2_check (inv_ne_zero hl) (by simp) (by rw [show (13 : ℚ) = ((13 : ℕ) : ℚ) by norm_num, Rat.cast_natCast]; rfl) (by simp) (cast_40 3301) (s_dens (by norm_num)) (s_scale l hl _) (s_scale l hl _)
lemma s3_ok {l : ℚ} (hl : l ≠ 0) : FieldOK 2 (C l * sN) (C l * sD) s3 l⁻¹ (1 : ZMod 3307) 1 1 :=
  field_ok s3_check (inv_ne_zero hl) (by simp) (by rw [show (13 : ℚ) = ((13 : ℕ) : ℚ) by norm_num, Rat.cast_natCast]; rfl) (by simp) (cast_40 3307) (s_dens (by norm_num)) (s_scale l hl _) (s_scale l hl _)

lemma lin_vars (a b : ℚ) : InVars 2 (C a * X 0 + C b * X 1) := by
  intro m hm i hi
  rw [mem_support_iff, coeff_lin] at hm
  have : m = Finsupp.single 0 1 ∨ m = Finsupp.single 1 1 := by
    by_contra hc
    push Not at hc
    rw [if_neg hc.1, if_neg hc.2] at hm
    exact hm rfl
  rcases this with rfl | rfl <;> · simp [Finsupp.single_apply]; omega

/-- the possible normalizations -/
lemma s_norm {l : ℚ} {b : Bool} {e : List ℕ} (h1 : NormalizedTo 2 (C l * sN) (C l * sD) b e) (h2 : Integral (C l * sN) (C l * sD) 13) : l = 1 ∨ l = 3 / 40 := by
  obtain ⟨-, h1⟩ := h1
  have hx := (h2 (Finsupp.single 0 1)).1
  rw [coeff_C_mul, sN, coeff_lin, if_pos rfl, mul_one] at hx
  cases b with
  | true =>
    simp only [if_true] at h1
    rw [coeff_C_mul, sD, coeff_lin] at h1
    split_ifs at h1
    · left; linarith
    · right; linarith
    · simp at h1
  | false =>
    simp only [Bool.false_eq_true, if_false] at h1
    rw [coeff_C_mul, sN, coeff_lin] at h1
    split_ifs at h1
    · left; linarith
    · exfalso
      have : l = 1 / 13 := by linarith
      rw [this, show ((1 / 13 : ℚ)).den = 13 by decide +kernel] at hx
      exact hx (by norm_num)
    · simp at h1

lemma s_small {l : ℚ} (hl : l = 1 ∨ l = 3 / 40) : ∀ f ∈ [C l * sN, C l * sD], ∀ m, |(coeff m f).num| + ((coeff m f).den : ℤ) < 100 := by
  have key : ∀ q ∈ [(1 : ℚ), 13, 40 / 3, 0, 3 / 40, 39 / 40], |q.num| + (q.den : ℤ) < 100 := by decide +kernel
  intro f hf m
  apply key
  simp only [List.mem_cons, List.not_mem_nil, or_false] at hf
  rcases hf with rfl | rfl <;> rcases hl with rfl | rfl <;> rw [coeff_C_mul] <;> simp only [sN, sD, coeff_lin] <;> split_ifs <;> norm_num

lemma s_integral {l : ℚ} (hl : l = 1 ∨ l = 3 / 40) {p : ℕ} (hp : 100 ≤ p) : Integral (C l * sN) (C l * sD) p := by
  have : ∀ f ∈ [C l * sN, C l * sD], ∀ m, ¬ (p : ℤ) ∣ (coeff m f).den := by
    intro f hf m hd
    have h1 := s_small hl f hf m
    have h2 := Nat.le_of_dvd (coeff m f).pos (Int.natCast_dvd_natCast.mp hd)
    have h3 := abs_nonneg (coeff m f).num
    omega
  exact fun m => ⟨this _ (by simp) m, this _ (by simp) m⟩

lemma s_clear {l : ℚ} (hl : l = 1 ∨ l = 3 / 40) {ps : List ℕ} (hps : ∀ p ∈ ps, p.Prime) {p : ℕ} (hp : 100 ≤ p) : Clear (C l * sN) ps p ∧ Clear (C l * sD) ps p := by
  have : ∀ f ∈ [C l * sN, C l * sD], Clear f ps p := fun f hf => clear_of_small hps (fun m => lt_of_lt_of_le (s_small hl f hf m) (by exact_mod_cast hp))
  exact ⟨this _ (by simp), this _ (by simp)⟩

def sOrder : Order := ⟨id, List.reverse⟩
lemma sOrder_ok : sOrder.OK := ⟨fun l => List.Perm.refl _, fun l => List.reverse_perm l⟩

/-- The hypotheses of `C62_run` hold, although a coefficient vanishes in the first prime field. -/
example : (run mpzInvert sOrder (Cross.initial 13) [s0, s1, s2, s3] = some .running ∧ ¬ EnoughFirst (C 1 * sN) (C 1 * sD) s0 (1 : ZMod 13) 1 1) ∨
    ∃ (l : ℚ) (b : Bool) (e : List ℕ), l ≠ 0 ∧ NormalizedTo 2 (C l * sN) (C l * sD) b e ∧ ∃ out, run mpzInvert sOrder (Cross.initial 13) [s0, s1, s2, s3] = some out ∧ Outcome 2 (C l * sN) (C l * sD) b e [13] [s1, s2, s3] out := by
  refine C62_run mpzInvert_spec sOrder_ok (lin_vars _ _) (lin_vars _ _) s0 [s1, s2, s3] s0_ok ?_ (by simp)
  intro l b e l0 h1 h2
  have hl := s_norm h1 h2
  have p13 := fact13s.out
  have p1 := fact3299.out
  have p2 := fact3301.out
  obtain ⟨c1, c1'⟩ := s_clear hl (ps := [13]) (by simpa using p13) (p := 3299) (by norm_num)
  obtain ⟨c2, c2'⟩ := s_clear hl (ps := [13] ++ [3299]) (by simp [p13, p1]) (p := 3301) (by norm_num)
  obtain ⟨c3, c3'⟩ := s_clear hl (ps := [13] ++ [3299] ++ [3301]) (by simp [p13, p1, p2]) (p := 3307) (by norm_num)
  refine Or.inr ⟨⟨_, _, _, _, s1_ok l0⟩, Or.inr ⟨s_integral hl (by show 100 ≤ 3299; norm_num), by show 3299 ∉ [13]; decide, c1, c1', ?_⟩⟩
  refine Or.inr ⟨⟨_, _, _, _, s2_ok l0⟩, Or.inr ⟨s_integral hl (by show 100 ≤ 3301; norm_num), by show 3301 ∉ [13] ++ [3299]; decide, c2, c2', ?_⟩⟩
  exact Or.inr ⟨⟨_, _, _, _, s3_ok l0⟩, Or.inr ⟨s_integral hl (by show 100 ≤ 3307; norm_num), by show 3307 ∉ [13] ++ [3299] ++ [3301]; decide, c3, c3', trivial⟩⟩

def sResult (N0 D0 : List (List ℕ × ℤ × ℤ)) : Option RunOut → Bool
  | some (.finished N D) => decide (N.map (fun t => (t.1, t.2.num, t.2.den)) = N0) && decide (D.map (fun t => (t.1, t.2.num, t.2.den)) = D0)
  | _ => false

/-- the stored residues with their moduli, the known coefficients with their denominators -/
def sStored (N0 D0 : List (List ℕ × ℤ × ℤ)) : Option RunOut → Bool
  | some (.waiting c) =>
    let show_ := fun (s : Side) => s.g.map (fun t => (t.1, t.2.num, t.2.den)) ++ s.comb.map (fun t => (t.1, t.2, (s.primes.find? t.1).getD 0))
    decide (show_ c.num = N0) && decide (show_ c.den = D0)
  | _ => false

/-- the computation: after 13 the coefficient of `y` in the numerator has not been seen; after 3299 it has its own modulus -/
example : sStored [([1, 0], 1, 1)] [([1, 0], 1, 13), ([0, 1], 9, 13)] (run mpzInvert sOrder (Cross.initial 13) [s0]) = true := by decide +kernel
example : sStored [([1, 0], 1, 1), ([0, 1], 13, 3299)] [([1, 0], 1, 1), ([0, 1], 14309, 42887)] (run mpzInvert sOrder (Cross.initial 13) [s0, s1]) = true := by decide +kernel
example : sResult [([1, 0], 1, 1), ([0, 1], 13, 1)] [([1, 0], 1, 1), ([0, 1], 40, 3)] (run mpzInvert sOrder (Cross.initial 13) [s0, s1, s2]) = true := by decide +kernel

/-- All coefficients are determined by the fields 13, 3299, 3301: the hypothesis for the right result in `C62_prime`. -/
example : Determined sN sD [13, 3299, 3301] ∧ ¬ Steady sN sD [13, 3299, 3301] := by
  have h13 : ∀ q ∈ [(1 : ℚ), 13, 40 / 3], Settled q [13, 3299, 3301] := by
    intro q hq
    refine ⟨[13, 3299], 3301, [], rfl, ?_⟩
    simp only [List.mem_cons, List.not_mem_nil, or_false] at hq
    unfold Small modulus
    rcases hq with rfl | rfl | rfl <;> decide +kernel
  constructor
  · left
    intro f hf m hm
    apply h13
    rw [mem_support_iff] at hm
    simp only [List.mem_cons, List.not_mem_nil, or_false] at hf
    rcases hf with rfl | rfl <;> simp only [sN, sD, coeff_lin] at hm ⊢ <;> split_ifs at hm ⊢ <;> first | exact absurd rfl hm | simp
  · intro h
    have hc : coeff (Finsupp.single 1 1) sN = 13 := by rw [sN, coeff_lin, if_neg s01.symm, if_pos rfl]
    refine h sN (by simp) (Finsupp.single 1 1) (by rw [mem_support_iff, hc]; norm_num) 13 (by simp) ?_
    rw [hc]
    decide +kernel

/-! ### `(x/7 + 2/7 y) / (x + y/7)` with the primes 101, 7, 103: the second field is left out -/

instance fact7s : Fact (Nat.Prime 7) := ⟨by norm_num⟩
noncomputable def uN : MvPolynomial ℕ ℚ := C (1 / 7) * X 0 + C (2 / 7) * X 1
noncomputable def uD : MvPolynomial ℕ ℚ := C 1 * X 0 + C (1 / 7) * X 1
def u0 : RRun.Prime := sfield 101 true (1 / 7) (2 / 7) 1 (1 / 7) (sT 101)
def u1 : RRun.Prime := sfield 7 false 1 2 0 1 [(1, 1), (2, 1), (3, 1), (5, 1), (1, 2), (2, 2), (4, 2)]
def u2 : RRun.Prime := sfield 103 true (1 / 7) (2 / 7) 1 (1 / 7) (sT 103)

/-- the hypotheses for a field that is left out -/
example : FieldOK 2 uN uD u1 7 (1 : ZMod 7) 1 1 ∧ ¬ Integral uN uD 7 := by
  constructor
  · refine field_ok (A := 1) (B := 2) (A' := 7) (B' := 1) ⟨by decide, by decide, Or.inr (Or.inr ⟨by decide, by decide, by decide, by decide, by decide⟩), Or.inr (Or.inl ⟨rfl, rfl⟩), rfl, by decide, by decide +kernel, by decide, by simp, by simp, by decide +kernel⟩
      (by norm_num) (by simp) (by rw [show (2 : ℚ) = ((2 : ℕ) : ℚ) by norm_num, Rat.cast_natCast]; rfl) (by rw [show (7 : ℚ) = ((7 : ℕ) : ℚ) by norm_num, Rat.cast_natCast]; decide) (by simp) ?_ ?_ ?_
    · intro q hq
      simp only [List.mem_cons, List.not_mem_nil, or_false] at hq
      rcases hq with rfl | rfl | rfl | rfl <;> decide +kernel
    · rw [uN, mul_add, ← mul_assoc, ← mul_assoc, ← C_mul, ← C_mul]; norm_num
    · rw [uD, mul_add, ← mul_assoc, ← mul_assoc, ← C_mul, ← C_mul]; norm_num
  · intro h
    apply (h (Finsupp.single 0 1)).1
    rw [uN, coeff_lin, if_pos rfl]
    decide +kernel

/-- the computation: nothing changes in the field 7; then the result is right -/
example : sStored [([1, 0], 29, 101), ([0, 1], 58, 101)] [([1, 0], 1, 1), ([0, 1], 29, 101)] (run mpzInvert sOrder (Cross.initial 101) [u0, u1]) = true := by decide +kernel
example : sResult [([1, 0], 1, 7), ([0, 1], 2, 7)] [([1, 0], 1, 1), ([0, 1], 1, 7)] (run mpzInvert sOrder (Cross.initial 101) [u0, u1, u2]) = true := by decide +kernel

/-- The hypotheses of `C62_first` and `C62_skip` hold: a state after the first prime field, and a skipped field. -/
example : ∃ (l : ℚ) (b : Bool) (e : List ℕ) (c c' : Cross), OK 2 (C l * sN) (C l * sD) b e [13] c ∧ prime mpzInvert sOrder c zz0 = some (.nextPrime c') ∧ OK 2 (C l * sN) (C l * sD) b e [13] c' := by
  rcases C62_first (inv := mpzInvert) (ord := sOrder) (lin_vars _ _) (lin_vars _ _) s0_ok with ⟨h, -⟩ | ⟨l, b, e, c, -, -, hc, hnum, -⟩
  · exfalso
    have : sStored [([1, 0], 1, 1)] [([1, 0], 1, 13), ([0, 1], 9, 13)] (run mpzInvert sOrder (Cross.initial 13) [s0]) = true := by decide +kernel
    unfold run at this
    rw [show Cross.initial s0.p = Cross.initial 13 from rfl] at h
    rw [h] at this
    simp [sStored] at this
  · obtain ⟨c', h1, h2, -⟩ := C62_skip mpzInvert sOrder hc (r := zz0) ⟨_, _, rfl, rfl⟩ (by rw [hnum]; norm_num)
    exact ⟨l, b, e, c, c', hc, h1, h2⟩

/-! ### the hypotheses of `C62_ends` for `(x - y)/(x + y)`: coefficients with one bit, six prime fields -/

noncomputable def wN : MvPolynomial ℕ ℚ := C 1 * X 0 + C (-1) * X 1
noncomputable def wD : MvPolynomial ℕ ℚ := C 1 * X 0 + C 1 * X 1

def wT (p : ℕ) : List (ZMod p × ℕ) := [(2, 1), (3, 1), (4, 1), (5, 1), (6, 2), (8, 2)]
def w (p : ℕ) [Fact p.Prime] : RRun.Prime := sfield p true 1 (-1) 1 1 (wT p)

lemma w_ok {p : ℕ} [hp : Fact p.Prime] (hc : FieldCheck p true 1 (-1) 1 1 (wT p)) {l : ℚ} (hl : l ≠ 0) : FieldOK 2 (C l * wN) (C l * wD) (w p) l⁻¹ (1 : ZMod p) 1 1 := by
  have h1 : ¬ (p : ℤ) ∣ 1 := by
    intro h; exact hp.out.one_lt.ne' (by exact_mod_cast Int.eq_one_of_dvd_one (by positivity) h)
  refine field_ok hc (inv_ne_zero hl) (by simp) (by simp) (by simp) (by simp) ?_ (s_scale l hl _) (s_scale l hl _)
  intro q hq
  simp only [List.mem_cons, List.not_mem_nil, or_false] at hq
  rcases hq with rfl | rfl | rfl | rfl <;> simpa using h1

/-- the possible normalizations -/
lemma w_norm {l : ℚ} {b : Bool} {e : List ℕ} (h1 : NormalizedTo 2 (C l * wN) (C l * wD) b e) : l = 1 ∨ l = -1 := by
  obtain ⟨-, h1⟩ := h1
  cases b with
  | true =>
    simp only [if_true] at h1
    rw [coeff_C_mul, wD, coeff_lin] at h1
    split_ifs at h1
    · left; linarith
    · left; linarith
    · simp at h1
  | false =>
    simp only [Bool.false_eq_true, if_false] at h1
    rw [coeff_C_mul, wN, coeff_lin] at h1
    split_ifs at h1
    · left; linarith
    · right; linarith
    · simp at h1

lemma w_coef {l : ℚ} (hl : l = 1 ∨ l = -1) : ∀ f ∈ [C l * wN, C l * wD], ∀ m, |(coeff m f).num| < 2 ∧ ((coeff m f).den : ℤ) = 1 := by
  have key : ∀ q ∈ [(1 : ℚ), -1, 0], |q.num| < 2 ∧ (q.den : ℤ) = 1 := by decide +kernel
  intro f hf m
  apply key
  simp only [List.mem_cons, List.not_mem_nil, or_false] at hf
  rcases hf with rfl | rfl <;> rcases hl with rfl | rfl <;> rw [coeff_C_mul] <;> simp only [wN, wD, coeff_lin] <;> split_ifs <;> norm_num

lemma w_integral {l : ℚ} (hl : l = 1 ∨ l = -1) {p : ℕ} (hp : 2 < p) : Integral (C l * wN) (C l * wD) p := by
  have : ∀ f ∈ [C l * wN, C l * wD], ∀ m, ¬ (p : ℤ) ∣ (coeff m f).den := by
    intro f hf m hd
    rw [(w_coef hl f hf m).2] at hd
    have := Int.le_of_dvd one_pos hd
    omega
  exact fun m => ⟨this _ (by simp) m, this _ (by simp) m⟩

lemma w_clear {l : ℚ} (hl : l = 1 ∨ l = -1) {ps : List ℕ} (hps : ∀ p ∈ ps, p.Prime) {p : ℕ} (hp : 2 < p) : Clear (C l * wN) ps p ∧ Clear (C l * wD) ps p := by
  have : ∀ f ∈ [C l * wN, C l * wD], Clear f ps p := fun f hf => clear_of_small hps (fun m => by
    have h := w_coef hl f hf m
    rw [h.2]
    have : (2 : ℤ) < p := by exact_mod_cast hp
    omega)
  exact ⟨this _ (by simp), this _ (by simp)⟩

lemma w_runs {l : ℚ} (l0 : l ≠ 0) (hl : l = 1 ∨ l = -1) : ∀ (ps rest : List ℕ) (xs : List RRun.Prime), (∀ p ∈ ps, p.Prime) → (∀ r ∈ xs, ∃ (p : ℕ) (hp : Fact p.Prime), r = w p ∧ 2 < p ∧ FieldCheck p true 1 (-1) 1 1 (wT p)) → xs.map (fun r => r.p) = rest → (ps ++ rest).Nodup →
    RunsOK 2 (C l * wN) (C l * wD) ps xs ∧ used (C l * wN) (C l * wD) xs = rest
  | ps, rest, [], _, _, h3, _ => ⟨trivial, by simpa [used] using h3⟩
  | ps, rest, r :: xs, h1, h2, h3, h4 => by
    obtain ⟨p, hp, rfl, hp2, hc⟩ := h2 r (by simp)
    rw [List.map_cons] at h3
    have h3' : p :: xs.map (fun r => r.p) = rest := h3
    rw [← h3'] at h4 ⊢
    have h5 : (ps ++ [p] ++ xs.map (fun r => r.p)).Nodup := by simpa using h4
    obtain ⟨a1, a2⟩ := w_runs l0 hl (ps ++ [p]) _ xs (by
      intro q hq
      rw [List.mem_append, List.mem_singleton] at hq
      rcases hq with hq | rfl
      · exact h1 q hq
      · exact hp.out) (fun r hr => h2 r (by simp [hr])) rfl h5
    have hf := w_ok hc l0
    have hI : Integral (C l * wN) (C l * wD) (w p).p := w_integral hl hp2
    constructor
    · refine Or.inr ⟨⟨_, _, _, _, hf⟩, Or.inr ⟨hI, ?_, (w_clear hl h1 hp2).1, (w_clear hl h1 hp2).2, a1⟩⟩
      intro hm
      exact (List.nodup_append.mp h4).2.2 p hm p (by simp) rfl
    · rw [(used_cons _ _).2.2 hf.notSkipped hI, a2]; rfl

example : (run mpzInvert sOrder (Cross.initial 3307) [w 3307, w 101, w 103, w 107, w 3299, w 3301] = some .running ∧ ¬ EnoughFirst (C 1⁻¹ * (C 1 * wN)) (C 1⁻¹ * (C 1 * wD)) (w 3307) (1 : ZMod 3307) 1 1) ∨
    ∃ (l : ℚ) (b : Bool) (e : List ℕ), l ≠ 0 ∧ NormalizedTo 2 (C l * (C 1 * wN)) (C l * (C 1 * wD)) b e ∧ ∃ out, run mpzInvert sOrder (Cross.initial 3307) [w 3307, w 101, w 103, w 107, w 3299, w 3301] = some out ∧
      Outcome 2 (C l * (C 1 * wN)) (C l * (C 1 * wD)) b e [3307] [w 101, w 103, w 107, w 3299, w 3301] out ∧ ∀ c, out ≠ .waiting c := by
  have c3307 : FieldCheck 3307 true 1 (-1) 1 1 (wT 3307) := ⟨by decide +kernel, by decide +kernel, Or.inr (Or.inr ⟨by decide +kernel, by decide +kernel, by decide +kernel, by decide +kernel, by decide +kernel⟩),
   Or.inr (Or.inr ⟨by decide +kernel, by decide +kernel, by decide +kernel, by decide +kernel, by decide +kernel⟩), rfl, by decide +kernel, by decide +kernel, by decide +kernel, by simp [wT], by simp [wT], by decide +kernel⟩
  have c101 : FieldCheck 101 true 1 (-1) 1 1 (wT 101) := ⟨by decide +kernel, by decide +kernel, Or.inr (Or.inr ⟨by decide +kernel, by decide +kernel, by decide +kernel, by decide +kernel, by decide +kernel⟩),
   Or.inr (Or.inr ⟨by decide +kernel, by decide +kernel, by decide +kernel, by decide +kernel, by decide +kernel⟩), rfl, by decide +kernel, by decide +kernel, by decide +kernel, by simp [wT], by simp [wT], by decide +kernel⟩
  have c103 : FieldCheck 103 true 1 (-1) 1 1 (wT 103) := ⟨by decide +kernel, by decide +kernel, Or.inr (Or.inr ⟨by decide +kernel, by decide +kernel, by decide +kernel, by decide +kernel, by decide +kernel⟩),
   Or.inr (Or.inr ⟨by decide +kernel, by decide +kernel, by decide +kernel, by decide +kernel, by decide +kernel⟩), rfl, by decide +kernel, by decide +kernel, by decide +kernel, by simp [wT], by simp [wT], by decide +kernel⟩
  have c107 : FieldCheck 107 true 1 (-1) 1 1 (wT 107) := ⟨by decide +kernel, by decide +kernel, Or.inr (Or.inr ⟨by decide +kernel, by decide +kernel, by decide +kernel, by decide +kernel, by decide +kernel⟩),
   Or.inr (Or.inr ⟨by decide +kernel, by decide +kernel, by decide +kernel, by decide +kernel, by decide +kernel⟩), rfl, by decide +kernel, by decide +kernel, by decide +kernel, by simp [wT], by simp [wT], by decide +kernel⟩
  have c3299 : FieldCheck 3299 true 1 (-1) 1 1 (wT 3299) := ⟨by decide +kernel, by decide +kernel, Or.inr (Or.inr ⟨by decide +kernel, by decide +kernel, by decide +kernel, by decide +kernel, by decide +kernel⟩),
   Or.inr (Or.inr ⟨by decide +kernel, by decide +kernel, by decide +kernel, by decide +kernel, by decide +kernel⟩), rfl, by decide +kernel, by decide +kernel, by decide +kernel, by simp [wT], by simp [wT], by decide +kernel⟩
  have c3301 : FieldCheck 3301 true 1 (-1) 1 1 (wT 3301) := ⟨by decide +kernel, by decide +kernel, Or.inr (Or.inr ⟨by decide +kernel, by decide +kernel, by decide +kernel, by decide +kernel, by decide +kernel⟩),
   Or.inr (Or.inr ⟨by decide +kernel, by decide +kernel, by decide +kernel, by decide +kernel, by decide +kernel⟩), rfl, by decide +kernel, by decide +kernel, by decide +kernel, by simp [wT], by simp [wT], by decide +kernel⟩
  have hmem : ∀ r ∈ [w 101, w 103, w 107, w 3299, w 3301], ∃ (p : ℕ) (hp : Fact p.Prime), r = w p ∧ 2 < p ∧ FieldCheck p true 1 (-1) 1 1 (wT p) := by
    intro r hr
    simp only [List.mem_cons, List.not_mem_nil, or_false] at hr
    rcases hr with rfl | rfl | rfl | rfl | rfl
    · exact ⟨_, _, rfl, by norm_num, c101⟩
    · exact ⟨_, _, rfl, by norm_num, c103⟩
    · exact ⟨_, _, rfl, by norm_num, c107⟩
    · exact ⟨_, _, rfl, by norm_num, c3299⟩
    · exact ⟨_, _, rfl, by norm_num, c3301⟩
  refine C62_ends mpzInvert_spec sOrder_ok (n := C 1 * wN) (d := C 1 * wD) ?_ ?_ (w 3307) _ (w_ok c3307 one_ne_zero) (B := 1) ?_ ?_ (by simp)
  · rw [C_1, one_mul]; exact lin_vars _ _
  · rw [C_1, one_mul]; exact lin_vars _ _
  · intro l b e l0 h1 h2
    simp only [C_1, one_mul] at h1 ⊢
    have hl := w_norm h1
    obtain ⟨a1, a2⟩ := w_runs l0 hl [3307] _ _ (by intro p hp; rw [List.mem_singleton] at hp; rw [hp]; exact fact3307.out) hmem rfl (by show ([3307] ++ [101, 103, 107, 3299, 3301]).Nodup; decide)
    have hb : ∀ f ∈ [C l * wN, C l * wD], Bits 1 f := fun f hf m => ⟨by simpa using (w_coef hl f hf m).1, by rw [(w_coef hl f hf m).2]; norm_num⟩
    refine ⟨a1, hb _ (by simp), hb _ (by simp), ?_⟩
    rw [a2]; simp
  · intro q hq _
    obtain ⟨p, hp, rfl, -⟩ := hmem q hq
    rfl

/-- the hypotheses of `C62_right` for the same function, and the computed result -/
example : ∀ N D, run mpzInvert sOrder (Cross.initial 3307) [w 3307, w 101] = some (.finished N D) → ∃ l : ℚ, l ≠ 0 ∧ rnPoly N = C l * (C 1 * wN) ∧ rnPoly D = C l * (C 1 * wD) := by
  intro N D e'
  have c3307 : FieldCheck 3307 true 1 (-1) 1 1 (wT 3307) := ⟨by decide +kernel, by decide +kernel, Or.inr (Or.inr ⟨by decide +kernel, by decide +kernel, by decide +kernel, by decide +kernel, by decide +kernel⟩),
   Or.inr (Or.inr ⟨by decide +kernel, by decide +kernel, by decide +kernel, by decide +kernel, by decide +kernel⟩), rfl, by decide +kernel, by decide +kernel, by decide +kernel, by simp [wT], by simp [wT], by decide +kernel⟩
  have c101 : FieldCheck 101 true 1 (-1) 1 1 (wT 101) := ⟨by decide +kernel, by decide +kernel, Or.inr (Or.inr ⟨by decide +kernel, by decide +kernel, by decide +kernel, by decide +kernel, by decide +kernel⟩),
   Or.inr (Or.inr ⟨by decide +kernel, by decide +kernel, by decide +kernel, by decide +kernel, by decide +kernel⟩), rfl, by decide +kernel, by decide +kernel, by decide +kernel, by simp [wT], by simp [wT], by decide +kernel⟩
  have hmem : ∀ r ∈ [w 101], ∃ (p : ℕ) (hp : Fact p.Prime), r = w p ∧ 2 < p ∧ FieldCheck p true 1 (-1) 1 1 (wT p) := by
    intro r hr
    rw [List.mem_singleton] at hr
    exact ⟨_, _, hr, by norm_num, c101⟩
  refine C62_right mpzInvert_spec sOrder_ok (n := C 1 * wN) (d := C 1 * wD) ?_ ?_ (w 3307) [w 101] (w_ok c3307 one_ne_zero) ?_ ?_ (by simp) e'
  · rw [C_1, one_mul]; exact lin_vars _ _
  · rw [C_1, one_mul]; exact lin_vars _ _
  · intro l b e l0 h1 h2
    simp only [C_1, one_mul] at h1 ⊢
    have hl := w_norm h1
    obtain ⟨a1, -⟩ := w_runs l0 hl [3307] _ _ (by intro p hp; rw [List.mem_singleton] at hp; rw [hp]; exact fact3307.out) hmem rfl (by show ([3307] ++ [101]).Nodup; decide)
    have hs : ∀ f ∈ [C l * wN, C l * wD], ∀ m, Small (coeff m f) ((3307 : ℕ) : ℤ) := by
      intro f hf m
      obtain ⟨x1, x2⟩ := w_coef hl f hf m
      have x3 := abs_lt.mp x1
      refine ⟨?_, by rw [x2]; norm_num⟩
      have : (coeff m f).num ^ 2 < 2 ^ 2 := sq_lt_sq' x3.1 x3.2
      push_cast
      linarith
    refine ⟨a1, ?_, fun m => ⟨hs _ (by simp) m, hs _ (by simp) m⟩⟩
    intro f hf m hm p hp hdvd
    rw [List.mem_singleton] at hp
    have x1 := (w_coef hl f hf m).1
    have x0 : (coeff m f).num ≠ 0 := by simpa using mem_support_iff.mp hm
    have := Int.le_of_dvd (abs_pos.mpr x0) ((dvd_abs _ _).mpr hdvd)
    rw [hp] at this
    have h3 : ((w 3307).p : ℤ) = 3307 := rfl
    rw [h3] at this
    linarith
  · intro q hq _
    obtain ⟨p, hp, rfl, -⟩ := hmem q hq
    rfl
example : sResult [([1, 0], 1, 1), ([0, 1], -1, 1)] [([1, 0], 1, 1), ([0, 1], 1, 1)] (run mpzInvert sOrder (Cross.initial 3307) [w 3307, w 101]) = true := by decide +kernel

end FireFly.RRun.Safe
