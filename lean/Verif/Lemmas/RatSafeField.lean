import Verif.Lemmas.RatSafePromote
import Verif.Lemmas.RatSafeGuess
import Verif.Lemmas.RatShiftMain
/-! # Safe interpolation: one prime field -/
set_option linter.all false
namespace FireFly.RRun.Safe
open MvPolynomial FFMap

lemma red_scale {p : ℕ} [Fact p.Prime] {l : ℚ} {f : MvPolynomial ℕ ℚ} (hl : ¬ (p : ℤ) ∣ l.den) (hf : ∀ m, ¬ (p : ℤ) ∣ (coeff m f).den) : red p (C l * f) = C (l : ZMod p) * red p f := by
  ext m
  rw [coeff_C_mul, RRun.red_coeff, RRun.red_coeff, coeff_C_mul, (RRun.cast_scale hl (hf m)).1]

lemma den_scale {p : ℕ} [Fact p.Prime] {l : ℚ} {f : MvPolynomial ℕ ℚ} (hl : ¬ (p : ℤ) ∣ l.den) (hf : ∀ m, ¬ (p : ℤ) ∣ (coeff m f).den) (m : ℕ →₀ ℕ) : ¬ (p : ℤ) ∣ (coeff m (C l * f)).den := by
  rw [coeff_C_mul]; exact (RRun.cast_scale hl (hf m)).2

lemma inv_den {p : ℕ} [Fact p.Prime] {l : ℚ} (l0 : l ≠ 0) (hl : ¬ (p : ℤ) ∣ l.num) : ¬ (p : ℤ) ∣ (l⁻¹).den := by
  rw [Rat.den_inv_of_ne_zero l0]
  intro h
  exact hl (Int.dvd_natAbs.mp h)

lemma vars_scale {k : ℕ} {f : MvPolynomial ℕ ℚ} {l : ℚ} (l0 : l ≠ 0) (hf : InVars k f) : InVars k (C l * f) := by
  intro m hm
  rw [RRun.support_scale l0] at hm
  exact hf m hm

/-- What the interpolation in one prime field gives. -/
structure Interp (k : ℕ) (n d : MvPolynomial ℕ ℚ) (p : ℕ) [Fact p.Prime] (σ : ZMod p) (res : RMulti.Result (ZMod p)) : Prop where
  wfNum : WFMap k res.num
  wfDen : WFMap k res.den
  nzNum : ∀ t ∈ res.num, t.2 ≠ 0
  nzDen : ∀ t ∈ res.den, t.2 ≠ 0
  num : denote res.num = C σ * red p n
  den : denote res.den = C σ * red p d
  one : (if res.normDen then res.den else res.num).find? res.normDeg = some 1
  ne : σ ≠ 0

variable {k : ℕ} {n d : MvPolynomial ℕ ℚ} {r : RRun.Prime} {l : ℚ} {u : ZMod r.p} {mN mD : ℕ}

lemma field_u (h : FieldOK k n d r l u mN mD) : u ≠ 0 := by
  haveI := r.fact
  rintro rfl
  apply h.prob.okN.lead
  simp only [map_zero, zero_mul]
  unfold RMulti.part
  simp

lemma field_interp (h : FieldOK k n d r l u mN mD) : haveI := r.fact
    ∃ s, r.cfg.feedAll r.cfg.init r.probes = some s ∧ (s.result = none → ¬ EnoughFirst (C l * n) (C l * d) r u mN mD) ∧
      ∀ res, s.result = some res → ∃ σ, Interp k (C l * n) (C l * d) r.p σ res := by
  haveI := r.fact
  have hP := h.prob
  have hu := field_u h
  have hpe : RMulti.withValues r.cfg (C u * red r.p (C l * n)) (C u * red r.p (C l * d)) (r.probes.map (fun q => (q.1, q.2.2))) = r.probes := by
    unfold RMulti.withValues
    rw [List.map_map]
    conv_rhs => rw [← List.map_id r.probes]
    apply List.map_congr_left
    intro q hq
    simp only [Function.comp, id]
    have := h.values q hq
    unfold RMulti.valueOf at this ⊢
    rw [eval_mul, eval_mul, eval_C, mul_div_mul_left _ _ hu, ← this]
  obtain ⟨s, e1, e2, -⟩ := RMulti.C44_reconstruct h.gt hP _ h.nodup h.good h.thiele
  have hcomplete := RMulti.C44_complete h.gt hP _ h.nodup h.good h.thiele
  rw [hpe] at e1 hcomplete
  rw [List.length_map] at hcomplete
  refine ⟨s, e1, ?_, ?_⟩
  · rintro hres ⟨h1, h2⟩
    obtain ⟨s', res, e4, e5, -⟩ := hcomplete h1 h2
    rw [e1] at e4
    obtain rfl := Option.some.inj e4
    rw [hres] at e5
    cases e5
  · intro res hres
    have e3 := e2 res hres
    obtain ⟨τ, hτ, v1, v2⟩ := e3.value
    rw [← mul_assoc, ← C_mul] at v1 v2
    have hk := h.nvars
    exact ⟨τ * u, by rw [← hk]; exact e3.wfNum, by rw [← hk]; exact e3.wfDen, e3.nzNum, e3.nzDen, v1, v2, e3.one, mul_ne_zero hτ hu⟩

/-- the result with another normalization -/
lemma interp_res {f : MvPolynomial ℕ ℚ} {p : ℕ} [Fact p.Prime] {σ : ZMod p} {m : FFMap (ZMod p)} (hf : InVars k f) (hw : WFMap k m) (hnz : ∀ t ∈ m, t.2 ≠ 0) (hden : denote m = C σ * red p (C l * f)) (l0 : l ≠ 0)
    (hd : ∀ m, ¬ (p : ℤ) ∣ (coeff m (C l * f)).den) (h1 : ¬ (p : ℤ) ∣ l.den) (h2 : ¬ (p : ℤ) ∣ l.num) (hσ : σ ≠ 0) : ResOK k f p (PolyFF.scale m (1 / (σ * (l : ZMod p)))) := by
  have hlz : (l : ZMod p) ≠ 0 := fun h => h2 ((cast_zero_iff h1).mp h)
  have hfl : f = C l⁻¹ * (C l * f) := by rw [← mul_assoc, ← C_mul, inv_mul_cancel₀ l0, C_1, one_mul]
  have hdf : ∀ m, ¬ (p : ℤ) ∣ (coeff m f).den := by
    intro m; rw [hfl]; exact den_scale (inv_den l0 h2) hd m
  obtain ⟨w1, w2⟩ := C13_scale hw (1 / (σ * (l : ZMod p)))
  apply resOK hf w1 _ _ hdf
  · intro t ht
    unfold PolyFF.scale at ht
    obtain ⟨t', ht', rfl⟩ := List.mem_map.mp ht
    exact mul_ne_zero (hnz t' ht') (one_div_ne_zero (mul_ne_zero hσ hlz))
  · rw [w2, hden, red_scale h1 hdf, ← mul_assoc, ← mul_assoc, ← C_mul, ← C_mul]
    rw [one_div, show (σ * (l : ZMod p))⁻¹ * σ * l = 1 by field_simp, C_1, one_mul]

/-- the test of the guess -/
lemma guessTest_spec (hk : r.cfg.n = k) (h2 : 2 ≤ k) {g : RnMap × RnMap} (w1 : WFMap k g.1) (w2 : WFMap k g.2) (v1 : ∀ t ∈ g.1, t.2.Valid) (v2 : ∀ t ∈ g.2, t.2.Valid) : haveI := r.fact
    guessTest r g = some (match probe1 k r with
      | none => false
      | some q => decide (RMulti.valueOf r.cfg.shift r.cfg.anchor (red r.p (rnPoly g.1)) (red r.p (rnPoly g.2)) q.1 q.2.2 = q.2.1)) := by
  haveI := r.fact
  unfold guessTest probe1
  rw [hk]
  cases hq : r.probes.find? (fun q => decide (q.2.2 = List.replicate (k - 1) 1)) with
  | none => rfl
  | some q =>
    simp only
    have x1 := RRun.red_rnPoly r.p w1 v1
    have x2 := RRun.red_rnPoly r.p w2 v2
    have y1 := RRun.wf_convert r.p w1
    have y2 := RRun.wf_convert r.p w2
    rw [x1, x2]
    exact RShift.testGuess_two _ (by simpa using h2) y1 y2 _ _ _

end FireFly.RRun.Safe
