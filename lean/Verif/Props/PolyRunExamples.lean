import Verif.Props.PolyRunProps
import Verif.Props.RatRunExamples
/-!
# C47: examples and a defect
-/
set_option linter.all false
set_option maxRecDepth 20000
namespace FireFly.PRun
open MvPolynomial RRun

/-- `3/2 x + 5` -/
noncomputable def exF : MvPolynomial ℕ ℚ := C (3 / 2) * X 0 + C 5

/-- one variable, degree bound 1, anchor point 2 -/
def exCfg (p : ℕ) : MPoly.Cfg (ZMod p) := { n := 1, deg := some 1, anchor := [2] }

/-- the values at `2, 4, 4, …` -/
def exField (p : ℕ) (fact : Fact p.Prime) : Field where
  p := p
  fact := fact
  cfg := exCfg p
  probes := (8, [1]) :: List.replicate 13 (11, [2])

lemma exF_coeff (m : ℕ →₀ ℕ) : coeff m exF = 3 / 2 ∨ coeff m exF = 5 ∨ coeff m exF = 0 := by
  unfold exF
  rw [coeff_add, coeff_C_mul, coeff_X', coeff_C]
  by_cases h1 : Finsupp.single 0 1 = m
  · have : ¬ 0 = m := by
      intro h
      have := DFunLike.congr_fun (h1.trans h.symm) 0
      simp at this
    left; simp [h1, this]
  · by_cases h2 : 0 = m
    · right; left; simp [h1, h2]
    · right; right; simp [h1, h2]

lemma exF_vars : InVars 1 exF := by
  intro m hm i hi
  rw [mem_support_iff] at hm
  unfold exF at hm
  rw [coeff_add, coeff_C_mul, coeff_X', coeff_C] at hm
  by_cases h1 : Finsupp.single 0 1 = m
  · rw [← h1, Finsupp.single_apply, if_neg (by omega)]
  · by_cases h2 : 0 = m
    · rw [← h2]; rfl
    · simp [h1, h2] at hm

lemma exF_red (p : ℕ) [hp : Fact p.Prime] (h2 : (2 : ZMod p) ≠ 0) : red p exF = denote [([1], (3 / 2 : ZMod p)), ([0], (5 : ZMod p))] := by
  have hd : denote [([1], (3 / 2 : ZMod p)), ([0], (5 : ZMod p))] = C (3 / 2) * X 0 + C 5 := by
    unfold denote
    simp [mono_single, mono_zero]
  rw [hd]
  ext m
  rw [red_coeff]
  unfold exF
  rw [coeff_add, coeff_C_mul, coeff_X', coeff_C, coeff_add, coeff_C_mul, coeff_X', coeff_C]
  have h32 : ((3 / 2 : ℚ) : ZMod p) = 3 / 2 := by
    rw [show (3 / 2 : ℚ) = ((3 : ℤ) : ℚ) / ((2 : ℤ) : ℚ) by norm_num, Rat.cast_div_of_ne_zero]
    · norm_num
    · simp
    · simpa using h2
  by_cases h1 : Finsupp.single 0 1 = m
  · have : ¬ 0 = m := by
      intro h
      have := DFunLike.congr_fun (h1.trans h.symm) 0
      simp at this
    simp [h1, this, h32]
  · by_cases h2 : 0 = m
    · simp [h1, h2]
    · simp [h1, h2]

lemma exField_ok (p : ℕ) (fact : Fact p.Prime) (hc : Coefs (5 : ZMod p) (3 / 2)) : FieldOK 1 exF (exField p fact) := by
  refine ⟨by norm_num, rfl, ?_, ?_, ?_, ?_⟩
  · intro m
    have h1 : ¬ (p : ℤ) ∣ 1 := by
      intro h
      have : p ∣ 1 := by exact_mod_cast h
      exact fact.out.one_lt.ne' (Nat.dvd_one.mp this)
    have h2 : ¬ (p : ℤ) ∣ 2 := by
      intro h
      have h' : p ∣ 2 := by exact_mod_cast h
      exact hc.two (by exact_mod_cast (ZMod.natCast_eq_zero_iff 2 p).mpr h')
    rcases exF_coeff m with h | h | h <;> rw [h]
    · norm_num; exact h2
    · norm_num; exact h1
    · norm_num; exact h1
  · exact ⟨_, (exF_red p hc.two).symm, Or.inr (fits_lin hc le_rfl (by norm_num))⟩
  · intro q hq
    have hv : ∀ ord, valueMod (exField p fact) exF ord = (3 / 2 * 2 ^ ord.getD 0 0 + 5 : ZMod p) := by
      intro ord
      show eval _ (red p exF) = _
      rw [exF_red p hc.two]
      unfold denote
      simp [mono_single, mono_zero, exField, exCfg]
      left; rfl
    rw [hv]
    rcases List.mem_cons.mp hq with rfl | hq
    · have := hc.two
      simp
      field_simp
      norm_num
    · rw [(List.mem_replicate.mp hq).2]
      have := hc.two
      simp
      field_simp
      norm_num
  · simp [exField, ones]

lemma exCoefs101 : @Coefs (ZMod 101) (@ZMod.instField 101 fact101) 5 (3 / 2) := by
  haveI := fact101
  exact ⟨by decide +kernel, by decide +kernel, by decide +kernel, by decide +kernel, by decide +kernel⟩
lemma exCoefs103 : @Coefs (ZMod 103) (@ZMod.instField 103 fact103) 5 (3 / 2) := by
  haveI := fact103
  exact ⟨by decide +kernel, by decide +kernel, by decide +kernel, by decide +kernel, by decide +kernel⟩

/-- the hypotheses of C47 hold for `3/2 x + 5` and the primes 101 and 103 -/
lemma exRuns : RunsOK 1 exF [exField 101 fact101, exField 103 fact103] := by
  refine ⟨?_, by decide⟩
  intro r hr
  simp only [List.mem_cons, List.not_mem_nil, or_false] at hr
  rcases hr with rfl | rfl
  · exact exField_ok _ _ exCoefs101
  · exact exField_ok _ _ exCoefs103

lemma exSmall : AllSmall exF (primeProd [exField 101 fact101]) := by
  intro m
  have : primeProd [exField 101 fact101] = 101 := by simp [primeProd, exField]
  rw [this]
  rcases exF_coeff m with h | h | h <;> rw [h] <;> constructor <;> norm_num

lemma answers_const {F : Type} [_root_.Field F] [DecidableEq F] (c : MPoly.Cfg F) {s : MPoly.St F} {r : FFMap F} (h : s.result = some r) : ∀ L, Answers c s L
  | [] => trivial
  | q :: L => ⟨by rw [h]; simp, fun s' hs => by rw [interpolate_done c h] at hs; rw [← Option.some.inj hs]; exact answers_const c h L⟩

lemma exF_card : exF.support.card ≤ 2 := by
  have : exF.support ⊆ {Finsupp.single 0 1, 0} := by
    intro m hm
    rw [mem_support_iff] at hm
    unfold exF at hm
    rw [coeff_add, coeff_C_mul, coeff_X', coeff_C] at hm
    by_cases h1 : Finsupp.single 0 1 = m
    · simp [h1]
    · by_cases h2 : 0 = m
      · simp [← h2]
      · simp [h1, h2] at hm
  exact (Finset.card_le_card this).trans Finset.card_le_two

lemma exF_deg : exF.totalDegree ≤ 1 := by
  unfold exF
  refine (totalDegree_add _ _).trans (max_le ?_ ?_)
  · refine (totalDegree_mul _ _).trans ?_
    simp
  · simp

/-- the values suffice -/
lemma exEnough (p : ℕ) (fact : Fact p.Prime) (s1 s2 : MPoly.St (ZMod p)) (res : FFMap (ZMod p))
    (h1 : haveI := fact; (exCfg p).interpolate (exCfg p).init 8 [1] = some s1 ∧ s1.result = none ∧ s1.ord = [2] ∧ (exCfg p).interpolate s1 11 [2] = some s2 ∧ s2.result = some res) : Enough exF (exField p fact) := by
  haveI := fact
  obtain ⟨a1, a2, a3, a4, a5⟩ := h1
  refine ⟨⟨fun _ => rfl, ?_⟩, ?_⟩
  · intro s' hs'
    have : s1 = s' := Option.some.inj (a1.symm.trans hs')
    subst this
    refine ⟨fun _ => a3.symm, ?_⟩
    intro s' hs'
    have : s2 = s' := Option.some.inj (a4.symm.trans hs')
    subst this
    exact answers_const _ a5 _
  · show 1 * ((2 * (exF.totalDegree + 1) + 1 + 1) * exF.support.card) + 1 ≤ 14
    have := Nat.mul_le_mul (show 2 * (exF.totalDegree + 1) + 1 + 1 ≤ 6 by have := exF_deg; omega) exF_card
    omega

/-- the hypotheses of the completeness theorem hold -/
example : ∀ q ∈ [exField 101 fact101] ++ exField 103 fact103 :: [], Enough exF q := by
  have h1 : ∀ {p : ℕ} (fact : Fact p.Prime), (haveI := fact; ((exCfg p).interpolate (exCfg p).init 8 [1]).bind (fun s1 => if s1.result = none ∧ s1.ord = [2] then (exCfg p).interpolate s1 11 [2] else none)).any (fun s => s.result.isSome) = true → Enough exF (exField p fact) := by
    intro p fact h
    haveI := fact
    obtain ⟨s2, hs2, hr⟩ := (Option.any_eq_true _ _).mp h
    obtain ⟨s1, e1, e2⟩ := Option.bind_eq_some_iff.mp hs2
    split_ifs at e2 with hc
    obtain ⟨res, hres⟩ := Option.isSome_iff_exists.mp hr
    exact exEnough p fact s1 s2 res ⟨e1, hc.1, hc.2, e2, hres⟩
  intro q hq
  simp only [List.singleton_append, List.mem_cons, List.not_mem_nil, or_false] at hq
  rcases hq with rfl | rfl
  · exact h1 fact101 (by decide +kernel)
  · exact h1 fact103 (by decide +kernel)

/-- after two prime fields the object reports `3/2 x + 5` -/
example : (run mpzInvert (Cross.initial 101) [exField 101 fact101, exField 103 fact103]).map (fun o => match o with | .finished g => some g | _ => none) = some (some [([0], ⟨5, 1⟩), ([1], ⟨3, 2⟩)]) := by
  decide +kernel

lemma ex102 : (102 : ZMod 101) = 1 := by decide +kernel

lemma exStale : (field mpzInvert (Cross.initial 101) ⟨101, fact101, { n := 1, anchor := [2] }, [(1, [1]), (1, [2]), (1, [1])]⟩).map (fun o => match o with | .finished g => some g | _ => none) = some (some [([0], ⟨1, 1⟩)]) := by
  decide +kernel

/-- **C47 (defect).** The queue of an object is not emptied when it has finished a prime field (source/PolyReconst.cpp 82-99). If the value for `(1, …, 1)` arrives twice, its second copy is taken for a value of the next prime field: the test of the guess
succeeds since the guess has been made from this very field, and the object reports a wrong polynomial after one prime field. All values are right: `f = 102`, `p = 101`, the result is `1`. -/
theorem C47_stale_violated : ∃ (f : MvPolynomial ℕ ℚ) (r : Field) (G : RnMap), InVars 1 f ∧ (∀ q ∈ r.probes, q.1 = valueMod r f q.2) ∧ r.p = 101 ∧
    field mpzInvert (Cross.initial r.p) r = some (.finished G) ∧ RRun.rnPoly G ≠ f := by
  haveI := fact101
  refine ⟨C 102, ⟨101, fact101, { n := 1, anchor := [2] }, [(1, [1]), (1, [2]), (1, [1])]⟩, [([0], ⟨1, 1⟩)], ?_, ?_, rfl, ?_, ?_⟩
  · intro m hm i _
    have : m = 0 := by
      by_contra hc
      rw [mem_support_iff, coeff_C, if_neg (fun h => hc h.symm)] at hm
      exact hm rfl
    rw [this]; rfl
  · intro q hq
    have h1 : red 101 (C 102 : MvPolynomial ℕ ℚ) = C 1 := by
      ext m
      rw [red_coeff, coeff_C, coeff_C]
      split
      · norm_num
        exact ex102
      · simp
    have h2 : q.1 = (1 : ZMod 101) := by
      simp only [List.mem_cons, List.not_mem_nil, or_false] at hq
      rcases hq with rfl | rfl | rfl <;> rfl
    rw [h2]
    show (1 : ZMod 101) = eval _ (red 101 (C 102))
    rw [h1]; simp
  · obtain ⟨o, h1, h2⟩ := Option.map_eq_some_iff.mp exStale
    show field mpzInvert (Cross.initial 101) _ = _
    rw [h1]
    cases o with
    | finished g => simp only [Option.some.injEq] at h2; rw [h2]
    | running => simp at h2
    | nextPrime c => simp at h2
  · intro h
    have := congrArg (coeff 0) h
    unfold RRun.rnPoly denote at this
    simp [mono_zero, RationalNumber.val] at this

end FireFly.PRun
