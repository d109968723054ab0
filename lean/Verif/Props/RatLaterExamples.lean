import Verif.Props.RatLaterProps
import Verif.Props.RatReconstExamples
/-!
# C45: examples
-/
set_option linter.all false
namespace FireFly.RLater
open MvPolynomial

instance exFact101 : Fact (Nat.Prime 101) := ⟨by norm_num⟩

/-- two variables; the constant of the denominator is known, there is no guess -/
def exCfg : Cfg (ZMod 101) := { n := 2, anchor := [2], gt := exGt 101, known := ([], [([0, 0], 1)]), guess := none }

/-- `3 x + 7 y` -/
noncomputable def exN : MvPolynomial ℕ (ZMod 101) := monomial [1, 0].toFinsupp 3 + monomial [0, 1].toFinsupp 7
/-- `1 + 5 x` -/
noncomputable def exD : MvPolynomial ℕ (ZMod 101) := monomial [0, 0].toFinsupp 1 + monomial [1, 0].toFinsupp 5

/-- the monomials with unknown coefficients -/
def exUN : FFMap (List (List ℕ)) := [([1], [[1, 0], [0, 1]])]
/-- the monomials with unknown coefficients -/
def exUD : FFMap (List (List ℕ)) := [([1], [[1, 0]])]

lemma ex_ne1 : ([1, 0] : List ℕ).toFinsupp ≠ ([0, 1] : List ℕ).toFinsupp := by
  intro h
  have := DFunLike.congr_fun h 0
  simp [List.toFinsupp] at this

lemma ex_ne2 : ([1, 0] : List ℕ).toFinsupp ≠ ([0, 0] : List ℕ).toFinsupp := by
  intro h
  have := DFunLike.congr_fun h 0
  simp [List.toFinsupp] at this

lemma exN_eval (t : ZMod 101) (o : ℕ) : eval (at_ [2] t [o]) exN = t * (3 + 7 * 2 ^ o) := by
  unfold exN
  rw [map_add, eval_mono, eval_mono]
  simp [Finset.prod_range_succ, at_, RMulti.dir]
  ring

lemma exD_eval (t : ZMod 101) (o : ℕ) : eval (at_ [2] t [o]) exD = 1 + 5 * t := by
  unfold exD
  rw [map_add, eval_mono, eval_mono]
  simp [Finset.prod_range_succ, at_, RMulti.dir]

lemma exN_split : Split 2 [2] exN ([] : FFMap (ZMod 101)) exUN := by
  refine ⟨⟨by simp, by simp⟩, by simp [exUN], ?_, ?_, ?_, ?_⟩
  · intro u hu
    obtain rfl : u = ([1], [[1, 0], [0, 1]]) := by simpa [exUN] using hu
    exact ⟨1, rfl, by simp, by simp, by simp⟩
  · have h1 : coeff ([1, 0] : List ℕ).toFinsupp exN = 3 := by
      unfold exN; rw [coeff_add, coeff_monomial, coeff_monomial, if_pos rfl, if_neg (fun h => ex_ne1 h.symm), add_zero]
    have h2 : coeff ([0, 1] : List ℕ).toFinsupp exN = 7 := by
      unfold exN; rw [coeff_add, coeff_monomial, coeff_monomial, if_pos rfl, if_neg ex_ne1, zero_add]
    simp only [exUN, terms, List.map_cons, List.map_nil, h1, h2]
    simp [denote, exN]
  · intro u hu e he e' he' h
    obtain rfl : u = ([1], [[1, 0], [0, 1]]) := by simpa [exUN] using hu
    simp only [List.mem_cons, List.not_mem_nil, or_false] at he he'
    rw [eval_mono, eval_mono] at h
    rcases he with rfl | rfl <;> rcases he' with rfl | rfl
    · rfl
    · exfalso
      simp [Finset.prod_range_succ, RMulti.dir] at h
      exact absurd h (by decide)
    · exfalso
      simp [Finset.prod_range_succ, RMulti.dir] at h
      exact absurd h (by decide)
    · rfl
  · intro x hx
    rw [List.mem_singleton.mp hx]
    decide

lemma exD_split : Split 2 [2] exD ([([0, 0], 1)] : FFMap (ZMod 101)) exUD := by
  refine ⟨⟨by simp, by simp⟩, by simp [exUD], ?_, ?_, ?_, ?_⟩
  · intro u hu
    obtain rfl : u = ([1], [[1, 0]]) := by simpa [exUD] using hu
    exact ⟨1, rfl, by simp, by simp, by simp⟩
  · have h1 : coeff ([1, 0] : List ℕ).toFinsupp exD = 5 := by
      unfold exD; rw [coeff_add, coeff_monomial, coeff_monomial, if_pos rfl, if_neg (fun h => ex_ne2 h.symm), zero_add]
    simp only [exUD, terms, List.map_cons, List.map_nil, h1]
    simp [denote, exD]
  · intro u hu e he e' he' h
    obtain rfl : u = ([1], [[1, 0]]) := by simpa [exUD] using hu
    rw [List.mem_singleton.mp he, List.mem_singleton.mp he']
  · intro x hx
    rw [List.mem_singleton.mp hx]
    decide

/-- the probes: one for the second order vector comes too early -/
def exProbes : List (ZMod 101 × List ℕ) := [(5, [2]), (1, [1]), (2, [1])]

lemma exProbes_ok : ∀ q ∈ exProbes, ∃ o, q.2 = [o] ∧ q.1 ≠ 0 ∧ 1 + 5 * q.1 ≠ 0 ∧ (3 + 7 * 2 ^ o : ZMod 101) ≠ 0 := by
  intro q hq
  simp only [exProbes, List.mem_cons, List.not_mem_nil, or_false] at hq
  rcases hq with rfl | rfl | rfl
  · exact ⟨2, rfl, by decide, by decide, by decide⟩
  · exact ⟨1, rfl, by decide, by decide, by decide⟩
  · exact ⟨1, rfl, by decide, by decide, by decide⟩

lemma exProbes_good : GoodPts [2] exN exD exUN exUD (fun t ord => (t, ord) ∈ exProbes) := by
  refine ⟨?_, ?_, ?_⟩
  · intro t ord h
    obtain ⟨o, rfl, -⟩ := exProbes_ok _ h
    simp
  · intro t ord h
    obtain ⟨o, ho, -, h2, -⟩ := exProbes_ok _ h
    simp only at ho
    rw [ho, exD_eval]; exact h2
  · intro ord A B ts hA hB hnd hts hlen x y h
    have hA' : ∀ k ∈ A, k = 1 := fun k hk => by simpa [exUN] using hA k hk
    have hB' : ∀ k ∈ B, k = 1 := fun k hk => by simpa [exUD] using hB k hk
    have h0 : ∀ t ∈ ts, ∃ o, ord = [o] ∧ t ≠ 0 ∧ 1 + 5 * t ≠ 0 ∧ (3 + 7 * 2 ^ o : ZMod 101) ≠ 0 := fun t ht => exProbes_ok _ (hts t ht)
    have hv : ∀ t ∈ ts, ∑ k ∈ A, x k * t ^ k = eval (at_ [2] t ord) exN / eval (at_ [2] t ord) exD * ∑ k ∈ B, y k * t ^ k := h
    have hAc : A = ∅ ∨ A = {1} := Finset.subset_singleton_iff.mp (fun k hk => by simpa using hA' k hk)
    have hBc : B = ∅ ∨ B = {1} := Finset.subset_singleton_iff.mp (fun k hk => by simpa using hB' k hk)
    rcases hAc with rfl | rfl <;> rcases hBc with rfl | rfl
    · simp
    · cases ts with
      | nil => simp at hlen
      | cons t ts =>
        obtain ⟨o, rfl, g1, g2, g3⟩ := h0 t (by simp)
        have := hv t (by simp)
        rw [exN_eval, exD_eval] at this
        simp [g1, g2, g3] at this
        simpa using this
    · cases ts with
      | nil => simp at hlen
      | cons t ts =>
        obtain ⟨o, rfl, g1, g2, g3⟩ := h0 t (by simp)
        have := hv t (by simp)
        simp [g1] at this
        simpa using this
    · cases ts with
      | nil => simp at hlen
      | cons t ts =>
        cases ts with
        | nil => simp at hlen
        | cons t' ts =>
          obtain ⟨o, rfl, g1, g2, g3⟩ := h0 t (by simp)
          obtain ⟨o', ho', g1', g2', g3'⟩ := h0 t' (by simp)
          have e1 := hv t (by simp)
          have e2 := hv t' (by simp)
          rw [exN_eval, exD_eval] at e1 e2
          simp only [Finset.sum_singleton, pow_one] at e1 e2
          have hne : t ≠ t' := by
            intro h; rw [h] at hnd; simp at hnd
          rw [div_mul_eq_mul_div, eq_div_iff g2] at e1
          rw [div_mul_eq_mul_div, eq_div_iff g2'] at e2
          have k1 : x 1 * (1 + 5 * t) = t * (3 + 7 * 2 ^ o) * y 1 := by
            apply mul_left_cancel₀ g1; linear_combination e1
          have k2 : x 1 * (1 + 5 * t') = t' * (3 + 7 * 2 ^ o) * y 1 := by
            apply mul_left_cancel₀ g1'; linear_combination e2
          have k3 : (3 + 7 * 2 ^ o : ZMod 101) * y 1 * (t - t') = 0 := by
            linear_combination (-(1 + 5 * t')) * k1 + (1 + 5 * t) * k2
          have hy : y 1 = 0 := by
            rcases mul_eq_zero.mp k3 with h | h
            · rcases mul_eq_zero.mp h with h | h
              · exact absurd h g3
              · exact h
            · exact absurd (sub_eq_zero.mp h) hne
          have hx : x 1 = 0 := by
            rw [hy, mul_zero] at k1
            rcases mul_eq_zero.mp k1 with h | h
            · exact h
            · exact absurd h g2
          simp [hx, hy]

lemma exRun_values : withValues [2] exN exD exProbes = [(5, 5 * (3 + 7 * 4) / (1 + 25), [2]), (1, 17 / 6, [1]), (2, 34 / 11, [1])] := by
  unfold withValues exProbes value
  simp only [List.map_cons, List.map_nil, exN_eval, exD_eval]
  norm_num

lemma exRun_done : ((exCfg.feedAll (exCfg.init exUN exUD) [(5, 5 * (3 + 7 * 4) / (1 + 25), [2]), (1, 17 / 6, [1]), (2, 34 / 11, [1])]).map
    (fun s => match s.out with | some (.solved a b) => decide (a = [([1, 0], 3), ([0, 1], 7)] ∧ b = [([0, 0], 1), ([1, 0], 5)]) | _ => false)) = some true := by decide +kernel

/-- The hypotheses hold: three probes, one of them too early, give `(3 x + 7 y) / (1 + 5 x)`. -/
example : ∃ s num den, exCfg.feedAll (exCfg.init exUN exUD) (withValues [2] exN exD exProbes) = some s ∧ s.out = some (.solved num den) ∧ denote num = exN ∧ denote den = exD := by
  obtain ⟨s, e1, -, e3, -⟩ := C45_prime (c := exCfg) (exGt_spec 101) rfl exN_split exD_split (Or.inl (by simp [exUN])) (by intro g hg; simp [exCfg] at hg) exProbes (by decide) exProbes_good
  have h := exRun_done
  have e1' := e1
  change exCfg.feedAll (exCfg.init exUN exUD) (withValues [2] exN exD exProbes) = some s at e1'
  rw [exRun_values] at e1'
  rw [e1'] at h
  simp only [Option.map_some, Option.some.injEq] at h
  cases hr : s.out with
  | none => rw [hr] at h; simp at h
  | some r =>
    cases r with
    | accepted => rw [hr] at h; simp at h
    | solved a b => exact ⟨s, a, b, e1, hr, (e3 a b hr).2.2.2⟩

/-- the same with the probes in the wanted order -/
def exProbes2 : List (ZMod 101 × List ℕ) := [(1, [1]), (2, [1]), (5, [2])]

lemma exProbes2_good : GoodPts [2] exN exD exUN exUD (fun t ord => (t, ord) ∈ exProbes2) := by
  have : (fun (t : ZMod 101) (ord : List ℕ) => (t, ord) ∈ exProbes2) = fun t ord => (t, ord) ∈ exProbes := by
    funext t ord
    simp only [exProbes, exProbes2, List.mem_cons, List.not_mem_nil, or_false]
    exact propext (by tauto)
  rw [this]; exact exProbes_good

/-- `Answers`, computed -/
def answersB (c : Cfg (ZMod 101)) : St (ZMod 101) → List (ZMod 101 × ZMod 101 × List ℕ) → Bool
  | _, [] => true
  | s, q :: rest => (s.out.isSome || decide (q.2.2 = s.ord)) && match c.feed s q with
    | none => true
    | some s' => answersB c s' rest

lemma answersB_spec (c : Cfg (ZMod 101)) : ∀ (l : List (ZMod 101 × ZMod 101 × List ℕ)) (s : St (ZMod 101)), answersB c s l = true → Answers c s l := by
  intro l
  induction l with
  | nil => intro s _; trivial
  | cons q l ih =>
    intro s h
    rw [answersB, Bool.and_eq_true, Bool.or_eq_true] at h
    refine ⟨fun h0 => ?_, fun s' hs' => ih s' ?_⟩
    · rcases h.1 with h | h
      · rw [h0] at h; simp at h
      · simpa using h
    · rw [hs'] at h; exact h.2

/-- the hypotheses of `C45_complete` hold -/
example : ∃ s num den, exCfg.feedAll (exCfg.init exUN exUD) (withValues [2] exN exD exProbes2) = some s ∧ s.out = some (.solved num den) ∧ WFMap 2 num ∧ WFMap 2 den ∧ denote num = exN ∧ denote den = exD := by
  have hv : withValues [2] exN exD exProbes2 = [(1, 17 / 6, [1]), (2, 34 / 11, [1]), (5, 5 * (3 + 7 * 4) / (1 + 25), [2])] := by
    unfold withValues exProbes2 value
    simp only [List.map_cons, List.map_nil, exN_eval, exD_eval]
    norm_num
  refine C45_complete (c := exCfg) (exGt_spec 101) rfl exN_split exD_split (Or.inl (by simp [exUN])) (by intro g hg; simp [exCfg] at hg) exProbes2 (by decide) exProbes2_good ?_
    (by decide) (by rintro q - ⟨g, hg, -⟩; simp [exCfg] at hg)
  apply answersB_spec
  show answersB exCfg (exCfg.init exUN exUD) (withValues [2] exN exD exProbes2) = true
  rw [hv]
  decide +kernel

/-- a guess that is right -/
def exCfg3 : Cfg (ZMod 101) := { exCfg with guess := some ([([1, 0], 3), ([0, 1], 7)], [([0, 0], 1), ([1, 0], 5)]) }

/-- The hypotheses hold with a guess: the right guess is accepted. -/
example : ∃ s, exCfg3.feedAll (exCfg3.init exUN exUD) (withValues [2] exN exD exProbes) = some s ∧ s.out = some .accepted := by
  obtain ⟨s, e1, e2, -⟩ := C45_prime (c := exCfg3) (exGt_spec 101) rfl exN_split exD_split (Or.inl (by simp [exUN]))
    (by intro g hg; simp only [exCfg3, Option.some.injEq] at hg; subst hg; exact ⟨⟨by decide, by decide⟩, ⟨by decide, by decide⟩⟩) exProbes (by decide) exProbes_good
  refine ⟨s, e1, e2.mpr ⟨(1, [1]), by decide, _, rfl, ?_⟩⟩
  have h1 : denote ([([1, 0], 3), ([0, 1], 7)] : FFMap (ZMod 101)) = exN := by simp [denote, exN]
  have h2 : denote ([([0, 0], 1), ([1, 0], 5)] : FFMap (ZMod 101)) = exD := by simp [denote, exD]
  simp only [h1, h2]

end FireFly.RLater
