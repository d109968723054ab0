import Verif.Props.RatShiftProps
import Verif.Props.RatLaterExamples
/-!
# C61: examples
-/
set_option linter.all false
namespace FireFly.RShift
open MvPolynomial

/-- `x + 2 y`, the shift produces a constant -/
def exNum : Prior := { unknown := [([1], [[1, 0], [0, 1]])], known := [], shifts := fun k => if k = 0 then [[0, 0]] else [], zeros := [0], maxDeg := 1 }
/-- `x`, the coefficient is known; the shift produces the constant that is normalized -/
def exDen : Prior := { unknown := [], known := [[1, 0]], shifts := fun k => if k = 0 then [[0, 0]] else [], zeros := [0], maxDeg := 1 }

/-- two variables with the shift `(1, 1)` -/
def exCfg : Cfg (ZMod 101) :=
  { n := 2, shift := [1, 1], anchor := [2], gt := exGt 101, normDen := true, normalizerDen := true, normalizerDeg := [1, 0], maxEqn := 3, num := exNum, den := exDen, guess := none }

noncomputable def exN : MvPolynomial ℕ (ZMod 101) := monomial [1, 0].toFinsupp 1 + monomial [0, 1].toFinsupp 2
noncomputable def exD : MvPolynomial ℕ (ZMod 101) := monomial [1, 0].toFinsupp 1

lemma exN_hom : exN.IsHomogeneous 1 := by
  unfold exN
  refine IsHomogeneous.add ?_ ?_
  · exact isHomogeneous_monomial _ (by rw [toFinsupp_degree]; rfl)
  · exact isHomogeneous_monomial _ (by rw [toFinsupp_degree]; rfl)

lemma exD_hom : exD.IsHomogeneous 1 := isHomogeneous_monomial _ (by rw [toFinsupp_degree]; rfl)

lemma hc_hom {Q : MvPolynomial ℕ (ZMod 101)} (h : Q.IsHomogeneous 1) (k : ℕ) : homogeneousComponent k Q = if k = 1 then Q else 0 := by
  rw [homogeneousComponent_of_mem h]

/-- the shift of a polynomial of degree one -/
lemma shifts_hom {Q : MvPolynomial ℕ (ZMod 101)} (h : Q.IsHomogeneous 1) (sh : List (ZMod 101)) : ∀ k ≤ 1, ∀ d, coeff d (RMulti.part sh Q k - homogeneousComponent k Q) ≠ 0 →
    ∃ e ∈ (if k = 0 then [[0, 0]] else [] : List (List ℕ)), e.toFinsupp = d := by
  intro k hk d hd
  rcases Nat.eq_zero_or_pos k with rfl | h0
  · rw [RMulti.part_zero, homogeneousComponent_zero, ← C_sub, coeff_C] at hd
    refine ⟨[0, 0], by simp, ?_⟩
    split at hd
    · rename_i h1
      rw [← h1]
      exact toFinsupp_zero (n := 2)
    · exact absurd rfl hd
  · obtain rfl : k = 1 := by omega
    exfalso
    apply hd
    rw [RMulti.part_sum sh Q 1 (fun l hl => by rw [hc_hom h, if_neg (by omega)]) le_rfl, Finset.sum_eq_zero]
    · simp
    · intro l hl
      rw [Finset.mem_filter, Finset.mem_range] at hl
      omega

lemma exMono (e : List ℕ) (he : e = [1, 0] ∨ e = [0, 1] ∨ e = [0, 0]) : eval (RMulti.dir [(2 : ZMod 101)] (List.replicate (2 - 1) 1)) (monomial e.toFinsupp (1 : ZMod 101)) = if e = [0, 1] then 2 else 1 := by
  rw [RLater.eval_mono]
  rcases he with rfl | rfl | rfl <;> simp [Finset.prod_range_succ, RMulti.dir]

lemma exChar : ∀ i, 0 < i → i ≤ 1 → ((i : ℕ) : ZMod 101) ≠ 0 := by
  intro i h1 h2
  obtain rfl : i = 1 := by omega
  simp

lemma exN_prior : PriorOK 2 [1, 1] [2] exN false exNum := by
  have hex : exps exNum = [[1, 0], [0, 1]] := rfl
  refine ⟨?_, by simp [exNum], by rw [hex]; simp, by rw [hex]; simp, by rw [hex]; simp [exNum], by rw [hex]; simp [exNum], ?_, rfl, by simp, ?_, shifts_hom exN_hom _, ?_, ?_, ?_, ?_, exChar⟩
  · intro u hu
    obtain rfl : u = ([1], [[1, 0], [0, 1]]) := by simpa [exNum] using hu
    exact ⟨1, rfl, by simp, by simp⟩
  · intro k
    by_cases h : k = 0
    · subst h; simp [exNum]
    · simp [exNum, h]
  · intro d hd
    rw [hex]
    unfold exN at hd
    rw [coeff_add, coeff_monomial, coeff_monomial] at hd
    by_cases h1 : ([1, 0] : List ℕ).toFinsupp = d
    · exact ⟨_, by simp, h1⟩
    · by_cases h2 : ([0, 1] : List ℕ).toFinsupp = d
      · exact ⟨_, by simp, h2⟩
      · simp [h1, h2] at hd
  · intro k hk h1 _
    rw [hex] at h1
    have hk : k ≤ 1 := hk
    have : k ≠ 1 := by rintro rfl; simp at h1
    obtain rfl : k = 0 := by omega
    simp [exNum]
  · intro k hk
    obtain rfl : k = 0 := by simpa [exNum] using hk
    rw [hc_hom exN_hom, if_neg (by omega)]
  · intro k e he e' he' h1 h2 h
    rw [hex] at he he'
    have key : ∀ e ∈ ([[1, 0], [0, 1]] ++ exNum.shifts k : List (List ℕ)), e = [1, 0] ∨ e = [0, 1] ∨ e = [0, 0] := by
      intro e he
      by_cases hk : k = 0
      · subst hk; simp [exNum] at he; tauto
      · simp [exNum, hk] at he; tauto
    have a1 := key e he
    have a2 := key e' he'
    rw [exMono e a1, exMono e' a2] at h
    rcases a1 with rfl | rfl | rfl <;> rcases a2 with rfl | rfl | rfl <;> simp at h h1 h2 ⊢ <;> first | omega | exact absurd h (by decide)
  · intro x hx
    rw [List.mem_singleton.mp hx]
    decide

lemma exD_prior : PriorOK 2 [1, 1] [2] exD true exDen := by
  have hex : exps exDen = [[1, 0]] := rfl
  refine ⟨by simp [exDen], by simp [exDen], by rw [hex]; simp, by rw [hex]; simp, by rw [hex]; simp [exDen], by rw [hex]; simp [exDen], ?_, rfl, by simp [exDen], ?_, shifts_hom exD_hom _, ?_, ?_, ?_, ?_, exChar⟩
  · intro k
    by_cases h : k = 0
    · subst h; simp [exDen]
    · simp [exDen, h]
  · intro d hd
    rw [hex]
    unfold exD at hd
    rw [coeff_monomial] at hd
    by_cases h1 : ([1, 0] : List ℕ).toFinsupp = d
    · exact ⟨_, by simp, h1⟩
    · simp [h1] at hd
  · intro k hk h1 _
    rw [hex] at h1
    have hk : k ≤ 1 := hk
    have : k ≠ 1 := by rintro rfl; simp at h1
    obtain rfl : k = 0 := by omega
    simp [exDen]
  · intro k hk
    obtain rfl : k = 0 := by simpa [exDen] using hk
    rw [hc_hom exD_hom, if_neg (by omega)]
  · intro k e he e' he' h1 h2 h
    rw [hex] at he he'
    have key : ∀ e ∈ ([[1, 0]] ++ exDen.shifts k : List (List ℕ)), e = [1, 0] ∨ e = [0, 0] := by
      intro e he
      by_cases hk : k = 0
      · subst hk; simp [exDen] at he; tauto
      · simp [exDen, hk] at he; tauto
    have a1 := key e he
    have a2 := key e' he'
    rcases a1 with rfl | rfl <;> rcases a2 with rfl | rfl <;> simp at h1 h2 ⊢ <;> omega
  · intro x hx
    rw [List.mem_singleton.mp hx]
    decide

lemma exAskedN : asked 2 false exNum = {0, 1} := by decide
lemma exAskedD : asked 2 true exDen = {1} := by decide

lemma exProb : Prob exCfg exN exD := by
  refine ⟨by decide, rfl, rfl, exN_prior, exD_prior, by decide, ?_, by decide, by decide, rfl, ?_⟩
  · show eval _ exD = 1
    unfold exD
    rw [RLater.eval_mono]
    simp [Finset.prod_range_succ, exCfg]
  · show coeff ([1, 0] : List ℕ).toFinsupp exD ≠ 0
    unfold exD
    rw [coeff_monomial, if_pos rfl]
    decide

lemma exN_eval (t : ZMod 101) (o : ℕ) : eval (RMulti.pt [1, 1] [2] t [o]) exN = 3 + (1 + 2 * 2 ^ o) * t := by
  unfold exN
  rw [map_add, RLater.eval_mono, RLater.eval_mono]
  simp [Finset.prod_range_succ, RMulti.pt, RMulti.dir]
  ring

lemma exD_eval (t : ZMod 101) (o : ℕ) : eval (RMulti.pt [1, 1] [2] t [o]) exD = 1 + t := by
  unfold exD
  rw [RLater.eval_mono]
  simp [Finset.prod_range_succ, RMulti.pt, RMulti.dir]
  ring

/-- the probes; the one for the second order vector comes first -/
def exProbes : List (ZMod 101 × List ℕ) := [(1, [2]), (1, [1]), (2, [1]), (3, [1])]

/-- the function of the order vector -/
def exW (ord : List ℕ) : ZMod 101 := 1 + 2 * 2 ^ ord.headD 0

lemma exProbes_ok : ∀ q ∈ exProbes, q.2 = [q.2.headD 0] ∧ q.1 ≠ 0 ∧ 1 + q.1 ≠ 0 ∧ exW q.2 ≠ 3 ∧ 3 + exW q.2 * q.1 ≠ 0 := by decide +kernel

lemma exProbes_ok2 : ∀ q ∈ exProbes, ∀ q' ∈ exProbes, q.2 = q'.2 → 3 + exW q.2 * (q.1 + q'.1) + exW q.2 * q.1 * q'.1 ≠ 0 := by decide +kernel

lemma exProbes_good : GoodPts exCfg exN exD (fun t ord => (t, ord) ∈ exProbes) := by
  refine ⟨?_, ?_, ?_⟩
  · intro t ord h
    have h1 := (exProbes_ok _ h).1
    simp only at h1
    rw [h1]; simp
  · intro t ord h
    obtain ⟨h1, -, h3, -⟩ := exProbes_ok _ h
    simp only at h1 h3
    show eval (RMulti.pt [1, 1] [2] t ord) exD ≠ 0
    rw [h1, exD_eval]; exact h3
  · intro ord A B ts hA hB hnd hts hlen x y h
    have hA : A ⊆ {0, 1} := hA
    have hB : B ⊆ {1} := hB
    obtain ⟨x0, hx0⟩ : ∃ x0 : ZMod 101, x0 = if 0 ∈ A then x 0 else 0 := ⟨_, rfl⟩
    obtain ⟨x1, hx1⟩ : ∃ x1 : ZMod 101, x1 = if 1 ∈ A then x 1 else 0 := ⟨_, rfl⟩
    obtain ⟨y1, hy1⟩ : ∃ y1 : ZMod 101, y1 = if 1 ∈ B then y 1 else 0 := ⟨_, rfl⟩
    obtain ⟨w, hw⟩ : ∃ w, w = exW ord := ⟨_, rfl⟩
    have heq : ∀ t ∈ ts, t ≠ 0 ∧ 1 + t ≠ 0 ∧ w ≠ 3 ∧ 3 + w * t ≠ 0 ∧ (x0 + x1 * t) * (1 + t) = (3 + w * t) * (y1 * t) := by
      intro t ht
      obtain ⟨h1, h2, h3, h4, h5⟩ := exProbes_ok _ (hts t ht)
      simp only at h1 h2 h3 h4 h5
      rw [← hw] at h4 h5
      refine ⟨h2, h3, h4, h5, ?_⟩
      have e := h t ht
      have hs : ∀ f : ℕ → ZMod 101, ∑ k ∈ A, f k = (if 0 ∈ A then f 0 else 0) + if 1 ∈ A then f 1 else 0 := by
        intro f
        have : ∑ k ∈ A, f k = ∑ k ∈ ({0, 1} : Finset ℕ), if k ∈ A then f k else 0 := by
          rw [← Finset.sum_filter]
          apply Finset.sum_congr _ (fun _ _ => rfl)
          ext k
          rw [Finset.mem_filter]
          exact ⟨fun hk => ⟨hA hk, hk⟩, fun hk => hk.2⟩
        rw [this, Finset.sum_pair (by omega)]
      have hs2 : ∀ f : ℕ → ZMod 101, ∑ k ∈ B, f k = if 1 ∈ B then f 1 else 0 := by
        intro f
        have : ∑ k ∈ B, f k = ∑ k ∈ ({1} : Finset ℕ), if k ∈ B then f k else 0 := by
          rw [← Finset.sum_filter]
          apply Finset.sum_congr _ (fun _ _ => rfl)
          ext k
          rw [Finset.mem_filter]
          exact ⟨fun hk => ⟨hB hk, hk⟩, fun hk => hk.2⟩
        rw [this, Finset.sum_singleton]
      rw [hs, hs2] at e
      have hv : RMulti.valueOf exCfg.shift exCfg.anchor exN exD t ord = (3 + w * t) / (1 + t) := by
        show eval (RMulti.pt [1, 1] [2] t ord) exN / eval (RMulti.pt [1, 1] [2] t ord) exD = _
        rw [h1, exN_eval, exD_eval, hw]; rfl
      rw [hv, div_mul_eq_mul_div, eq_div_iff h3] at e
      have e1 : ((if 0 ∈ A then x 0 * t ^ 0 else 0) + if 1 ∈ A then x 1 * t ^ 1 else 0) = x0 + x1 * t := by
        rw [hx0, hx1]; split <;> split <;> simp
      have e2 : (if 1 ∈ B then y 1 * t ^ 1 else 0) = y1 * t := by rw [hy1]; split <;> simp
      rw [e1, e2] at e
      exact e
    have hpair : ∀ t ∈ ts, ∀ t' ∈ ts, 3 + w * (t + t') + w * t * t' ≠ 0 := by
      intro t ht t' ht'
      have := exProbes_ok2 _ (hts t ht) _ (hts t' ht') rfl
      rw [hw]; exact this
    have hA0 : 0 ∉ A → x0 = 0 := fun h => by rw [hx0, if_neg h]
    have hA1 : 1 ∉ A → x1 = 0 := fun h => by rw [hx1, if_neg h]
    have hB1 : 1 ∉ B → y1 = 0 := fun h => by rw [hy1, if_neg h]
    have hcA : A.card = (if 0 ∈ A then 1 else 0) + if 1 ∈ A then 1 else 0 := by
      have : A = ({0, 1} : Finset ℕ).filter (· ∈ A) := by
        ext k; rw [Finset.mem_filter]; exact ⟨fun hk => ⟨hA hk, hk⟩, fun hk => hk.2⟩
      conv_lhs => rw [this]
      rw [Finset.card_filter, Finset.sum_pair (by omega)]
    have hcB : B.card = if 1 ∈ B then 1 else 0 := by
      have : B = ({1} : Finset ℕ).filter (· ∈ B) := by
        ext k; rw [Finset.mem_filter]; exact ⟨fun hk => ⟨hB hk, hk⟩, fun hk => hk.2⟩
      conv_lhs => rw [this]
      rw [Finset.card_filter, Finset.sum_singleton]
    have key : x0 = 0 ∧ x1 = 0 ∧ y1 = 0 := by
      rw [hcA, hcB] at hlen
      clear hx0 hx1 hy1
      by_cases c0 : 0 ∈ A <;> by_cases c1 : 1 ∈ A <;> by_cases c2 : 1 ∈ B <;> simp only [c0, c1, c2, if_true, if_false] at hlen
      · -- all three
        match ts, hnd, hlen, heq with
        | [t, t', t''], hnd, _, heq =>
          simp only [List.nodup_cons, List.mem_cons, List.not_mem_nil, or_false, not_or, not_false_eq_true, and_true, List.nodup_nil] at hnd
          obtain ⟨a1, a2, a3, a4, a5⟩ := heq t (by simp)
          obtain ⟨b1, b2, b3, b4, b5⟩ := heq t' (by simp)
          obtain ⟨d1, d2, d3, d4, d5⟩ := heq t'' (by simp)
          have s1 : t - t' ≠ 0 := sub_ne_zero.mpr hnd.1.1
          have s2 : t - t'' ≠ 0 := sub_ne_zero.mpr hnd.1.2
          have s3 : t' - t'' ≠ 0 := sub_ne_zero.mpr hnd.2
          have q1 : (x0 + x1 - 3 * y1) + (x1 - w * y1) * (t + t') = 0 := by
            apply mul_left_cancel₀ s1; linear_combination a5 - b5
          have q2 : (x0 + x1 - 3 * y1) + (x1 - w * y1) * (t + t'') = 0 := by
            apply mul_left_cancel₀ s2; linear_combination a5 - d5
          have q3 : x1 - w * y1 = 0 := by
            apply mul_left_cancel₀ s3; linear_combination q1 - q2
          have q4 : x0 + x1 - 3 * y1 = 0 := by linear_combination q1 - (t + t') * q3
          have q5 : x0 = 0 := by linear_combination a5 - t * q4 - t * t * q3
          have q6 : y1 = 0 := by
            apply mul_left_cancel₀ (sub_ne_zero.mpr a3); linear_combination q4 - q3 - q5
          exact ⟨q5, by linear_combination q3 + w * q6, q6⟩
      · have z := hB1 c2
        match ts, hnd, hlen, heq with
        | [t, t'], hnd, _, heq =>
          simp only [List.nodup_cons, List.mem_cons, List.not_mem_nil, or_false, not_false_eq_true, and_true, List.nodup_nil] at hnd
          obtain ⟨a1, a2, a3, a4, a5⟩ := heq t (by simp)
          obtain ⟨b1, b2, b3, b4, b5⟩ := heq t' (by simp)
          rw [z] at a5 b5
          have q1 : x0 + x1 * t = 0 := by apply mul_right_cancel₀ a2; linear_combination a5
          have q2 : x0 + x1 * t' = 0 := by apply mul_right_cancel₀ b2; linear_combination b5
          have q3 : x1 = 0 := by apply mul_right_cancel₀ (sub_ne_zero.mpr hnd); linear_combination q1 - q2
          exact ⟨by linear_combination q1 - t * q3, q3, z⟩
      · have z := hA1 c1
        match ts, hnd, hlen, heq, hpair with
        | [t, t'], hnd, _, heq, hpair =>
          simp only [List.nodup_cons, List.mem_cons, List.not_mem_nil, or_false, not_false_eq_true, and_true, List.nodup_nil] at hnd
          obtain ⟨a1, a2, a3, a4, a5⟩ := heq t (by simp)
          obtain ⟨b1, b2, b3, b4, b5⟩ := heq t' (by simp)
          have hpp := hpair t (by simp) t' (by simp)
          rw [z] at a5 b5
          have q1 : y1 = 0 := by
            apply mul_left_cancel₀ (mul_ne_zero (sub_ne_zero.mpr hnd) hpp); linear_combination (1 + t) * b5 - (1 + t') * a5
          refine ⟨?_, z, q1⟩
          apply mul_right_cancel₀ a2
          rw [q1] at a5
          linear_combination a5
      · have z := hA1 c1
        have z2 := hB1 c2
        match ts, hnd, hlen, heq with
        | [t], hnd, _, heq =>
          obtain ⟨a1, a2, a3, a4, a5⟩ := heq t (by simp)
          rw [z, z2] at a5
          exact ⟨by apply mul_right_cancel₀ a2; linear_combination a5, z, z2⟩
      · have z := hA0 c0
        match ts, hnd, hlen, heq with
        | [t, t'], hnd, _, heq =>
          simp only [List.nodup_cons, List.mem_cons, List.not_mem_nil, or_false, not_false_eq_true, and_true, List.nodup_nil] at hnd
          obtain ⟨a1, a2, a3, a4, a5⟩ := heq t (by simp)
          obtain ⟨b1, b2, b3, b4, b5⟩ := heq t' (by simp)
          rw [z] at a5 b5
          have q1 : x1 * (1 + t) = (3 + w * t) * y1 := by apply mul_left_cancel₀ a1; linear_combination a5
          have q2 : x1 * (1 + t') = (3 + w * t') * y1 := by apply mul_left_cancel₀ b1; linear_combination b5
          have q3 : x1 - w * y1 = 0 := by apply mul_left_cancel₀ (sub_ne_zero.mpr hnd); linear_combination q1 - q2
          have q4 : x1 - 3 * y1 = 0 := by linear_combination q1 - t * q3
          have q6 : y1 = 0 := by
            apply mul_left_cancel₀ (sub_ne_zero.mpr a3); linear_combination q4 - q3
          exact ⟨z, by linear_combination q3 + w * q6, q6⟩
      · have z := hA0 c0
        have z2 := hB1 c2
        match ts, hnd, hlen, heq with
        | [t], hnd, _, heq =>
          obtain ⟨a1, a2, a3, a4, a5⟩ := heq t (by simp)
          rw [z, z2] at a5
          exact ⟨z, by apply mul_right_cancel₀ (mul_ne_zero a1 a2); linear_combination a5, z2⟩
      · have z := hA0 c0
        have z2 := hA1 c1
        match ts, hnd, hlen, heq with
        | [t], hnd, _, heq =>
          obtain ⟨a1, a2, a3, a4, a5⟩ := heq t (by simp)
          rw [z, z2] at a5
          exact ⟨z, z2, by apply mul_right_cancel₀ (mul_ne_zero a4 a1); linear_combination -a5⟩
      · exact ⟨hA0 c0, hA1 c1, hB1 c2⟩
    refine ⟨fun k hk => ?_, fun k hk => ?_⟩
    · have := hA hk
      simp only [Finset.mem_insert, Finset.mem_singleton] at this
      rcases this with rfl | rfl
      · have := key.1; rw [hx0, if_pos hk] at this; exact this
      · have := key.2.1; rw [hx1, if_pos hk] at this; exact this
    · have := hB hk
      simp only [Finset.mem_singleton] at this
      subst this
      have := key.2.2; rw [hy1, if_pos hk] at this; exact this

lemma exRun_values : withValues exCfg exN exD exProbes = [(1, 12 / 2, [2]), (1, 8 / 2, [1]), (2, 13 / 3, [1]), (3, 18 / 4, [1])] := by
  have h : ∀ t o, RMulti.valueOf exCfg.shift exCfg.anchor exN exD t [o] = (3 + (1 + 2 * 2 ^ o) * t) / (1 + t) := by
    intro t o
    show eval (RMulti.pt [1, 1] [2] t [o]) exN / eval (RMulti.pt [1, 1] [2] t [o]) exD = _
    rw [exN_eval, exD_eval]
  unfold withValues exProbes
  simp only [List.map_cons, List.map_nil, h]
  norm_num

lemma exRun_done : ((exCfg.feedAll exCfg.init [(1, 12 / 2, [2]), (1, 8 / 2, [1]), (2, 13 / 3, [1]), (3, 18 / 4, [1])]).map
    (fun s => match s.out with | some (.solved a b) => decide (a.find? [1, 0] = some 1 ∧ a.find? [0, 1] = some 2 ∧ b = []) | _ => false)) = some true := by decide +kernel

/-- The hypotheses hold: four probes, one of them too early, give `(x + 2 y) / x`. -/
example : ∃ s num den, exCfg.feedAll exCfg.init (withValues exCfg exN exD exProbes) = some s ∧ s.out = some (.solved num den) ∧ Right exCfg exN exD num den := by
  obtain ⟨s, e1, -, e3, -⟩ := C61_prime (c := exCfg) (exGt_spec 101) exProb (by intro g hg; simp [exCfg] at hg) exProbes (by decide) exProbes_good
  have h := exRun_done
  have e1' := e1
  rw [exRun_values] at e1'
  rw [e1'] at h
  simp only [Option.map_some, Option.some.injEq] at h
  cases hr : s.out with
  | none => rw [hr] at h; simp at h
  | some r =>
    cases r with
    | accepted => rw [hr] at h; simp at h
    | solved a b => exact ⟨s, a, b, e1, hr, (e3 a b hr).2⟩

end FireFly.RShift
