import Verif.Props.BMProps
import Verif.Props.VandermondeProps
/-! # C35: the univariate Ben-Or/Tiwari stage -/
set_option linter.all false
namespace FireFly
open Polynomial
variable {F : Type} [Field F] [DecidableEq F]

omit [DecidableEq F] in
lemma revEval_eq (lambda : List F) (a : F) :
    revEval lambda a = ∑ i ∈ Finset.range lambda.length, lambda.getD (lambda.length - i - 1) 0 * a ^ i := by
  unfold revEval
  have : ∀ k, (List.range k).foldl (fun (r : F) (i : ℕ) =>
      r + lambda.getD (lambda.length - i - 1) 0 * a ^ i) 0 =
      ∑ i ∈ Finset.range k, lambda.getD (lambda.length - i - 1) 0 * a ^ i := by
    intro k
    induction k with
    | zero => rfl
    | succ k ih => rw [List.range_succ, List.foldl_append, ih, Finset.sum_range_succ]; rfl
  exact this _

omit [DecidableEq F] in
lemma revEval_toP (lambda : List F) (t : ℕ) (hl : lambda.length = t + 1) (a : F) (ha : a ≠ 0) :
    revEval lambda a = a ^ t * (toP lambda).eval a⁻¹ := by
  rw [revEval_eq, hl, eval_eq_sum_range' (n := t + 1)
    (by have := toP_natDegree (c := lambda) (t := t) (by omega); omega), Finset.mul_sum,
    ← Finset.sum_range_reflect]
  apply Finset.sum_congr rfl
  intro i hi
  rw [Finset.mem_range] at hi
  rw [toP_coeff, show t + 1 - (t + 1 - 1 - i) - 1 = i by omega, show t + 1 - 1 - i = t - i by omega]
  rw [inv_pow, pow_sub₀ a ha (by omega : i ≤ t)]
  ring

/-- the exponents below `k` at which `P` holds, with the powers of the base -/
def rootList (base : F) (P : ℕ → Bool) (k : ℕ) : List (F × ℕ) :=
  ((List.range k).filter P).map fun e => (base ^ e, e)

lemma rootList_succ (base : F) (P : ℕ → Bool) (k : ℕ) :
    rootList base P (k + 1) = if P k then rootList base P k ++ [(base ^ k, k)] else rootList base P k := by
  unfold rootList
  rw [List.range_succ, List.filter_append, List.map_append]
  by_cases h : P k = true
  · rw [if_pos h, List.filter_cons_of_pos h]; rfl
  · rw [if_neg h, List.filter_cons_of_neg h]; simp

lemma rootList_prefix (base : F) (P : ℕ → Bool) {k m : ℕ} (h : k ≤ m) :
    rootList base P k <+: rootList base P m := by
  induction m, h using Nat.le_induction with
  | base => exact List.prefix_refl _
  | succ m _ ih =>
    rw [rootList_succ]
    split
    · exact ih.trans (List.prefix_append _ _)
    · exact ih

lemma rootsLoop_spec (lambda : List F) (base : F) (bound : ℕ) (P : ℕ → Bool) (D : ℕ)
    (hP : ∀ k ≤ D, (revEval lambda (base ^ k) = 0 ↔ P k = true)) (hord : ∀ j, 0 < j → j ≤ D → base ^ j ≠ 1)
    (hD : D ≤ bound) (hlen : lambda.length - 1 = (rootList base P (D + 1)).length) :
    ∀ (r k : ℕ), D + 1 - k = r → k ≤ D + 1 →
      rootsLoop lambda base bound k (base ^ k) (rootList base P k) = rootList base P (D + 1) := by
  intro r
  induction r with
  | zero =>
    intro k hr hk
    have : k = D + 1 := by omega
    subst this
    unfold rootsLoop
    rw [if_neg (by omega)]
  | succ r ih =>
    intro k hr hk
    unfold rootsLoop
    split
    · have hroots : (if revEval lambda (base ^ k) = 0 then rootList base P k ++ [(base ^ k, k)] else rootList base P k)
          = rootList base P (k + 1) := by
        rw [rootList_succ]
        by_cases h : P k = true
        · rw [if_pos h, if_pos ((hP k (by omega)).mpr h)]
        · rw [if_neg h, if_neg (fun h2 => h ((hP k (by omega)).mp h2))]
      simp only [hroots, ← pow_succ]
      split
      · rename_i h1
        have : ¬ k + 1 ≤ D := fun h => hord (k + 1) (by omega) h h1
        rw [show k = D by omega]
      · split
        · rw [show k = D by omega]
        · exact ih (k + 1) (by omega) (by omega)
    · rename_i h
      exact (rootList_prefix base P hk).eq_of_length_le (by omega)

/-! ### a polynomial as a sum over its exponents -/

/-- exponents of the polynomial in increasing order -/
def expList (p : F[X]) : List ℕ := (List.range (p.natDegree + 1)).filter fun e => p.coeff e ≠ 0

lemma mem_expList {p : F[X]} {e : ℕ} : e ∈ expList p ↔ p.coeff e ≠ 0 := by
  unfold expList
  rw [List.mem_filter, List.mem_range]
  constructor
  · intro h; simpa using h.2
  · intro h
    refine ⟨?_, by simpa using h⟩
    have := le_natDegree_of_ne_zero h
    omega

lemma expList_nodup (p : F[X]) : (expList p).Nodup := (List.nodup_range).filter _

lemma eval_expList (p : F[X]) (x : F) :
    p.eval x = ∑ i : Fin (expList p).length, p.coeff (expList p)[i] * x ^ (expList p)[i] := by
  have h1 : p.eval x = ((expList p).map fun e => p.coeff e * x ^ e).sum := by
    rw [eval_eq_sum_range]
    unfold expList
    have : ∀ n, ∑ i ∈ Finset.range n, p.coeff i * x ^ i =
        (((List.range n).filter fun e => p.coeff e ≠ 0).map fun e => p.coeff e * x ^ e).sum := by
      intro n
      induction n with
      | zero => simp
      | succ n ih =>
        rw [Finset.sum_range_succ, List.range_succ, List.filter_append, List.map_append, List.sum_append, ih]
        congr 1
        by_cases h : p.coeff n = 0
        · simp [h]
        · simp [h]
    exact this _
  rw [h1, ← List.sum_ofFn]
  congr 1
  apply List.ext_getElem
  · simp
  · intro i h1 h2
    simp

/-- **C35 (Ben-Or/Tiwari).** Feed the values `p(y), p(y^2), …, p(y^n)` of a univariate polynomial `p` with
`t` nonzero coefficients, `n ≥ 2t`, `p(y) ≠ 0`, where the powers of `y` up to the degree of `p` are
different from 1 and the degree is within the bound. Then the end of the stage finds all exponents of
`p` and, with each, its coefficient. -/
theorem C35_recover (thr : ℕ) (p : F[X]) (y : F) (bound n : ℕ) (hy : y ≠ 0)
    (hord : ∀ j, 0 < j → j ≤ p.natDegree → y ^ j ≠ 1) (hb : p.natDegree ≤ bound)
    (h0 : p.eval y ≠ 0) (hn : 2 * (expList p).length ≤ n) :
    ∃ st, (BMState.init : BMState F).feed thr ((List.range n).map fun k => p.eval (y ^ (k + 1))) = some st ∧
      btFinish st y bound = some ((expList p).map fun e => (e, p.coeff e)) := by
  obtain ⟨t, ht⟩ : ∃ t, (expList p).length = t + 1 := by
    rcases Nat.eq_zero_or_pos (expList p).length with h | h
    · exfalso
      apply h0
      have h2 := List.length_eq_zero_iff.mp h
      have : p = 0 := by
        ext e
        by_contra hne
        have := mem_expList.mpr (by simpa using hne)
        rw [h2] at this
        simp at this
      rw [this, eval_zero]
    · exact ⟨_, (Nat.succ_pred_eq_of_pos h).symm⟩
  -- the geometric sequences
  set E : Fin (t + 1) → ℕ := fun i => (expList p)[i.1]'(by omega) with hE
  set c : Fin (t + 1) → F := fun i => p.coeff (E i) with hc
  set v : Fin (t + 1) → F := fun i => y ^ E i with hv
  have hEmem : ∀ i, p.coeff (E i) ≠ 0 := fun i => mem_expList.mp (List.getElem_mem _)
  have hEle : ∀ i, E i ≤ p.natDegree := fun i => le_natDegree_of_ne_zero (hEmem i)
  have hpow : ∀ a b, a ≤ p.natDegree → b ≤ p.natDegree → y ^ a = y ^ b → a = b := by
    have : ∀ a b, a ≤ b → b ≤ p.natDegree → y ^ a = y ^ b → a = b := by
      intro a b hab hbd h
      by_contra hne
      apply hord (b - a) (by omega) (by omega)
      have h2 : y ^ b = y ^ (b - a) * y ^ a := by rw [← pow_add]; congr 1; omega
      rw [h2] at h
      have h3 : y ^ a ≠ 0 := pow_ne_zero _ hy
      exact mul_right_cancel₀ h3 (by rw [one_mul]; exact h.symm)
    intro a b ha hb' h
    rcases le_total a b with hab | hab
    · exact this a b hab hb' h
    · exact (this b a hab ha h.symm).symm
  have hvinj : Function.Injective v := by
    intro i j h
    have := hpow _ _ (hEle i) (hEle j) h
    have := (expList_nodup p).getElem_inj_iff.mp this
    exact Fin.ext this
  have hv0 : ∀ i, v i ≠ 0 := fun i => pow_ne_zero _ hy
  have hseq : ∀ k, p.eval (y ^ (k + 1)) = geoSeq c v k := by
    intro k
    rw [eval_expList]
    unfold geoSeq
    rw [← Equiv.sum_comp (finCongr ht.symm)]
    apply Finset.sum_congr rfl
    intro i _
    simp only [hc, hv, hE, finCongr_apply, Fin.val_cast, Fin.getElem_fin]
    rw [← pow_mul, ← pow_mul, mul_comm (k + 1)]
  obtain ⟨m, rfl⟩ : ∃ m, n = m + 1 := ⟨n - 1, by omega⟩
  obtain ⟨st, h1, h2⟩ := feed_inv (s := geoSeq c v) (by rw [← hseq]; simpa using h0) thr m
  obtain ⟨h3, h4, h5⟩ := geo_state c v hEmem hv0 hvinj (by omega) h2
  refine ⟨st, by simp only [hseq]; exact h1, ?_⟩
  -- the roots
  have hroots : rootsExponents st.lambda y bound = (expList p).map fun e => (y ^ e, e) := by
    have key := rootsLoop_spec st.lambda y bound (fun e => p.coeff e ≠ 0) p.natDegree ?_ hord hb ?_ (p.natDegree + 1) 0 rfl
      (Nat.zero_le _)
    · rw [pow_zero] at key
      exact key
    · intro k hk
      rw [revEval_toP st.lambda (t + 1) (by omega) _ (pow_ne_zero _ hy), h3]
      unfold geoLam
      rw [eval_prod]
      simp only [eval_sub, eval_one, eval_mul, eval_C, eval_X, decide_eq_true_eq]
      rw [mul_eq_zero, or_iff_right (pow_ne_zero _ (pow_ne_zero _ hy)), Finset.prod_eq_zero_iff]
      constructor
      · rintro ⟨i, -, h⟩
        have : v i = y ^ k := by
          have h' : v i * (y ^ k)⁻¹ = 1 := (sub_eq_zero.mp h).symm
          have := congrArg (· * y ^ k) h'
          simp only [mul_assoc, inv_mul_cancel₀ (pow_ne_zero k hy), mul_one, one_mul] at this
          exact this
        have := hpow _ _ (hEle i) hk this
        rw [← this]
        exact hEmem i
      · intro h
        obtain ⟨i, hi, he⟩ := List.getElem_of_mem (mem_expList.mpr h)
        refine ⟨⟨i, by omega⟩, Finset.mem_univ _, ?_⟩
        have : v ⟨i, by omega⟩ = y ^ k := by simp only [hv, hE, he]
        rw [this, mul_inv_cancel₀ (pow_ne_zero k hy), sub_self]
    · unfold rootList
      rw [List.length_map, h5]
      have : ((List.range (p.natDegree + 1)).filter fun e => decide (p.coeff e ≠ 0)).length = t + 1 := ht
      rw [this]
      rfl
  unfold btFinish
  simp only [hroots]
  rw [List.length_map, ht, h5, if_pos (by omega), List.map_map, List.map_map]
  have hfst : (Prod.fst ∘ fun e => (y ^ e, e)) = fun e => y ^ e := rfl
  have hsnd : (Prod.snd ∘ fun e => (y ^ e, e)) = fun e => e := rfl
  rw [hfst, hsnd, List.map_id']
  have hsolve : solveTransposedVandermonde ((expList p).map fun e => y ^ e) st.nums =
      some ((expList p).map fun e => p.coeff e) := by
    rw [C20_transposed]
    · refine ⟨by simp, ?_⟩
      intro k hk
      rw [List.length_map] at hk
      rw [h2.nums, nums_getD _ _ _ (by omega), ← hseq, eval_expList]
      rw [← Equiv.sum_comp (finCongr (by simp : (expList p).length = ((expList p).map fun e => y ^ e).length))]
      apply Finset.sum_congr rfl
      intro i _
      simp only [finCongr_apply, Fin.val_cast, Fin.getElem_fin, List.getElem_map]
      rw [List.getD_eq_getElem _ _ (by rw [List.length_map]; exact i.2), List.getElem_map, ← pow_mul, ← pow_mul,
        mul_comm (k + 1)]
    · intro h
      have := congrArg List.length h
      simp [ht] at this
    · rw [List.length_map, h2.nums, List.length_map, List.length_range]
      omega
    · refine List.Nodup.map_on ?_ (expList_nodup p)
      intro a ha b hb' h
      exact hpow a b (le_natDegree_of_ne_zero (mem_expList.mp ha)) (le_natDegree_of_ne_zero (mem_expList.mp hb')) h
    · intro h
      rw [List.mem_map] at h
      obtain ⟨e, -, h⟩ := h
      exact pow_ne_zero e hy h
  rw [hsolve, Option.map_some, List.zip_map_right]
  congr 1
  clear_value E
  generalize expList p = L
  induction L with
  | nil => rfl
  | cons a L ih => rw [List.zip_cons_cons, List.map_cons, List.map_cons, ih]; rfl

/-- **C35 (termination).** With the same data the step reports the end at every value number
`2t + k`, `k ≥ 1`, `k ≥ threshold`. -/
theorem C35_terminates (thr : ℕ) {t : ℕ} (c v : Fin (t + 1) → F) (hc : ∀ i, c i ≠ 0) (hv : ∀ i, v i ≠ 0)
    (hinj : Function.Injective v) (h0 : ∑ i, c i * v i ≠ 0) {k : ℕ} (hk : thr ≤ k + 1) :
    ∃ st r, (BMState.init : BMState F).feed thr
        ((List.range (2 * (t + 1) + k)).map fun k => ∑ i, c i * v i ^ (k + 1)) = some st ∧
      st.step thr (∑ i, c i * v i ^ (2 * (t + 1) + k + 1)) = some r ∧ r.2 = true := by
  have hs0 : geoSeq c v 0 ≠ 0 := by simpa [geoSeq] using h0
  have hterm : ∀ k, ∃ st, (BMState.init : BMState F).feed thr ((List.range (2 * (t + 1) + k)).map (geoSeq c v)) = some st ∧
      BMInv (geoSeq c v) (2 * (t + 1) + k) st ∧ k + 1 ≤ st.terminator := by
    intro k
    induction k with
    | zero =>
      -- the terminator is always positive
      have hpos : ∀ n, ∀ st, (BMState.init : BMState F).feed thr ((List.range (n + 1)).map (geoSeq c v)) = some st →
          1 ≤ st.terminator := by
        intro n
        cases n with
        | zero =>
          intro st h
          obtain ⟨r, h1, -, -, h3⟩ := BMInv.first hs0 thr
          have h : (BMState.init : BMState F).feed thr ([] ++ [geoSeq c v 0]) = some st := h
          rw [feed_snoc] at h
          have h : ((BMState.init : BMState F).step thr (geoSeq c v 0)).map Prod.fst = some st := h
          rw [h1] at h
          rw [← Option.some.inj h, h3]
        | succ n =>
          intro st h
          obtain ⟨st', h1, h2⟩ := feed_inv hs0 thr n
          obtain ⟨r, h3, -, h4, h5⟩ := h2.step thr
          rw [List.range_succ, List.map_append, show [n + 1].map (geoSeq c v) = [geoSeq c v (n + 1)] by rfl, feed_snoc, h1,
            Option.bind_some, h3] at h
          rw [← Option.some.inj h]
          by_cases hz : cv (geoSeq c v) (toP st'.lambda) (n + 1) = 0
          · rw [(h4 hz).1]; omega
          · rw [(h5 hz).1]
      obtain ⟨st, h1, h2⟩ := feed_inv hs0 thr (2 * t + 1)
      exact ⟨st, h1, h2, hpos _ st h1⟩
    | succ k ih =>
      obtain ⟨st, h1, h2, h3⟩ := ih
      obtain ⟨r, h4, h5, h6, -⟩ := h2.step thr
      obtain ⟨hl, -, -⟩ := geo_state c v hc hv hinj (by omega) h2
      have hz : cv (geoSeq c v) (toP st.lambda) (2 * (t + 1) + k) = 0 := by
        rw [hl]; exact geo_cv c v _ (by omega)
      refine ⟨r.1, ?_, h5, by rw [(h6 hz).1]; omega⟩
      rw [show 2 * (t + 1) + (k + 1) = (2 * (t + 1) + k) + 1 by omega, List.range_succ, List.map_append,
        show [2 * (t + 1) + k].map (geoSeq c v) = [geoSeq c v (2 * (t + 1) + k)] by rfl, feed_snoc, h1, Option.bind_some, h4]
      rfl
  obtain ⟨st, h1, h2, h3⟩ := hterm k
  obtain ⟨r, h4, -, h6, -⟩ := h2.step thr
  obtain ⟨hl, hl2, -⟩ := geo_state c v hc hv hinj (by omega) h2
  have hz : cv (geoSeq c v) (toP st.lambda) (2 * (t + 1) + k) = 0 := by
    rw [hl]; exact geo_cv c v _ (by omega)
  refine ⟨st, r, h1, h4, ?_⟩
  rw [(h6 hz).2.2, hl2]
  apply decide_eq_true
  constructor <;> omega

/-- Non-vacuity: `p = 3 X + 5 X^4`, base 2, four values (the hypotheses hold: two exponents, degree 4). -/
example : ((((BMState.init : BMState ℚ).feed 1 [3*2+5*16, 3*4+5*256, 3*8+5*4096, 3*16+5*65536]).bind
    fun st => btFinish st 2 4)) = some [(1, 3), (4, 5)] := by
  decide +kernel

end FireFly
