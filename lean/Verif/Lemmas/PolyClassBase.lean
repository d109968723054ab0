import Verif.Model.PolyClass
import Verif.Spec.PolyClass
import Mathlib.Algebra.Polynomial.Basic
import Mathlib.Algebra.Polynomial.Coeff
import Mathlib.Algebra.Polynomial.Degree.Lemmas
import Mathlib.Algebra.Polynomial.Reverse
set_option linter.all false

open Polynomial

namespace FireFly

namespace PolyC

variable {F : Type*} [Field F] [DecidableEq F]

theorem polyOf_coeff (c : List F) (n : ℕ) : (polyOf c).coeff n = c.getD n 0 := by
  unfold polyOf
  rw [finset_sum_coeff]
  simp only [coeff_C_mul, coeff_X_pow, mul_ite, mul_one, mul_zero]
  rw [Finset.sum_ite_eq]
  split_ifs with h
  · rfl
  · have : c.length ≤ n := by simpa using h
    simp [List.getD_eq_getElem?_getD, List.getElem?_eq_none this]

theorem polyOf_eq_iff (c : List F) (P : F[X]) : polyOf c = P ↔ ∀ n, c.getD n 0 = P.coeff n := by
  constructor
  · rintro rfl n; exact (polyOf_coeff c n).symm
  · intro h; ext n; rw [polyOf_coeff, h]

theorem degFrom_spec (c : List F) (i : ℕ) :
    degFrom c i ≤ i ∧ (∀ j, degFrom c i < j → j ≤ i → c.getD j 0 = 0) ∧
    (degFrom c i ≠ 0 → c.getD (degFrom c i) 0 ≠ 0) := by
  induction i with
  | zero => exact ⟨le_rfl, fun j h1 h2 => by simp [degFrom] at h1; omega, fun h => absurd rfl h⟩
  | succ i ih =>
    rw [degFrom]
    split_ifs with h
    · exact ⟨le_rfl, fun j h1 h2 => by omega, fun _ => h⟩
    · push Not at h
      refine ⟨by omega, fun j h1 h2 => ?_, ih.2.2⟩
      rcases Nat.lt_or_ge i j with h3 | h3
      · have : j = i + 1 := by omega
        rw [this]; exact h
      · exact ih.2.1 j h1 h3

theorem getD_beyond (c : List F) {n : ℕ} (h : c.length ≤ n) : c.getD n 0 = 0 := by
  simp [List.getD_eq_getElem?_getD, List.getElem?_eq_none h]

theorem degC_lt (c : List F) (h : c ≠ []) : degC c < c.length := by
  have := (degFrom_spec c (c.length - 1)).1
  have h2 := List.length_pos_iff.2 h
  unfold degC; omega

theorem degC_above (c : List F) {j : ℕ} (h : degC c < j) : c.getD j 0 = 0 := by
  rcases Nat.lt_or_ge j c.length with h1 | h1
  · exact (degFrom_spec c (c.length - 1)).2.1 j h (by omega)
  · exact getD_beyond c h1

theorem degC_ne (c : List F) (h : degC c ≠ 0) : c.getD (degC c) 0 ≠ 0 :=
  (degFrom_spec c (c.length - 1)).2.2 h

theorem degC_eq (c : List F) : degC c = (polyOf c).natDegree := by
  rcases Nat.eq_zero_or_pos (degC c) with h | h
  · rw [h]; symm
    apply Nat.le_zero.1
    rw [natDegree_le_iff_coeff_eq_zero]
    intro n hn; rw [polyOf_coeff]; exact degC_above c (by omega)
  · symm
    apply natDegree_eq_of_le_of_coeff_ne_zero
    · rw [natDegree_le_iff_coeff_eq_zero]
      intro n hn; rw [polyOf_coeff]; exact degC_above c hn
    · rw [polyOf_coeff]; exact degC_ne c (by omega)

theorem lead_getD (c : List F) : c.getD (degC c) 0 = (polyOf c).leadingCoeff := by
  rw [degC_eq, ← polyOf_coeff]; rfl

/-! ### shrink -/

theorem shrinkRev_spec (l : List F) :
    (∃ r k, shrinkRev l = .ok r ∧ l = List.replicate k 0 ++ r ∧ r.head? ≠ none ∧ r.head? ≠ some 0) ∨
    (shrinkRev l = .error .undefined ∧ l = List.replicate l.length 0) := by
  induction l with
  | nil => right; exact ⟨rfl, rfl⟩
  | cons x l ih =>
    rw [shrinkRev]
    split_ifs with h
    · subst h
      rcases ih with ⟨r, k, h1, h2, h3, h4⟩ | ⟨h1, h2⟩
      · left; exact ⟨r, k + 1, h1, by rw [List.replicate_succ, List.cons_append, ← h2], h3, h4⟩
      · right; exact ⟨h1, by rw [List.length_cons, List.replicate_succ, ← h2]⟩
    · left; exact ⟨x :: l, 0, rfl, by simp, by simp, by simpa using h⟩

theorem shrink_spec (c : List F) :
    (∃ r k, shrink c = .ok r ∧ c = r ++ List.replicate k 0 ∧ r ≠ [] ∧ r.getLastD 0 ≠ 0) ∨
    (shrink c = .error .undefined ∧ c = List.replicate c.length 0) := by
  rcases shrinkRev_spec c.reverse with ⟨r, k, h1, h2, h3, h4⟩ | ⟨h1, h2⟩
  · left
    refine ⟨r.reverse, k, by rw [shrink, h1]; rfl, ?_, ?_, ?_⟩
    · rw [← List.reverse_reverse c, h2]; simp
    · rintro h; rw [List.reverse_eq_nil_iff] at h; subst h; simp at h3
    · cases r with
      | nil => simp at h3
      | cons x l => simp [List.getLastD_eq_getLast?] at h4 ⊢; exact h4
  · right
    refine ⟨by rw [shrink, h1]; rfl, ?_⟩
    rw [← List.reverse_reverse c, h2]; simp

theorem polyOf_append_zeros (r : List F) (k : ℕ) : polyOf (r ++ List.replicate k 0) = polyOf r := by
  rw [polyOf_eq_iff]; intro n; rw [polyOf_coeff]
  rcases Nat.lt_or_ge n r.length with h | h
  · simp [List.getD_eq_getElem?_getD, List.getElem?_append_left h]
  · rw [getD_beyond r h]
    simp only [List.getD_eq_getElem?_getD, List.getElem?_append_right h, List.getElem?_replicate]
    split_ifs <;> simp

theorem polyOf_replicate (k : ℕ) : polyOf (List.replicate k (0 : F)) = 0 := by
  have := polyOf_append_zeros ([] : List F) k
  simpa [polyOf] using this

theorem degC_of_last (r : List F) (h0 : r ≠ []) (h : r.getLastD 0 ≠ 0) : degC r = r.length - 1 := by
  have h1 := degC_lt r h0
  by_contra h2
  have h3 := degC_above r (j := r.length - 1) (by omega)
  apply h
  rw [List.getLastD_eq_getLast?, List.getLast?_eq_getElem?]
  rwa [List.getD_eq_getElem?_getD] at h3

/-- What `shrink` does, in terms of the polynomial. -/
theorem shrink_ok {c : List F} (h : polyOf c ≠ 0) :
    ∃ r, shrink c = .ok r ∧ polyOf r = polyOf c ∧ r ≠ [] ∧ r.getLastD 0 = (polyOf c).leadingCoeff ∧
      r.length = (polyOf c).natDegree + 1 := by
  rcases shrink_spec c with ⟨r, k, h1, h2, h3, h4⟩ | ⟨h1, h2⟩
  · have h5 : polyOf r = polyOf c := by rw [h2, polyOf_append_zeros]
    have h6 := degC_of_last r h3 h4
    have h7 := List.length_pos_iff.2 h3
    refine ⟨r, h1, h5, h3, ?_, ?_⟩
    · rw [← h5, ← lead_getD, h6, List.getLastD_eq_getLast?, List.getLast?_eq_getElem?,
        List.getD_eq_getElem?_getD]
    · rw [← h5, ← degC_eq, h6]; omega
  · rw [h2, polyOf_replicate] at h; exact absurd rfl h

theorem shrink_zero {c : List F} (h : polyOf c = 0) : shrink c = .error .undefined := by
  rcases shrink_spec c with ⟨r, k, h1, h2, h3, h4⟩ | ⟨h1, h2⟩
  · exfalso
    have h5 : polyOf r = 0 := by rw [← h, h2, polyOf_append_zeros]
    apply h4
    have := degC_of_last r h3 h4
    rw [List.getLastD_eq_getLast?, List.getLast?_eq_getElem?, ← List.getD_eq_getElem?_getD,
      ← polyOf_coeff, h5, coeff_zero]
  · exact h1

theorem polyOf_reverse (r : List F) :
    polyOf r.reverse = reflect (r.length - 1) (polyOf r) := by
  rw [polyOf_eq_iff]; intro n
  rw [coeff_reflect, polyOf_coeff]
  rcases Nat.lt_or_ge n r.length with h | h
  · rw [revAt_le (by omega), List.getD_eq_getElem?_getD, List.getD_eq_getElem?_getD,
      List.getElem?_reverse h]
  · rw [getD_beyond r.reverse (by simpa using h)]
    rcases Nat.eq_zero_or_pos r.length with h0 | h0
    · have : r = [] := List.length_eq_zero_iff.1 h0
      subst this; simp
    · rw [revAt_eq_self_of_lt (by omega), getD_beyond r h]

theorem rev_ok {c : List F} (h : polyOf c ≠ 0) :
    ∃ r, rev c = .ok r ∧ polyOf r = reflect (polyOf c).natDegree (polyOf c) ∧ r ≠ [] := by
  obtain ⟨r, h1, h2, h3, h4, h5⟩ := shrink_ok h
  refine ⟨r.reverse, by rw [rev, h1]; rfl, ?_, by simpa using h3⟩
  rw [polyOf_reverse, h2, h5]; simp

theorem rev_zero {c : List F} (h : polyOf c = 0) : rev c = .error .undefined := by
  rw [rev, shrink_zero h]; rfl

/-! ### the arithmetic -/

theorem polyOf_resize (c : List F) {n : ℕ} (h : degC c < n) : polyOf (resize c n) = polyOf c := by
  unfold resize
  rw [polyOf_append_zeros, polyOf_eq_iff]; intro j
  rw [polyOf_coeff, List.getD_eq_getElem?_getD, List.getD_eq_getElem?_getD, List.getElem?_take]
  split_ifs with h1
  · rfl
  · have := degC_above c (j := j) (by omega)
    rw [List.getD_eq_getElem?_getD] at this; rw [this]; rfl

theorem resize_length (c : List F) (n : ℕ) : (resize c n).length = n := by
  simp [resize]; omega

theorem polyOf_set (c : List F) {i : ℕ} (h : i < c.length) (x : F) :
    polyOf (c.set i (c.getD i 0 + x)) = polyOf c + monomial i x := by
  rw [polyOf_eq_iff]; intro n
  rw [coeff_add, polyOf_coeff, coeff_monomial, List.getD_eq_getElem?_getD, List.getElem?_set]
  by_cases h1 : i = n
  · subst h1; simp [h]
  · simp [h1, List.getD_eq_getElem?_getD]

theorem polyOf_insertIdx (c : List F) {i : ℕ} (h : i ≤ c.length) (hz : ∀ j, i ≤ j → c.getD j 0 = 0)
    (x : F) : polyOf (c.insertIdx i x) = polyOf c + monomial i x := by
  rw [polyOf_eq_iff]; intro n
  rw [coeff_add, polyOf_coeff, coeff_monomial, List.getD_eq_getElem?_getD, List.getElem?_insertIdx]
  rcases Nat.lt_trichotomy n i with h1 | h1 | h1
  · rw [if_pos h1, if_neg (by omega : ¬ i = n), List.getD_eq_getElem?_getD, add_zero]
  · subst h1
    rw [if_neg (Nat.lt_irrefl _), if_pos rfl, if_pos h, if_pos rfl, hz n le_rfl]; simp
  · rw [if_neg (by omega), if_neg (by omega), if_neg (by omega), hz n (by omega)]
    have := hz (n - 1) (by omega)
    rw [List.getD_eq_getElem?_getD] at this
    simpa using this

theorem addLoop_spec (op : F → F → F) (a : List F) (step : List F → ℕ → List F) (w : ℕ → F)
    (hstep : ∀ c i, step c i = if i ≤ degC c then c.set i (c.getD i 0 + w i) else c.insertIdx i (w i))
    (n : ℕ) (c : List F) (hc : c ≠ []) (hn : n ≤ c.length) :
    polyOf ((List.range n).foldl step c) = polyOf c + ∑ i ∈ Finset.range n, monomial i (w i) ∧
    (List.range n).foldl step c ≠ [] ∧ c.length ≤ ((List.range n).foldl step c).length := by
  induction n with
  | zero => simp [hc]
  | succ n ih =>
    obtain ⟨h1, h2, h3⟩ := ih (by omega)
    rw [List.range_succ, List.foldl_append, List.foldl_cons, List.foldl_nil, Finset.sum_range_succ,
      ← add_assoc, ← h1]
    obtain ⟨d, hd⟩ : ∃ d, (List.range n).foldl step c = d := ⟨_, rfl⟩
    rw [hd] at h2 h3 ⊢
    rw [hstep]
    split_ifs with h
    · refine ⟨polyOf_set d (by omega) _, ?_, by simpa using h3⟩
      intro h4; apply h2; have := congrArg List.length h4; simp at this; exact this
    · refine ⟨polyOf_insertIdx d (by omega) (fun j hj => degC_above d (by omega)) _, ?_, ?_⟩
      · intro h4; have := congrArg List.length h4
        rw [List.length_insertIdx, if_pos (by omega)] at this; simp at this
      · rw [List.length_insertIdx, if_pos (by omega)]; omega

theorem sum_range_degC (a : List F) :
    ∑ i ∈ Finset.range (degC a + 1), monomial i (a.getD i 0) = polyOf a := by
  ext n
  rw [finset_sum_coeff, polyOf_coeff]
  simp only [coeff_monomial]
  rw [Finset.sum_ite_eq']
  split_ifs with h
  · rfl
  · rw [degC_above a (by simpa using h)]

theorem resized (c : List F) (hc : c ≠ []) (a : List F) :
    polyOf (if degC a > degC c then resize c (degC a + 1) else c) = polyOf c ∧
    degC a + 1 ≤ (if degC a > degC c then resize c (degC a + 1) else c).length ∧
    (if degC a > degC c then resize c (degC a + 1) else c) ≠ [] := by
  split_ifs with h
  · refine ⟨polyOf_resize c (by omega), by rw [resize_length], ?_⟩
    intro h1; have := congrArg List.length h1; rw [resize_length] at this; simp at this
  · have := degC_lt c hc
    exact ⟨rfl, by omega, hc⟩

theorem addC_spec (c a : List F) (hc : c ≠ []) :
    polyOf (addC c a) = polyOf c + polyOf a ∧ addC c a ≠ [] := by
  obtain ⟨h1, h2, h3⟩ := resized c hc a
  have := addLoop_spec (· + ·) a (addStep a) (fun i => a.getD i 0) (fun c i => rfl) (degC a + 1) _ h3 h2
  rw [sum_range_degC, h1] at this
  exact ⟨this.1, this.2.1⟩

theorem subC_spec (c a : List F) (hc : c ≠ []) :
    polyOf (subC c a) = polyOf c - polyOf a ∧ subC c a ≠ [] := by
  obtain ⟨h1, h2, h3⟩ := resized c hc a
  have := addLoop_spec (· + ·) a (subStep a) (fun i => -a.getD i 0)
    (fun c i => by rw [subStep, sub_eq_add_neg]) (degC a + 1) _ h3 h2
  simp only [map_neg, Finset.sum_neg_distrib] at this
  rw [sum_range_degC, h1] at this
  exact ⟨by rw [sub_eq_add_neg]; exact this.1, this.2.1⟩

theorem scaleLoop_spec (x : F) (n i : ℕ) (c : List F) (hi : i ≤ c.length)
    (hn : c.length ≤ i + n) (hc : c ≠ []) :
    (∀ j, (scaleLoop (· * x) n i c).getD j 0 = if i ≤ j then c.getD j 0 * x else c.getD j 0) ∧
    (scaleLoop (· * x) n i c).length = c.length := by
  induction n generalizing i c with
  | zero =>
    refine ⟨fun j => ?_, rfl⟩
    rw [scaleLoop]; split_ifs with h
    · rw [getD_beyond c (by omega), zero_mul]
    · rfl
  | succ n ih =>
    rw [scaleLoop]
    split_ifs with h
    · have hlt := degC_lt c hc
      obtain ⟨h1, h2⟩ := ih (i + 1) (c.set i (c.getD i 0 * x)) (by simp; omega) (by simp; omega)
        (by intro h4; apply hc; have := congrArg List.length h4; simpa using this)
      refine ⟨fun j => ?_, by rw [h2]; simp⟩
      rw [h1, List.getD_eq_getElem?_getD, List.getElem?_set]
      rcases Nat.lt_trichotomy i j with h5 | h5 | h5
      · simp only [List.getD_eq_getElem?_getD, if_neg (show ¬ i = j by omega),
          if_pos (show i + 1 ≤ j by omega), if_pos (show i ≤ j by omega)]
      · subst h5; simp [(by omega : i < c.length)]
      · simp only [List.getD_eq_getElem?_getD, if_neg (show ¬ i = j by omega),
          if_neg (show ¬ i + 1 ≤ j by omega), if_neg (show ¬ i ≤ j by omega)]
    · refine ⟨fun j => ?_, rfl⟩
      split_ifs with h5
      · rw [degC_above c (by omega), zero_mul]
      · rfl

theorem smulC_spec (c : List F) (x : F) (hc : c ≠ []) :
    polyOf (smulC c x) = C x * polyOf c ∧ smulC c x ≠ [] ∧ (smulC c x).length = c.length := by
  obtain ⟨h1, h2⟩ := scaleLoop_spec x c.length 0 c (by omega) (by omega) hc
  refine ⟨?_, ?_, h2⟩
  · rw [polyOf_eq_iff]; intro n
    rw [smulC, h1, coeff_C_mul, polyOf_coeff, mul_comm]; simp
  · intro h; apply hc; rw [smulC] at h; rw [h] at h2; exact List.length_eq_zero_iff.1 h2.symm

theorem sdivC_eq (c : List F) (x : F) : sdivC c x = smulC c x⁻¹ := by
  unfold sdivC smulC
  congr 1
  funext y; exact div_eq_mul_inv y x

theorem convC_spec (c a : List F) (i : ℕ) : convC c a i = (polyOf c * polyOf a).coeff i := by
  rw [coeff_mul, Finset.Nat.sum_antidiagonal_eq_sum_range_succ_mk]
  unfold convC
  have key : ∀ n, (List.range n).foldl
      (fun s j => if c.length > j ∧ a.length > i - j then s + c.getD j 0 * a.getD (i - j) 0 else s) 0 =
      ∑ j ∈ Finset.range n, (polyOf c).coeff j * (polyOf a).coeff (i - j) := by
    intro n
    induction n with
    | zero => rfl
    | succ n ih =>
      rw [List.range_succ, List.foldl_append, ih, Finset.sum_range_succ]
      simp only [List.foldl_cons, List.foldl_nil, polyOf_coeff]
      split_ifs with h
      · rfl
      · rw [not_and_or] at h
        rcases h with h | h
        · rw [getD_beyond c (by omega)]; simp
        · rw [getD_beyond a (by omega)]; simp
  exact key (i + 1)

theorem mulC_spec (c a : List F) : polyOf (mulC c a) = polyOf c * polyOf a ∧ mulC c a ≠ [] := by
  constructor
  · rw [polyOf_eq_iff]; intro n
    unfold mulC
    rw [List.getD_eq_getElem?_getD, List.getElem?_map]
    rcases Nat.lt_or_ge n ((degC c + 1) * (degC a + 1)) with h | h
    · rw [List.getElem?_range h]; exact convC_spec c a n
    · rw [List.getElem?_eq_none (by simpa using h)]
      symm
      apply coeff_eq_zero_of_natDegree_lt
      have h1 : (polyOf c * polyOf a).natDegree ≤ _ := natDegree_mul_le
      rw [degC_eq, degC_eq] at h
      nlinarith
  · intro h; have := congrArg List.length h
    simp [mulC] at this

end PolyC

end FireFly
