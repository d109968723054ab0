import Verif.Model.BenOrTiwari
import Mathlib.RingTheory.PowerSeries.Basic
import Mathlib.Algebra.Polynomial.Roots
import Mathlib.Data.List.GetD
import Mathlib.RingTheory.PowerSeries.Trunc
import Mathlib.Data.List.TakeWhile
/-! # C21: the Berlekamp/Massey step -/
set_option linter.all false
namespace FireFly
open Polynomial
variable {F : Type} [Field F] [DecidableEq F]

/-- the polynomial with the given coefficients -/
noncomputable def toP : List F → F[X]
  | [] => 0
  | a :: l => C a + X * toP l

omit [DecidableEq F] in
lemma toP_coeff : ∀ (c : List F) (i : ℕ), (toP c).coeff i = c.getD i 0
  | [], i => by simp [toP]
  | a :: c, 0 => by simp [toP]
  | a :: c, i + 1 => by
    unfold toP
    rw [coeff_add, coeff_X_mul, toP_coeff c i, coeff_C_ne_zero (Nat.succ_ne_zero i), zero_add,
      List.getD_cons_succ]

omit [DecidableEq F] in
lemma toP_ext {c : List F} {P : F[X]} (h : ∀ i, c.getD i 0 = P.coeff i) : toP c = P := by
  ext i; rw [toP_coeff, h]

omit [DecidableEq F] in
lemma toP_natDegree {c : List F} {t : ℕ} (h : c.length ≤ t + 1) : (toP c).natDegree ≤ t := by
  rw [natDegree_le_iff_coeff_eq_zero]
  intro i hi
  rw [toP_coeff, List.getD_eq_default _ _ (by omega)]

/-- entry `j` of the convolution of a polynomial with the sequence -/
noncomputable def cv (s : ℕ → F) (P : F[X]) (j : ℕ) : F :=
  PowerSeries.coeff j ((P : PowerSeries F) * PowerSeries.mk s)

omit [DecidableEq F] in
lemma cv_eq (s : ℕ → F) (P : F[X]) (j : ℕ) :
    cv s P j = ∑ i ∈ Finset.range (j + 1), P.coeff i * s (j - i) := by
  unfold cv
  rw [PowerSeries.coeff_mul, Finset.Nat.sum_antidiagonal_eq_sum_range_succ
    (fun i k => PowerSeries.coeff i (P : PowerSeries F) * PowerSeries.coeff k (PowerSeries.mk s))]
  simp

omit [DecidableEq F] in
lemma cv_toP (s : ℕ → F) (c : List F) (j : ℕ) (h : c.length ≤ j + 1) :
    cv s (toP c) j = ∑ i ∈ Finset.range c.length, c.getD i 0 * s (j - i) := by
  rw [cv_eq]
  symm
  apply Finset.sum_subset_zero_on_sdiff
  · intro i hi; rw [Finset.mem_range] at *; omega
  · intro i hi
    rw [Finset.mem_sdiff, Finset.mem_range, Finset.mem_range] at hi
    rw [toP_coeff, List.getD_eq_default _ _ (by omega), zero_mul]
  · intro i _; rw [toP_coeff]

omit [DecidableEq F] in
lemma cv_X_mul (s : ℕ → F) (P : F[X]) (j : ℕ) : cv s (X * P) (j + 1) = cv s P j := by
  unfold cv
  rw [Polynomial.coe_mul, Polynomial.coe_X, mul_assoc, PowerSeries.coeff_succ_X_mul]

omit [DecidableEq F] in
lemma cv_sub (s : ℕ → F) (P Q : F[X]) (c : F) (j : ℕ) :
    cv s (P - C c * Q) j = cv s P j - c * cv s Q j := by
  unfold cv
  rw [show ((P - C c * Q : F[X]) : PowerSeries F) = (P : PowerSeries F) - PowerSeries.C c * (Q : PowerSeries F) by
    rw [← Polynomial.coe_C, ← Polynomial.coe_mul]; exact map_sub (Polynomial.coeToPowerSeries.ringHom (R := F)) _ _]
  rw [sub_mul, map_sub, mul_assoc, PowerSeries.coeff_C_mul]

omit [DecidableEq F] in
lemma cv_mul (s : ℕ → F) (P Q : F[X]) (j : ℕ) : cv s (P * Q) j = cv (cv s Q) P j := by
  rw [cv_eq (cv s Q) P]
  unfold cv
  rw [Polynomial.coe_mul, mul_assoc, PowerSeries.coeff_mul,
    Finset.Nat.sum_antidiagonal_eq_sum_range_succ
    (fun i k => PowerSeries.coeff i (P : PowerSeries F) *
      PowerSeries.coeff k ((Q : PowerSeries F) * PowerSeries.mk s))]
  simp

/-! ### the pieces of the step -/

lemma popZeros_spec {v w : List F} (h : popZeros v = some w) :
    toP w = toP v ∧ w.length ≤ v.length ∧ w ≠ [] := by
  unfold popZeros at h
  split at h
  · exact absurd h (by simp)
  · rename_i hz
    have h := Option.some.inj h
    subst h
    have hsplit : v = (v.reverse.dropWhile (· = 0)).reverse ++ (v.reverse.takeWhile (· = 0)).reverse := by
      rw [← List.reverse_append, List.takeWhile_append_dropWhile, List.reverse_reverse]
    refine ⟨?_, ?_, ?_⟩
    · apply toP_ext
      intro i
      rw [toP_coeff]
      conv_rhs => rw [hsplit]
      rcases lt_or_ge i (v.reverse.dropWhile (· = 0)).reverse.length with hi | hi
      · rw [List.getD_append _ _ _ _ hi]
      · rw [List.getD_eq_default _ _ hi, List.getD_append_right _ _ _ _ hi]
        symm
        rw [List.getD_eq_getElem?_getD]
        cases hq : (v.reverse.takeWhile (· = 0)).reverse[i - (v.reverse.dropWhile (· = 0)).reverse.length]? with
        | none => rfl
        | some x =>
          have := List.mem_of_getElem? hq
          rw [List.mem_reverse] at this
          have := List.mem_takeWhile_imp this
          simpa using this
    · conv_rhs => rw [hsplit]
      rw [List.length_append]; omega
    · intro h0
      apply hz
      rw [h0, List.nil_append] at hsplit
      rw [List.all_eq_true]
      intro x hx
      rw [hsplit, List.mem_reverse] at hx
      have := List.mem_takeWhile_imp hx
      exact this

lemma popZeros_isSome {v : List F} (h : toP v ≠ 0) : ∃ w, popZeros v = some w := by
  unfold popZeros
  split
  · rename_i hz
    exfalso
    apply h
    apply toP_ext
    intro i
    rw [coeff_zero, List.getD_eq_getElem?_getD]
    cases hq : v[i]? with
    | none => rfl
    | some x =>
      have := List.all_eq_true.mp hz x (List.mem_of_getElem? hq)
      simpa using this
  · exact ⟨_, rfl⟩

lemma lambdaUpdate_toP (lambda b : List F) (c : F) :
    toP (lambdaUpdate lambda b c) = toP lambda - C c * toP b := by
  apply toP_ext
  intro i
  rw [coeff_sub, coeff_C_mul, toP_coeff, toP_coeff]
  unfold lambdaUpdate
  rcases lt_or_ge i (max lambda.length b.length) with hi | hi
  · rw [List.getD_eq_getElem?_getD, List.getElem?_map, List.getElem?_range hi, Option.map_some, Option.getD_some]
    split
    · rfl
    · split
      · rename_i h1 h2
        rw [List.getD_eq_default b _ (by omega), mul_zero, sub_zero]
      · rename_i h1 h2
        rw [List.getD_eq_default lambda _ (by omega)]; ring
  · rw [List.getD_eq_default _ _ (by rw [List.length_map, List.length_range]; exact hi),
      List.getD_eq_default _ _ (by omega), List.getD_eq_default _ _ (by omega)]
    ring

lemma lambdaUpdate_length (lambda b : List F) (c : F) :
    (lambdaUpdate lambda b c).length = max lambda.length b.length := by
  unfold lambdaUpdate; rw [List.length_map, List.length_range]

lemma discrepancy_eq (lambda nums : List F) (iter : ℕ) (h1 : lambda.length ≤ iter) (h2 : iter ≤ nums.length) :
    discrepancy lambda nums iter =
      some (∑ i ∈ Finset.range lambda.length, lambda.getD i 0 * nums.getD (iter - i - 1) 0) := by
  unfold discrepancy
  have : ∀ k, k ≤ lambda.length → (List.range k).foldlM (fun (d : F) (i : ℕ) =>
      if i + 1 ≤ iter ∧ iter - i - 1 < nums.length then
        some (d + lambda.getD i 0 * nums.getD (iter - i - 1) 0)
      else none) 0 = some (∑ i ∈ Finset.range k, lambda.getD i 0 * nums.getD (iter - i - 1) 0) := by
    intro k
    induction k with
    | zero => intro _; rfl
    | succ k ih =>
      intro hk
      rw [List.range_succ, List.foldlM_append, ih (by omega), Finset.sum_range_succ]
      show Option.bind (if _ then _ else _) _ = _
      rw [if_pos ⟨by omega, by omega⟩]
      rfl
  exact this _ le_rfl

/-! ### the invariant -/

/-- invariant after `n` values of the sequence `s` with `s 0 ≠ 0`, `n ≥ 1` -/
structure BMInv (s : ℕ → F) (n : ℕ) (st : BMState F) : Prop where
  nums : st.nums = (List.range n).map s
  iter : st.iter = n + 1
  l_le : st.l ≤ n
  lam_len : st.lambda.length ≤ st.l + 1
  lam_one : (toP st.lambda).coeff 0 = 1
  lam_gen : ∀ j, st.l ≤ j → j < n → cv s (toP st.lambda) j = 0
  delta : st.delta ≠ 0
  b_len : st.b.length + st.l ≤ n + 1
  b_gen : ∀ j, n + 1 ≤ j + st.l → j < n → cv s (X * toP st.b) j = 0
  b_disc : cv s (X * toP st.b) n = st.delta
  minimal : ∀ (L : F[X]) (t : ℕ), L.coeff 0 = 1 → L.natDegree ≤ t →
    (∀ j, t ≤ j → j < n → cv s L j = 0) → st.l ≤ t

lemma toP_ne_zero_of_coeff {v : List F} {i : ℕ} (h : (toP v).coeff i ≠ 0) : toP v ≠ 0 := by
  intro h0; rw [h0, coeff_zero] at h; exact h rfl

lemma nums_getD (s : ℕ → F) (n j : ℕ) (h : j < n) : ((List.range n).map s).getD j 0 = s j := by
  rw [List.getD_eq_getElem?_getD, List.getElem?_map, List.getElem?_range h]; rfl

lemma step_discrepancy {s : ℕ → F} {n : ℕ} {st : BMState F} (hn : st.nums = (List.range n).map s)
    (hi : st.iter = n + 1) (hl : st.l ≤ n) (hlen : st.lambda.length ≤ st.l + 1) :
    discrepancy st.lambda (st.nums ++ [s n]) st.iter = some (cv s (toP st.lambda) n) := by
  rw [hn, hi, show [s n] = [n].map s by rfl, ← List.map_append, ← List.range_succ]
  rw [discrepancy_eq _ _ _ (by omega) (by simp)]
  rw [cv_toP s st.lambda n (by omega)]
  congr 1
  apply Finset.sum_congr rfl
  intro i hi
  rw [Finset.mem_range] at hi
  rw [nums_getD _ _ _ (by omega), show n + 1 - i - 1 = n - i by omega]

/-- Massey's lemma: a generator of `n + 1` values has at least order `n + 1 - l` if a generator of order
`l` of the first `n` values fails at the last one. -/
lemma massey {s : ℕ → F} {n l t : ℕ} {P L : F[X]} (hP : P.natDegree ≤ l) (hP1 : ∀ j, l ≤ j → j < n → cv s P j = 0)
    (hPn : cv s P n ≠ 0) (hL0 : L.coeff 0 = 1) (hL : L.natDegree ≤ t)
    (hL1 : ∀ j, t ≤ j → j < n + 1 → cv s L j = 0) : n + 1 ≤ l + t := by
  by_contra hlt
  have hlt : l + t ≤ n := by omega
  apply hPn
  have h1 : cv s (P * L) n = 0 := by
    rw [cv_mul, cv_eq]
    apply Finset.sum_eq_zero
    intro i hi
    rw [Finset.mem_range] at hi
    rcases lt_or_ge l i with h | h
    · rw [coeff_eq_zero_of_natDegree_lt (by omega), zero_mul]
    · rw [hL1 (n - i) (by omega) (by omega), mul_zero]
  have h2 : cv s (L * P) n = cv s P n := by
    rw [cv_mul, cv_eq, Finset.sum_range_succ', hL0, one_mul, Nat.sub_zero]
    have : ∑ k ∈ Finset.range n, L.coeff (k + 1) * cv s P (n - (k + 1)) = 0 := by
      apply Finset.sum_eq_zero
      intro i hi
      rw [Finset.mem_range] at hi
      rcases lt_or_ge t (i + 1) with h | h
      · rw [coeff_eq_zero_of_natDegree_lt (by omega), zero_mul]
      · rw [hP1 (n - (i + 1)) (by omega) (by omega), mul_zero]
    rw [this, zero_add]
  rw [← h2, mul_comm, h1]

lemma cv_shift_gen {s : ℕ → F} {P : F[X]} {j : ℕ} (h : cv s (X * P) j = 0) :
    cv s (X * (X * P)) (j + 1) = 0 := by rw [cv_X_mul, h]

/-- the step keeps the invariant -/
lemma BMInv.step {s : ℕ → F} {n : ℕ} {st : BMState F} (h : BMInv s n st) (thr : ℕ) :
    ∃ r, st.step thr (s n) = some r ∧ BMInv s (n + 1) r.1 ∧
      (cv s (toP st.lambda) n = 0 → r.1.terminator = st.terminator + 1 ∧ r.1.l = st.l ∧
        r.2 = decide (st.terminator + 1 ≥ thr + 1 ∧ n + 1 > 2 * st.l)) ∧
      (cv s (toP st.lambda) n ≠ 0 → r.1.terminator = 1 ∧ r.2 = false) := by
  have hd := step_discrepancy h.nums h.iter h.l_le h.lam_len
  have hnums : st.nums ++ [s n] = (List.range (n + 1)).map s := by
    rw [h.nums, List.range_succ, List.map_append]; rfl
  have hb0 : toP (0 :: st.b) = X * toP st.b := by simp [toP]
  have hbne : toP (0 :: st.b) ≠ 0 := by
    intro h0
    have := h.b_disc
    rw [← hb0, h0] at this
    apply h.delta
    rw [← this, cv_eq]
    simp
  obtain ⟨bw, hbw⟩ := popZeros_isSome hbne
  obtain ⟨hbw1, hbw2, -⟩ := popZeros_spec hbw
  rw [List.length_cons] at hbw2
  unfold BMState.step
  simp only [hd, Option.bind_eq_bind, Option.bind_some]
  by_cases hz : cv s (toP st.lambda) n = 0
  · rw [if_pos hz, hbw]
    refine ⟨_, rfl, ?_, fun _ => ⟨rfl, rfl, by simp only [h.iter]⟩, fun h1 => absurd hz h1⟩
    refine ⟨hnums, by simp only [h.iter], by simp only; have := h.l_le; omega, h.lam_len, h.lam_one, ?_, h.delta,
      ?_, ?_, ?_, ?_⟩
    · intro j h1 h2
      rcases Nat.lt_succ_iff_lt_or_eq.mp h2 with h3 | rfl
      · exact h.lam_gen j h1 h3
      · exact hz
    · simp only; have := h.b_len; omega
    · intro j h1 h2
      simp only at h1 ⊢
      rw [hbw1, hb0]
      rcases j with _ | j
      · exfalso; have := h.l_le; omega
      · exact cv_shift_gen (h.b_gen j (by omega) (by omega))
    · simp only
      rw [hbw1, hb0, cv_X_mul]
      exact h.b_disc
    · intro L t h1 h2 h3
      exact h.minimal L t h1 h2 fun j h4 h5 => h3 j h4 (by omega)
  · rw [if_neg hz]
    have hlam : toP (lambdaUpdate st.lambda (0 :: st.b) (cv s (toP st.lambda) n / st.delta)) =
        toP st.lambda - C (cv s (toP st.lambda) n / st.delta) * (X * toP st.b) := by
      rw [lambdaUpdate_toP, hb0]
    have hlam0 : (toP (lambdaUpdate st.lambda (0 :: st.b) (cv s (toP st.lambda) n / st.delta))).coeff 0 = 1 := by
      rw [hlam, coeff_sub, h.lam_one, coeff_C_mul]
      simp
    obtain ⟨lw, hlw⟩ := popZeros_isSome (toP_ne_zero_of_coeff (i := 0) (by rw [hlam0]; exact one_ne_zero))
    obtain ⟨hlw1, hlw2, -⟩ := popZeros_spec hlw
    rw [lambdaUpdate_length, List.length_cons] at hlw2
    obtain ⟨ow, how⟩ := popZeros_isSome (v := st.lambda)
      (toP_ne_zero_of_coeff (i := 0) (by rw [h.lam_one]; exact one_ne_zero))
    obtain ⟨how1, how2, -⟩ := popZeros_spec how
    have hgen : ∀ j, st.l ≤ j → n + 1 ≤ j + st.l → j < n + 1 → cv s (toP lw) j = 0 := by
      intro j h1 h2 h3
      rw [hlw1, hlam, cv_sub]
      rcases Nat.lt_succ_iff_lt_or_eq.mp h3 with h4 | rfl
      · rw [h.lam_gen j h1 h4, h.b_gen j h2 h4]; ring
      · rw [h.b_disc]
        have := h.delta
        field_simp
        ring
    have hmassey : ∀ (L : F[X]) (t : ℕ), L.coeff 0 = 1 → L.natDegree ≤ t →
        (∀ j, t ≤ j → j < n + 1 → cv s L j = 0) → n + 1 ≤ st.l + t := fun L t h1 h2 h3 =>
      massey (toP_natDegree h.lam_len) h.lam_gen hz h1 h2 h3
    have hll := h.lam_len
    have hbl := h.b_len
    have hl := h.l_le
    simp only [hlw, Option.bind_some, h.iter]
    by_cases hg : 2 * st.l < n + 1
    · simp only [hg, if_true, how, Option.bind_some]
      refine ⟨_, rfl, ?_, fun h1 => absurd h1 hz, fun _ => ⟨rfl, rfl⟩⟩
      refine ⟨hnums, rfl, by simp only; omega, by simp only; omega, by simp only; rw [hlw1, hlam0], ?_, hz, by simp only; omega, ?_, ?_, ?_⟩
      · intro j h1 h2
        simp only at h1
        exact hgen j (by omega) (by omega) h2
      · intro j h1 h2
        simp only at h1 ⊢
        rcases j with _ | j
        · exfalso; omega
        · rw [cv_X_mul, how1]
          exact h.lam_gen j (by omega) (by omega)
      · simp only
        rw [cv_X_mul, how1]
      · intro L t h1 h2 h3
        have := hmassey L t h1 h2 h3
        simp only; omega
    · simp only [hg, if_false, hbw, Option.bind_some]
      refine ⟨_, rfl, ?_, fun h1 => absurd h1 hz, fun _ => ⟨rfl, rfl⟩⟩
      refine ⟨hnums, rfl, by simp only; omega, by simp only; omega, by simp only; rw [hlw1, hlam0], ?_, h.delta, by simp only; omega, ?_, ?_, ?_⟩
      · intro j h1 h2
        simp only at h1
        exact hgen j (by omega) (by omega) h2
      · intro j h1 h2
        simp only at h1 ⊢
        rw [hbw1, hb0]
        rcases j with _ | j
        · exfalso; omega
        · exact cv_shift_gen (h.b_gen j (by omega) (by omega))
      · simp only
        rw [hbw1, hb0, cv_X_mul]
        exact h.b_disc
      · intro L t h1 h2 h3
        exact h.minimal L t h1 h2 fun j h4 h5 => h3 j h4 (by omega)

/-- the first step on a nonzero value -/
lemma BMInv.first {s : ℕ → F} (h0 : s 0 ≠ 0) (thr : ℕ) :
    ∃ r, (BMState.init : BMState F).step thr (s 0) = some r ∧ BMInv s 1 r.1 ∧ r.2 = false ∧ r.1.terminator = 1 := by
  have hd : discrepancy [1] [s 0] 1 = some (s 0) := by
    rw [discrepancy_eq _ _ _ (by simp) (by simp)]; simp
  have h1 : popZeros (lambdaUpdate [1] [0, 0] (s 0 / 1)) = some [(1 : F)] := by
    have : lambdaUpdate [1] [0, 0] (s 0 / 1) = [1, (0 : F)] := by
      simp [lambdaUpdate, List.range_succ]
    rw [this]
    simp [popZeros]
  have h2 : popZeros [(1 : F)] = some [1] := by simp [popZeros]
  have hst : (BMState.init : BMState F).step thr (s 0) = some ({ lambda := [1], b := [1], l := 1, delta := s 0, iter := 2, terminator := 1, nums := [s 0] }, false) := by
    unfold BMState.step BMState.init
    simp only [List.nil_append, hd, Option.bind_eq_bind, Option.bind_some, if_neg h0, h1]
    simp [h2]
  refine ⟨_, hst, ?_, rfl, rfl⟩
  have hp : toP [(1 : F)] = 1 := by simp [toP]
  refine ⟨rfl, rfl, le_rfl, by simp, by simp only; rw [hp, coeff_one_zero], ?_, h0, by simp, ?_, ?_, ?_⟩
  · intro j h1 h2; simp only at h1; omega
  · intro j h1 h2; simp only at h1 ⊢
    rcases j with _ | j
    · rw [cv_eq]; simp [hp]
    · omega
  · simp only
    rw [hp, cv_X_mul, cv_eq]; simp
  · intro L t h1 h2 h3
    simp only
    by_contra ht
    have ht : t = 0 := by omega
    subst ht
    have := h3 0 le_rfl (by omega)
    rw [cv_eq] at this
    simp [h1] at this
    exact h0 this

/-! ### C21 -/

lemma feed_snoc (thr : ℕ) (st : BMState F) (xs : List F) (x : F) :
    st.feed thr (xs ++ [x]) = (st.feed thr xs).bind fun s => (s.step thr x).map Prod.fst := by
  unfold BMState.feed
  rw [List.foldlM_append]
  show Option.bind _ _ = _
  congr 1
  funext s
  rw [List.foldlM_cons]
  show Option.bind _ (fun s => some s) = _
  cases (s.step thr x).map Prod.fst <;> rfl

lemma feed_inv {s : ℕ → F} (h0 : s 0 ≠ 0) (thr : ℕ) : ∀ n,
    ∃ st, (BMState.init : BMState F).feed thr ((List.range (n + 1)).map s) = some st ∧ BMInv s (n + 1) st
  | 0 => by
    obtain ⟨r, h1, h2, -⟩ := BMInv.first h0 thr
    refine ⟨r.1, ?_, h2⟩
    show (BMState.init : BMState F).feed thr ([] ++ [s 0]) = _
    rw [feed_snoc]
    show ((BMState.init : BMState F).step thr (s 0)).map Prod.fst = _
    rw [h1]; rfl
  | n + 1 => by
    obtain ⟨st, h1, h2⟩ := feed_inv h0 thr n
    obtain ⟨r, h3, h4, -⟩ := h2.step thr
    refine ⟨r.1, ?_, h4⟩
    rw [List.range_succ, List.map_append, show [n + 1].map s = [s (n + 1)] by rfl, feed_snoc, h1, Option.bind_some, h3]
    rfl

lemma list_eq_map_range (xs : List F) : xs = (List.range xs.length).map fun j => xs.getD j 0 := by
  apply List.ext_getElem
  · simp
  · intro i h1 h2
    rw [List.getElem_map, List.getElem_range, List.getD_eq_getElem _ _ h1]

/-- **C21.** Feeding any sequence that starts with a nonzero value, whatever the threshold: no step
fails, and afterwards `lambda` has constant term 1, at most `l + 1` entries, annihilates the sequence
at every position from `l` on, and `l` is the least order of such a recurrence. -/
theorem C21_generator (thr : ℕ) (x : F) (hx : x ≠ 0) (xs : List F) :
    ∃ st, (BMState.init : BMState F).feed thr (x :: xs) = some st ∧
      st.nums = x :: xs ∧ st.iter = (x :: xs).length + 1 ∧
      st.lambda.getD 0 0 = 1 ∧ st.lambda.length ≤ st.l + 1 ∧ st.l ≤ (x :: xs).length ∧
      (∀ j, st.l ≤ j → j < (x :: xs).length →
        ∑ i ∈ Finset.range st.lambda.length, st.lambda.getD i 0 * (x :: xs).getD (j - i) 0 = 0) ∧
      (∀ (c : List F) (t : ℕ), c.getD 0 0 = 1 → c.length ≤ t + 1 →
        (∀ j, t ≤ j → j < (x :: xs).length →
          ∑ i ∈ Finset.range c.length, c.getD i 0 * (x :: xs).getD (j - i) 0 = 0) → st.l ≤ t) := by
  have e := list_eq_map_range (x :: xs)
  obtain ⟨st, h1, h2⟩ := feed_inv (s := fun j => (x :: xs).getD j 0) (by simpa using hx) thr xs.length
  rw [List.length_cons] at e
  rw [← e] at h1
  have h3 := h2.nums
  rw [← e] at h3
  refine ⟨st, h1, h3, h2.iter, ?_, h2.lam_len, h2.l_le, ?_, ?_⟩
  · rw [← toP_coeff]; exact h2.lam_one
  · intro j hj1 hj2
    have := h2.lam_gen j hj1 hj2
    rw [cv_toP _ _ _ (by have := h2.lam_len; omega)] at this
    exact this
  · intro c t hc1 hc2 hc3
    refine h2.minimal (toP c) t (by rw [toP_coeff]; exact hc1) (toP_natDegree hc2) ?_
    intro j hj1 hj2
    rw [cv_toP _ _ _ (by omega)]
    exact hc3 j hj1 hj2

/-- **C21 (violation).** A sequence that starts with the value zero runs into undefined behaviour (the
loop removing trailing zeros empties the vector and reads its last element). -/
theorem C21_first_zero_violated (thr : ℕ) (xs : List F) :
    (BMState.init : BMState F).feed thr (0 :: xs) = none := by
  have h : (BMState.init : BMState F).step thr 0 = none := by
    have hd : discrepancy [1] [(0 : F)] 1 = some 0 := by
      rw [discrepancy_eq _ _ _ (by simp) (by simp)]; simp
    unfold BMState.step BMState.init
    simp only [List.nil_append, hd, Option.bind_eq_bind, Option.bind_some, if_true]
    simp [popZeros]
  unfold BMState.feed
  rw [List.foldlM_cons, h]
  rfl

/-! ### sums of geometric sequences -/

/-- the sequence `Σ_i c_i v_i^(k+1)` -/
def geoSeq {t : ℕ} (c v : Fin t → F) (k : ℕ) : F := ∑ i, c i * v i ^ (k + 1)

/-- the connection polynomial `Π (1 - v_i X)` -/
noncomputable def geoLam {t : ℕ} (v : Fin t → F) : F[X] := ∏ i, (1 - C (v i) * X)

noncomputable def geoNum {t : ℕ} (c v : Fin t → F) : F[X] :=
  ∑ i, C (c i * v i) * ∏ j ∈ Finset.univ.erase i, (1 - C (v j) * X)

omit [DecidableEq F] in
lemma geo_single (c v : F) :
    ((1 - C v * X : F[X]) : PowerSeries F) * PowerSeries.mk (fun k => c * v ^ (k + 1)) = PowerSeries.C (c * v) := by
  have : ((1 - C v * X : F[X]) : PowerSeries F) = 1 - PowerSeries.C v * PowerSeries.X := by
    rw [← Polynomial.coe_C, ← Polynomial.coe_X, ← Polynomial.coe_mul, ← Polynomial.coe_one]
    exact map_sub (Polynomial.coeToPowerSeries.ringHom (R := F)) _ _
  rw [this]
  ext k
  rw [sub_mul, one_mul, map_sub, mul_assoc, PowerSeries.coeff_C_mul, PowerSeries.coeff_mk, PowerSeries.coeff_C]
  rcases k with _ | k
  · simp
  · rw [PowerSeries.coeff_succ_X_mul, PowerSeries.coeff_mk, if_neg (Nat.succ_ne_zero k)]
    ring

lemma geo_mul {t : ℕ} (c v : Fin t → F) :
    (geoLam v : PowerSeries F) * PowerSeries.mk (geoSeq c v) = (geoNum c v : PowerSeries F) := by
  have h1 : PowerSeries.mk (geoSeq c v) = ∑ i, PowerSeries.mk (fun k => c i * v i ^ (k + 1)) := by
    ext k
    rw [PowerSeries.coeff_mk, map_sum]
    simp [geoSeq]
  have h2 : (geoNum c v : PowerSeries F) = ∑ i, PowerSeries.C (c i * v i) *
      ((∏ j ∈ Finset.univ.erase i, (1 - C (v j) * X) : F[X]) : PowerSeries F) := by
    unfold geoNum
    rw [← Polynomial.coeToPowerSeries.ringHom_apply, map_sum]
    apply Finset.sum_congr rfl
    intro i _
    rw [Polynomial.coeToPowerSeries.ringHom_apply, Polynomial.coe_mul, Polynomial.coe_C]
  rw [h1, h2, Finset.mul_sum]
  apply Finset.sum_congr rfl
  intro i _
  have h3 : geoLam v = (1 - C (v i) * X) * ∏ j ∈ Finset.univ.erase i, (1 - C (v j) * X) := by
    unfold geoLam
    rw [Finset.mul_prod_erase _ (fun i => 1 - C (v i) * X) (Finset.mem_univ i)]
  rw [h3, Polynomial.coe_mul, mul_comm ((1 - C (v i) * X : F[X]) : PowerSeries F), mul_assoc, geo_single, mul_comm]

omit [DecidableEq F] in
lemma natDegree_prod_lin {ι : Type} (s : Finset ι) (v : ι → F) :
    (∏ j ∈ s, (1 - C (v j) * X)).natDegree ≤ s.card := by
  refine (natDegree_prod_le _ _).trans ?_
  rw [Finset.card_eq_sum_ones]
  apply Finset.sum_le_sum
  intro i _
  refine (natDegree_sub_le _ _).trans (max_le (by simp) ?_)
  exact (natDegree_C_mul_le _ _).trans (by simp)

lemma geoNum_natDegree {t : ℕ} (c v : Fin (t + 1) → F) : (geoNum c v).natDegree ≤ t := by
  unfold geoNum
  apply natDegree_sum_le_of_forall_le
  intro i _
  refine (natDegree_C_mul_le _ _).trans ((natDegree_prod_lin _ _).trans ?_)
  simp

omit [DecidableEq F] in
lemma geoLam_coeff_zero {t : ℕ} (v : Fin t → F) : (geoLam v).coeff 0 = 1 := by
  unfold geoLam
  rw [coeff_zero_eq_eval_zero, eval_prod]
  simp

omit [DecidableEq F] in
lemma geoLam_natDegree {t : ℕ} (v : Fin t → F) : (geoLam v).natDegree ≤ t := by
  have := natDegree_prod_lin Finset.univ v
  rw [Finset.card_univ, Fintype.card_fin] at this
  exact this

lemma geo_cv {t : ℕ} (c v : Fin (t + 1) → F) (j : ℕ) (hj : t + 1 ≤ j) : cv (geoSeq c v) (geoLam v) j = 0 := by
  unfold cv
  rw [geo_mul, Polynomial.coeff_coe, coeff_eq_zero_of_natDegree_lt]
  have := geoNum_natDegree c v
  omega

lemma geoNum_eval_ne {t : ℕ} (c v : Fin t → F) (hc : ∀ i, c i ≠ 0) (hv : ∀ i, v i ≠ 0)
    (hinj : Function.Injective v) (i : Fin t) : (geoNum c v).eval (v i)⁻¹ ≠ 0 := by
  unfold geoNum
  rw [eval_finset_sum, Finset.sum_eq_single i]
  · rw [eval_mul, eval_C, eval_prod]
    refine mul_ne_zero (mul_ne_zero (hc i) (hv i)) (Finset.prod_ne_zero_iff.mpr ?_)
    intro j hj
    rw [Finset.mem_erase] at hj
    simp only [eval_sub, eval_one, eval_mul, eval_C, eval_X]
    intro h
    have h1 : v j * (v i)⁻¹ = 1 := (sub_eq_zero.mp h).symm
    have h2 : v j = v i := by
      have := congrArg (· * v i) h1
      simp only [mul_assoc, inv_mul_cancel₀ (hv i), mul_one, one_mul] at this
      exact this
    exact hj.1 (hinj h2)
  · intro j _ hji
    rw [eval_mul, eval_prod]
    have : ∏ k ∈ Finset.univ.erase j, eval (v i)⁻¹ (1 - C (v k) * X) = 0 := by
      apply Finset.prod_eq_zero (i := i)
      · rw [Finset.mem_erase]; exact ⟨fun h => hji h.symm, Finset.mem_univ _⟩
      · simp [mul_inv_cancel₀ (hv i)]
    rw [this, mul_zero]
  · intro h; exact absurd (Finset.mem_univ i) h

/-- uniqueness of the generator of a sum of `t + 1` geometric sequences -/
lemma geo_unique {t : ℕ} (c v : Fin (t + 1) → F) (hc : ∀ i, c i ≠ 0) (hv : ∀ i, v i ≠ 0)
    (hinj : Function.Injective v) {n l : ℕ} {P : F[X]} (hn : 2 * (t + 1) ≤ n) (hl : l ≤ t + 1) (hP0 : P.coeff 0 = 1)
    (hPd : P.natDegree ≤ l) (hP : ∀ j, l ≤ j → j < n → cv (geoSeq c v) P j = 0) :
    P = geoLam v ∧ t + 1 ≤ P.natDegree := by
  set s := geoSeq c v with hs
  have hkey : P * geoNum c v = geoLam v * PowerSeries.trunc (t + 1) ((P : PowerSeries F) * PowerSeries.mk s) := by
    have hQ : ∀ k, k < n → (PowerSeries.trunc (t + 1) ((P : PowerSeries F) * PowerSeries.mk s)).coeff k = cv s P k := by
      intro k hk
      rw [PowerSeries.coeff_trunc]
      split
      · rfl
      · rw [hP k (by omega) hk]
    ext j
    rcases lt_or_ge j n with hj | hj
    · have h1 : (P * geoNum c v).coeff j = cv s (geoLam v * P) j := by
        unfold cv
        rw [← Polynomial.coeff_coe, Polynomial.coe_mul, ← geo_mul, ← hs, Polynomial.coe_mul]
        congr 1
        ring
      rw [h1, cv_mul, cv_eq, coeff_mul, Finset.Nat.sum_antidiagonal_eq_sum_range_succ
        (fun i k => (geoLam v).coeff i * (PowerSeries.trunc (t + 1) ((P : PowerSeries F) * PowerSeries.mk s)).coeff k)]
      apply Finset.sum_congr rfl
      intro i _
      rw [hQ (j - i) (by omega)]
    · have h1 : (P * geoNum c v).natDegree < j := by
        refine lt_of_le_of_lt natDegree_mul_le ?_
        have := geoNum_natDegree c v
        omega
      have h2 : (geoLam v * PowerSeries.trunc (t + 1) ((P : PowerSeries F) * PowerSeries.mk s)).natDegree < j := by
        refine lt_of_le_of_lt natDegree_mul_le ?_
        have h3 := PowerSeries.natDegree_trunc_lt ((P : PowerSeries F) * PowerSeries.mk s) t
        have h4 := geoLam_natDegree v
        omega
      rw [coeff_eq_zero_of_natDegree_lt h1, coeff_eq_zero_of_natDegree_lt h2]
  have hroot0 : ∀ i, (geoLam v).eval (v i)⁻¹ = 0 := by
    intro i
    unfold geoLam
    rw [eval_prod]
    apply Finset.prod_eq_zero (Finset.mem_univ i)
    simp [mul_inv_cancel₀ (hv i)]
  have hroot : ∀ i, P.eval (v i)⁻¹ = 0 := by
    intro i
    have := congrArg (eval (v i)⁻¹) hkey
    rw [eval_mul, eval_mul, hroot0 i, zero_mul] at this
    exact (mul_eq_zero.mp this).resolve_right (geoNum_eval_ne c v hc hv hinj i)
  have hinj' : Function.Injective fun i => (v i)⁻¹ := fun i j h => hinj (inv_injective h)
  constructor
  · rw [← sub_eq_zero]
    apply eq_zero_of_natDegree_lt_card_of_eval_eq_zero' (P - geoLam v)
      (insert 0 (Finset.univ.image fun i => (v i)⁻¹))
    · intro x hx
      rw [Finset.mem_insert, Finset.mem_image] at hx
      rcases hx with rfl | ⟨i, -, rfl⟩
      · rw [eval_sub, ← coeff_zero_eq_eval_zero, ← coeff_zero_eq_eval_zero, hP0, geoLam_coeff_zero, sub_self]
      · rw [eval_sub, hroot, hroot0, sub_self]
    · rw [Finset.card_insert_of_notMem, Finset.card_image_of_injective _ hinj', Finset.card_univ, Fintype.card_fin]
      · refine lt_of_le_of_lt (natDegree_sub_le _ _) (max_lt (by omega) ?_)
        have := geoLam_natDegree v
        omega
      · rw [Finset.mem_image]
        rintro ⟨i, -, h⟩
        exact hv i (inv_eq_zero.mp h)
  · by_contra hlt
    have : P = 0 := by
      apply eq_zero_of_natDegree_lt_card_of_eval_eq_zero' P (Finset.univ.image fun i => (v i)⁻¹)
      · intro x hx
        rw [Finset.mem_image] at hx
        obtain ⟨i, -, rfl⟩ := hx
        exact hroot i
      · rw [Finset.card_image_of_injective _ hinj', Finset.card_univ, Fintype.card_fin]
        omega
    rw [this, coeff_zero] at hP0
    exact one_ne_zero hP0.symm

/-- The state after at least `2 t` values of a sum of `t` geometric sequences. -/
lemma geo_state {t : ℕ} (c v : Fin (t + 1) → F) (hc : ∀ i, c i ≠ 0) (hv : ∀ i, v i ≠ 0)
    (hinj : Function.Injective v) {n : ℕ} (hn : 2 * (t + 1) ≤ n) {st : BMState F} (h : BMInv (geoSeq c v) n st) :
    toP st.lambda = geoLam v ∧ st.l = t + 1 ∧ st.lambda.length = t + 2 := by
  have hl := h.minimal (geoLam v) (t + 1) (geoLam_coeff_zero v) (geoLam_natDegree v)
    (fun j hj _ => geo_cv c v j hj)
  obtain ⟨h1, h2⟩ := geo_unique c v hc hv hinj hn hl h.lam_one (toP_natDegree h.lam_len) h.lam_gen
  have h3 := h.lam_len
  have h4 : (toP st.lambda).natDegree ≤ st.l := toP_natDegree h3
  refine ⟨h1, by omega, ?_⟩
  by_contra hne
  have : (toP st.lambda).natDegree ≤ t := toP_natDegree (by omega)
  omega

/-- **C21 (recovery).** For values `s_k = Σ_i c_i v_i^(k+1)` with `t` distinct nonzero `v_i`, nonzero
`c_i` and `s_0 ≠ 0`, the polynomial found after any number `n ≥ 2t` of values is `Π (1 - v_i X)`. -/
theorem C21_sparse (thr : ℕ) {t : ℕ} (c v : Fin (t + 1) → F) (hc : ∀ i, c i ≠ 0) (hv : ∀ i, v i ≠ 0)
    (hinj : Function.Injective v) (h0 : ∑ i, c i * v i ≠ 0) {n : ℕ} (hn : 2 * (t + 1) ≤ n) :
    ∃ st, (BMState.init : BMState F).feed thr ((List.range n).map fun k => ∑ i, c i * v i ^ (k + 1)) = some st ∧
      st.l = t + 1 ∧ st.lambda.length = t + 2 ∧
      ∀ x, ∑ i ∈ Finset.range (t + 2), st.lambda.getD i 0 * x ^ i = ∏ i, (1 - v i * x) := by
  obtain ⟨m, rfl⟩ : ∃ m, n = m + 1 := ⟨n - 1, by omega⟩
  obtain ⟨st, h1, h2⟩ := feed_inv (s := geoSeq c v) (by simpa [geoSeq] using h0) thr m
  obtain ⟨h3, h4, h5⟩ := geo_state c v hc hv hinj hn h2
  refine ⟨st, h1, h4, h5, ?_⟩
  intro x
  have h6 : (toP st.lambda).eval x = ∏ i, (1 - v i * x) := by
    rw [h3]; unfold geoLam; rw [eval_prod]; simp
  rw [← h6, eval_eq_sum_range' (n := t + 2)]
  · apply Finset.sum_congr rfl
    intro i _
    rw [toP_coeff]
  · have := toP_natDegree (c := st.lambda) (t := t + 1) (by omega)
    omega

/-- Non-vacuity: the Fibonacci numbers from 1. -/
example : ∃ st, (BMState.init : BMState ℚ).feed 1 [1, 1, 2, 3, 5, 8] = some st ∧ st.lambda = [1, -1, -1] ∧ st.l = 2 := by
  have h : (((BMState.init : BMState ℚ).feed 1 [1, 1, 2, 3, 5, 8]).map fun st => (st.lambda, st.l)) = some ([1, -1, -1], 2) := by
    decide +kernel
  obtain ⟨st, hs, e⟩ := Option.map_eq_some_iff.mp h
  simp only [Prod.mk.injEq] at e
  exact ⟨st, hs, e⟩

end FireFly
