import Verif.Model.Newton
import Verif.Lemmas.UniMap
import Mathlib.LinearAlgebra.Lagrange
import Mathlib.GroupTheory.OrderOfElement
/-! # C18: Newton interpolation -/
set_option linter.all false
namespace FireFly
open Polynomial
variable {F : Type} [Field F] [DecidableEq F]

/-- the Newton form `a_0 + (X - y_k)(a_1 + (X - y_{k+1})(…))` -/
noncomputable def nested (y : ℕ → F) : ℕ → List F → F[X]
  | _, [] => 0
  | k, a :: l => C a + (X - C (y k)) * nested y (k + 1) l

omit [DecidableEq F] in
lemma nested_single (y : ℕ → F) (k : ℕ) (a : F) : nested y k [a] = C a := by simp [nested]

omit [DecidableEq F] in
lemma nested_degree (y : ℕ → F) : ∀ (l : List F) (k : ℕ), (nested y k l).degree < l.length
  | [], k => by
    unfold nested
    rw [degree_zero]
    exact WithBot.bot_lt_coe _
  | a :: l, k => by
    unfold nested
    refine lt_of_le_of_lt (degree_add_le _ _) (max_lt ?_ ?_)
    · refine lt_of_le_of_lt degree_C_le ?_
      exact_mod_cast Nat.succ_pos _
    · by_cases h : nested y (k + 1) l = 0
      · rw [h, mul_zero, degree_zero]; exact WithBot.bot_lt_coe _
      · have ih := nested_degree y l (k + 1)
        rw [degree_mul, degree_X_sub_C, degree_eq_natDegree h] at *
        have : (nested y (k + 1) l).natDegree < l.length := by exact_mod_cast ih
        rw [List.length_cons]
        have h2 : 1 + (nested y (k + 1) l).natDegree < l.length + 1 := by omega
        exact_mod_cast h2

/-! ### canonical form -/

lemma newtonLoop_spec (y : ℕ → F) (ai : List F) : ∀ (i : ℕ) (res : FFMap F) (N : ℕ), N + i < 2 ^ 32 →
    i + 1 < ai.length →
    UMap N ((X - C (y (i + 1))) * nested y (i + 2) (ai.drop (i + 1))) res →
    UMap (N + i) ((X - C (y 1)) * nested y 2 (ai.drop 1)) (newtonLoop y ai i res)
  | 0, res, N, _, _, h => h
  | i + 1, res, N, hN, hi, h => by
    unfold newtonLoop
    have h1 : UMap N (nested y (i + 2) (ai.drop (i + 1))) (PolyFF.addAssign res [([0], ai.getD (i + 1) 0)]) := by
      have := h.addAssign ((UMap.const (ai.getD (i + 1) 0)).mono (Nat.zero_le N))
      have e : nested y (i + 2) (ai.drop (i + 1)) =
          (X - C (y (i + 1 + 1))) * nested y (i + 1 + 2) (ai.drop (i + 1 + 1)) + C (ai.getD (i + 1) 0) := by
        rw [List.drop_eq_getElem_cons (by omega : i + 1 < ai.length), nested,
          List.getD_eq_getElem _ _ (by omega : i + 1 < ai.length)]
        ring
      rw [e]; exact this
    have h2 : UMap (N + 1) ((X - C (y (i + 1))) * nested y (i + 2) (ai.drop (i + 1)))
        (PolyFF.add (PolyFF.scale (PolyFF.addAssign res [([0], ai.getD (i + 1) 0)]) (-y (i + 1)))
          (PolyFF.mulVar (PolyFF.addAssign res [([0], ai.getD (i + 1) 0)]) 1)) := by
      have := ((h1.scale (-y (i + 1))).mono (Nat.le_succ N)).add (h1.mulVar (by omega))
      have e : (X - C (y (i + 1))) * nested y (i + 2) (ai.drop (i + 1)) =
          C (-y (i + 1)) * nested y (i + 2) (ai.drop (i + 1)) + X * nested y (i + 2) (ai.drop (i + 1)) := by
        rw [C_neg]; ring
      rw [e]; exact this
    have := newtonLoop_spec y ai i _ (N + 1) (by omega) (by omega) h2
    rw [show N + (i + 1) = N + 1 + i by omega]
    exact this

lemma canonical_umap (n : ℕ) (y : ℕ → F) (ai : List F) (h0 : ai ≠ []) (hl : ai.length < 2 ^ 32) :
    UMap (ai.length - 1) (nested y 1 ai) (constructCanonical n y ai) := by
  have hpos : 0 < ai.length := List.length_pos_of_ne_nil h0
  unfold constructCanonical
  by_cases h1 : ai.length = 1
  · rw [if_pos h1, h1]
    obtain ⟨a, rfl⟩ := List.length_eq_one_iff.mp h1
    rw [nested_single]
    exact UMap.const a
  · rw [if_neg h1, if_neg (by omega)]
    unfold iterateCanonical
    have hlast : UMap 0 (nested y ai.length (ai.drop (ai.length - 1))) [([0], ai.getD (ai.length - 1) 0)] := by
      rw [List.drop_eq_getElem_cons (by omega : ai.length - 1 < ai.length),
        List.drop_eq_nil_of_le (by omega : ai.length ≤ ai.length - 1 + 1), nested_single,
        List.getD_eq_getElem _ _ (by omega : ai.length - 1 < ai.length)]
      exact UMap.const _
    have h2 := ((hlast.scale (-y (ai.length - 1))).mono (Nat.le_succ 0)).add (hlast.mulVar (by norm_num))
    have h3 := newtonLoop_spec y ai (ai.length - 2) _ 1 (by omega) (by omega) (by
      have e : (X - C (y (ai.length - 2 + 1))) * nested y (ai.length - 2 + 2) (ai.drop (ai.length - 2 + 1)) =
          C (-y (ai.length - 1)) * nested y ai.length (ai.drop (ai.length - 1)) +
            X * nested y ai.length (ai.drop (ai.length - 1)) := by
        rw [show ai.length - 2 + 1 = ai.length - 1 by omega, show ai.length - 2 + 2 = ai.length by omega, C_neg]
        ring
      rw [e]; exact h2)
    have h4 := ((UMap.const (ai.getD 0 0)).mono (Nat.zero_le (1 + (ai.length - 2)))).add h3
    rw [show 1 + (ai.length - 2) = ai.length - 1 by omega] at h4
    have e : nested y 1 ai = C (ai.getD 0 0) + (X - C (y 1)) * nested y 2 (ai.drop 1) := by
      cases ai with
      | nil => exact absurd rfl h0
      | cons a l => simp [nested]
    rw [e]; exact h4

/-! ### coefficients -/

/-- `comp_ai` by recursion over the coefficients -/
def compAiL (y : ℕ → F) (Y : F) : ℕ → List F → F → F
  | _, [], num => num
  | k, a :: l, num => compAiL y Y (k + 1) l ((num - a) / (Y - y k))

omit [DecidableEq F] in
lemma compAi_eq (y : ℕ → F) (num : F) (ai : List F) :
    compAi y ai.length num ai = compAiL y (y (ai.length + 1)) 1 ai num := by
  have key : ∀ (l : List F) (Y : F) (k : ℕ) (num : F) (g : ℕ → F), (∀ j, j < l.length → g (k + j) = l.getD j 0) →
      (List.range' k l.length).foldl (fun (res : F) (ip : ℕ) => (res - g ip) / (Y - y ip)) num =
        compAiL y Y k l num := by
    intro l
    induction l with
    | nil => intro Y k num g _; rfl
    | cons a l ih =>
      intro Y k num g hg
      rw [List.length_cons, List.range'_succ, List.foldl_cons, compAiL]
      rw [ih Y (k + 1) _ g (fun j hj => by
        have := hg (j + 1) (by simpa using hj)
        rw [show k + 1 + j = k + (j + 1) by omega, this]; simp)]
      have := hg 0 (by simp)
      simp only [Nat.add_zero, List.getD_cons_zero] at this
      rw [this]
  exact key ai _ 1 num (fun ip => ai.getD (ip - 1) 0) (fun j _ => by simp)

omit [DecidableEq F] in
/-- the computed coefficient makes the Newton form hit the value -/
lemma compAiL_spec (y : ℕ → F) (Y : F) : ∀ (l : List F) (k : ℕ) (num : F),
    (∀ j, j < l.length → Y ≠ y (k + j)) → (nested y k (l ++ [compAiL y Y k l num])).eval Y = num
  | [], k, num, _ => by simp [nested, compAiL]
  | a :: l, k, num, h => by
    have h0 : Y - y k ≠ 0 := by
      have := h 0 (by simp)
      rw [sub_ne_zero]; simpa using this
    rw [List.cons_append, nested, compAiL, eval_add, eval_C, eval_mul, eval_sub, eval_X, eval_C,
      compAiL_spec y Y l (k + 1) _ (fun j hj => by
        have := h (j + 1) (by simpa using hj)
        rwa [show k + 1 + j = k + (j + 1) by omega])]
    field_simp
    ring

omit [DecidableEq F] in
/-- later coefficients do not change the values at earlier points -/
lemma nested_append (y : ℕ → F) : ∀ (l m : List F) (k : ℕ),
    nested y k (l ++ m) = nested y k l + (∏ j ∈ Finset.range l.length, (X - C (y (k + j)))) * nested y (k + l.length) m
  | [], m, k => by simp [nested]
  | a :: l, m, k => by
    rw [List.cons_append, nested, nested, nested_append y l m (k + 1), List.length_cons, Finset.prod_range_succ']
    have : ∀ j, y (k + 1 + j) = y (k + (j + 1)) := by intro j; congr 1; omega
    simp only [this, Nat.add_zero, show k + (l.length + 1) = k + 1 + l.length by omega]
    ring

/-- The Newton coefficients computed from the values `nums` (fed at the points of order 1, 2, …). -/
def newtonCoeffs (y : ℕ → F) (nums : List F) : List F :=
  nums.foldl (fun ai num => ai ++ [compAi y ai.length num ai]) []

omit [DecidableEq F] in
lemma newtonCoeffs_append (y : ℕ → F) (nums : List F) (v : F) :
    newtonCoeffs y (nums ++ [v]) =
      newtonCoeffs y nums ++ [compAi y (newtonCoeffs y nums).length v (newtonCoeffs y nums)] := by
  unfold newtonCoeffs; rw [List.foldl_append]; rfl

omit [DecidableEq F] in
lemma newtonCoeffs_length (y : ℕ → F) (nums : List F) : (newtonCoeffs y nums).length = nums.length := by
  induction nums using List.reverseRecOn with
  | nil => rfl
  | append_singleton l v ih => rw [newtonCoeffs_append]; simp [ih]

omit [DecidableEq F] in
lemma newtonCoeffs_take (y : ℕ → F) (nums : List F) : ∀ k, (newtonCoeffs y nums).take k = newtonCoeffs y (nums.take k) := by
  induction nums using List.reverseRecOn with
  | nil => intro k; simp [newtonCoeffs]
  | append_singleton l v ih =>
    intro k
    by_cases h : k ≤ l.length
    · rw [newtonCoeffs_append, List.take_append_of_le_length (by rw [newtonCoeffs_length]; exact h), ih,
        List.take_append_of_le_length h]
    · rw [List.take_of_length_le, List.take_of_length_le]
      · simp; omega
      · rw [newtonCoeffs_length]; simp; omega

omit [DecidableEq F] in
lemma nested_eval_prefix (y : ℕ → F) (l m : List F) (i : ℕ) (hi : i < l.length) :
    (nested y 1 (l ++ m)).eval (y (i + 1)) = (nested y 1 l).eval (y (i + 1)) := by
  rw [nested_append, eval_add, eval_mul, eval_prod, Finset.prod_eq_zero (i := i) (by simpa using hi)]
  · ring
  · rw [eval_sub, eval_X, eval_C, add_comm 1 i, sub_self]

/-- pairwise distinct points of order `1 … m` -/
def DistinctPoints (y : ℕ → F) (m : ℕ) : Prop := ∀ i j, 1 ≤ i → i ≤ m → 1 ≤ j → j ≤ m → y i = y j → i = j

omit [DecidableEq F] in
lemma newton_interpolates (y : ℕ → F) (nums : List F) (hd : DistinctPoints y nums.length) :
    ∀ i (hi : i < nums.length), (nested y 1 (newtonCoeffs y nums)).eval (y (i + 1)) = nums[i] := by
  induction nums using List.reverseRecOn with
  | nil => intro i hi; simp at hi
  | append_singleton l v ih =>
    intro i hi
    rw [newtonCoeffs_append]
    by_cases h : i < l.length
    · rw [nested_eval_prefix _ _ _ _ (by rw [newtonCoeffs_length]; exact h),
        ih (fun a b h1 h2 h3 h4 => hd a b h1 (by simp; omega) h3 (by simp; omega)) i h]
      rw [List.getElem_append_left h]
    · have hil : i = l.length := by simp at hi; omega
      subst hil
      rw [compAi_eq, newtonCoeffs_length]
      rw [compAiL_spec]
      · simp
      · intro j hj he
        rw [newtonCoeffs_length] at hj
        have := hd _ _ (by omega) (by simp) (by omega) (by simp; omega) he
        omega

omit [DecidableEq F] in
/-- a Newton coefficient vanishes iff the Newton form so far predicts the value -/
lemma compAi_eq_zero_iff (y : ℕ → F) (ai : List F) (num : F) (hd : DistinctPoints y (ai.length + 1)) :
    compAi y ai.length num ai = 0 ↔ (nested y 1 ai).eval (y (ai.length + 1)) = num := by
  rw [compAi_eq]
  set a := compAiL y (y (ai.length + 1)) 1 ai num with ha
  have h := compAiL_spec y (y (ai.length + 1)) ai 1 num (by
    intro j hj he
    have := hd _ _ (by omega) le_rfl (by omega) (by omega) he
    omega)
  rw [← ha, nested_append, eval_add, eval_mul, eval_prod, nested_single, eval_C] at h
  have hp : ∏ j ∈ Finset.range ai.length, eval (y (ai.length + 1)) (X - C (y (1 + j))) ≠ 0 := by
    rw [Finset.prod_ne_zero_iff]
    intro j hj
    rw [Finset.mem_range] at hj
    rw [eval_sub, eval_X, eval_C, sub_ne_zero]
    intro he
    have := hd _ _ (by omega) le_rfl (by omega) (by omega) he
    omega
  constructor
  · intro h0; rw [h0, mul_zero, add_zero] at h; exact h
  · intro h0
    rw [h0] at h
    have : (∏ j ∈ Finset.range ai.length, eval (y (ai.length + 1)) (X - C (y (1 + j)))) * a = 0 := by
      linear_combination h
    rcases mul_eq_zero.mp this with h | h
    · exact absurd h hp
    · exact h

omit [DecidableEq F] in
/-- two polynomials of degree below `m` that agree at the first `m` points are equal -/
lemma eq_of_points (y : ℕ → F) (m : ℕ) (hd : DistinctPoints y m) (P Q : F[X]) (hP : P.degree < m)
    (hQ : Q.degree < m) (h : ∀ i < m, P.eval (y (i + 1)) = Q.eval (y (i + 1))) : P = Q := by
  apply Polynomial.eq_of_degrees_lt_of_eval_index_eq (Finset.range m) (v := fun i => y (i + 1))
  · intro a ha b hb hab
    have ha' : a < m := by simpa using ha
    have hb' : b < m := by simpa using hb
    have := hd (a + 1) (b + 1) (by omega) (by omega) (by omega) (by omega) hab
    omega
  · rwa [Finset.card_range]
  · rwa [Finset.card_range]
  · intro i hi
    exact h i (by simpa using hi)

/-- C18: feeding the values of a polynomial `f` of degree at most `d` at `m > d` pairwise distinct
points gives Newton coefficients that vanish from index `d+1` on, and the canonical form built from
the first `d+1` of them has, monomial by monomial, the coefficients of `f`. -/
theorem C18_recover (n : ℕ) (y : ℕ → F) (f : F[X]) (d m : ℕ) (hfd : f.natDegree ≤ d) (hdm : d < m)
    (hm : m < 2 ^ 32) (hy : DistinctPoints y m) (ai : List F)
    (hai : ai = newtonCoeffs y ((List.range m).map fun i => f.eval (y (i + 1)))) :
    ai.length = m ∧ (∀ i, d < i → ai.getD i 0 = 0) ∧
    WFMap 1 (constructCanonical n y (ai.take (d + 1))) ∧
    ∀ e, ((constructCanonical n y (ai.take (d + 1))).find? [e]).getD 0 = f.coeff e := by
  have hlen : ai.length = m := by rw [hai, newtonCoeffs_length]; simp
  -- every prefix of more than `d` coefficients represents `f`
  have pre : ∀ k, d < k → k ≤ m → nested y 1 (ai.take k) = f := by
    intro k hk hkm
    have hyk : DistinctPoints y k := fun a b h1 h2 h3 h4 => hy a b h1 (by omega) h3 (by omega)
    have e : ai.take k = newtonCoeffs y ((List.range k).map fun i => f.eval (y (i + 1))) := by
      rw [hai, newtonCoeffs_take, ← List.map_take, List.take_range, min_eq_left hkm]
    rw [e]
    apply eq_of_points y k hyk
    · have := nested_degree y (newtonCoeffs y ((List.range k).map fun i => f.eval (y (i + 1)))) 1
      rwa [newtonCoeffs_length, List.length_map, List.length_range] at this
    · refine lt_of_le_of_lt degree_le_natDegree ?_
      exact_mod_cast lt_of_le_of_lt hfd hk
    · intro i hi
      have := newton_interpolates y ((List.range k).map fun i => f.eval (y (i + 1)))
        (by simpa using hyk) i (by simpa using hi)
      rw [this]; simp
  refine ⟨hlen, ?_, ?_, ?_⟩
  · intro i hi
    by_cases him : i < m
    · have hyk : DistinctPoints y (i + 1) := fun a b h1 h2 h3 h4 => hy a b h1 (by omega) h3 (by omega)
      have e : ai.take (i + 1) = ai.take i ++ [compAi y i (f.eval (y (i + 1))) (ai.take i)] := by
        have e1 : ∀ k, k ≤ m → ai.take k = newtonCoeffs y ((List.range k).map fun i => f.eval (y (i + 1))) := by
          intro k hkm
          rw [hai, newtonCoeffs_take, ← List.map_take, List.take_range, min_eq_left hkm]
        rw [e1 (i + 1) (by omega), e1 i (by omega), List.range_succ, List.map_append, List.map_cons, List.map_nil,
          newtonCoeffs_append, newtonCoeffs_length]
        simp
      have hl : (ai.take i).length = i := by simp; omega
      have hz := (compAi_eq_zero_iff y (ai.take i) (f.eval (y (i + 1))) (by rw [hl]; exact hyk)).mpr
        (by rw [hl, pre i hi (by omega)])
      rw [hl] at hz
      rw [hz] at e
      have : (ai.take (i + 1)).getD i 0 = 0 := by
        rw [e, List.getD_append_right _ _ _ _ (by omega), hl]; simp
      rw [List.getD_eq_getElem _ _ (by simp; omega)] at this
      rw [List.getD_eq_getElem _ _ (by omega)]
      simpa using this
    · rw [List.getD_eq_default _ _ (by omega)]
  all_goals
    have hu := canonical_umap n y (ai.take (d + 1)) (by
      intro h
      rw [List.take_eq_nil_iff] at h
      rcases h with h | h
      · omega
      · rw [h] at hlen; simp at hlen; omega) (by simp; omega)
    rw [pre (d + 1) (by omega) (by omega)] at hu
  · exact hu.wf
  · exact hu.coeff

/-- C18 for arbitrary data and for the stage as it is run (stopping at the first vanishing
coefficient or at the degree bound): the stage consumes `c` values, where `c` is the number of
coefficients kept, plus one if the last coefficient vanished; the Newton form it keeps
reproduces *all* values consumed, and if the data come from a polynomial of degree below `c` the
canonical form has exactly the coefficients of that polynomial. -/
theorem C18_stage (n : ℕ) (y : ℕ → F) (deg : Option ℕ) (nums ai : List F)
    (hrun : newtonRun y deg [] nums = (ai, true)) (hy : DistinctPoints y nums.length)
    (hm : nums.length < 2 ^ 32) :
    ∃ c, c ≤ nums.length ∧ (c = ai.length + 1 ∨ (c = ai.length ∧ deg = some (c - 1))) ∧ 0 < c ∧
      (∃ P : F[X], P.degree < c ∧ (∀ i < c, P.eval (y (i + 1)) = nums.getD i 0) ∧
        (ai ≠ [] → WFMap 1 (constructCanonical n y ai) ∧
          ∀ e, ((constructCanonical n y ai).find? [e]).getD 0 = P.coeff e) ∧
        (ai = [] → P = 0 ∧ constructCanonical n y ai = [(List.replicate n 0, 0)])) ∧
      ∀ f : F[X], f.degree < c → (∀ i < c, f.eval (y (i + 1)) = nums.getD i 0) → ai ≠ [] →
        ∀ e, ((constructCanonical n y ai).find? [e]).getD 0 = f.coeff e := by
  -- the run keeps the Newton coefficients of a prefix
  have key : ∀ (rest pre : List F), pre ++ rest = nums →
      newtonRun y deg (newtonCoeffs y pre) rest = (ai, true) →
      ∃ k, k < nums.length ∧ ((ai = newtonCoeffs y (nums.take k) ∧
          compAi y k (nums.getD k 0) ai = 0) ∨
        (ai = newtonCoeffs y (nums.take (k + 1)) ∧ deg = some k)) := by
    intro rest
    induction rest with
    | nil => intro pre _ h; simp [newtonRun] at h
    | cons v rest ih =>
      intro pre hpre h
      have hk : pre.length < nums.length := by rw [← hpre]; simp
      have hv : nums.getD pre.length 0 = v := by rw [← hpre]; simp
      have ht : nums.take pre.length = pre := by rw [← hpre]; simp
      have ht1 : nums.take (pre.length + 1) = pre ++ [v] := by
        rw [← hpre, List.take_append]; simp
      rw [newtonRun, newtonFeed] at h
      simp only [newtonCoeffs_length] at h
      by_cases hz : compAi y pre.length v (newtonCoeffs y pre) = 0
      · simp only [hz, if_true] at h
        have ha : newtonCoeffs y pre = ai := by injection h
        exact ⟨pre.length, hk, Or.inl ⟨by rw [ht, ha], by rw [hv, ← ha]; exact hz⟩⟩
      · simp only [hz, if_false] at h
        have happ : newtonCoeffs y (pre ++ [v]) =
            newtonCoeffs y pre ++ [compAi y pre.length v (newtonCoeffs y pre)] := by
          rw [newtonCoeffs_append, newtonCoeffs_length]
        rw [← happ] at h
        by_cases hdg : deg = some pre.length
        · simp only [hdg, if_true] at h
          have ha : newtonCoeffs y (pre ++ [v]) = ai := by injection h
          exact ⟨pre.length, hk, Or.inr ⟨by rw [ht1, ha], hdg⟩⟩
        · simp only [hdg, if_false, Bool.false_eq_true] at h
          exact ih (pre ++ [v]) (by rw [← hpre]; simp) h
  obtain ⟨k, hk, hcase⟩ := key nums [] (by simp) (by simpa [newtonCoeffs] using hrun)
  -- the number of values consumed
  have hint : ∀ i < k + 1, (nested y 1 ai).eval (y (i + 1)) = nums.getD i 0 := by
    intro i hi
    rcases hcase with ⟨ha, hz⟩ | ⟨ha, hdg⟩
    · by_cases hik : i < k
      · have := newton_interpolates y (nums.take k)
          (fun a b h1 h2 h3 h4 => hy a b h1 (by simp at h2; omega) h3 (by simp at h4; omega)) i (by simp; omega)
        rw [ha, this, List.getD_eq_getElem _ _ (by omega)]; simp
      · have hik' : i = k := by omega
        subst hik'
        have hl : ai.length = i := by rw [ha, newtonCoeffs_length]; simp; omega
        have := (compAi_eq_zero_iff y ai (nums.getD i 0)
          (fun a b h1 h2 h3 h4 => hy a b h1 (by omega) h3 (by omega))).mp (by rw [hl]; exact hz)
        rw [hl] at this; exact this
    · have := newton_interpolates y (nums.take (k + 1))
        (fun a b h1 h2 h3 h4 => hy a b h1 (by simp at h2; omega) h3 (by simp at h4; omega)) i (by simp; omega)
      rw [ha, this, List.getD_eq_getElem _ _ (by omega)]; simp
  have hlen : ai.length = k ∨ (ai.length = k + 1 ∧ deg = some k) := by
    rcases hcase with ⟨ha, _⟩ | ⟨ha, hdg⟩
    · left; rw [ha, newtonCoeffs_length]; simp; omega
    · right; rw [ha, newtonCoeffs_length]; simp; exact ⟨by omega, hdg⟩
  have hdeg : (nested y 1 ai).degree < ((k + 1 : ℕ) : WithBot ℕ) := by
    refine lt_of_lt_of_le (nested_degree y ai 1) ?_
    have : ai.length ≤ k + 1 := by omega
    exact_mod_cast this
  refine ⟨k + 1, by omega, ?_, by omega, ⟨nested y 1 ai, hdeg, hint, ?_, ?_⟩, ?_⟩
  · rcases hlen with h | h
    · left; omega
    · right; refine ⟨h.1.symm, ?_⟩; simpa using h.2
  · intro hne
    have hu := canonical_umap n y ai hne (by omega)
    exact ⟨hu.wf, hu.coeff⟩
  · rintro rfl
    exact ⟨rfl, by simp [constructCanonical]⟩
  · intro f hf hfv hne e
    have hu := canonical_umap n y ai hne (by omega)
    rw [hu.coeff]
    congr 1
    apply eq_of_points y (k + 1) (fun a b h1 h2 h3 h4 => hy a b h1 (by omega) h3 (by omega)) _ _ hdeg hf
    intro i hi
    rw [hint i hi, hfv i hi]

omit [DecidableEq F] in
/-- The points used by the program, powers of an anchor point, are distinct as long as the anchor is
nonzero and its multiplicative order is not exceeded. -/
theorem C18_points (a : F) (m : ℕ) (ha : a ≠ 0) (hord : orderOf a = 0 ∨ m ≤ orderOf a) :
    DistinctPoints (fun k => a ^ k) m := by
  have main : ∀ i j, 1 ≤ i → i < j → j ≤ m → a ^ i = a ^ j → False := by
    intro i j h1 hij hj h
    have h2 : a ^ (j - i) = 1 := by
      have : a ^ j = a ^ i * a ^ (j - i) := by rw [← pow_add]; congr 1; omega
      rw [this] at h
      have hi : a ^ i ≠ 0 := pow_ne_zero _ ha
      exact (mul_left_cancel₀ hi (by rw [mul_one]; exact h)).symm
    rcases hord with h0 | h0
    · rw [orderOf_eq_zero_iff'] at h0
      exact h0 (j - i) (by omega) h2
    · exact pow_ne_one_of_lt_orderOf (by omega) (by omega) h2
  intro i j h1 h2 h3 h4 h
  rcases lt_trichotomy i j with hlt | heq | hgt
  · exact (main i j h1 hlt h4 h).elim
  · exact heq
  · exact (main j i h3 hgt h2 h.symm).elim

/-- a concrete run: the values of `1 + 2 X²` at the powers of 2 -/
example : newtonRun (fun k => (2 : ℚ) ^ k) none [] [9, 33, 129, 513] = ([9, 12, 2], true) ∧
    DistinctPoints (fun k => (2 : ℚ) ^ k) 4 := by
  constructor
  · simp [newtonRun, newtonFeed, compAi]
    norm_num [List.range'_succ]
  · intro i j _ _ _ _ h
    exact pow_right_injective₀ (by norm_num) (by norm_num) h

end FireFly
