import Verif.Model.Vandermonde
import Verif.Lemmas.PolyLemmas
import Mathlib.LinearAlgebra.Lagrange
/-! # C20: the Vandermonde solvers -/
set_option linter.all false
namespace FireFly
open Polynomial
variable {F : Type} [Field F] [DecidableEq F]

/-! ### the master polynomial -/

omit [DecidableEq F] in
lemma masterInner (v : F) : ∀ (n lo : ℕ) (c : ℕ → F) (j : ℕ),
    (List.range' lo n).foldl (fun (c : ℕ → F) (j : ℕ) => Function.update c j (c j - v * c (j + 1))) c j =
      if lo ≤ j ∧ j < lo + n then c j - v * c (j + 1) else c j := by
  intro n
  induction n with
  | zero => intro lo c j; rw [if_neg (by omega)]; rfl
  | succ n ih =>
    intro lo c j
    rw [List.range'_succ, List.foldl_cons, ih]
    by_cases h : j = lo
    · subst h
      rw [if_neg (by omega), if_pos (by omega), Function.update_self]
    · rw [Function.update_of_ne h]
      by_cases h2 : lo + 1 ≤ j ∧ j < lo + 1 + n
      · rw [if_pos h2, if_pos (by omega), Function.update_of_ne (by omega)]
      · rw [if_neg h2, if_neg (by omega)]

/-- `Q` holds the coefficients processed so far, shifted to the top -/
lemma masterStep_spec {m i : ℕ} (hi : i < m) (vis c : ℕ → F) (Q Q' : F[X])
    (hQ : Q.coeff m = 1) (hlow : ∀ j, j < m - i → Q.coeff j = 0) (hc : ∀ j, j < m → c j = Q.coeff j)
    (hQ' : Q' * X = Q * (X - C (vis i))) :
    ∀ j, j < m → masterStep m vis c i j = Q'.coeff j := by
  intro j hj
  have h1 : Q'.coeff j = Q.coeff j - vis i * Q.coeff (j + 1) := by
    have := congrArg (fun p => p.coeff (j + 1)) hQ'
    simp only [coeff_mul_X] at this
    rw [this, mul_sub, coeff_sub, coeff_mul_X, coeff_mul_C]; ring
  unfold masterStep
  by_cases hjm : j = m - 1
  · subst hjm
    rw [Function.update_self, masterInner, if_neg (by omega), hc _ (by omega), h1]
    rw [show m - 1 + 1 = m by omega, hQ, mul_one]
  · rw [Function.update_of_ne hjm, masterInner]
    by_cases h : m - 1 - i ≤ j ∧ j < m - 1 - i + i
    · rw [if_pos h, hc j hj, hc (j + 1) (by omega), h1]
    · rw [if_neg h, hc j hj, h1, hlow (j + 1) (by omega)]; ring

/-- the polynomial of which `cis` holds the coefficients after the factors `0 … i` -/
noncomputable def masterQ (m : ℕ) (vis : ℕ → F) (i : ℕ) : F[X] :=
  Lagrange.nodal (Finset.range (i + 1)) vis * X ^ (m - 1 - i)

omit [DecidableEq F] in
lemma masterQ_coeff {m i : ℕ} (hi : i < m) (vis : ℕ → F) :
    (masterQ m vis i).coeff m = 1 ∧ ∀ j, j < m - 1 - i → (masterQ m vis i).coeff j = 0 := by
  unfold masterQ
  constructor
  · obtain ⟨d, hd⟩ : ∃ d, m = (i + 1) + d := ⟨m - 1 - i, by omega⟩
    rw [show m - 1 - i = d by omega, hd, coeff_mul_X_pow]
    have := (Lagrange.nodal_monic (s := Finset.range (i + 1)) (v := vis)).coeff_natDegree
    rwa [Lagrange.natDegree_nodal, Finset.card_range] at this
  · intro j hj
    rw [coeff_mul_X_pow', if_neg (by omega)]

/-- the computed vector is the coefficient vector of `Π (Z - v_i)` -/
lemma masterCoefs_spec {m : ℕ} (hm : 0 < m) (vis : ℕ → F) :
    ∀ j, j < m → masterCoefs m vis j = (Lagrange.nodal (Finset.range m) vis).coeff j := by
  have key : ∀ k, k < m → ∀ j, j < m →
      (List.range' 1 k).foldl (masterStep m vis) (Function.update (fun _ => 0) (m - 1) (-vis 0)) j =
        (masterQ m vis k).coeff j := by
    intro k
    induction k with
    | zero =>
      intro _ j hj
      simp only [List.range'_zero, List.foldl_nil]
      unfold masterQ
      simp only [zero_add, Finset.range_one, Nat.sub_zero]
      rw [Lagrange.nodal_eq, Finset.prod_singleton, sub_mul, coeff_sub, ← pow_succ', coeff_X_pow,
        coeff_C_mul, coeff_X_pow]
      by_cases h : j = m - 1
      · subst h; rw [Function.update_self, if_neg (by omega), if_pos rfl]; ring
      · rw [Function.update_of_ne h, if_neg (by omega), if_neg h]; ring
    | succ k ih =>
      intro hk
      rw [List.range'_concat, List.foldl_append]
      simp only [List.foldl_cons, List.foldl_nil, one_mul]
      have hq := masterQ_coeff (show k < m by omega) vis
      have := masterStep_spec (show 1 + k < m by omega) vis _ (masterQ m vis k) (masterQ m vis (k + 1))
        hq.1 (fun j hj => hq.2 j (by omega)) (ih (by omega)) ?_
      · exact this
      · unfold masterQ
        rw [Lagrange.nodal_eq, Finset.prod_range_succ, ← Lagrange.nodal_eq, mul_assoc, mul_assoc, ← pow_succ,
          show m - 1 - (k + 1) + 1 = m - 1 - k by omega, show 1 + k = k + 1 by omega]
        ring
  intro j hj
  unfold masterCoefs
  rw [key (m - 1) (by omega) j hj]
  unfold masterQ
  rw [show m - 1 - (m - 1) = 0 by omega, pow_zero, mul_one, show m - 1 + 1 = m by omega]

/-! ### synthetic division -/

omit [DecidableEq F] in
lemma vdmLoop_spec (cis fis : ℕ → F) (v : F) (B : F[X]) :
    ∀ (j : ℕ) (t s : F), (∀ k, k < j → B.coeff k = cis (k + 1) + v * B.coeff (k + 1)) →
      vdmLoop cis fis v j t (B.coeff j) s =
        (v ^ j * t + ∑ k ∈ Finset.range j, B.coeff k * v ^ k, s + ∑ k ∈ Finset.range j, fis k * B.coeff k) := by
  intro j
  induction j with
  | zero => intro t s _; simp [vdmLoop]
  | succ j ih =>
    intro t s h
    rw [vdmLoop, ← h j (by omega), ih _ _ (fun k hk => h k (by omega)), Finset.sum_range_succ, Finset.sum_range_succ]
    congr 1 <;> ring

/-- the cofactor `Π_{l ≠ i} (Z - v_l)` -/
noncomputable def cofactor (m : ℕ) (vis : ℕ → F) (i : ℕ) : F[X] :=
  Lagrange.nodal ((Finset.range m).erase i) vis

/-- what the loop returns -/
lemma vdmEntry_eq {m i : ℕ} (hi : i < m) (vis fis : ℕ → F) :
    vdmEntry m vis fis i =
      (∑ k ∈ Finset.range m, fis k * (cofactor m vis i).coeff k) / (cofactor m vis i).eval (vis i) / vis i := by
  have him : i ∈ Finset.range m := by simpa using hi
  have hmul : Lagrange.nodal (Finset.range m) vis = (X - C (vis i)) * cofactor m vis i :=
    Lagrange.nodal_eq_mul_nodal_erase him
  have hdeg : (cofactor m vis i).natDegree = m - 1 := by
    unfold cofactor
    rw [Lagrange.natDegree_nodal, Finset.card_erase_of_mem him, Finset.card_range]
  have hlead : (cofactor m vis i).coeff (m - 1) = 1 := by
    have := (Lagrange.nodal_monic (s := (Finset.range m).erase i) (v := vis)).coeff_natDegree
    unfold cofactor at hdeg ⊢
    rwa [hdeg] at this
  have hrec : ∀ k, k < m - 1 → (cofactor m vis i).coeff k =
      masterCoefs m vis (k + 1) + vis i * (cofactor m vis i).coeff (k + 1) := by
    intro k hk
    rw [masterCoefs_spec (by omega) vis (k + 1) (by omega), hmul, sub_mul, coeff_sub, coeff_X_mul, coeff_C_mul]
    ring
  unfold vdmEntry
  have := vdmLoop_spec (masterCoefs m vis) fis (vis i) (cofactor m vis i) (m - 1) 1 (fis (m - 1)) hrec
  rw [hlead] at this
  rw [this]
  simp only
  have hm : m = (m - 1) + 1 := by omega
  have e1 : fis (m - 1) + ∑ k ∈ Finset.range (m - 1), fis k * (cofactor m vis i).coeff k =
      ∑ k ∈ Finset.range m, fis k * (cofactor m vis i).coeff k := by
    have := Finset.sum_range_succ (fun k => fis k * (cofactor m vis i).coeff k) (m - 1)
    rw [← hm] at this
    rw [this, hlead, mul_one, add_comm]
  have e2 : vis i ^ (m - 1) * 1 + ∑ k ∈ Finset.range (m - 1), (cofactor m vis i).coeff k * vis i ^ k =
      (cofactor m vis i).eval (vis i) := by
    rw [eval_eq_sum_range, hdeg, Finset.sum_range_succ, hlead]; ring
  rw [e1, e2]

/-- C20: for pairwise distinct nonzero nodes the entries computed by both solvers are the unique
solution of `Σ_i c_i v_i^(k+1) = f_k`, `k = 0 … m-1`. -/
theorem vdm_unique_solution {m : ℕ} (vis fis : ℕ → F)
    (hinj : ∀ i < m, ∀ j < m, vis i = vis j → i = j) (h0 : ∀ i < m, vis i ≠ 0) (c : ℕ → F) :
    (∀ k < m, ∑ i ∈ Finset.range m, c i * vis i ^ (k + 1) = fis k) ↔ ∀ i < m, c i = vdmEntry m vis fis i := by
  have hinj' : Set.InjOn vis (Finset.range m) := by
    intro i hi j hj h
    exact hinj i (by simpa using hi) j (by simpa using hj) h
  have ht : ∀ i, i < m → (cofactor m vis i).eval (vis i) ≠ 0 := by
    intro i hi
    unfold cofactor
    rw [Lagrange.eval_nodal, Finset.prod_ne_zero_iff]
    intro j hj
    rw [Finset.mem_erase, Finset.mem_range] at hj
    rw [sub_ne_zero]
    intro h
    exact hj.1 (hinj i hi j hj.2 h).symm
  have hdeg : ∀ i, i < m → (cofactor m vis i).natDegree < m := by
    intro i hi
    unfold cofactor
    rw [Lagrange.natDegree_nodal, Finset.card_erase_of_mem (by simpa using hi), Finset.card_range]; omega
  have hz : ∀ i, i < m → ∀ j, j < m → j ≠ i → (cofactor m vis i).eval (vis j) = 0 := by
    intro i hi j hj hne
    unfold cofactor
    exact Lagrange.eval_nodal_at_node (by simp [hne, hj])
  -- uniqueness
  have uniq : ∀ c : ℕ → F, (∀ k < m, ∑ i ∈ Finset.range m, c i * vis i ^ (k + 1) = fis k) →
      ∀ i < m, c i = vdmEntry m vis fis i := by
    intro c h i hi
    rw [vdmEntry_eq hi, eq_div_iff (h0 i hi), eq_div_iff (ht i hi)]
    have e1 : ∑ k ∈ Finset.range m, fis k * (cofactor m vis i).coeff k =
        ∑ k ∈ Finset.range m, ∑ l ∈ Finset.range m, c l * vis l ^ (k + 1) * (cofactor m vis i).coeff k := by
      apply Finset.sum_congr rfl
      intro k hk
      rw [← h k (by simpa using hk), Finset.sum_mul]
    rw [e1, Finset.sum_comm]
    have e2 : ∀ l ∈ Finset.range m, ∑ k ∈ Finset.range m, c l * vis l ^ (k + 1) * (cofactor m vis i).coeff k =
        c l * vis l * (cofactor m vis i).eval (vis l) := by
      intro l hl
      rw [eval_eq_sum_range' (hdeg i hi), Finset.mul_sum]
      apply Finset.sum_congr rfl
      intro k _
      ring
    rw [Finset.sum_congr rfl e2, Finset.sum_eq_single i]
    · intro l hl hne
      rw [hz i hi l (by simpa using hl) hne, mul_zero]
    · intro h; exact absurd (by simpa using hi) h
  refine ⟨uniq c, ?_⟩
  -- existence
  intro hc k hk
  have e0 : ∀ i ∈ Finset.range m, c i * vis i ^ (k + 1) =
      ∑ j ∈ Finset.range m, fis j * (vis i ^ k * ((cofactor m vis i).coeff j / (cofactor m vis i).eval (vis i))) := by
    intro i hi
    have hi' : i < m := by simpa using hi
    rw [hc i hi', vdmEntry_eq hi', div_mul_eq_mul_div, pow_succ, ← mul_assoc, mul_div_assoc,
      div_self (h0 i hi'), mul_one, div_mul_eq_mul_div, Finset.sum_mul, div_eq_mul_inv, Finset.sum_mul]
    apply Finset.sum_congr rfl
    intro j _
    ring
  rw [Finset.sum_congr rfl e0, Finset.sum_comm]
  have e1 : ∀ j ∈ Finset.range m, ∑ i ∈ Finset.range m,
      fis j * (vis i ^ k * ((cofactor m vis i).coeff j / (cofactor m vis i).eval (vis i))) =
      fis j * if j = k then 1 else 0 := by
    intro j _
    rw [← Finset.mul_sum]
    congr 1
    have hX : (X ^ k : F[X]) = Lagrange.interpolate (Finset.range m) vis fun i => vis i ^ k := by
      have := Lagrange.eq_interpolate (f := (X ^ k : F[X])) hinj' (by
        rw [degree_X_pow, Finset.card_range]; exact_mod_cast hk)
      simpa using this
    have := congrArg (fun p => p.coeff j) hX
    simp only [coeff_X_pow] at this
    rw [this, Lagrange.interpolate_apply, finset_sum_coeff]
    apply Finset.sum_congr rfl
    intro i hi
    rw [Lagrange.basis_eq_prod_sub_inv_mul_nodal_div hi, ← Lagrange.nodal_erase_eq_nodal_div hi,
      coeff_C_mul, coeff_C_mul, Lagrange.nodalWeight_eq_eval_nodal_erase_inv]
    unfold cofactor
    ring
  rw [Finset.sum_congr rfl e1]
  simp [hk]

/-- C20: `solve_transposed_vandermonde` on a non-empty list of pairwise distinct nonzero nodes returns
the unique list `c` with `Σ_i c_i v_i^(k+1) = f_k` for all `k` below the number of nodes. -/
theorem C20_transposed (vis fis : List F) (hne : vis ≠ []) (hlen : vis.length ≤ fis.length)
    (hnd : vis.Nodup) (h0 : (0 : F) ∉ vis) (c : List F) :
    solveTransposedVandermonde vis fis = some c ↔
      c.length = vis.length ∧
      ∀ k < vis.length, (∑ i : Fin vis.length, c.getD i 0 * vis[i] ^ (k + 1)) = fis.getD k 0 := by
  have hl : vis.length ≠ 0 := by simpa using hne
  have hinj : ∀ i < vis.length, ∀ j < vis.length, vis.getD i 0 = vis.getD j 0 → i = j := by
    intro i hi j hj h
    rw [List.getD_eq_getElem _ _ hi, List.getD_eq_getElem _ _ hj] at h
    exact (hnd.getElem_inj_iff).mp h
  have h0' : ∀ i < vis.length, vis.getD i 0 ≠ 0 := by
    intro i hi h
    rw [List.getD_eq_getElem _ _ hi] at h
    exact h0 (h ▸ List.getElem_mem hi)
  have key := vdm_unique_solution (fun i => vis.getD i 0) (fun i => fis.getD i 0) hinj h0' (fun i => c.getD i 0)
  have hsum : ∀ k, ∑ i : Fin vis.length, c.getD i 0 * vis[i] ^ (k + 1) =
      ∑ i ∈ Finset.range vis.length, c.getD i 0 * vis.getD i 0 ^ (k + 1) := by
    intro k
    rw [Finset.sum_range]
    apply Finset.sum_congr rfl
    intro i _
    rw [List.getD_eq_getElem vis _ i.2]; rfl
  simp only [hsum]
  rw [key]
  unfold solveTransposedVandermonde
  rw [if_neg hl, if_neg (by omega), Option.some.injEq]
  constructor
  · rintro rfl
    refine ⟨by simp, ?_⟩
    intro i hi
    rw [List.getD_eq_getElem _ _ (by simpa using hi)]
    simp
  · rintro ⟨h1, h2⟩
    apply List.ext_getElem (by simp [h1])
    intro i hi hi'
    have := h2 i (by omega)
    rw [List.getD_eq_getElem _ _ hi'] at this
    rw [this]; simp

/-- the empty system gives one zero (source/PolyReconst.cpp 846-848) -/
theorem C20_transposed_empty (fis : List F) : solveTransposedVandermonde [] fis = some [0] := by
  simp [solveTransposedVandermonde]

omit [DecidableEq F] in
/-- the base entry of an exponent vector is the value of the monomial at `(1, val)` -/
lemma vdmBase_eq (val : List F) (el : List ℕ) :
    vdmBase val el = ∏ i ∈ Finset.range val.length, val.getD i 0 ^ el.getD (i + 1) 0 := by
  unfold vdmBase
  generalize val.length = n
  induction n with
  | zero => simp
  | succ n ih => rw [List.range_succ, List.foldl_append, ih, Finset.prod_range_succ]; rfl

omit [DecidableEq F] in
lemma list_sum_range {α : Type} (l : List α) (f : α → F) (g : ℕ → F)
    (h : ∀ i (hi : i < l.length), f l[i] = g i) : (l.map f).sum = ∑ i ∈ Finset.range l.length, g i := by
  induction l generalizing g with
  | nil => simp
  | cons a l ih =>
    rw [List.map_cons, List.sum_cons, List.length_cons, Finset.sum_range_succ', add_comm,
      ih (fun i => g (i + 1)) (fun i hi => by
        have := h (i + 1) (by simpa using hi)
        simpa using this)]
    have := h 0 (by simp)
    simp only [List.getElem_cons_zero] at this
    rw [this]

/-- C20: `solve_vandermonde_system` returns a polynomial whose monomials are the given exponent
vectors and whose coefficients `c` are the unique ones with `Σ_i c_i v_i^(k+1) = nums_k`, where
`v_i` is the value of the `i`-th monomial at `(1, val)`, provided these values are pairwise distinct
and nonzero. -/
theorem C20_system (degs : List (List ℕ)) (nums val : List F) (hne : degs ≠ [])
    (hlen : degs.length ≤ nums.length) (hdl : ∀ el ∈ degs, val.length + 1 = el.length)
    (hnd : (degs.map (vdmBase val)).Nodup) (h0 : (0 : F) ∉ degs.map (vdmBase val)) :
    ∃ poly, solveVandermondeSystem degs nums val = some poly ∧ WFMap (val.length + 1) poly ∧
      poly.map Prod.fst = degs ∧
      ∀ c : FFMap F, c.map Prod.fst = degs →
        ((∀ k < degs.length,
          (c.map fun t => t.2 * (∏ i ∈ Finset.range val.length, val.getD i 0 ^ t.1.getD (i + 1) 0) ^ (k + 1)).sum
            = nums.getD k 0) ↔ c = poly) := by
  have hdnd : degs.Nodup := hnd.of_map _
  set vis := degs.map (vdmBase val) with hvis
  have hvl : vis.length = degs.length := by simp [hvis]
  set e := vdmEntry degs.length (fun i => vis.getD i 0) (fun i => nums.getD i 0) with he
  -- the loop of `emplace`s
  have loop : ∀ n, n ≤ degs.length →
      (List.range n).foldl (fun (poly : FFMap F) (i : ℕ) => poly.emplace (degs.getD i []) (e i)) [] =
        (List.range n).map (fun i => (degs.getD i [], e i)) := by
    intro n
    induction n with
    | zero => intro _; simp
    | succ n ih =>
      intro hn
      rw [List.range_succ, List.foldl_append, ih (by omega), List.map_append]
      simp only [List.foldl_cons, List.foldl_nil, List.map_cons, List.map_nil]
      unfold FFMap.emplace
      rw [if_neg]
      rw [Bool.not_eq_true, Option.isSome_eq_false_iff, Option.isNone_iff_eq_none, FFMap.find?_eq_none]
      rw [List.map_map]
      intro hmem
      rw [List.mem_map] at hmem
      obtain ⟨j, hj, hje⟩ := hmem
      rw [List.mem_range] at hj
      simp only [Function.comp_apply] at hje
      rw [List.getD_eq_getElem _ _ (by omega : j < degs.length), List.getD_eq_getElem _ _ (by omega : n < degs.length)] at hje
      have := (hdnd.getElem_inj_iff).mp hje
      omega
  set poly := (List.range degs.length).map (fun i => (degs.getD i [], e i)) with hpoly
  have hkeys : poly.map Prod.fst = degs := by
    rw [hpoly, List.map_map]
    apply List.ext_getElem (by simp)
    intro i h1 h2
    simp only [List.getElem_map, List.getElem_range, Function.comp_apply]
    rw [List.getD_eq_getElem _ _ h2]
  refine ⟨poly, ?_, ?_, hkeys, ?_⟩
  · unfold solveVandermondeSystem
    rw [if_neg]
    · exact congrArg some (loop _ le_rfl)
    · rw [not_or, not_or, not_not]
      exact ⟨hne, by omega, fun el hel => (hdl el hel).le⟩
  · rw [wf_iff, hkeys]
    exact ⟨hdnd, fun k hk => (hdl k hk).symm⟩
  · intro c hc
    have hcl : c.length = degs.length := by rw [← hc, List.length_map]
    have hinj : ∀ i < degs.length, ∀ j < degs.length, vis.getD i 0 = vis.getD j 0 → i = j := by
      intro i hi j hj h
      rw [List.getD_eq_getElem _ _ (by omega), List.getD_eq_getElem _ _ (by omega)] at h
      exact (hnd.getElem_inj_iff).mp h
    have h0' : ∀ i < degs.length, vis.getD i 0 ≠ 0 := by
      intro i hi h
      rw [List.getD_eq_getElem _ _ (by omega)] at h
      exact h0 (h ▸ List.getElem_mem (by omega))
    have key := vdm_unique_solution (fun i => vis.getD i 0) (fun i => nums.getD i 0) hinj h0'
      (fun i => (c.map Prod.snd).getD i 0)
    have hci : ∀ i (h : i < c.length), (c[i]).1 = degs[i]'(by omega) := by
      intro i h
      have : (c.map Prod.fst)[i]'(by simpa using h) = degs[i]'(by omega) := by simp only [hc]
      simpa using this
    have hsum : ∀ k, (c.map fun t => t.2 *
        (∏ i ∈ Finset.range val.length, val.getD i 0 ^ t.1.getD (i + 1) 0) ^ (k + 1)).sum =
        ∑ i ∈ Finset.range degs.length, (c.map Prod.snd).getD i 0 * vis.getD i 0 ^ (k + 1) := by
      intro k
      rw [← hcl]
      apply list_sum_range
      intro i hi
      rw [List.getD_eq_getElem _ _ (by simpa using hi), List.getD_eq_getElem _ _ (by omega)]
      simp only [hvis, List.getElem_map]
      rw [vdmBase_eq, hci i hi]
    simp only [hsum]
    rw [key]
    constructor
    · intro h
      apply List.ext_getElem (by simp [hpoly, hcl])
      intro i h1 h2
      have hv := h i (by omega)
      rw [List.getD_eq_getElem _ _ (by simpa using h1)] at hv
      simp only [List.getElem_map] at hv
      simp only [hpoly, List.getElem_map, List.getElem_range]
      rw [List.getD_eq_getElem _ _ (by omega), ← hci i h1, he, ← hv]
    · rintro rfl i hi
      rw [List.getD_eq_getElem _ _ (by simp only [List.length_map]; omega)]
      simp only [hpoly, List.getElem_map, List.getElem_range, he]

/-- a concrete system: nodes 2, 3 and right-hand sides `5·2 + 7·3`, `5·4 + 7·9` -/
example : solveTransposedVandermonde [(2 : ℚ), 3] [31, 83] = some [5, 7] := by
  rw [C20_transposed _ _ (by simp) (by simp) (by norm_num) (by norm_num)]
  refine ⟨rfl, ?_⟩
  intro k hk
  have : k = 0 ∨ k = 1 := by simp at hk; omega
  rcases this with rfl | rfl <;> (erw [Fin.sum_univ_two]; norm_num)

/-- the hypotheses of `C20_system` hold for the monomials `1·z₂`, `z₂²` at `z₂ = 2` -/
example : ([[3, 1], [2, 2]].map (vdmBase [(2 : ℚ)])).Nodup ∧ (0 : ℚ) ∉ [[3, 1], [2, 2]].map (vdmBase [(2 : ℚ)]) := by
  norm_num [vdmBase_eq]

end FireFly
