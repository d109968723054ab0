import Verif.Model.Scan
import Verif.Lemmas.RatMultiMain
/-! # The linear system for the powers that are known -/
set_option linter.all false
namespace FireFly.RMulti
variable {F : Type} [Field F] [DecidableEq F]

/-- the unknowns -/
def unk (one : Bool) (l : List ℕ) : List ℕ := l.filter (fun k => !(one && k == 0))

lemma unk_nodup {one : Bool} {l : List ℕ} (h : l.Nodup) : (unk one l).Nodup := h.filter _

lemma mem_unk {one : Bool} {l : List ℕ} {k : ℕ} : k ∈ unk one l ↔ k ∈ l ∧ ¬ (one = true ∧ k = 0) := by
  unfold unk
  rw [List.mem_filter]
  cases one <;> simp

lemma unk_false (l : List ℕ) : unk false l = l := by unfold unk; simp

lemma unk_length {l : List ℕ} (h : l.Nodup) (h0 : 0 ∈ l) : (unk true l).length + 1 = l.length := by
  have e : unk true l = l.erase 0 := by
    rw [h.erase_eq_filter]
    unfold unk
    apply List.filter_congr
    intro x _
    by_cases hx : x = 0
    · simp [hx]
    · simp [hx, bne]
  rw [e, List.length_erase_of_mem h0]
  have := List.length_pos_of_mem h0
  omega

lemma factorRow_eq (normDen : Bool) (dN dD : List ℕ) (t v : F) : factorRow normDen dN dD t v =
    rowOf (unk (!normDen) dN) (unk normDen dD) (if normDen = false ∧ 0 ∈ dN then [([0], 1)] else []) (if normDen = true ∧ 0 ∈ dD then [([0], 1)] else []) (t, v) := by
  unfold factorRow rowOf unk
  cases normDen
  · by_cases h : 0 ∈ dN <;> simp [h]
  · by_cases h : 0 ∈ dD <;> simp [h]

lemma find_cons_self {α : Type} (k : List ℕ) (v : α) (m : FFMap α) : FFMap.find? ((k, v) :: m) k = some v := by
  unfold FFMap.find?; simp [List.lookup]

lemma find_cons_ne {α : Type} {k k' : List ℕ} (h : k ≠ k') (v : α) (m : FFMap α) : FFMap.find? ((k', v) :: m) k = FFMap.find? m k := by
  unfold FFMap.find?
  rw [List.lookup_cons]
  have : (k == k') = false := by simpa using h
  rw [this]

/-- what the loops of `solve_factor_uni_gauss` give -/
lemma factorTake_spec (one : Bool) (x : ℕ → F) : ∀ (l : List ℕ) (i : ℕ), l.Nodup →
    (factorTake one x l i).2 = i + (unk one l).length ∧ WFMap 1 (factorTake one x l i).1 ∧ (∀ t ∈ (factorTake one x l i).1, t.2 ≠ 0 ∧ ∃ k ∈ l, t.1 = [k]) ∧
    (∀ k, ((factorTake one x l i).1.find? [k]).getD 0 = if one = true ∧ k = 0 then (if 0 ∈ l then 1 else 0) else if k ∈ l then x (i + (unk one l).idxOf k) else 0) := by
  intro l
  induction l with
  | nil => intro i _; exact ⟨by simp [factorTake, unk], ⟨by simp [factorTake], by simp [factorTake]⟩, by simp [factorTake], by intro k; simp [factorTake, FFMap.find?]⟩
  | cons a l ih =>
    intro i hnd
    obtain ⟨ha, hl⟩ := List.nodup_cons.mp hnd
    rw [factorTake]
    by_cases h1 : (one && a == 0) = true
    · rw [if_pos h1]
      have ho : one = true := by revert h1; cases one <;> simp
      have ha0 : a = 0 := by revert h1; cases one <;> simp
      subst ha0
      obtain ⟨e1, e2, e3, e4⟩ := ih i hl
      have hu : unk one (0 :: l) = unk one l := by unfold unk; rw [List.filter_cons]; simp [ho]
      refine ⟨by simp only [e1, hu], ⟨?_, ?_⟩, ?_, ?_⟩
      · show (([0] : List ℕ) :: (factorTake one x l i).1.map Prod.fst).Nodup
        rw [List.nodup_cons]
        refine ⟨fun hm => ?_, e2.1⟩
        obtain ⟨t, ht, hte⟩ := List.mem_map.mp hm
        obtain ⟨-, k, hk, hk'⟩ := e3 t ht
        rw [hk'] at hte
        simp at hte
        exact ha (hte ▸ hk)
      · intro t ht
        rcases List.mem_cons.mp ht with rfl | ht
        · rfl
        · exact e2.2 t ht
      · intro t ht
        rcases List.mem_cons.mp ht with rfl | ht
        · exact ⟨one_ne_zero, 0, by simp, rfl⟩
        · obtain ⟨g1, k, hk, g2⟩ := e3 t ht
          exact ⟨g1, k, by simp [hk], g2⟩
      · intro k
        show (FFMap.find? (([0], 1) :: (factorTake one x l i).1) [k]).getD 0 = _
        by_cases hk : k = 0
        · subst hk; rw [find_cons_self]; simp [ho]
        · have : FFMap.find? (([0], 1) :: (factorTake one x l i).1) [k] = (factorTake one x l i).1.find? [k] := by
            exact find_cons_ne (by simpa using hk) _ _
          rw [this, e4 k, hu]
          simp [hk]
    · rw [if_neg h1]
      obtain ⟨e1, e2, e3, e4⟩ := ih (i + 1) hl
      have hu : unk one (a :: l) = a :: unk one l := by
        unfold unk; rw [List.filter_cons]
        simp only [Bool.not_eq_true] at h1
        simp [h1]
      have hnone : ¬ (one = true ∧ a = 0) := by rintro ⟨rfl, rfl⟩; simp at h1
      have hkeys : ∀ k, k ∉ l → (factorTake one x l (i + 1)).1.find? [k] = none := by
        intro k hk
        rw [FFMap.find?_eq_none]
        intro hm
        obtain ⟨t, ht, hte⟩ := List.mem_map.mp hm
        obtain ⟨-, k', hk', h2⟩ := e3 t ht
        rw [h2] at hte
        simp at hte
        exact hk (hte ▸ hk')
      refine ⟨by simp only [e1, hu, List.length_cons]; omega, ?_, ?_, ?_⟩
      · show WFMap 1 (if x i ≠ 0 then ([a], x i) :: (factorTake one x l (i + 1)).1 else (factorTake one x l (i + 1)).1)
        by_cases hx : x i = 0
        · rw [if_neg (by simpa using hx)]; exact e2
        · rw [if_pos hx]
          refine ⟨?_, ?_⟩
          · show (([a] : List ℕ) :: (factorTake one x l (i + 1)).1.map Prod.fst).Nodup
            rw [List.nodup_cons]
            exact ⟨FFMap.find?_eq_none.mp (hkeys a ha), e2.1⟩
          · intro t ht
            rcases List.mem_cons.mp ht with rfl | ht
            · rfl
            · exact e2.2 t ht
      · intro t ht
        change t ∈ (if x i ≠ 0 then ([a], x i) :: (factorTake one x l (i + 1)).1 else (factorTake one x l (i + 1)).1) at ht
        by_cases hx : x i = 0
        · rw [if_neg (by simpa using hx)] at ht
          obtain ⟨g1, k, hk, g2⟩ := e3 t ht
          exact ⟨g1, k, by simp [hk], g2⟩
        · rw [if_pos hx] at ht
          rcases List.mem_cons.mp ht with rfl | ht
          · exact ⟨hx, a, by simp, rfl⟩
          · obtain ⟨g1, k, hk, g2⟩ := e3 t ht
            exact ⟨g1, k, by simp [hk], g2⟩
      · intro k
        show (FFMap.find? (if x i ≠ 0 then ([a], x i) :: (factorTake one x l (i + 1)).1 else (factorTake one x l (i + 1)).1) [k]).getD 0 = _
        by_cases hk : k = a
        · subst hk
          have hr : (if one = true ∧ k = 0 then (if 0 ∈ k :: l then (1 : F) else 0) else if k ∈ k :: l then x (i + (unk one (k :: l)).idxOf k) else 0) = x i := by
            rw [if_neg hnone, if_pos (by simp), hu]
            simp only [List.idxOf_cons_self, Nat.add_zero]
          rw [hr]
          by_cases hx : x i = 0
          · rw [if_neg (by simpa using hx), hkeys k ha, hx]; rfl
          · rw [if_pos hx, find_cons_self]; rfl
        · have e : FFMap.find? (if x i ≠ 0 then ([a], x i) :: (factorTake one x l (i + 1)).1 else (factorTake one x l (i + 1)).1) [k] = (factorTake one x l (i + 1)).1.find? [k] := by
            by_cases hx : x i = 0
            · rw [if_neg (by simpa using hx)]
            · rw [if_pos hx]
              exact find_cons_ne (by simpa using hk) _ _
          rw [e, e4 k, hu]
          by_cases hc : one = true ∧ k = 0
          · rw [if_pos hc, if_pos hc]
            have : (0 : ℕ) ∈ a :: l ↔ 0 ∈ l := by
              rw [List.mem_cons]
              constructor
              · rintro (h | h)
                · exact absurd (hc.2.trans h) hk
                · exact h
              · exact Or.inr
            simp only [this]
          · rw [if_neg hc, if_neg hc]
            simp only [List.mem_cons, hk, false_or]
            by_cases hkl : k ∈ l
            · rw [if_pos hkl, if_pos hkl, List.idxOf_cons_ne _ (Ne.symm hk)]
              congr 1; omega
            · rw [if_neg hkl, if_neg hkl]

/-- a polynomial whose powers are in the list -/
lemma eval_of_list {n : Polynomial F} {l : List ℕ} (hl : l.Nodup) (hs : ∀ k, n.coeff k ≠ 0 → k ∈ l) (t : F) : n.eval t = ∑ k ∈ l.toFinset, n.coeff k * t ^ k := by
  rw [Polynomial.eval_eq_sum, Polynomial.sum_def]
  apply Finset.sum_subset
  · intro k hk
    rw [List.mem_toFinset]
    exact hs k (Polynomial.mem_support_iff.mp hk)
  · intro k _ hk
    rw [Polynomial.notMem_support_iff.mp hk, zero_mul]

/-- one polynomial in the equation: the unknowns and the constant -/
lemma sum_unk (one : Bool) {l : List ℕ} (hl : l.Nodup) (h0 : one = true → 0 ∈ l) (f : ℕ → F) :
    ∑ k ∈ l.toFinset, f k = ∑ k ∈ (unk one l).toFinset, f k + if one = true then f 0 else 0 := by
  cases one
  · rw [unk_false]; simp
  · have : l.toFinset = insert 0 (unk true l).toFinset := by
      ext k
      rw [List.mem_toFinset, Finset.mem_insert, List.mem_toFinset, mem_unk]
      constructor
      · intro h
        by_cases hk : k = 0
        · exact Or.inl hk
        · exact Or.inr ⟨h, by simp [hk]⟩
      · rintro (rfl | h)
        · exact h0 rfl
        · exact h.1
    rw [this, Finset.sum_insert (by rw [List.mem_toFinset, mem_unk]; simp), add_comm]
    simp

lemma sum_idx (A : List ℕ) (hA : A.Nodup) (z : ℕ → F) (j : ℕ) (t : F) : ∑ i ∈ Finset.range A.length, z (j + i) * t ^ A.getD i 0 = ∑ k ∈ A.toFinset, z (j + A.idxOf k) * t ^ k :=
  sum_index A hA (fun i => z (j + i)) (fun k => t ^ k)

/-- The system has one solution: the coefficients of the polynomials. -/
lemma factorSolve_spec {gt : F → F → Bool} (gtp : PivotOrder gt) {normDen : Bool} {dN dD : List ℕ} {n d : Polynomial F} {pts : List (F × F)} (hN : dN.Nodup) (hD : dD.Nodup)
    (sN : ∀ k, n.coeff k ≠ 0 → k ∈ dN) (sD : ∀ k, d.coeff k ≠ 0 → k ∈ dD) (h1 : (if normDen then d else n).coeff 0 = 1)
    (hdata : ∀ q ∈ pts, q.2 * d.eval q.1 = n.eval q.1) (hlen : pts.length = dN.length + dD.length - 1) (hpos : 1 ≤ pts.length)
    (huniq : ∀ a b : ℕ → F, (if normDen then b 0 else a 0) = 0 → (∀ q ∈ pts, ∑ k ∈ dN.toFinset, a k * q.1 ^ k = q.2 * ∑ k ∈ dD.toFinset, b k * q.1 ^ k) →
      (∀ k ∈ dN, a k = 0) ∧ ∀ k ∈ dD, b k = 0) :
    ∃ r, factorSolve gt normDen dN dD (pts.map (fun q => factorRow normDen dN dD q.1 q.2)) = some r ∧
      (WFMap 1 r.1 ∧ (∀ t ∈ r.1, t.2 ≠ 0) ∧ ∀ k, (r.1.find? [k]).getD 0 = n.coeff k) ∧ (WFMap 1 r.2 ∧ (∀ t ∈ r.2, t.2 ≠ 0) ∧ ∀ k, (r.2.find? [k]).getD 0 = d.coeff k) := by
  have z1 : normDen = true → 0 ∈ dD := by
    rintro rfl
    exact sD 0 (by rw [show d.coeff 0 = 1 from h1]; exact one_ne_zero)
  have z2 : normDen = false → 0 ∈ dN := by
    rintro rfl
    exact sN 0 (by rw [show n.coeff 0 = 1 from h1]; exact one_ne_zero)
  obtain ⟨A, hA⟩ : ∃ A, unk (!normDen) dN = A := ⟨_, rfl⟩
  obtain ⟨B, hB⟩ : ∃ B, unk normDen dD = B := ⟨_, rfl⟩
  have nA : A.Nodup := hA ▸ unk_nodup hN
  have nB : B.Nodup := hB ▸ unk_nodup hD
  have mA : ∀ {k}, k ∈ A ↔ k ∈ dN ∧ ¬ ((!normDen) = true ∧ k = 0) := fun {k} => by rw [← hA]; exact mem_unk
  have mB : ∀ {k}, k ∈ B ↔ k ∈ dD ∧ ¬ (normDen = true ∧ k = 0) := fun {k} => by rw [← hB]; exact mem_unk
  have hn : pts.length = A.length + B.length := by
    rw [hlen, ← hA, ← hB]
    cases hb : normDen
    · simp only [Bool.not_false]
      rw [unk_false]
      have := unk_length hN (z2 hb)
      omega
    · simp only [Bool.not_true]
      rw [unk_false]
      have := unk_length hD (z1 hb)
      omega
  set rows := pts.map (fun q => factorRow normDen dN dD q.1 q.2) with hrows
  have hrl : rows.length = pts.length := by rw [hrows, List.length_map]
  let a : Mat F := fun i j => (rows.getD i []).getD j 0
  let SN : FFMap F := if normDen = false ∧ 0 ∈ dN then [([0], 1)] else []
  let SD : FFMap F := if normDen = true ∧ 0 ∈ dD then [([0], 1)] else []
  have ha : ∀ (r : ℕ) (hr' : r < pts.length) (j : ℕ), a r j = (rowOf A B SN SD pts[r]).getD j 0 := by
    intro r hr' j
    show (rows.getD r []).getD j 0 = _
    rw [List.getD_eq_getElem rows _ (by omega)]
    congr 1
    simp only [hrows, List.getElem_map]
    rw [factorRow_eq normDen dN dD, hA, hB]
  have hdot : ∀ (z : ℕ → F) (r : ℕ) (hr' : r < pts.length), ∑ j ∈ Finset.range pts.length, a r j * z j =
      ∑ k ∈ A.toFinset, z (A.idxOf k) * pts[r].1 ^ k - pts[r].2 * ∑ k ∈ B.toFinset, z (A.length + B.idxOf k) * pts[r].1 ^ k := by
    intro z r hr'
    have g1 : ∑ i ∈ Finset.range A.length, z i * pts[r].1 ^ A.getD i 0 = ∑ k ∈ A.toFinset, z (A.idxOf k) * pts[r].1 ^ k := by
      have := sum_idx A nA z 0 pts[r].1
      simpa using this
    rw [← sum_idx B nB, ← g1, ← rowOf_left A B SN SD pts[r] z, hn]
    apply Finset.sum_congr rfl
    intro j _
    rw [ha r hr' j]
  -- a solution of the homogeneous system
  have hz0 : ∀ z : ℕ → F, (∀ r < pts.length, ∑ j ∈ Finset.range pts.length, a r j * z j = 0) → ∀ i < pts.length, z i = 0 := by
    intro z hz
    obtain ⟨w1, w2⟩ := huniq (fun k => if k ∈ A then z (A.idxOf k) else 0) (fun k => if k ∈ B then z (A.length + B.idxOf k) else 0)
      (by
        cases hb : normDen
        · simp only [Bool.false_eq_true, if_false]
          rw [if_neg (by rw [mA]; simp [hb])]
        · simp only [if_true]
          rw [if_neg (by rw [mB]; simp [hb])])
      (by
        intro q hq
        obtain ⟨r, hr', rfl⟩ := List.mem_iff_getElem.mp hq
        have e := hz r hr'
        rw [hdot z r hr'] at e
        have f1 : ∑ k ∈ dN.toFinset, (if k ∈ A then z (A.idxOf k) else 0) * pts[r].1 ^ k = ∑ k ∈ A.toFinset, z (A.idxOf k) * pts[r].1 ^ k := by
          symm
          apply Finset.sum_subset_zero_on_sdiff
          · intro k hk
            rw [List.mem_toFinset] at hk ⊢
            exact (mA.mp hk).1
          · intro k hk
            rw [Finset.mem_sdiff, List.mem_toFinset, List.mem_toFinset] at hk
            rw [if_neg hk.2, zero_mul]
          · intro k hk
            rw [List.mem_toFinset] at hk
            rw [if_pos hk]
        have f2 : ∑ k ∈ dD.toFinset, (if k ∈ B then z (A.length + B.idxOf k) else 0) * pts[r].1 ^ k = ∑ k ∈ B.toFinset, z (A.length + B.idxOf k) * pts[r].1 ^ k := by
          symm
          apply Finset.sum_subset_zero_on_sdiff
          · intro k hk
            rw [List.mem_toFinset] at hk ⊢
            exact (mB.mp hk).1
          · intro k hk
            rw [Finset.mem_sdiff, List.mem_toFinset, List.mem_toFinset] at hk
            rw [if_neg hk.2, zero_mul]
          · intro k hk
            rw [List.mem_toFinset] at hk
            rw [if_pos hk]
        rw [f1, f2]
        exact sub_eq_zero.mp e)
    intro i hi
    by_cases hiA : i < A.length
    · have hm : A[i] ∈ A := List.getElem_mem hiA
      have := w1 A[i] (mA.mp hm).1
      rw [if_pos hm, nA.idxOf_getElem] at this
      exact this
    · have hj : i - A.length < B.length := by omega
      have hm : B[i - A.length] ∈ B := List.getElem_mem hj
      have := w2 B[i - A.length] (mB.mp hm).1
      rw [if_pos hm, nB.idxOf_getElem] at this
      rw [show A.length + (i - A.length) = i by omega] at this
      exact this
  have hdet : (toMatrix pts.length a).det ≠ 0 := by
    intro h0
    obtain ⟨x, ⟨j, hj, hx⟩, hz⟩ := (det_zero_iff _ _).mp h0
    exact hx (hz0 x hz j hj)
  obtain ⟨x, e1, e2⟩ := C22_solve gtp a false hpos hdet
  let y : ℕ → F := fun j => if j < A.length then n.coeff (A.getD j 0) else d.coeff (B.getD (j - A.length) 0)
  have yA : ∀ k ∈ A, y (A.idxOf k) = n.coeff k := by
    intro k hk
    have hlt := List.idxOf_lt_length_of_mem hk
    show (if _ then _ else _) = _
    rw [if_pos hlt, List.getD_eq_getElem _ _ hlt, List.getElem_idxOf]
  have yB : ∀ k ∈ B, y (A.length + B.idxOf k) = d.coeff k := by
    intro k hk
    have hlt := List.idxOf_lt_length_of_mem hk
    show (if _ then _ else _) = _
    rw [if_neg (by omega), Nat.add_sub_cancel_left, List.getD_eq_getElem _ _ hlt, List.getElem_idxOf]
  have hy : ∀ r < pts.length, ∑ j ∈ Finset.range pts.length, a r j * y j = a r pts.length := by
    intro r hr'
    rw [hdot y r hr', ha r hr', hn, rowOf_rhs]
    have hv := hdata pts[r] (List.getElem_mem hr')
    rw [eval_of_list hN sN, eval_of_list hD sD, sum_unk (!normDen) hN (by simpa using z2), sum_unk normDen hD z1, hA, hB] at hv
    have t1 : ∑ k ∈ A.toFinset, y (A.idxOf k) * pts[r].1 ^ k = ∑ k ∈ A.toFinset, n.coeff k * pts[r].1 ^ k :=
      Finset.sum_congr rfl (fun k hk => by rw [yA k (List.mem_toFinset.mp hk)])
    have t2 : ∑ k ∈ B.toFinset, y (A.length + B.idxOf k) * pts[r].1 ^ k = ∑ k ∈ B.toFinset, d.coeff k * pts[r].1 ^ k :=
      Finset.sum_congr rfl (fun k hk => by rw [yB k (List.mem_toFinset.mp hk)])
    rw [t1, t2]
    cases hb : normDen
    · have hS1 : SN = [([0], 1)] := if_pos ⟨hb, z2 hb⟩
      have hS2 : SD = [] := if_neg (by simp [hb])
      rw [hS1, hS2]
      rw [hb] at h1
      simp only [Bool.false_eq_true, if_false] at h1
      rw [hb] at hv
      simp only [Bool.not_false, if_true, Bool.false_eq_true, if_false, h1, add_zero, pow_zero, mul_one] at hv
      simp only [List.map_cons, List.map_nil, List.sum_cons, List.sum_nil, List.getD_cons_zero, pow_zero, mul_one, mul_zero, add_zero]
      linear_combination -hv
    · have hS1 : SN = [] := if_neg (by simp [hb])
      have hS2 : SD = [([0], 1)] := if_pos ⟨hb, z1 hb⟩
      rw [hS1, hS2]
      rw [hb] at h1
      simp only [if_true] at h1
      rw [hb] at hv
      simp only [Bool.not_true, if_true, Bool.false_eq_true, if_false, h1, add_zero, pow_zero, mul_one] at hv
      simp only [List.map_cons, List.map_nil, List.sum_cons, List.sum_nil, List.getD_cons_zero, pow_zero, mul_one, mul_zero, add_zero]
      linear_combination -hv
  have hxy : ∀ i < pts.length, x i = y i := by
    intro i hi
    have := hz0 (fun j => x j - y j) (by
      intro r hr'
      have g1 := e2 r hr'
      have g2 := hy r hr'
      simp only [mul_sub, Finset.sum_sub_distrib]
      rw [g1, g2, sub_self]) i hi
    exact sub_eq_zero.mp this
  obtain ⟨u1, u2, u3, u4⟩ := factorTake_spec (!normDen) x dN 0 hN
  obtain ⟨v1, v2, v3, v4⟩ := factorTake_spec normDen x dD (factorTake (!normDen) x dN 0).2 hD
  have e1' : solveGauss gt rows.length a false = some x := by rw [hrl]; exact e1
  refine ⟨((factorTake (!normDen) x dN 0).1, (factorTake normDen x dD (factorTake (!normDen) x dN 0).2).1), ?_, ⟨u2, fun t ht => (u3 t ht).1, ?_⟩, v2, fun t ht => (v3 t ht).1, ?_⟩
  · unfold factorSolve
    show (solveGauss gt rows.length a false).map _ = _
    rw [e1']; rfl
  · intro k
    simp only
    rw [u4 k]
    split
    · rename_i hc
      obtain ⟨hc1, rfl⟩ := hc
      have hb : normDen = false := by simpa using hc1
      rw [if_pos (z2 hb)]
      rw [hb] at h1
      exact h1.symm
    · rename_i hc
      split
      · rename_i hk
        have hkA : k ∈ A := mA.mpr ⟨hk, hc⟩
        have hlt := List.idxOf_lt_length_of_mem hkA
        rw [hA, Nat.zero_add, hxy _ (by omega)]
        exact yA k hkA
      · rename_i hk
        by_contra hne
        exact hk (sN k (Ne.symm hne))
  · intro k
    simp only
    rw [v4 k]
    split
    · rename_i hc
      obtain ⟨hc1, rfl⟩ := hc
      rw [if_pos (z1 hc1)]
      rw [hc1] at h1
      exact h1.symm
    · rename_i hc
      split
      · rename_i hk
        have hkB : k ∈ B := mB.mpr ⟨hk, hc⟩
        have hlt := List.idxOf_lt_length_of_mem hkB
        rw [u1, hA, hB, Nat.zero_add, hxy _ (by omega)]
        exact yB k hkB
      · rename_i hk
        by_contra hne
        exact hk (sD k (Ne.symm hne))

end FireFly.RMulti
