import Verif.Model.DenseSolver
import Mathlib.LinearAlgebra.Matrix.NonsingularInverse
import Mathlib.LinearAlgebra.Matrix.ToLinearEquiv
import Mathlib.LinearAlgebra.Matrix.Block
import Mathlib.Algebra.Field.ZMod
/-! # C22, C23: dense linear solvers -/
set_option linter.all false
open scoped Matrix
namespace FireFly
variable {F : Type} [Field F] [DecidableEq F]

/-- what is used of `operator>` on field elements (the comparison of the stored words) -/
structure PivotOrder (gt : F → F → Bool) : Prop where
  pos : ∀ x y, gt x y = true → x ≠ 0
  zero : ∀ x, x ≠ 0 → gt x 0 = true

/-- the leading `n × n` block -/
def toMatrix (n : ℕ) (a : Mat F) : Matrix (Fin n) (Fin n) F := Matrix.of fun i j => a i j

/-! ### forward elimination -/

lemma pivot_fold {gt : F → F → Bool} (hgt : PivotOrder gt) (a : Mat F) (i : ℕ) : ∀ (l : List ℕ) (s : F × ℕ),
    a s.2 i = s.1 ∨ s.1 = 0 →
    let r := l.foldl (pivotStep gt a i) s
    (r.2 = s.2 ∨ r.2 ∈ l) ∧ (a r.2 i ≠ 0 ∨ (s.1 = 0 ∧ ∀ k ∈ l, a k i = 0))
  | [], s, h => by
    refine ⟨Or.inl rfl, ?_⟩
    by_cases h0 : s.1 = 0
    · exact Or.inr ⟨h0, by simp⟩
    · left
      rcases h with h | h
      · simpa [h] using h0
      · exact absurd h h0
  | k :: l, s, h => by
    intro r
    have hs : a (pivotStep gt a i s k).2 i = (pivotStep gt a i s k).1 ∨ (pivotStep gt a i s k).1 = 0 := by
      unfold pivotStep
      split
      · exact Or.inl rfl
      · exact h
    have ih := pivot_fold hgt a i l (pivotStep gt a i s k) hs
    have hr : r = l.foldl (pivotStep gt a i) (pivotStep gt a i s k) := rfl
    simp only [← hr] at ih
    obtain ⟨h1, h2⟩ := ih
    constructor
    · rcases h1 with h1 | h1
      · rw [h1]
        unfold pivotStep
        split
        · right; simp
        · left; rfl
      · right; exact List.mem_cons_of_mem _ h1
    · rcases h2 with h2 | ⟨h2, h3⟩
      · exact Or.inl h2
      · right
        unfold pivotStep at h2
        split at h2
        · rename_i hg
          exact absurd h2 (hgt.pos _ _ hg)
        · rename_i hg
          refine ⟨h2, ?_⟩
          intro q hq
          rcases List.mem_cons.mp hq with rfl | hq
          · by_contra hne
            apply hg
            rw [h2]
            exact hgt.zero _ hne
          · exact h3 q hq

lemma mem_range'_below {i n k : ℕ} : k ∈ List.range' (i + 1) (n - (i + 1)) ↔ i < k ∧ k < n := by
  rw [List.mem_range'_1]; omega

lemma pivotRow_spec {gt : F → F → Bool} (hgt : PivotOrder gt) (n : ℕ) (a : Mat F) (i : ℕ) (hi : i < n) :
    i ≤ pivotRow gt n a i ∧ pivotRow gt n a i < n ∧
    (a (pivotRow gt n a i) i ≠ 0 ∨ ∀ k, i ≤ k → k < n → a k i = 0) := by
  have := pivot_fold hgt a i (List.range' (i + 1) (n - (i + 1))) (a i i, i) (Or.inl rfl)
  simp only at this
  obtain ⟨h1, h2⟩ := this
  have h3 : i ≤ pivotRow gt n a i ∧ pivotRow gt n a i < n := by
    unfold pivotRow
    rcases h1 with h1 | h1
    · rw [h1]; omega
    · rw [mem_range'_below] at h1; omega
  refine ⟨h3.1, h3.2, ?_⟩
  rcases h2 with h2 | ⟨h2, h4⟩
  · exact Or.inl h2
  · right
    intro k hk1 hk2
    rcases Nat.eq_or_lt_of_le hk1 with rfl | hlt
    · exact h2
    · exact h4 k (mem_range'_below.mpr ⟨hlt, hk2⟩)

/-- the rows are orthogonal to `y` -/
def ZeroRows (n w : ℕ) (a : Mat F) (y : ℕ → F) : Prop := ∀ r < n, ∑ j ∈ Finset.range w, a r j * y j = 0

/-- the first `i` columns are upper triangular -/
def LowZero (n i : ℕ) (a : Mat F) : Prop := ∀ r c, c < i → c < r → r < n → a r c = 0

/-- the pivot is nonzero or nothing is to be eliminated -/
def PivOK (n i : ℕ) (a : Mat F) : Prop := a i i ≠ 0 ∨ ∀ k, i < k → k < n → a k i = 0

lemma swap_spec {n w i r : ℕ} {a : Mat F} (hir : i ≤ r) (hrn : r < n) (hlow : LowZero n i a) :
    LowZero n i (swapFrom w a r i) ∧ ∀ y, ZeroRows n w a y ↔ ZeroRows n w (swapFrom w a r i) y := by
  -- on the columns below `w` the rows are exchanged
  have hrow : ∀ q, q < n → ∀ j, j < w → swapFrom w a r i q j = a (if q = r then i else if q = i then r else q) j := by
    intro q hq j hj
    unfold swapFrom
    by_cases hij : i ≤ j
    · rw [if_pos ⟨hij, hj⟩]
      split
      · rfl
      · split <;> rfl
    · rw [if_neg (by tauto)]
      split
      · rename_i h; subst h
        rw [hlow q j (by omega) (by omega) hq]
        rcases Nat.eq_or_lt_of_le hir with h | h
        · rw [h, hlow q j (by omega) (by omega) hq]
        · rw [hlow i j (by omega) (by omega) (by omega)]
      · split
        · rename_i h1 h; subst h
          rw [hlow q j (by omega) (by omega) hq, hlow r j (by omega) (by omega) hrn]
        · rfl
  constructor
  · intro q c hc hcq hq
    unfold swapFrom
    rw [if_neg (by omega)]
    exact hlow q c hc hcq hq
  · intro y
    constructor
    · intro h q hq
      rw [← h (if q = r then i else if q = i then r else q) (by split <;> [omega; (split <;> omega)])]
      apply Finset.sum_congr rfl
      intro j hj
      rw [hrow q hq j (Finset.mem_range.mp hj)]
    · intro h q hq
      have hq' : (if q = r then i else if q = i then r else q) < n := by split <;> [omega; (split <;> omega)]
      rw [← h (if q = r then i else if q = i then r else q) hq']
      apply Finset.sum_congr rfl
      intro j hj
      rw [hrow _ hq' j (Finset.mem_range.mp hj)]
      congr 2
      by_cases h1 : q = r
      · subst h1
        rw [if_pos rfl]
        by_cases h2 : i = q
        · rw [if_pos h2]; exact h2.symm
        · rw [if_neg h2, if_pos rfl]
      · rw [if_neg h1]
        by_cases h2 : q = i
        · rw [if_pos h2, if_pos rfl]; exact h2
        · rw [if_neg h2, if_neg h1, if_neg h2]

lemma elimRow_spec {n w i k : ℕ} {a : Mat F} (hik : i < k) (hkn : k < n) (hiw : i < w) (hlow : LowZero n i a)
    (hp : PivOK n i a) :
    LowZero n i (elimRow w i a k) ∧ PivOK n i (elimRow w i a k) ∧ elimRow w i a k k i = 0 ∧
    (∀ q, q ≠ k → elimRow w i a k q = a q) ∧ ∀ y, ZeroRows n w a y ↔ ZeroRows n w (elimRow w i a k) y := by
  have hother : ∀ q, q ≠ k → elimRow w i a k q = a q := by
    intro q hq
    funext j
    unfold elimRow
    rw [if_neg (by tauto)]
  have hki : elimRow w i a k k i = 0 := by
    unfold elimRow
    simp only
    rw [if_pos ⟨trivial, le_rfl, hiw⟩, if_pos trivial]
  have hrow : ∀ j, j < w → elimRow w i a k k j = a k j + (-a k i / a i i) * a i j := by
    intro j hj
    rcases lt_trichotomy j i with h | h | h
    · unfold elimRow
      simp only
      rw [if_neg (by omega), hlow i j h h (by omega), mul_zero, add_zero]
    · subst h
      rw [hki]
      rcases hp with hp | hp
      · field_simp
        ring
      · rw [hp k hik hkn]; simp
    · unfold elimRow
      simp only
      rw [if_pos ⟨trivial, by omega, hj⟩, if_neg (by omega)]
  refine ⟨?_, ?_, hki, hother, ?_⟩
  · intro r c hc hcr hr
    by_cases h : r = k
    · subst h
      unfold elimRow
      simp only
      rw [if_neg (by omega)]
      exact hlow r c hc hcr hr
    · rw [hother r h]; exact hlow r c hc hcr hr
  · rcases hp with hp | hp
    · left
      rw [hother i (by omega)]; exact hp
    · right
      intro q h1 h2
      by_cases h : q = k
      · rw [h]; exact hki
      · rw [hother q h]; exact hp q h1 h2
  · intro y
    have hsum : ∑ j ∈ Finset.range w, elimRow w i a k k j * y j =
        ∑ j ∈ Finset.range w, a k j * y j + (-a k i / a i i) * ∑ j ∈ Finset.range w, a i j * y j := by
      rw [Finset.mul_sum, ← Finset.sum_add_distrib]
      apply Finset.sum_congr rfl
      intro j hj
      rw [hrow j (Finset.mem_range.mp hj)]
      ring
    constructor
    · intro h r hr
      by_cases hrk : r = k
      · rw [hrk, hsum, h k hkn, h i (by omega)]; ring
      · rw [hother r hrk]; exact h r hr
    · intro h r hr
      by_cases hrk : r = k
      · have h1 := h k hkn
        have h2 := h i (by omega)
        rw [hother i (by omega)] at h2
        rw [hsum, h2, mul_zero, add_zero] at h1
        rw [hrk]; exact h1
      · have := h r hr
        rwa [hother r hrk] at this

lemma elim_fold {n w i : ℕ} (hiw : i < w) : ∀ (ks : List ℕ) (a : Mat F), (∀ k ∈ ks, i < k ∧ k < n) →
    LowZero n i a → PivOK n i a →
    let a' := ks.foldl (elimRow w i) a
    LowZero n i a' ∧ (∀ k, (k ∈ ks ∨ a k i = 0) → i < k → k < n → a' k i = 0) ∧
    ∀ y, ZeroRows n w a y ↔ ZeroRows n w a' y
  | [], a, _, hlow, hp => by
    refine ⟨hlow, ?_, fun y => Iff.rfl⟩
    intro k hk _ _
    rcases hk with hk | hk
    · simp at hk
    · exact hk
  | k :: ks, a, hks, hlow, hp => by
    intro a'
    obtain ⟨h1, h2, h3, h4, h5⟩ := elimRow_spec (w := w) (hks k (by simp)).1 (hks k (by simp)).2 hiw hlow hp
    have ih := elim_fold (n := n) hiw ks (elimRow w i a k) (fun q hq => hks q (List.mem_cons_of_mem _ hq)) h1 h2
    refine ⟨ih.1, ?_, fun y => (h5 y).trans (ih.2.2 y)⟩
    intro q hq hq1 hq2
    apply ih.2.1 q ?_ hq1 hq2
    rcases hq with hq | hq
    · rcases List.mem_cons.mp hq with rfl | hq
      · exact Or.inr h3
      · exact Or.inl hq
    · right
      by_cases hqk : q = k
      · rw [hqk]; exact h3
      · rw [h4 q hqk]; exact hq

lemma forwardStep_spec {gt : F → F → Bool} (hgt : PivotOrder gt) {n w i : ℕ} (hi : i < n) (hnw : n ≤ w) {a : Mat F}
    (hlow : LowZero n i a) :
    LowZero n (i + 1) (forwardStep gt n w a i) ∧ ∀ y, ZeroRows n w a y ↔ ZeroRows n w (forwardStep gt n w a i) y := by
  obtain ⟨h1, h2, h3⟩ := pivotRow_spec hgt n a i hi
  obtain ⟨s1, s2⟩ := swap_spec (w := w) h1 h2 hlow
  have hpiv : PivOK n i (swapFrom w a (pivotRow gt n a i) i) := by
    generalize pivotRow gt n a i = r at *
    rcases h3 with h3 | h3
    · left
      unfold swapFrom
      rw [if_pos ⟨le_rfl, by omega⟩]
      by_cases hir : i = r
      · rw [if_pos hir]; rw [← hir] at h3; exact h3
      · rw [if_neg hir, if_pos rfl]; exact h3
    · right
      intro k hk1 hk2
      unfold swapFrom
      rw [if_pos ⟨le_rfl, by omega⟩]
      split
      · exact h3 i le_rfl hi
      · split
        · exact h3 r h1 h2
        · exact h3 k (by omega) hk2
  obtain ⟨e1, e2, e3⟩ := elim_fold (n := n) (w := w) (i := i) (by omega) (List.range' (i + 1) (n - (i + 1))) _
    (fun k hk => mem_range'_below.mp hk) s1 hpiv
  refine ⟨?_, fun y => (s2 y).trans (e3 y)⟩
  intro r c hc hcr hr
  rcases Nat.lt_succ_iff_lt_or_eq.mp hc with h | h
  · exact e1 r c h hcr hr
  · subst h
    exact e2 r (Or.inl (mem_range'_below.mpr ⟨hcr, hr⟩)) hcr hr

lemma forward_spec {gt : F → F → Bool} (hgt : PivotOrder gt) {n w : ℕ} (hnw : n ≤ w) (a : Mat F) :
    LowZero n n (forward gt n w a) ∧ ∀ y, ZeroRows n w a y ↔ ZeroRows n w (forward gt n w a) y := by
  unfold forward
  have : ∀ i, i ≤ n → LowZero n i ((List.range i).foldl (forwardStep gt n w) a) ∧
      ∀ y, ZeroRows n w a y ↔ ZeroRows n w ((List.range i).foldl (forwardStep gt n w) a) y := by
    intro i
    induction i with
    | zero => intro _; exact ⟨fun r c hc => by omega, fun y => Iff.rfl⟩
    | succ i ih =>
      intro hi
      obtain ⟨h1, h2⟩ := ih (by omega)
      rw [List.range_succ, List.foldl_append]
      obtain ⟨h3, h4⟩ := forwardStep_spec hgt (by omega) hnw h1
      exact ⟨h3, fun y => (h2 y).trans (h4 y)⟩
  exact this n le_rfl

/-- weights describing a homogeneous equation -/
lemma zeroRows_hom {n w : ℕ} (hnw : n ≤ w) (a : Mat F) (x : ℕ → F) :
    ZeroRows n w a (fun j => if j < n then x j else 0) ↔ ∀ r < n, ∑ j ∈ Finset.range n, a r j * x j = 0 := by
  unfold ZeroRows
  have : ∀ r, ∑ j ∈ Finset.range w, a r j * (if j < n then x j else 0) = ∑ j ∈ Finset.range n, a r j * x j := by
    intro r
    symm
    apply Finset.sum_subset_zero_on_sdiff
    · intro j hj; rw [Finset.mem_range] at *; omega
    · intro j hj
      rw [Finset.mem_sdiff, Finset.mem_range, Finset.mem_range] at hj
      rw [if_neg hj.2, mul_zero]
    · intro j hj
      rw [if_pos (Finset.mem_range.mp hj)]
  simp only [this]

/-- weights describing the equation with the right-hand side in column `c` -/
lemma zeroRows_inhom {n w c : ℕ} (hc : n ≤ c) (hcw : c < w) (a : Mat F) (x : ℕ → F) :
    ZeroRows n w a (fun j => if j < n then x j else if j = c then -1 else 0) ↔
      ∀ r < n, ∑ j ∈ Finset.range n, a r j * x j = a r c := by
  unfold ZeroRows
  have : ∀ r, ∑ j ∈ Finset.range w, a r j * (if j < n then x j else if j = c then -1 else 0) =
      ∑ j ∈ Finset.range n, a r j * x j - a r c := by
    intro r
    have h1 : ∀ j ∈ Finset.range w, a r j * (if j < n then x j else if j = c then -1 else 0) =
        (if j < n then a r j * x j else 0) + (if j = c then - a r c else 0) := by
      intro j _
      by_cases h1 : j < n
      · rw [if_pos h1, if_pos h1, if_neg (by omega), add_zero]
      · rw [if_neg h1, if_neg h1]
        by_cases h2 : j = c
        · rw [if_pos h2, if_pos h2, h2]; ring
        · rw [if_neg h2, if_neg h2]; ring
    rw [Finset.sum_congr rfl h1, Finset.sum_add_distrib, Finset.sum_ite_eq' (Finset.range w) c, if_pos (Finset.mem_range.mpr hcw)]
    rw [sub_eq_add_neg]
    congr 1
    symm
    apply Finset.sum_subset_zero_on_sdiff
    · intro j hj; rw [Finset.mem_range] at *; omega
    · intro j hj
      rw [Finset.mem_sdiff, Finset.mem_range, Finset.mem_range] at hj
      rw [if_neg hj.2]
    · intro j hj
      rw [if_pos (Finset.mem_range.mp hj)]
  simp only [this, sub_eq_zero]

/-! ### determinants -/

lemma det_zero_iff (n : ℕ) (a : Mat F) : (toMatrix n a).det = 0 ↔
    ∃ x : ℕ → F, (∃ j < n, x j ≠ 0) ∧ ∀ r < n, ∑ j ∈ Finset.range n, a r j * x j = 0 := by
  rw [← Matrix.exists_mulVec_eq_zero_iff]
  constructor
  · rintro ⟨v, hv, h⟩
    refine ⟨fun j => if h : j < n then v ⟨j, h⟩ else 0, ?_, ?_⟩
    · obtain ⟨j, hj⟩ := Function.ne_iff.mp hv
      exact ⟨j, j.2, by simpa using hj⟩
    · intro r hr
      have := congrFun h ⟨r, hr⟩
      rw [Finset.sum_range]
      simpa [Matrix.mulVec, dotProduct, toMatrix] using this
  · rintro ⟨x, ⟨j, hj, hx⟩, h⟩
    refine ⟨fun j => x j, ?_, ?_⟩
    · intro h0
      exact hx (congrFun h0 ⟨j, hj⟩)
    · funext r
      have := h r r.2
      rw [Finset.sum_range] at this
      simpa [Matrix.mulVec, dotProduct, toMatrix] using this

lemma det_upper {n : ℕ} {a : Mat F} (hlow : LowZero n n a) : (toMatrix n a).det = ∏ i : Fin n, a i i := by
  rw [Matrix.det_of_upperTriangular]
  · rfl
  · intro i j hij
    exact hlow i j j.2 hij i.2

lemma forward_det {gt : F → F → Bool} (hgt : PivotOrder gt) {n w : ℕ} (hnw : n ≤ w) (a : Mat F) :
    (toMatrix n a).det = 0 ↔ ∃ i < n, forward gt n w a i i = 0 := by
  obtain ⟨h1, h2⟩ := forward_spec hgt hnw a
  have h3 : (toMatrix n a).det = 0 ↔ (toMatrix n (forward gt n w a)).det = 0 := by
    rw [det_zero_iff, det_zero_iff]
    simp only [← zeroRows_hom hnw, h2]
  rw [h3, det_upper h1, Finset.prod_eq_zero_iff]
  constructor
  · rintro ⟨i, -, h⟩; exact ⟨i, i.2, h⟩
  · rintro ⟨i, hi, h⟩; exact ⟨⟨i, hi⟩, Finset.mem_univ _, h⟩

/-! ### back substitution -/

lemma backSub_spec {n : ℕ} {a : Mat F} (hlow : LowZero n n a) (hd : ∀ i < n, a i i ≠ 0) :
    ∀ (i : ℕ), i ≤ n → ∀ (b x : ℕ → F),
      (∀ j, i ≤ j → backSub a i b x j = x j) ∧
      ∀ r < i, ∑ j ∈ Finset.range i, a r j * backSub a i b x j = b r
  | 0, _, b, x => ⟨fun _ _ => rfl, fun r hr => absurd hr (by omega)⟩
  | i + 1, hi, b, x => by
    unfold backSub
    simp only
    obtain ⟨h1, h2⟩ := backSub_spec hlow hd i (by omega) (fun k => if k < i then b k - a k i * (b i / a i i) else b k)
      (Function.update x i (b i / a i i))
    constructor
    · intro j hj
      rw [h1 j (by omega), Function.update_of_ne (by omega)]
    · intro r hr
      rw [Finset.sum_range_succ, h1 i le_rfl, Function.update_self]
      rcases Nat.lt_succ_iff_lt_or_eq.mp hr with h | h
      · rw [h2 r h, if_pos h]; ring
      · subst h
        rw [Finset.sum_eq_zero, zero_add]
        · have := hd r (by omega)
          field_simp
        · intro j hj
          rw [Finset.mem_range] at hj
          rw [hlow r j (by omega) hj (by omega), zero_mul]

/-- **C22.** If the `n × n` coefficient matrix is invertible, `solve_gauss_system` returns a vector that
solves the system, with or without `force`. -/
theorem C22_solve {gt : F → F → Bool} (hgt : PivotOrder gt) {n : ℕ} (a : Mat F) (force : Bool) (hn : 1 ≤ n)
    (hdet : (toMatrix n a).det ≠ 0) :
    ∃ x, solveGauss gt n a force = some x ∧ ∀ r < n, ∑ j ∈ Finset.range n, a r j * x j = a r n := by
  obtain ⟨h1, h2⟩ := forward_spec hgt (Nat.le_succ n) a
  have hd : ∀ i < n, forward gt n (n + 1) a i i ≠ 0 := by
    intro i hi h0
    exact hdet ((forward_det hgt (Nat.le_succ n) a).mpr ⟨i, hi, h0⟩)
  refine ⟨backSub (forward gt n (n + 1) a) n (fun k => forward gt n (n + 1) a k n) (fun _ => 0), ?_, ?_⟩
  · unfold solveGauss
    simp only
    rw [if_pos (Or.inr (hd (n - 1) (by omega)))]
  · rw [← zeroRows_inhom le_rfl (Nat.lt_succ_self n), h2, zeroRows_inhom le_rfl (Nat.lt_succ_self n)]
    exact (backSub_spec h1 hd n le_rfl _ _).2

/-- **C22.** If `solve_gauss_system` stops with the error, the matrix is singular and `force` was not set. -/
theorem C22_exit {gt : F → F → Bool} (hgt : PivotOrder gt) {n : ℕ} (a : Mat F) (force : Bool) (hn : 1 ≤ n)
    (h : solveGauss gt n a force = none) : force = false ∧ (toMatrix n a).det = 0 := by
  unfold solveGauss at h
  simp only at h
  split at h
  · exact absurd h (by simp)
  · rename_i hc
    rw [not_or, not_not] at hc
    exact ⟨by simpa using hc.1, (forward_det hgt (Nat.le_succ n) a).mpr ⟨n - 1, by omega, hc.2⟩⟩

/-- **C22.** Whatever the matrix: if a singular system is not reported, already the first `n - 1`
columns of the matrix are linearly dependent. Missing for the full property: the report in this case
(see `C22_violated`). -/
theorem C22_unreported_partial {gt : F → F → Bool} (hgt : PivotOrder gt) {n : ℕ} (a : Mat F) (hn : 1 ≤ n)
    (hsing : (toMatrix n a).det = 0) (h : (solveGauss gt n a false).isSome = true) :
    ∃ x : ℕ → F, (∃ j < n - 1, x j ≠ 0) ∧ ∀ r < n, ∑ j ∈ Finset.range (n - 1), a r j * x j = 0 := by
  obtain ⟨i, hi, h0⟩ := (forward_det hgt (Nat.le_succ n) a).mp hsing
  have hin : i < n - 1 := by
    by_contra hne
    have : i = n - 1 := by omega
    subst this
    unfold solveGauss at h
    simp [h0] at h
  obtain ⟨h1, h2⟩ := forward_spec hgt (Nat.le_succ n) a
  set t := forward gt n n.succ a with ht
  have hsub : (toMatrix (i + 1) t).det = 0 := by
    rw [det_upper (fun r c hc hcr hr => h1 r c (by omega) hcr (by omega)), Finset.prod_eq_zero_iff]
    exact ⟨⟨i, by omega⟩, Finset.mem_univ _, h0⟩
  obtain ⟨x, ⟨j, hj, hx⟩, hz⟩ := (det_zero_iff _ _).mp hsub
  have hcut : ∀ (b : Mat F) (m r : ℕ), i + 1 ≤ m → ∑ j ∈ Finset.range m, b r j * (if j < i + 1 then x j else 0) =
      ∑ j ∈ Finset.range (i + 1), b r j * x j := by
    intro b m r hm
    symm
    apply Finset.sum_subset_zero_on_sdiff
    · intro j hj; rw [Finset.mem_range] at *; omega
    · intro j hj
      rw [Finset.mem_sdiff, Finset.mem_range, Finset.mem_range] at hj
      rw [if_neg hj.2, mul_zero]
    · intro j hj
      rw [if_pos (Finset.mem_range.mp hj)]
  refine ⟨fun j => if j < i + 1 then x j else 0, ⟨j, by omega, by simpa only [if_pos hj] using hx⟩, ?_⟩
  have hall : ∀ r < n, ∑ j ∈ Finset.range n, t r j * (if j < i + 1 then x j else 0) = 0 := by
    intro r hr
    rw [hcut t n r (by omega)]
    by_cases hri : r < i + 1
    · exact hz r hri
    · apply Finset.sum_eq_zero
      intro j hj
      rw [Finset.mem_range] at hj
      rw [h1 r j (by omega) (by omega) hr, zero_mul]
  have := (zeroRows_hom (Nat.le_succ n) a _).mp ((h2 _).mpr ((zeroRows_hom (Nat.le_succ n) t _).mpr hall))
  intro r hr
  have := this r hr
  rwa [hcut a n r (by omega), ← hcut a (n - 1) r (by omega)] at this

/-- **C22 (violation).** The singular test only looks at the last pivot: the inconsistent system
`x_1 = 1, x_1 = 0` in the unknowns `x_0, x_1` is answered with a vector that does not solve it. -/
theorem C22_violated {gt : F → F → Bool} (hgt : PivotOrder gt) :
    let a : Mat F := fun r c => if r = 0 then (if c = 0 then 0 else 1) else (if c = 1 then 1 else 0)
    (toMatrix 2 a).det = 0 ∧ ∃ x, solveGauss gt 2 a false = some x ∧
      ¬ ∀ r < 2, ∑ j ∈ Finset.range 2, a r j * x j = a r 2 := by
  intro a
  have hdet : (toMatrix 2 a).det = 0 := by
    rw [Matrix.det_fin_two]
    simp [toMatrix, a]
  have hgt0 : gt (0 : F) 0 = false := by
    by_contra h
    exact hgt.pos 0 0 (by simpa using h) rfl
  have ht : ∀ r c, r < 2 → c < 3 → forward gt 2 3 a r c = a r c := by
    intro r c hr hc
    have hf : forward gt 2 3 a = forwardStep gt 2 3 (forwardStep gt 2 3 a 0) 1 := rfl
    have hs0 : pivotRow gt 2 a 0 = 0 := by
      simp [pivotRow, pivotStep, a, hgt0]
    have hs1 : ∀ r c, r < 2 → c < 3 → forwardStep gt 2 3 a 0 r c = a r c := by
      intro r c hr hc
      simp only [forwardStep, hs0]
      interval_cases r <;> interval_cases c <;> simp [elimRow, swapFrom, a]
    rw [hf]
    simp only [forwardStep] at hs1 ⊢
    have hs2 : ∀ b : Mat F, pivotRow gt 2 b 1 = 1 := by intro b; simp [pivotRow]
    rw [hs2]
    simp only [List.range'_zero, List.foldl_nil, Nat.reduceAdd, Nat.reduceSub]
    interval_cases r <;> interval_cases c <;> simp [swapFrom] <;> first | exact hs1 0 _ (by omega) (by omega) | exact hs1 1 _ (by omega) (by omega)
  refine ⟨hdet, backSub (forward gt 2 3 a) 2 (fun k => forward gt 2 3 a k 2) (fun _ => 0), ?_, ?_⟩
  · unfold solveGauss
    simp only
    rw [if_pos]
    right
    rw [ht 1 1 (by omega) (by omega)]
    simp [a]
  · intro h
    have := h 0 (by omega)
    simp [Finset.sum_range_succ, a, backSub, Function.update, ht] at this

/-! ### `calc_inverse` -/

lemma backStepInv_low {n i : ℕ} {a : Mat F} (r c : ℕ) (hc : c < n) : backStepInv n a i r c = a r c := by
  unfold backStepInv
  rw [if_neg (by omega)]

lemma backInv_spec (n : ℕ) : ∀ (i : ℕ), i ≤ n → ∀ (a : Mat F), LowZero n n a → (∀ i < n, a i i ≠ 0) →
    (∀ r c, c < n → backInv n i a r c = a r c) ∧
    (∀ r c, i ≤ r → backInv n i a r c = a r c) ∧
    ∀ c, n ≤ c → c < 2 * n → ∀ r < i, ∑ j ∈ Finset.range i, a r j * backInv n i a j c = a r c
  | 0, _, a, _, _ => ⟨fun _ _ _ => rfl, fun _ _ _ => rfl, fun c _ _ r hr => absurd hr (by omega)⟩
  | i + 1, hi, a, hlow, hd => by
    have hsame : ∀ r c, c < n → backStepInv n a i r c = a r c := fun r c => backStepInv_low r c
    obtain ⟨h1, h2, h3⟩ := backInv_spec n i (by omega) (backStepInv n a i)
      (fun r c hc hcr hr => by rw [hsame r c hc]; exact hlow r c hc hcr hr)
      (fun k hk => by rw [hsame k k hk]; exact hd k hk)
    unfold backInv
    refine ⟨fun r c hc => by rw [h1 r c hc, hsame r c hc], ?_, ?_⟩
    · intro r c hr
      rw [h2 r c (by omega)]
      unfold backStepInv
      split
      · rw [if_neg (by omega), if_neg (by omega)]
      · rfl
    · intro c hc1 hc2 r hr
      have hii : backInv n i (backStepInv n a i) i c = a i c / a i i := by
        rw [h2 i c le_rfl]
        unfold backStepInv
        rw [if_pos ⟨hc1, hc2⟩, if_pos rfl]
      rw [Finset.sum_range_succ, hii]
      rcases Nat.lt_succ_iff_lt_or_eq.mp hr with h | h
      · have h4 := h3 c hc1 hc2 r h
        have h5 : ∑ j ∈ Finset.range i, a r j * backInv n i (backStepInv n a i) j c =
            ∑ j ∈ Finset.range i, backStepInv n a i r j * backInv n i (backStepInv n a i) j c := by
          apply Finset.sum_congr rfl
          intro j hj
          rw [hsame r j (by rw [Finset.mem_range] at hj; omega)]
        rw [h5, h4]
        unfold backStepInv
        rw [if_pos ⟨hc1, hc2⟩, if_neg (by omega), if_pos h]
        ring
      · subst h
        rw [Finset.sum_eq_zero, zero_add]
        · have := hd r (by omega)
          field_simp
        · intro j hj
          rw [Finset.mem_range] at hj
          rw [hlow r j (by omega) hj (by omega), zero_mul]

/-- **C23.** `calc_inverse` of an invertible matrix is its two-sided inverse. -/
theorem C23_inverse {gt : F → F → Bool} (hgt : PivotOrder gt) {n : ℕ} (a : Mat F)
    (hdet : (toMatrix n a).det ≠ 0) :
    toMatrix n a * toMatrix n (calcInverse gt n a) = 1 ∧ toMatrix n (calcInverse gt n a) * toMatrix n a = 1 := by
  have main : toMatrix n a * toMatrix n (calcInverse gt n a) = 1 := by
    set aug : Mat F := fun i j => if j < n then a i j else if j - n = i then 1 else 0 with haug
    have hnw : n ≤ 2 * n := by omega
    obtain ⟨h1, h2⟩ := forward_spec hgt hnw aug
    have hsame : toMatrix n aug = toMatrix n a := by
      ext i j
      simp [toMatrix, haug]
    have hd : ∀ i < n, forward gt n (2 * n) aug i i ≠ 0 := by
      intro i hi h0
      apply hdet
      rw [← hsame]
      exact (forward_det hgt hnw aug).mpr ⟨i, hi, h0⟩
    obtain ⟨b1, b2, b3⟩ := backInv_spec n n le_rfl _ h1 hd
    ext i j
    have hcol := b3 (j + n) (by omega) (by have := j.2; omega)
    rw [← zeroRows_inhom (w := 2 * n) (by omega) (by have := j.2; omega), ← h2,
      zeroRows_inhom (w := 2 * n) (by omega) (by have := j.2; omega)] at hcol
    have := hcol i i.2
    rw [Finset.sum_range] at this
    rw [Matrix.mul_apply, Matrix.one_apply]
    have h5 : aug i (j + n) = if i = j then 1 else 0 := by
      simp only [haug]
      rw [if_neg (by omega), Nat.add_sub_cancel]
      by_cases hij : i = j
      · rw [if_pos hij, if_pos (by rw [hij])]
      · rw [if_neg hij, if_neg (fun h => hij (Fin.ext h.symm))]
    rw [← h5, ← this]
    apply Finset.sum_congr rfl
    intro k _
    simp [toMatrix, haug, calcInverse]
  exact ⟨main, mul_eq_one_comm.mp main⟩

/-! ### LU decomposition -/

lemma luElim_fold (n i : ℕ) : ∀ (l : List ℕ) (a : Mat F), l.Nodup → i ∉ l →
    ∀ q, l.foldl (luElim n i) a q = if q ∈ l then luElim n i a q q else a q
  | [], a, _, _, q => by simp
  | j :: l, a, hnd, hi, q => by
    rw [List.foldl_cons, luElim_fold n i l (luElim n i a j) (List.nodup_cons.mp hnd).2 (fun h => hi (List.mem_cons_of_mem _ h))]
    have hij : i ≠ j := fun h => hi (by rw [h]; simp)
    have hother : ∀ q, q ≠ j → luElim n i a j q = a q := by
      intro q hq; funext k; unfold luElim; rw [if_neg hq]
    by_cases hq : q = j
    · subst hq
      rw [if_neg (List.nodup_cons.mp hnd).1, if_pos (by simp)]
    · by_cases hql : q ∈ l
      · rw [if_pos hql, if_pos (List.mem_cons_of_mem _ hql)]
        funext k
        unfold luElim
        simp only [if_true, if_neg hq, if_neg hij]
      · rw [if_neg hql, if_neg (by simp [hq, hql]), hother q hq]

lemma luPivot_spec {gt : F → F → Bool} (hgt : PivotOrder gt) (n : ℕ) (a : Mat F) (i : ℕ) (hi : i < n) :
    i ≤ luPivot gt n a i ∧ luPivot gt n a i < n ∧
    (a (luPivot gt n a i) i ≠ 0 ∨ ∀ k, i ≤ k → k < n → a k i = 0) := by
  have := pivot_fold hgt a i (List.range' i (n - i)) (0, i) (Or.inr rfl)
  simp only at this
  obtain ⟨h1, h2⟩ := this
  have h3 : i ≤ luPivot gt n a i ∧ luPivot gt n a i < n := by
    unfold luPivot
    rcases h1 with h1 | h1
    · rw [h1]; omega
    · rw [List.mem_range'_1] at h1; omega
  refine ⟨h3.1, h3.2, ?_⟩
  rcases h2 with h2 | ⟨-, h4⟩
  · exact Or.inl h2
  · right
    intro k hk1 hk2
    exact h4 k (List.mem_range'_1.mpr ⟨hk1, by omega⟩)

/-- the matrix restored from a partial decomposition after `i` steps -/
def luEntry (a : Mat F) (i r c : ℕ) : F :=
  if c < min i r then ∑ k ∈ Finset.range (c + 1), a r k * a k c
  else ∑ k ∈ Finset.range (min i r), a r k * a k c + a r c

/-- invariant of the decomposition of `A` after `i` steps -/
structure LUInv (n : ℕ) (A : Mat F) (i : ℕ) (s : LU F) : Prop where
  entry : ∀ r c, r < n → c < n → A (s.p r) c = luEntry s.a i r c
  perm : ∃ σ : Equiv.Perm (Fin n), (∀ q : Fin n, s.p q = σ q) ∧ n ≤ s.cnt ∧ Equiv.Perm.sign σ = (-1) ^ (s.cnt - n)

lemma luSwap_inv {n : ℕ} {A : Mat F} {i r : ℕ} {s : LU F} (h : LUInv n A i s) (hir : i ≤ r) (hrn : r < n) :
    LUInv n A i (luSwap s r i) := by
  unfold luSwap
  split
  swap
  · exact h
  rename_i hne
  constructor
  · intro q c hq hc
    have hrow : ∀ q, q < n → A ((fun q => if q = i then s.p r else if q = r then s.p i else s.p q) q) c =
        luEntry s.a i (if q = i then r else if q = r then i else q) c := by
      intro q hq
      simp only
      by_cases h1 : q = i
      · rw [if_pos h1, if_pos h1]; exact h.entry r c hrn hc
      · rw [if_neg h1, if_neg h1]
        by_cases h2 : q = r
        · rw [if_pos h2, if_pos h2]; exact h.entry i c (by omega) hc
        · rw [if_neg h2, if_neg h2]; exact h.entry q c hq hc
    refine (hrow q hq).trans ?_
    have hlow : ∀ k, k < i → (fun q => if q = i then s.a r else if q = r then s.a i else s.a q) k = s.a k := by
      intro k hk; simp only; rw [if_neg (by omega), if_neg (by omega)]
    have hq' : (fun q => if q = i then s.a r else if q = r then s.a i else s.a q) q =
        s.a (if q = i then r else if q = r then i else q) := by
      simp only
      by_cases h1 : q = i
      · rw [if_pos h1, if_pos h1]
      · rw [if_neg h1, if_neg h1]
        by_cases h2 : q = r
        · rw [if_pos h2, if_pos h2]
        · rw [if_neg h2, if_neg h2]
    have hmin : min i (if q = i then r else if q = r then i else q) = min i q := by
      split
      · omega
      · split <;> omega
    unfold luEntry
    rw [hmin]
    simp only at hq' hlow ⊢
    split
    · apply Finset.sum_congr rfl
      intro k hk
      rw [Finset.mem_range] at hk
      rw [hq', hlow k (by omega)]
    · congr 1
      · apply Finset.sum_congr rfl
        intro k hk
        rw [Finset.mem_range] at hk
        rw [hq', hlow k (by omega)]
      · rw [hq']
  · obtain ⟨σ, h1, h2, h3⟩ := h.perm
    refine ⟨σ * Equiv.swap ⟨i, by omega⟩ ⟨r, hrn⟩, ?_, by simp only; omega, ?_⟩
    · intro q
      simp only [Equiv.Perm.mul_apply]
      by_cases hq1 : (q : ℕ) = i
      · have : q = ⟨i, by omega⟩ := Fin.ext hq1
        rw [if_pos hq1, this, Equiv.swap_apply_left]
        exact h1 ⟨r, hrn⟩
      · rw [if_neg hq1]
        by_cases hq2 : (q : ℕ) = r
        · have : q = ⟨r, hrn⟩ := Fin.ext hq2
          rw [if_pos hq2, this, Equiv.swap_apply_right]
          exact h1 ⟨i, by omega⟩
        · rw [if_neg hq2, Equiv.swap_apply_of_ne_of_ne (fun h => hq1 (congrArg Fin.val h)) (fun h => hq2 (congrArg Fin.val h))]
          exact h1 q
    · rw [Equiv.Perm.sign_mul, h3, Equiv.Perm.sign_swap (fun h => hne (congrArg Fin.val h).symm)]
      simp only
      rw [Nat.sub_add_comm h2, pow_succ]

lemma luElim_inv {n : ℕ} {A : Mat F} {i : ℕ} {s : LU F} (hi : i < n) (h : LUInv n A i s) (hp : PivOK n i s.a) :
    LUInv n A (i + 1) { s with a := (List.range' (i + 1) (n - (i + 1))).foldl (luElim n i) s.a } := by
  refine ⟨?_, h.perm⟩
  have hf := luElim_fold n i (List.range' (i + 1) (n - (i + 1))) s.a List.nodup_range' (by rw [mem_range'_below]; omega)
  simp only [mem_range'_below] at hf
  generalize (List.range' (i + 1) (n - (i + 1))).foldl (luElim n i) s.a = a' at hf
  have htop : ∀ k, k ≤ i → a' k = s.a k := by
    intro k hk; rw [hf, if_neg (by omega)]
  intro r c hr hc
  simp only
  rw [h.entry r c hr hc]
  by_cases hri : r ≤ i
  · unfold luEntry
    rw [show min (i + 1) r = min i r by omega]
    have : ∀ k, k < min i r → a' k = s.a k := fun k hk => htop k (by omega)
    split
    · apply Finset.sum_congr rfl
      intro k hk
      rw [Finset.mem_range] at hk
      rw [htop r hri, htop k (by omega)]
    · rw [htop r hri]
      congr 1
      apply Finset.sum_congr rfl
      intro k hk
      rw [Finset.mem_range] at hk
      rw [htop k (by omega)]
  · have hr' : ∀ k, a' r k = if k = i then s.a r i / s.a i i else if i < k ∧ k < n then s.a r k - s.a r i / s.a i i * s.a i k else s.a r k := by
      intro k
      rw [hf, if_pos (by omega)]
      unfold luElim
      rw [if_pos rfl]
    have hleft : ∀ k, k < i → a' r k = s.a r k := by
      intro k hk; rw [hr', if_neg (by omega), if_neg (by omega)]
    have hsum : ∀ m, m ≤ i → ∑ k ∈ Finset.range m, a' r k * a' k c = ∑ k ∈ Finset.range m, s.a r k * s.a k c := by
      intro m hm
      apply Finset.sum_congr rfl
      intro k hk
      rw [Finset.mem_range] at hk
      rw [hleft k (by omega), htop k (by omega)]
    unfold luEntry
    rw [show min (i + 1) r = i + 1 by omega, show min i r = i by omega]
    rcases lt_trichotomy c i with hci | hci | hci
    · rw [if_pos hci, if_pos (by omega), hsum (c + 1) (by omega)]
    · subst hci
      rw [if_neg (by omega), if_pos (by omega), Finset.sum_range_succ, hsum c le_rfl, hr' c, if_pos rfl, htop c le_rfl]
      congr 1
      rcases hp with hp | hp
      · field_simp
      · rw [hp r (by omega) hr]; simp
    · rw [if_neg (by omega), if_neg (by omega), Finset.sum_range_succ, hsum i le_rfl, hr' i, if_pos rfl, htop i le_rfl,
        hr' c, if_neg (by omega), if_pos ⟨hci, hc⟩]
      ring

lemma luStep_inv {gt : F → F → Bool} (hgt : PivotOrder gt) {n : ℕ} {A : Mat F} {i : ℕ} {s : LU F} (hi : i < n)
    (h : LUInv n A i s) : LUInv n A (i + 1) (luStep gt n s i) := by
  obtain ⟨h1, h2, h3⟩ := luPivot_spec hgt n s.a i hi
  unfold luStep
  simp only
  generalize luPivot gt n s.a i = r at *
  apply luElim_inv hi (luSwap_inv h h1 h2)
  unfold luSwap
  split
  · rename_i hne
    rcases h3 with h3 | h3
    · left
      simp only
      rw [if_pos trivial]; exact h3
    · right
      intro k hk1 hk2
      simp only
      rw [if_neg (by omega)]
      split
      · exact h3 i le_rfl hi
      · exact h3 k (by omega) hk2
  · rename_i hne
    rw [not_not] at hne
    rw [hne] at h3
    rcases h3 with h3 | h3
    · exact Or.inl h3
    · exact Or.inr fun k hk1 hk2 => h3 k (by omega) hk2

lemma lu_inv {gt : F → F → Bool} (hgt : PivotOrder gt) (n : ℕ) (A : Mat F) :
    LUInv n A n (luDecomposition gt n A) := by
  unfold luDecomposition
  have : ∀ i, i ≤ n → LUInv n A i ((List.range i).foldl (luStep gt n) { a := A, p := id, cnt := n }) := by
    intro i
    induction i with
    | zero =>
      intro _
      refine ⟨?_, 1, ?_, ?_⟩
      · intro r c _ _; simp [luEntry]
      · intro q; simp
      · simp
    | succ i ih =>
      intro hi
      rw [List.range_succ, List.foldl_append]
      exact luStep_inv hgt (by omega) (ih (by omega))
  exact this n le_rfl

/-- the unit lower triangular factor stored below the diagonal -/
def lowerOf (n : ℕ) (a : Mat F) : Matrix (Fin n) (Fin n) F :=
  Matrix.of fun r k => if k < r then a r k else if k = r then 1 else 0

/-- the upper triangular factor stored on and above the diagonal -/
def upperOf (n : ℕ) (a : Mat F) : Matrix (Fin n) (Fin n) F :=
  Matrix.of fun k c => if k ≤ c then a k c else 0

/-- **C23.** Whatever the matrix, singular or not: `calc_lu_decomposition` returns a permutation of the
rows with the parity of the returned count, a unit lower and an upper triangular factor whose product
is the row-permuted matrix. -/
theorem C23_lu {gt : F → F → Bool} (hgt : PivotOrder gt) (n : ℕ) (A : Mat F) :
    ∃ σ : Equiv.Perm (Fin n), (∀ q : Fin n, (luDecomposition gt n A).p q = σ q) ∧
      n ≤ (luDecomposition gt n A).cnt ∧ Equiv.Perm.sign σ = (-1) ^ ((luDecomposition gt n A).cnt - n) ∧
      (toMatrix n A).submatrix σ id = lowerOf n (luDecomposition gt n A).a * upperOf n (luDecomposition gt n A).a := by
  have hinv := lu_inv hgt n A
  generalize luDecomposition gt n A = s at *
  obtain ⟨σ, h1, h2, h3⟩ := hinv.perm
  refine ⟨σ, h1, h2, h3, ?_⟩
  ext r c
  have he := hinv.entry r c r.2 c.2
  rw [h1 r] at he
  rw [Matrix.submatrix_apply, Matrix.mul_apply]
  show A (σ r) c = _
  rw [he]
  have hsum : ∑ j : Fin n, lowerOf n s.a r j * upperOf n s.a j c =
      ∑ k ∈ Finset.range n, (if k < r then s.a r k else if k = r then 1 else 0) * (if k ≤ c then s.a k c else 0) := by
    rw [Finset.sum_range]
    apply Finset.sum_congr rfl
    intro k _
    simp only [lowerOf, upperOf, Matrix.of_apply, Fin.lt_def, Fin.le_def, Fin.ext_iff]
  rw [hsum]
  unfold luEntry
  rw [show min n (r : ℕ) = r by have := r.2; omega]
  have hr := r.2
  have hc := c.2
  split
  · rename_i hcr
    apply Finset.sum_subset_zero_on_sdiff
    · intro j hj; rw [Finset.mem_range] at *; omega
    · intro j hj
      rw [Finset.mem_sdiff, Finset.mem_range, Finset.mem_range] at hj
      rw [if_neg (show ¬ j ≤ (c : ℕ) by omega), mul_zero]
    · intro j hj
      rw [Finset.mem_range] at hj
      rw [if_pos (show j < (r : ℕ) by omega), if_pos (show j ≤ (c : ℕ) by omega)]
  · rename_i hcr
    have : ∑ k ∈ Finset.range r, s.a r k * s.a k c + s.a r c =
        ∑ k ∈ Finset.range (r + 1), (if k < r then s.a r k else if k = r then 1 else 0) * (if k ≤ c then s.a k c else 0) := by
      rw [Finset.sum_range_succ, if_neg (lt_irrefl _), if_pos rfl, if_pos (by omega), one_mul]
      congr 1
      apply Finset.sum_congr rfl
      intro j hj
      rw [Finset.mem_range] at hj
      rw [if_pos hj, if_pos (by omega)]
    rw [this]
    apply Finset.sum_subset_zero_on_sdiff
    · intro j hj; rw [Finset.mem_range] at *; omega
    · intro j hj
      rw [Finset.mem_sdiff, Finset.mem_range, Finset.mem_range] at hj
      rw [if_neg (show ¬ j < (r : ℕ) by omega), if_neg (show ¬ j = (r : ℕ) by omega), zero_mul]
    · intro j _; rfl

lemma det_lowerOf (n : ℕ) (a : Mat F) : (lowerOf n a).det = 1 := by
  rw [Matrix.det_of_lowerTriangular]
  · apply Finset.prod_eq_one
    intro i _
    simp [lowerOf]
  · intro i j hij
    have hij' : i < j := hij
    simp only [lowerOf, Matrix.of_apply]
    rw [if_neg (not_lt.mpr hij'.le), if_neg (ne_of_gt hij')]

lemma det_upperOf (n : ℕ) (a : Mat F) : (upperOf n a).det = ∏ i : Fin n, a i i := by
  rw [Matrix.det_of_upperTriangular]
  · apply Finset.prod_congr rfl
    intro i _
    simp [upperOf]
  · intro i j hij
    have hij' : j < i := hij
    simp only [upperOf, Matrix.of_apply]
    rw [if_neg (not_le.mpr hij')]

lemma foldl_mul_range' (a : Mat F) (d : F) : ∀ m, (List.range' 1 m).foldl (fun (d : F) (i : ℕ) => d * a i i) d =
    d * ∏ k ∈ Finset.range m, a (k + 1) (k + 1)
  | 0 => by simp
  | m + 1 => by
    rw [List.range'_1_concat, List.foldl_append, foldl_mul_range' a d m, Finset.prod_range_succ]
    simp only [List.foldl_cons, List.foldl_nil]
    rw [Nat.add_comm 1 m]
    ring

/-- **C23.** `calc_determinant_lu` after `calc_lu_decomposition` is the determinant of the matrix, for
every matrix with at least one row, singular or not. -/
theorem C23_determinant {gt : F → F → Bool} (hgt : PivotOrder gt) {n : ℕ} (hn : 1 ≤ n) (A : Mat F) :
    calcDeterminantLU n (luDecomposition gt n A).a (luDecomposition gt n A).cnt = (toMatrix n A).det := by
  obtain ⟨σ, -, -, hs, hlu⟩ := C23_lu hgt n A
  generalize luDecomposition gt n A = s at *
  have hd := congrArg Matrix.det hlu
  rw [Matrix.det_permute, Matrix.det_mul, det_lowerOf, det_upperOf, one_mul, hs] at hd
  have hprod : (List.range' 1 (n - 1)).foldl (fun (d : F) (i : ℕ) => d * s.a i i) (s.a 0 0) = ∏ i : Fin n, s.a i i := by
    rw [foldl_mul_range', ← Finset.prod_range (fun k => s.a k k)]
    obtain ⟨m, rfl⟩ : ∃ m, n = m + 1 := ⟨n - 1, by omega⟩
    rw [Finset.prod_range_succ', Nat.add_sub_cancel, mul_comm]
  unfold calcDeterminantLU
  simp only
  rw [hprod, ← hd]
  split
  · rename_i h
    rw [(Nat.even_iff.mpr h).neg_one_pow]; simp
  · rename_i h
    rw [(Nat.odd_iff.mpr (by omega)).neg_one_pow]; simp

lemma foldl_sub_range (f : ℕ → F) (b : F) : ∀ m, (List.range m).foldl (fun (xi : F) (k : ℕ) => xi - f k) b =
    b - ∑ k ∈ Finset.range m, f k
  | 0 => by simp
  | m + 1 => by
    rw [List.range_succ, List.foldl_append, foldl_sub_range f b m, Finset.sum_range_succ]
    simp only [List.foldl_cons, List.foldl_nil]
    ring

lemma foldl_sub_range' (f : ℕ → F) (b : F) (s : ℕ) : ∀ m, (List.range' s m).foldl (fun (xi : F) (k : ℕ) => xi - f k) b =
    b - ∑ k ∈ Finset.Ico s (s + m), f k
  | 0 => by simp
  | m + 1 => by
    rw [List.range'_1_concat, List.foldl_append, foldl_sub_range' f b s m, ← Nat.add_assoc,
      Finset.sum_Ico_succ_top (by omega)]
    simp only [List.foldl_cons, List.foldl_nil]
    ring

lemma luForward_spec (a : Mat F) (p : ℕ → ℕ) (b : ℕ → F) : ∀ i,
    ∀ r < i, luForward a p b i r + ∑ k ∈ Finset.range r, a r k * luForward a p b i k = b (p r)
  | 0, r, hr => absurd hr (by omega)
  | i + 1, r, hr => by
    unfold luForward
    simp only
    rw [foldl_sub_range (fun k => a i k * luForward a p b i k)]
    have hs : ∑ k ∈ Finset.range r, a r k * Function.update (luForward a p b i) i
        (b (p i) - ∑ k ∈ Finset.range i, a i k * luForward a p b i k) k =
        ∑ k ∈ Finset.range r, a r k * luForward a p b i k := by
      apply Finset.sum_congr rfl
      intro k hk
      rw [Finset.mem_range] at hk
      rw [Function.update_of_ne (by omega)]
    rw [hs]
    rcases Nat.lt_succ_iff_lt_or_eq.mp hr with h | h
    · rw [Function.update_of_ne (by omega)]
      exact luForward_spec a p b i r h
    · subst h
      rw [Function.update_self]; ring

lemma luBackward_spec {n : ℕ} {a : Mat F} (hd : ∀ i < n, a i i ≠ 0) : ∀ (i : ℕ), i ≤ n → ∀ (x : ℕ → F),
    (∀ j, i ≤ j → luBackward n a i x j = x j) ∧
    ∀ r < i, ∑ c ∈ Finset.Ico r n, a r c * luBackward n a i x c = x r
  | 0, _, x => ⟨fun _ _ => rfl, fun r hr => absurd hr (by omega)⟩
  | i + 1, hi, x => by
    unfold luBackward
    simp only
    rw [foldl_sub_range' (fun k => a i k * x k)]
    rw [show i + 1 + (n - (i + 1)) = n by omega]
    obtain ⟨h1, h2⟩ := luBackward_spec hd i (by omega)
      (Function.update x i ((x i - ∑ k ∈ Finset.Ico (i + 1) n, a i k * x k) / a i i))
    refine ⟨fun j hj => by rw [h1 j (by omega), Function.update_of_ne (by omega)], ?_⟩
    intro r hr
    rcases Nat.lt_succ_iff_lt_or_eq.mp hr with h | h
    · rw [h2 r h, Function.update_of_ne (by omega)]
    · subst h
      rw [Finset.sum_eq_sum_Ico_succ_bot (by omega), h1 r le_rfl, Function.update_self]
      have hs : ∑ k ∈ Finset.Ico (r + 1) n, a r k * luBackward n a r
          (Function.update x r ((x r - ∑ k ∈ Finset.Ico (r + 1) n, a r k * x k) / a r r)) k =
          ∑ k ∈ Finset.Ico (r + 1) n, a r k * x k := by
        apply Finset.sum_congr rfl
        intro k hk
        rw [Finset.mem_Ico] at hk
        rw [h1 k (by omega), Function.update_of_ne (by omega)]
      rw [hs]
      have := hd r (by omega)
      field_simp
      ring

lemma lu_diag {gt : F → F → Bool} (hgt : PivotOrder gt) {n : ℕ} {A : Mat F} (hdet : (toMatrix n A).det ≠ 0) :
    ∀ i < n, (luDecomposition gt n A).a i i ≠ 0 := by
  obtain ⟨σ, -, -, hs, hlu⟩ := C23_lu hgt n A
  generalize luDecomposition gt n A = s at *
  intro i hi h0
  have hd := congrArg Matrix.det hlu
  rw [Matrix.det_permute, Matrix.det_mul, det_lowerOf, det_upperOf, one_mul, hs,
    Finset.prod_eq_zero (Finset.mem_univ (⟨i, hi⟩ : Fin n)) h0] at hd
  rcases mul_eq_zero.mp hd with h | h
  · rcases neg_one_pow_eq_or ℤˣ (s.cnt - n) with h' | h' <;> rw [h'] at h <;> simp at h
  · exact hdet h

/-- solving with the stored factors -/
lemma lu_solve {gt : F → F → Bool} (hgt : PivotOrder gt) {n : ℕ} (A : Mat F) (hdet : (toMatrix n A).det ≠ 0)
    (b : ℕ → F) : ∀ r < n, ∑ j ∈ Finset.range n, A r j *
      luBackward n (luDecomposition gt n A).a n (luForward (luDecomposition gt n A).a (luDecomposition gt n A).p b n) j = b r := by
  have hd := lu_diag hgt hdet
  obtain ⟨σ, hp, -, -, hlu⟩ := C23_lu hgt n A
  generalize luDecomposition gt n A = s at *
  have hF := luForward_spec s.a s.p b n
  have hB := (luBackward_spec hd n le_rfl (luForward s.a s.p b n)).2
  generalize luForward s.a s.p b n = y at *
  generalize luBackward n s.a n y = x at *
  have hU : upperOf n s.a *ᵥ (fun j : Fin n => x j) = fun j : Fin n => y j := by
    funext r
    rw [← hB r r.2]
    show ∑ c, upperOf n s.a r c * x c = _
    rw [Finset.sum_congr rfl (fun c _ => show upperOf n s.a r c * x c = (fun c : ℕ => if (r : ℕ) ≤ c then s.a r c * x c else 0) c by
      simp only [upperOf, Matrix.of_apply, Fin.le_def]; split <;> simp)]
    rw [← Finset.sum_range (fun c : ℕ => if (r : ℕ) ≤ c then s.a r c * x c else 0)]
    symm
    apply Finset.sum_subset_zero_on_sdiff
    · intro j hj; rw [Finset.mem_Ico] at hj; rw [Finset.mem_range]; omega
    · intro j hj
      rw [Finset.mem_sdiff, Finset.mem_range, Finset.mem_Ico] at hj
      rw [if_neg (by omega)]
    · intro j hj
      rw [Finset.mem_Ico] at hj
      rw [if_pos hj.1]
  have hL : lowerOf n s.a *ᵥ (fun j : Fin n => y j) = fun j : Fin n => b (s.p j) := by
    funext r
    rw [← hF r r.2]
    show ∑ c, lowerOf n s.a r c * y c = _
    rw [Finset.sum_congr rfl (fun c _ => show lowerOf n s.a r c * y c = (fun c : ℕ => if c < r then s.a r c * y c else if c = r then y r else 0) c by
      simp only [lowerOf, Matrix.of_apply, Fin.lt_def, Fin.ext_iff]
      split
      · rfl
      · split
        · rename_i h; rw [h]; simp
        · simp)]
    rw [← Finset.sum_range (fun c : ℕ => if c < r then s.a r c * y c else if c = r then y r else 0)]
    have : ∑ c ∈ Finset.range (r + 1), (if c < (r : ℕ) then s.a r c * y c else if c = r then y r else 0) =
        y r + ∑ k ∈ Finset.range r, s.a r k * y k := by
      rw [Finset.sum_range_succ, if_neg (lt_irrefl _), if_pos rfl, add_comm]
      congr 1
      apply Finset.sum_congr rfl
      intro k hk
      rw [if_pos (Finset.mem_range.mp hk)]
    rw [← this]
    symm
    apply Finset.sum_subset_zero_on_sdiff
    · intro j hj; have := r.2; rw [Finset.mem_range] at *; omega
    · intro j hj
      rw [Finset.mem_sdiff, Finset.mem_range, Finset.mem_range] at hj
      rw [if_neg (by omega), if_neg (by omega)]
    · intro j hj; rfl
  have hA : ∀ q : Fin n, ∑ j : Fin n, A (σ q) j * x j = b (σ q) := by
    intro q
    have h1 : ((toMatrix n A).submatrix σ id) *ᵥ (fun j : Fin n => x j) = fun j : Fin n => b (s.p j) := by
      rw [hlu, ← Matrix.mulVec_mulVec, hU, hL]
    have := congrFun h1 q
    rw [hp q] at this
    simpa [Matrix.mulVec, dotProduct, toMatrix] using this
  intro r hr
  have := hA (σ.symm ⟨r, hr⟩)
  rw [Equiv.apply_symm_apply] at this
  rw [Finset.sum_range]
  exact this

/-- **C23.** `solve_lu` after `calc_lu_decomposition` of an invertible matrix returns the solution of
`A x = b`. -/
theorem C23_solve_lu {gt : F → F → Bool} (hgt : PivotOrder gt) {n : ℕ} (A : Mat F) (hdet : (toMatrix n A).det ≠ 0)
    (b : ℕ → F) : ∀ r < n, ∑ j ∈ Finset.range n, A r j *
      solveLU n (luDecomposition gt n A).a (luDecomposition gt n A).p b j = b r :=
  lu_solve hgt A hdet b

/-- **C23.** `calc_inverse_lu` after `calc_lu_decomposition` of an invertible matrix is its two-sided
inverse. -/
theorem C23_inverse_lu {gt : F → F → Bool} (hgt : PivotOrder gt) {n : ℕ} (A : Mat F) (hdet : (toMatrix n A).det ≠ 0) :
    toMatrix n A * toMatrix n (calcInverseLU n (luDecomposition gt n A).a (luDecomposition gt n A).p) = 1 ∧
    toMatrix n (calcInverseLU n (luDecomposition gt n A).a (luDecomposition gt n A).p) * toMatrix n A = 1 := by
  have main : toMatrix n A * toMatrix n (calcInverseLU n (luDecomposition gt n A).a (luDecomposition gt n A).p) = 1 := by
    ext i j
    have := lu_solve hgt A hdet (fun q => if q = (j : ℕ) then 1 else 0) i i.2
    rw [Finset.sum_range] at this
    rw [Matrix.mul_apply, Matrix.one_apply]
    simp only [Fin.ext_iff]
    rw [← this]
    rfl
  exact ⟨main, mul_eq_one_comm.mp main⟩

/-! ### the hypotheses can be met -/

/-- The comparison of the stored words, as in `operator>` of `FFInt`, is a `PivotOrder`. -/
lemma pivotOrder_val (p : ℕ) [Fact p.Prime] : PivotOrder (fun x y : ZMod p => decide (y.val < x.val)) where
  pos x y h := by
    rintro rfl
    simp at h
  zero x h := by
    have : x.val ≠ 0 := by rwa [Ne, ZMod.val_eq_zero]
    simpa using Nat.pos_of_ne_zero this

instance : Fact (Nat.Prime 7) := ⟨by norm_num⟩

/-- a matrix whose elimination needs row exchanges: `[[0, 2, 1], [3, 1, 0], [5, 0, 1]]`, right-hand side
`[1, 2, 3]` -/
def exMat : Mat (ZMod 7) := fun r c =>
  (([[0, 2, 1, 1], [3, 1, 0, 2], [5, 0, 1, 3]] : List (List (ZMod 7))).getD r []).getD c 0

example : (toMatrix 3 exMat).det ≠ 0 := by
  rw [Matrix.det_fin_three]
  simp only [toMatrix, Matrix.of_apply]
  decide

example : (luDecomposition (fun x y : ZMod 7 => decide (y.val < x.val)) 3 exMat).cnt ≠ 3 := by decide +kernel

end FireFly
