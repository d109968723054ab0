import Verif.Lemmas.PolyLemmas
import Mathlib.RingTheory.MvPolynomial.Homogeneous
/-! # C13, C14, C15, C17: sparse polynomials over a field -/
set_option linter.all false
namespace FireFly
open MvPolynomial FFMap
variable {F : Type} [Field F] [DecidableEq F]

/-! ### C13 -/

/-- the entry of one key after a merging step -/
def mergeAdd (o : Option F) (w : F) : Option F :=
  match o with
  | none => some w
  | some v => if v + w = 0 then none else some (v + w)

lemma find?_addStep (m : FFMap F) (el : List ℕ × F) (k : List ℕ) :
    (PolyFF.addStep m el).find? k = if k = el.1 then mergeAdd (m.find? k) el.2 else m.find? k := by
  unfold PolyFF.addStep mergeAdd
  cases h : m.find? el.1 with
  | none =>
    simp only
    rw [find?_emplace]
    by_cases hk : k = el.1
    · subst hk; simp [h]
    · simp [hk]
  | some v =>
    simp only
    by_cases hk : k = el.1
    · subst hk
      by_cases hz : v + el.2 = 0 <;> simp [hz, h, find?_erase, find?_set]
    · by_cases hz : v + el.2 = 0 <;> simp [hz, hk, find?_erase, find?_set]

lemma find?_subStep (m : FFMap F) (el : List ℕ × F) (k : List ℕ) :
    (PolyFF.subStep m el).find? k = if k = el.1 then mergeAdd (m.find? k) (-el.2) else m.find? k := by
  unfold PolyFF.subStep mergeAdd
  cases h : m.find? el.1 with
  | none =>
    simp only
    rw [find?_emplace]
    by_cases hk : k = el.1
    · subst hk; simp [h]
    · simp [hk]
  | some v =>
    simp only [sub_eq_add_neg]
    by_cases hk : k = el.1
    · subst hk
      by_cases hz : v + -el.2 = 0 <;> simp [hz, h, find?_erase, find?_set]
    · by_cases hz : v + -el.2 = 0 <;> simp [hz, hk, find?_erase, find?_set]

/-- the entry of one key after a step of `+=` -/
def mergeAssign (o : Option F) (w : F) : Option F := if w = 0 then o else mergeAdd o w

lemma find?_addAssignStep (m : FFMap F) (el : List ℕ × F) (k : List ℕ) :
    (PolyFF.addAssignStep m el).find? k =
      if k = el.1 then mergeAssign (m.find? k) el.2 else m.find? k := by
  unfold PolyFF.addAssignStep mergeAssign
  by_cases hz : el.2 = 0
  · simp [hz]
  · simp only [ne_eq, hz, not_false_eq_true, if_true, if_false]
    have := find?_addStep m el k
    unfold PolyFF.addStep at this
    cases h : m.find? el.1 with
    | none =>
      simp only [h] at this ⊢
      rw [find?_set]
      by_cases hk : k = el.1
      · subst hk; simp [h, mergeAdd]
      · simp [hk]
    | some v => simp only [h] at this ⊢; exact this

lemma find?_subAssignStep (m : FFMap F) (el : List ℕ × F) (k : List ℕ) :
    (PolyFF.subAssignStep m el).find? k =
      if k = el.1 then mergeAssign (m.find? k) (-el.2) else m.find? k := by
  unfold PolyFF.subAssignStep mergeAssign
  by_cases hz : el.2 = 0
  · simp [hz]
  · simp only [ne_eq, hz, not_false_eq_true, if_true, if_false, neg_eq_zero]
    have := find?_subStep m el k
    unfold PolyFF.subStep at this
    cases h : m.find? el.1 with
    | none =>
      simp only [h] at this ⊢
      rw [find?_set]
      by_cases hk : k = el.1
      · subst hk; simp [h, mergeAdd]
      · simp [hk]
    | some v => simp only [h] at this ⊢; exact this

lemma wf_addStep {n : ℕ} (m : FFMap F) (el : List ℕ × F) (h : WFMap n m) (hl : el.1.length = n) :
    WFMap n (PolyFF.addStep m el) := by
  unfold PolyFF.addStep
  split
  · exact h.emplace hl _
  · split
    · exact (h.set hl _).erase _
    · exact h.set hl _

lemma wf_subStep {n : ℕ} (m : FFMap F) (el : List ℕ × F) (h : WFMap n m) (hl : el.1.length = n) :
    WFMap n (PolyFF.subStep m el) := by
  unfold PolyFF.subStep
  split
  · exact h.emplace hl _
  · split
    · exact (h.set hl _).erase _
    · exact h.set hl _

lemma wf_addAssignStep {n : ℕ} (m : FFMap F) (el : List ℕ × F) (h : WFMap n m)
    (hl : el.1.length = n) : WFMap n (PolyFF.addAssignStep m el) := by
  unfold PolyFF.addAssignStep
  split
  · split
    · exact h.set hl _
    · split
      · exact (h.set hl _).erase _
      · exact h.set hl _
  · exact h

lemma wf_subAssignStep {n : ℕ} (m : FFMap F) (el : List ℕ × F) (h : WFMap n m)
    (hl : el.1.length = n) : WFMap n (PolyFF.subAssignStep m el) := by
  unfold PolyFF.subAssignStep
  split
  · split
    · exact h.set hl _
    · split
      · exact (h.set hl _).erase _
      · exact h.set hl _
  · exact h

lemma mergeAdd_getD (o : Option F) (w : F) : (mergeAdd o w).getD 0 = o.getD 0 + w := by
  unfold mergeAdd
  cases o with
  | none => simp
  | some v => by_cases h : v + w = 0 <;> simp [h]

lemma mergeAssign_getD (o : Option F) (w : F) : (mergeAssign o w).getD 0 = o.getD 0 + w := by
  unfold mergeAssign
  split
  · rename_i h; simp [h]
  · exact mergeAdd_getD o w

/-- common part of the four operators -/
lemma fold_spec {n : ℕ} {a b : FFMap F} (ha : WFMap n a) (hb : WFMap n b)
    {step : FFMap F → List ℕ × F → FFMap F} {g : Option F → F → Option F} (c : F)
    (hstep : ∀ m el k, (step m el).find? k = if k = el.1 then g (m.find? k) el.2 else m.find? k)
    (hwf : ∀ m el, WFMap n m → el.1.length = n → WFMap n (step m el))
    (hg : ∀ o w, (g o w).getD 0 = o.getD 0 + c * w) :
    WFMap n (b.foldl step a) ∧ denote (b.foldl step a) = denote a + C c * denote b := by
  have hw : WFMap n (b.foldl step a) := wf_foldl_step hwf b a hb.2 ha
  refine ⟨hw, denote_lin ha hb hw c ?_⟩
  intro k _
  rw [find?_foldl_step hstep b a k hb.1]
  cases h : b.find? k with
  | none => simp
  | some w => simp [hg]

/-- no key of both operands is left with a zero coefficient -/
lemma fold_nonzero {a b : FFMap F} (hb : (b.map Prod.fst).Nodup)
    {step : FFMap F → List ℕ × F → FFMap F} {g : Option F → F → Option F}
    (hstep : ∀ m el k, (step m el).find? k = if k = el.1 then g (m.find? k) el.2 else m.find? k)
    (hg : ∀ v w, g (some v) w ≠ some 0)
    (k : List ℕ) (hka : k ∈ a.map Prod.fst) (hkb : k ∈ b.map Prod.fst) :
    FFMap.find? (b.foldl step a) k ≠ some 0 := by
  rw [find?_foldl_step hstep b a k hb]
  cases h : b.find? k with
  | none => exact absurd hkb (find?_eq_none.mp h)
  | some w =>
    cases h' : a.find? k with
    | none => exact absurd hka (find?_eq_none.mp h')
    | some v => exact hg v w

lemma mergeAdd_ne (v w : F) : mergeAdd (some v) w ≠ some 0 := by
  unfold mergeAdd
  by_cases h : v + w = 0
  · simp [h]
  · simp only [h, if_false, ne_eq, Option.some.injEq, not_false_eq_true]

/-- C13, `operator+`: for all polynomials in `n` variables the result is a well-formed map, it
denotes the sum, and a monomial present in both operands is present with a nonzero coefficient or
absent. -/
theorem C13_add {n : ℕ} {a b : FFMap F} (ha : WFMap n a) (hb : WFMap n b) :
    WFMap n (PolyFF.add a b) ∧ denote (PolyFF.add a b) = denote a + denote b ∧
    ∀ k, k ∈ a.map Prod.fst → k ∈ b.map Prod.fst → (k, (0 : F)) ∉ PolyFF.add a b := by
  unfold PolyFF.add
  split
  · have := fold_spec hb ha (step := PolyFF.addStep) (g := mergeAdd) 1 find?_addStep wf_addStep
      (fun o w => by rw [mergeAdd_getD]; ring)
    refine ⟨this.1, by rw [this.2]; simp [add_comm], ?_⟩
    intro k h1 h2 h3
    exact fold_nonzero ha.1 find?_addStep mergeAdd_ne k h2 h1 (find?_of_mem this.1.1 h3)
  · have := fold_spec ha hb (step := PolyFF.addStep) (g := mergeAdd) 1 find?_addStep wf_addStep
      (fun o w => by rw [mergeAdd_getD]; ring)
    refine ⟨this.1, by rw [this.2]; simp, ?_⟩
    intro k h1 h2 h3
    exact fold_nonzero hb.1 find?_addStep mergeAdd_ne k h1 h2 (find?_of_mem this.1.1 h3)

/-- C13, `operator-`. -/
theorem C13_sub {n : ℕ} {a b : FFMap F} (ha : WFMap n a) (hb : WFMap n b) :
    WFMap n (PolyFF.sub a b) ∧ denote (PolyFF.sub a b) = denote a - denote b ∧
    ∀ k, k ∈ a.map Prod.fst → k ∈ b.map Prod.fst → (k, (0 : F)) ∉ PolyFF.sub a b := by
  unfold PolyFF.sub
  have := fold_spec ha hb (step := PolyFF.subStep) (g := fun o w => mergeAdd o (-w)) (-1)
    find?_subStep wf_subStep (fun o w => by rw [mergeAdd_getD]; ring)
  refine ⟨this.1, by rw [this.2]; simp [sub_eq_add_neg], ?_⟩
  intro k h1 h2 h3
  exact fold_nonzero (g := fun o w => mergeAdd o (-w)) hb.1 find?_subStep
    (fun v w => mergeAdd_ne v (-w)) k h1 h2 (find?_of_mem this.1.1 h3)

/-- C13, `operator+=`. -/
theorem C13_add_assign {n : ℕ} {a b : FFMap F} (ha : WFMap n a) (hb : WFMap n b) :
    WFMap n (PolyFF.addAssign a b) ∧ denote (PolyFF.addAssign a b) = denote a + denote b ∧
    ((∀ t ∈ a, t.2 ≠ 0) → ∀ t ∈ PolyFF.addAssign a b, t.2 ≠ 0) := by
  unfold PolyFF.addAssign
  have := fold_spec ha hb (step := PolyFF.addAssignStep) (g := mergeAssign) 1 find?_addAssignStep
    wf_addAssignStep (fun o w => by rw [mergeAssign_getD]; ring)
  refine ⟨this.1, by rw [this.2]; simp, ?_⟩
  rintro hnz ⟨k, v⟩ ht hz
  simp only at hz; subst hz
  have h := find?_of_mem this.1.1 ht
  rw [find?_foldl_step find?_addAssignStep b a k hb.1] at h
  cases hb' : b.find? k with
  | none => rw [hb'] at h; exact hnz _ (find?_mem h) rfl
  | some w =>
    rw [hb'] at h
    simp only [mergeAssign] at h
    split_ifs at h with hw
    · exact hnz _ (find?_mem h) rfl
    · cases ha' : a.find? k with
      | none => rw [ha'] at h; simp [mergeAdd] at h; exact hw h
      | some v => rw [ha'] at h; exact mergeAdd_ne v w h

/-- C13, `operator-=`. -/
theorem C13_sub_assign {n : ℕ} {a b : FFMap F} (ha : WFMap n a) (hb : WFMap n b) :
    WFMap n (PolyFF.subAssign a b) ∧ denote (PolyFF.subAssign a b) = denote a - denote b ∧
    ((∀ t ∈ a, t.2 ≠ 0) → ∀ t ∈ PolyFF.subAssign a b, t.2 ≠ 0) := by
  unfold PolyFF.subAssign
  have := fold_spec ha hb (step := PolyFF.subAssignStep) (g := fun o w => mergeAssign o (-w)) (-1)
    find?_subAssignStep wf_subAssignStep (fun o w => by rw [mergeAssign_getD]; ring)
  refine ⟨this.1, by rw [this.2]; simp [sub_eq_add_neg], ?_⟩
  rintro hnz ⟨k, v⟩ ht hz
  simp only at hz; subst hz
  have h := find?_of_mem this.1.1 ht
  rw [find?_foldl_step (g := fun o w => mergeAssign o (-w)) find?_subAssignStep b a k hb.1] at h
  cases hb' : b.find? k with
  | none => rw [hb'] at h; exact hnz _ (find?_mem h) rfl
  | some w =>
    rw [hb'] at h
    simp only [mergeAssign] at h
    split_ifs at h with hw
    · exact hnz _ (find?_mem h) rfl
    · cases ha' : a.find? k with
      | none => rw [ha'] at h; simp [mergeAdd] at h; exact hw (by rw [h]; simp)
      | some v => rw [ha'] at h; exact mergeAdd_ne v (-w) h

omit [DecidableEq F] in
lemma denote_map_scale (a : FFMap F) (c : F) :
    denote (a.map (fun t => (t.1, t.2 * c))) = C c * denote a := by
  induction a with
  | nil => simp
  | cons t a ih =>
    rw [List.map_cons, denote_cons, denote_cons, ih, mul_add, C_mul_monomial, mul_comm c]

omit [DecidableEq F] in
lemma wf_map_snd {n : ℕ} {a : FFMap F} (ha : WFMap n a) (f : List ℕ × F → F) :
    WFMap n (a.map (fun t => (t.1, f t))) := by
  refine ⟨?_, ?_⟩
  · rw [List.map_map]; exact ha.1
  · intro t ht
    obtain ⟨s, hs, rfl⟩ := List.mem_map.mp ht
    exact ha.2 s hs

omit [DecidableEq F] in
/-- C13, multiplication by a scalar (`*` and `*=`). -/
theorem C13_scale {n : ℕ} {a : FFMap F} (ha : WFMap n a) (c : F) :
    WFMap n (PolyFF.scale a c) ∧ denote (PolyFF.scale a c) = C c * denote a :=
  ⟨wf_map_snd ha _, denote_map_scale a c⟩

omit [DecidableEq F] in
/-- C13, division by a nonzero scalar (`/` and `/=`): the result times the scalar is the operand. -/
theorem C13_div_scalar {n : ℕ} {a : FFMap F} (ha : WFMap n a) (c : F) (hc : c ≠ 0) :
    WFMap n (PolyFF.divScalar a c) ∧ C c * denote (PolyFF.divScalar a c) = denote a := by
  refine ⟨wf_map_snd ha _, ?_⟩
  unfold PolyFF.divScalar
  rw [denote_map_scale, ← mul_assoc, ← C_mul]
  rw [mul_one_div_cancel hc]; simp

omit [DecidableEq F] in
/-- C13: what "denotes" means for the entries of the map: the coefficient of every monomial is the
stored one, or zero if the key is absent. -/
theorem C13_denote_coeff {n : ℕ} {a : FFMap F} (ha : WFMap n a) {k : List ℕ} (hk : k.length = n) :
    (∀ v, (k, v) ∈ a → coeff k.toFinsupp (denote a) = v) ∧
    (k ∉ a.map Prod.fst → coeff k.toFinsupp (denote a) = 0) := by
  rw [coeff_denote ha hk]
  constructor
  · intro v hv; rw [find?_of_mem ha.1 hv]; rfl
  · intro h; rw [find?_eq_none.mpr h]; rfl

omit [DecidableEq F] in
/-- C13: the denoted polynomial, hence every result above, is independent of the iteration order. -/
theorem C13_order {a b : FFMap F} (h : a.Perm b) : denote a = denote b := denote_perm h

/-- `zero()` is true exactly for the zero polynomial, for every polynomial holding at most one monomial
or no zero coefficient (as the operations leave them). -/
theorem C13_zero {n : ℕ} {a : FFMap F} (ha : WFMap n a) (h : a.length ≤ 1 ∨ ∀ t ∈ a, t.2 ≠ 0) :
    PolyFF.zero a = true ↔ denote a = 0 := by
  match a, ha, h with
  | [], _, _ => simp [PolyFF.zero, denote]
  | [t], ha, _ =>
    have hc := coeff_denote ha (k := t.1) (ha.2 t (by simp))
    have hf : FFMap.find? [t] t.1 = some t.2 := find?_of_mem ha.1 (by simp)
    rw [hf] at hc
    simp only [PolyFF.zero, decide_eq_true_eq]
    constructor
    · intro h0
      rw [denote_cons, h0]
      simp [denote]
    · intro h0
      rw [h0, coeff_zero] at hc
      exact hc.symm
  | t :: t' :: l, ha, h =>
    simp only [PolyFF.zero]
    refine ⟨fun h => absurd h (by simp), fun h0 => ?_⟩
    have h1 : ∀ u ∈ (t :: t' :: l), u.2 ≠ 0 := by
      rcases h with h | h
      · simp at h
      · exact h
    have hc := coeff_denote ha (k := t.1) (ha.2 t (by simp))
    have hf : FFMap.find? (t :: t' :: l) t.1 = some t.2 := find?_of_mem ha.1 (by simp)
    rw [hf, h0, coeff_zero] at hc
    exact absurd hc.symm (h1 t (by simp))

/-- `remove_zero_coefs` changes neither the polynomial nor leaves a zero coefficient. -/
theorem C13_remove_zero_coefs {n : ℕ} {a : FFMap F} (ha : WFMap n a) :
    WFMap n (PolyFF.removeZeroCoefs a) ∧ denote (PolyFF.removeZeroCoefs a) = denote a ∧
    ∀ t ∈ PolyFF.removeZeroCoefs a, t.2 ≠ 0 := by
  unfold PolyFF.removeZeroCoefs
  have key : ∀ (ks : List (List ℕ)) (m : FFMap F), WFMap n m →
      WFMap n (ks.foldl (fun (m : FFMap F) k => m.erase k) m) ∧
      ∀ k, FFMap.find? (ks.foldl (fun (m : FFMap F) k => m.erase k) m) k = if k ∈ ks then none else m.find? k := by
    intro ks
    induction ks with
    | nil => intro m hm; simp [hm]
    | cons k' ks ih =>
      intro m hm
      rw [List.foldl_cons]
      obtain ⟨h1, h2⟩ := ih _ (hm.erase k')
      refine ⟨h1, ?_⟩
      intro k
      rw [h2, find?_erase]
      by_cases hk : k = k' <;> by_cases hks : k ∈ ks <;> simp [hk, hks]
  obtain ⟨h1, h2⟩ := key ((a.filter (fun t => t.2 = 0)).map Prod.fst) a ha
  have hmem : ∀ k, k ∈ (a.filter (fun t => t.2 = 0)).map Prod.fst ↔ a.find? k = some 0 := by
    intro k
    rw [List.mem_map]
    constructor
    · rintro ⟨⟨k', v⟩, hf, rfl⟩
      obtain ⟨g1, g2⟩ := List.mem_filter.mp hf
      simp only [decide_eq_true_eq] at g2; subst g2
      exact find?_of_mem ha.1 g1
    · intro h
      exact ⟨(k, 0), List.mem_filter.mpr ⟨find?_mem h, by simp⟩, rfl⟩
  refine ⟨h1, ?_, ?_⟩
  · apply denote_ext h1
    · intro k hk
      rw [coeff_denote ha hk, h2]
      split
      · rename_i h; rw [(hmem k).mp h]; simp
      · rfl
    · intro d hd; exact coeff_denote_other ha hd
  · rintro ⟨k, v⟩ ht hz
    simp only at hz; subst hz
    have h := find?_of_mem h1.1 ht
    rw [h2] at h
    split_ifs at h with hk
    exact hk ((hmem k).mpr h)

/-- the hypotheses of C13 hold for `2 x y + 3 y^2` and `1 - 2 x y` over the rationals, and the
common monomial cancels -/
example : WFMap 2 ([([1, 1], 2), ([0, 2], 3)] : FFMap ℚ) ∧ WFMap 2 ([([0, 0], 1), ([1, 1], -2)] : FFMap ℚ)
    ∧ PolyFF.add ([([1, 1], 2), ([0, 2], 3)] : FFMap ℚ) [([0, 0], 1), ([1, 1], -2)]
      = [([0, 2], 3), ([0, 0], 1)] := by
  refine ⟨⟨by decide, by simp⟩, ⟨by decide, by simp⟩, by decide +kernel⟩

/-! ### C15 -/

omit [DecidableEq F] in
lemma termProduct_eq {n : ℕ} (x : List F) {e : List ℕ} (he : e.length = n) :
    termProduct n x e = eval (fun i => x.getD i 0) (monomial e.toFinsupp (1 : F)) := by
  have key : ∀ k : ℕ, (List.range k).foldl (fun p i => p * x.getD i 0 ^ e.getD i 0) (1 : F) =
      ∏ i ∈ Finset.range k, x.getD i 0 ^ e.getD i 0 := by
    intro k
    induction k with
    | zero => simp
    | succ k ih => rw [List.range_succ, List.foldl_append, ih, Finset.prod_range_succ]; rfl
  unfold termProduct
  rw [key, eval_monomial, one_mul, Finsupp.prod]
  symm
  apply Finset.prod_subset
  · rw [← he]; exact List.toFinsupp_support_subset e
  · intro i _ hi
    rw [Finsupp.notMem_support_iff] at hi
    rw [hi]; simp

omit [DecidableEq F] in
lemma foldl_eval {coefs : FFMap F} (g : List ℕ → F) (r : F) :
    coefs.foldl (fun res t => res + t.2 * g t.1) r = r + (coefs.map (fun t => t.2 * g t.1)).sum := by
  induction coefs generalizing r with
  | nil => simp
  | cons t m ih => rw [List.foldl_cons, ih, List.map_cons, List.sum_cons]; ring

/-- C15: for every polynomial in `n` variables and every point with at least `n` coordinates, `calc`
is defined and is the value of the denoted polynomial at the point. -/
theorem C15_calc {n : ℕ} {a : FFMap F} (ha : WFMap n a) (x : List F) (hx : n ≤ x.length) :
    PolyFF.calc n a x = some (eval (fun i => x.getD i 0) (denote a)) := by
  unfold PolyFF.calc
  rw [if_pos (Or.inr ⟨hx, fun t ht => (ha.2 t ht).ge⟩), foldl_eval, zero_add]
  unfold denote
  rw [map_list_sum, List.map_map]
  congr 2
  apply List.map_congr_left
  intro t ht
  rw [termProduct_eq x (ha.2 t ht)]
  simp only [Function.comp, eval_monomial, one_mul]

/-- C15: `calc` does not depend on the iteration order of the hash map. -/
theorem C15_order {n : ℕ} {a b : FFMap F} (ha : WFMap n a) (h : a.Perm b) (x : List F)
    (hx : n ≤ x.length) : PolyFF.calc n a x = PolyFF.calc n b x := by
  have hb : WFMap n b := ⟨(h.map _).nodup_iff.mp ha.1, fun t ht => ha.2 t (h.mem_iff.mpr ht)⟩
  rw [C15_calc ha x hx, C15_calc hb x hx, denote_perm h]

omit [DecidableEq F] in
lemma eval_monomial_list (x : List F) (e : List ℕ) (c : F) :
    eval (fun i => x.getD i 0) (monomial e.toFinsupp c) = c * termProduct e.length x e := by
  rw [termProduct_eq x rfl]; simp only [eval_monomial, one_mul]

omit [DecidableEq F] in
lemma termProduct_cons (n : ℕ) (y : F) (x : List F) (d : ℕ) (e : List ℕ) :
    termProduct (n + 1) (y :: x) (d :: e) = y ^ d * termProduct n x e := by
  unfold termProduct
  have key : ∀ (k : ℕ), (List.range k).foldl (fun p i => p * x.getD i 0 ^ e.getD i 0) (1 : F) =
      ∏ i ∈ Finset.range k, x.getD i 0 ^ e.getD i 0 := by
    intro k
    induction k with
    | zero => simp
    | succ k ih => rw [List.range_succ, List.foldl_append, ih, Finset.prod_range_succ]; rfl
  have key2 : ∀ (k : ℕ), (List.range k).foldl (fun p i => p * (y :: x).getD i 0 ^ (d :: e).getD i 0) (1 : F) =
      ∏ i ∈ Finset.range k, (y :: x).getD i 0 ^ (d :: e).getD i 0 := by
    intro k
    induction k with
    | zero => simp
    | succ k ih => rw [List.range_succ, List.foldl_append, ih, Finset.prod_range_succ]; rfl
  rw [key, key2, Finset.prod_range_succ']
  simp [mul_comm]

/-- C15: `calc_n_m_1` (direct branch) is the value at the point whose first coordinate is one. -/
theorem C15_calc_n_m_1 {n : ℕ} {a : FFMap F} (ha : WFMap n a) (hn : 1 ≤ n) (x : List F)
    (hx : n - 1 ≤ x.length) :
    PolyFF.calcNM1 n a x = some (eval (fun i => (1 :: x).getD i 0) (denote a)) := by
  unfold PolyFF.calcNM1
  rw [if_pos (Or.inr ⟨hx, fun t ht => (ha.2 t ht).ge⟩)]
  obtain ⟨m, rfl⟩ : ∃ m, n = m + 1 := ⟨n - 1, by omega⟩
  simp only [Nat.add_sub_cancel]
  rw [foldl_eval (fun e => termProduct m x e.tail), zero_add]
  unfold denote
  rw [map_list_sum, List.map_map]
  congr 2
  apply List.map_congr_left
  rintro ⟨e, c⟩ ht
  have hl := ha.2 _ ht
  cases e with
  | nil => simp at hl
  | cons d e =>
    simp only [List.length_cons, Nat.add_right_cancel_iff] at hl
    simp only [Function.comp, List.tail_cons]
    rw [eval_monomial_list, List.length_cons, hl, termProduct_cons]
    simp

example : PolyFF.calc 2 ([([1, 1], 2), ([0, 2], 3)] : FFMap ℚ) [5, 7] = some (2 * 5 * 7 + 3 * 49) := by
  norm_num [PolyFF.calc, termProduct, List.range, List.range.loop]

/-! ### C14 -/

/-- The product of two monomials as computed by the code is the product as long as no exponent
overflows. -/
lemma zipWith_toFinsupp {n : ℕ} {e f : List ℕ} (he : e.length = n) (hf : f.length = n)
    (hov : ∀ i, e.getD i 0 + f.getD i 0 < 2 ^ 32) :
    (List.zipWith (fun x y => (x + y) % 2 ^ 32) e f).toFinsupp = e.toFinsupp + f.toFinsupp := by
  ext i
  simp only [List.toFinsupp_apply, Finsupp.add_apply]
  by_cases hi : i < n
  · have h1 := hov i
    have hz : i < (List.zipWith (fun x y => (x + y) % 2 ^ 32) e f).length := by simp; omega
    rw [List.getD_eq_getElem _ _ (by omega), List.getD_eq_getElem _ _ (by omega)] at h1
    rw [List.getD_eq_getElem _ _ hz, List.getElem_zipWith, List.getD_eq_getElem _ _ (by omega),
      List.getD_eq_getElem _ _ (by omega)]
    exact Nat.mod_eq_of_lt h1
  · rw [List.getD_eq_default _ _ (by simp; omega), List.getD_eq_default _ _ (by omega),
      List.getD_eq_default _ _ (by omega)]; rfl

omit [DecidableEq F] in
/-- emplacing a list of pairwise different fresh keys -/
lemma denote_emplace_fresh {m : FFMap F} {k : List ℕ} (v : F) (h : k ∉ m.map Prod.fst) :
    denote (m.emplace k v) = denote m + monomial k.toFinsupp v := by
  unfold FFMap.emplace
  rw [find?_eq_none.mpr h]
  simp only [Option.isSome_none, Bool.false_eq_true, if_false]
  rw [denote_append, denote_cons]; simp

/-- the two nested loops as one -/
lemma mul_eq_fold (a b : FFMap F) :
    PolyFF.mul a b = (a.flatMap (fun ta => b.map (fun tb => (ta, tb)))).foldl (fun (m : FFMap F) p =>
      if p.1.2 * p.2.2 ≠ 0 then
        m.emplace (List.zipWith (fun x y => (x + y) % 2 ^ 32) p.1.1 p.2.1) (p.1.2 * p.2.2)
      else m) [] := by
  unfold PolyFF.mul
  rw [List.foldl_flatMap]
  simp only [List.foldl_map]

omit [DecidableEq F] in
lemma denote_mul (a b : FFMap F) : denote a * denote b =
    ((a.flatMap (fun ta => b.map (fun tb => (ta, tb)))).map
      (fun p => monomial (p.1.1.toFinsupp + p.2.1.toFinsupp) (p.1.2 * p.2.2))).sum := by
  unfold denote
  rw [← List.sum_map_mul_right, List.map_flatMap]
  rw [List.flatMap_def, List.sum_flatten, List.map_map]
  congr 1
  apply List.map_congr_left
  intro t _
  simp only [Function.comp, List.map_map]
  rw [← List.sum_map_mul_left]
  congr 1
  apply List.map_congr_left
  intro s _
  simp [monomial_mul]

/-- emplacing products whose keys are pairwise different -/
lemma emplace_pairs {n : ℕ} (φ : (List ℕ × F) × (List ℕ × F) → List ℕ) :
    ∀ (qs : List ((List ℕ × F) × (List ℕ × F))) (m : FFMap F),
      (∀ p ∈ qs, (φ p).toFinsupp = p.1.1.toFinsupp + p.2.1.toFinsupp ∧ (φ p).length = n) →
      WFMap n m → (qs.map (fun p => p.1.1.toFinsupp + p.2.1.toFinsupp)).Nodup →
      (∀ k ∈ m.map Prod.fst, ∀ p ∈ qs, k.toFinsupp ≠ p.1.1.toFinsupp + p.2.1.toFinsupp) →
      WFMap n (qs.foldl (fun (m : FFMap F) p =>
        if p.1.2 * p.2.2 ≠ 0 then m.emplace (φ p) (p.1.2 * p.2.2) else m) m) ∧
      (∀ k ∈ (qs.foldl (fun (m : FFMap F) p =>
        if p.1.2 * p.2.2 ≠ 0 then m.emplace (φ p) (p.1.2 * p.2.2) else m) m).map Prod.fst,
          k ∈ m.map Prod.fst ∨ ∃ p ∈ qs, k = φ p) ∧
      denote (qs.foldl (fun (m : FFMap F) p =>
        if p.1.2 * p.2.2 ≠ 0 then m.emplace (φ p) (p.1.2 * p.2.2) else m) m) = denote m + (qs.map
          (fun p => monomial (p.1.1.toFinsupp + p.2.1.toFinsupp) (p.1.2 * p.2.2))).sum := by
  intro qs
  induction qs with
  | nil => intro m _ hm _ _; exact ⟨hm, fun k hk => Or.inl hk, by simp⟩
  | cons p qs ih =>
    intro m hq hm hn hk
    rw [List.foldl_cons, List.map_cons, List.sum_cons]
    rw [List.map_cons, List.nodup_cons] at hn
    obtain ⟨hz, hlen⟩ := hq p (by simp)
    by_cases hc : p.1.2 * p.2.2 = 0
    · rw [if_neg (by simp [hc])]
      obtain ⟨g1, g2, g3⟩ := ih m (fun q hq' => hq q (by simp [hq'])) hm hn.2
        (fun k hk' q hq' => hk k hk' q (by simp [hq']))
      refine ⟨g1, ?_, ?_⟩
      · intro k hk'
        rcases g2 k hk' with h | ⟨q, h1, h2⟩
        · exact Or.inl h
        · exact Or.inr ⟨q, by simp [h1], h2⟩
      · rw [g3, hc]; simp
    · rw [if_pos hc]
      have hfresh : φ p ∉ m.map Prod.fst := fun h => hk _ h p (by simp) hz
      obtain ⟨g1, g2, g3⟩ := ih _ (fun q hq' => hq q (by simp [hq'])) (hm.emplace hlen _) hn.2
        (by
          intro k hk' q hq'
          rw [keys_emplace, if_neg hfresh] at hk'
          rcases List.mem_append.mp hk' with h | h
          · exact hk k h q (by simp [hq'])
          · rw [List.mem_singleton.mp h, hz]
            intro he
            exact hn.1 (List.mem_map.mpr ⟨q, hq', he.symm⟩))
      refine ⟨g1, ?_, ?_⟩
      · intro k hk'
        rcases g2 k hk' with h | ⟨q, h1, h2⟩
        · rw [keys_emplace, if_neg hfresh] at h
          rcases List.mem_append.mp h with h | h
          · exact Or.inl h
          · exact Or.inr ⟨p, by simp, List.mem_singleton.mp h⟩
        · exact Or.inr ⟨q, by simp [h1], h2⟩
      · rw [g3, denote_emplace_fresh _ hfresh, hz]; ring

/-- C14, partial: the product of two polynomials is right whenever no exponent reaches `2^32` and
the products of the monomials are pairwise different (for example if one factor is a single
monomial). Missing: the general case, which is false of the code (`C14_violated`). -/
theorem C14_mul_partial {n : ℕ} {a b : FFMap F} (ha : WFMap n a) (hb : WFMap n b)
    (hov : ∀ ta ∈ a, ∀ tb ∈ b, ∀ i, ta.1.getD i 0 + tb.1.getD i 0 < 2 ^ 32)
    (hdist : (a.flatMap (fun ta => b.map (fun tb =>
      ta.1.toFinsupp + tb.1.toFinsupp))).Nodup) :
    WFMap n (PolyFF.mul a b) ∧ denote (PolyFF.mul a b) = denote a * denote b := by
  rw [mul_eq_fold, denote_mul]
  set ps := a.flatMap (fun ta => b.map (fun tb => (ta, tb))) with hps
  have hmem : ∀ p ∈ ps, p.1 ∈ a ∧ p.2 ∈ b := by
    intro p hp
    obtain ⟨ta, h1, h2⟩ := List.mem_flatMap.mp hp
    obtain ⟨tb, h3, rfl⟩ := List.mem_map.mp h2
    exact ⟨h1, h3⟩
  have hnd : (ps.map (fun p => p.1.1.toFinsupp + p.2.1.toFinsupp)).Nodup := by
    rw [hps, List.map_flatMap]; simp only [List.map_map]; exact hdist
  obtain ⟨h1, _, h3⟩ := emplace_pairs (n := n)
    (fun p => List.zipWith (fun x y => (x + y) % 2 ^ 32) p.1.1 p.2.1) ps [] (by
      intro p hp
      obtain ⟨hp1, hp2⟩ := hmem p hp
      refine ⟨zipWith_toFinsupp (ha.2 _ hp1) (hb.2 _ hp2) (hov _ hp1 _ hp2), ?_⟩
      rw [List.length_zipWith, ha.2 _ hp1, hb.2 _ hp2]; simp) (WFMap.nil n) hnd (by simp)
  exact ⟨h1, by rw [h3]; simp⟩

/-- C14 fails: `(x + 1) * (x + 2)` comes out as `x^2 + 2 x + 2`, over every field of characteristic
different from two. -/
theorem C14_violated (h2 : (2 : F) ≠ 0) :
    ∃ a b : FFMap F, WFMap 1 a ∧ WFMap 1 b ∧ denote (PolyFF.mul a b) ≠ denote a * denote b := by
  refine ⟨[([1], 1), ([0], 1)], [([1], 1), ([0], 2)], ⟨by simp, by simp⟩, ⟨by simp, by simp⟩, ?_⟩
  have hm : PolyFF.mul ([([1], 1), ([0], 1)] : FFMap F) [([1], 1), ([0], 2)] =
      [([2], 1), ([1], 2), ([0], 2)] := by
    simp [PolyFF.mul, FFMap.emplace, FFMap.find?, h2]
  rw [hm]
  intro h
  have h' := congrArg (eval (fun _ => (1 : F))) h
  simp [denote, eval_monomial] at h'
  norm_num at h'
  have : (1 : F) = 0 := by linear_combination -h'
  exact one_ne_zero this

example : PolyFF.mul ([([1, 0], 2)] : FFMap ℚ) [([1, 1], 2), ([0, 2], 3)] =
    [([2, 1], 4), ([1, 2], 6)] := by
  norm_num [PolyFF.mul, FFMap.emplace, FFMap.find?]

/-! ### C17 -/

omit [Field F] [DecidableEq F] in
lemma foldl_emplace_eq_map (φ : List ℕ × F → List ℕ) : ∀ (a m : FFMap F),
    (a.map φ).Nodup → (∀ t ∈ a, φ t ∉ m.map Prod.fst) →
    a.foldl (fun (m : FFMap F) t => m.emplace (φ t) t.2) m = m ++ a.map (fun t => (φ t, t.2))
  | [], m, _, _ => by simp
  | t :: a, m, hnd, hf => by
    rw [List.map_cons, List.nodup_cons] at hnd
    have h0 : m.emplace (φ t) t.2 = m ++ [(φ t, t.2)] := by
      unfold FFMap.emplace
      rw [find?_eq_none.mpr (hf t (by simp))]; simp
    rw [List.foldl_cons, h0, foldl_emplace_eq_map φ a _ hnd.2]
    · simp
    · intro s hs hmem
      rw [List.map_append, List.mem_append] at hmem
      rcases hmem with h | h
      · exact hf s (by simp [hs]) h
      · simp at h
        exact hnd.1 (h ▸ List.mem_map.mpr ⟨s, hs, rfl⟩)

omit [Field F] [DecidableEq F] in
lemma foldl_set_eq_map (φ : List ℕ × F → List ℕ) : ∀ (a m : FFMap F),
    (a.map φ).Nodup → (∀ t ∈ a, φ t ∉ m.map Prod.fst) →
    a.foldl (fun (m : FFMap F) t => m.set (φ t) t.2) m = m ++ a.map (fun t => (φ t, t.2))
  | [], m, _, _ => by simp
  | t :: a, m, hnd, hf => by
    rw [List.map_cons, List.nodup_cons] at hnd
    have h0 : m.set (φ t) t.2 = m ++ [(φ t, t.2)] := by
      unfold FFMap.set
      rw [find?_eq_none.mpr (hf t (by simp))]; simp
    rw [List.foldl_cons, h0, foldl_set_eq_map φ a _ hnd.2]
    · simp
    · intro s hs hmem
      rw [List.map_append, List.mem_append] at hmem
      rcases hmem with h | h
      · exact hf s (by simp [hs]) h
      · simp at h
        exact hnd.1 (h ▸ List.mem_map.mpr ⟨s, hs, rfl⟩)

lemma incrAt_toFinsupp {e : List ℕ} {i : ℕ} (hi : i < e.length) (hov : e.getD i 0 + 1 < 2 ^ 32) :
    (incrAt e i).toFinsupp = Finsupp.single i 1 + e.toFinsupp := by
  ext j
  rw [Finsupp.add_apply, List.toFinsupp_apply, List.toFinsupp_apply]
  unfold incrAt
  rw [List.getD_eq_getElem?_getD, List.getElem?_modify]
  by_cases hj : i = j
  · subst hj
    rw [List.getD_eq_getElem _ _ hi] at hov
    simp only [List.getElem?_eq_getElem hi, if_true, Option.map_some, Option.getD_some,
      Finsupp.single_eq_same, List.getD_eq_getElem _ _ hi]
    show (e[i] + 1) % 2 ^ 32 = 1 + e[i]
    rw [Nat.mod_eq_of_lt hov]; omega
  · simp [hj, Finsupp.single_apply, List.getD_eq_getElem?_getD]

/-- C17: `mul(z)` multiplies by the `z`-th variable (counted from one) if no exponent overflows. -/
theorem C17_mul {n : ℕ} {a : FFMap F} (ha : WFMap n a) {z : ℕ} (hz : 1 ≤ z) (hzn : z ≤ n)
    (hov : ∀ t ∈ a, t.1.getD (z - 1) 0 + 1 < 2 ^ 32) :
    WFMap n (PolyFF.mulVar a z) ∧ denote (PolyFF.mulVar a z) = X (z - 1) * denote a := by
  have hfin : ∀ t ∈ a, (incrAt t.1 (z - 1)).toFinsupp = Finsupp.single (z - 1) 1 + t.1.toFinsupp :=
    fun t ht => incrAt_toFinsupp (by rw [ha.2 t ht]; omega) (hov t ht)
  have hnd : (a.map (fun t => incrAt t.1 (z - 1))).Nodup := by
    have h1 : a.Nodup := List.Nodup.of_map _ ha.1
    refine List.Nodup.map_on ?_ h1
    intro x hx y hy he
    have h2 := hfin x hx
    rw [he, hfin y hy] at h2
    have h3 := toFinsupp_inj (ha.2 y hy) (ha.2 x hx) (add_left_cancel h2)
    have hx' : (x.1, x.2) ∈ a := hx
    rw [← h3] at hx'
    have e1 := find?_of_mem ha.1 hx'
    have e2 := find?_of_mem ha.1 (show (y.1, y.2) ∈ a from hy)
    rw [e1] at e2
    exact Prod.ext h3.symm (Option.some.inj e2)
  have hm : PolyFF.mulVar a z = a.map (fun t => (incrAt t.1 (z - 1), t.2)) := by
    unfold PolyFF.mulVar
    rw [foldl_emplace_eq_map (fun t => incrAt t.1 (z - 1)) a [] hnd (by simp)]; simp
  rw [hm]
  refine ⟨⟨?_, ?_⟩, ?_⟩
  · rw [List.map_map]; exact hnd
  · intro t ht
    obtain ⟨s, hs, rfl⟩ := List.mem_map.mp ht
    simp only [incrAt, List.length_modify]; exact ha.2 s hs
  · unfold denote
    rw [← List.sum_map_mul_left, List.map_map]
    congr 1
    apply List.map_congr_left
    intro t ht
    simp only [Function.comp]
    rw [hfin t ht, X, monomial_mul, one_mul]

lemma foldl_add_mod (e : List ℕ) (s : ℕ) : e.foldl (fun s p => (s + p) % 2 ^ 32) s % 2 ^ 32 = (s + e.sum) % 2 ^ 32 := by
  induction e generalizing s with
  | nil => simp
  | cons d e ih => rw [List.foldl_cons, ih, List.sum_cons]; omega

lemma foldl_add_lt (e : List ℕ) : e.foldl (fun s p => (s + p) % 2 ^ 32) 0 < 2 ^ 32 := by
  have : ∀ s, s < 2 ^ 32 → e.foldl (fun s p => (s + p) % 2 ^ 32) s < 2 ^ 32 := by
    induction e with
    | nil => intro s h; exact h
    | cons d e ih => intro s h; rw [List.foldl_cons]; exact ih _ (Nat.mod_lt _ (by norm_num))
  exact this 0 (by norm_num)

lemma degree_toFinsupp (e : List ℕ) : (e.toFinsupp).degree = e.sum := by
  rw [Finsupp.degree_apply]
  have h : ∑ i ∈ e.toFinsupp.support, e.toFinsupp i = ∑ i ∈ Finset.range e.length, e.getD i 0 := by
    apply Finset.sum_subset (List.toFinsupp_support_subset e)
    intro i _ hi
    rw [Finsupp.notMem_support_iff] at hi
    exact hi
  rw [h]
  clear h
  induction e with
  | nil => simp
  | cons d e ih =>
    rw [List.length_cons, Finset.sum_range_succ', List.sum_cons]
    simp only [List.getD_cons_succ, List.getD_cons_zero]
    rw [ih, add_comm]

/-- The substitution `x_0 := 1`, `x_{i+1} := x_i` that undoes a homogenisation. -/
noncomputable def dehomogenize (p : MvPolynomial ℕ F) : MvPolynomial ℕ F :=
  aeval (fun i : ℕ => if i = 0 then (1 : MvPolynomial ℕ F) else X (i - 1)) p

omit [DecidableEq F] in
lemma dehomogenize_monomial (d : ℕ) (e : List ℕ) (c : F) :
    dehomogenize (monomial (d :: e).toFinsupp c) = monomial e.toFinsupp c := by
  unfold dehomogenize
  rw [aeval_monomial]
  have h1 : (d :: e).toFinsupp.prod (fun i k =>
      (if i = 0 then (1 : MvPolynomial ℕ F) else X (i - 1)) ^ k) =
      ∏ i ∈ Finset.range (e.length + 1),
        (if i = 0 then (1 : MvPolynomial ℕ F) else X (i - 1)) ^ ((d :: e).getD i 0) := by
    rw [Finsupp.prod]
    refine Finset.prod_subset (by have := List.toFinsupp_support_subset (d :: e); simpa using this) ?_
    intro i _ hi
    rw [Finsupp.notMem_support_iff] at hi
    rw [hi]; simp
  have h2 : e.toFinsupp.prod (fun i k => (X i : MvPolynomial ℕ F) ^ k) =
      ∏ i ∈ Finset.range e.length, (X i : MvPolynomial ℕ F) ^ (e.getD i 0) := by
    rw [Finsupp.prod]
    refine Finset.prod_subset (List.toFinsupp_support_subset e) ?_
    intro i _ hi
    rw [Finsupp.notMem_support_iff] at hi
    rw [hi]; simp
  rw [h1, Finset.prod_range_succ']
  simp only [List.getD_cons_succ, if_true, one_pow, mul_one, Nat.add_sub_cancel,
    Nat.succ_ne_zero, if_false]
  rw [← h2, algebraMap_eq, monomial_eq]

/-- C17: homogenising a polynomial of total degree at most `d` (below `2^32`) gives a homogeneous
polynomial of degree `d` in one more variable, placed first, and setting that variable to one gives
the original back. -/
theorem C17_homogenize {n : ℕ} {a : FFMap F} (ha : WFMap n a) {d : ℕ} (hd : d < 2 ^ 32)
    (hdeg : ∀ t ∈ a, t.1.sum ≤ d) :
    WFMap (n + 1) (PolyFF.homogenize a d) ∧ (denote (PolyFF.homogenize a d)).IsHomogeneous d ∧
    dehomogenize (denote (PolyFF.homogenize a d)) = denote a := by
  have hold : ∀ t ∈ a, (d + 2 ^ 32 - t.1.foldl (fun s p => (s + p) % 2 ^ 32) 0) % 2 ^ 32 = d - t.1.sum := by
    intro t ht
    have h1 := foldl_add_mod t.1 0
    have h2 := foldl_add_lt t.1
    rw [Nat.mod_eq_of_lt h2, zero_add] at h1
    have h3 := hdeg t ht
    rw [h1, Nat.mod_eq_of_lt (by omega : t.1.sum < 2 ^ 32)]
    omega
  have hnd : (a.map (fun t => ((d + 2 ^ 32 - t.1.foldl (fun s p => (s + p) % 2 ^ 32) 0) % 2 ^ 32) :: t.1)).Nodup := by
    have h1 : a.Nodup := List.Nodup.of_map _ ha.1
    refine List.Nodup.map_on ?_ h1
    intro x hx y hy he
    have h3 : x.1 = y.1 := (List.cons.inj he).2
    have e1 := find?_of_mem ha.1 (show (x.1, x.2) ∈ a from hx)
    have e2 := find?_of_mem ha.1 (show (y.1, y.2) ∈ a from hy)
    rw [h3, e2] at e1
    exact Prod.ext h3 (Option.some.inj e1).symm
  have hm : PolyFF.homogenize a d = a.map (fun t => ((d - t.1.sum) :: t.1, t.2)) := by
    unfold PolyFF.homogenize
    rw [foldl_set_eq_map (fun t => ((d + 2 ^ 32 - t.1.foldl (fun s p => (s + p) % 2 ^ 32) 0) % 2 ^ 32) :: t.1)
      a [] hnd (by simp), List.nil_append]
    apply List.map_congr_left
    intro t ht
    rw [hold t ht]
  rw [hm]
  refine ⟨⟨?_, ?_⟩, ?_, ?_⟩
  · rw [List.map_map]
    have : (Prod.fst ∘ fun t : List ℕ × F => ((d - t.1.sum) :: t.1, t.2)) = (fun t => (d - t.1.sum) :: t.1) := rfl
    rw [this]
    have h1 : a.Nodup := List.Nodup.of_map _ ha.1
    refine List.Nodup.map_on ?_ h1
    intro x hx y hy he
    have h3 : x.1 = y.1 := (List.cons.inj he).2
    have e1 := find?_of_mem ha.1 (show (x.1, x.2) ∈ a from hx)
    have e2 := find?_of_mem ha.1 (show (y.1, y.2) ∈ a from hy)
    rw [h3, e2] at e1
    exact Prod.ext h3 (Option.some.inj e1).symm
  · intro t ht
    obtain ⟨s, hs, rfl⟩ := List.mem_map.mp ht
    simp [ha.2 s hs]
  · have : ∀ l : FFMap F, (∀ t ∈ l, t.1.sum = d) → (denote l).IsHomogeneous d := by
      intro l
      induction l with
      | nil => intro _; exact isHomogeneous_zero _ _ _
      | cons t l ih =>
        intro hl
        rw [denote_cons]
        refine IsHomogeneous.add ?_ (ih (fun s hs => hl s (by simp [hs])))
        apply isHomogeneous_monomial
        rw [degree_toFinsupp]; exact hl t (by simp)
    apply this
    intro t ht
    obtain ⟨s, hs, rfl⟩ := List.mem_map.mp ht
    have := hdeg s hs
    simp only [List.sum_cons]; omega
  · unfold denote
    have hl : ∀ l : List (MvPolynomial ℕ F), dehomogenize l.sum = (l.map dehomogenize).sum := by
      intro l
      unfold dehomogenize
      rw [map_list_sum]
    rw [hl, List.map_map, List.map_map]
    congr 1
    apply List.map_congr_left
    intro t _
    simp only [Function.comp]
    exact dehomogenize_monomial _ _ _

example : PolyFF.homogenize ([([1, 1], 2), ([0, 3], 3), ([0, 0], 5)] : FFMap ℚ) 3 =
    [([1, 1, 1], 2), ([0, 0, 3], 3), ([3, 0, 0], 5)] := by decide +kernel

end FireFly
