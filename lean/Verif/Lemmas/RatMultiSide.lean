import Verif.Lemmas.RatMultiRec
/-! # Removal of the shift, degree by degree -/
set_option linter.all false
namespace FireFly.RMulti
open MvPolynomial
variable {F : Type} [Field F] [DecidableEq F]

lemma hc_monomial (i : ℕ) (e : List ℕ) (v : F) : homogeneousComponent i (monomial e.toFinsupp v) = if e.sum = i then monomial e.toFinsupp v else 0 := by
  have h : (monomial e.toFinsupp v : MvPolynomial ℕ F).IsHomogeneous e.sum := isHomogeneous_monomial v (degree_toFinsupp e)
  rw [homogeneousComponent_of_mem (n := e.sum) h]
  by_cases h1 : e.sum = i
  · rw [if_pos h1, if_pos h1.symm]
  · rw [if_neg h1, if_neg (fun h => h1 h.symm)]

/-- the loop of `calculate_shift_polynomials` -/
def shiftFold (deg : ℕ) (res : FFMap (FFMap F)) (p : FFMap F) : FFMap (FFMap F) :=
  p.foldl (fun (res : FFMap (FFMap F)) el =>
    if el.1.sum < deg ∧ el.2 ≠ 0 then res.set [el.1.sum] (PolyFF.addAssign (polyAt res el.1.sum) [el]) else res) res

lemma polyAt_set (m : FFMap (FFMap F)) (i j : ℕ) (p : FFMap F) : polyAt (m.set [i] p) j = if j = i then p else polyAt m j := by
  unfold polyAt
  rw [FFMap.find?_set]
  by_cases h : j = i
  · rw [if_pos h, if_pos (by rw [h])]; rfl
  · rw [if_neg h, if_neg (by intro h2; exact h (by simpa using h2))]

lemma wf_single {n : ℕ} {e : List ℕ} (v : F) (h : e.length = n) : WFMap n [(e, v)] := ⟨by simp, by simp [h]⟩

lemma denote_single (e : List ℕ) (v : F) : denote [(e, v)] = monomial e.toFinsupp v := by simp [denote]

lemma keys_set' {α : Type} (m : FFMap α) (k : List ℕ) (v : α) (h : k ∈ m.map Prod.fst) : (m.set k v).map Prod.fst = m.map Prod.fst := by
  rw [FFMap.keys_set, if_pos h]

lemma shiftFold_spec {n deg : ℕ} : ∀ (p : FFMap F) (res : FFMap (FFMap F)), (∀ t ∈ p, t.1.length = n) → (∀ i < deg, [i] ∈ res.map Prod.fst) →
    (∀ i, WFMap n (polyAt res i)) →
    (shiftFold deg res p).map Prod.fst = res.map Prod.fst ∧ (∀ i, WFMap n (polyAt (shiftFold deg res p) i)) ∧
    ∀ i < deg, denote (polyAt (shiftFold deg res p) i) = denote (polyAt res i) + homogeneousComponent i (denote p) := by
  intro p
  induction p with
  | nil => intro res _ _ h; exact ⟨rfl, h, fun i _ => by simp [shiftFold, denote]⟩
  | cons el p ih =>
    intro res hl hk hw
    by_cases hc : el.1.sum < deg ∧ el.2 ≠ 0
    · have hstep : shiftFold deg res (el :: p) = shiftFold deg (res.set [el.1.sum] (PolyFF.addAssign (polyAt res el.1.sum) [el])) p := by
        unfold shiftFold; rw [List.foldl_cons, if_pos hc]
      obtain ⟨w1, w2, -⟩ := C13_add_assign (hw el.1.sum) (wf_single el.2 (hl el (by simp)))
      have hkeys := keys_set' res [el.1.sum] (PolyFF.addAssign (polyAt res el.1.sum) [el]) (hk _ hc.1)
      obtain ⟨i1, i2, i3⟩ := ih (res.set [el.1.sum] (PolyFF.addAssign (polyAt res el.1.sum) [el])) (fun t ht => hl t (by simp [ht]))
        (by rw [hkeys]; exact hk) (by
          intro i
          rw [polyAt_set]
          split_ifs
          · exact w1
          · exact hw i)
      rw [hstep]
      refine ⟨i1.trans hkeys, i2, ?_⟩
      intro i hi
      rw [i3 i hi, polyAt_set, denote_cons, map_add, hc_monomial]
      by_cases h : i = el.1.sum
      · rw [if_pos h, if_pos h.symm, h]
        have : denote (PolyFF.addAssign (polyAt res el.1.sum) [el]) = denote (polyAt res el.1.sum) + monomial el.1.toFinsupp el.2 := by
          rw [← denote_single]; exact w2
        rw [this]; ring
      · rw [if_neg h, if_neg (fun h2 => h h2.symm), zero_add]
    · have hstep : shiftFold deg res (el :: p) = shiftFold deg res p := by
        unfold shiftFold; rw [List.foldl_cons, if_neg hc]
      obtain ⟨i1, i2, i3⟩ := ih res (fun t ht => hl t (by simp [ht])) hk hw
      rw [hstep]
      refine ⟨i1, i2, ?_⟩
      intro i hi
      rw [i3 i hi, denote_cons, map_add, hc_monomial]
      by_cases h : el.1.sum = i
      · have h0 : el.2 = 0 := by
          by_contra h0; exact hc ⟨by omega, h0⟩
        rw [h0]; simp
      · rw [if_neg h, zero_add]

lemma zeroPoly_wf (c : Cfg F) : WFMap c.n c.zeroPoly := ⟨by simp [Cfg.zeroPoly], by simp [Cfg.zeroPoly]⟩
lemma zeroPoly_denote (c : Cfg F) : denote c.zeroPoly = 0 := by simp [Cfg.zeroPoly, denote]

lemma polyAt_zeros (c : Cfg F) (k i : ℕ) : WFMap c.n (polyAt ((List.range k).map fun i => ([i], c.zeroPoly)) i) ∧ denote (polyAt ((List.range k).map fun i => ([i], c.zeroPoly)) i) = 0 := by
  unfold polyAt
  cases h : FFMap.find? ((List.range k).map fun i => (([i] : List ℕ), c.zeroPoly)) [i] with
  | none => exact ⟨WFMap.nil _, by simp [denote]⟩
  | some p =>
    have := FFMap.find?_mem h
    rw [List.mem_map] at this
    obtain ⟨j, -, hj⟩ := this
    rw [Prod.mk.injEq] at hj
    rw [Option.getD_some, ← hj.2]
    exact ⟨zeroPoly_wf c, zeroPoly_denote c⟩

/-- the coefficients have degree `k` -/
lemma sum_of_homog {n k : ℕ} {p : FFMap F} (hw : WFMap n p) (hz : NZ p) (hh : (denote p).IsHomogeneous k) {t : List ℕ × F} (ht : t ∈ p) : t.1.sum = k := by
  rw [← degree_toFinsupp]
  apply homog_deg hh
  rw [coeff_denote hw (hw.2 t ht), FFMap.find?_of_mem hw.1 (v := t.2) ht]
  exact hz t ht

lemma getD_le_sum (l : List ℕ) (j : ℕ) : l.getD j 0 ≤ l.sum := by
  by_cases h : j < l.length
  · rw [List.getD_eq_getElem _ _ h]
    exact List.le_sum_of_mem (List.getElem_mem h)
  · rw [List.getD_eq_default _ _ (by omega)]; omega

lemma shiftPolys_spec {c : Cfg F} (hs : c.shift.length = c.n) {k : ℕ} (hk : 1 ≤ k) (hchar : ∀ i, 0 < i → i ≤ k → (i : F) ≠ 0) {p : FFMap F}
    (hw : WFMap c.n p) (hz : NZ p) (hh : (denote p).IsHomogeneous k) :
    ∃ ms, c.shiftPolys p k = some ms ∧ (ms.map Prod.fst).Nodup ∧ (∀ key, key ∈ ms.map Prod.fst ↔ ∃ i < k, key = [i]) ∧ (∀ i, WFMap c.n (polyAt ms i)) ∧
      ∀ i < k, denote (polyAt ms i) = part c.shift (denote p) i := by
  obtain ⟨r, h1, h2, h3⟩ := C16_add_shift_partial hw hs (by
    intro t ht j i hi hle
    have := getD_le_sum t.1 j
    rw [sum_of_homog hw hz hh ht] at this
    exact hchar i hi (by omega))
  have h0 : coeff 0 (denote p) = 0 := by
    by_contra h
    have := homog_deg hh h
    simp at this; omega
  rw [h0, C_0, sub_zero] at h3
  have hkeys : ((List.range k).map fun i => (([i] : List ℕ), c.zeroPoly)).map Prod.fst = (List.range k).map fun i => [i] := by
    rw [List.map_map]; rfl
  obtain ⟨i1, i2, i3⟩ := shiftFold_spec (n := c.n) (deg := k) r ((List.range k).map fun i => ([i], c.zeroPoly)) h2.2
    (by intro i hi; rw [hkeys]; exact List.mem_map.mpr ⟨i, List.mem_range.mpr hi, rfl⟩) (fun i => (polyAt_zeros c k i).1)
  refine ⟨shiftFold k ((List.range k).map fun i => ([i], c.zeroPoly)) r, ?_, ?_, ?_, i2, ?_⟩
  · unfold Cfg.shiftPolys
    rw [h1]; rfl
  · rw [i1, hkeys]
    exact List.nodup_range.map (fun a b h => by simpa using h)
  · intro key
    rw [i1, hkeys, List.mem_map]
    simp only [List.mem_range]
    exact ⟨fun ⟨i, h, e⟩ => ⟨i, h, e.symm⟩, fun ⟨i, h, e⟩ => ⟨i, h, e.symm⟩⟩
  · intro i hi
    rw [i3 i hi, (polyAt_zeros c k i).2, zero_add, h3]; rfl

lemma addShifts_spec {n : ℕ} : ∀ (ms sub : FFMap (FFMap F)), (ms.map Prod.fst).Nodup → (∀ t ∈ ms, WFMap n t.2) →
    ∀ j, WFMap n (polyAt sub j) → WFMap n (polyAt (addShifts sub ms) j) ∧ denote (polyAt (addShifts sub ms) j) = denote (polyAt sub j) + denote (polyAt ms j) := by
  intro ms
  induction ms with
  | nil => intro sub _ _ j h; exact ⟨h, by simp [addShifts, polyAt, FFMap.find?, denote]⟩
  | cons t ms ih =>
    intro sub hnd hw j hj
    rw [List.map_cons, List.nodup_cons] at hnd
    have hstep : addShifts sub (t :: ms) = addShifts (sub.set t.1 (PolyFF.addAssign ((sub.find? t.1).getD []) t.2)) ms := rfl
    rw [hstep]
    by_cases h : t.1 = [j]
    · have hpj : polyAt (sub.set t.1 (PolyFF.addAssign ((sub.find? t.1).getD []) t.2)) j = PolyFF.addAssign (polyAt sub j) t.2 := by
        rw [h, polyAt_set, if_pos rfl]; rfl
      obtain ⟨w1, w2, -⟩ := C13_add_assign hj (hw t (by simp))
      obtain ⟨g1, g2⟩ := ih (sub.set t.1 (PolyFF.addAssign ((sub.find? t.1).getD []) t.2)) hnd.2 (fun x hx => hw x (by simp [hx])) j (by rw [hpj]; exact w1)
      refine ⟨g1, ?_⟩
      rw [g2, hpj, w2]
      have e1 : polyAt ms j = [] := by
        unfold polyAt
        rw [FFMap.find?_eq_none.mpr (by rw [← h]; exact hnd.1)]; rfl
      have e2 : polyAt (t :: ms) j = t.2 := by
        unfold polyAt
        rw [show t :: ms = (t.1, t.2) :: ms from rfl, FFMap.find?_cons, if_pos h.symm]; rfl
      rw [e1, e2]; simp [denote]
    · have hpj : polyAt (sub.set t.1 (PolyFF.addAssign ((sub.find? t.1).getD []) t.2)) j = polyAt sub j := by
        unfold polyAt
        rw [FFMap.find?_set, if_neg (fun h2 => h h2.symm)]
      obtain ⟨g1, g2⟩ := ih (sub.set t.1 (PolyFF.addAssign ((sub.find? t.1).getD []) t.2)) hnd.2 (fun x hx => hw x (by simp [hx])) j (by rw [hpj]; exact hj)
      refine ⟨g1, ?_⟩
      rw [g2, hpj]
      have e2 : polyAt (t :: ms) j = polyAt ms j := by
        unfold polyAt
        rw [show t :: ms = (t.1, t.2) :: ms from rfl, FFMap.find?_cons, if_neg (fun h2 => h h2.symm)]
      rw [e2]

/-! ### the state of one side -/

/-- the target of degree `k` -/
noncomputable def tgt (c : Cfg F) (Q : MvPolynomial ℕ F) (dense : List ℕ) (k : ℕ) : MvPolynomial ℕ F :=
  if k ∈ dense then part c.shift Q k else homogeneousComponent k Q

/-- the contribution of the degrees from `T` on to degree `j` -/
noncomputable def subSum (c : Cfg F) (Q : MvPolynomial ℕ F) (m T j : ℕ) : MvPolynomial ℕ F :=
  ∑ k ∈ Finset.range (m + 1) with T ≤ k ∧ j < k, sh c.shift Q j k

lemma subSum_top (c : Cfg F) (Q : MvPolynomial ℕ F) (m j : ℕ) : subSum c Q m (m + 1) j = 0 := by
  unfold subSum
  apply Finset.sum_eq_zero
  intro k hk
  rw [Finset.mem_filter, Finset.mem_range] at hk
  omega

lemma subSum_step (c : Cfg F) (Q : MvPolynomial ℕ F) {m T : ℕ} (hT : T ≤ m) (j : ℕ) :
    subSum c Q m T j = subSum c Q m (T + 1) j + if j < T then sh c.shift Q j T else 0 := by
  unfold subSum
  rw [Finset.sum_filter, Finset.sum_filter, ← Finset.sum_erase_add _ _ (Finset.mem_range.mpr (by omega : T < m + 1)),
    ← Finset.sum_erase_add (a := T) _ (fun k => if T + 1 ≤ k ∧ j < k then sh c.shift Q j k else 0) (Finset.mem_range.mpr (by omega : T < m + 1))]
  rw [if_neg (by omega : ¬ (T + 1 ≤ T ∧ j < T)), add_zero]
  congr 1
  · apply Finset.sum_congr rfl
    intro k hk
    have hne := Finset.ne_of_mem_erase hk
    by_cases h : T ≤ k ∧ j < k
    · rw [if_pos h, if_pos ⟨by omega, h.2⟩]
    · rw [if_neg h, if_neg (by omega)]
  · by_cases h : j < T
    · rw [if_pos ⟨le_rfl, h⟩, if_pos h]
    · rw [if_neg (by omega), if_neg h]

lemma sh_zero {c : Cfg F} {Q : MvPolynomial ℕ F} {k : ℕ} (h : homogeneousComponent k Q = 0) (j : ℕ) : sh c.shift Q j k = 0 := by
  unfold sh; rw [h]; simp [part]

variable {c : Cfg F} {bounds : Option (List ℕ)} {Q : MvPolynomial ℕ F} {m : ℕ}

lemma SideOK.hcTop (h : SideOK c bounds Q m) : ∀ k, m < k → homogeneousComponent k Q = 0 := fun k hk => h.keep k (h.top k hk)

lemma SideOK.le (h : SideOK c bounds Q m) {k : ℕ} (hk : part c.shift Q k ≠ 0) : k ≤ m := by
  by_contra hlt
  exact hk (h.top k (by omega))

/-- the part without shift -/
lemma SideOK.unshift (h : SideOK c bounds Q m) {k : ℕ} (hk : k ≤ m) : part c.shift Q k = homogeneousComponent k Q + subSum c Q m (k + 1) k := by
  rw [part_sum c.shift Q m h.hcTop hk]
  congr 1
  unfold subSum
  apply Finset.sum_congr _ (fun _ _ => rfl)
  ext x
  simp only [Finset.mem_filter]
  constructor
  · rintro ⟨a, b⟩; exact ⟨a, by omega, b⟩
  · rintro ⟨a, -, b⟩; exact ⟨a, b⟩

lemma SideOK.top_eq (h : SideOK c bounds Q m) : part c.shift Q m = homogeneousComponent m Q := by
  rw [h.unshift le_rfl, subSum_top, add_zero]

lemma noshift_eq (hs : c.shift.length = c.n) (h : c.hasShift = false) (Q : MvPolynomial ℕ F) (k : ℕ) : part c.shift Q k = homogeneousComponent k Q := by
  apply part_noshift
  intro i
  unfold Cfg.hasShift at h
  rw [decide_eq_false_iff_not, not_not] at h
  rw [h, List.getD_eq_getElem?_getD, List.getElem?_replicate]
  split <;> simp

/-- what the subtraction terms mean: the degrees from `T` on are taken into account -/
def SubOK (c : Cfg F) (Q : MvPolynomial ℕ F) (m T : ℕ) (sub : FFMap (FFMap F)) : Prop :=
  ∀ j ≤ m, WFMap c.n (polyAt sub j) ∧ denote (polyAt sub j) = subSum c Q m T j

/-- `solved` holds the polynomial of degree `k` -/
def Holds (c : Cfg F) (solved : FFMap (FFMap F)) (k : ℕ) (p : MvPolynomial ℕ F) : Prop :=
  ∃ q, solved.find? [k] = some q ∧ WFMap c.n q ∧ NZ q ∧ denote q = p

lemma Holds.polyAt {solved : FFMap (FFMap F)} {k : ℕ} {p : MvPolynomial ℕ F} (h : Holds c solved k p) :
    WFMap c.n (polyAt solved k) ∧ NZ (RMulti.polyAt solved k) ∧ denote (RMulti.polyAt solved k) = p := by
  obtain ⟨q, h1, h2⟩ := h
  unfold RMulti.polyAt
  rw [h1]; exact h2

/-- the shift terms of degree `T` -/
lemma addSub_spec (hs : c.shift.length = c.n) (h : SideOK c bounds Q m) {s : Side F} {T : ℕ} (hT : 1 ≤ T) (hTm : T ≤ m) (hsub : SubOK c Q m (T + 1) s.sub)
    (hh : Holds c s.solved T (homogeneousComponent T Q)) : ∃ sub', c.addSub s T = some { s with sub := sub' } ∧ SubOK c Q m T sub' := by
  obtain ⟨h1, h2, h3⟩ := hh.polyAt
  have hhom : (denote (polyAt s.solved T)).IsHomogeneous T := by rw [h3]; exact homogeneousComponent_isHomogeneous T Q
  obtain ⟨ms, e1, e2, e3, e4, e5⟩ := shiftPolys_spec hs hT (fun i hi hle => h.char i hi (by omega)) h1 h2 hhom
  refine ⟨addShifts s.sub ms, by unfold Cfg.addSub; rw [e1]; rfl, ?_⟩
  intro j hj
  obtain ⟨g1, g2⟩ := hsub j hj
  obtain ⟨k1, k2⟩ := addShifts_spec (n := c.n) ms s.sub e2 (by
    rintro ⟨key, v⟩ ht
    obtain ⟨i, hi, rfl⟩ := (e3 key).mp (List.mem_map.mpr ⟨_, ht, rfl⟩)
    have := e4 i
    unfold polyAt at this
    rw [FFMap.find?_of_mem e2 ht] at this
    exact this) j g1
  refine ⟨k1, ?_⟩
  rw [k2, g2, subSum_step c Q hTm]
  congr 1
  by_cases hjT : j < T
  · rw [if_pos hjT, e5 j hjT, h3]; rfl
  · rw [if_neg hjT]
    unfold polyAt
    rw [FFMap.find?_eq_none.mpr]
    · simp [denote]
    · intro hmem
      obtain ⟨i, hi, hii⟩ := (e3 [j]).mp hmem
      have : j = i := by simpa using hii
      omega

lemma SubOK.skip (h : SideOK c bounds Q m) {sub : FFMap (FFMap F)} {T : ℕ} (hTm : T ≤ m) (hz : part c.shift Q T = 0) (hsub : SubOK c Q m (T + 1) sub) : SubOK c Q m T sub := by
  intro j hj
  obtain ⟨g1, g2⟩ := hsub j hj
  refine ⟨g1, ?_⟩
  rw [g2, subSum_step c Q hTm, sh_zero (h.keep T hz)]
  simp

/-- a solved degree loses its shift -/
lemma subtract_spec (h : SideOK c bounds Q m) {s : Side F} {T : ℕ} (hTm : T ≤ m) (hsub : SubOK c Q m (T + 1) s.sub) (hh : Holds c s.solved T (part c.shift Q T)) :
    Holds c (subtract s T).solved T (homogeneousComponent T Q) ∧ ∀ k p, k ≠ T → Holds c s.solved k p → Holds c (subtract s T).solved k p := by
  obtain ⟨h1, h2, h3⟩ := hh.polyAt
  obtain ⟨g1, g2⟩ := hsub T hTm
  obtain ⟨k1, k2, k3⟩ := C13_sub_assign h1 g1
  constructor
  · refine ⟨_, ?_, k1, k3 h2, ?_⟩
    · unfold subtract
      simp only
      rw [FFMap.find?_set, if_pos rfl]
    · rw [k2, h3, g2, h.unshift hTm]; ring
  · rintro k p hk ⟨q, e1, e2⟩
    refine ⟨q, ?_, e2⟩
    unfold subtract
    simp only
    rw [FFMap.find?_set, if_neg (by simpa using hk)]
    exact e1

end FireFly.RMulti
