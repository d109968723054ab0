import Verif.Lemmas.MultiPolyMain
import Verif.Props.PolyProps
/-!
# C43: interpolation of multivariate polynomials over one prime field
-/
set_option linter.all false
namespace FireFly.MPoly
open Polynomial
variable {F : Type} [Field F] [DecidableEq F]

/-- The polynomial `f` (a list of different exponent vectors with coefficients that do not vanish) agrees with what the user told the object (degree bounds), its exponents fit into the
types of the program, and the anchor point is generic for it. -/
structure Fits (c : Cfg F) (f : FFMap F) : Prop where
  vars : 0 < c.n
  wf : WFMap c.n f
  nonzero : ∀ t ∈ f, t.2 ≠ 0
  ne : f ≠ []
  deg : ∀ d, c.deg = some d → d < 2 ^ 31 ∧ ∀ t ∈ f, t.1.sum ≤ d
  bounds : ∀ b, c.bounds = some b → ∀ t ∈ f, ∀ j < c.n, t.1.getD j 0 ≤ b.getD j 0
  size : ∀ t ∈ f, t.1.sum + 2 < 2 ^ 32
  method : c.newton = true ∨ c.bt = true
  generic : Generic c.n c.anchor f c.newton c.bt

/-- `r` is the polynomial `f`: the same monomials with the same coefficients -/
def IsPoly (n : ℕ) (f r : FFMap F) : Prop := WFMap n r ∧ (∀ k, r.find? k = f.find? k) ∧ denote r = denote f

/-- The object is asked for its orders and gets the value of `f` there, `N` times. -/
noncomputable def answered (c : Cfg F) (f : FFMap F) : ℕ → Option (St F)
  | 0 => some c.init
  | N + 1 => (answered c f N).bind fun st => c.interpolate st (valueAt c.anchor f st.ord) st.ord

lemma keysOf_ne {f : FFMap F} (h : f ≠ []) : (keysOf f).Nonempty := by
  obtain ⟨t, ht⟩ := List.exists_mem_of_ne_nil f h
  exact ⟨t.1, mem_keysOf.mpr ⟨t, ht, rfl⟩⟩

lemma done_isPoly {n : ℕ} {f : FFMap F} (hf : WFMap n f) {st : St F} (h : Done (keysOf f) (coefOf f) st) : ∃ r, st.result = some r ∧ IsPoly n f r := by
  obtain ⟨r, h1, h2, h3⟩ := h
  have hmem : ∀ k v, (k, v) ∈ r ↔ (k, v) ∈ f := by
    intro k v
    rw [h3, mem_keysOf]
    constructor
    · rintro ⟨⟨t, ht, rfl⟩, rfl⟩
      unfold coefOf
      rw [FFMap.find?_of_mem hf.1 (v := t.2) ht]; exact ht
    · intro h
      refine ⟨⟨(k, v), h, rfl⟩, ?_⟩
      unfold coefOf
      rw [FFMap.find?_of_mem hf.1 h]; rfl
  refine ⟨r, h1, ⟨h2, fun t ht => hf.2 t ((hmem t.1 t.2).mp ht)⟩, ?_, ?_⟩
  · intro k
    cases hk : f.find? k with
    | none =>
      rw [FFMap.find?_eq_none] at hk ⊢
      intro h
      obtain ⟨v, hv⟩ := fst_mem_iff.mp h
      exact hk (fst_mem_iff.mpr ⟨v, (hmem k v).mp hv⟩)
    | some v => exact FFMap.find?_of_mem h2 ((hmem k v).mpr (FFMap.find?_mem hk))
  · apply denote_perm
    rw [List.perm_ext_iff_of_nodup (List.Nodup.of_map _ h2) (List.Nodup.of_map _ hf.1)]
    rintro ⟨k, v⟩
    exact hmem k v

lemma Fits.ctx {c : Cfg F} {f : FFMap F} (h : Fits c f) : Ctx c (keysOf f) (coefOf f) := h.generic.ctx h.wf h.method h.deg h.bounds h.size

lemma keysOf_card {f : FFMap F} (hf : (f.map Prod.fst).Nodup) : (keysOf f).card = f.length := by
  unfold keysOf
  rw [List.toFinset_card_of_nodup hf, List.length_map]

/-- **C43 (correct and complete).** A new object is asked for the orders of the probe it needs and gets the value of the polynomial `f` in `n` variables at this probe. Then there is no
undefined behaviour, the object never has another result than `f`, and it has this result after at most `n · (2 · (D + 1) + threshold + 1) · (number of terms)` probes,
where `D` is the total degree of `f`. -/
theorem C43_reconstruct {c : Cfg F} {f : FFMap F} (h : Fits c f) {D : ℕ} (hD : ∀ t ∈ f, t.1.sum ≤ D) (N : ℕ) :
    ∃ st, answered c f N = some st ∧ (∀ r, st.result = some r → IsPoly c.n f r) ∧
      (c.n * ((2 * (D + 1) + c.thr + 1) * f.length) ≤ N → ∃ r, st.result = some r) := by
  have hctx := h.ctx
  have hS := keysOf_ne h.ne
  have hsup : (keysOf f).sup List.sum ≤ D := by
    apply Finset.sup_le
    intro m hm
    obtain ⟨t, ht, rfl⟩ := mem_keysOf.mp hm
    exact hD t ht
  have hind : ∀ N, ∃ st, answered c f N = some st ∧ (Done (keysOf f) (coefOf f) st ∨ ∃ m, Inv c (keysOf f) (coefOf f) m st ∧ m + N ≤ mu c (keysOf f) 0 0 1) := by
    intro N
    induction N with
    | zero => exact ⟨c.init, rfl, Or.inr ⟨_, Inv.first (FirstI.init c _ _ h.vars), le_rfl⟩⟩
    | succ N ih =>
      obtain ⟨st, e1, e2⟩ := ih
      unfold answered
      rw [e1, Option.bind_some]
      rcases e2 with e2 | ⟨m, e2, e3⟩
      · refine ⟨st, ?_, Or.inl e2⟩
        obtain ⟨r, hr, -⟩ := e2
        unfold Cfg.interpolate
        rw [if_neg (by rw [hr]; simp)]
      · rw [valueAt_eq h.wf]
        obtain ⟨st', e4, e5⟩ := e2.step hctx h.vars hS
        refine ⟨st', e4, ?_⟩
        rcases e5 with e5 | ⟨m', hm, e5⟩
        · exact Or.inl e5
        · exact Or.inr ⟨m', e5, by omega⟩
  obtain ⟨st, e1, e2⟩ := hind N
  refine ⟨st, e1, ?_, ?_⟩
  · intro r hr
    rcases e2 with e2 | ⟨m, e2, -⟩
    · obtain ⟨r', h1, h2⟩ := done_isPoly h.wf e2
      rw [h1] at hr
      rw [← Option.some.inj hr]; exact h2
    · rw [e2.result] at hr; cases hr
  · intro hN
    rcases e2 with ⟨r, hr, -⟩ | ⟨m, -, e3⟩
    · exact ⟨r, hr⟩
    · exfalso
      have hT : 1 ≤ (keysOf f).card := Finset.card_pos.mpr hS
      have hmu : mu c (keysOf f) 0 0 1 < c.n * ((2 * (D + 1) + c.thr + 1) * f.length) := by
        unfold mu
        rw [keysOf_card h.wf.1] at hT ⊢
        have hI : ibound c (keysOf f) + 1 ≤ 2 * (D + 1) + c.thr + 1 := by unfold ibound; omega
        obtain ⟨n', hn'⟩ : ∃ n', c.n = n' + 1 := ⟨c.n - 1, by have := h.vars; omega⟩
        have h1 : (ibound c (keysOf f) + 1) * f.length ≤ (2 * (D + 1) + c.thr + 1) * f.length := Nat.mul_le_mul_right _ hI
        have h2 : n' * ((ibound c (keysOf f) + 1) * f.length) ≤ n' * ((2 * (D + 1) + c.thr + 1) * f.length) := Nat.mul_le_mul_left _ h1
        rw [hn', Nat.add_sub_cancel, Nat.sub_zero, Nat.sub_zero, add_mul n' 1, one_mul]
        rw [add_mul (ibound c (keysOf f)) 1] at h1
        omega
      omega

/-- **C43 (any order).** Right values for any orders may arrive in any order, any number of times: there is no undefined behaviour and the object never has another result than `f`. -/
theorem C43_any_order {c : Cfg F} {f : FFMap F} (h : Fits c f) (probes : List (F × List ℕ)) (hp : ∀ q ∈ probes, q.1 = valueAt c.anchor f q.2) :
    ∃ st, c.feedAll c.init probes = some st ∧ ∀ r, st.result = some r → IsPoly c.n f r := by
  obtain ⟨st, e1, e2⟩ := feedAll_inv h.ctx h.vars (keysOf_ne h.ne) probes (fun q hq => by rw [hp q hq, valueAt_eq h.wf]; rfl)
    (Or.inr ⟨_, Inv.first (FirstI.init c (keysOf f) (coefOf f) h.vars)⟩)
  refine ⟨st, e1, ?_⟩
  intro r hr
  rcases e2 with e2 | ⟨m, e2⟩
  · obtain ⟨r', h1, h2⟩ := done_isPoly h.wf e2
    rw [h1] at hr
    rw [← Option.some.inj hr]; exact h2
  · rw [e2.result] at hr; cases hr

/-- **C43 (the caller's polynomial).** Within the reconstruction of a rational function the result is made homogeneous of the degree bound `d`, with a new first variable: setting
it to one gives back `f`. -/
theorem C43_homogenized {c : Cfg F} {f : FFMap F} (h : Fits c f) {d : ℕ} (hd : c.deg = some d) (probes : List (F × List ℕ))
    (hp : ∀ q ∈ probes, q.1 = valueAt c.anchor f q.2) : ∃ st, c.feedAll c.init probes = some st ∧ ∀ r, st.result = some r →
      WFMap (c.n + 1) (PolyFF.homogenize r d) ∧ (denote (PolyFF.homogenize r d)).IsHomogeneous d ∧
      dehomogenize (denote (PolyFF.homogenize r d)) = denote f := by
  obtain ⟨st, e1, e2⟩ := C43_any_order h probes hp
  refine ⟨st, e1, ?_⟩
  intro r hr
  obtain ⟨h1, h2, h3⟩ := e2 r hr
  obtain ⟨g1, g2⟩ := h.deg d hd
  obtain ⟨k1, k2, k3⟩ := C17_homogenize h1 (d := d) (by omega) (by
    rintro ⟨k, v⟩ ht
    have := FFMap.find?_of_mem h1.1 ht
    rw [h2] at this
    exact g2 _ (FFMap.find?_mem this))
  exact ⟨k1, k2, k3.trans h3⟩

/-- **C43 (zero).** With Newton interpolation the zero polynomial is found with one probe: the result is the empty list. -/
theorem C43_zero {c : Cfg F} (hn : 0 < c.n) (hN : c.newton = true) :
    ∃ st, c.interpolate c.init 0 (List.replicate c.n 1) = some st ∧ st.result = some [] := by
  have hnp : c.newtonPart 1 0 (List.replicate c.n 0) 0 [] = ([], true) := by
    simp [Cfg.newtonPart, compAi]
  have hfst : c.first c.init 0 = some ({ c.init with ais := [(zv c.n, [])], bms := if c.bt = true then FFMap.erase [] (zv c.n) else [], ord := (List.replicate c.n 1).set 0 2 }, true) := by
    unfold Cfg.first
    have h0 : c.init.ord.getD 0 0 = 1 := by
      show (List.replicate c.n 1).getD 0 0 = 1
      rw [List.getD_eq_getElem _ _ (by simpa using hn)]; simp
    have hf : (c.init.ais.find? (List.replicate c.n 0)) = some [] := find_single _ _
    simp only [h0, Nat.sub_self, hN, if_true, hf, Option.getD_some, hnp]
    have : c.init.ais.set (List.replicate c.n 0) [] = [(zv c.n, [])] := set_single _ _ _
    rw [this]
    rfl
  have hint : c.interpolate c.init 0 (List.replicate c.n 1) = c.combine { c.init with ais := [(zv c.n, [])], bms := if c.bt = true then FFMap.erase [] (zv c.n) else [], ord := (List.replicate c.n 1).set 0 2 } := by
    unfold Cfg.interpolate
    rw [if_pos ⟨rfl, rfl⟩]
    have hz : c.init.zi = 1 := rfl
    simp only [if_pos hz, hfst]
    rfl
  rw [hint]
  by_cases h1 : c.n = 1
  · rw [combine_one h1]
    refine ⟨_, rfl, ?_⟩
    unfold Cfg.collect
    simp only [List.foldl_cons, List.foldl_nil, tmpCanonical_nil]
    rfl
  · have : c.combine { c.init with ais := [(zv c.n, [])], bms := if c.bt = true then FFMap.erase [] (zv c.n) else [], ord := (List.replicate c.n 1).set 0 2 } =
        c.nextStage { c.init with ais := [(zv c.n, [])], bms := if c.bt = true then FFMap.erase [] (zv c.n) else [], ord := (List.replicate c.n 1).set 0 2 } := by
      unfold Cfg.combine
      rw [if_pos (by omega)]
      have hc : c.init.zi = 1 ∧ c.newton = true := ⟨rfl, hN⟩
      simp only [if_pos hc]
      have hf : (FFMap.find? [(zv c.n, ([] : List F))] (List.replicate c.n 0)) = some [] := find_single _ _
      simp only [hf, Option.getD_some]
      unfold Cfg.storeNewton
      rw [tmpCanonical_nil, List.foldl_nil]
      unfold dropKey
      rw [if_neg (by show ¬ (1 > 1); omega)]
      rfl
    rw [this]
    unfold Cfg.nextStage
    have hne : (1 : ℕ) ≠ c.n := fun h => h1 h.symm
    have hz : c.init.zi = 1 := rfl
    have ht : c.init.tmpSolved = [] := rfl
    simp only [hz, ht, List.map_nil, List.length_nil, true_and, if_pos hne, ne_eq, not_true_eq_false, if_false]
    exact ⟨_, rfl, rfl⟩

/-! ### defects and examples -/

/-- **C43 (defect).** Without Newton interpolation the zero polynomial leads to undefined behaviour at the first probe (`back()` of an empty vector, see C21). -/
theorem C43_zero_bt_violated {c : Cfg F} (hN : c.newton = false) (hB : c.bt = true) : c.interpolate c.init 0 (List.replicate c.n 1) = none := by
  have hb : c.btPart 1 (List.replicate c.n 0) none 0 = none := by
    simp [Cfg.btPart, BMState.step, BMState.init, discrepancy, popZeros]
  unfold Cfg.interpolate
  rw [if_pos ⟨rfl, rfl⟩]
  have hz : c.init.zi = 1 := rfl
  simp only [if_pos hz]
  unfold Cfg.first
  simp only [hN, hB]
  have hi : c.init.ord.getD 0 0 - 1 = 0 := by
    show (List.replicate c.n 1).getD 0 0 - 1 = 0
    rcases c.n with _ | n
    · rfl
    · rfl
  simp only [hi, Bool.false_eq_true, if_false, if_true, hb]
  rfl

/-- `x y + 2` at the anchor point `(2, 3)` -/
def exPoly : FFMap ℚ := [([1, 1], 1), ([0, 0], 2)]

lemma exSlice0 (t : List ℕ × ℚ) : slice 2 [2, 3] exPoly 0 (t.1.take 0) = C 3 * X + C 2 := by
  have h : Finset.Ico 1 2 = {1} := rfl
  simp [slice, exPoly, h]

lemma exSlice1 : slice 2 [2, 3] exPoly 1 [1] = X := by simp [slice, exPoly]
lemma exSlice2 : slice 2 [2, 3] exPoly 1 [0] = C 2 := by simp [slice, exPoly]

lemma deg_one_const {P : ℚ[X]} (h : P.degree < (1 : ℕ)) (x y : ℚ) : P.eval x = P.eval y := by
  have : P.degree ≤ 0 := by
    rw [← Nat.WithBot.lt_one_iff_le_zero]; exact_mod_cast h
  rw [eq_C_of_degree_le_zero this]; simp

lemma noLower_le_one {y : ℚ} {g : ℚ[X]} (h0 : g.eval y ≠ 0) (hd : g.natDegree ≤ 1) (h1 : g.natDegree = 1 → g.eval y ≠ g.eval (y ^ 2)) : NoLowerDegree y g := by
  intro i hi P hP
  rcases Nat.lt_or_ge i 1 with h | h
  · have hi0 : i = 0 := by omega
    subst hi0
    have : P = 0 := by
      rw [← degree_eq_bot, ← Nat.WithBot.lt_zero_iff]
      exact_mod_cast hP
    refine ⟨0, le_rfl, ?_⟩
    rw [this]; simpa using h0.symm
  · have hi1 : i = 1 := by omega
    subst hi1
    have hc := deg_one_const hP (y ^ (0 + 1)) (y ^ (1 + 1))
    by_contra hall
    push Not at hall
    have e0 := hall 0 (by omega)
    have e1 := hall 1 le_rfl
    rw [hc, e1] at e0
    exact h1 (by omega) (by simpa using e0.symm)

/-- the hypotheses of C43 hold, with Newton interpolation and the method of Ben-Or and Tiwari -/
example : Fits ({ n := 2, anchor := [2, 3], deg := some 2, bounds := some [1, 4] } : Cfg ℚ) exPoly := by
  have c3 : (C 3 * X + C 2 : ℚ[X]).natDegree = 1 := natDegree_linear (by norm_num)
  have c4 : (C 3 * X + C 2 : ℚ[X]).support.card = 2 := by
    have : (C 3 * X + C 2 : ℚ[X]) = C 3 * X ^ 1 + C 2 * X ^ 0 := by simp
    rw [this, card_support_binomial (by norm_num) (by norm_num) (by norm_num)]
  have c5 : (X : ℚ[X]).support.card = 1 := by rw [support_X]; rfl
  have c6 : (C 2 : ℚ[X]).support.card = 1 := by rw [support_C (by norm_num)]; rfl
  refine ⟨by norm_num, ⟨by decide +kernel, by decide +kernel⟩, by decide +kernel, by decide +kernel, ?_, ?_, ?_, Or.inl rfl, ?_⟩
  · intro d hd
    obtain rfl : 2 = d := by simpa using hd
    exact ⟨by norm_num, by decide +kernel⟩
  · intro b hb
    obtain rfl : [1, 4] = b := by simpa using hb
    decide +kernel
  · intro t ht
    have : t.1.sum ≤ 2 := by revert t; decide +kernel
    omega
  · refine ⟨?_, ?_, ?_, ?_, ?_, ?_⟩
    · decide +kernel
    · intro s hs t ht t' ht'
      have hs' : s < 2 := hs
      simp only [exPoly, List.mem_cons, List.not_mem_nil, or_false] at ht ht'
      interval_cases s <;> rcases ht with rfl | rfl <;> rcases ht' with rfl | rfl <;> simp [node]
    · intro s hs t ht j h1 h2
      have hs' : s < 2 := hs
      simp only [exPoly, List.mem_cons, List.not_mem_nil, or_false] at ht
      have h3 : j ≤ 2 := by
        interval_cases s <;> rcases ht with rfl | rfl <;> simp at h2 <;> omega
      interval_cases s <;> interval_cases j <;> norm_num
    · intro s hs t ht
      have hs' : s < 2 := hs
      interval_cases s
      · show (slice 2 [2, 3] exPoly 0 (t.1.take 0)).coeff _ ≠ 0
        rw [exSlice0]
        simp only [exPoly, List.mem_cons, List.not_mem_nil, or_false] at ht
        rcases ht with rfl | rfl <;> simp [coeff_C, coeff_X]
      · simp only [exPoly, List.mem_cons, List.not_mem_nil, or_false] at ht
        rcases ht with rfl | rfl
        · show (slice 2 [2, 3] exPoly 1 [1]).coeff _ ≠ 0
          rw [exSlice1]; simp
        · show (slice 2 [2, 3] exPoly 1 [0]).coeff _ ≠ 0
          rw [exSlice2]; simp
    · intro _ s hs t ht
      have hs' : s < 2 := hs
      interval_cases s
      · show NoLowerDegree (2 : ℚ) (slice 2 [2, 3] exPoly 0 (t.1.take 0))
        rw [exSlice0]
        refine noLower_le_one (by norm_num) (by omega) (fun _ => by norm_num)
      · simp only [exPoly, List.mem_cons, List.not_mem_nil, or_false] at ht
        rcases ht with rfl | rfl
        · show NoLowerDegree (3 : ℚ) (slice 2 [2, 3] exPoly 1 [1])
          rw [exSlice1]
          refine noLower_le_one (by norm_num) (by simp) (fun _ => by norm_num)
        · show NoLowerDegree (3 : ℚ) (slice 2 [2, 3] exPoly 1 [0])
          rw [exSlice2]
          refine noLower_le_one (by norm_num) (by simp) (fun h => by simp at h)
    · intro _ s hs t ht
      have hs' : s < 2 := hs
      interval_cases s
      · show NoShortRecurrence (2 : ℚ) (slice 2 [2, 3] exPoly 0 (t.1.take 0))
        rw [exSlice0]
        intro r hr l
        rw [c4] at hr
        interval_cases r
        · exact ⟨0, le_rfl, by omega, by norm_num⟩
        · by_contra hall
          push Not at hall
          have e1 := hall 1 le_rfl (by omega)
          have e2 := hall 2 (by omega) (by omega)
          norm_num at e1 e2
          linarith
      · simp only [exPoly, List.mem_cons, List.not_mem_nil, or_false] at ht
        rcases ht with rfl | rfl
        · show NoShortRecurrence (3 : ℚ) (slice 2 [2, 3] exPoly 1 [1])
          rw [exSlice1]
          intro r hr l
          rw [c5] at hr
          interval_cases r
          exact ⟨0, le_rfl, by omega, by norm_num⟩
        · show NoShortRecurrence (3 : ℚ) (slice 2 [2, 3] exPoly 1 [0])
          rw [exSlice2]
          intro r hr l
          rw [c6] at hr
          interval_cases r
          exact ⟨0, le_rfl, by omega, by norm_num⟩

end FireFly.MPoly
