import Verif.Lemmas.RatShiftRun
/-! # A further prime field with a shift: the result -/
set_option linter.all false
namespace FireFly.RShift
open MvPolynomial FFMap
open FireFly.RMulti (polyAt part dir sh subSum tgt addShifts rowOf)
variable {F : Type} [Field F] [DecidableEq F] {c : Cfg F} {const : Bool} {p : Prior} {Q N D : MvPolynomial ℕ F} {S : Side F} {dn dn' : ℕ → Bool} {r T : ℕ} {s : Side F} {G : F → List ℕ → Prop}

/-! ### nothing is left -/

lemma SInv.finished (hc : Ctx c Q const p S) {o : ℕ} (ho : 1 ≤ o) (h : SInv c Q p S (o + 1) s) (hm : s.mat = []) : s.unsolved = [] := by
  by_contra hne
  obtain ⟨u, hu⟩ := List.exists_mem_of_ne_nil _ hne
  have := (h.mat u hu).2 (by omega)
  rw [hm] at this
  simp [FFMap.find?] at this

lemma MInv.empty (h : MInv c Q p S dn r T s) (hu : s.unsolved = []) : s.mat = [] := by
  by_contra hne
  obtain ⟨u, hm⟩ := List.exists_mem_of_ne_nil _ hne
  have := h.matKeys u.1 (List.mem_map_of_mem hm)
  rw [hu] at this
  simp at this

/-- all shifts are known then -/
lemma SInv.sub_all (hc : Ctx c Q const p S) {o : ℕ} (h : SInv c Q p S o s) (hu : s.unsolved = []) :
    ∀ j ≤ p.maxDeg, WFMap c.n (polyAt s.sub j) ∧ denote (polyAt s.sub j) = part c.shift Q j - homogeneousComponent j Q := by
  intro j hj
  obtain ⟨g1, -, g3⟩ := h.sub j hj
  refine ⟨g1, ?_⟩
  have hT : (if o ≤ S.most.2 then p.maxDeg + 1 else 1) = 1 := by
    by_cases hS : S.unsolved = []
    · rw [(hc.nil hS).1]; simp
    · obtain ⟨-, g2, w, hw, g3, g4⟩ := hc.mostMem hS
      have : decide (eff S (dg w) < o) = true := by
        by_contra hh
        have := h.mem.mpr ⟨hw, by simpa using hh⟩
        rw [hu] at this; simp at this
      have : eff S (dg w) < o := by simpa using this
      unfold eff at this
      rw [g3, if_neg g2] at this
      rw [if_neg (by omega)]
  rw [hT, RMulti.subSum_ge c.multi Q p.maxDeg (show 1 ≤ j + 1 by omega)] at g3
  rw [g3, part_unshift hc.hcTop hj]; ring

/-- the sum of the parts without the shift -/
lemma SInv.collect (hc : Ctx c Q const p S) {o : ℕ} (h : SInv c Q p S o s) (hu : s.unsolved = []) :
    WFMap c.n (c.collect p s) ∧ denote (c.collect p s) + (if const = true then homogeneousComponent 0 Q else 0) = Q := by
  have hfold : ∀ (l : FFMap (FFMap F)) (m : FFMap F), WFMap c.n m → (∀ t ∈ l, t ∈ s.solved) →
      WFMap c.n (l.foldl (fun (m : FFMap F) el => if p.zeros.contains (el.1.getD 0 0) then m
        else PolyFF.addAssign m (if s.dense.contains (el.1.getD 0 0) then PolyFF.sub el.2 (polyAt s.sub (el.1.getD 0 0)) else el.2)) m) ∧
      denote (l.foldl (fun (m : FFMap F) el => if p.zeros.contains (el.1.getD 0 0) then m
        else PolyFF.addAssign m (if s.dense.contains (el.1.getD 0 0) then PolyFF.sub el.2 (polyAt s.sub (el.1.getD 0 0)) else el.2)) m) = denote m + (l.map (fun t => homogeneousComponent (dg t) Q)).sum := by
    intro l
    induction l with
    | nil => intro m h1 _; exact ⟨h1, by simp⟩
    | cons x l ih =>
      intro m h1 h2
      rw [List.foldl_cons, List.map_cons, List.sum_cons]
      obtain ⟨u, k1, k2, -, k4, -, k6⟩ := h.solved x (h2 x (by simp))
      have hdx : dg x = dg u := by unfold dg; rw [k2]
      rw [show x.1.getD 0 0 = dg x from rfl]
      split
      · rename_i hz
        have := hc.prior.zero (dg x) (by simpa using hz)
        obtain ⟨i1, i2⟩ := ih m h1 (fun t ht => h2 t (List.mem_cons_of_mem _ ht))
        exact ⟨i1, by rw [i2, this, zero_add]⟩
      · have hP : WFMap c.n (if s.dense.contains (dg x) then PolyFF.sub x.2 (polyAt s.sub (dg x)) else x.2) ∧
            denote (if s.dense.contains (dg x) then PolyFF.sub x.2 (polyAt s.sub (dg x)) else x.2) = homogeneousComponent (dg x) Q := by
          unfold tgt at k6
          rw [← hdx] at k6
          by_cases hd : dg x ∈ S.dense
          · rw [if_pos hd] at k6
            rw [if_pos (by rw [h.dense]; simpa using hd)]
            obtain ⟨g1, g2⟩ := h.sub_all hc hu (dg x) (by rw [hdx]; exact (hc.key k1).2.2.1)
            obtain ⟨b1, b2, -⟩ := C13_sub k4 g1
            exact ⟨b1, by rw [b2, k6, g2]; show part c.shift Q (dg x) - _ = _; ring⟩
          · rw [if_neg hd] at k6
            rw [if_neg (by rw [h.dense]; simpa using hd)]
            exact ⟨k4, k6⟩
        obtain ⟨b1, b2, -⟩ := C13_add_assign h1 hP.1
        obtain ⟨i1, i2⟩ := ih _ b1 (fun t ht => h2 t (List.mem_cons_of_mem _ ht))
        exact ⟨i1, by rw [i2, b2, hP.2, add_assoc]⟩
  obtain ⟨a1, a2⟩ := hfold s.solved [(List.replicate c.n 0, 0)] ⟨by simp, by simp⟩ (fun _ h => h)
  rw [RMulti.denote_single, monomial_zero, zero_add] at a2
  refine ⟨a1, ?_⟩
  unfold Cfg.collect
  rw [a2]
  have := sum_degs hc h (fun k => homogeneousComponent k Q) (fun k h1 _ => h1)
  unfold Side.open at this
  rw [hu, List.map_nil, List.map_nil, List.sum_nil, zero_add] at this
  rw [← this]
  have htop := hc.hcTop
  conv_rhs => rw [← sum_homogeneousComponent Q]
  obtain ⟨m, hm⟩ : ∃ m, m = p.maxDeg + Q.totalDegree := ⟨_, rfl⟩
  have e1 : ∑ k ∈ Finset.range (p.maxDeg + 1), homogeneousComponent k Q = ∑ k ∈ Finset.range (m + 1), homogeneousComponent k Q := by
    apply Finset.sum_subset (Finset.range_mono (by omega))
    intro k _ hk
    apply htop
    rw [Finset.mem_range] at hk
    omega
  have e2 : ∑ k ∈ Finset.range (Q.totalDegree + 1), homogeneousComponent k Q = ∑ k ∈ Finset.range (m + 1), homogeneousComponent k Q := by
    apply Finset.sum_subset (Finset.range_mono (by omega))
    intro k _ hk
    apply homogeneousComponent_eq_zero
    rw [Finset.mem_range] at hk
    omega
  rw [e1, e2]

/-- one side at the end -/
structure EndShift (c : Cfg F) (Q : MvPolynomial ℕ F) (p : Prior) (S s : Side F) : Prop where
  sub : ∀ j ≤ p.maxDeg, WFMap c.n (polyAt s.sub j) ∧ denote (polyAt s.sub j) = part c.shift Q j - homogeneousComponent j Q
  dense : s.dense = S.dense
  parts : ∀ x ∈ s.solved, x.1 = [dg x] ∧ WFMap c.n (if s.dense.contains (dg x) then PolyFF.sub x.2 (polyAt s.sub (dg x)) else x.2) ∧
    denote (if s.dense.contains (dg x) then PolyFF.sub x.2 (polyAt s.sub (dg x)) else x.2) = homogeneousComponent (dg x) Q

lemma SInv.endShift (hc : Ctx c Q const p S) {o : ℕ} (h : SInv c Q p S o s) (hu : s.unsolved = []) : EndShift c Q p S s := by
  refine ⟨h.sub_all hc hu, h.dense, ?_⟩
  intro x hx
  obtain ⟨u, k1, k2, -, k4, -, k6⟩ := h.solved x hx
  have hdx : dg x = dg u := by unfold dg; rw [k2]
  refine ⟨by rw [k2, (hc.key k1).1, hdx], ?_⟩
  unfold tgt at k6
  rw [← hdx] at k6
  by_cases hd : dg x ∈ S.dense
  · rw [if_pos hd] at k6
    rw [if_pos (by rw [h.dense]; simpa using hd)]
    obtain ⟨g1, g2⟩ := h.sub_all hc hu (dg x) (by rw [hdx]; exact (hc.key k1).2.2.1)
    obtain ⟨b1, b2, -⟩ := C13_sub k4 g1
    exact ⟨b1, by rw [b2, k6, g2]; show part c.shift Q (dg x) - _ = _; ring⟩
  · rw [if_neg hd] at k6
    rw [if_neg (by rw [h.dense]; simpa using hd)]
    exact ⟨k4, k6⟩

/-! ### normalization -/

lemma toFinsupp_zero {n : ℕ} : (List.replicate n 0).toFinsupp = 0 := by
  ext i
  by_cases h : i < n
  · simp [h]
  · simp [h]

lemma toFinsupp_inj {n : ℕ} {e e' : List ℕ} (h : e.length = n) (h' : e'.length = n) (he : e.toFinsupp = e'.toFinsupp) : e = e' := by
  apply List.ext_getElem (h.trans h'.symm)
  intro i h1 h2
  have := DFunLike.congr_fun he i
  simpa [h1, h2] using this

/-- the coefficients in the sum of the parts -/
lemma collect_coeff {m : FFMap F} (hw : WFMap c.n m) (hq : denote m + (if const = true then homogeneousComponent 0 Q else 0) = Q) {e : List ℕ} (he : e.length = c.n)
    (h0 : const = true → e ≠ List.replicate c.n 0) : (m.find? e).getD 0 = coeff e.toFinsupp Q := by
  rw [← coeff_denote hw he]
  conv_rhs => rw [← hq]
  rw [coeff_add]
  split
  · rename_i h1
    rw [homogeneousComponent_zero, coeff_C, if_neg, add_zero]
    intro h2
    apply h0 h1
    exact toFinsupp_inj he (by simp) (by rw [toFinsupp_zero, ← h2])
  · simp

lemma foldl_erase : ∀ (l : List (List ℕ)) (m : FFMap F), WFMap c.n m → WFMap c.n (l.foldl (fun (m : FFMap F) e => m.erase e) m) ∧
    ∀ k, (l.foldl (fun (m : FFMap F) e => m.erase e) m).find? k = if k ∈ l then none else m.find? k := by
  intro l
  induction l with
  | nil => intro m h; exact ⟨h, fun k => by simp⟩
  | cons x l ih =>
    intro m h
    obtain ⟨i1, i2⟩ := ih (m.erase x) (h.erase x)
    refine ⟨i1, fun k => ?_⟩
    rw [List.foldl_cons, i2, FFMap.find?_erase]
    by_cases h1 : k ∈ l
    · simp [h1]
    · by_cases h2 : k = x
      · simp [h2]
      · simp [h1, h2]

lemma scale_find (m : FFMap F) (e : F) (k : List ℕ) : (PolyFF.scale m e).find? k = (m.find? k).map (fun v => v * e) := by
  induction m with
  | nil => rfl
  | cons t m ih =>
    have h1 : ∀ (m : FFMap F) (t : List ℕ × F), FFMap.find? (t :: m) k = if t.1 = k then some t.2 else FFMap.find? m k := by
      intro m t
      unfold FFMap.find?
      rw [show t = (t.1, t.2) from rfl, List.lookup_cons]
      by_cases h : t.1 = k
      · simp [h]
      · have : (k == t.1) = false := by simpa using fun h2 : k = t.1 => h h2.symm
        simp [this, h]
    have h2 : PolyFF.scale (t :: m) e = (t.1, t.2 * e) :: PolyFF.scale m e := rfl
    rw [h2, h1, h1, ih]
    by_cases h : t.1 = k
    · simp [h]
    · simp [h]

lemma normalize_spec (hpr : PriorOK c.n c.shift c.anchor Q const p) {m : FFMap F} (hw : WFMap c.n m) (hq : denote m + (if const = true then homogeneousComponent 0 Q else 0) = Q) (τ : F) :
    Unknowns c.n p Q τ (c.normalize p m τ) := by
  obtain ⟨a1, a2⟩ := foldl_erase (c := c) p.known m hw
  obtain ⟨r0, hr0⟩ : ∃ r0, r0 = p.known.foldl (fun (m : FFMap F) e => m.erase e) m := ⟨_, rfl⟩
  rw [← hr0] at a1 a2
  have b1 := (C13_scale a1 τ).1
  have hsc := scale_find r0 τ
  have hother : ∀ e, e.length = c.n → e ∉ p.known → ((PolyFF.scale r0 τ).find? e).getD 0 = τ * coeff e.toFinsupp Q := by
    intro e he hk
    rw [hsc, a2, if_neg hk]
    have hg : ((m.find? e).map (fun v => v * τ)).getD 0 = (m.find? e).getD 0 * τ := by cases m.find? e <;> simp
    rw [hg]
    by_cases h0 : const = true ∧ e = List.replicate c.n 0
    · obtain ⟨h1, rfl⟩ := h0
      have hz : coeff (List.replicate c.n 0).toFinsupp Q = 0 := by
        by_contra hne
        obtain ⟨e', he', hee⟩ := hpr.support _ hne
        have := toFinsupp_inj (hpr.length e' he') (by simp) hee
        subst this
        rcases List.mem_append.mp he' with h | h
        · exact hpr.const h1 _ h (by simp)
        · exact hk h
      have h2 : (m.find? (List.replicate c.n 0)).getD 0 = 0 := by
        rw [← coeff_denote hw (by simp)]
        rw [if_pos h1] at hq
        have : denote m = Q - homogeneousComponent 0 Q := eq_sub_of_add_eq hq
        rw [this, coeff_sub, homogeneousComponent_zero, toFinsupp_zero, coeff_C]
        simp
      rw [h2, hz]; simp
    · rw [collect_coeff hw hq he (fun h1 h2 => h0 ⟨h1, h2⟩), mul_comm]
  have hknown : ∀ e ∈ p.known, (PolyFF.scale r0 τ).find? e = none := by
    intro e he
    rw [hsc, a2, if_pos he]; rfl
  unfold Cfg.normalize
  rw [← hr0]
  simp only
  split
  · rename_i hz
    refine ⟨b1.erase _, ?_, ?_⟩
    · intro e he
      rw [FFMap.find?_erase, hknown e he]; simp
    · intro e he hk
      rw [FFMap.find?_erase]
      split
      · rename_i h
        subst h
        rw [← hother _ he hk, hz]; rfl
      · exact hother e he hk
  · exact ⟨b1, hknown, hother⟩

/-! ### one system -/

lemma Ctx.card (hc : Ctx c Q const p S) : S.unsolved.length = (asked c.n const p).card := by
  have hnd : (S.unsolved.map dg).Nodup := by
    apply List.Nodup.map_on _ hc.set.keys.of_map
    intro x hx y hy hxy
    exact hc.inj hx hy hxy
  have : (S.unsolved.map dg).toFinset = asked c.n const p := by
    ext d
    rw [List.mem_toFinset]
    constructor
    · intro hd
      obtain ⟨u, hu, rfl⟩ := List.mem_map.mp hd
      exact (hc.key hu).2.1
    · intro hd
      obtain ⟨u, hu, hk⟩ := List.mem_map.mp (hc.set.cover d hd)
      refine List.mem_map.mpr ⟨u, hu, ?_⟩
      unfold dg; rw [hk]; rfl
  rw [← this, List.toFinset_card_of_nodup hnd, List.length_map]

/-- the coefficient that becomes one -/
lemma terminator_spec (hp : Prob c N D) {o : ℕ} {s : St F} (hN : SInv c N c.num (startN c) o s.num) (hD : SInv c D c.den (startD c) o s.den) (h1 : s.num.unsolved = []) (h2 : s.den.unsolved = []) :
    c.terminator s (c.collect c.num s.num) (c.collect c.den s.den) = coeff c.normalizerDeg.toFinsupp (if c.normalizerDen then D else N) := by
  obtain ⟨n1, n2⟩ := hN.collect hp.ctxN h1
  obtain ⟨d1, d2⟩ := hD.collect hp.ctxD h2
  obtain ⟨sn1, sn2⟩ := hN.sub_all hp.ctxN h1 0 (Nat.zero_le _)
  obtain ⟨sd1, sd2⟩ := hD.sub_all hp.ctxD h2 0 (Nat.zero_le _)
  have hne := hp.normalizer
  have hnl := hp.normalizerLen
  unfold Cfg.terminator
  simp only
  by_cases hz : c.normalizerDen = c.normDen ∧ c.normalizerDeg = List.replicate c.n 0
  · rw [if_pos hz]
    have key : ((polyAt (if c.normDen then s.den else s.num).sub 0).find? (List.replicate c.n 0)).getD 0 = 1 - coeff 0 (if c.normDen then D else N) := by
      cases hnd : c.normDen with
      | true =>
        rw [if_pos rfl, if_pos rfl, ← coeff_denote sd1 (by simp), sd2, coeff_sub, RMulti.part_zero, hp.normD hnd, homogeneousComponent_zero, toFinsupp_zero, coeff_C, coeff_C]; simp
      | false =>
        rw [if_neg (by simp), if_neg (by simp), ← coeff_denote sn1 (by simp), sn2, coeff_sub, RMulti.part_zero, hp.normN (by simp [hnd]), homogeneousComponent_zero, toFinsupp_zero, coeff_C, coeff_C]; simp
    rw [key]
    rw [hz.1, hz.2, toFinsupp_zero] at hne ⊢
    rw [if_pos (by
      intro h
      apply hne
      linear_combination -h)]
    ring
  · rw [if_neg hz]
    cases hnd : c.normalizerDen with
    | true =>
      rw [if_pos rfl, if_pos rfl]
      exact collect_coeff d1 d2 hnl (fun h3 h4 => hz ⟨by rw [hnd, h3], h4⟩)
    | false =>
      rw [if_neg (by simp), if_neg (by simp)]
      exact collect_coeff n1 n2 hnl (fun h3 h4 => hz ⟨by rw [hnd]; symm; simpa using h3, h4⟩)

/-- the end: what is handed over and the two sides -/
def Fin (c : Cfg F) (N D : MvPolynomial ℕ F) (s : St F) (num den : FFMap F) : Prop :=
  Right c N D num den ∧ EndShift c N c.num (startN c) s.num ∧ EndShift c D c.den (startD c) s.den

lemma handle_spec (hp : Prob c N D) {o : ℕ} {s : St F} (h : Both c N D o s) (hr : s.rows = []) :
    ∃ s', c.handle s (s.num.unsolved.map (fun u => (u.1, val c N o (dg u))), s.den.unsolved.map (fun u => (u.1, val c D o (dg u)))) = some s' ∧
      ((∃ num den, s'.out = some (.solved num den) ∧ s'.savedTi = [] ∧ Fin c N D s' num den) ∨ (s'.savedTi = s.savedTi.erase s.ord ∧ Run c N D G (o + 1) s' [])) := by
  obtain ⟨num, e1, e2⟩ := h.num.absorb hp.ctxN false (by simp) h.pos
  obtain ⟨den, e3, e4⟩ := h.den.absorb hp.ctxD true (fun _ => hp.den0) h.pos
  unfold Cfg.handle
  simp only [e1, e3, Option.bind_eq_bind, Option.bind_some]
  by_cases hd : num.mat = [] ∧ den.mat = []
  · rw [if_pos hd]
    have u1 := e2.finished hp.ctxN h.pos hd.1
    have u2 := e4.finished hp.ctxD h.pos hd.2
    obtain ⟨a1, a2⟩ := e2.collect hp.ctxN u1
    obtain ⟨b1, b2⟩ := e4.collect hp.ctxD u2
    have ht := terminator_spec hp (s := { s with num := num, den := den }) e2 e4 u1 u2
    simp only at ht
    refine ⟨_, rfl, Or.inl ⟨_, _, rfl, rfl, ⟨_, ?_, normalize_spec hp.num a1 a2 _, normalize_spec hp.den b1 b2 _⟩, e2.endShift hp.ctxN u1, e4.endShift hp.ctxD u2⟩⟩
    rw [ht]
    exact one_div_mul_cancel hp.normalizer
  · rw [if_neg hd]
    have c1 := e2.count
    have c2 := e4.count
    rw [hp.ctxN.card] at c1
    rw [hp.ctxD.card] at c2
    have hq := hp.eqn
    have hqe : c.maxEqn - num.count - den.count = num.unsolved.length + den.unsolved.length := by omega
    refine ⟨_, rfl, Or.inr ⟨rfl, ⟨e2, e4, ?_, by omega, hqe, h.np, h.out⟩, ⟨by simpa using hr, fun h0 => absurd hr h0, by simp, by simp⟩, ?_⟩⟩
    · show s.ord.map (· + 1) = uni c (o + 1)
      rw [h.ord]; unfold uni; simp
    · show 0 < c.maxEqn - num.count - den.count
      rw [hqe]
      by_contra h0
      apply hd
      have h1 : num.unsolved = [] := List.length_eq_zero_iff.mp (by omega)
      have h2 : den.unsolved = [] := List.length_eq_zero_iff.mp (by omega)
      exact ⟨e2.empty h1, e4.empty h2⟩

end FireFly.RShift
