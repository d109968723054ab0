import Verif.Lemmas.RatShiftAllPrior
/-! # A further prime field with a shift: the assumptions of C61 and what is known afterwards -/
set_option linter.all false
namespace FireFly.RRun.Shifted
open MvPolynomial FFMap

section
variable {F : Type} [Field F]

lemma value_scale (s a : List F) {u : F} (hu : u ≠ 0) (N D : MvPolynomial ℕ F) (t : F) (ord : List ℕ) : RMulti.valueOf s a (C u * N) (C u * D) t ord = RMulti.valueOf s a N D t ord := by
  unfold RMulti.valueOf
  rw [eval_mul, eval_mul, eval_C, mul_div_mul_left _ _ hu]

lemma value_zero (a : List F) (k : ℕ) (N D : MvPolynomial ℕ F) (t : F) (ord : List ℕ) : RMulti.valueOf (List.replicate k 0) a N D t ord = RLater.value a N D t ord := by
  have : RMulti.pt (List.replicate k 0) a t ord = RLater.at_ a t ord := by
    funext j
    unfold RMulti.pt RLater.at_
    rw [List.getD_eq_getElem?_getD, List.getElem?_replicate]
    split <;> simp
  unfold RMulti.valueOf RLater.value
  rw [this]

variable [DecidableEq F]

lemma mem_shiftExps {k m j : ℕ} {sub : FFMap (FFMap F)} (hw : WFMap k (RMulti.polyAt sub j)) (e : List ℕ) :
    e ∈ shiftExps sub m j ↔ j ≤ m ∧ e.length = k ∧ coeff e.toFinsupp (denote (RMulti.polyAt sub j)) ≠ 0 := by
  unfold shiftExps
  by_cases hj : j ≤ m
  · rw [if_pos hj, List.mem_map]
    constructor
    · rintro ⟨t, ht, rfl⟩
      obtain ⟨h1, h2⟩ := List.mem_filter.mp ht
      refine ⟨hj, hw.2 t h1, ?_⟩
      rw [coeff_denote hw (hw.2 t h1), find?_of_mem hw.1 h1]
      exact of_decide_eq_true h2
    · rintro ⟨-, h1, h2⟩
      rw [coeff_denote hw h1] at h2
      cases h3 : (RMulti.polyAt sub j).find? e with
      | none => rw [h3] at h2; exact absurd rfl h2
      | some v =>
        rw [h3] at h2
        exact ⟨(e, v), List.mem_filter.mpr ⟨find?_mem h3, by simpa using h2⟩, rfl⟩
  · rw [if_neg hj]
    simp [hj]

lemma shiftExps_nodup {k m j : ℕ} {sub : FFMap (FFMap F)} (hw : j ≤ m → WFMap k (RMulti.polyAt sub j)) : (shiftExps sub m j).Nodup := by
  unfold shiftExps
  split
  · rename_i hj
    exact List.Nodup.sublist (List.filter_sublist.map _) (hw hj).1
  · exact List.nodup_nil

end

lemma carry_id {F : Type} {s : RShift.Side F} {old : List ℕ} (h : ∀ j ∈ old, j ∈ s.dense) : carry s old = s := by
  unfold carry
  rw [List.filter_eq_nil_iff.mpr (fun j hj => by simpa using h j hj), List.append_nil]

lemma grouped_none {keys : List (List ℕ)} {U : FFMap (List (List ℕ))} (h : Grouped keys U) {j : ℕ} (hj : U.find? [j] = none) : ∀ e ∈ keys, e.sum ≠ j := by
  intro e he h0
  obtain ⟨u, hu, hue⟩ := List.mem_flatMap.mp (h.perm.mem_iff.mpr he)
  obtain ⟨i, h1, -, h3⟩ := h.form u hu
  have : i = j := by rw [← h3 e hue, h0]
  subst this
  exact find?_eq_none.mp hj (by rw [← h1]; exact List.mem_map_of_mem hu)

section
variable {k : ℕ} {n d : MvPolynomial ℕ ℚ} {S : Bool → ℕ → Finset (ℕ →₀ ℕ)} {M : ℤ} {c : Cross} {r : RRun.Prime}

/-- the factor that normalizes the function at the shift -/
noncomputable def factor (n d : MvPolynomial ℕ ℚ) (nd : Bool) (r : RRun.Prime) : ZMod r.p := haveI := r.fact; (eval (fun i => r.cfg.shift.getD i 0) (red r.p (side n d nd)))⁻¹

lemma factor_ne (hr : ShiftOK k n d S c.normDen r) : factor n d c.normDen r ≠ 0 := by
  haveI := r.fact
  exact inv_ne_zero hr.norm

/-- the numerator fits -/
lemma num_ok (hn : InVars k n) {un : FFMap (List (List ℕ))} {g : RnMap} {comb : MpzMap} {x : Side} {nd : Bool} (h : SideOK (coefOf n) (monos k n) M g comb) (hU : Grouped (comb.map Prod.fst) un) (hS : Shape k n (S false) x)
    (hs : Shifts k (!nd) (S false) un g x) (hconst : nd = false → comb.find? (List.replicate k 0) = none) (hr : ShiftOK k n d S nd r) (hu : factor n d nd r ≠ 0) :
    haveI := r.fact; RShift.PriorOK k r.cfg.shift r.cfg.anchor (C (factor n d nd r) * red r.p n) (!nd) (x.prior un g) :=
  haveI := r.fact
  prior_ok hn h hU hS hs hu (fun hc => hconst (by simpa using hc)) (hr.same false) (hr.distinct false) hr.anchor (hr.large false)

/-- the denominator fits -/
lemma den_ok (hd : InVars k d) {un : FFMap (List (List ℕ))} {g : RnMap} {comb : MpzMap} {x : Side} {nd : Bool} (h : SideOK (coefOf d) (monos k d) M g comb) (hU : Grouped (comb.map Prod.fst) un) (hS : Shape k d (S true) x)
    (hs : Shifts k nd (S true) un g x) (hconst : nd = true → comb.find? (List.replicate k 0) = none) (hr : ShiftOK k n d S nd r) (hu : factor n d nd r ≠ 0) :
    haveI := r.fact; RShift.PriorOK k r.cfg.shift r.cfg.anchor (C (factor n d nd r) * red r.p d) nd (x.prior un g) :=
  haveI := r.fact
  prior_ok hd h hU hS hs hu hconst (hr.same true) (hr.distinct true) hr.anchor (hr.large true)

lemma Ready.constN (h : Ready k n d S M c) : c.normDen = false → c.base.coefs.combNi.find? (List.replicate k 0) = none := by
  intro h0; have := h.const; rw [h0] at this; exact this

lemma Ready.constD (h : Ready k n d S M c) : c.normDen = true → c.base.coefs.combDi.find? (List.replicate k 0) = none := by
  intro h0; have := h.const; rw [h0] at this; exact this

lemma Ready.askedN (hn : InVars k n) (h : Ready k n d S M c) (hon : c.on = true) (m : ℕ) : RShift.asked m (!c.normDen) (c.num.prior c.base.unNum c.base.coefs.gNi) = askedDegs n d S c.normDen false ∧
    ∀ j, j ∈ askedDegs n d S c.normDen false → Asked n d S c.normDen false j :=
  prior_asked (b := false) (by cases c.normDen <;> simp) hn h.base.num h.base.unNum h.num (h.shN hon) m

lemma Ready.askedD (hd : InVars k d) (h : Ready k n d S M c) (hon : c.on = true) (m : ℕ) : RShift.asked m c.normDen (c.den.prior c.base.unDen c.base.coefs.gDi) = askedDegs n d S c.normDen true ∧
    ∀ j, j ∈ askedDegs n d S c.normDen true → Asked n d S c.normDen true j :=
  prior_asked (b := true) (by cases c.normDen <;> simp) hd h.base.den h.base.unDen h.den (h.shD hon) m

/-- the assumptions of C61 -/
lemma shift_prob (hn : InVars k n) (hd : InVars k d) (h : Ready k n d S M c) (hon : c.on = true) (hr : ShiftOK k n d S c.normDen r) (g : Option (RnMap × RnMap)) :
    haveI := r.fact; RShift.Prob (shiftCfg c r g) (C (factor n d c.normDen r) * red r.p n) (C (factor n d c.normDen r) * red r.p d) := by
  haveI := r.fact
  have hu := factor_ne hr
  have hk := hr.nvars
  obtain ⟨aN, aN'⟩ := h.askedN hn hon r.cfg.n
  obtain ⟨aD, aD'⟩ := h.askedD hd hon r.cfg.n
  refine ⟨by show 2 ≤ r.cfg.n; rw [hk]; exact hr.two, by show r.cfg.shift.length = r.cfg.n; rw [hk]; exact hr.lenShift, by show r.cfg.anchor.length + 1 = r.cfg.n; rw [hk]; exact hr.anchorLen, ?_, ?_, ?_, ?_, ?_, ?_, ?_, ?_⟩
  · have := num_ok hn h.base.num h.base.unNum h.num (h.shN hon) h.constN hr hu
    rw [← hk] at this
    exact this
  · have := den_ok hd h.base.den h.base.unDen h.den (h.shD hon) h.constD hr hu
    rw [← hk] at this
    exact this
  · show 0 ∉ RShift.asked r.cfg.n c.normDen (c.den.prior c.base.unDen c.base.coefs.gDi)
    rw [aD]
    intro h0
    obtain ⟨h1, h2⟩ := aD' 0 h0
    cases hb : c.normDen with
    | true => exact h2 ⟨hb.symm, rfl⟩
    | false =>
      obtain ⟨z1, z2⟩ := h.den0 hb
      rcases h1 with ⟨m, hm, hm0⟩ | h1
      · rw [Finsupp.degree_eq_zero_iff] at hm0
        rw [hm0] at hm
        exact z1 hm
      · exact h1 z2
  · show eval (fun i => r.cfg.shift.getD i 0) (if c.normDen then C (factor n d c.normDen r) * red r.p d else C (factor n d c.normDen r) * red r.p n) = 1
    have : (if c.normDen then C (factor n d c.normDen r) * red r.p d else C (factor n d c.normDen r) * red r.p n) = C (factor n d c.normDen r) * red r.p (side n d c.normDen) := by
      unfold side
      cases c.normDen <;> rfl
    rw [this, eval_mul, eval_C]
    exact inv_mul_cancel₀ hr.norm
  · show c.maxEqn = (RShift.asked r.cfg.n (!c.normDen) (c.num.prior c.base.unNum c.base.coefs.gNi)).card + (RShift.asked r.cfg.n c.normDen (c.den.prior c.base.unDen c.base.coefs.gDi)).card
    rw [aN, aD]; exact h.eqn
  · show 1 ≤ c.maxEqn
    rw [h.eqn]
    have key : ∀ (b : Bool) (x : Side), Shape k (side n d b) (S b) x → b ≠ c.normDen → 1 ≤ (askedDegs n d S c.normDen b).card := by
      intro b x hx hb
      classical
      apply Finset.card_pos.mpr
      refine ⟨x.maxDeg, ?_⟩
      unfold askedDegs
      rw [Finset.mem_filter, Finset.mem_range, hx.total]
      exact ⟨by omega, Or.inl hx.lead, fun h0 => hb h0.1⟩
    cases hb : c.normDen with
    | true =>
      have := key false c.num h.num (by rw [hb]; simp)
      rw [hb] at this; omega
    | false =>
      have := key true c.den h.den (by rw [hb]; simp)
      rw [hb] at this; omega
  · show c.normalizerDeg.length = r.cfg.n
    rw [hk]; exact h.len
  · show coeff c.normalizerDeg.toFinsupp (if c.normalizerDen then C (factor n d c.normDen r) * red r.p d else C (factor n d c.normDen r) * red r.p n) ≠ 0
    have : (if c.normalizerDen then C (factor n d c.normDen r) * red r.p d else C (factor n d c.normDen r) * red r.p n) = C (factor n d c.normDen r) * red r.p (side n d c.normalizerDen) := by
      unfold side
      cases c.normalizerDen <;> rfl
    rw [this, coeff_C_mul, red_coeff, h.one, Rat.cast_one, mul_one]
    exact hu

/-- the probes -/
lemma shift_pts (hn : InVars k n) (hd : InVars k d) (h : Ready k n d S M c) (hon : c.on = true) (hr : ShiftOK k n d S c.normDen r) (g : Option (RnMap × RnMap)) :
    haveI := r.fact; RShift.GoodPts (shiftCfg c r g) (C (factor n d c.normDen r) * red r.p n) (C (factor n d c.normDen r) * red r.p d) (fun t ord => (t, ord) ∈ r.probes.map (fun q => (q.1, q.2.2))) := by
  haveI := r.fact
  have hu := factor_ne hr
  obtain ⟨aN, aN'⟩ := h.askedN hn hon r.cfg.n
  obtain ⟨aD, aD'⟩ := h.askedD hd hon r.cfg.n
  have hq : ∀ t ord, (t, ord) ∈ r.probes.map (fun q => (q.1, q.2.2)) → ∃ q ∈ r.probes, q.1 = t ∧ q.2.2 = ord := by
    intro t ord hm
    obtain ⟨q, hq, hqq⟩ := List.mem_map.mp hm
    obtain ⟨rfl, rfl⟩ := Prod.mk.inj hqq
    exact ⟨q, hq, rfl, rfl⟩
  refine ⟨?_, ?_, ?_⟩
  · intro t ord hm
    obtain ⟨q, hq, rfl, rfl⟩ := hq t ord hm
    exact (hr.values q hq).1
  · intro t ord hm
    obtain ⟨q, hq, rfl, rfl⟩ := hq t ord hm
    rw [eval_mul, eval_C]
    exact mul_ne_zero hu (hr.values q hq).2.1
  · intro ord A B ts hA hB h1 h2 h3 x y h4
    have hA : A ⊆ RShift.asked r.cfg.n (!c.normDen) (c.num.prior c.base.unNum c.base.coefs.gNi) := hA
    have hB : B ⊆ RShift.asked r.cfg.n c.normDen (c.den.prior c.base.unDen c.base.coefs.gDi) := hB
    rw [aN] at hA
    rw [aD] at hB
    refine hr.det ord A B ts (fun j hj => aN' j (hA hj)) (fun j hj => aD' j (hB hj)) h1 h2 h3 x y ?_
    intro t ht
    rw [h4 t ht]
    show RMulti.valueOf r.cfg.shift r.cfg.anchor _ _ t ord * _ = _
    rw [value_scale _ _ hu]

lemma shift_values (hr : ShiftOK k n d S c.normDen r) (g : Option (RnMap × RnMap)) :
    haveI := r.fact; RShift.withValues (shiftCfg c r g) (C (factor n d c.normDen r) * red r.p n) (C (factor n d c.normDen r) * red r.p d) (r.probes.map (fun q => (q.1, q.2.2))) = r.probes := by
  haveI := r.fact
  unfold RShift.withValues
  rw [List.map_map]
  conv_rhs => rw [← List.map_id r.probes]
  apply List.map_congr_left
  intro q hq
  simp only [Function.comp, id]
  show (q.1, RMulti.valueOf r.cfg.shift r.cfg.anchor _ _ q.1 q.2.2, q.2.2) = q
  rw [value_scale _ _ (factor_ne hr), ← (hr.values q hq).2.2]

/-- the carried degrees change nothing -/
lemma shift_init (hn : InVars k n) (hd : InVars k d) (h : Ready k n d S M c) (hon : c.on = true) (hr : ShiftOK k n d S c.normDen r) (g : Option (RnMap × RnMap)) :
    haveI := r.fact; shiftInit c r g = (shiftCfg c r g).init := by
  haveI := r.fact
  have hu := factor_ne hr
  have hk := hr.nvars
  have hN := num_ok hn h.base.num h.base.unNum h.num (h.shN hon) h.constN hr hu
  have hD := den_ok hd h.base.den h.base.unDen h.den (h.shD hon) h.constD hr hu
  unfold shiftInit
  simp only
  rw [carry_id, carry_id]
  · intro j hj
    have := (h.shD hon).dense j hj
    rw [← RShift.setSide_dense (F := ZMod r.p) (F' := ℚ) hD hD (fun _ => Iff.rfl) rfl (fun _ => List.Perm.refl _), ← hk] at this
    exact this
  · intro j hj
    have := (h.shN hon).dense j hj
    rw [← RShift.setSide_dense (F := ZMod r.p) (F' := ℚ) hN hN (fun _ => Iff.rfl) rfl (fun _ => List.Perm.refl _), ← hk] at this
    exact this

end

end FireFly.RRun.Shifted
