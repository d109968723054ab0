import Verif.Lemmas.RatRunCore
/-!
# C46: rational functions in several variables over the rational numbers
-/
set_option linter.all false
namespace FireFly.RRun
open MvPolynomial FFMap

/-- **C46 (a further prime field).** Let every coefficient of `n/d` be known exactly or modulo `M`. The probes of another prime field, in any order, lead without undefined behaviour to
* a reported result; it has the monomials of `n/d`, agrees with `n/d` modulo `M` and at the first probe with the order vector `(1, …, 1)`; or
* a request for a new prime field, where every coefficient is known exactly or modulo `M * p`; or
* the wish for more probes, but only if for some `o` there are fewer probes with the order vector `(o, …, o)` than degrees with at least `o` monomials.
If all coefficients are small for `M`, the result is reported at the first probe with the order vector `(1, …, 1)`, and it is `n/d`. -/
theorem C46_prime {inv : ℤ → ℤ → ℤ} (hinv : InvertSpec inv) {ord : Order} (hord : ord.OK) {k : ℕ} {n d : MvPolynomial ℕ ℚ} (hn : InVars k n) (hd : InVars k d) {b : Bool} {e : List ℕ}
    {M : ℤ} {c : Cross} (h : OK k n d b e M c) (he : e.length = k) {r : Prime} (hr : LaterOK k n d b e r) (hne : r.probes ≠ []) (hns : ¬ r.Skipped) (hpM : ¬ (r.p : ℤ) ∣ M) (h300 : c.primeNumber + 1 < 300)
    (hx : ∀ m, ¬ Deceptive (coeff m n) M (M * r.p) ∧ ¬ Deceptive (coeff m d) M (M * r.p)) :
    ∃ out, prime inv ord c r = some out ∧
      ((∃ N D, out = .finished N D ∧ Certified k n d M r N D) ∨
       (∃ c', out = .nextPrime c' ∧ OK k n d b e (M * r.p) c' ∧ c'.primeNumber = c.primeNumber + 1 ∧ ¬ AllSmall n d M) ∨
       (out = .running ∧ ¬ Enough k n d r ∧ (AllSmall n d M → ∀ q ∈ r.probes, q.2.2 ≠ List.replicate (k - 1) 1))) ∧
      (AllSmall n d M → ∀ N D, out = .finished N D → rnPoly N = n ∧ rnPoly D = d) := by
  haveI := r.fact
  obtain ⟨q0, rest, hq0⟩ : ∃ q0 rest, r.probes = q0 :: rest := by
    rcases hl : r.probes with _ | ⟨q0, rest⟩
    · exact absurd hl hne
    · exact ⟨q0, rest, rfl⟩
  have hq0v : q0.2.1 ≠ 0 := fun h0 => hns ⟨q0, rest, hq0, h0⟩
  have hprime : prime inv ord c r = laterPrime inv ord c r := by
    unfold prime
    rw [hq0]
    simp only [if_neg hq0v, h.known, if_true]
  rw [hprime]
  obtain ⟨out, e1, e2, e3⟩ := later_core hinv hord hn hd h.base hr.field hne hpM h300 (by
    intro o A B ts hA hB h1 h2 h3 x y h4
    refine hr.det o A B ts ?_ ?_ h1 h2 h3 x y h4
    · intro j hj
      obtain ⟨e', m1, m2, m3, m4⟩ := grouped_degree hn h.num h.unNum (hA j hj)
      refine ⟨_, m3, m4, ?_⟩
      intro hb heq
      have := h.norm
      rw [hb] at this
      simp only [Bool.false_eq_true, if_false] at this
      rw [find?_eq_none] at this
      rw [toFinsupp_inj m2 he heq] at m1
      exact this m1
    · intro j hj
      obtain ⟨e', m1, m2, m3, m4⟩ := grouped_degree hd h.den h.unDen (hB j hj)
      refine ⟨_, m3, m4, ?_⟩
      intro hb heq
      have := h.norm
      rw [hb] at this
      simp only [if_true] at this
      rw [find?_eq_none] at this
      rw [toFinsupp_inj m2 he heq] at m1
      exact this m1) hx
  refine ⟨out, e1, ?_, e3⟩
  rcases e2 with e2 | ⟨kk, rfl, e4, e5, e6, e7⟩ | e2
  · exact Or.inl e2
  · refine Or.inr (Or.inl ⟨_, rfl, ⟨e4.prime, e4.pos, e4.num, e4.den, ?_, e4.known, e4.check, e4.unNum, e4.unDen, e4.zeros⟩, rfl, e7⟩)
    have hnorm := h.norm
    cases b with
    | true => exact e6 _ hnorm
    | false => exact e5 _ hnorm
  · exact Or.inr (Or.inr e2)

/-! ## the first prime field -/

section
variable {p : ℕ} [hp : Fact p.Prime] {k : ℕ} {f : MvPolynomial ℕ ℚ} {m : FFMap (ZMod p)} {σ : ZMod p}

lemma wf_coeff (hw : WFMap k m) (hnz : ∀ t ∈ m, t.2 ≠ 0) {e : List ℕ} : e ∈ m.map Prod.fst ↔ e.length = k ∧ coeff e.toFinsupp (denote m) ≠ 0 := by
  constructor
  · intro h
    obtain ⟨t, ht, rfl⟩ := List.mem_map.mp h
    refine ⟨hw.2 t ht, ?_⟩
    rw [← coeff_find hw (hw.2 t ht), find?_of_mem hw.1 ht]
    exact hnz t ht
  · rintro ⟨h1, h2⟩
    by_contra hc
    rw [← coeff_find hw h1, find?_eq_none.mpr hc] at h2
    exact h2 rfl

lemma keys_first (hf : InVars k f) (hσ : σ ≠ 0) (hw : WFMap k m) (hnz : ∀ t ∈ m, t.2 ≠ 0) (hden : denote m = C σ * red p f) (hc : ∀ m ∈ f.support, ((coeff m f : ℚ) : ZMod p) ≠ 0) :
    (m.map Prod.fst).Perm (monos k f) := by
  rw [List.perm_ext_iff_of_nodup hw.1 (monos_nodup hf)]
  intro e
  rw [mem_monos hf, wf_coeff hw hnz, hden, coeff_C_mul, red_coeff]
  constructor
  · rintro ⟨h1, h2⟩
    refine ⟨h1, fun h0 => h2 ?_⟩
    rw [h0]; simp
  · rintro ⟨h1, h2⟩
    exact ⟨h1, mul_ne_zero hσ (hc _ (mem_support_iff.mpr h2))⟩

lemma support_scale {l : ℚ} (hl : l ≠ 0) : (C l * f).support = f.support := by
  ext m
  rw [mem_support_iff, mem_support_iff, coeff_C_mul]
  simp [hl]

lemma monos_scale {l : ℚ} (hl : l ≠ 0) : monos k (C l * f) = monos k f := by
  unfold monos; rw [support_scale hl]

lemma not_dvd_iff {n : ℕ} : ¬ (p : ℤ) ∣ n ↔ (n : ZMod p) ≠ 0 := by
  rw [ne_eq, ZMod.natCast_eq_zero_iff]
  exact not_congr (by exact_mod_cast Iff.rfl)

lemma cast_scale {l x : ℚ} (hl : ¬ (p : ℤ) ∣ l.den) (hx : ¬ (p : ℤ) ∣ x.den) : ((l * x : ℚ) : ZMod p) = (l : ZMod p) * (x : ZMod p) ∧ ¬ (p : ℤ) ∣ (l * x).den := by
  refine ⟨Rat.cast_mul_of_ne_zero (not_dvd_iff.mp hl) (not_dvd_iff.mp hx), ?_⟩
  intro h
  have h1 : (p : ℤ) ∣ (l.den * x.den : ℕ) := dvd_trans h (by exact_mod_cast Rat.mul_den_dvd l x)
  rw [Nat.cast_mul] at h1
  rcases (Nat.prime_iff_prime_int.mp hp.out).dvd_or_dvd h1 with h | h
  · exact hl h
  · exact hx h

lemma side_first (hf : InVars k f) (hw : WFMap k m) {l : ℚ} (hl : ¬ (p : ℤ) ∣ l.den) (hσ : (l : ZMod p) = σ) (hden : denote m = C σ * red p f) (hd : ∀ m, ¬ (p : ℤ) ∣ (coeff m f).den) :
    ∀ t ∈ convertToMpz m, Reduces (coefOf (C l * f) t.1) t.2 p := by
  intro t ht
  unfold convertToMpz at ht
  obtain ⟨s, hs, rfl⟩ := List.mem_map.mp ht
  have h1 := coeff_find hw (hw.2 s hs)
  rw [find?_of_mem hw.1 hs, hden, coeff_C_mul, red_coeff, ← hσ, ← (cast_scale hl (hd _)).1] at h1
  unfold coefOf
  rw [coeff_C_mul]
  have h1 : s.2 = ((l * coeff s.1.toFinsupp f : ℚ) : ZMod p) := h1
  simp only
  rw [h1]
  exact reduces_cast p _ (cast_scale hl (hd _)).2

lemma first_sides {l : ℚ} (hl0 : l ≠ 0) (hf : InVars k f) (hl : ¬ (p : ℤ) ∣ l.den) (hσ0 : σ ≠ 0) (hσ : (l : ZMod p) = σ) (hw : WFMap k m) (hnz : ∀ t ∈ m, t.2 ≠ 0) (hden : denote m = C σ * red p f)
    (hd : ∀ m, ¬ (p : ℤ) ∣ (coeff m f).den) (hc : ∀ m ∈ f.support, ((coeff m f : ℚ) : ZMod p) ≠ 0) :
    SideOK (coefOf (C l * f)) (monos k (C l * f)) p (combineFirstSide false [] m []).1 (combineFirstSide false [] m []).2 ∧
    ∀ e ∈ m.map Prod.fst, coeff e.toFinsupp (C l * f) = 1 →
      SideOK (coefOf (C l * f)) (monos k (C l * f)) p (combineFirstSide true e m []).1 (combineFirstSide true e m []).2 ∧ (combineFirstSide true e m []).2.find? e = none := by
  have hkeys := keys_first hf hσ0 hw hnz hden hc
  have hred := side_first hf hw hl hσ hden hd
  have hkc : (convertToMpz m).map Prod.fst = m.map Prod.fst := by unfold convertToMpz; rw [List.map_map]; rfl
  rw [monos_scale hl0]
  constructor
  · rw [first_other]
    exact ⟨by simpa [hkc] using hkeys, monos_nodup hf, by simp, hred⟩
  · intro e he h1
    rw [first_norm m [] hw.1 he]
    refine ⟨⟨?_, monos_nodup hf, ?_, fun t ht => hred t (mem_erase ht)⟩, ?_⟩
    · show ([e] ++ ((convertToMpz m).erase e).map Prod.fst).Perm _
      refine (keys_erase _ _ (by rw [hkc]; exact hw.1) (by rw [hkc]; exact he)).symm.trans ?_
      rw [hkc]; exact hkeys
    · intro t ht
      have ht : t ∈ [(e, (⟨1, 1⟩ : RationalNumber))] := ht
      rw [List.mem_singleton] at ht
      subst ht
      refine ⟨⟨by norm_num, by simp⟩, ?_⟩
      unfold coefOf
      rw [h1]
      simp [RationalNumber.val]
    · rw [find?_erase, if_pos rfl]

end

/-- the first prime field ends with a good result: what follows -/
lemma first_core {ord : Order} (hord : ord.OK) {k : ℕ} {n d : MvPolynomial ℕ ℚ} (hn : InVars k n) (hd : InVars k d) {r : Prime} {u : ZMod r.p} (hu : u ≠ 0) (hk : r.cfg.n = k)
    (hdenN : ∀ m, ¬ (r.p : ℤ) ∣ (coeff m n).den) (hdenD : ∀ m, ¬ (r.p : ℤ) ∣ (coeff m d).den)
    (hnumN : haveI := r.fact; ∀ m ∈ n.support, ((coeff m n : ℚ) : ZMod r.p) ≠ 0) (hnumD : haveI := r.fact; ∀ m ∈ d.support, ((coeff m d : ℚ) : ZMod r.p) ≠ 0)
    {s : RMulti.St (ZMod r.p)} (e1 : haveI := r.fact; r.cfg.feedAll r.cfg.init r.probes = some s) {res : RMulti.Result (ZMod r.p)} (e2 : s.result = some res)
    (e3 : haveI := r.fact; RMulti.Good r.cfg (C u * red r.p n) (C u * red r.p d) res) :
    (firstPrime ord (Cross.initial r.p) r = some .singular ∧ ∀ f ∈ [n, d], ∀ m ∈ f.support, ∃ m' ∈ f.support, m' ≠ m ∧ m'.degree = m.degree) ∨
    ∃ (l : ℚ) (b : Bool) (e : List ℕ) (c' : Cross), l ≠ 0 ∧ Normalized k (C l * n) (C l * d) b e ∧ firstPrime ord (Cross.initial r.p) r = some (.nextPrime c') ∧
      OK k (C l * n) (C l * d) b e r.p c' ∧ c'.primeNumber = 1 := by
  haveI := r.fact
  obtain ⟨τ, hτ, v1, v2⟩ := e3.value
  have hσ : τ * u ≠ 0 := mul_ne_zero hτ hu
  rw [← mul_assoc, ← C_mul] at v1 v2
  have w1 : WFMap k res.num := by rw [← hk]; exact e3.wfNum
  have w2 : WFMap k res.den := by rw [← hk]; exact e3.wfDen
  have kN := keys_first hn hσ w1 e3.nzNum v1 hnumN
  have kD := keys_first hd hσ w2 e3.nzDen v2 hnumD
  have hmem : ∀ (f : MvPolynomial ℕ ℚ) (m : FFMap (ZMod r.p)), InVars k f → (m.map Prod.fst).Perm (monos k f) → ∀ x ∈ f.support, exps k x ∈ m.map Prod.fst ∧ (exps k x).sum = x.degree ∧ (exps k x).toFinsupp = x := by
    intro f m hf hperm x hx
    have h1 := toFinsupp_exps (hf x hx)
    refine ⟨hperm.mem_iff.mpr (List.mem_map_of_mem (Finset.mem_toList.mpr hx)), ?_, h1⟩
    rw [← degree_toFinsupp, h1]
  have hfp : firstPrime ord (Cross.initial r.p) r = if res.singular then some .singular
      else endPrime ord (Cross.initial r.p) ((Cross.initial r.p).coefs.combineFirst res.normDen res.normDeg res.num res.den) := by
    unfold firstPrime
    rw [e1]
    simp only [Option.bind_eq_bind, Option.bind_some]
    rw [e2]
  cases hs : res.singular with
  | true =>
    left
    refine ⟨by rw [hfp, hs]; rfl, ?_⟩
    have key : ∀ (f : MvPolynomial ℕ ℚ) (m : FFMap (ZMod r.p)), InVars k f → WFMap k m → (m.map Prod.fst).Perm (monos k f) → (∀ t ∈ m, ∃ u ∈ m, u.1 ≠ t.1 ∧ u.1.sum = t.1.sum) →
        ∀ x ∈ f.support, ∃ x' ∈ f.support, x' ≠ x ∧ x'.degree = x.degree := by
      intro f m hf hw hperm hmany x hx
      obtain ⟨h1, h2, h3⟩ := hmem f m hf hperm x hx
      obtain ⟨t, ht, hte⟩ := List.mem_map.mp h1
      obtain ⟨v, hv, hv1, hv2⟩ := hmany t ht
      have hvm := (mem_monos hf).mp (hperm.mem_iff.mp (List.mem_map_of_mem hv))
      refine ⟨v.1.toFinsupp, mem_support_iff.mpr hvm.2, ?_, ?_⟩
      · intro heq
        apply hv1
        rw [hte]
        exact toFinsupp_inj hvm.1 (by simp [exps]) (heq.trans h3.symm)
      · rw [degree_toFinsupp, hv2, hte, h2]
    have hmany := e3.many hs
    intro f hf
    simp only [List.mem_cons, List.not_mem_nil, or_false] at hf
    rcases hf with rfl | rfl
    · exact key _ res.num hn w1 kN (hmany _ (by simp))
    · exact key _ res.den hd w2 kD (hmany _ (by simp))
  | false =>
    right
    rw [hs] at hfp
    simp only [Bool.false_eq_true, if_false] at hfp
    have hlone := e3.lone hs
    have hone := e3.one
    -- the normalization
    have main : ∀ (b : Bool) (f : MvPolynomial ℕ ℚ) (m : FFMap (ZMod r.p)), f = (if b then d else n) → m = (if b then res.den else res.num) → InVars k f → WFMap k m → (m.map Prod.fst).Perm (monos k f) →
        denote m = C (τ * u) * red r.p f → (∀ m, ¬ (r.p : ℤ) ∣ (coeff m f).den) → m.find? res.normDeg = some 1 → (∀ t ∈ m, t.1.sum = res.normDeg.sum → t.1 = res.normDeg) →
        ∃ l : ℚ, l ≠ 0 ∧ ¬ (r.p : ℤ) ∣ l.den ∧ (l : ZMod r.p) = τ * u ∧ Normalized k (C l * n) (C l * d) b res.normDeg ∧ res.normDeg ∈ m.map Prod.fst ∧ coeff res.normDeg.toFinsupp (C l * f) = 1 := by
      intro b f m hfb hmb hf hw hperm hden hdd h1 hl
      have hmm : res.normDeg ∈ m.map Prod.fst := by
        by_contra hc
        rw [find?_eq_none.mpr hc] at h1
        cases h1
      have hlen : res.normDeg.length = k := by
        obtain ⟨t, ht, hte⟩ := List.mem_map.mp hmm
        rw [← hte]; exact hw.2 t ht
      have hc1 := coeff_find hw hlen
      rw [h1, hden, coeff_C_mul, red_coeff] at hc1
      have hc1 : (1 : ZMod r.p) = τ * u * ((coeff res.normDeg.toFinsupp f : ℚ) : ZMod r.p) := hc1
      obtain ⟨x, hx⟩ : ∃ x, x = coeff res.normDeg.toFinsupp f := ⟨_, rfl⟩
      rw [← hx] at hc1
      have hxc : (x : ZMod r.p) ≠ 0 := by intro h0; rw [h0, mul_zero] at hc1; exact one_ne_zero hc1
      have hx0 : x ≠ 0 := by rintro rfl; simp at hxc
      have hxd : ¬ (r.p : ℤ) ∣ x.den := by rw [hx]; exact hdd _
      have hxd' := not_dvd_iff.mp hxd
      have hxn : ((x.num : ℤ) : ZMod r.p) ≠ 0 := by
        intro h0
        rw [Rat.cast_def, h0, zero_div] at hxc
        exact hxc rfl
      have hinvden : ¬ (r.p : ℤ) ∣ (x⁻¹).den := by
        rw [not_dvd_iff, Rat.den_inv_of_ne_zero hx0]
        intro h0
        apply hxn
        rw [ZMod.natCast_eq_zero_iff] at h0
        rw [ZMod.intCast_zmod_eq_zero_iff_dvd]
        exact Int.natCast_dvd.mpr h0
      have hinv : ((x⁻¹ : ℚ) : ZMod r.p) = τ * u := by
        have := (cast_scale hinvden hxd).1
        rw [inv_mul_cancel₀ hx0, Rat.cast_one] at this
        exact mul_right_cancel₀ hxc (this.symm.trans hc1)
      have hco : coeff res.normDeg.toFinsupp (C x⁻¹ * f) = 1 := by rw [coeff_C_mul, ← hx, inv_mul_cancel₀ hx0]
      refine ⟨x⁻¹, inv_ne_zero hx0, hinvden, hinv, ⟨hlen, ?_, ?_⟩, hmm, hco⟩
      · rw [← hco, hfb]; cases b <;> rfl
      · intro y hy hdeg
        have hy : y ∈ (C x⁻¹ * f).support := by rw [hfb]; cases b <;> exact hy
        rw [support_scale (inv_ne_zero hx0)] at hy
        obtain ⟨h1, h2, h3⟩ := hmem f m hf hperm y hy
        obtain ⟨t, ht, hte⟩ := List.mem_map.mp h1
        have := hl t ht (by rw [hte, h2, hdeg])
        rw [← h3, ← hte, this]
    have e300 : ∀ K, endPrime ord (Cross.initial r.p) K = some (.nextPrime (endCross ord (Cross.initial r.p) K)) := fun K => rfl
    rw [e300] at hfp
    have hpos : (0 : ℤ) < r.p := by exact_mod_cast r.fact.out.pos
    have hot : ∀ (e : List ℕ) (m : FFMap (ZMod r.p)), combineFirstSide false e m [] = combineFirstSide false [] m [] := fun e m => by rw [first_other, first_other]
    cases hb : res.normDen with
    | true =>
      rw [hb] at hone hlone hfp
      obtain ⟨l, l0, l1, l2, l3, l4, l5⟩ := main true d res.den rfl rfl hd w2 kD v2 hdenD hone hlone
      have sN := (first_sides l0 hn l1 hσ l2 w1 e3.nzNum v1 hdenN hnumN).1
      obtain ⟨sD, sf⟩ := (first_sides l0 hd l1 hσ l2 w2 e3.nzDen v2 hdenD hnumD).2 _ l4 l5
      refine ⟨l, true, res.normDeg, _, l0, l3, hfp, ⟨rfl, hpos, ?_, sD, sf, rfl, rfl, grouped_end hord _, grouped_end hord _, by show 0 < 1; norm_num⟩, rfl⟩
      rw [← hot res.normDeg] at sN
      exact sN
    | false =>
      rw [hb] at hone hlone hfp
      obtain ⟨l, l0, l1, l2, l3, l4, l5⟩ := main false n res.num rfl rfl hn w1 kN v1 hdenN hone hlone
      have sD := (first_sides l0 hd l1 hσ l2 w2 e3.nzDen v2 hdenD hnumD).1
      obtain ⟨sN, sf⟩ := (first_sides l0 hn l1 hσ l2 w1 e3.nzNum v1 hdenN hnumN).2 _ l4 l5
      refine ⟨l, false, res.normDeg, _, l0, l3, hfp, ⟨rfl, hpos, sN, ?_, sf, rfl, rfl, grouped_end hord _, grouped_end hord _, by show 0 < 1; norm_num⟩, rfl⟩
      rw [← hot res.normDeg] at sD
      exact sD

/-- **C46 (the first prime field).** A new object is fed with values of `n/d` in the first prime field, in any order. If the assumptions of C44 hold, there are three possibilities: the object needs more probes, and then there have not been enough; the system is
singular, and then every monomial of `n` and `d` shares its degree with another one; or the object requests a new prime field and has the residues of all coefficients of `n/d`, normalized to a monomial which is the only one of its degree. -/
theorem C46_first {inv : ℤ → ℤ → ℤ} {ord : Order} (hord : ord.OK) {k : ℕ} {n d : MvPolynomial ℕ ℚ} (hn : InVars k n) (hd : InVars k d) {r : Prime} {u : ZMod r.p} {mN mD : ℕ} (h : FirstOK k n d r u mN mD) :
    (prime inv ord (Cross.initial r.p) r = some .running ∧ ¬ EnoughFirst n d r u mN mD) ∨
    (prime inv ord (Cross.initial r.p) r = some .singular ∧ ∀ f ∈ [n, d], ∀ m ∈ f.support, ∃ m' ∈ f.support, m' ≠ m ∧ m'.degree = m.degree) ∨
    ∃ (l : ℚ) (b : Bool) (e : List ℕ) (c' : Cross), l ≠ 0 ∧ Normalized k (C l * n) (C l * d) b e ∧ prime inv ord (Cross.initial r.p) r = some (.nextPrime c') ∧
      OK k (C l * n) (C l * d) b e r.p c' ∧ c'.primeNumber = 1 := by
  haveI := r.fact
  obtain ⟨q0, rest, hq0⟩ : ∃ q0 rest, r.probes = q0 :: rest := by
    rcases hl : r.probes with _ | ⟨q0, rest⟩
    · exact absurd hl h.nonempty
    · exact ⟨q0, rest, rfl⟩
  have hq0v : q0.2.1 ≠ 0 := fun h0 => h.notSkipped ⟨q0, rest, hq0, h0⟩
  have hprime : prime inv ord (Cross.initial r.p) r = firstPrime ord (Cross.initial r.p) r := by
    unfold prime
    rw [hq0]
    simp only [if_neg hq0v, Cross.initial, Bool.false_eq_true, if_false, if_true]
  rw [hprime]
  have hP := h.prob
  have hu : u ≠ 0 := by
    rintro rfl
    apply hP.okN.lead
    simp only [map_zero, zero_mul]
    unfold RMulti.part
    simp
  have hpe : RMulti.withValues r.cfg (C u * red r.p n) (C u * red r.p d) (r.probes.map (fun q => (q.1, q.2.2))) = r.probes := by
    unfold RMulti.withValues
    rw [List.map_map]
    conv_rhs => rw [← List.map_id r.probes]
    apply List.map_congr_left
    intro q hq
    simp only [Function.comp, id]
    have := h.values q hq
    unfold RMulti.valueOf at this ⊢
    rw [eval_mul, eval_mul, eval_C, mul_div_mul_left _ _ hu, ← this]
  obtain ⟨s, e1, e2, -⟩ := RMulti.C44_reconstruct h.gt hP _ h.nodup h.good h.thiele
  have hcomplete := RMulti.C44_complete h.gt hP _ h.nodup h.good h.thiele
  rw [hpe] at e1 hcomplete
  rw [List.length_map] at hcomplete
  cases hres : s.result with
  | none =>
    left
    constructor
    · unfold firstPrime
      rw [e1]
      simp only [Option.bind_eq_bind, Option.bind_some]
      rw [hres]
    · rintro ⟨h1, h2⟩
      obtain ⟨s', res, e4, e5, -⟩ := hcomplete h1 h2
      rw [e1] at e4
      obtain rfl := Option.some.inj e4
      rw [hres] at e5
      cases e5
  | some res =>
    right
    exact first_core hord hn hd hu h.nvars h.denN h.denD h.numN h.numD e1 hres (e2 res hres)

/-! ## all prime fields -/

/-- **C46 (skipped prime field).** If the first probe of a further prime field is zero, the field is skipped; nothing is lost. -/
theorem C46_skip (inv : ℤ → ℤ → ℤ) (ord : Order) {k : ℕ} {n d : MvPolynomial ℕ ℚ} {b : Bool} {e : List ℕ} {M : ℤ} {c : Cross} (h : OK k n d b e M c) {r : Prime} (hs : r.Skipped) (h300 : c.primeNumber + 1 < 300) :
    ∃ c', prime inv ord c r = some (.nextPrime c') ∧ OK k n d b e M c' ∧ c'.primeNumber = c.primeNumber + 1 := by
  obtain ⟨q, rest, h1, h2⟩ := hs
  have hz := h.zeros
  refine ⟨{ c with zeroCounter := c.zeroCounter + 1, primeNumber := c.primeNumber + 1 }, ?_, ?_, rfl⟩
  · unfold prime feedZero
    rw [h1]
    simp only [if_pos h2]
    rw [if_neg (by omega), if_neg (by omega), if_neg (by omega)]
  · exact ⟨h.prime, h.pos, h.num, h.den, h.norm, h.known, h.check, h.unNum, h.unDen, by simp only; omega⟩

/-- **C46 (zero).** A function whose first probe is zero in the first three prime fields is reported as zero. -/
theorem C46_zero (inv : ℤ → ℤ → ℤ) (ord : Order) (r0 r1 r2 : Prime) (rs : List Prime) (hz : ∀ r ∈ [r0, r1, r2], r.Skipped) :
    ∃ N D, run inv ord (Cross.initial r0.p) (r0 :: r1 :: r2 :: rs) = some (.finished N D) ∧ rnPoly N = 0 ∧ rnPoly D = 1 ∧
      N.map Prod.fst = [List.replicate r2.cfg.n 0] ∧ D.map Prod.fst = [List.replicate r2.cfg.n 0] := by
  obtain ⟨p0, t0, e0, z0⟩ := hz r0 (by simp)
  obtain ⟨p1, t1, e1, z1⟩ := hz r1 (by simp)
  obtain ⟨p2, t2, e2, z2⟩ := hz r2 (by simp)
  have hrep : (List.replicate r2.cfg.n 0).toFinsupp = 0 := by
    ext i
    rw [List.toFinsupp_apply]
    by_cases hi : i < r2.cfg.n
    · rw [List.getD_eq_getElem _ _ (by simpa using hi)]; simp
    · rw [List.getD_eq_default _ _ (by simpa using hi)]; rfl
  refine ⟨[(List.replicate r2.cfg.n 0, ⟨0, 1⟩)], [(List.replicate r2.cfg.n 0, ⟨1, 1⟩)], ?_, ?_, ?_, rfl, rfl⟩
  · unfold run prime
    rw [e0]
    simp only [if_pos z0, feedZero, Cross.initial]
    norm_num
    unfold run prime
    rw [e1]
    simp only [if_pos z1, feedZero]
    norm_num
    unfold run prime
    rw [e2]
    simp only [if_pos z2, feedZero]
    norm_num
    constructor <;> rfl
  · simp [rnPoly, denote, RationalNumber.val]
  · simp only [rnPoly, denote, RationalNumber.val, List.map_cons, List.map_nil, List.sum_cons, List.sum_nil, hrep]
    norm_num

/-- the outcome of a run after the first prime field -/
def Outcome (k : ℕ) (n d : MvPolynomial ℕ ℚ) (b : Bool) (e : List ℕ) (M : ℤ) (rs : List Prime) (out : RunOut) : Prop :=
  (∃ c', out = .waiting c' ∧ OK k n d b e (M * primeProd rs) c' ∧ ∀ rs1 q rs2, rs = rs1 ++ q :: rs2 → ¬ q.Skipped → ¬ AllSmall n d (M * primeProd rs1)) ∨
  (out = .running ∧ ∃ rs1 q rs2, rs = rs1 ++ q :: rs2 ∧ ¬ q.Skipped ∧ ¬ Enough k n d q ∧ (AllSmall n d (M * primeProd rs1) → ∀ x ∈ q.probes, x.2.2 ≠ List.replicate (k - 1) 1)) ∨
  ∃ N D, out = .finished N D ∧ ((rnPoly N = n ∧ rnPoly D = d) ∨ Premature k n d M rs N D)

lemma run_spec {inv : ℤ → ℤ → ℤ} (hinv : InvertSpec inv) {ord : Order} (hord : ord.OK) {k : ℕ} {n d : MvPolynomial ℕ ℚ} (hn : InVars k n) (hd : InVars k d) {b : Bool} {e : List ℕ} (he : e.length = k) :
    ∀ (rs : List Prime) (M : ℤ) (c : Cross), OK k n d b e M c → RunsOK k n d b e M rs → c.primeNumber + rs.length < 300 → ∃ out, run inv ord c rs = some out ∧ Outcome k n d b e M rs out
  | [], M, c, h, _, _ => ⟨_, rfl, Or.inl ⟨c, rfl, by simpa [primeProd] using h, by simp⟩⟩
  | r :: rs, M, c, h, hr, h300 => by
    rw [List.length_cons] at h300
    have cont : ∀ (c' : Cross) (M' : ℤ), OK k n d b e M' c' → c'.primeNumber = c.primeNumber + 1 → RunsOK k n d b e M' rs → prime inv ord c r = some (.nextPrime c') →
        (∀ l, M' * primeProd l = M * primeProd (r :: l)) → (¬ r.Skipped → ¬ AllSmall n d M) → ∃ out, run inv ord c (r :: rs) = some out ∧ Outcome k n d b e M (r :: rs) out := by
      intro c' M' hc' hnum hrest e1 hprod hbig
      unfold run
      rw [e1]
      simp only [Option.bind_eq_bind, Option.bind_some]
      obtain ⟨out, e', ho⟩ := run_spec hinv hord hn hd he rs M' c' hc' hrest (by omega)
      refine ⟨out, e', ?_⟩
      rcases ho with ⟨c'', rfl, hc'', hsm⟩ | ⟨rfl, rs1, q, rs2, hq, hsk, h1, h2⟩ | ⟨N, D, rfl, ho⟩
      · refine Or.inl ⟨c'', rfl, by rw [← hprod]; exact hc'', ?_⟩
        intro rs1 q rs2 hq hsk
        rcases rs1 with _ | ⟨q', rs1⟩
        · rw [List.nil_append] at hq
          obtain ⟨rfl, -⟩ := List.cons.inj hq
          simpa [primeProd] using hbig hsk
        · rw [List.cons_append] at hq
          obtain ⟨h1, h2⟩ := List.cons.inj hq
          subst h1
          have := hsm rs1 q rs2 h2 hsk
          rwa [hprod] at this
      · refine Or.inr (Or.inl ⟨rfl, r :: rs1, q, rs2, by rw [hq]; rfl, hsk, h1, ?_⟩)
        rw [← hprod]; exact h2
      · refine Or.inr (Or.inr ⟨N, D, rfl, ho.imp id ?_⟩)
        rintro ⟨rs1, q, rs2, hq, hsk, h1, h2⟩
        refine ⟨r :: rs1, q, rs2, by rw [hq]; rfl, hsk, ?_, ?_⟩
        · rw [← hprod]; exact h1
        · rw [← hprod]; exact h2
    rcases hr with ⟨hsk, hrest⟩ | ⟨hnsk, hne, hl, hpM, hx, hrest⟩
    · obtain ⟨c', e1, hc', hnum⟩ := C46_skip inv ord h hsk (by omega)
      exact cont c' M hc' hnum hrest e1 (fun l => by simp [primeProd, hsk]) (fun hn => absurd hsk hn)
    · have hprod : ∀ l : List Prime, M * r.p * primeProd l = M * primeProd (r :: l) := by
        intro l; simp [primeProd, mul_assoc, hnsk]
      obtain ⟨out, e1, hout, hex⟩ := C46_prime hinv hord hn hd h he hl hne hnsk hpM (by omega) hx
      rcases hout with ⟨N, D, rfl, hcert⟩ | ⟨c', rfl, hc', hnum, hbig⟩ | ⟨rfl, h1, h2⟩
      · unfold run
        rw [e1]
        simp only [Option.bind_eq_bind, Option.bind_some]
        refine ⟨_, rfl, Or.inr (Or.inr ⟨N, D, rfl, ?_⟩)⟩
        by_cases hs : AllSmall n d M
        · exact Or.inl (hex hs N D rfl)
        · exact Or.inr ⟨[], r, rs, rfl, hnsk, by simpa [primeProd] using hcert, by simpa [primeProd] using hs⟩
      · exact cont c' (M * r.p) hc' hnum hrest e1 hprod (fun _ => hbig)
      · unfold run
        rw [e1]
        simp only [Option.bind_eq_bind, Option.bind_some]
        exact ⟨_, rfl, Or.inr (Or.inl ⟨rfl, [], r, rs, rfl, hnsk, h1, by simpa [primeProd] using h2⟩)⟩

/-- **C46.** A new object for a function of several variables is fed with values of `n/d` over several prime fields, in the further ones in any order. Then there is no undefined behaviour. Either there are too few probes in the first prime field, or it leads to a singular system (every
monomial shares its degree with another one), or `n/d` is normalized with a factor `l` such that a coefficient of a monomial that is the only one of its degree is one, and
* the object reports a result: this is `n/d`, or it was reported before the coefficients were small for the product of the primes, and agrees with `n/d` modulo this product and at the probe of the test; or
* a prime field has fewer probes with an order vector `(o, …, o)` than degrees with at least `o` monomials; or
* it requests a further prime field, and the coefficients are not small for the product of the primes before the last field. -/
theorem C46_run {inv : ℤ → ℤ → ℤ} (hinv : InvertSpec inv) {ord : Order} (hord : ord.OK) {k : ℕ} {n d : MvPolynomial ℕ ℚ} (hn : InVars k n) (hd : InVars k d) (r : Prime) (rs : List Prime)
    {u : ZMod r.p} {mN mD : ℕ} (h1 : FirstOK k n d r u mN mD) (h2 : ∀ (l : ℚ) (b : Bool) (e : List ℕ), l ≠ 0 → Normalized k (C l * n) (C l * d) b e → RunsOK k (C l * n) (C l * d) b e r.p rs) (h300 : rs.length + 1 < 300) :
    (run inv ord (Cross.initial r.p) (r :: rs) = some .running ∧ prime inv ord (Cross.initial r.p) r = some .running ∧ ¬ EnoughFirst n d r u mN mD) ∨
    (run inv ord (Cross.initial r.p) (r :: rs) = some .singular ∧ ∀ f ∈ [n, d], ∀ m ∈ f.support, ∃ m' ∈ f.support, m' ≠ m ∧ m'.degree = m.degree) ∨
    ∃ (l : ℚ) (b : Bool) (e : List ℕ), l ≠ 0 ∧ Normalized k (C l * n) (C l * d) b e ∧
      ∃ out, run inv ord (Cross.initial r.p) (r :: rs) = some out ∧ Outcome k (C l * n) (C l * d) b e r.p rs out := by
  rcases C46_first (inv := inv) hord hn hd h1 with ⟨e1, e2⟩ | ⟨e1, e2⟩ | ⟨l, b, e, c', l0, hno, e1, hc', hnum⟩
  · left
    refine ⟨?_, e1, e2⟩
    unfold run
    rw [e1]; rfl
  · right; left
    refine ⟨?_, e2⟩
    unfold run
    rw [e1]; rfl
  · right; right
    refine ⟨l, b, e, l0, hno, ?_⟩
    have hv : ∀ f, InVars k f → InVars k (C l * f) := by
      intro f hf m hm
      rw [support_scale l0] at hm
      exact hf m hm
    obtain ⟨out, e', ho⟩ := run_spec hinv hord (hv n hn) (hv d hd) hno.len rs r.p c' hc' (h2 l b e l0 hno) (by rw [hnum]; omega)
    refine ⟨out, ?_, ho⟩
    unfold run
    rw [e1]
    simp only [Option.bind_eq_bind, Option.bind_some]
    exact e'

/-- the coefficients of `f` are below half of `q` -/
def Below (f : MvPolynomial ℕ ℚ) (q : ℕ) : Prop := ∀ m, 2 * |(coeff m f).num| < q ∧ 2 * ((coeff m f).den : ℤ) < q

lemma below_small {f : MvPolynomial ℕ ℚ} {a b : ℕ} (h1 : Below f a) (h2 : Below f b) (m : ℕ →₀ ℕ) : Small (coeff m f) ((a : ℤ) * b) := by
  have key : ∀ x a b : ℤ, 2 * |x| < a → 2 * |x| < b → 2 * x ^ 2 < a * b := by
    intro x a b h1 h2
    have : x ^ 2 = |x| ^ 2 := (sq_abs x).symm
    rw [this]
    nlinarith [abs_nonneg x]
  refine ⟨key _ _ _ (h1 m).1 (h2 m).1, key _ _ _ ?_ ?_⟩ <;> rw [abs_of_nonneg (by positivity)]
  · exact (h1 m).2
  · exact (h2 m).2

/-- **C46 (three prime fields).** `n/d` has a monomial that is the only one of its degree; in each normalization to such a monomial the numerators and denominators of the coefficients are below half of the three primes; the first field satisfies the
assumptions of C44; in the second field there are enough probes and in the third one there is a probe with the order vector `(1, …, 1)`. Then a result is reported. It is `n/d` up to a common factor of numerator and denominator, unless it was reported in the second field. -/
theorem C46_three_primes {inv : ℤ → ℤ → ℤ} (hinv : InvertSpec inv) {ord : Order} (hord : ord.OK) {k : ℕ} {n d : MvPolynomial ℕ ℚ} (hn : InVars k n) (hd : InVars k d) (r0 r1 r2 : Prime)
    {u : ZMod r0.p} {mN mD : ℕ} (h0 : FirstOK k n d r0 u mN mD) (hfirst : prime inv ord (Cross.initial r0.p) r0 ≠ some .running) (hlone : ∃ f ∈ [n, d], ∃ m ∈ f.support, ∀ m' ∈ f.support, m'.degree = m.degree → m' = m)
    (hlater : ∀ (l : ℚ) (b : Bool) (e : List ℕ), l ≠ 0 → Normalized k (C l * n) (C l * d) b e → ∀ r ∈ [r1, r2], LaterOK k (C l * n) (C l * d) b e r)
    (hns : ∀ r ∈ [r1, r2], ¬ r.Skipped ∧ r.probes ≠ []) (hE : Enough k n d r1) (hone : ∃ q ∈ r2.probes, q.2.2 = List.replicate (k - 1) 1)
    (hdist : r0.p ≠ r1.p ∧ r0.p ≠ r2.p ∧ r1.p ≠ r2.p)
    (hsmall : ∀ (l : ℚ) (b : Bool) (e : List ℕ), l ≠ 0 → Normalized k (C l * n) (C l * d) b e → ∀ q ∈ [r0.p, r1.p, r2.p], Below (C l * n) q ∧ Below (C l * d) q) :
    ∃ (l : ℚ) (N D : RnMap), l ≠ 0 ∧ run inv ord (Cross.initial r0.p) [r0, r1, r2] = some (.finished N D) ∧
      ((rnPoly N = C l * n ∧ rnPoly D = C l * d) ∨ Certified k (C l * n) (C l * d) r0.p r1 N D) := by
  have pr0 := r0.fact.out
  have pr1 := r1.fact.out
  have pr2 := r2.fact.out
  have c0 : (1 : ℤ) ≤ r0.p := by exact_mod_cast pr0.pos
  have c1 : (1 : ℤ) ≤ r1.p := by exact_mod_cast pr1.pos
  have nd : ∀ p q : ℕ, p.Prime → q.Prime → q ≠ p → ¬ (p : ℤ) ∣ q := by
    intro p q hp hq hne h
    exact hne ((Nat.prime_dvd_prime_iff_eq hp hq).mp (by exact_mod_cast h)).symm
  obtain ⟨ns1, ne1⟩ := hns r1 (by simp)
  obtain ⟨ns2, ne2⟩ := hns r2 (by simp)
  rcases C46_run hinv hord hn hd r0 [r1, r2] h0 (by
    intro l b e l0 hno
    have hs := hsmall l b e l0 hno
    refine Or.inr ⟨ns1, ne1, hlater l b e l0 hno r1 (by simp), nd _ _ pr1 pr0 hdist.1, ?_, Or.inr ⟨ns2, ne2, hlater l b e l0 hno r2 (by simp), ?_, ?_, trivial⟩⟩
    · intro m
      have := hs r1.p (by simp)
      exact ⟨C36_not_deceptive _ _ _ c0 (this.1 m).1 (this.1 m).2, C36_not_deceptive _ _ _ c0 (this.2 m).1 (this.2 m).2⟩
    · intro hd
      rcases (Nat.prime_iff_prime_int.mp pr2).dvd_or_dvd hd with h | h
      · exact nd _ _ pr2 pr0 hdist.2.1 h
      · exact nd _ _ pr2 pr1 hdist.2.2 h
    · intro m
      have := hs r2.p (by simp)
      exact ⟨C36_not_deceptive _ _ _ (by nlinarith) (this.1 m).1 (this.1 m).2, C36_not_deceptive _ _ _ (by nlinarith) (this.2 m).1 (this.2 m).2⟩) (by norm_num) with ⟨-, hrun, -⟩ | ⟨-, hsing⟩ | ⟨l, b, e, l0, hno, out, e1, ho⟩
  · exact absurd hrun hfirst
  · exfalso
    obtain ⟨f, hf, m, hm, hu⟩ := hlone
    obtain ⟨m', h1, h2, h3⟩ := hsing f hf m hm
    exact h2 (hu m' h1 h3)
  · have hs := hsmall l b e l0 hno
    have small2 : AllSmall (C l * n) (C l * d) (r0.p * r1.p) := fun m =>
      ⟨below_small (hs r0.p (by simp)).1 (hs r1.p (by simp)).1 m, below_small (hs r0.p (by simp)).2 (hs r1.p (by simp)).2 m⟩
    have hp1 : (r0.p : ℤ) * primeProd [r1] = r0.p * r1.p := by simp [primeProd, ns1]
    have hE' : Enough k (C l * n) (C l * d) r1 := by
      intro o ho
      have := hE o ho
      unfold numDegs at this ⊢
      rw [support_scale l0, support_scale l0]
      exact this
    rcases ho with ⟨c', -, -, hsm⟩ | ⟨-, rs1, q, rs2, hq, hsk, h1, h2⟩ | ⟨N, D, rfl, ho⟩
    · have := hsm [r1] r2 [] rfl ns2
      rw [hp1] at this
      exact absurd small2 this
    · exfalso
      rcases rs1 with _ | ⟨q1, rs1⟩
      · rw [List.nil_append] at hq
        obtain ⟨rfl, -⟩ := List.cons.inj hq
        exact h1 hE'
      · rcases rs1 with _ | ⟨q2, rs1⟩
        · simp only [List.cons_append, List.nil_append, List.cons.injEq] at hq
          obtain ⟨rfl, rfl, -⟩ := hq
          rw [hp1] at h2
          obtain ⟨x, hx, hx1⟩ := hone
          exact h2 small2 x hx hx1
        · have := congrArg List.length hq
          simp at this
    · refine ⟨l, N, D, l0, e1, ho.imp id ?_⟩
      rintro ⟨rs1, q, rs2, hq, -, hcert, hbig⟩
      rcases rs1 with _ | ⟨q1, rs1⟩
      · rw [List.nil_append] at hq
        obtain ⟨rfl, -⟩ := List.cons.inj hq
        simpa [primeProd] using hcert
      · rcases rs1 with _ | ⟨q2, rs1⟩
        · simp only [List.cons_append, List.nil_append, List.cons.injEq] at hq
          obtain ⟨rfl, rfl, -⟩ := hq
          rw [hp1] at hbig
          exact absurd small2 hbig
        · have := congrArg List.length hq
          simp at this

/-! ## a defect -/

/-- the interpolator after the probes with the order vector `(1, …, 1)` -/
def thieleOf (r : Prime) : Thiele (ZMod r.p) × Bool :=
  haveI := r.fact
  ((r.probes.filter (fun q => decide (q.2.2 = List.replicate (r.cfg.n - 1) 1))).map (fun q => (q.2.1, q.1))).foldl
    (fun (t : Thiele (ZMod r.p) × Bool) q => if t.2 then t else t.1.addPoint q.1 q.2) (({} : Thiele (ZMod r.p)), false)

/-- **C46 (a zero in the first prime field, violated).** If the first probe of the first prime field is zero (the first prime divides the numerator, or by chance), and the univariate interpolation in the second field ends with a numerator that is not constant, then
a Vandermonde system without unknowns is solved: undefined behaviour. The function in several variables is not reconstructed. -/
theorem C46_zero_first_violated (inv : ℤ → ℤ → ℤ) (ord : Order) (r0 r1 : Prime) (rs : List Prime) (h0 : r0.Skipped) (h1 : ¬ r1.Skipped) (hne : r1.probes ≠ [])
    (hdone : (thieleOf r1).2 = true) (hconst : haveI := r1.fact; ∃ k ∈ (thieleOf r1).1.getResult.1.map Prod.fst, k ≠ [0]) :
    run inv ord (Cross.initial r0.p) (r0 :: r1 :: rs) = none := by
  haveI := r1.fact
  obtain ⟨q, rest, e0, z0⟩ := h0
  obtain ⟨q1, rest1, e1⟩ : ∃ q0 rest, r1.probes = q0 :: rest := by
    rcases hl : r1.probes with _ | ⟨q0, rest⟩
    · exact absurd hl hne
    · exact ⟨q0, rest, rfl⟩
  have z1 : q1.2.1 ≠ 0 := fun h => h1 ⟨q1, rest1, e1, h⟩
  obtain ⟨k, hk, hk0⟩ := hconst
  have habs : ∀ (c : RLater.Cfg (ZMod r1.p)) (sol : FFMap (FFMap (ZMod r1.p))) (m : FFMap (ZMod r1.p)), m ≠ [] → c.absorb { solved := sol } m = none := by
    intro c sol m hm
    rcases m with _ | ⟨t, m⟩
    · exact absurd rfl hm
    · unfold RLater.Cfg.absorb
      rw [List.foldlM_cons]
      have : c.absorbOne { solved := sol } t = none := by
        unfold RLater.Cfg.absorbOne
        simp [FFMap.find?, solveVandermondeSystem]
      rw [this]; rfl
  have herase : ∀ x : ZMod r1.p, (PolyFF.scale (thieleOf r1).1.getResult.1 x).erase [0] ≠ [] := by
    intro x h
    have h2 : k ∈ (PolyFF.scale (thieleOf r1).1.getResult.1 x).map Prod.fst := by
      unfold PolyFF.scale
      rw [List.map_map]; exact hk
    obtain ⟨t, ht, hte⟩ := List.mem_map.mp h2
    have : t ∈ (PolyFF.scale (thieleOf r1).1.getResult.1 x).erase [0] := by
      unfold FFMap.erase
      rw [List.mem_filter]
      exact ⟨ht, by simpa [hte] using hk0⟩
    rw [h] at this
    cases this
  have h2 : ∀ c, secondThiele ord c r1 = none := by
    intro c
    have hd2 := hdone
    have he2 := herase
    unfold thieleOf at hd2 he2
    unfold secondThiele
    simp only at hd2 ⊢
    rw [if_pos hd2, habs _ _ _ (he2 _)]
    rfl
  unfold run prime
  rw [e0]
  simp only [if_pos z0, feedZero, Cross.initial]
  norm_num
  unfold run prime
  rw [e1]
  simp only [if_neg z1, h2]
  norm_num

end FireFly.RRun
