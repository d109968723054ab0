import Verif.Spec.SafeUni
import Verif.Lemmas.RatSafeBound
/-!
# C73: rational functions in one variable over the rational numbers with safe interpolation
-/
set_option linter.all false
namespace FireFly.RRun.Safe.Uni
open Polynomial FFMap
variable {n d : ℚ[X]}

/-! ## polynomials in one variable -/

lemma coeff_mv (f : ℚ[X]) (m : ℕ →₀ ℕ) : MvPolynomial.coeff m (mv f) = if m = Finsupp.single 0 (m 0) then f.coeff (m 0) else 0 := by
  classical
  unfold mv
  rw [MvPolynomial.coeff_sum]
  simp only [MvPolynomial.coeff_monomial]
  split_ifs with h
  · have : ∀ e ∈ f.support, (if Finsupp.single 0 e = m then f.coeff e else 0) = if e = m 0 then f.coeff e else 0 := by
      intro e _
      have : Finsupp.single 0 e = m ↔ e = m 0 := ⟨fun he => by rw [← he]; simp, fun he => by rw [he]; exact h.symm⟩
      simp only [this]
    rw [Finset.sum_congr rfl this, Finset.sum_ite_eq' f.support (m 0)]
    split_ifs with hs
    · rfl
    · exact (notMem_support_iff.mp hs).symm
  · refine Finset.sum_eq_zero (fun e _ => if_neg (fun he => h ?_))
    rw [← he]; simp

lemma coeff_mv_single (f : ℚ[X]) (e : ℕ) : MvPolynomial.coeff ([e] : List ℕ).toFinsupp (mv f) = f.coeff e := by
  rw [List.toFinsupp_singleton, coeff_mv]
  simp

lemma mv_inj {f g : ℚ[X]} (h : mv f = mv g) : f = g := by
  ext e
  rw [← coeff_mv_single, h, coeff_mv_single]

lemma mv_add (f g : ℚ[X]) : mv (f + g) = mv f + mv g := by
  ext m
  rw [MvPolynomial.coeff_add, coeff_mv, coeff_mv, coeff_mv]
  split_ifs <;> simp

lemma inVars (f : ℚ[X]) : InVars 1 (mv f) := by
  intro m hm i hi
  rw [MvPolynomial.mem_support_iff, coeff_mv] at hm
  by_cases h : m = Finsupp.single 0 (m 0)
  · rw [h, Finsupp.single_apply, if_neg (by omega)]
  · rw [if_neg h] at hm; exact absurd rfl hm

lemma mv_monomial (e : ℕ) (q : ℚ) : mv (monomial e q) = MvPolynomial.monomial ([e] : List ℕ).toFinsupp q := by
  ext m
  rw [coeff_mv, MvPolynomial.coeff_monomial, List.toFinsupp_singleton, Polynomial.coeff_monomial]
  by_cases h : m = Finsupp.single 0 (m 0)
  · rw [if_pos h]
    have : Finsupp.single 0 e = m ↔ e = m 0 := ⟨fun he => by rw [← he]; simp, fun he => by rw [he]; exact h.symm⟩
    simp only [this]
  · rw [if_neg h, if_neg]
    intro he; apply h; rw [← he]; simp

lemma mv_rnPoly : ∀ (g : RnMap), (∀ t ∈ g, t.1.length = 1) → mv (FireFly.rnPoly g) = RRun.rnPoly g
  | [], _ => by
    ext m
    rw [coeff_mv]
    simp [FireFly.rnPoly, RRun.rnPoly, denote]
  | t :: g, h => by
    have ih := mv_rnPoly g (fun s hs => h s (List.mem_cons_of_mem _ hs))
    obtain ⟨x, hx⟩ := List.length_eq_one_iff.mp (h t (by simp))
    have e1 : FireFly.rnPoly (t :: g) = monomial (t.1.getD 0 0) t.2.val + FireFly.rnPoly g := rfl
    rw [e1, mv_add, ih, mv_monomial]
    unfold RRun.rnPoly denote
    rw [List.map_cons, List.map_cons, List.sum_cons, hx]
    rfl

lemma rnPoly_eq {g : RnMap} (hg : ∀ t ∈ g, t.1.length = 1) {f : ℚ[X]} (h : RRun.rnPoly g = mv f) : FireFly.rnPoly g = f := mv_inj ((mv_rnPoly g hg).trans h)

/-! ## the interpolation in a prime field -/

lemma red_degree (p : ℕ) [Fact p.Prime] (f : ℚ[X]) : (redPoly p f).natDegree ≤ f.natDegree := by
  rw [natDegree_le_iff_coeff_eq_zero]
  intro e he
  rw [redPoly_coeff, coeff_eq_zero_of_natDegree_lt he]; simp

/-- One side of the normalized interpolation. -/
lemma res_uni {p : ℕ} [Fact p.Prime] {f : ℚ[X]} {m : FFMap (ZMod p)} {u : ZMod p} (hu : u ≠ 0) (hw : WFMap 1 m) (hnz : ∀ t ∈ m, t.2 ≠ 0) (hv : ∀ e, (m.find? [e]).getD 0 = u * (redPoly p f).coeff e)
    (hd : ∀ e, ¬ (p : ℤ) ∣ (f.coeff e).den) : ResOK 1 (mv f) p (PolyFF.scale m (1 / u)) := by
  have hk : (PolyFF.scale m (1 / u)).map Prod.fst = m.map Prod.fst := by unfold PolyFF.scale; rw [List.map_map]; rfl
  have hdm : ∀ e : List ℕ, ¬ (p : ℤ) ∣ (RRun.coefOf (mv f) e).den := by
    intro e
    unfold RRun.coefOf
    rw [coeff_mv]
    split_ifs
    · exact hd _
    · exact fun h => (Fact.out : p.Prime).one_lt.ne' (by exact_mod_cast Int.eq_one_of_dvd_one (by positivity) h)
  have mem : ∀ t ∈ PolyFF.scale m (1 / u), ∃ e, t.1 = [e] ∧ t.2 ≠ 0 ∧ t.2 = ((f.coeff e : ℚ) : ZMod p) := by
    intro t ht
    unfold PolyFF.scale at ht
    obtain ⟨s, hs, rfl⟩ := List.mem_map.mp ht
    obtain ⟨e, he⟩ := List.length_eq_one_iff.mp (hw.2 s hs)
    have h1 := hv e
    rw [← he, find?_of_mem hw.1 hs, redPoly_coeff] at h1
    have h1 : s.2 = u * ((f.coeff e : ℚ) : ZMod p) := h1
    refine ⟨e, he, mul_ne_zero (hnz s hs) (one_div_ne_zero hu), ?_⟩
    show s.2 * (1 / u) = _
    rw [h1]; field_simp
  refine ⟨by rw [hk]; exact hw.1, ?_, ?_, hdm⟩
  · intro e v hev
    obtain ⟨x, hx, h0, hc⟩ := mem _ (find?_mem hev)
    obtain rfl : e = [x] := hx
    have hcv : v = ((RRun.coefOf (mv f) [x] : ℚ) : ZMod p) := by unfold RRun.coefOf; rw [coeff_mv_single]; exact hc
    have hv0 : v ≠ 0 := h0
    refine ⟨(RRun.mem_monos (inVars f)).mpr ⟨rfl, ?_⟩, hcv, ?_⟩
    · intro hz
      apply hv0
      rw [hcv]; unfold RRun.coefOf; rw [hz]; simp
    · intro hdv
      exact hv0 (hcv.trans ((cast_zero_iff (hdm _)).mpr hdv))
  · intro e he hnone
    obtain ⟨x, rfl⟩ := List.length_eq_one_iff.mp (RRun.monos_len (inVars f) he)
    rw [← cast_zero_iff (hdm _)]
    have hz : m.find? [x] = none := by
      rw [find?_eq_none] at hnone ⊢
      rwa [hk] at hnone
    have h1 := hv x
    rw [hz, redPoly_coeff] at h1
    unfold RRun.coefOf
    rw [coeff_mv_single]
    have h1 : (0 : ZMod p) = u * ((f.coeff x : ℚ) : ZMod p) := h1
    exact (mul_eq_zero.mp h1.symm).resolve_left hu

/-- What Thiele's method gives in a field that satisfies the assumptions. -/
lemma field_interp (hnorm : d.trailingCoeff = 1) {r : PrimeRun} (h : FieldOK n d r) (inv : ℤ → ℤ → ℤ) (ord : Order) (c : Cross) :
    haveI := r.fact
    (interpolate inv ord c r = some .running ∧ ¬ Enough n d r) ∨
    ∃ num den : FFMap (ZMod r.p), ResOK 1 (mv n) r.p num ∧ ResOK 1 (mv d) r.p den ∧ (den.find? [d.natTrailingDegree]).isSome ∧
      interpolate inv ord c r = (match c.norm with
        | none => some { c with num := firstSide false [d.natTrailingDegree] num c.num.g, den := firstSide true [d.natTrailingDegree] den c.den.g, combPrime := r.p, norm := some (true, [d.natTrailingDegree]) }
        | some _ => combineNext inv ord c num den).bind endPrime := by
  haveI := r.fact
  obtain ⟨s, b, hrun, hstop⟩ := h.thiele
  have hdata : ∀ pt ∈ r.pts.map Prod.swap, (redPoly r.p d).eval pt.2 ≠ 0 ∧ pt.1 = (redPoly r.p n).eval pt.2 / (redPoly r.p d).eval pt.2 := by
    intro pt hpt
    obtain ⟨q, hq, rfl⟩ := List.mem_map.mp hpt
    exact h.probes.data q hq
  have hr := run_checked _ _ _ hrun
  cases b with
  | false =>
    left
    refine ⟨?_, ?_⟩
    · unfold interpolate
      simp only [hr, Bool.false_eq_true, if_false]
    · rintro ⟨h1, h2, h3⟩
      have a1 := red_degree r.p n
      have a2 := red_degree r.p d
      exact absurd (C19_terminates hdata ⟨by rw [List.length_map]; omega, by rw [List.length_map]; omega, by rw [List.length_map]; omega⟩ hrun) (by simp)
  | true =>
    right
    obtain ⟨hm1, hm2⟩ := hstop rfl
    obtain ⟨w1, w2, ⟨u, hu, v1, v2⟩, hz⟩ := C19_lowest_terms (pts := r.pts.map Prod.swap) (by simpa using h.len) h.cop hdata (by rw [List.map_map]; exact h.distinct) hrun hm1 hm2
    obtain ⟨z1, z2⟩ := hz (by
        intro pt hpt
        obtain ⟨q, hq, rfl⟩ := List.mem_map.mp hpt
        exact h.nonzero q hq) (by
        have := h.probes.first
        rcases hp : r.pts with _ | ⟨pt, rest⟩
        · rw [hp] at this; exact absurd rfl this
        · rw [hp] at this; simpa using this)
    have hone : d.coeff d.natTrailingDegree = 1 := hnorm
    have hlow : (s.getResult.2.find? [d.natTrailingDegree]).getD 0 = u := by rw [v2, redPoly_coeff, hone]; simp
    have hmem : [d.natTrailingDegree] ∈ s.getResult.2.map Prod.fst := by
      by_contra hc
      rw [find?_eq_none.mpr hc] at hlow
      exact hu hlow.symm
    have hR2 : s.getResult.2 ≠ [] := by
      intro h0; rw [h0] at hmem; simp at hmem
    obtain ⟨-, g1, g2, -⟩ := C34_degs (by norm_num) w2 hR2
    have hmin : (PolyObj.mk' 1 s.getResult.2).minDeg.2 = (PolyFF.degs s.getResult.2).2 := by
      unfold PolyObj.minDeg PolyObj.maxDeg PolyObj.mk'
      simp [hR2]
    rw [hmin] at g1 g2
    have hnrm : (PolyFF.degs s.getResult.2).2 = [d.natTrailingDegree] := by
      obtain ⟨t, ht, hte⟩ := List.mem_map.mp g1
      obtain ⟨e, he⟩ := List.length_eq_one_iff.mp (w2.2 t ht)
      rw [he] at hte
      rw [← hte] at g2 ⊢
      have hte0 := z2 t ht
      have h3 := v2 e
      rw [← he, find?_of_mem w2.1 ht, redPoly_coeff] at h3
      have h1 : d.natTrailingDegree ≤ e := by
        apply natTrailingDegree_le_of_mem_supp
        rw [mem_support_iff]
        intro h0
        rw [h0] at h3
        simp at h3
        exact hte0 h3
      obtain ⟨t', ht', hte'⟩ := List.mem_map.mp hmem
      have h2 := (g2 t' ht').2
      rw [hte'] at h2
      simp at h2
      rw [le_antisymm h2 h1]
    have heq : 1 / ((s.getResult.2.find? (PolyFF.degs s.getResult.2).2).getD 0) = 1 / u := by rw [hnrm, hlow]
    refine ⟨PolyFF.scale s.getResult.1 (1 / u), PolyFF.scale s.getResult.2 (1 / u), res_uni hu w1 z1 v1 h.probes.denN, res_uni hu w2 z2 v2 h.probes.denD, ?_, ?_⟩
    · obtain ⟨t, ht, hte⟩ := List.mem_map.mp hmem
      have : [d.natTrailingDegree] ∈ (PolyFF.scale s.getResult.2 (1 / u)).map Prod.fst := by
        unfold PolyFF.scale; rw [List.map_map]; exact hmem
      rw [← Option.ne_none_iff_isSome]
      exact fun hc => (find?_eq_none.mp hc) this
    · unfold interpolate
      simp only [hr, if_true]
      congr 1
      unfold combine
      cases c.norm with
      | none => simp only [hnrm, hlow]
      | some q => simp only [hnrm, hlow]

/-! ## the prime fields -/

lemma probes_cons {r : PrimeRun} (h : FieldOK n d r) : ∃ q0 rest, r.pts = q0 :: rest ∧ q0.2 ≠ 0 := by
  haveI := r.fact
  have := h.probes.first
  rcases hp : r.pts with _ | ⟨pt, rest⟩
  · rw [hp] at this; exact absurd rfl this
  · rw [hp] at this; exact ⟨pt, rest, rfl, this⟩

lemma notSkipped {r : PrimeRun} (h : FieldOK n d r) : ¬ Skipped r := by
  rintro ⟨q, rest, h1, h2⟩
  obtain ⟨q0, rest0, h3, h4⟩ := probes_cons h
  rw [h1] at h3
  obtain ⟨rfl, -⟩ := List.cons.inj h3
  exact h4 h2

/-- **C73 (the first prime field).** A new object with safe interpolation is fed with values of `n/d`, whose lowest denominator coefficient is one; coefficients may vanish in this field. It needs more probes, and then there have not been enough, or it requests a new prime field and
has the residues of exactly the coefficients that do not vanish. -/
theorem C73_first (inv : ℤ → ℤ → ℤ) (ord : Order) (hnorm : d.trailingCoeff = 1) {r : PrimeRun} (h : FieldOK n d r) :
    (prime inv ord (Cross.initial r.p) r = some .running ∧ ¬ Enough n d r) ∨
    ∃ c', prime inv ord (Cross.initial r.p) r = some (.nextPrime c') ∧ Stored n d [r.p] c' ∧ c'.primeNumber = 1 := by
  haveI := r.fact
  obtain ⟨q0, rest, hq0, hq0v⟩ := probes_cons h
  have hprime : prime inv ord (Cross.initial r.p) r = interpolate inv ord (Cross.initial r.p) r := by
    unfold prime
    rw [hq0]
    simp only [if_neg hq0v, Cross.initial]
    rfl
  rw [hprime]
  rcases field_interp hnorm h inv ord (Cross.initial r.p) with ⟨e1, e2⟩ | ⟨num, den, r1, r2, hlow, e1⟩
  · exact Or.inl ⟨e1, e2⟩
  · right
    refine ⟨_, e1.trans rfl, ?_, rfl⟩
    have hone : MvPolynomial.coeff ([d.natTrailingDegree] : List ℕ).toFinsupp (mv d) = 1 := by rw [coeff_mv_single]; exact hnorm
    obtain ⟨sD, -⟩ := (side_first_inv r2).2 [d.natTrailingDegree] hlow hone
    have sN := (side_first_inv r1).1
    refine ⟨?_, sD, rfl, rfl, hone, ?_, by simp, by simp, by simp [Cross.initial], fun _ => Or.inr (by simp [Cross.initial]), by simp [Cross.initial]⟩
    · show SideInv 1 (mv n) [r.p] (firstSide false [d.natTrailingDegree] num [])
      rw [firstSide_false]; exact sN
    · intro p hp; rw [List.mem_singleton] at hp; rw [hp]; exact r.fact.out

/-- **C73 (a further prime field).** Let `n/d` be known as described by `Stored` from the prime fields `ps`. The probes of another field, in which coefficients may vanish, lead without undefined behaviour to a reported result with right monomials, right coefficients as far as they are
determined, and the right value at the first probe; or to a request for a new prime field, and the residues are combined with the modulus that belongs to each coefficient; or to the wish for more probes, but only if there have not been enough. If all coefficients are determined by `ps`,
the result `n/d` is reported. -/
theorem C73_prime {inv : ℤ → ℤ → ℤ} (hinv : InvertSpec inv) {ord : Order} (hord : ord.OK) (hnorm : d.trailingCoeff = 1) {ps : List ℕ} {c : Cross} (h : Stored n d ps c) {r : PrimeRun} (hr : FieldOK n d r)
    (h300 : c.primeNumber + 1 < 300) (hnew : r.p ∉ ps) (hn : Clear (mv n) ps r.p) (hd : Clear (mv d) ps r.p) :
    ∃ out, prime inv ord c r = some out ∧
      ((∃ N D, out = .finished N D ∧ Tested n d ps r N D) ∨
       (∃ c', out = .nextPrime c' ∧ Stored n d (ps ++ [r.p]) c' ∧ c'.primeNumber = c.primeNumber + 1 ∧ ¬ Known n d ps) ∨
       (out = .running ∧ ¬ Enough n d r ∧ ¬ Known n d ps)) ∧
      (Known n d ps → ∃ N D, out = .finished N D ∧ FireFly.rnPoly N = n ∧ FireFly.rnPoly D = d) := by
  haveI := r.fact
  obtain ⟨q0, rest, hq0, hq0v⟩ := probes_cons hr
  have hq0d := hr.probes.data q0 (by rw [hq0]; simp)
  have hinterp : (interpolate inv ord c r = some .running ∧ ¬ Enough n d r) ∨ ∃ c', interpolate inv ord c r = some (.nextPrime c') ∧ Stored n d (ps ++ [r.p]) c' ∧ c'.primeNumber = c.primeNumber + 1 := by
    rcases field_interp hnorm hr inv ord c with h1 | ⟨num, den, r1, r2, -, e1⟩
    · exact Or.inl h1
    · right
      obtain ⟨c', e4, e5, e6, e7⟩ := OK.next hinv hord h (inVars n) (inVars d) hnew r1 r2 hn hd
      rw [h.norm] at e1
      simp only [e4, Option.bind_some] at e1
      refine ⟨{ c' with primeNumber := c'.primeNumber + 1 }, ?_, ?_, by simp only; omega⟩
      · rw [e1]; unfold endPrime; rw [if_neg (by omega)]
      · exact ⟨e5.num, e5.den, e5.norm, e5.len, e5.one, e5.primes, e5.distinct, e5.ne, e5.modulus, e5.steady, lt_trans e5.zeros (by simp)⟩
  have hprime0 : ∀ o, c.recRatCoef = some o → prime inv ord c r = (match o with
      | some g => (testGuess (p := r.p) g q0.2 q0.1).bind (fun t => if t then some (.finished g.1 g.2) else interpolate inv ord c r)
      | none => interpolate inv ord c r) := by
    intro o g1
    unfold prime
    rw [hq0]
    simp only [if_neg hq0v, h.norm, Option.isSome_some, if_true]
    rw [g1]
    simp only [Option.bind_eq_bind, Option.bind_some]
    cases o <;> rfl
  obtain ⟨o, g1, g2, g3⟩ := OK.guess h (inVars n) (inVars d)
  have hprime := hprime0 o g1
  have hfail : ¬ Known n d ps → prime inv ord c r = interpolate inv ord c r → ∃ out, prime inv ord c r = some out ∧
      ((∃ N D, out = .finished N D ∧ Tested n d ps r N D) ∨
       (∃ c', out = .nextPrime c' ∧ Stored n d (ps ++ [r.p]) c' ∧ c'.primeNumber = c.primeNumber + 1 ∧ ¬ Known n d ps) ∨
       (out = .running ∧ ¬ Enough n d r ∧ ¬ Known n d ps)) ∧
      (Known n d ps → ∃ N D, out = .finished N D ∧ FireFly.rnPoly N = n ∧ FireFly.rnPoly D = d) := by
    intro hk he
    rcases hinterp with ⟨e1, e2⟩ | ⟨c', e1, e2, e3⟩
    · exact ⟨_, he.trans e1, Or.inr (Or.inr ⟨rfl, e2, hk⟩), fun hk' => absurd hk' hk⟩
    · exact ⟨_, he.trans e1, Or.inr (Or.inl ⟨c', rfl, e2, e3, hk⟩), fun hk' => absurd hk' hk⟩
  cases o with
  | none =>
    refine hfail ?_ hprime
    intro hk
    obtain ⟨g, hg, -⟩ := g3 hk
    cases hg
  | some g =>
    obtain ⟨p1, p2, -⟩ := g2 g rfl
    have facts : ∀ {f : ℚ[X]} {m : RnMap}, Partly 1 (mv f) ps m → (∀ t ∈ m, t.2.Valid) ∧ (m.map Prod.fst).Nodup ∧ ∀ t ∈ m, t.1.length = 1 :=
      fun hm => ⟨hm.valid, hm.nodup, fun t ht => RRun.monos_len (inVars _) (hm.mem t.1 (List.mem_map_of_mem ht))⟩
    have ht : testGuess (p := r.p) g q0.2 q0.1 = _ := testGuess_spec (N := g.1) (D := g.2) (facts p1) (facts p2) q0.2 q0.1
    simp only [ht, Option.bind_some, decide_eq_true_eq] at hprime
    by_cases hd : (redPoly r.p (FireFly.rnPoly g.1)).eval q0.1 / (redPoly r.p (FireFly.rnPoly g.2)).eval q0.1 = q0.2
    · rw [if_pos hd] at hprime
      refine ⟨_, hprime, Or.inl ⟨_, _, rfl, p1, p2, by rw [hq0]; exact hd⟩, ?_⟩
      intro hk
      obtain ⟨g', hg', x1, x2⟩ := g3 hk
      obtain rfl := Option.some.inj hg'
      exact ⟨_, _, rfl, rnPoly_eq (facts p1).2.2 x1, rnPoly_eq (facts p2).2.2 x2⟩
    · rw [if_neg hd] at hprime
      refine hfail ?_ hprime
      intro hk
      obtain ⟨g', hg', x1, x2⟩ := g3 hk
      obtain rfl := Option.some.inj hg'
      apply hd
      rw [rnPoly_eq (facts p1).2.2 x1, rnPoly_eq (facts p2).2.2 x2]
      exact hq0d.2.symm

/-- **C73 (skipped prime field).** If the first probe of a further prime field is zero, the field is skipped; nothing is lost. -/
theorem C73_skip (inv : ℤ → ℤ → ℤ) (ord : Order) {ps : List ℕ} {c : Cross} (h : Stored n d ps c) {r : PrimeRun} (hs : Skipped r) (h300 : c.primeNumber + 1 < 300) :
    ∃ c', prime inv ord c r = some (.nextPrime c') ∧ Stored n d ps c' ∧ c'.primeNumber = c.primeNumber + 1 := by
  obtain ⟨q, rest, h1, h2⟩ := hs
  have hz := h.zeros
  refine ⟨{ c with zeroCounter := c.zeroCounter + 1, primeNumber := c.primeNumber + 1 }, ?_, ?_, rfl⟩
  · unfold prime feedZero
    rw [h1]
    simp only [if_pos h2]
    rw [if_neg (by omega), if_neg (by omega), if_neg (by omega)]
  · exact ⟨h.num, h.den, h.norm, h.len, h.one, h.primes, h.distinct, h.ne, h.modulus, h.steady, by simp only; omega⟩

lemma used_cons (r : PrimeRun) (rs : List PrimeRun) : (Skipped r → used (r :: rs) = used rs) ∧ (¬ Skipped r → used (r :: rs) = r.p :: used rs) := by
  unfold used
  refine ⟨fun h => ?_, fun h1 => ?_⟩
  · rw [List.filter_cons, if_neg (by simp [h])]
  · rw [List.filter_cons, if_pos (by simp [h1])]; rfl

lemma run_spec {inv : ℤ → ℤ → ℤ} (hinv : InvertSpec inv) {ord : Order} (hord : ord.OK) (hnorm : d.trailingCoeff = 1) :
    ∀ (rs : List PrimeRun) (ps : List ℕ) (c : Cross), Stored n d ps c → RunsOK n d ps rs → c.primeNumber + rs.length < 300 → ∃ out, run inv ord c rs = some out ∧ Outcome n d ps rs out
  | [], ps, c, h, _, _ => ⟨_, rfl, Or.inl ⟨c, rfl, by simpa [used] using h, by simp⟩⟩
  | r :: rs, ps, c, h, hr, h300 => by
    rw [List.length_cons] at h300
    have cont : ∀ (c' : Cross) (ps' : List ℕ), Stored n d ps' c' → c'.primeNumber = c.primeNumber + 1 → RunsOK n d ps' rs → prime inv ord c r = some (.nextPrime c') →
        (∀ l, ps' ++ used l = ps ++ used (r :: l)) → (¬ Skipped r → ¬ Known n d ps) → ∃ out, run inv ord c (r :: rs) = some out ∧ Outcome n d ps (r :: rs) out := by
      intro c' ps' hc' hnum hrest e1 hprod hbig
      unfold run
      rw [e1]
      simp only [Option.bind_eq_bind, Option.bind_some]
      obtain ⟨out, e', ho⟩ := run_spec hinv hord hnorm rs ps' c' hc' hrest (by omega)
      refine ⟨out, e', ?_⟩
      rcases ho with ⟨c'', rfl, hc'', hsm⟩ | ⟨rfl, rs1, q, rs2, hq, hsk, h1, h2⟩ | ⟨N, D, rfl, ho⟩
      · refine Or.inl ⟨c'', rfl, by rw [← hprod]; exact hc'', ?_⟩
        intro rs1 q rs2 hq hsk
        rcases rs1 with _ | ⟨q', rs1⟩
        · rw [List.nil_append] at hq
          obtain ⟨rfl, -⟩ := List.cons.inj hq
          simpa [used] using hbig hsk
        · rw [List.cons_append] at hq
          obtain ⟨hr1, hq⟩ := List.cons.inj hq
          rw [← hr1, ← hprod]
          exact hsm rs1 q rs2 hq hsk
      · refine Or.inr (Or.inl ⟨rfl, r :: rs1, q, rs2, by rw [hq]; rfl, hsk, h1, ?_⟩)
        rw [← hprod]; exact h2
      · refine Or.inr (Or.inr ⟨N, D, rfl, ho.imp_right ?_⟩)
        rintro ⟨rs1, q, rs2, hq, hsk, h1, h2⟩
        refine ⟨r :: rs1, q, rs2, by rw [hq]; rfl, hsk, ?_, ?_⟩
        · rw [← hprod]; exact h1
        · rw [← hprod]; exact h2
    rcases hr with ⟨hsk, hrest⟩ | ⟨hf, a1, a2, a3, hrest⟩
    · obtain ⟨c', e1, hc', hnum⟩ := C73_skip inv ord h hsk (by omega)
      exact cont c' ps hc' hnum hrest e1 (fun l => by rw [(used_cons r l).1 hsk]) (fun hn => absurd hsk hn)
    · have hns := notSkipped hf
      obtain ⟨out, e1, hout, hex⟩ := C73_prime hinv hord hnorm h hf (by omega) a1 a2 a3
      rcases hout with ⟨N, D, rfl, hcert⟩ | ⟨c', rfl, hc', hnum, hbig⟩ | ⟨rfl, h1, h2⟩
      · unfold run
        rw [e1]
        simp only [Option.bind_eq_bind, Option.bind_some]
        refine ⟨_, rfl, Or.inr (Or.inr ⟨N, D, rfl, ?_⟩)⟩
        by_cases hs : Known n d ps
        · obtain ⟨N', D', he, x1, x2⟩ := hex hs
          obtain ⟨rfl, rfl⟩ := Out.finished.inj he
          exact Or.inl ⟨x1, x2⟩
        · exact Or.inr ⟨[], r, rs, rfl, hns, by simpa [used] using hcert, by simpa [used] using hs⟩
      · exact cont c' _ hc' hnum hrest e1 (fun l => by rw [(used_cons r l).2 hns]; simp) (fun _ => hbig)
      · unfold run
        rw [e1]
        simp only [Option.bind_eq_bind, Option.bind_some]
        exact ⟨_, rfl, Or.inr (Or.inl ⟨rfl, [], r, rs, rfl, hns, h1, by simpa [used] using h2⟩)⟩

/-- **C73.** A new object with safe interpolation in one variable is fed with values of `n/d` over several prime fields; in each field coefficients may vanish. Then there is no undefined behaviour. Either there are too few probes in the first prime field, or the object reports a result,
waits for a further prime field or needs more probes in a field, as described by `Outcome`. -/
theorem C73_run {inv : ℤ → ℤ → ℤ} (hinv : InvertSpec inv) {ord : Order} (hord : ord.OK) (hnorm : d.trailingCoeff = 1) (r : PrimeRun) (rs : List PrimeRun) (h1 : FieldOK n d r) (h2 : RunsOK n d [r.p] rs) (h300 : rs.length + 1 < 300) :
    (run inv ord (Cross.initial r.p) (r :: rs) = some .running ∧ ¬ Enough n d r) ∨
    ∃ out, run inv ord (Cross.initial r.p) (r :: rs) = some out ∧ Outcome n d [r.p] rs out := by
  rcases C73_first inv ord hnorm h1 with ⟨e1, e2⟩ | ⟨c', e1, hc', hnum⟩
  · left
    refine ⟨?_, e2⟩
    unfold run
    rw [e1]; rfl
  · right
    obtain ⟨out, e', ho⟩ := run_spec hinv hord hnorm rs [r.p] c' hc' h2 (by rw [hnum]; omega)
    refine ⟨out, ?_, ho⟩
    unfold run
    rw [e1]
    simp only [Option.bind_eq_bind, Option.bind_some]
    exact e'

/-! ## how many fields are needed -/

lemma known_of_length {b : ℕ} (hb : ∀ f ∈ [n, d], ∀ e, |(f.coeff e).num| < 2 ^ b ∧ ((f.coeff e).den : ℤ) < 2 ^ b) {ps : List ℕ} (hp : ∀ p ∈ ps, p.Prime) (hnd : ps.Nodup) (h : 3 * b + 2 ≤ ps.length) : Known n d ps := by
  left
  have key : ∀ f : ℚ[X], f ∈ [n, d] → ∀ m ∈ (mv f).support, Settled (MvPolynomial.coeff m (mv f)) ps := by
    intro f hf m hm
    rw [MvPolynomial.mem_support_iff] at hm
    have e : MvPolynomial.coeff m (mv f) = f.coeff (m 0) := by
      rw [coeff_mv] at hm ⊢
      by_cases hx : m = Finsupp.single 0 (m 0)
      · rw [if_pos hx]
      · rw [if_neg hx] at hm; exact absurd rfl hm
    rw [e] at hm ⊢
    exact settled_of_length hm (hb f hf _).1 (hb f hf _).2 hp hnd h
  intro f hf m hm
  simp only [List.mem_cons, List.not_mem_nil, or_false] at hf
  rcases hf with rfl | rfl
  · exact key n (by simp) m hm
  · exact key d (by simp) m hm

lemma runs_primes : ∀ (rs : List PrimeRun) (ps : List ℕ), RunsOK n d ps rs → (∀ p ∈ ps, p.Prime) → ps.Nodup → (∀ p ∈ ps ++ used rs, p.Prime) ∧ (ps ++ used rs).Nodup
  | [], ps, _, h1, h2 => by simpa [used] using ⟨h1, h2⟩
  | r :: rs, ps, h, h1, h2 => by
    rcases h with ⟨hsk, h⟩ | ⟨hf, h3, -, -, h⟩
    · rw [(used_cons r rs).1 hsk]; exact runs_primes rs ps h h1 h2
    · have := runs_primes rs (ps ++ [r.p]) h (by
        intro p hp
        rw [List.mem_append, List.mem_singleton] at hp
        rcases hp with hp | rfl
        · exact h1 p hp
        · exact r.fact.out) (List.nodup_append.mpr ⟨h2, by simp, by
          intro a ha b hb
          rw [List.mem_singleton] at hb
          rw [hb]
          rintro rfl
          exact h3 ha⟩)
      rw [(used_cons r rs).2 (notSkipped hf)]
      simpa using this

/-- **C73 (the end).** If numerators and denominators of all coefficients have at most `b` bits, and there are enough probes in every field, a result is reported after at most `3b + 3` prime fields, not counting those which are skipped - whichever coefficients vanish in which fields. -/
theorem C73_ends {inv : ℤ → ℤ → ℤ} (hinv : InvertSpec inv) {ord : Order} (hord : ord.OK) (hnorm : d.trailingCoeff = 1) (r : PrimeRun) (rs : List PrimeRun) (h1 : FieldOK n d r) (h2 : RunsOK n d [r.p] rs) (h300 : rs.length + 1 < 300)
    (henough : ∀ q ∈ r :: rs, Skipped q ∨ Enough n d q) {b : ℕ} (hb : ∀ f ∈ [n, d], ∀ e, |(f.coeff e).num| < 2 ^ b ∧ ((f.coeff e).den : ℤ) < 2 ^ b) (hlen : 3 * b + 3 ≤ (used (r :: rs)).length) :
    ∃ N D, run inv ord (Cross.initial r.p) (r :: rs) = some (.finished N D) ∧ Outcome n d [r.p] rs (.finished N D) := by
  have hns := notSkipped h1
  rw [(used_cons r rs).2 hns, List.length_cons] at hlen
  rcases C73_run hinv hord hnorm r rs h1 h2 h300 with ⟨-, hne⟩ | ⟨out, e, ho⟩
  · rcases henough r (by simp) with hs | hs
    · exact absurd hs hns
    · exact absurd hs hne
  · rcases ho with ⟨c', rfl, -, hall⟩ | ⟨rfl, rs1, q, rs2, hq, hsk, hne, -⟩ | ⟨N, D, rfl, ho⟩
    · exfalso
      classical
      have hlen' : (3 * b + 1) + 1 ≤ (rs.filter (fun x => decide (¬ Skipped x))).length := by
        unfold used at hlen
        rw [List.length_map] at hlen
        have : (rs.filter (fun x => decide (¬ Skipped x))).length = (rs.filter (fun r => @decide (¬ Skipped r) (Classical.propDecidable _))).length := by
          congr 2; funext x; congr
        omega
      obtain ⟨rs1, q, rs2, hq, hP, hk⟩ := split_last (fun x => decide (¬ Skipped x)) (3 * b + 1) rs hlen'
      have hsk : ¬ Skipped q := by simpa using hP
      refine hall rs1 q rs2 hq hsk ?_
      obtain ⟨hp, hnd⟩ := runs_primes rs [r.p] h2 (by intro p hp; rw [List.mem_singleton] at hp; rw [hp]; exact r.fact.out) (by simp)
      have hu : used rs = used rs1 ++ used (q :: rs2) := by rw [hq]; unfold used; rw [List.filter_append, List.map_append]
      rw [hu, ← List.append_assoc] at hp hnd
      refine known_of_length hb (fun p h => hp p (List.mem_append_left _ h)) (List.nodup_append.mp hnd).1 ?_
      have : (used rs1).length = (rs1.filter (fun x => decide (¬ Skipped x))).length := by
        unfold used
        rw [List.length_map]
      rw [List.length_append, this]
      simp only [List.length_singleton]
      omega
    · exfalso
      rcases henough q (by rw [hq]; simp) with hs | hs
      · exact hsk hs
      · exact hne hs
    · exact ⟨N, D, e, Or.inr (Or.inr ⟨N, D, rfl, ho⟩)⟩

lemma right_run {inv : ℤ → ℤ → ℤ} (hinv : InvertSpec inv) {ord : Order} (hord : ord.OK) (hnorm : d.trailingCoeff = 1) {ps : List ℕ} (hk : Known n d ps) :
    ∀ (rs : List PrimeRun) (c : Cross), Stored n d ps c → RunsOK n d ps rs → c.primeNumber + rs.length < 300 → ∀ N D, run inv ord c rs = some (.finished N D) → FireFly.rnPoly N = n ∧ FireFly.rnPoly D = d
  | [], c, _, _, _, N, D, e => by simp [run] at e
  | r :: rs, c, h, hr, h300, N, D, e => by
    rw [List.length_cons] at h300
    rcases hr with ⟨hsk, hrest⟩ | ⟨hf, a1, a2, a3, -⟩
    · obtain ⟨c', e1, hc', hnum⟩ := C73_skip inv ord h hsk (by omega)
      unfold run at e
      rw [e1] at e
      exact right_run hinv hord hnorm hk rs c' hc' hrest (by omega) N D e
    · obtain ⟨out, e1, -, hex⟩ := C73_prime hinv hord hnorm h hf (by omega) a1 a2 a3
      obtain ⟨N', D', rfl, x1, x2⟩ := hex hk
      unfold run at e
      rw [e1] at e
      simp only [Option.bind_eq_bind, Option.bind_some, Option.some.injEq, RunOut.finished.injEq] at e
      obtain ⟨rfl, rfl⟩ := e
      exact ⟨x1, x2⟩

/-- **C73 (no wrong result).** If no coefficient vanishes in the first prime field and all are small for its prime, whatever is reported later is `n/d`. -/
theorem C73_right {inv : ℤ → ℤ → ℤ} (hinv : InvertSpec inv) {ord : Order} (hord : ord.OK) (hnorm : d.trailingCoeff = 1) (r : PrimeRun) (rs : List PrimeRun) (h1 : FieldOK n d r) (h2 : RunsOK n d [r.p] rs) (h300 : rs.length + 1 < 300)
    (hst : ∀ f ∈ [n, d], ∀ e, f.coeff e ≠ 0 → ¬ (r.p : ℤ) ∣ (f.coeff e).num ∧ Small (f.coeff e) r.p) {N D : RnMap} (e : run inv ord (Cross.initial r.p) (r :: rs) = some (.finished N D)) :
    FireFly.rnPoly N = n ∧ FireFly.rnPoly D = d := by
  have two : (2 : ℤ) < r.p := by
    have hd1 : d.coeff d.natTrailingDegree = 1 := hnorm
    have := (hst d (by simp) d.natTrailingDegree (by rw [hd1]; exact one_ne_zero)).2.1
    rw [hd1] at this
    simpa using this
  have key : ∀ f : ℚ[X], f ∈ [n, d] → ∀ m, MvPolynomial.coeff m (mv f) ≠ 0 → ¬ (r.p : ℤ) ∣ (MvPolynomial.coeff m (mv f)).num ∧ Small (MvPolynomial.coeff m (mv f)) r.p := by
    intro f hf m hm
    have ee : MvPolynomial.coeff m (mv f) = f.coeff (m 0) := by
      rw [coeff_mv] at hm ⊢
      by_cases hx : m = Finsupp.single 0 (m 0)
      · rw [if_pos hx]
      · rw [if_neg hx] at hm; exact absurd rfl hm
    rw [ee] at hm ⊢
    exact hst f hf _ hm
  have hz : Small (0 : ℚ) (r.p : ℤ) := ⟨by simpa using (by linarith : (0 : ℤ) < r.p), by simpa using two⟩
  have hk : Known n d [r.p] := by
    right
    refine ⟨?_, ?_⟩
    · intro f hf m hm p hp
      rw [List.mem_singleton] at hp
      rw [MvPolynomial.mem_support_iff] at hm
      rw [hp]
      simp only [List.mem_cons, List.not_mem_nil, or_false] at hf
      rcases hf with rfl | rfl
      · exact (key n (by simp) m hm).1
      · exact (key d (by simp) m hm).1
    · intro m
      rw [List.map_singleton, List.prod_singleton]
      constructor
      · by_cases hm : MvPolynomial.coeff m (mv n) = 0
        · rw [hm]; exact hz
        · exact (key n (by simp) m hm).2
      · by_cases hm : MvPolynomial.coeff m (mv d) = 0
        · rw [hm]; exact hz
        · exact (key d (by simp) m hm).2
  rcases C73_first inv ord hnorm h1 with ⟨e1, e2⟩ | ⟨c', e1, hc', hnum⟩
  · unfold run at e
    rw [e1] at e
    simp at e
  · unfold run at e
    rw [e1] at e
    exact right_run hinv hord hnorm hk rs c' hc' h2 (by rw [hnum]; omega) N D e

/-! ## a defect: the lowest coefficient of the denominator vanishes in a prime field -/

lemma key_set {V : Type} {m : FFMap V} {k x : List ℕ} {v : V} (h : x ∈ m.map Prod.fst) : x ∈ (m.set k v).map Prod.fst := by
  unfold FFMap.set
  split_ifs
  · rw [List.map_map]
    obtain ⟨t, ht, rfl⟩ := List.mem_map.mp h
    refine List.mem_map.mpr ⟨t, ht, ?_⟩
    simp only [Function.comp]
    split_ifs with he
    · exact he.symm
    · rfl
  · rw [List.map_append]; exact List.mem_append_left _ h

lemma key_set_self {V : Type} (m : FFMap V) (k : List ℕ) (v : V) : k ∈ (m.set k v).map Prod.fst := by
  unfold FFMap.set
  split_ifs with h
  · rw [List.map_map]
    have : k ∈ m.map Prod.fst := by
      by_contra hc
      rw [find?_eq_none.mpr hc] at h
      simp at h
    obtain ⟨t, ht, hk⟩ := List.mem_map.mp this
    exact List.mem_map.mpr ⟨t, ht, by simp [hk]⟩
  · simp

lemma key_erase {V : Type} {m : FFMap V} {k x : List ℕ} (h : x ∈ m.map Prod.fst) (hx : x ≠ k) : x ∈ (m.erase k).map Prod.fst := by
  obtain ⟨t, ht, rfl⟩ := List.mem_map.mp h
  exact List.mem_map_of_mem (List.mem_filter.mpr ⟨ht, by simpa using hx⟩)

lemma key_crt {inv : ℤ → ℤ → ℤ} {p : ℕ} {res : FFMap (ZMod p)} {x : List ℕ} : ∀ (l : MpzMap) (st : Side × ℤ), x ∈ st.1.comb.map Prod.fst → x ∈ ((l.foldl (crtStep inv res) st).1).comb.map Prod.fst
  | [], st, h => h
  | t :: l, st, h => by
    rw [List.foldl_cons]
    apply key_crt l
    unfold crtStep
    split
    · exact h
    · split_ifs
      · exact h
      · exact key_set h
      · exact key_set h

lemma key_grow {p : ℕ} {s : Side} {x : List ℕ} (res : FFMap (ZMod p)) (h : x ∈ s.comb.map Prod.fst) : x ∈ (grow s res).map Prod.fst := by
  unfold grow
  have : ∀ (l : FFMap (ZMod p)) (m : MpzMap), x ∈ m.map Prod.fst → x ∈ (l.foldl (fun (m : MpzMap) t => if (m.find? t.1).isNone ∧ (s.g.find? t.1).isNone then m ++ [(t.1, 0)] else m) m).map Prod.fst := by
    intro l
    induction l with
    | nil => intro m hm; exact hm
    | cons t l ih =>
      intro m hm
      rw [List.foldl_cons]
      apply ih
      split_ifs
      · rw [List.map_append]; exact List.mem_append_left _ hm
      · exact hm
  exact this res _ h

lemma key_promote {p : ℕ} {res : FFMap (ZMod p)} {back : MpzMap} {x : List ℕ} (hx : res.find? x = none) : ∀ (l : MpzMap) (st st' : Side), x ∈ st.comb.map Prod.fst → l.foldlM (promoteStep res back) st = some st' → x ∈ st'.comb.map Prod.fst
  | [], st, st', h, e => by
    obtain rfl : st = st' := by simpa using e
    exact h
  | t :: l, st, st', h, e => by
    rw [List.foldlM_cons] at e
    obtain ⟨st1, e1, e2⟩ := Option.bind_eq_some_iff.mp e
    refine key_promote hx l st1 st' ?_ e2
    unfold promoteStep at e1
    split_ifs at e1 with hc
    · obtain ⟨o, -, rfl⟩ := Option.map_eq_some_iff.mp e1
      cases o with
      | none => exact h
      | some rn =>
        refine key_erase h ?_
        rintro rfl
        rw [hx] at hc
        simp at hc
    · obtain rfl := Option.some.inj e1
      exact h

lemma key_next {inv : ℤ → ℤ → ℤ} {ord : Order} {p : ℕ} {c c' : Cross} {num den : FFMap (ZMod p)} {x : List ℕ} (hx : num.find? x = none) (h : x ∈ c.num.comb.map Prod.fst) (e : combineNext inv ord c num den = some c') : x ∈ c'.num.comb.map Prod.fst := by
  unfold combineNext at e
  simp only [Option.bind_eq_bind] at e
  obtain ⟨a, e1, e2⟩ := Option.bind_eq_some_iff.mp e
  obtain ⟨b, e3, e4⟩ := Option.bind_eq_some_iff.mp e2
  obtain rfl := Option.some.inj e4
  unfold promoteSide at e1
  refine key_promote hx _ _ _ ?_ e1
  unfold crtSide
  exact key_crt _ _ (key_grow num h)

lemma key_rec {M : ℤ} {x : List ℕ} : ∀ (comb : MpzMap) (g g' : RnMap), recSide M comb g = some (g', true) → (x ∈ comb.map Prod.fst ∨ x ∈ g.map Prod.fst) → x ∈ g'.map Prod.fst
  | [], g, g', e, h => by
    unfold recSide at e
    obtain ⟨rfl, -⟩ := Prod.mk.inj (Option.some.inj e)
    simpa using h
  | t :: ts, g, g', e, h => by
    unfold recSide at e
    simp only [Option.bind_eq_bind] at e
    obtain ⟨o, e1, e2⟩ := Option.bind_eq_some_iff.mp e
    cases o with
    | none => simp at e2
    | some rn =>
      refine key_rec ts _ g' e2 ?_
      rw [List.map_cons, List.mem_cons] at h
      rcases h with (h | h) | h
      · right; rw [h]; exact key_set_self _ _ _
      · exact Or.inl h
      · exact Or.inr (key_set h)

lemma key_guess {c : Cross} {x : List ℕ} (h : x ∈ c.num.comb.map Prod.fst) {g : RnMap × RnMap} (e : c.recRatCoef = some (some g)) : x ∈ g.1.map Prod.fst := by
  unfold Cross.recRatCoef RatCoefs.recRatCoef at e
  simp only [Option.bind_eq_bind] at e
  obtain ⟨a, e1, e2⟩ := Option.bind_eq_some_iff.mp e
  split_ifs at e2 with ha
  · obtain ⟨b, e3, e4⟩ := Option.bind_eq_some_iff.mp e2
    have e4 := Option.some.inj e4
    split_ifs at e4
    obtain rfl := Option.some.inj e4
    exact key_rec (M := c.combPrime) c.num.comb c.num.g a.1 (by rw [e1, ← ha]) (Or.inl h)
  · simp at e2

/-- One more prime field does not remove the monomial. -/
lemma key_prime {n d : ℚ[X]} {inv : ℤ → ℤ → ℤ} {ord : Order} (hnorm : d.trailingCoeff = 1) {c : Cross} (hc : c.norm.isSome) {k : ℕ} (hk : n.coeff k = 0) (h : [k] ∈ c.num.comb.map Prod.fst) (hz : 3 ≤ c.primeNumber ∨ c.zeroCounter < c.primeNumber) {r : PrimeRun}
    (hr : Skipped r ∨ FieldOK n d r) {out : Out} (e : prime inv ord c r = some out) :
    (∀ N D, out = .finished N D → [k] ∈ N.map Prod.fst) ∧ ∀ c', out = .nextPrime c' → [k] ∈ c'.num.comb.map Prod.fst ∧ c'.norm.isSome ∧ (3 ≤ c'.primeNumber ∨ c'.zeroCounter < c'.primeNumber) := by
  haveI := r.fact
  rcases hr with ⟨q, rest, h1, h2⟩ | hr
  · unfold prime feedZero at e
    rw [h1] at e
    simp only [if_pos h2] at e
    split_ifs at e with a1 a2
    · omega
    · obtain rfl := Option.some.inj e
      refine ⟨by simp, ?_⟩
      intro c' hc'
      obtain rfl := Out.nextPrime.inj hc'
      exact ⟨h, hc, by simp only; omega⟩
    · obtain rfl := Option.some.inj e
      refine ⟨by simp, ?_⟩
      intro c' hc'
      obtain rfl := Out.nextPrime.inj hc'
      exact ⟨h, hc, by simp only; omega⟩
  · obtain ⟨q0, rest, hq0, hq0v⟩ := probes_cons hr
    have hint : ∀ out, interpolate inv ord c r = some out → (∀ N D, out = .finished N D → [k] ∈ N.map Prod.fst) ∧ ∀ c', out = .nextPrime c' → [k] ∈ c'.num.comb.map Prod.fst ∧ c'.norm.isSome ∧ (3 ≤ c'.primeNumber ∨ c'.zeroCounter < c'.primeNumber) := by
      intro out e
      rcases field_interp hnorm hr inv ord c with ⟨e1, -⟩ | ⟨num, den, r1, r2, -, e1⟩
      · rw [e1] at e
        obtain rfl := Option.some.inj e
        exact ⟨by simp, by simp⟩
      · rw [e1] at e
        obtain ⟨q, hq⟩ := Option.isSome_iff_exists.mp hc
        rw [hq] at e
        simp only at e
        obtain ⟨c1, e2, e3⟩ := Option.bind_eq_some_iff.mp e
        have hnone : num.find? [k] = none := by
          rcases hf : num.find? [k] with _ | v
          · rfl
          · have := ((RRun.mem_monos (inVars n)).mp (r1.some _ _ hf).1).2
            rw [coeff_mv_single] at this
            exact absurd hk this
        have hkey := key_next hnone h e2
        have hrest : c1.norm = c.norm ∧ c1.primeNumber = c.primeNumber ∧ c1.zeroCounter = c.zeroCounter := by
          unfold combineNext at e2
          simp only [Option.bind_eq_bind] at e2
          obtain ⟨a, -, e2⟩ := Option.bind_eq_some_iff.mp e2
          obtain ⟨b, -, e2⟩ := Option.bind_eq_some_iff.mp e2
          obtain rfl := Option.some.inj e2
          exact ⟨rfl, rfl, rfl⟩
        unfold endPrime at e3
        split_ifs at e3
        obtain rfl := Option.some.inj e3
        refine ⟨by simp, ?_⟩
        intro c' hc'
        obtain rfl := Out.nextPrime.inj hc'
        refine ⟨hkey, by rw [hrest.1]; exact hc, ?_⟩
        simp only [hrest.2.1, hrest.2.2]
        omega
    unfold prime at e
    rw [hq0] at e
    simp only [if_neg hq0v, hc, if_true, Option.bind_eq_bind] at e
    obtain ⟨o, e1, e2⟩ := Option.bind_eq_some_iff.mp e
    cases o with
    | none => exact hint out e2
    | some g =>
      obtain ⟨b, e3, e4⟩ := Option.bind_eq_some_iff.mp e2
      cases b with
      | false => exact hint out (by simpa using e4)
      | true =>
        simp only [if_true] at e4
        obtain rfl := Option.some.inj e4
        refine ⟨?_, by simp⟩
        intro N D hf
        obtain ⟨rfl, rfl⟩ := Out.finished.inj hf
        exact key_guess h e1

lemma key_run {n d : ℚ[X]} {inv : ℤ → ℤ → ℤ} {ord : Order} (hnorm : d.trailingCoeff = 1) {k : ℕ} (hk : n.coeff k = 0) : ∀ (rs : List PrimeRun) (c : Cross), c.norm.isSome → [k] ∈ c.num.comb.map Prod.fst → (3 ≤ c.primeNumber ∨ c.zeroCounter < c.primeNumber) →
    (∀ r ∈ rs, Skipped r ∨ FieldOK n d r) → ∀ N D, run inv ord c rs = some (.finished N D) → [k] ∈ N.map Prod.fst
  | [], c, _, _, _, _, N, D, e => by simp [run] at e
  | r :: rs, c, hc, h, hz, hr, N, D, e => by
    unfold run at e
    simp only [Option.bind_eq_bind] at e
    obtain ⟨out, e1, e2⟩ := Option.bind_eq_some_iff.mp e
    obtain ⟨h1, h2⟩ := key_prime hnorm hc hk h hz (hr r (by simp)) e1
    cases out with
    | running => simp at e2
    | finished N' D' =>
      simp only [Option.some.injEq, RunOut.finished.injEq] at e2
      obtain ⟨rfl, rfl⟩ := e2
      exact h1 _ _ rfl
    | nextPrime c' =>
      obtain ⟨a1, a2, a3⟩ := h2 c' rfl
      exact key_run hnorm hk rs c' a2 a1 a3 (fun q hq => hr q (by simp [hq])) N D e2

end FireFly.RRun.Safe.Uni
