import Verif.Lemmas.RatSafeBound
/-!
# C62: rational functions in several variables over the rational numbers with safe interpolation
-/
set_option linter.all false
namespace FireFly.RRun.Safe
open MvPolynomial FFMap
variable {k : ℕ} {n d : MvPolynomial ℕ ℚ}

lemma probes_cons {r : RRun.Prime} (hne : r.probes ≠ []) (hns : ¬ r.Skipped) : ∃ q0 rest, r.probes = q0 :: rest ∧ q0.2.1 ≠ 0 := by
  rcases hl : r.probes with _ | ⟨q0, rest⟩
  · exact absurd hl hne
  · exact ⟨q0, rest, rfl, fun h0 => hns ⟨q0, rest, hl, h0⟩⟩

/-- The coefficient of the normalized monomial. -/
lemma norm_coef {f : MvPolynomial ℕ ℚ} {p : ℕ} [Fact p.Prime] {σ : ZMod p} {m : FFMap (ZMod p)} (hw : WFMap k m) {e : List ℕ} (he : e.length = k) (hden : denote m = C σ * red p f) :
    (m.find? e).getD 0 = σ * ((coeff e.toFinsupp f : ℚ) : ZMod p) := by
  rw [RRun.coeff_find hw he, hden, coeff_C_mul, RRun.red_coeff]

/-- The primes whose fields are used. -/
lemma integral_iff {r : RRun.Prime} {l : ℚ} {u : ZMod r.p} {mN mD : ℕ} (h : FieldOK k n d r l u mN mD) {b : Bool} {e : List ℕ} (h1 : coeff e.toFinsupp (if b then d else n) = 1) :
    ¬ (r.p : ℤ) ∣ l.den ∧ (Integral n d r.p ↔ ¬ (r.p : ℤ) ∣ l.num) := by
  haveI := r.fact
  have hld : ¬ (r.p : ℤ) ∣ l.den := by
    cases b with
    | true =>
      have := h.denD e.toFinsupp
      rw [coeff_C_mul] at this
      simp only [if_true] at h1
      rwa [h1, mul_one] at this
    | false =>
      have := h.denN e.toFinsupp
      rw [coeff_C_mul] at this
      simp only [Bool.false_eq_true, if_false] at h1
      rwa [h1, mul_one] at this
  refine ⟨hld, ?_, ?_⟩
  · intro hi hdv
    have hz : (l : ZMod r.p) = 0 := (cast_zero_iff hld).mpr hdv
    apply h.prob.okN.lead
    rw [red_scale hld (fun m => (hi m).1), hz]
    unfold RMulti.part
    simp
  · intro hdv m
    have hfl : ∀ f : MvPolynomial ℕ ℚ, f = C l⁻¹ * (C l * f) := fun f => by rw [← mul_assoc, ← C_mul, inv_mul_cancel₀ h.l0, C_1, one_mul]
    constructor
    · rw [hfl n]; exact den_scale (inv_den h.l0 hdv) h.denN m
    · rw [hfl d]; exact den_scale (inv_den h.l0 hdv) h.denD m

/-- **C62 (the first prime field).** A new object with safe interpolation is fed with values of `n/d`, in any order; coefficients of `n/d` may vanish in this prime field. It needs more probes, and then there have not been enough, or it requests a new prime field. Then `n/d` is
normalized with a factor `l` such that one coefficient is one, the object has the residues of all coefficients that do not vanish, and no others. -/
theorem C62_first {inv : ℤ → ℤ → ℤ} {ord : Order} (hn : InVars k n) (hd : InVars k d) {r : RRun.Prime} {l0 : ℚ} {u : ZMod r.p} {mN mD : ℕ} (h : FieldOK k n d r l0 u mN mD) :
    (prime inv ord (Cross.initial r.p) r = some .running ∧ ¬ EnoughFirst (C l0 * n) (C l0 * d) r u mN mD) ∨
    ∃ (l : ℚ) (b : Bool) (e : List ℕ) (c' : Cross), l ≠ 0 ∧ prime inv ord (Cross.initial r.p) r = some (.nextPrime c') ∧ OK k (C l * n) (C l * d) b e [r.p] c' ∧ c'.primeNumber = 1 ∧ Integral (C l * n) (C l * d) r.p := by
  haveI := r.fact
  obtain ⟨q0, rest, hq0, hq0v⟩ := probes_cons h.nonempty h.notSkipped
  have hprime : prime inv ord (Cross.initial r.p) r = interpolate inv ord (Cross.initial r.p) r := by
    unfold prime
    rw [hq0]
    simp only [if_neg hq0v, Cross.initial]
    rfl
  rw [hprime]
  obtain ⟨s, e1, e2, e3⟩ := field_interp h
  cases hres : s.result with
  | none =>
    left
    refine ⟨?_, e2 hres⟩
    unfold interpolate
    simp only [e1, Option.bind_eq_bind, Option.bind_some, hres]
  | some res =>
  right
  obtain ⟨σ, hi⟩ := e3 res hres
  have hint : interpolate inv ord (Cross.initial r.p) r = some (.nextPrime { num := firstSide (!res.normDen) res.normDeg res.num [], den := firstSide res.normDen res.normDeg res.den [], combPrime := r.p, norm := some (res.normDen, res.normDeg), primeNumber := 1, zeroCounter := 0 }) := by
    unfold interpolate
    simp only [e1, Option.bind_eq_bind, Option.bind_some, hres]
    unfold combine Cross.initial
    simp only [Option.bind_some]
    rfl
  -- the normalization
  have main : ∀ (f : MvPolynomial ℕ ℚ) (m : FFMap (ZMod r.p)), WFMap k m → denote m = C σ * red r.p (C l0 * f) → (∀ x, ¬ (r.p : ℤ) ∣ (coeff x (C l0 * f)).den) → m.find? res.normDeg = some 1 →
      res.normDeg.length = k ∧ ∃ l : ℚ, l ≠ 0 ∧ ¬ (r.p : ℤ) ∣ l.den ∧ (l : ZMod r.p) = σ ∧ coeff res.normDeg.toFinsupp (C (l * l0) * f) = 1 := by
    intro f m hw hden hdd h1
    have hlen : res.normDeg.length = k := hw.2 _ (find?_mem h1)
    have hc1 := norm_coef hw hlen hden
    rw [h1] at hc1
    have hc1 : (1 : ZMod r.p) = σ * ((coeff res.normDeg.toFinsupp (C l0 * f) : ℚ) : ZMod r.p) := hc1
    obtain ⟨x, hx⟩ : ∃ x, x = coeff res.normDeg.toFinsupp (C l0 * f) := ⟨_, rfl⟩
    rw [← hx] at hc1
    have hxc : (x : ZMod r.p) ≠ 0 := by intro h0; rw [h0, mul_zero] at hc1; exact one_ne_zero hc1
    have hx0 : x ≠ 0 := by rintro rfl; simp at hxc
    have hxd : ¬ (r.p : ℤ) ∣ x.den := by rw [hx]; exact hdd _
    have hinvden := inv_den hx0 (fun hdv => hxc ((cast_zero_iff hxd).mpr hdv))
    refine ⟨hlen, x⁻¹, inv_ne_zero hx0, hinvden, ?_, ?_⟩
    · have := (RRun.cast_scale hinvden hxd).1
      rw [inv_mul_cancel₀ hx0, Rat.cast_one] at this
      exact mul_right_cancel₀ hxc (this.symm.trans hc1)
    · rw [C_mul, mul_assoc, coeff_C_mul, ← hx, inv_mul_cancel₀ hx0]
  have side : ∀ (f : MvPolynomial ℕ ℚ) (m : FFMap (ZMod r.p)) (l : ℚ), InVars k f → WFMap k m → (∀ t ∈ m, t.2 ≠ 0) → denote m = C σ * red r.p (C l0 * f) → (∀ x, ¬ (r.p : ℤ) ∣ (coeff x (C l0 * f)).den) → l ≠ 0 → ¬ (r.p : ℤ) ∣ l.den → (l : ZMod r.p) = σ →
      ResOK k (C (l * l0) * f) r.p m := by
    intro f m l hf hw hnz hden hdd hl0 hld hlσ
    refine resOK (vars_scale (mul_ne_zero hl0 h.l0) hf) hw hnz ?_ ?_
    · rw [hden, C_mul, mul_assoc, red_scale hld hdd, hlσ]
    · rw [C_mul, mul_assoc]; exact den_scale hld hdd
  have integral : ∀ l : ℚ, ¬ (r.p : ℤ) ∣ l.den → Integral (C (l * l0) * n) (C (l * l0) * d) r.p := by
    intro l hl m
    rw [C_mul, mul_assoc, mul_assoc]
    exact ⟨den_scale hl h.denN m, den_scale hl h.denD m⟩
  have hprimes : ∀ p ∈ [r.p], p.Prime := by intro p hp; rw [List.mem_singleton] at hp; rw [hp]; exact r.fact.out
  have hone := hi.one
  cases hb : res.normDen with
  | true =>
    rw [hb] at hone hint
    obtain ⟨hlen, l, l1, l2, l3, l4⟩ := main d res.den hi.wfDen hi.den h.denD hone
    have sN := (side_first_inv (side n res.num l hn hi.wfNum hi.nzNum hi.num h.denN l1 l2 l3)).1
    obtain ⟨sD, -⟩ := (side_first_inv (side d res.den l hd hi.wfDen hi.nzDen hi.den h.denD l1 l2 l3)).2 res.normDeg (by rw [show res.den.find? res.normDeg = some 1 from hone]; rfl) l4
    refine ⟨l * l0, true, res.normDeg, _, mul_ne_zero l1 h.l0, hint, ⟨?_, sD, rfl, hlen, l4, hprimes, by simp, by simp, by simp, fun _ => Or.inr (by simp), by simp⟩, rfl, integral l l2⟩
    simp only [Bool.not_true]
    rw [firstSide_false]; exact sN
  | false =>
    rw [hb] at hone hint
    obtain ⟨hlen, l, l1, l2, l3, l4⟩ := main n res.num hi.wfNum hi.num h.denN hone
    have sD := (side_first_inv (side d res.den l hd hi.wfDen hi.nzDen hi.den h.denD l1 l2 l3)).1
    obtain ⟨sN, -⟩ := (side_first_inv (side n res.num l hn hi.wfNum hi.nzNum hi.num h.denN l1 l2 l3)).2 res.normDeg (by rw [show res.num.find? res.normDeg = some 1 from hone]; rfl) l4
    refine ⟨l * l0, false, res.normDeg, _, mul_ne_zero l1 h.l0, hint, ⟨sN, ?_, rfl, hlen, l4, hprimes, by simp, by simp, by simp, fun _ => Or.inr (by simp), by simp⟩, rfl, integral l l2⟩
    simp only
    rw [firstSide_false]; exact sD

open Classical in
/-- **C62 (a further prime field).** Let `n/d`, normalized, be known as described by `OK` from the prime fields `ps`. The probes of another prime field, in any order, in which coefficients may vanish, lead without undefined behaviour to
* a reported result: it has only monomials of `n/d`, the coefficients that are determined are right, and the value at the probe of the test is right; or
* a request for a new prime field: if `p` divides a denominator of a coefficient of the normalized `n/d`, the field is left out and nothing changes; otherwise the residues are combined, with the modulus that belongs to each coefficient; or
* the wish for more probes, but only if there have not been enough (C44).
If all coefficients are determined by `ps`, a reported result is `n/d`, and the result is reported if there is a probe for the test and the field is not left out. -/
theorem C62_prime {inv : ℤ → ℤ → ℤ} (hinv : InvertSpec inv) {ord : Order} (hord : ord.OK) (hn : InVars k n) (hd : InVars k d) {b : Bool} {e : List ℕ} {ps : List ℕ} {c : Cross} (h : OK k n d b e ps c)
    {r : RRun.Prime} {l : ℚ} {u : ZMod r.p} {mN mD : ℕ} (hr : FieldOK k n d r l u mN mD) (h300 : c.primeNumber + 1 < 300) (hnew : Integral n d r.p → r.p ∉ ps ∧ Clear n ps r.p ∧ Clear d ps r.p) :
    ∃ out, prime inv ord c r = some out ∧
      ((∃ N D, out = .finished N D ∧ Tested k n d ps r N D) ∨
       (∃ c', out = .nextPrime c' ∧ OK k n d b e (if Integral n d r.p then ps ++ [r.p] else ps) c' ∧ c'.primeNumber = c.primeNumber + 1 ∧ ((probe1 k r).isSome → Integral n d r.p → ¬ Determined n d ps)) ∨
       (out = .running ∧ ¬ EnoughFirst (C l * n) (C l * d) r u mN mD ∧ ((probe1 k r).isSome → Integral n d r.p → ¬ Determined n d ps))) ∧
      (Determined n d ps → ∀ N D, out = .finished N D → rnPoly N = n ∧ rnPoly D = d) := by
  haveI := r.fact
  obtain ⟨q0, rest, hq0, hq0v⟩ := probes_cons hr.nonempty hr.notSkipped
  obtain ⟨hld, hint⟩ := integral_iff hr h.one
  have hk2 : 2 ≤ k := by rw [← hr.nvars]; exact hr.prob.two
  -- the interpolation
  have hinterp : ∃ out, interpolate inv ord c r = some out ∧ (∀ N D, out ≠ .finished N D) ∧ ((∃ c', out = .nextPrime c' ∧ OK k n d b e (if Integral n d r.p then ps ++ [r.p] else ps) c' ∧ c'.primeNumber = c.primeNumber + 1) ∨
      (out = .running ∧ ¬ EnoughFirst (C l * n) (C l * d) r u mN mD)) := by
    obtain ⟨s, e1, e2, e3⟩ := field_interp hr
    cases hres : s.result with
    | none =>
      refine ⟨.running, ?_, by simp, Or.inr ⟨rfl, e2 hres⟩⟩
      unfold interpolate
      simp only [e1, Option.bind_eq_bind, Option.bind_some, hres]
    | some res =>
      obtain ⟨σ, hi⟩ := e3 res hres
      have hend : ∀ c', combine inv ord c res = some c' → c'.primeNumber = c.primeNumber → interpolate inv ord c r = some (.nextPrime { c' with primeNumber := c'.primeNumber + 1 }) := by
        intro c' hc' hpn
        unfold interpolate
        simp only [e1, Option.bind_eq_bind, Option.bind_some, hres]
        rw [hc']
        simp only [Option.bind_some]
        unfold endPrime
        rw [if_neg (by omega)]
      obtain ⟨t, ht⟩ : ∃ t, ((if b then res.den else res.num).find? e).getD 0 = t := ⟨_, rfl⟩
      have htv : t = σ * (l : ZMod r.p) := by
        rw [← ht]
        have h1 := h.one
        cases b with
        | true =>
          simp only [if_true] at h1 ⊢
          rw [norm_coef hi.wfDen h.len hi.den, coeff_C_mul, h1, mul_one]
        | false =>
          simp only [Bool.false_eq_true, if_false] at h1 ⊢
          rw [norm_coef hi.wfNum h.len hi.num, coeff_C_mul, h1, mul_one]
      have hcomb : combine inv ord c res = if 1 / t = 0 then some c else combineNext inv ord c (PolyFF.scale res.num (1 / t)) (PolyFF.scale res.den (1 / t)) := by
        unfold combine
        rw [h.norm]
        simp only
        rw [ht]
      by_cases hI : Integral n d r.p
      · have hnd := hint.mp hI
        have hlz : (l : ZMod r.p) ≠ 0 := fun h0 => hnd ((cast_zero_iff hld).mp h0)
        have ht0 : 1 / t ≠ 0 := by rw [htv]; exact one_div_ne_zero (mul_ne_zero hi.ne hlz)
        obtain ⟨n1, n2, n3⟩ := hnew hI
        rw [if_neg ht0] at hcomb
        have rN := interp_res hn hi.wfNum hi.nzNum hi.num hr.l0 hr.denN hld hnd hi.ne
        have rD := interp_res hd hi.wfDen hi.nzDen hi.den hr.l0 hr.denD hld hnd hi.ne
        rw [← htv] at rN rD
        obtain ⟨c', e4, e5, e6, e7⟩ := h.next hinv hord hn hd n1 rN rD n2 n3
        refine ⟨_, hend c' (hcomb.trans e4) e6, by simp, Or.inl ⟨_, rfl, ?_, by simp only; omega⟩⟩
        rw [if_pos hI]
        exact ⟨e5.num, e5.den, e5.norm, e5.len, e5.one, e5.primes, e5.distinct, e5.ne, e5.modulus, e5.steady, lt_trans e5.zeros (by simp)⟩
      · have hnd : (r.p : ℤ) ∣ l.num := by by_contra hc; exact hI (hint.mpr hc)
        have ht0 : 1 / t = 0 := by rw [htv, (cast_zero_iff hld).mpr hnd, mul_zero, div_zero]
        rw [if_pos ht0] at hcomb
        refine ⟨_, hend c hcomb rfl, by simp, Or.inl ⟨_, rfl, ?_, rfl⟩⟩
        rw [if_neg hI]
        exact ⟨h.num, h.den, h.norm, h.len, h.one, h.primes, h.distinct, h.ne, h.modulus, h.steady, lt_trans h.zeros (by simp)⟩
  have hprime0 : ∀ o, c.recRatCoef = some o → prime inv ord c r = (match o with
      | some g => (guessTest r g).bind (fun t => if t then some (.finished g.1 g.2) else interpolate inv ord c r)
      | none => interpolate inv ord c r) := by
    intro o g1
    unfold prime
    rw [hq0]
    simp only [if_neg hq0v, h.norm, Option.isSome_some, if_true]
    rw [g1]
    simp only [Option.bind_eq_bind, Option.bind_some]
    cases o <;> rfl
  obtain ⟨o, g1, g2, g3⟩ := h.guess hn hd
  have hprime := hprime0 o g1
  obtain ⟨out, i1, i2, i3⟩ := hinterp
  have hfail : ((probe1 k r).isSome → Integral n d r.p → ¬ Determined n d ps) → ((∃ N D, out = .finished N D ∧ Tested k n d ps r N D) ∨
       (∃ c', out = .nextPrime c' ∧ OK k n d b e (if Integral n d r.p then ps ++ [r.p] else ps) c' ∧ c'.primeNumber = c.primeNumber + 1 ∧ ((probe1 k r).isSome → Integral n d r.p → ¬ Determined n d ps)) ∨
       (out = .running ∧ ¬ EnoughFirst (C l * n) (C l * d) r u mN mD ∧ ((probe1 k r).isSome → Integral n d r.p → ¬ Determined n d ps))) := by
    intro hx
    rcases i3 with ⟨c', rfl, x1, x2⟩ | ⟨rfl, x1⟩
    · exact Or.inr (Or.inl ⟨c', rfl, x1, x2, hx⟩)
    · exact Or.inr (Or.inr ⟨rfl, x1, hx⟩)
  cases o with
  | none =>
    refine ⟨out, hprime.trans i1, hfail ?_, fun _ N D hf => absurd hf (i2 N D)⟩
    intro _ _ hD
    obtain ⟨g, hg, -⟩ := g3 hD
    cases hg
  | some g =>
    obtain ⟨p1, p2, p3⟩ := g2 g rfl
    have wf : ∀ {f : MvPolynomial ℕ ℚ} {m : RnMap}, InVars k f → Partly k f ps m → WFMap k m := fun hf hm => ⟨hm.nodup, fun t ht => RRun.monos_len hf (hm.mem t.1 (List.mem_map_of_mem ht))⟩
    have hgt := guessTest_spec hr.nvars hk2 (wf hn p1) (wf hd p2) p1.valid p2.valid
    simp only [hgt, Option.bind_some] at hprime
    cases hq : probe1 k r with
    | none =>
      rw [hq] at hprime
      simp only [Bool.false_eq_true, if_false] at hprime
      exact ⟨out, hprime.trans i1, by rw [hq] at hfail; exact hfail (by simp), fun _ N D hf => absurd hf (i2 N D)⟩
    | some q =>
      rw [hq] at hprime
      simp only [decide_eq_true_eq] at hprime
      by_cases ht : RMulti.valueOf r.cfg.shift r.cfg.anchor (red r.p (rnPoly g.1)) (red r.p (rnPoly g.2)) q.1 q.2.2 = q.2.1
      · rw [if_pos ht] at hprime
        refine ⟨_, hprime, Or.inl ⟨_, _, rfl, p1, p2, ⟨q, hq, ht⟩, p3⟩, ?_⟩
        intro hD N D hf
        obtain ⟨rfl, rfl⟩ := Out.finished.inj hf
        obtain ⟨g', hg', x1, x2⟩ := g3 hD
        obtain rfl := Option.some.inj hg'
        exact ⟨x1, x2⟩
      · rw [if_neg ht] at hprime
        refine ⟨out, hprime.trans i1, ?_, fun _ N D hf => absurd hf (i2 N D)⟩
        rw [hq] at hfail
        apply hfail
        intro _ hI hD
        apply ht
        obtain ⟨g', hg', x1, x2⟩ := g3 hD
        obtain rfl := Option.some.inj hg'
        rw [x1, x2, hr.values q (List.mem_of_find?_eq_some hq)]
        have hlz : (l : ZMod r.p) ≠ 0 := fun h0 => hint.mp hI ((cast_zero_iff hld).mp h0)
        unfold RMulti.valueOf
        rw [red_scale hld (fun m => (hI m).1), red_scale hld (fun m => (hI m).2), eval_mul, eval_mul, eval_C, mul_div_mul_left _ _ hlz]

/-- **C62 (skipped prime field).** If the first probe of a further prime field is zero, the field is skipped; nothing is lost. -/
theorem C62_skip (inv : ℤ → ℤ → ℤ) (ord : Order) {b : Bool} {e : List ℕ} {ps : List ℕ} {c : Cross} (h : OK k n d b e ps c) {r : RRun.Prime} (hs : r.Skipped) (h300 : c.primeNumber + 1 < 300) :
    ∃ c', prime inv ord c r = some (.nextPrime c') ∧ OK k n d b e ps c' ∧ c'.primeNumber = c.primeNumber + 1 := by
  obtain ⟨q, rest, h1, h2⟩ := hs
  have hz := h.zeros
  refine ⟨{ c with zeroCounter := c.zeroCounter + 1, primeNumber := c.primeNumber + 1 }, ?_, ?_, rfl⟩
  · unfold prime feedZero
    rw [h1]
    simp only [if_pos h2]
    rw [if_neg (by omega), if_neg (by omega), if_neg (by omega)]
  · exact ⟨h.num, h.den, h.norm, h.len, h.one, h.primes, h.distinct, h.ne, h.modulus, h.steady, by simp only; omega⟩

lemma used_cons (r : RRun.Prime) (rs : List RRun.Prime) : (r.Skipped → used n d (r :: rs) = used n d rs) ∧ (¬ r.Skipped → ¬ Integral n d r.p → used n d (r :: rs) = used n d rs) ∧
    (¬ r.Skipped → Integral n d r.p → used n d (r :: rs) = r.p :: used n d rs) := by
  unfold used
  refine ⟨fun h => ?_, fun h1 h2 => ?_, fun h1 h2 => ?_⟩
  · rw [List.filter_cons, if_neg (by simp [h])]
  · rw [List.filter_cons, if_neg (by simp [h2])]
  · rw [List.filter_cons, if_pos (by simp [h1, h2])]; rfl

lemma safe_run_spec {inv : ℤ → ℤ → ℤ} (hinv : InvertSpec inv) {ord : Order} (hord : ord.OK) (hn : InVars k n) (hd : InVars k d) {b : Bool} {e : List ℕ} :
    ∀ (rs : List RRun.Prime) (ps : List ℕ) (c : Cross), OK k n d b e ps c → RunsOK k n d ps rs → c.primeNumber + rs.length < 300 → ∃ out, run inv ord c rs = some out ∧ Outcome k n d b e ps rs out
  | [], ps, c, h, _, _ => ⟨_, rfl, Or.inl ⟨c, rfl, by simpa [used] using h, by simp⟩⟩
  | r :: rs, ps, c, h, hr, h300 => by
    rw [List.length_cons] at h300
    have cont : ∀ (c' : Cross) (ps' : List ℕ), OK k n d b e ps' c' → c'.primeNumber = c.primeNumber + 1 → RunsOK k n d ps' rs → prime inv ord c r = some (.nextPrime c') →
        (∀ l, ps' ++ used n d l = ps ++ used n d (r :: l)) → (¬ r.Skipped → Integral n d r.p → (probe1 k r).isSome → ¬ Determined n d ps) → ∃ out, run inv ord c (r :: rs) = some out ∧ Outcome k n d b e ps (r :: rs) out := by
      intro c' ps' hc' hnum hrest e1 hprod hbig
      unfold run
      rw [e1]
      simp only [Option.bind_eq_bind, Option.bind_some]
      obtain ⟨out, e', ho⟩ := safe_run_spec hinv hord hn hd rs ps' c' hc' hrest (by omega)
      refine ⟨out, e', ?_⟩
      rcases ho with ⟨c'', rfl, hc'', hsm⟩ | ⟨rfl, rs1, q, rs2, hq, hsk, h1, h2⟩ | ⟨N, D, rfl, ho⟩
      · refine Or.inl ⟨c'', rfl, by rw [← hprod]; exact hc'', ?_⟩
        intro rs1 q rs2 hq hsk hI hp
        rcases rs1 with _ | ⟨q', rs1⟩
        · rw [List.nil_append] at hq
          obtain ⟨rfl, -⟩ := List.cons.inj hq
          simpa [used] using hbig hsk hI hp
        · rw [List.cons_append] at hq
          obtain ⟨hr1, hq⟩ := List.cons.inj hq
          rw [← hr1, ← hprod]
          exact hsm rs1 q rs2 hq hsk hI hp
      · refine Or.inr (Or.inl ⟨rfl, r :: rs1, q, rs2, by rw [hq]; rfl, hsk, h1, ?_⟩)
        rw [← hprod]; exact h2
      · refine Or.inr (Or.inr ⟨N, D, rfl, ho.imp_right ?_⟩)
        rintro ⟨rs1, q, rs2, hq, hsk, h1, h2⟩
        refine ⟨r :: rs1, q, rs2, by rw [hq]; rfl, hsk, ?_, ?_⟩
        · rw [← hprod]; exact h1
        · rw [← hprod]; exact h2
    rcases hr with ⟨hsk, hrest⟩ | ⟨⟨l, u, mN, mD, hf⟩, hr⟩
    · obtain ⟨c', e1, hc', hnum⟩ := C62_skip inv ord h hsk (by omega)
      exact cont c' ps hc' hnum hrest e1 (fun l => by rw [(used_cons r l).1 hsk]) (fun hn => absurd hsk hn)
    · have hns := hf.notSkipped
      obtain ⟨out, e1, hout, hex⟩ := C62_prime hinv hord hn hd h hf (by omega) (by
        intro hI
        rcases hr with ⟨hI', -⟩ | ⟨-, a1, a2, a3, -⟩
        · exact absurd hI hI'
        · exact ⟨a1, a2, a3⟩)
      rcases hout with ⟨N, D, rfl, hcert⟩ | ⟨c', rfl, hc', hnum, hbig⟩ | ⟨rfl, h1, h2⟩
      · unfold run
        rw [e1]
        simp only [Option.bind_eq_bind, Option.bind_some]
        refine ⟨_, rfl, Or.inr (Or.inr ⟨N, D, rfl, ?_⟩)⟩
        by_cases hs : Determined n d ps
        · exact Or.inl (hex hs N D rfl)
        · exact Or.inr ⟨[], r, rs, rfl, hns, by simpa [used] using hcert, by simpa [used] using hs⟩
      · rcases hr with ⟨hI, hrest⟩ | ⟨hI, -, -, -, hrest⟩
        · rw [if_neg hI] at hc'
          exact cont c' ps hc' hnum hrest e1 (fun l => by rw [(used_cons r l).2.1 hns hI]) (fun _ hI' _ => absurd hI' hI)
        · rw [if_pos hI] at hc'
          exact cont c' _ hc' hnum hrest e1 (fun l => by rw [(used_cons r l).2.2 hns hI]; simp) (fun _ _ hp => hbig hp hI)
      · unfold run
        rw [e1]
        simp only [Option.bind_eq_bind, Option.bind_some]
        exact ⟨_, rfl, Or.inr (Or.inl ⟨rfl, [], r, rs, rfl, hns, ⟨l, u, mN, mD, hf, h1⟩, by simpa [used] using h2⟩)⟩

/-- **C62.** A new object with safe interpolation is fed with values of `n/d` over several prime fields, in any order; in each field coefficients may vanish. Then there is no undefined behaviour. Either there are too few probes in the first prime field, or `n/d` is normalized with a
factor `l`, and the object reports a result, waits for a further prime field or needs more probes in a field, as described by `Outcome`. -/
theorem C62_run {inv : ℤ → ℤ → ℤ} (hinv : InvertSpec inv) {ord : Order} (hord : ord.OK) (hn : InVars k n) (hd : InVars k d) (r : RRun.Prime) (rs : List RRun.Prime) {l0 : ℚ} {u : ZMod r.p} {mN mD : ℕ}
    (h1 : FieldOK k n d r l0 u mN mD) (h2 : ∀ (l : ℚ) (b : Bool) (e : List ℕ), l ≠ 0 → NormalizedTo k (C l * n) (C l * d) b e → Integral (C l * n) (C l * d) r.p → RunsOK k (C l * n) (C l * d) [r.p] rs) (h300 : rs.length + 1 < 300) :
    (run inv ord (Cross.initial r.p) (r :: rs) = some .running ∧ ¬ EnoughFirst (C l0 * n) (C l0 * d) r u mN mD) ∨
    ∃ (l : ℚ) (b : Bool) (e : List ℕ), l ≠ 0 ∧ NormalizedTo k (C l * n) (C l * d) b e ∧ ∃ out, run inv ord (Cross.initial r.p) (r :: rs) = some out ∧ Outcome k (C l * n) (C l * d) b e [r.p] rs out := by
  rcases C62_first (inv := inv) (ord := ord) hn hd h1 with ⟨e1, e2⟩ | ⟨l, b, e, c', l0, e1, hc', hnum, hI⟩
  · left
    refine ⟨?_, e2⟩
    unfold run
    rw [e1]; rfl
  · right
    refine ⟨l, b, e, l0, ⟨hc'.len, hc'.one⟩, ?_⟩
    obtain ⟨out, e', ho⟩ := safe_run_spec hinv hord (vars_scale l0 hn) (vars_scale l0 hd) rs [r.p] c' hc' (h2 l b e l0 ⟨hc'.len, hc'.one⟩ hI) (by rw [hnum]; omega)
    refine ⟨out, ?_, ho⟩
    unfold run
    rw [e1]
    simp only [Option.bind_eq_bind, Option.bind_some]
    exact e'

lemma runs_primes : ∀ (rs : List RRun.Prime) (ps : List ℕ), RunsOK k n d ps rs → (∀ p ∈ ps, p.Prime) → ps.Nodup → (∀ p ∈ ps ++ used n d rs, p.Prime) ∧ (ps ++ used n d rs).Nodup
  | [], ps, _, h1, h2 => by simpa [used] using ⟨h1, h2⟩
  | r :: rs, ps, h, h1, h2 => by
    rcases h with ⟨hsk, h⟩ | ⟨⟨l, u, mN, mD, hf⟩, ⟨hI, h⟩ | ⟨hI, h3, -, -, h⟩⟩
    · rw [(used_cons r rs).1 hsk]; exact runs_primes rs ps h h1 h2
    · rw [(used_cons r rs).2.1 hf.notSkipped hI]; exact runs_primes rs ps h h1 h2
    · have := runs_primes rs (ps ++ [r.p]) h (by
        intro p hp
        rw [List.mem_append, List.mem_singleton] at hp
        rcases hp with hp | rfl
        · exact h1 p hp
        · exact r.fact.out) (List.nodup_append.mpr ⟨h2, by simp, by
          intro a ha b hb
          rw [List.mem_singleton] at hb
          rw [hb]
          rintro rfl
          exact h3 ha⟩)
      rw [(used_cons r rs).2.2 hf.notSkipped hI]
      simpa using this

/-- **C62 (the end).** If numerators and denominators of all coefficients of the normalized function have at most `B` bits, and every further field that is not skipped has a probe for the test, the object does not wait for another prime field after `3B + 3` fields that are used - whichever coefficients
vanish in which fields: a result has been reported, or there are too few probes in a field. -/
theorem C62_ends {inv : ℤ → ℤ → ℤ} (hinv : InvertSpec inv) {ord : Order} (hord : ord.OK) (hn : InVars k n) (hd : InVars k d) (r : RRun.Prime) (rs : List RRun.Prime) {l0 : ℚ} {u : ZMod r.p} {mN mD : ℕ}
    (h1 : FieldOK k n d r l0 u mN mD) {B : ℕ}
    (h2 : ∀ (l : ℚ) (b : Bool) (e : List ℕ), l ≠ 0 → NormalizedTo k (C l * n) (C l * d) b e → Integral (C l * n) (C l * d) r.p →
      RunsOK k (C l * n) (C l * d) [r.p] rs ∧ Bits B (C l * n) ∧ Bits B (C l * d) ∧ 3 * B + 3 ≤ (r.p :: used (C l * n) (C l * d) rs).length)
    (hp : ∀ q ∈ rs, ¬ q.Skipped → (probe1 k q).isSome) (h300 : rs.length + 1 < 300) :
    (run inv ord (Cross.initial r.p) (r :: rs) = some .running ∧ ¬ EnoughFirst (C l0 * n) (C l0 * d) r u mN mD) ∨
    ∃ (l : ℚ) (b : Bool) (e : List ℕ), l ≠ 0 ∧ NormalizedTo k (C l * n) (C l * d) b e ∧ ∃ out, run inv ord (Cross.initial r.p) (r :: rs) = some out ∧ Outcome k (C l * n) (C l * d) b e [r.p] rs out ∧ ∀ c, out ≠ .waiting c := by
  rcases C62_first (inv := inv) (ord := ord) hn hd h1 with ⟨e1, e2⟩ | ⟨l, b, e, c', l0, e1, hc', hnum, hI⟩
  · left
    refine ⟨?_, e2⟩
    unfold run
    rw [e1]; rfl
  · right
    obtain ⟨hruns, hbN, hbD, hlen⟩ := h2 l b e l0 ⟨hc'.len, hc'.one⟩ hI
    refine ⟨l, b, e, l0, ⟨hc'.len, hc'.one⟩, ?_⟩
    obtain ⟨out, e', ho⟩ := safe_run_spec hinv hord (vars_scale l0 hn) (vars_scale l0 hd) rs [r.p] c' hc' hruns (by rw [hnum]; omega)
    refine ⟨out, ?_, ho, ?_⟩
    · unfold run
      rw [e1]
      simp only [Option.bind_eq_bind, Option.bind_some]
      exact e'
    · rintro c rfl
      rcases ho with ⟨c'', -, -, hall⟩ | ⟨hx, -⟩ | ⟨N, D, hx, -⟩
      · classical
        rw [List.length_cons] at hlen
        have hcount : ∀ xs : List RRun.Prime, (used (C l * n) (C l * d) xs).length = (xs.filter (fun x => decide (¬ x.Skipped ∧ Integral (C l * n) (C l * d) x.p))).length := by
          intro xs
          unfold used
          rw [List.length_map]
        obtain ⟨rs1, q, rs2, hq, hP, hk⟩ := split_last (fun x : RRun.Prime => decide (¬ x.Skipped ∧ Integral (C l * n) (C l * d) x.p)) (3 * B + 1) rs (by rw [← hcount]; omega)
        have hP' : ¬ q.Skipped ∧ Integral (C l * n) (C l * d) q.p := by simpa using hP
        refine hall rs1 q rs2 hq hP'.1 hP'.2 (hp q (by rw [hq]; simp) hP'.1) ?_
        obtain ⟨hpr, hnd⟩ := runs_primes rs [r.p] hruns (by intro p hp; rw [List.mem_singleton] at hp; rw [hp]; exact r.fact.out) (by simp)
        have hu : used (C l * n) (C l * d) rs = used (C l * n) (C l * d) rs1 ++ used (C l * n) (C l * d) (q :: rs2) := by rw [hq]; unfold used; rw [List.filter_append, List.map_append]
        rw [hu, ← List.append_assoc] at hpr hnd
        left
        have hl : 3 * B + 2 ≤ ([r.p] ++ used (C l * n) (C l * d) rs1).length := by
          rw [List.length_append, hcount]
          simp only [List.length_singleton]
          omega
        intro f hf m hm
        have hbits : Bits B f := by
          simp only [List.mem_cons, List.not_mem_nil, or_false] at hf
          rcases hf with rfl | rfl <;> assumption
        exact settled_of_length (mem_support_iff.mp hm) (hbits m).1 (hbits m).2 (fun p h => hpr p (List.mem_append_left _ h)) (List.nodup_append.mp hnd).1 hl
      · cases hx
      · cases hx

lemma right_run {inv : ℤ → ℤ → ℤ} (hinv : InvertSpec inv) {ord : Order} (hord : ord.OK) (hn : InVars k n) (hd : InVars k d) {b : Bool} {e : List ℕ} {ps : List ℕ} (hk : Determined n d ps) :
    ∀ (rs : List RRun.Prime) (c : Cross), OK k n d b e ps c → RunsOK k n d ps rs → (∀ q ∈ rs, ¬ q.Skipped → (probe1 k q).isSome) → c.primeNumber + rs.length < 300 → ∀ N D, run inv ord c rs = some (.finished N D) → rnPoly N = n ∧ rnPoly D = d
  | [], c, _, _, _, _, N, D, e => by simp [run] at e
  | r :: rs, c, h, hr, hp, h300, N, D, e' => by
    rw [List.length_cons] at h300
    have hp' : ∀ q ∈ rs, ¬ q.Skipped → (probe1 k q).isSome := fun q hq => hp q (by simp [hq])
    rcases hr with ⟨hsk, hrest⟩ | ⟨⟨l, u, mN, mD, hf⟩, hr⟩
    · obtain ⟨c', e1, hc', hnum⟩ := C62_skip inv ord h hsk (by omega)
      unfold run at e'
      rw [e1] at e'
      exact right_run hinv hord hn hd hk rs c' hc' hrest hp' (by omega) N D e'
    · obtain ⟨out, e1, hout, hex⟩ := C62_prime hinv hord hn hd h hf (by omega) (by
        intro hI
        rcases hr with ⟨hI', -⟩ | ⟨-, a1, a2, a3, -⟩
        · exact absurd hI hI'
        · exact ⟨a1, a2, a3⟩)
      unfold run at e'
      rw [e1] at e'
      rcases hout with ⟨N', D', rfl, -⟩ | ⟨c', rfl, hc', hnum, hbig⟩ | ⟨rfl, -, -⟩
      · simp only [Option.bind_eq_bind, Option.bind_some, Option.some.injEq, RunOut.finished.injEq] at e'
        obtain ⟨rfl, rfl⟩ := e'
        exact hex hk _ _ rfl
      · rcases hr with ⟨hI, hrest⟩ | ⟨hI, -⟩
        · rw [if_neg hI] at hc'
          exact right_run hinv hord hn hd hk rs c' hc' hrest hp' (by omega) N D e'
        · exact absurd hk (hbig (hp r (by simp) hf.notSkipped) hI)
      · simp at e'

/-- **C62 (no wrong result).** If no coefficient of the normalized function vanishes in the first prime field and all are small for its prime, and every further field that is not skipped has a probe for the test, whatever is reported later is the normalized function. -/
theorem C62_right {inv : ℤ → ℤ → ℤ} (hinv : InvertSpec inv) {ord : Order} (hord : ord.OK) (hn : InVars k n) (hd : InVars k d) (r : RRun.Prime) (rs : List RRun.Prime) {l0 : ℚ} {u : ZMod r.p} {mN mD : ℕ}
    (h1 : FieldOK k n d r l0 u mN mD)
    (h2 : ∀ (l : ℚ) (b : Bool) (e : List ℕ), l ≠ 0 → NormalizedTo k (C l * n) (C l * d) b e → Integral (C l * n) (C l * d) r.p →
      RunsOK k (C l * n) (C l * d) [r.p] rs ∧ Steady (C l * n) (C l * d) [r.p] ∧ AllSmall (C l * n) (C l * d) r.p)
    (hp : ∀ q ∈ rs, ¬ q.Skipped → (probe1 k q).isSome) (h300 : rs.length + 1 < 300) {N D : RnMap} (e : run inv ord (Cross.initial r.p) (r :: rs) = some (.finished N D)) :
    ∃ l : ℚ, l ≠ 0 ∧ rnPoly N = C l * n ∧ rnPoly D = C l * d := by
  rcases C62_first (inv := inv) (ord := ord) hn hd h1 with ⟨e1, e2⟩ | ⟨l, b, e0, c', l0, e1, hc', hnum, hI⟩
  · unfold run at e
    rw [e1] at e
    simp at e
  · obtain ⟨hruns, hst, hsm⟩ := h2 l b e0 l0 ⟨hc'.len, hc'.one⟩ hI
    unfold run at e
    rw [e1] at e
    exact ⟨l, l0, right_run hinv hord (vars_scale l0 hn) (vars_scale l0 hd) (Or.inr ⟨hst, by simpa using hsm⟩) rs c' hc' hruns hp (by rw [hnum]; omega) N D e⟩

end FireFly.RRun.Safe
