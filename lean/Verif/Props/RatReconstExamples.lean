import Verif.Props.RatReconstProps
set_option linter.all false
set_option maxRecDepth 20000
/-! # C36, third part: concrete runs, and the limits of the guarantee -/
namespace FireFly
open Polynomial FFMap

instance fact101 : Fact (Nat.Prime 101) := ⟨by norm_num⟩
instance fact103 : Fact (Nat.Prime 103) := ⟨by norm_num⟩
instance fact107 : Fact (Nat.Prime 107) := ⟨by norm_num⟩

/-- probes of `3/5 x` modulo 101, 103, 107 -/
def exRun0 : PrimeRun := ⟨101, fact101, [(1, 41), (2, 82), (3, 22)], 103⟩
def exRun1 : PrimeRun := ⟨103, fact103, [(4, 23), (5, 3)], 107⟩
def exRun2 : PrimeRun := ⟨107, fact107, [(6, 25)], 109⟩

/-- the comparison of the pivot search -/
def exGt (p : ℕ) (a b : ZMod p) : Bool := decide (a.val > b.val)

/-- The result of a run, for evaluation. -/
def showRun : Option RunOut → Option (Option (RnMap × RnMap))
  | some (.finished N D) => some (some (N, D))
  | some _ => some none
  | none => none

lemma showRun_eq {o : Option RunOut} {N D : RnMap} (h : showRun o = some (some (N, D))) : o = some (.finished N D) := by
  rcases o with _ | (⟨⟩ | ⟨⟩ | ⟨⟩) <;> simp [showRun] at h ⊢
  exact h

deriving instance DecidableEq for RationalNumber
deriving instance DecidableEq for RatCoefs
deriving instance DecidableEq for UniCross

/-- the run of `3/5 x` -/
example : showRun (uniRun mpzInvert exGt id (UniCross.initial 101) [exRun0, exRun1, exRun2]) =
    some (some ([([1], ⟨3, 5⟩)], [([0], ⟨1, 1⟩)])) := by decide +kernel

lemma exGt_spec (p : ℕ) [Fact p.Prime] : PivotOrder (exGt p) := by
  have hp := (Fact.out : p.Prime)
  haveI : NeZero p := ⟨hp.ne_zero⟩
  constructor
  · rintro x y h rfl
    simp [exGt] at h
  · intro x hx
    have : x.val ≠ 0 := fun h => hx ((ZMod.val_eq_zero x).mp h)
    simp only [exGt, ZMod.val_zero, decide_eq_true_eq]
    omega

lemma redPoly_monomial (p : ℕ) [Fact p.Prime] (e : ℕ) (c : ℚ) : redPoly p (monomial e c) = monomial e (c : ZMod p) := by
  ext k
  rw [redPoly_coeff, coeff_monomial, coeff_monomial]
  split_ifs <;> simp

lemma redPoly_one (p : ℕ) [Fact p.Prime] : redPoly p 1 = 1 := by
  have : (1 : ℚ[X]) = monomial 0 1 := rfl
  rw [this, redPoly_monomial, Rat.cast_one]; rfl

/-- `n/1` with `n` a monomial: what the assumptions mean -/
lemma probesOK_monomial {p : ℕ} [Fact p.Prime] {e : ℕ} {c : ℚ} {pts : List (ZMod p × ZMod p)} (hc : ¬ (p : ℤ) ∣ c.den)
    (h : ∀ pt ∈ pts, pt.2 = (c : ZMod p) * pt.1 ^ e) (h0 : (pts.headD (0, 0)).2 ≠ 0) : ProbesOK (monomial e c) 1 p pts := by
  have hp := (Fact.out : p.Prime)
  have h1 : ¬ (p : ℤ) ∣ 1 := by
    intro h; exact hp.one_lt.ne' (by exact_mod_cast Int.eq_one_of_dvd_one (by positivity) h)
  refine ⟨?_, ?_, ?_, h0⟩
  · intro k
    rw [coeff_monomial]
    split_ifs
    · exact hc
    · simpa using h1
  · intro k
    rw [coeff_one]
    split_ifs <;> simpa using h1
  · intro pt hpt
    rw [redPoly_one, redPoly_monomial]
    simp [h pt hpt]

lemma regular_monomial {p : ℕ} [Fact p.Prime] {e : ℕ} {c : ℚ} {pt : ZMod p × ZMod p} {pts : List (ZMod p × ZMod p)} (h : pt.1 ≠ 0) :
    Regular (monomial e c) 1 (pt :: pts) := by
  intro nn nd h1 h2 h3 h4
  have hnd : nd = [] := by
    rcases nd with _ | ⟨x, nd⟩
    · rfl
    · have := h4 x (by simp)
      rw [show (1 : ℚ[X]) = C 1 from rfl, natTrailingDegree_C] at this
      have h5 := this.1
      rw [mem_support_iff, coeff_C] at h5
      simp [this.2] at h5
  subst hnd
  have hnn : ∀ x ∈ nn, x = e := by
    intro x hx
    have := h3 x hx
    rw [mem_support_iff, coeff_monomial] at this
    by_contra hne
    exact this (if_neg (Ne.symm hne))
  rcases nn with _ | ⟨x, nn⟩
  · exact ⟨by simp, by simp [Matrix.det_isEmpty]⟩
  · rcases nn with _ | ⟨y, nn⟩
    · refine ⟨by simp, ?_⟩
      have e1 : (probeMatrix [x] [] (pt :: pts)).det = pt.1 ^ x := by
        show Matrix.det (n := Fin 1) _ = _
        rw [Matrix.det_fin_one]; simp [probeMatrix]
      rw [e1]
      exact pow_ne_zero _ h
    · have := hnn x (by simp)
      have := hnn y (by simp)
      simp_all


lemma firstOK_monomial {p : ℕ} [hp : Fact p.Prime] {e : ℕ} {c : ℚ} {pts : List (ZMod p × ZMod p)} {nextP : ℕ} (hc : ¬ (p : ℤ) ∣ c.den)
    (h : ∀ pt ∈ pts, pt.2 = (c : ZMod p) * pt.1 ^ e) (h0 : (pts.headD (0, 0)).2 ≠ 0) (hlen : pts.length < 2 ^ 32)
    (hc0 : (c : ZMod p) ≠ 0) (hnd : (pts.map Prod.fst).Nodup) (hz : ∀ pt ∈ pts, pt.1 ≠ 0)
    (s : Thiele (ZMod p)) (hs : ({} : Thiele (ZMod p)).runChecked (pts.map Prod.swap) = some (s, true)) (hd : 2 * e ≤ s.ti.length + 1) :
    FirstOK (monomial e c) 1 ⟨p, hp, pts, nextP⟩ := by
  refine ⟨probesOK_monomial hc h h0, hlen, ?_, ?_, ?_, ?_, hnd, hz, s, hs, ?_, ?_⟩
  · rw [redPoly_one]; exact isCoprime_one_right
  · rw [show (1 : ℚ[X]) = C 1 from rfl]; simp [trailingCoeff]
  · intro k hk
    rw [mem_support_iff, coeff_monomial] at hk
    split_ifs at hk with hek
    · rw [coeff_monomial, if_pos hek]; exact hc0
    · exact absurd rfl hk
  · intro k hk
    rw [mem_support_iff, coeff_one] at hk
    split_ifs at hk with hek
    · rw [coeff_one, if_pos hek, Rat.cast_one]; exact one_ne_zero
    · exact absurd rfl hk
  · simp
  · have := natDegree_monomial_le c (m := e)
    omega


/-- the components of an interpolator, for evaluation -/
def showThiele {p : ℕ} (o : Option (Thiele (ZMod p) × Bool)) : Option ((List (ZMod p) × List (ZMod p)) × Bool) :=
  o.map (fun t => ((t.1.ai, t.1.ti), t.2))

lemma showThiele_eq {p : ℕ} {o : Option (Thiele (ZMod p) × Bool)} {a t : List (ZMod p)} (h : showThiele o = some ((a, t), true)) :
    o = some (⟨a, t⟩, true) := by
  rcases o with _ | ⟨⟨a', t'⟩, b⟩ <;> simp [showThiele] at h ⊢
  exact ⟨h.1, h.2⟩

lemma cast_val {p : ℕ} [Fact p.Prime] {a : ℤ} {b : ℕ} {c : ℚ} (h1 : c.num = a) (h2 : c.den = b) : (c : ZMod p) = a / b := by
  rw [Rat.cast_def, h1, h2]

/-- The assumptions of `C36_three_primes` and `C36_run` are met by `3/5 x` and these probes. -/
example : FirstOK (monomial 1 (3 / 5)) 1 exRun0 ∧ (ProbesOK (monomial 1 (3 / 5)) 1 103 exRun1.pts ∧ Regular (p := 103) (monomial 1 (3 / 5)) 1 exRun1.pts) ∧
    (ProbesOK (monomial 1 (3 / 5)) 1 107 exRun2.pts ∧ Regular (p := 107) (monomial 1 (3 / 5)) 1 exRun2.pts) := by
  have hnum : (3 / 5 : ℚ).num = 3 := by norm_num
  have hden : (3 / 5 : ℚ).den = 5 := by norm_num
  have c1 : ((3 / 5 : ℚ) : ZMod 101) = 41 := by rw [cast_val hnum hden]; decide +kernel
  have c2 : ((3 / 5 : ℚ) : ZMod 103) = 83 := by rw [cast_val hnum hden]; decide +kernel
  have c3 : ((3 / 5 : ℚ) : ZMod 107) = 22 := by rw [cast_val hnum hden]; decide +kernel
  refine ⟨?_, ⟨?_, ?_⟩, ?_, ?_⟩
  · refine firstOK_monomial (p := 101) (by rw [hden]; decide) ?_ (by decide +kernel) (by simp) ?_ (by decide +kernel) (by decide +kernel) ⟨[41, 69], [1, 2, 3]⟩
      (showThiele_eq (by decide +kernel)) (by simp)
    · rw [c1]; decide +kernel
    · rw [c1]; decide +kernel
  · refine probesOK_monomial (p := 103) (by rw [hden]; decide) ?_ (by decide)
    rw [c2]; show ∀ pt ∈ [((4 : ZMod 103), (23 : ZMod 103)), (5, 3)], _; decide +kernel
  · exact regular_monomial (p := 103) (by decide)
  · refine probesOK_monomial (p := 107) (by rw [hden]; decide) ?_ (by decide)
    rw [c3]; show ∀ pt ∈ [((6 : ZMod 107), (25 : ZMod 107))], _; decide +kernel
  · exact regular_monomial (p := 107) (by decide)

/-! ## the limits -/

/-- probes of `20 + 33 x` -/
def badRun0 : PrimeRun := ⟨101, fact101, [(1, 53), (2, 86), (3, 18)], 103⟩
def badRun1 : PrimeRun := ⟨103, fact103, [(20, 62), (1, 53)], 107⟩

lemma lin_coeff (a b : ℚ) (e : ℕ) : (C a + C b * X : ℚ[X]).coeff e = if e = 0 then a else if e = 1 then b else 0 := by
  rcases e with _ | _ | e <;> simp [coeff_X]

lemma redPoly_lin (p : ℕ) [Fact p.Prime] (a b : ℚ) : redPoly p (C a + C b * X) = C (a : ZMod p) + C (b : ZMod p) * X := by
  ext k
  rw [redPoly_coeff, lin_coeff]
  rcases k with _ | _ | k <;> simp [coeff_X]

lemma probesOK_lin {p : ℕ} [Fact p.Prime] {a b : ℤ} {pts : List (ZMod p × ZMod p)}
    (h : ∀ pt ∈ pts, pt.2 = (a : ZMod p) + b * pt.1) (h0 : (pts.headD (0, 0)).2 ≠ 0) : ProbesOK (C (a : ℚ) + C (b : ℚ) * X) 1 p pts := by
  have hp := (Fact.out : p.Prime)
  have h1 : ¬ (p : ℤ) ∣ 1 := by
    intro h; exact hp.one_lt.ne' (by exact_mod_cast Int.eq_one_of_dvd_one (by positivity) h)
  refine ⟨?_, ?_, ?_, h0⟩
  · intro k
    rw [lin_coeff]
    split_ifs <;> simpa using h1
  · intro k
    rw [coeff_one]
    split_ifs <;> simpa using h1
  · intro pt hpt
    rw [redPoly_one, redPoly_lin]
    simp [h pt hpt]

lemma regular_lin {p : ℕ} [Fact p.Prime] {a b : ℚ} {p1 p2 : ZMod p × ZMod p} {pts : List (ZMod p × ZMod p)} (h0 : p1.1 ≠ 0) (hne : p1.1 ≠ p2.1) :
    Regular (C a + C b * X) 1 (p1 :: p2 :: pts) := by
  intro nn nd h1 h2 h3 h4
  have hnd : nd = [] := by
    rcases nd with _ | ⟨x, nd⟩
    · rfl
    · have := h4 x (by simp)
      rw [show (1 : ℚ[X]) = C 1 from rfl, natTrailingDegree_C] at this
      have h5 := this.1
      rw [mem_support_iff, coeff_C] at h5
      simp [this.2] at h5
  subst hnd
  have hnn : ∀ x ∈ nn, x = 0 ∨ x = 1 := by
    intro x hx
    have := h3 x hx
    rw [mem_support_iff, lin_coeff] at this
    by_contra hne
    push Not at hne
    rw [if_neg hne.1, if_neg hne.2] at this
    exact this rfl
  rcases nn with _ | ⟨x, _ | ⟨y, _ | ⟨z, nn⟩⟩⟩
  · exact ⟨by simp, by simp [Matrix.det_isEmpty]⟩
  · refine ⟨by simp, ?_⟩
    have e1 : (probeMatrix [x] [] (p1 :: p2 :: pts)).det = p1.1 ^ x := by
      show Matrix.det (n := Fin 1) _ = _
      rw [Matrix.det_fin_one]; simp [probeMatrix]
    rw [e1]
    exact pow_ne_zero _ h0
  · refine ⟨by simp, ?_⟩
    have e1 : (probeMatrix [x, y] [] (p1 :: p2 :: pts)).det = p1.1 ^ x * p2.1 ^ y - p1.1 ^ y * p2.1 ^ x := by
      show Matrix.det (n := Fin 2) _ = _
      rw [Matrix.det_fin_two]; simp [probeMatrix]
    rw [e1]
    rcases hnn x (by simp) with rfl | rfl <;> rcases hnn y (by simp) with rfl | rfl
    · simp at h1
    · simpa [sub_eq_zero] using hne.symm
    · simpa [sub_eq_zero] using hne
    · simp at h1
  · exfalso
    rcases hnn x (by simp) with rfl | rfl <;> rcases hnn y (by simp) with rfl | rfl <;> rcases hnn z (by simp) with rfl | rfl <;> simp at h1

lemma firstOK_lin {p : ℕ} [hp : Fact p.Prime] {a b : ℤ} {pts : List (ZMod p × ZMod p)} {nextP : ℕ}
    (h : ∀ pt ∈ pts, pt.2 = (a : ZMod p) + b * pt.1) (h0 : (pts.headD (0, 0)).2 ≠ 0) (hlen : pts.length < 2 ^ 32)
    (ha : (a : ZMod p) ≠ 0) (hb : (b : ZMod p) ≠ 0) (hnd : (pts.map Prod.fst).Nodup) (hz : ∀ pt ∈ pts, pt.1 ≠ 0)
    (s : Thiele (ZMod p)) (hs : ({} : Thiele (ZMod p)).runChecked (pts.map Prod.swap) = some (s, true)) (hd : 2 ≤ s.ti.length + 1) :
    FirstOK (C (a : ℚ) + C (b : ℚ) * X) 1 ⟨p, hp, pts, nextP⟩ := by
  refine ⟨probesOK_lin h h0, hlen, ?_, ?_, ?_, ?_, hnd, hz, s, hs, ?_, ?_⟩
  · rw [redPoly_one]; exact isCoprime_one_right
  · rw [show (1 : ℚ[X]) = C 1 from rfl]; simp [trailingCoeff]
  · intro k hk
    rw [mem_support_iff, lin_coeff] at hk
    rw [lin_coeff]
    split_ifs at hk ⊢
    · rw [Rat.cast_intCast]; exact ha
    · rw [Rat.cast_intCast]; exact hb
    · exact absurd rfl hk
  · intro k hk
    rw [mem_support_iff, coeff_one] at hk
    split_ifs at hk with hek
    · rw [coeff_one, if_pos hek, Rat.cast_one]; exact one_ne_zero
    · exact absurd rfl hk
  · simp
  · have : (C (a : ℚ) + C (b : ℚ) * X : ℚ[X]).natDegree ≤ 1 := by
      rw [natDegree_le_iff_coeff_eq_zero]
      intro e he
      rw [lin_coeff, if_neg (by omega), if_neg (by omega)]
    omega

/-- **C36 fails without the second alternative.** All assumptions on the prime fields hold for `20 + 33 x` and these probes modulo 101 and
103, and the result reported at the first probe of the second prime field is `-1/5 - 2/3 x`: one probe does not distinguish the two. -/
theorem C36_wrong_violated : ∃ (n d : ℚ[X]) (r0 r1 : PrimeRun) (N D : RnMap), FirstOK n d r0 ∧ RunsOK n d r0.p [r1] ∧
    uniRun mpzInvert exGt id (UniCross.initial r0.p) [r0, r1] = some (.finished N D) ∧ rnPoly N ≠ n * rnPoly D := by
  refine ⟨C ((20 : ℤ) : ℚ) + C ((33 : ℤ) : ℚ) * X, 1, badRun0, badRun1, [([0], ⟨-1, 5⟩), ([1], ⟨-2, 3⟩)], [([0], ⟨1, 1⟩)], ?_, ?_, ?_, ?_⟩
  · refine firstOK_lin (p := 101) ?_ (by decide +kernel) (by simp) (by decide +kernel) (by decide +kernel) (by decide +kernel) (by decide +kernel) ⟨[53, 49], [1, 2, 3]⟩
      (showThiele_eq (by decide +kernel)) (by simp)
    decide +kernel
  · refine Or.inr ⟨?_, ⟨?_, ?_⟩, by decide, ?_, trivial⟩
    · rintro ⟨pt, rest, h1, h2⟩
      have h3 := List.cons.inj (show ((20 : ZMod 103), (62 : ZMod 103)) :: [(1, 53)] = pt :: rest from h1)
      rw [← h3.1] at h2
      exact absurd (show (62 : ZMod 103) = 0 from h2) (by decide)
    · refine probesOK_lin (p := 103) ?_ (by decide)
      show ∀ pt ∈ [((20 : ZMod 103), (62 : ZMod 103)), (1, 53)], _
      decide +kernel
    · exact regular_lin (p := 103) (by decide) (by decide)
    · intro e
      refine ⟨C36_not_deceptive _ _ _ (by decide) ?_ ?_, C36_not_deceptive _ _ _ (by decide) ?_ ?_⟩
      · rw [lin_coeff]; split_ifs <;> simp [badRun1] 
      · rw [lin_coeff]; split_ifs <;> simp [badRun1]
      · rw [coeff_one]; split_ifs <;> simp [badRun1]
      · rw [coeff_one]; split_ifs <;> simp [badRun1]
  · exact showRun_eq (by decide +kernel)
  · intro h
    have := congrArg (fun f : ℚ[X] => f.coeff 0) h
    simp [rnPoly, RationalNumber.val] at this
    norm_num at this

/-- Without unsolved coefficients no further probe of the prime field leads to a result or to the next prime. -/
theorem C36_no_progress {p : ℕ} [Fact p.Prime] (inv : ℤ → ℤ → ℤ) (gt : ZMod p → ZMod p → Bool) (ord : List ℕ → List ℕ) : ∀ (pts : List (ZMod p × ZMod p))
    (s : UniState p), s.newPrime = false → s.cross.known = true → s.cross.numEqn = 0 → ∃ s', uniLoop inv gt ord s pts = some (.running s')
  | [], s, _, _, _ => ⟨s, rfl⟩
  | pt :: pts, s, h1, h2, h3 => by
    obtain ⟨s', hs'⟩ := C36_no_progress inv gt ord pts { s with coefMat := s.coefMat ++ [uniRow s.cross pt.1 pt.2], newPrime := false } rfl h2 h3
    refine ⟨s', ?_⟩
    have hne : ¬ 0 = (s.coefMat ++ [uniRow s.cross pt.1 pt.2]).length := by simp
    have e1 : uniProbe inv gt ord s pt.1 pt.2 = some (.running { s with coefMat := s.coefMat ++ [uniRow s.cross pt.1 pt.2], newPrime := false }) := by
      unfold uniProbe
      simp only [h1, h2, h3, if_neg hne, if_true, Option.bind_eq_bind, Option.bind_some, Bool.false_eq_true, if_false]
    unfold uniLoop
    rw [e1]
    simpa using hs'

/-- probes of the constant `50 + 101 * 103` -/
def stuckRun0 : PrimeRun := ⟨101, fact101, [(1, 50), (2, 50)], 103⟩
def stuckRun1 : PrimeRun := ⟨103, fact103, [(3, 50)], 107⟩

/-- the requested state, for evaluation -/
def showNext {p : ℕ} : Option (UniOut p) → Option UniCross
  | some (.nextPrime c) => some c
  | _ => none

lemma showNext_eq {p : ℕ} {o : Option (UniOut p)} {c : UniCross} (h : showNext o = some c) : o = some (.nextPrime c) := by
  rcases o with _ | (⟨⟩ | ⟨⟩ | ⟨⟩) <;> simp [showNext] at h ⊢
  exact h

/-- the state in the field modulo 107 -/
def stuckCross : UniCross :=
  { coefs := { gNi := [([0], ⟨50, 1⟩)], gDi := [([0], ⟨1, 1⟩)], combNi := [], combDi := [], combPrime := 10403 }, known := true, nonSolvedNum := [],
    nonSolvedDen := [], numEqn := 0, primeNumber := 2, zeroCounter := 0, checkInterpolation := true }

/-- **C36 fails for deceptive coefficients.** The constant `50 + 101 * 103` has the residue 50 modulo 101 and modulo 103 and is taken for 50.
In the next prime field the test fails; there is no coefficient left to be determined, and the object asks for probes for ever: however many
values are fed, it neither reports a result nor requests the next prime. -/
theorem C36_stuck_violated (rest : List (ZMod 107 × ZMod 107)) :
    ProbesOK (monomial 0 10453) 1 101 [(1, 50), (2, 50)] ∧ ProbesOK (monomial 0 10453) 1 103 [(3, 50)] ∧
    ProbesOK (monomial 0 10453) 1 107 [(4, 74)] ∧
    uniRun mpzInvert exGt id (UniCross.initial 101) [stuckRun0, stuckRun1, ⟨107, fact107, (4, 74) :: rest, 109⟩] = some .running := by
  have hnum : (10453 : ℚ).num = 10453 := by norm_num
  have hden : (10453 : ℚ).den = 1 := by norm_num
  refine ⟨?_, ?_, ?_, ?_⟩
  · refine probesOK_monomial (p := 101) (by rw [hden]; decide) ?_ (by decide)
    rw [cast_val hnum hden]; decide +kernel
  · refine probesOK_monomial (p := 103) (by rw [hden]; decide) ?_ (by decide)
    rw [cast_val hnum hden]; decide +kernel
  · refine probesOK_monomial (p := 107) (by rw [hden]; decide) ?_ (by decide)
    rw [cast_val hnum hden]; decide +kernel
  · have e0 : ∃ c, showNext (uniPrime mpzInvert (exGt 101) id 103 (UniCross.initial 101) [(1, 50), (2, 50)]) = some c ∧
        showNext (uniPrime mpzInvert (exGt 103) id 107 c [(3, 50)]) = some stuckCross :=
      ⟨{ coefs := { gNi := [], gDi := [([0], ⟨1, 1⟩)], combNi := [([0], 50)], combDi := [], combPrime := 101 }, known := true, nonSolvedNum := [0],
         nonSolvedDen := [], numEqn := 1, primeNumber := 1, zeroCounter := 0, checkInterpolation := true }, by decide +kernel, by decide +kernel⟩
    obtain ⟨c, e0, e1⟩ := e0
    have hchk : checkIfDone (p := 107) stuckCross 74 4 = some none := by decide +kernel
    obtain ⟨s', hs'⟩ := C36_no_progress mpzInvert (exGt 107) id rest
      { cross := stuckCross, coefMat := [uniRow stuckCross 4 74], newPrime := false } rfl rfl rfl
    have e2 : uniPrime mpzInvert (exGt 107) id 109 stuckCross ((4, 74) :: rest) = some (.running s') := by
      have hnz : ¬ ((74 : ZMod 107) = 0) := by decide
      have e3 : uniProbe mpzInvert (exGt 107) id { cross := stuckCross, newPrime := true } 4 74 =
          some (.running { cross := stuckCross, coefMat := [uniRow stuckCross 4 74], newPrime := false }) := by
        unfold uniProbe
        simp only [if_true, hchk, Option.bind_eq_bind, Option.bind_some]
        rfl
      unfold uniPrime
      simp only [if_neg hnz]
      unfold uniLoop
      show ((uniProbe mpzInvert (exGt 107) id { cross := stuckCross, newPrime := true } 4 74).bind _) = _
      rw [e3]
      exact hs'
    have step : ∀ (r : PrimeRun) (rs : List PrimeRun) (c c' : UniCross),
        (haveI := r.fact; uniPrime mpzInvert (exGt r.p) id r.nextP c r.pts) = some (.nextPrime c') →
        uniRun mpzInvert exGt id c (r :: rs) = uniRun mpzInvert exGt id c' rs := by
      intro r rs c c' h
      conv_lhs => unfold uniRun
      rw [h]; rfl
    rw [step stuckRun0 _ _ _ (showNext_eq e0), step stuckRun1 _ _ _ (showNext_eq e1)]
    unfold uniRun
    simp only [Option.bind_eq_bind]
    rw [e2]
    rfl

end FireFly
