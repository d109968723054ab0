import Verif.Lemmas.RatSafeField
/-! # Safe interpolation: the guess, and the step to the next prime field -/
set_option linter.all false
namespace FireFly.RRun.Safe
open MvPolynomial FFMap
variable {k : ℕ} {n d f : MvPolynomial ℕ ℚ} {b : Bool} {e : List ℕ} {ps : List ℕ} {c : Cross}

lemma SideInv.seen {s : Side} (h : SideInv k f ps s) (hf : InVars k f) (hne : ps ≠ []) (hst : ∀ m ∈ f.support, ∀ p ∈ ps, ¬ (p : ℤ) ∣ (coeff m f).num) : ∀ x ∈ monos k f, x ∈ s.g.map Prod.fst ++ s.comb.map Prod.fst := by
  intro x hx
  by_contra hc
  rw [List.mem_append, not_or] at hc
  obtain ⟨p, hp⟩ := List.exists_mem_of_ne_nil _ hne
  exact hst _ (mem_support_iff.mpr ((RRun.mem_monos hf).mp hx).2) p hp (h.unseen x hx hc.1 hc.2 p hp)

lemma SideInv.sideOK {s : Side} (h : SideInv k f ps s) (hf : InVars k f) (hne : ps ≠ []) (hst : ∀ m ∈ f.support, ∀ p ∈ ps, ¬ (p : ℤ) ∣ (coeff m f).num) :
    SideOK (coefOf f) (monos k f) (ps.map (fun p : ℕ => (p : ℤ))).prod s.g s.comb := by
  refine ⟨?_, RRun.monos_nodup hf, h.known, ?_⟩
  · rw [List.perm_ext_iff_of_nodup h.nodup (RRun.monos_nodup hf)]
    exact fun x => ⟨h.mem x, h.seen hf hne hst x⟩
  · intro t ht
    have hm := h.mem t.1 (List.mem_append_right _ (List.mem_map_of_mem ht))
    rw [← modulus_all (hst _ (mem_support_iff.mpr ((RRun.mem_monos hf).mp hm).2))]
    exact (h.residue t ht).2.1

lemma SideInv.all {s : Side} (h : SideInv k f ps s) (hf : InVars k f) (hst : ∀ m ∈ f.support, Settled (coeff m f) ps) : s.comb = [] ∧ SideExact (coefOf f) (monos k f) s.g := by
  have hset : ∀ x ∈ monos k f, x ∈ s.g.map Prod.fst := fun x hx => h.settled x hx (hst _ (mem_support_iff.mpr ((RRun.mem_monos hf).mp hx).2))
  have hc : s.comb = [] := by
    rcases hh : s.comb with _ | ⟨t, l⟩
    · rfl
    · exfalso
      have ht : t.1 ∈ s.comb.map Prod.fst := by rw [hh]; simp
      exact (List.nodup_append.mp h.nodup).2.2 t.1 (hset _ (h.mem _ (List.mem_append_right _ ht))) t.1 ht rfl
  refine ⟨hc, ?_, h.known⟩
  rw [List.perm_ext_iff_of_nodup (List.nodup_append.mp h.nodup).1 (RRun.monos_nodup hf)]
  exact fun x => ⟨fun hx => h.mem x (List.mem_append_left _ hx), hset x⟩

/-- one side of the guess -/
lemma SideInv.guess {s : Side} (h : SideInv k f ps s) {M : ℤ} (hM : 0 ≤ M) : ∃ g ok, recSide M s.comb s.g = some (g, ok) ∧ Partly k f ps g := by
  obtain ⟨g, ok, e1, e2, e3, e4, e5⟩ := recSide_total hM s.comb s.g h.nodup (fun t ht => (h.known t ht).1) (fun t ht => (h.residue t ht).2.1.1)
  refine ⟨g, ok, e1, e3, fun x hx => h.mem x (e5 x hx), e2, ?_⟩
  intro x hx hs
  obtain ⟨t, ht, rfl⟩ := List.mem_map.mp (h.settled x hx hs)
  exact ⟨t, e4 t ht, rfl, (h.known t ht).2⟩

/-- the guess -/
lemma OK.guess (h : OK k n d b e ps c) (hn : InVars k n) (hd : InVars k d) : ∃ o, c.recRatCoef = some o ∧
    (∀ g, o = some g → Partly k n ps g.1 ∧ Partly k d ps g.2 ∧
      (Steady n d ps → GuessOK (coefOf n) (monos k n) (ps.map (fun p : ℕ => (p : ℤ))).prod g.1 ∧ GuessOK (coefOf d) (monos k d) (ps.map (fun p : ℕ => (p : ℤ))).prod g.2)) ∧
    (Determined n d ps → ∃ g, o = some g ∧ rnPoly g.1 = n ∧ rnPoly g.2 = d) := by
  obtain ⟨g1, k1, e1, p1⟩ := h.num.guess h.modulus
  obtain ⟨g2, k2, e2, p2⟩ := h.den.guess h.modulus
  have ho : c.recRatCoef = some (if k1 = true ∧ k2 = true then some (g1, g2) else none) := by
    unfold Cross.recRatCoef RatCoefs.recRatCoef
    simp only
    rw [e1, e2]
    simp only [Option.bind_eq_bind, Option.bind_some]
    cases k1 <;> cases k2 <;> rfl
  have hst : Steady n d ps → ∃ o, c.recRatCoef = some o ∧ (∀ g, o = some g → GuessOK (coefOf n) (monos k n) (ps.map (fun p : ℕ => (p : ℤ))).prod g.1 ∧ GuessOK (coefOf d) (monos k d) (ps.map (fun p : ℕ => (p : ℤ))).prod g.2) ∧
      (AllSmall n d (ps.map (fun p : ℕ => (p : ℤ))).prod → ∃ g, o = some g ∧ rnPoly g.1 = n ∧ rnPoly g.2 = d) := by
    intro hs
    have s1 := h.num.sideOK hn h.ne (hs n (by simp))
    have s2 := h.den.sideOK hd h.ne (hs d (by simp))
    obtain ⟨o, q1, q2, q3⟩ := C36_guess (c1 := coefOf n) (c2 := coefOf d) (K1 := monos k n) (K2 := monos k d)
      { gNi := c.num.g, gDi := c.den.g, combNi := c.num.comb, combDi := c.den.comb, combPrime := (ps.map (fun p : ℕ => (p : ℤ))).prod } s1 s2
    refine ⟨o, ?_, q2, ?_⟩
    · rcases h.steady hs with ⟨x1, x2⟩ | hx
      · rw [← q1]
        unfold Cross.recRatCoef RatCoefs.recRatCoef
        simp only [x1, x2]
        rfl
      · rw [← q1]
        unfold Cross.recRatCoef
        rw [hx]
    · intro ha
      obtain ⟨g, hg, y1, y2⟩ := q3 (fun t _ => (ha _).1) (fun t _ => (ha _).2)
      exact ⟨g, hg, RRun.rnPoly_exact hn y1, RRun.rnPoly_exact hd y2⟩
  refine ⟨_, ho, ?_, ?_⟩
  · intro g hg
    split_ifs at hg with hk
    obtain rfl := Option.some.inj hg
    refine ⟨p1, p2, fun hs => ?_⟩
    obtain ⟨o, q1, q2, -⟩ := hst hs
    rw [ho] at q1
    have q1 := Option.some.inj q1
    rw [if_pos hk] at q1
    exact q2 _ q1.symm
  · rintro (ha | ⟨hs, ha⟩)
    · obtain ⟨c1, x1⟩ := h.num.all hn (ha n (by simp))
      obtain ⟨c2, x2⟩ := h.den.all hd (ha d (by simp))
      rw [c1] at e1
      rw [c2] at e2
      obtain ⟨rfl, rfl⟩ := Prod.mk.inj (Option.some.inj e1)
      obtain ⟨rfl, rfl⟩ := Prod.mk.inj (Option.some.inj e2)
      exact ⟨_, if_pos ⟨rfl, rfl⟩, RRun.rnPoly_exact hn x1, RRun.rnPoly_exact hd x2⟩
    · obtain ⟨o, q1, -, q3⟩ := hst hs
      rw [ho] at q1
      rw [Option.some.inj q1]
      exact q3 ha

lemma steady_left {p : ℕ} (h : Steady n d (ps ++ [p])) : Steady n d ps := fun f hf m hm q hq => h f hf m hm q (List.mem_append_left _ hq)

/-- The field of `p` is added. -/
lemma OK.next {inv : ℤ → ℤ → ℤ} (hinv : InvertSpec inv) {ord : Order} (hord : ord.OK) (h : OK k n d b e ps c) (hn : InVars k n) (hd : InVars k d) {p : ℕ} [hp : Fact p.Prime] (hpn : p ∉ ps)
    {num den : FFMap (ZMod p)} (h1 : ResOK k n p num) (h2 : ResOK k d p den) (c1 : Clear n ps p) (c2 : Clear d ps p) :
    ∃ c', combineNext inv ord c num den = some c' ∧ OK k n d b e (ps ++ [p]) c' ∧ c'.primeNumber = c.primeNumber ∧ c'.zeroCounter = c.zeroCounter := by
  obtain ⟨x, x1, x2, x3, x4, x5⟩ := side_next hinv hord.num h.num h.primes hpn h1 c1 0
  obtain ⟨y, y1, y2, y3, y4, y5⟩ := side_next hinv hord.den h.den h.primes hpn h2 c2 (crtSide inv ord.num c.num num 0).2
  refine ⟨{ c with num := x, den := y, combPrime := (crtSide inv ord.den c.den den (crtSide inv ord.num c.num num 0).2).2 }, ?_, ?_, rfl, rfl⟩
  · unfold combineNext
    simp only
    rw [x1, y1]
    rfl
  obtain ⟨A, hA⟩ : ∃ A, (crtSide inv ord.num c.num num 0).2 = A := ⟨_, rfl⟩
  rw [hA] at x5 y5 ⊢
  obtain ⟨B, hB⟩ : ∃ B, (crtSide inv ord.den c.den den A).2 = B := ⟨_, rfl⟩
  rw [hB] at y5 ⊢
  have hpp : (0 : ℤ) ≤ p := by positivity
  have hA0 : 0 ≤ A := by
    rcases x5 with ⟨rfl, -⟩ | ⟨t, -, -, rfl⟩
    · exact le_rfl
    · exact mul_nonneg (modulus_pos h.primes).le hpp
  refine ⟨x2, y2, h.norm, h.len, h.one, ?_, ?_, by simp, ?_, ?_, h.zeros⟩
  · intro q hq
    rcases List.mem_append.mp hq with hq | hq
    · exact h.primes q hq
    · rw [List.mem_singleton] at hq; rw [hq]; exact hp.out
  · rw [List.nodup_append]
    refine ⟨h.distinct, by simp, ?_⟩
    intro a ha b' hb hab
    rw [List.mem_singleton] at hb
    exact hpn (by rw [← hb, ← hab]; exact ha)
  · simp only
    rcases y5 with ⟨rfl, -⟩ | ⟨t, -, -, rfl⟩
    · exact hA0
    · exact mul_nonneg (modulus_pos h.primes).le hpp
  · intro hs
    have hs' := steady_left hs
    have hprod : ((ps ++ [p]).map (fun p : ℕ => (p : ℤ))).prod = (ps.map (fun p : ℕ => (p : ℤ))).prod * p := by simp
    have key : ∀ (f : MvPolynomial ℕ ℚ) (s s' : Side), f ∈ [n, d] → InVars k f → SideInv k f ps s → (∀ t ∈ s.comb, (p : ℤ) ∣ (coefOf f t.1).num) → s.comb = [] := by
      intro f s s' hf hv hs0 hall
      rcases hh : s.comb with _ | ⟨t, l⟩
      · rfl
      · exfalso
        have ht : t ∈ s.comb := by rw [hh]; simp
        have hm := hs0.mem t.1 (List.mem_append_right _ (List.mem_map_of_mem ht))
        exact hs f hf _ (mem_support_iff.mpr ((RRun.mem_monos hv).mp hm).2) p (by simp) (hall t ht)
    have empty : ∀ (f : MvPolynomial ℕ ℚ) (s s' : Side), f ∈ [n, d] → InVars k f → SideInv k f ps s → SideInv k f (ps ++ [p]) s' → (∀ e ∈ s'.comb.map Prod.fst, e ∉ s.g.map Prod.fst) → s.comb = [] → s'.comb = [] := by
      intro f s s' hf hv hs0 hs1 hno hc
      rcases hh : s'.comb with _ | ⟨t, l⟩
      · rfl
      · exfalso
        have ht : t.1 ∈ s'.comb.map Prod.fst := by rw [hh]; simp
        have := hs0.seen hv h.ne (hs' f hf) t.1 (hs1.mem _ (List.mem_append_right _ ht))
        rw [hc] at this
        exact hno _ ht (by simpa using this)
    have val : ∀ (f : MvPolynomial ℕ ℚ) (s : Side) (t : List ℕ × ℤ), f ∈ [n, d] → InVars k f → SideInv k f ps s → t ∈ s.comb → Safe.modulus (coefOf f t.1) ps * p = ((ps ++ [p]).map (fun p : ℕ => (p : ℤ))).prod := by
      intro f s t hf hv hs0 ht
      have hm := hs0.mem t.1 (List.mem_append_right _ (List.mem_map_of_mem ht))
      rw [hprod, modulus_all (q := coefOf f t.1) (fun q hq => hs' f hf _ (mem_support_iff.mpr ((RRun.mem_monos hv).mp hm).2) q hq)]
    simp only
    rcases y5 with ⟨y5, y6⟩ | ⟨t, ht, -, y5⟩
    · rcases x5 with ⟨x5, x6⟩ | ⟨t, ht, -, x5⟩
      · left
        exact ⟨empty n _ _ (by simp) hn h.num x2 x4 (key n _ x (by simp) hn h.num x6), empty d _ _ (by simp) hd h.den y2 y4 (key d _ x (by simp) hd h.den y6)⟩
      · right
        rw [y5, x5]
        exact val n _ t (by simp) hn h.num ht
    · right
      rw [y5]
      exact val d _ t (by simp) hd h.den ht

end FireFly.RRun.Safe
