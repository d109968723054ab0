import Verif.Lemmas.RatRunLater
/-!
# A further prime field without shift, for any condition that makes the linear systems solvable
-/
set_option linter.all false
namespace FireFly.RRun
open MvPolynomial FFMap

lemma coeff_find {p : ℕ} [Fact p.Prime] {k : ℕ} {m : FFMap (ZMod p)} (hw : WFMap k m) {e : List ℕ} (he : e.length = k) : (m.find? e).getD 0 = coeff e.toFinsupp (denote m) := by
  rw [coeff_denote hw he]

/-- the settings of the interpolation in a further prime field -/
def laterCfg (c : Cross) (r : Prime) (g : Option (RnMap × RnMap)) : haveI := r.fact; RLater.Cfg (ZMod r.p) :=
  haveI := r.fact
  { n := r.cfg.n, anchor := r.cfg.anchor, gt := r.cfg.gt, known := (convertToFF r.p c.coefs.gNi, convertToFF r.p c.coefs.gDi)
    guess := g.map (fun g => (convertToFF r.p g.1, convertToFF r.p g.2)) }

/-- `OK` without the statement about the normalized monomial -/
structure Base (k : ℕ) (n d : MvPolynomial ℕ ℚ) (M : ℤ) (c : Cross) : Prop where
  prime : c.coefs.combPrime = M
  pos : 0 < M
  num : SideOK (coefOf n) (monos k n) M c.coefs.gNi c.coefs.combNi
  den : SideOK (coefOf d) (monos k d) M c.coefs.gDi c.coefs.combDi
  known : c.known = true
  check : c.checkInterpolation = true
  unNum : Grouped (c.coefs.combNi.map Prod.fst) c.unNum
  unDen : Grouped (c.coefs.combDi.map Prod.fst) c.unDen
  zeros : c.zeroCounter < c.primeNumber

/-- `LaterOK` without the linear systems -/
structure FieldOK (k : ℕ) (n d : MvPolynomial ℕ ℚ) (r : Prime) : Prop where
  nvars : r.cfg.n = k
  anchorLen : r.cfg.anchor.length + 1 = k
  anchor : ∀ x ∈ r.cfg.anchor, x ≠ 0
  gt : haveI := r.fact; PivotOrder r.cfg.gt
  denN : ∀ m, ¬ (r.p : ℤ) ∣ (coeff m n).den
  denD : ∀ m, ¬ (r.p : ℤ) ∣ (coeff m d).den
  distinct : haveI := r.fact; ∀ f ∈ [n, d], ∀ m ∈ f.support, ∀ m' ∈ f.support, m.degree = m'.degree →
    eval (RMulti.dir r.cfg.anchor (List.replicate (k - 1) 1)) (monomial m (1 : ZMod r.p)) = eval (RMulti.dir r.cfg.anchor (List.replicate (k - 1) 1)) (monomial m' 1) → m = m'
  values : haveI := r.fact; ∀ q ∈ r.probes, q.2.2 ≠ [] ∧ eval (RLater.at_ r.cfg.anchor q.1 q.2.2) (red r.p d) ≠ 0 ∧ q.2.1 = RLater.value r.cfg.anchor (red r.p n) (red r.p d) q.1 q.2.2
  nodup : (r.probes.map (fun q => (q.1, q.2.2))).Nodup

lemma OK.base {k : ℕ} {n d : MvPolynomial ℕ ℚ} {b : Bool} {e : List ℕ} {M : ℤ} {c : Cross} (h : OK k n d b e M c) : Base k n d M c :=
  ⟨h.prime, h.pos, h.num, h.den, h.known, h.check, h.unNum, h.unDen, h.zeros⟩

lemma LaterOK.field {k : ℕ} {n d : MvPolynomial ℕ ℚ} {b : Bool} {e : List ℕ} {r : Prime} (h : LaterOK k n d b e r) : FieldOK k n d r :=
  ⟨h.nvars, h.anchorLen, h.anchor, h.gt, h.denN, h.denD, h.distinct, h.values, h.nodup⟩

theorem later_core {inv : ℤ → ℤ → ℤ} (hinv : InvertSpec inv) {ord : Order} (hord : ord.OK) {k : ℕ} {n d : MvPolynomial ℕ ℚ} (hn : InVars k n) (hd : InVars k d)
    {M : ℤ} {c : Cross} (h : Base k n d M c) {r : Prime} (hr : FieldOK k n d r) (hne : r.probes ≠ []) (hpM : ¬ (r.p : ℤ) ∣ M) (h300 : c.primeNumber + 1 < 300)
    (hG : haveI := r.fact; ∀ (o : List ℕ) (A B : Finset ℕ) (ts : List (ZMod r.p)), (∀ j ∈ A, [j] ∈ c.unNum.map Prod.fst) → (∀ j ∈ B, [j] ∈ c.unDen.map Prod.fst) → ts.Nodup →
      (∀ t ∈ ts, (t, o) ∈ r.probes.map (fun q => (q.1, q.2.2))) → ts.length = A.card + B.card → ∀ x y : ℕ → ZMod r.p,
      (∀ t ∈ ts, ∑ j ∈ A, x j * t ^ j = RLater.value r.cfg.anchor (red r.p n) (red r.p d) t o * ∑ j ∈ B, y j * t ^ j) → (∀ j ∈ A, x j = 0) ∧ ∀ j ∈ B, y j = 0)
    (hx : ∀ m, ¬ Deceptive (coeff m n) M (M * r.p) ∧ ¬ Deceptive (coeff m d) M (M * r.p)) :
    ∃ out, laterPrime inv ord c r = some out ∧
      ((∃ N D, out = .finished N D ∧ Certified k n d M r N D) ∨
       (∃ kk, out = .nextPrime (endCross ord c kk) ∧ Base k n d (M * r.p) (endCross ord c kk) ∧ (∀ e, c.coefs.combNi.find? e = none → kk.combNi.find? e = none) ∧
         (∀ e, c.coefs.combDi.find? e = none → kk.combDi.find? e = none) ∧ ¬ AllSmall n d M) ∨
       (out = .running ∧ ¬ Enough k n d r ∧ (AllSmall n d M → ∀ q ∈ r.probes, q.2.2 ≠ List.replicate (k - 1) 1))) ∧
      (AllSmall n d M → ∀ N D, out = .finished N D → rnPoly N = n ∧ rnPoly D = d) := by
  haveI := r.fact
  obtain ⟨q0, rest, hq0⟩ : ∃ q0 rest, r.probes = q0 :: rest := by
    rcases hl : r.probes with _ | ⟨q0, rest⟩
    · exact absurd hl hne
    · exact ⟨q0, rest, rfl⟩
  have hM := h.prime
  obtain ⟨g, eg, g1, g2⟩ := C36_guess (c1 := coefOf n) (c2 := coefOf d) (K1 := monos k n) (K2 := monos k d) c.coefs (hM ▸ h.num) (hM ▸ h.den)
  rw [hM] at g1 g2
  have hd0 : d ≠ 0 := by
    rintro rfl
    have := (hr.values q0 (by rw [hq0]; simp)).2.1
    apply this
    rw [show red r.p (0 : MvPolynomial ℕ ℚ) = 0 by unfold red; simp, map_zero]
  have hvals : ∀ q ∈ r.probes, q.2.1 = RLater.value r.cfg.anchor (red r.p n) (red r.p d) q.1 q.2.2 := fun q hq => (hr.values q hq).2.2
  have hpe := probes_eq hvals
  have hk := hr.nvars
  have hsmall : AllSmall n d M → ∃ g0, g = some g0 ∧ rnPoly g0.1 = n ∧ rnPoly g0.2 = d := by
    intro hs
    obtain ⟨g0, hg0, x1, x2⟩ := g2 (fun t _ => (hs _).1) (fun t _ => (hs _).2)
    exact ⟨g0, hg0, rnPoly_exact hn x1, rnPoly_exact hd x2⟩
  have hguess : RLater.GuessOK (laterCfg c r g) := by
    intro gg hgg
    unfold laterCfg at hgg
    simp only [Option.map_eq_some_iff] at hgg
    obtain ⟨g0, hg0, rfl⟩ := hgg
    have := g1 g0 hg0
    show WFMap r.cfg.n _ ∧ WFMap r.cfg.n _
    rw [hk]
    exact ⟨wf_convert r.p (guess_facts hn this.1).2, wf_convert r.p (guess_facts hd this.2).2⟩
  have hpass : ∀ (t : ZMod r.p) (o : List ℕ), RLater.Passes (laterCfg c r g) (red r.p n) (red r.p d) t o ↔
      ∃ g0, g = some g0 ∧ RLater.value r.cfg.anchor (red r.p (rnPoly g0.1)) (red r.p (rnPoly g0.2)) t o = RLater.value r.cfg.anchor (red r.p n) (red r.p d) t o := by
    intro t o
    unfold RLater.Passes
    constructor
    · rintro ⟨gg, h1, h2⟩
      unfold laterCfg at h1
      simp only [Option.map_eq_some_iff] at h1
      obtain ⟨g0, hg0, rfl⟩ := h1
      have := g1 g0 hg0
      refine ⟨g0, hg0, ?_⟩
      rw [red_rnPoly r.p (guess_facts hn this.1).2 (guess_facts hn this.1).1, red_rnPoly r.p (guess_facts hd this.2).2 (guess_facts hd this.2).1]
      exact h2
    · rintro ⟨g0, hg0, h2⟩
      have := g1 g0 hg0
      refine ⟨(convertToFF r.p g0.1, convertToFF r.p g0.2), by unfold laterCfg; rw [hg0]; rfl, ?_⟩
      rw [red_rnPoly r.p (guess_facts hn this.1).2 (guess_facts hn this.1).1, red_rnPoly r.p (guess_facts hd this.2).2 (guess_facts hd this.2).1] at h2
      exact h2
  have hexact : AllSmall n d M → ∀ t o, RLater.Passes (laterCfg c r g) (red r.p n) (red r.p d) t o := by
    intro hs t o
    obtain ⟨g0, hg0, x1, x2⟩ := hsmall hs
    exact (hpass t o).mpr ⟨g0, hg0, by rw [x1, x2]⟩
  -- the first probe
  have hfind : RLater.firstProbe (laterCfg c r g) (r.probes.map (fun q => (q.1, q.2.2))) = (r.probes.find? (fun q => decide (q.2.2 = List.replicate (k - 1) 1))).map (fun q => (q.1, q.2.2)) := by
    unfold RLater.firstProbe RLater.uni
    rw [List.find?_map]
    show Option.map _ (List.find? (fun q => decide (q.2.2 = List.replicate (r.cfg.n - 1) 1)) r.probes) = _
    rw [hk]
  have hnofirst : RLater.firstProbe (laterCfg c r g) (r.probes.map (fun q => (q.1, q.2.2))) = none → ∀ q ∈ r.probes, q.2.2 ≠ List.replicate (k - 1) 1 := by
    intro h0 q hq
    rw [hfind, Option.map_eq_none_iff, List.find?_eq_none] at h0
    simpa using h0 q hq
  -- an accepted guess
  have hacc : ∀ q, RLater.firstProbe (laterCfg c r g) (r.probes.map (fun q => (q.1, q.2.2))) = some q → RLater.Passes (laterCfg c r g) (red r.p n) (red r.p d) q.1 q.2 →
      ∃ N D, g = some (N, D) ∧ Certified k n d M r N D := by
    intro q h1 h2
    rw [hfind, Option.map_eq_some_iff] at h1
    obtain ⟨q', h1, rfl⟩ := h1
    obtain ⟨g0, hg0, h2⟩ := (hpass _ _).mp h2
    refine ⟨g0.1, g0.2, hg0, (g1 g0 hg0).1, (g1 g0 hg0).2, q', h1, ?_⟩
    rw [hvals q' (List.mem_of_find?_eq_some h1)]
    exact h2
  have hLP : ∀ s, (laterCfg c r g).feedAll ((laterCfg c r g).init c.unNum c.unDen) r.probes = some s →
      laterPrime inv ord c r = (match s.out, g with
        | none, _ => some .running
        | some .accepted, some g => some (.finished g.1 g.2)
        | some .accepted, none => none
        | some (.solved num den), _ => do
          let k ← c.coefs.combineNext inv num den
          endPrime ord c k) := by
    intro s hs
    unfold laterPrime
    rw [eg]
    simp only [Option.bind_eq_bind, Option.bind_some]
    unfold laterCfg at hs
    rw [hs]
    rfl
  have hlen : (laterCfg c r g).anchor.length + 1 = (laterCfg c r g).n := by
    show r.cfg.anchor.length + 1 = r.cfg.n
    rw [hk]; exact hr.anchorLen
  have hordne : ∀ q ∈ r.probes.map (fun q => (q.1, q.2.2)), q.2 ≠ [] := by
    intro q hq
    obtain ⟨q', hq', rfl⟩ := List.mem_map.mp hq
    exact (hr.values q' hq').1
  by_cases hall : c.coefs.combNi ++ c.coefs.combDi = []
  · -- everything is known
    rw [List.append_eq_nil_iff] at hall
    obtain ⟨g0, hg0, x1, x2⟩ := g2 (by rw [hall.1]; simp) (by rw [hall.2]; simp)
    obtain ⟨s, e1, e2⟩ := RLater.C45_known (c := laterCfg c r g) (N := red r.p n) (D := red r.p d) hlen hguess c.unNum c.unDen (r.probes.map (fun q => (q.1, q.2.2))) hordne (by
      intro q hq ho
      exact (hpass _ _).mpr ⟨g0, hg0, by rw [rnPoly_exact hn x1, rnPoly_exact hd x2]⟩)
    rw [show (laterCfg c r g).anchor = r.cfg.anchor from rfl, hpe] at e1
    rw [hLP s e1]
    rcases e2 with ⟨e2, q, e3⟩ | ⟨e2, e3⟩
    · rw [e2, hg0]
      obtain ⟨N, D, e4, e5⟩ := hacc q e3 ((hpass _ _).mpr ⟨g0, hg0, by rw [rnPoly_exact hn x1, rnPoly_exact hd x2]⟩)
      rw [hg0] at e4
      obtain rfl := Option.some.inj e4
      refine ⟨_, rfl, Or.inl ⟨_, _, rfl, e5⟩, ?_⟩
      intro _ N' D' he
      obtain ⟨rfl, rfl⟩ := Out.finished.inj he
      exact ⟨rnPoly_exact hn x1, rnPoly_exact hd x2⟩
    · rw [e2]
      refine ⟨_, rfl, Or.inr (Or.inr ⟨rfl, ?_, fun _ => hnofirst e3⟩), fun _ N D he => by cases he⟩
      intro hE
      have := hE 1 le_rfl
      rw [List.filter_eq_nil_iff.mpr (fun q hq => by simpa using hnofirst e3 q hq)] at this
      have h1 := numDegs_pos hd0
      simp at this
      omega
  · -- some coefficients are unknown
    have hUN : Grouped (c.coefs.combNi.map Prod.fst) c.unNum := h.unNum
    have hUD := h.unDen
    have hU : c.unNum ≠ [] ∨ c.unDen ≠ [] := by
      by_contra hc
      push Not at hc
      exact hall (by rw [grouped_nil hUN hc.1, grouped_nil hUD hc.2]; rfl)
    have hSN : RLater.Split (laterCfg c r g).n (laterCfg c r g).anchor (red r.p n) (laterCfg c r g).known.1 c.unNum := by
      have := side_split (p := r.p) hn h.num hUN hr.anchor (hr.distinct n (by simp))
      rw [← hk] at this
      exact this
    have hSD : RLater.Split (laterCfg c r g).n (laterCfg c r g).anchor (red r.p d) (laterCfg c r g).known.2 c.unDen := by
      have := side_split (p := r.p) hd h.den hUD hr.anchor (hr.distinct d (by simp))
      rw [← hk] at this
      exact this
    have hGP : RLater.GoodPts (laterCfg c r g).anchor (red r.p n) (red r.p d) c.unNum c.unDen (fun t o => (t, o) ∈ r.probes.map (fun q => (q.1, q.2.2))) := by
      refine ⟨fun t o hm => hordne _ hm, ?_, ?_⟩
      · intro t o hm
        obtain ⟨q, hq, hqq⟩ := List.mem_map.mp hm
        obtain ⟨rfl, rfl⟩ := Prod.mk.inj hqq
        exact (hr.values q hq).2.1
      · exact fun o A B ts hA hB h1 h2 h3 x y h4 => hG o A B ts hA hB h1 h2 h3 x y h4
    obtain ⟨s, e1, e2, e3, -⟩ := RLater.C45_prime (c := laterCfg c r g) hr.gt hlen hSN hSD hU hguess _ hr.nodup hGP
    have e5 := fun ho => RLater.C45_enough (c := laterCfg c r g) hr.gt hlen hSN hSD hU hguess _ hr.nodup hGP e1 ho
    rw [show (laterCfg c r g).anchor = r.cfg.anchor from rfl, hpe] at e1
    rw [hLP s e1]
    cases ho : s.out with
    | none =>
      refine ⟨_, rfl, Or.inr (Or.inr ⟨rfl, ?_, ?_⟩), fun _ N D he => by cases he⟩
      · intro hE
        obtain ⟨o, o1, o2⟩ := e5 ho
        have h1 := degrees_le hn h.num hUN o
        have h2 := degrees_le hd h.den hUD o
        have h3 := hE o o1
        rw [List.filter_map, List.length_map] at o2
        rw [show (fun q : ZMod r.p × ZMod r.p × List ℕ => decide (q.2.2 = List.replicate (k - 1) o)) =
          ((fun q : ZMod r.p × List ℕ => decide (q.2 = List.replicate ((laterCfg c r g).n - 1) o)) ∘ fun q => (q.1, q.2.2)) by
            funext q; show _ = decide (q.2.2 = List.replicate (r.cfg.n - 1) o); rw [hk]] at h3
        omega
      · intro hs
        apply hnofirst
        by_contra hc
        obtain ⟨q, hq⟩ := Option.ne_none_iff_exists'.mp hc
        have := e2.mpr ⟨q, hq, hexact hs _ _⟩
        rw [ho] at this
        cases this
    | some o =>
      cases o with
      | accepted =>
        obtain ⟨q, h1, h2⟩ := e2.mp ho
        obtain ⟨N, D, h3, h4⟩ := hacc q h1 h2
        rw [h3]
        refine ⟨_, rfl, Or.inl ⟨_, _, rfl, h4⟩, ?_⟩
        intro hs N' D' heq
        obtain ⟨rfl, rfl⟩ := Out.finished.inj heq
        obtain ⟨g0, hg0, x1, x2⟩ := hsmall hs
        rw [h3] at hg0
        obtain rfl := Option.some.inj hg0
        exact ⟨x1, x2⟩
      | solved num den =>
        obtain ⟨⟨q, h1, h2⟩, w1, w2, f1, f2⟩ := e3 num den ho
        have w1 : WFMap k num := by rw [← hk]; exact w1
        have w2 : WFMap k den := by rw [← hk]; exact w2
        obtain ⟨kk, e6, k1, k2, k3, -, -, k4, k5⟩ := C36_combine_next (c1 := coefOf n) (c2 := coefOf d) (K1 := monos k n) (K2 := monos k d) c.coefs hinv (p := r.p)
          (by rw [hM]; exact h.pos) (by rw [hM]; exact hpM) hall (by rw [hM]; exact h.num) (by rw [hM]; exact h.den)
          (num := num) (den := den) (fun t _ => hr.denN _) (fun t _ => hr.denD _)
          (fun t ht => by
            rw [coeff_find w1 ((side_keys hn h.num).2.2 t.1 (List.mem_map_of_mem ht)).1, f1, red_coeff]; rfl)
          (fun t ht => by
            rw [coeff_find w2 ((side_keys hd h.den).2.2 t.1 (List.mem_map_of_mem ht)).1, f2, red_coeff]; rfl)
          (fun t _ => by rw [hM]; exact (hx _).1) (fun t _ => by rw [hM]; exact (hx _).2)
        rw [hM] at k1 k2 k3
        have e7 : (do
          let k ← c.coefs.combineNext inv num den
          endPrime ord c k) = some (.nextPrime (endCross ord c kk)) := by
          rw [e6]
          simp only [Option.bind_eq_bind, Option.bind_some]
          unfold endPrime
          rw [if_neg (by omega)]
        refine ⟨.nextPrime (endCross ord c kk), e7, Or.inr (Or.inl ⟨_, rfl, ?_, k4, k5, fun hs => h2 (hexact hs _ _)⟩), fun _ N D he => by cases he⟩
        have hpp : (0 : ℤ) < r.p := by exact_mod_cast r.fact.out.pos
        exact ⟨k1, mul_pos h.pos hpp, k2, k3, rfl, rfl, grouped_end hord _, grouped_end hord _, by have := h.zeros; simp only [endCross]; omega⟩

end FireFly.RRun
