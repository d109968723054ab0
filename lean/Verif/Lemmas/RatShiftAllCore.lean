import Verif.Lemmas.RatShiftAllLater
/-! # A further prime field with a shift -/
set_option linter.all false
namespace FireFly.RRun.Shifted
open MvPolynomial FFMap

lemma Shape.next {k : ℕ} {f : MvPolynomial ℕ ℚ} {S : ℕ → Finset (ℕ →₀ ℕ)} {x y : Side} (h : Shape k f S x) (h1 : y.maxDeg = x.maxDeg) (h2 : y.zeros = x.zeros) : Shape k f S y :=
  ⟨by rw [h1]; exact h.lead, by rw [h1]; exact h.le, by rw [h1]; exact h.top, h.mem, by rw [h2]; exact h.zeros⟩

section
variable {p : ℕ} [Fact p.Prime] {k : ℕ} {f : MvPolynomial ℕ ℚ} {S : ℕ → Finset (ℕ →₀ ℕ)} {x : Side} {un un' : FFMap (List (List ℕ))} {g g' : RnMap} {M M' : ℤ} {comb comb' : MpzMap}

/-- what is known about the shift after the field -/
lemma next_shifts {c : RShift.Cfg (ZMod p)} {const : Bool} {u : ZMod p} {S0 s : RShift.Side (ZMod p)} (hf : InVars k f) (h : SideOK (coefOf f) (monos k f) M g comb) (hU : Grouped (comb.map Prod.fst) un)
    (h' : SideOK (coefOf f) (monos k f) M' g' comb') (hU' : Grouped (comb'.map Prod.fst) un')
    (hS : Shape k f S x) (hs : Shifts k const S un g x) (hu : u ≠ 0) (hconst : const = true → comb.find? (List.replicate k 0) = none) (hconst' : const = true → comb'.find? (List.replicate k 0) = none)
    (hsame : ∀ j, (RMulti.part c.shift (red p f) j - homogeneousComponent j (red p f)).support = S j)
    (hdist : ∀ j, ∀ m ∈ f.support ∪ S j, ∀ m' ∈ f.support ∪ S j, m.degree = j → m'.degree = j →
      eval (RMulti.dir c.anchor (List.replicate (k - 1) 1)) (monomial m (1 : ZMod p)) = eval (RMulti.dir c.anchor (List.replicate (k - 1) 1)) (monomial m' 1) → m = m')
    (ha : ∀ y ∈ c.anchor, y ≠ 0) (hl : ∀ m ∈ f.support, m.degree < p) (hk : c.n = k)
    (hE : RShift.EndShift c (C u * red p f) (x.prior un g) S0 s) (hS0 : S0.dense = (RShift.setSide (F := ZMod p) k const (x.prior un g)).dense) :
    Shifts k const S un' g' (nextSide x s) := by
  have hsub : ∀ j ≤ x.maxDeg, WFMap k (RMulti.polyAt s.sub j) ∧ denote (RMulti.polyAt s.sub j) = RMulti.part c.shift (C u * red p f) j - homogeneousComponent j (C u * red p f) := by
    intro j hj
    have := hE.sub j hj
    rw [hk] at this
    exact this
  have hnd : ∀ j, (shiftExps s.sub x.maxDeg j).Nodup := fun j => shiftExps_nodup (fun hj => (hsub j hj).1)
  have hmem : ∀ j e, e ∈ shiftExps s.sub x.maxDeg j ↔ e.length = k ∧ e.toFinsupp ∈ S j := by
    intro j e
    by_cases hj : j ≤ x.maxDeg
    · rw [mem_shiftExps (hsub j hj).1, (hsub j hj).2, ← mem_support_iff, diff_scale _ hu, hsame j]
      simp [hj]
    · rw [hS.top j (by omega)]
      unfold shiftExps
      rw [if_neg hj]; simp
  refine ⟨hnd, hmem, ?_⟩
  intro j hj
  have hj : j ∈ s.dense := hj
  rw [hE.dense, hS0] at hj
  have o1 := prior_ok hf h hU hS hs hu hconst hsame hdist ha hl
  have hSn : Shape k f S ({ x with shifts := shiftExps s.sub x.maxDeg, dense := [] } : Side) := hS.next rfl rfl
  have hsn : Shifts k const S un' g' ({ x with shifts := shiftExps s.sub x.maxDeg, dense := [] } : Side) := ⟨hnd, hmem, by simp⟩
  have o2 := prior_ok hf h' hU' hSn hsn hu hconst' hsame hdist ha hl
  rw [RShift.setSide_dense (F := ZMod p) (F' := ℚ) o1 o2] at hj
  · exact hj
  · intro e
    rw [mem_prior_exps hf h hU, mem_prior_exps hf h' hU']
  · rfl
  · intro i
    refine (List.perm_ext_iff_of_nodup (hs.nodup i) (hnd i)).mpr (fun e => ?_)
    rw [hs.mem, ← hmem]

/-- a degree that has been solved has a monomial -/
lemma solved_mono {c : RShift.Cfg (ZMod p)} {u : ZMod p} {S0 s : RShift.Side (ZMod p)} {zeros : List ℕ} {pr : RShift.Prior} (hE : RShift.EndShift c (C u * red p f) pr S0 s) {j : ℕ} (hj : j ∈ solvedDegs zeros s) :
    ∃ m ∈ f.support, m.degree = j := by
  unfold solvedDegs at hj
  obtain ⟨el, h1, rfl⟩ := List.mem_map.mp hj
  obtain ⟨h1, h2⟩ := List.mem_filter.mp h1
  obtain ⟨k1, k2, k3⟩ := hE.parts el h1
  rw [Bool.and_eq_true, List.any_eq_true] at h2
  obtain ⟨-, t, ht, ht0⟩ := h2
  have ht0 : t.2 ≠ 0 := of_decide_eq_true ht0
  obtain ⟨P, hP⟩ : ∃ P, (if s.dense.contains (RShift.dg el) then PolyFF.sub el.2 (RMulti.polyAt s.sub (RShift.dg el)) else el.2) = P := ⟨_, rfl⟩
  rw [hP] at k2 k3
  have ht : t ∈ P := by rw [← hP]; exact ht
  have hc : coeff t.1.toFinsupp (denote P) = t.2 := by
    rw [coeff_denote k2 (k2.2 t ht), find?_of_mem k2.1 ht]; rfl
  rw [k3, coeff_homogeneousComponent] at hc
  split at hc
  · rename_i hdeg
    refine ⟨t.1.toFinsupp, ?_, hdeg⟩
    rw [coeff_C_mul] at hc
    refine red_support (p := p) ?_
    rintro h0
    rw [h0, mul_zero] at hc
    exact ht0 hc.symm
  · exact absurd hc.symm ht0

end

section
variable {k : ℕ} {n d : MvPolynomial ℕ ℚ} {S : Bool → ℕ → Finset (ℕ →₀ ℕ)} {M : ℤ} {c : Cross} {r : RRun.Prime}

lemma not_mem_known {c0 : List ℕ → ℚ} {K : List (List ℕ)} {g : RnMap} {comb : MpzMap} (h : SideOK c0 K M g comb) {t : List ℕ × ℤ} (ht : t ∈ comb) : t.1 ∉ g.map Prod.fst := by
  intro h0
  have := List.nodup_append.mp (h.perm.nodup_iff.mpr h.nodup)
  exact this.2.2 _ h0 _ (List.mem_map_of_mem ht) rfl

set_option maxHeartbeats 1600000 in
/-- A further prime field with a shift. -/
theorem shift_core {inv : ℤ → ℤ → ℤ} (hinv : InvertSpec inv) {ord : RRun.Order} (hord : ord.OK) (hn : InVars k n) (hd : InVars k d) (h : Ready k n d S M c) (hon : c.on = true)
    (hr : ShiftOK k n d S c.normDen r) (hne : r.probes ≠ []) (hpM : ¬ (r.p : ℤ) ∣ M) (h300 : c.base.primeNumber + 1 < 300)
    (hx : ∀ m, ¬ Deceptive (coeff m n) M (M * r.p) ∧ ¬ Deceptive (coeff m d) M (M * r.p)) :
    ∃ out, laterShift inv ord c r = some out ∧
      ((∃ N D, out = .finished N D ∧ Certified k n d M r N D) ∨
       (∃ c', out = .nextPrime c' ∧ Ready k n d S (M * r.p) c' ∧ c'.on = true ∧ c'.asks = c'.singular ∧ c'.normDen = c.normDen ∧ c'.normalizerDen = c.normalizerDen ∧ c'.normalizerDeg = c.normalizerDeg ∧
         c'.base.primeNumber = c.base.primeNumber + 1 ∧ ¬ AllSmall n d M) ∨
       (out = .running ∧ ¬ EnoughShift k n d S c.normDen r ∧ (AllSmall n d M → ∀ q ∈ r.probes, q.2.2 ≠ List.replicate (k - 1) 1))) ∧
      (AllSmall n d M → ∀ N D, out = .finished N D → rnPoly N = n ∧ rnPoly D = d) := by
  haveI := r.fact
  have hM := h.base.prime
  have hu := factor_ne hr
  have hk := hr.nvars
  obtain ⟨g, eg, g1, g2⟩ := C36_guess (c1 := coefOf n) (c2 := coefOf d) (K1 := monos k n) (K2 := monos k d) c.base.coefs (hM ▸ h.base.num) (hM ▸ h.base.den)
  rw [hM] at g1 g2
  have hvals : ∀ q ∈ r.probes, q.2.1 = RMulti.valueOf r.cfg.shift r.cfg.anchor (red r.p n) (red r.p d) q.1 q.2.2 := fun q hq => (hr.values q hq).2.2
  have hsmall : AllSmall n d M → ∃ g0, g = some g0 ∧ rnPoly g0.1 = n ∧ rnPoly g0.2 = d := by
    intro hs
    obtain ⟨g0, hg0, x1, x2⟩ := g2 (fun t _ => (hs _).1) (fun t _ => (hs _).2)
    exact ⟨g0, hg0, rnPoly_exact hn x1, rnPoly_exact hd x2⟩
  have hguess : RShift.GuessOK (shiftCfg c r g) := by
    intro gg hgg
    unfold shiftCfg at hgg
    simp only [Option.map_eq_some_iff] at hgg
    obtain ⟨g0, hg0, rfl⟩ := hgg
    have := g1 g0 hg0
    show WFMap r.cfg.n _ ∧ WFMap r.cfg.n _
    rw [hk]
    exact ⟨wf_convert r.p (guess_facts hn this.1).2, wf_convert r.p (guess_facts hd this.2).2⟩
  obtain ⟨N', hN'⟩ : ∃ N', C (factor n d c.normDen r) * red r.p n = N' := ⟨_, rfl⟩
  obtain ⟨D', hD'⟩ : ∃ D', C (factor n d c.normDen r) * red r.p d = D' := ⟨_, rfl⟩
  have hval' : ∀ t o, RMulti.valueOf r.cfg.shift r.cfg.anchor N' D' t o = RMulti.valueOf r.cfg.shift r.cfg.anchor (red r.p n) (red r.p d) t o := by
    intro t o
    rw [← hN', ← hD']; exact value_scale _ _ hu _ _ _ _
  have hpass : ∀ (t : ZMod r.p) (o : List ℕ), RShift.Passes (shiftCfg c r g) N' D' t o ↔
      ∃ g0, g = some g0 ∧ RMulti.valueOf r.cfg.shift r.cfg.anchor (red r.p (rnPoly g0.1)) (red r.p (rnPoly g0.2)) t o = RMulti.valueOf r.cfg.shift r.cfg.anchor (red r.p n) (red r.p d) t o := by
    intro t o
    unfold RShift.Passes
    constructor
    · rintro ⟨gg, h1, h2⟩
      unfold shiftCfg at h1
      simp only [Option.map_eq_some_iff] at h1
      obtain ⟨g0, hg0, rfl⟩ := h1
      have := g1 g0 hg0
      refine ⟨g0, hg0, ?_⟩
      rw [red_rnPoly r.p (guess_facts hn this.1).2 (guess_facts hn this.1).1, red_rnPoly r.p (guess_facts hd this.2).2 (guess_facts hd this.2).1, ← hval']
      exact h2
    · rintro ⟨g0, hg0, h2⟩
      have := g1 g0 hg0
      refine ⟨(convertToFF r.p g0.1, convertToFF r.p g0.2), by unfold shiftCfg; rw [hg0]; rfl, ?_⟩
      rw [red_rnPoly r.p (guess_facts hn this.1).2 (guess_facts hn this.1).1, red_rnPoly r.p (guess_facts hd this.2).2 (guess_facts hd this.2).1, ← hval'] at h2
      exact h2
  have hexact : ∀ g0, g = some g0 → rnPoly g0.1 = n → rnPoly g0.2 = d → ∀ t o, RShift.Passes (shiftCfg c r g) N' D' t o := by
    intro g0 hg0 x1 x2 t o
    exact (hpass t o).mpr ⟨g0, hg0, by rw [x1, x2]⟩
  have hfind : RShift.firstProbe (shiftCfg c r g) (r.probes.map (fun q => (q.1, q.2.2))) = (r.probes.find? (fun q => decide (q.2.2 = List.replicate (k - 1) 1))).map (fun q => (q.1, q.2.2)) := by
    unfold RShift.firstProbe RShift.uni
    rw [List.find?_map]
    show Option.map _ (List.find? (fun q => decide (q.2.2 = List.replicate (r.cfg.n - 1) 1)) r.probes) = _
    rw [hk]
  have hnofirst : RShift.firstProbe (shiftCfg c r g) (r.probes.map (fun q => (q.1, q.2.2))) = none → ∀ q ∈ r.probes, q.2.2 ≠ List.replicate (k - 1) 1 := by
    intro h0 q hq
    rw [hfind, Option.map_eq_none_iff, List.find?_eq_none] at h0
    simpa using h0 q hq
  have hacc : ∀ q, RShift.firstProbe (shiftCfg c r g) (r.probes.map (fun q => (q.1, q.2.2))) = some q → RShift.Passes (shiftCfg c r g) N' D' q.1 q.2 →
      ∃ N D, g = some (N, D) ∧ Certified k n d M r N D := by
    intro q h1 h2
    rw [hfind, Option.map_eq_some_iff] at h1
    obtain ⟨q', h1, rfl⟩ := h1
    obtain ⟨g0, hg0, h2⟩ := (hpass _ _).mp h2
    refine ⟨g0.1, g0.2, hg0, (g1 g0 hg0).1, (g1 g0 hg0).2, q', h1, ?_⟩
    rw [hvals q' (List.mem_of_find?_eq_some h1)]
    exact h2
  have hLP : ∀ s, (shiftCfg c r g).feedAll (shiftInit c r g) r.probes = some s →
      laterShift inv ord c r = (match s.out, g with
        | none, _ => some .running
        | some .accepted, some g => some (.finished g.1 g.2)
        | some .accepted, none => none
        | some (.solved num den), _ => do
          let k ← c.base.coefs.combineNext inv num den
          endPrime ord { c with singular := true, num := nextSide c.num s.num, den := nextSide c.den s.den } (solvedDegs c.num.zeros s.num) (solvedDegs c.den.zeros s.den) k) := by
    intro s hs
    unfold laterShift
    rw [eg]
    simp only [Option.bind_eq_bind, Option.bind_some]
    rw [hs]
    rfl
  have hP := shift_prob hn hd h hon hr g
  have hG := shift_pts hn hd h hon hr g
  have hV := shift_values hr g
  rw [hN', hD'] at hP hG hV
  obtain ⟨aN, -⟩ := h.askedN hn hon r.cfg.n
  obtain ⟨aD, -⟩ := h.askedD hd hon r.cfg.n
  obtain ⟨s, e1, e2, e3, -⟩ := RShift.C61_prime (c := shiftCfg c r g) hr.gt hP hguess _ hr.nodup hG
  have e5 := fun ho => RShift.C61_enough (c := shiftCfg c r g) hr.gt hP hguess _ hr.nodup hG e1 ho
  have e8 := fun {num den} ho => RShift.prime_ends (c := shiftCfg c r g) hr.gt hP hguess _ hr.nodup hG e1 (num := num) (den := den) ho
  rw [hV, ← shift_init hn hd h hon hr g] at e1
  rw [hLP s e1]
  cases ho : s.out with
  | none =>
    refine ⟨_, rfl, Or.inr (Or.inr ⟨rfl, ?_, ?_⟩), fun _ N D he => by cases he⟩
    · intro hE
      obtain ⟨o, o1, o2, o3⟩ := e5 ho
      have hw : ∃ b j, o ≤ ((side n d b).support.filter (fun m => m.degree = j)).card := by
        rcases le_max_iff.mp o2 with o2 | o2
        · obtain ⟨j, hj⟩ := prior_width hn h.base.num h.base.unNum o1 o2
          exact ⟨false, j, hj⟩
        · obtain ⟨j, hj⟩ := prior_width hd h.base.den h.base.unDen o1 o2
          exact ⟨true, j, hj⟩
      have h3 := hE o o1 (by
        obtain ⟨b, j, hj⟩ := hw
        refine ⟨b, j, ?_⟩
        convert hj)
      rw [List.filter_map, List.length_map] at o3
      rw [show (fun q : ZMod r.p × ZMod r.p × List ℕ => decide (q.2.2 = List.replicate (k - 1) o)) =
        ((fun q : ZMod r.p × List ℕ => decide (q.2 = List.replicate ((shiftCfg c r g).n - 1) o)) ∘ fun q => (q.1, q.2.2)) by
          funext q; show _ = decide (q.2.2 = List.replicate (r.cfg.n - 1) o); rw [hk]] at h3
      rw [← aN, ← aD] at h3
      exact absurd o3 (not_lt.mpr h3)
    · intro hs
      apply hnofirst
      by_contra hc
      obtain ⟨q, hq⟩ := Option.ne_none_iff_exists'.mp hc
      obtain ⟨g0, hg0, x1, x2⟩ := hsmall hs
      have := e2.mpr ⟨q, hq, hexact g0 hg0 x1 x2 _ _⟩
      rw [ho] at this
      cases this
  | some o =>
    cases o with
    | accepted =>
      obtain ⟨q, h1, h2⟩ := e2.mp ho
      obtain ⟨N, D, h3, h4⟩ := hacc q h1 h2
      rw [h3]
      refine ⟨_, rfl, Or.inl ⟨_, _, rfl, h4⟩, ?_⟩
      intro hs N' D' heq
      obtain ⟨rfl, rfl⟩ := Out.finished.inj heq
      obtain ⟨g0, hg0, x1, x2⟩ := hsmall hs
      rw [h3] at hg0
      obtain rfl := Option.some.inj hg0
      exact ⟨x1, x2⟩
    | solved num den =>
      obtain ⟨⟨q, h1, h2⟩, -⟩ := e3 num den ho
      obtain ⟨⟨τ, hτ, rN, rD⟩, eN, eD⟩ := e8 ho
      have hτ1 : τ * factor n d c.normDen r = 1 := by
        have : (if c.normalizerDen then D' else N') = C (factor n d c.normDen r) * red r.p (side n d c.normalizerDen) := by
          unfold side
          rw [← hN', ← hD']
          cases c.normalizerDen <;> rfl
        have hτ : τ * coeff c.normalizerDeg.toFinsupp (if c.normalizerDen then D' else N') = 1 := hτ
        rw [this, coeff_C_mul, red_coeff, h.one, Rat.cast_one, mul_one] at hτ
        exact hτ
      have hall : c.base.coefs.combNi ++ c.base.coefs.combDi ≠ [] := by
        intro hall
        rw [List.append_eq_nil_iff] at hall
        obtain ⟨g0, hg0, x1, x2⟩ := g2 (by rw [hall.1]; simp) (by rw [hall.2]; simp)
        exact h2 (hexact g0 hg0 (rnPoly_exact hn x1) (rnPoly_exact hd x2) _ _)
      have rN : RShift.Unknowns r.cfg.n (c.num.prior c.base.unNum c.base.coefs.gNi) N' τ num := rN
      have rD : RShift.Unknowns r.cfg.n (c.den.prior c.base.unDen c.base.coefs.gDi) D' τ den := rD
      obtain ⟨kk, e6, k1, k2, k3, -, -, k4, k5⟩ := C36_combine_next (c1 := coefOf n) (c2 := coefOf d) (K1 := monos k n) (K2 := monos k d) c.base.coefs hinv (p := r.p)
        (by rw [hM]; exact h.base.pos) (by rw [hM]; exact hpM) hall (by rw [hM]; exact h.base.num) (by rw [hM]; exact h.base.den)
        (num := num) (den := den) (fun t _ => hr.denom false _) (fun t _ => hr.denom true _)
        (fun t ht => by
          rw [rN.other t.1 (by rw [hk]; exact ((side_keys hn h.base.num).2.2 t.1 (List.mem_map_of_mem ht)).1) (not_mem_known h.base.num ht), ← hN', coeff_C_mul, ← mul_assoc, hτ1, one_mul, red_coeff]; rfl)
        (fun t ht => by
          rw [rD.other t.1 (by rw [hk]; exact ((side_keys hd h.base.den).2.2 t.1 (List.mem_map_of_mem ht)).1) (not_mem_known h.base.den ht), ← hD', coeff_C_mul, ← mul_assoc, hτ1, one_mul, red_coeff]; rfl)
        (fun t _ => by rw [hM]; exact (hx _).1) (fun t _ => by rw [hM]; exact (hx _).2)
      rw [hM] at k1 k2 k3
      obtain ⟨b', hb'⟩ : ∃ b', RRun.endCross ord c.base kk = b' := ⟨_, rfl⟩
      obtain ⟨cc, hcc⟩ : ∃ cc : Cross, { c with singular := true, num := nextSide c.num s.num, den := nextSide c.den s.den } = cc := ⟨_, rfl⟩
      obtain ⟨sing, hsing⟩ : ∃ sing, stillSingular cc (solvedDegs c.num.zeros s.num) (solvedDegs c.den.zeros s.den) b' = sing := ⟨_, rfl⟩
      have e7 : (do
        let k ← c.base.coefs.combineNext inv num den
        endPrime ord { c with singular := true, num := nextSide c.num s.num, den := nextSide c.den s.den } (solvedDegs c.num.zeros s.num) (solvedDegs c.den.zeros s.den) k) =
          some (.nextPrime { cc with base := b', singular := sing, asks := sing }) := by
        rw [e6]
        simp only [Option.bind_eq_bind, Option.bind_some]
        unfold endPrime
        rw [hcc, if_neg (by rw [← hcc]; show ¬ c.base.primeNumber + 1 = 300; omega)]
        simp only
        rw [show cc.base = c.base by rw [← hcc], hb', hsing]
      have hpp : (0 : ℤ) < r.p := by exact_mod_cast r.fact.out.pos
      have hbase : Base k n d (M * r.p) b' := by
        rw [← hb']
        exact ⟨k1, mul_pos h.base.pos hpp, k2, k3, rfl, rfl, grouped_end hord _, grouped_end hord _, by have := h.base.zeros; simp only [endCross]; omega⟩
      have hbN : b'.coefs.combNi = kk.combNi := by rw [← hb']; rfl
      have hbD : b'.coefs.combDi = kk.combDi := by rw [← hb']; rfl
      have hcN : c.normDen = false → b'.coefs.combNi.find? (List.replicate k 0) = none := fun h0 => by rw [hbN]; exact k4 _ (h.constN h0)
      have hcD : c.normDen = true → b'.coefs.combDi.find? (List.replicate k 0) = none := fun h0 => by rw [hbD]; exact k5 _ (h.constD h0)
      rw [← hN'] at eN
      rw [← hD'] at eD
      have eN : RShift.EndShift (shiftCfg c r g) (C (factor n d c.normDen r) * red r.p n) (c.num.prior c.base.unNum c.base.coefs.gNi) (RShift.startN (shiftCfg c r g)) s.num := eN
      have eD : RShift.EndShift (shiftCfg c r g) (C (factor n d c.normDen r) * red r.p d) (c.den.prior c.base.unDen c.base.coefs.gDi) (RShift.startD (shiftCfg c r g)) s.den := eD
      have dN : (RShift.startN (shiftCfg c r g)).dense = (RShift.setSide (F := ZMod r.p) k (!c.normDen) (c.num.prior c.base.unNum c.base.coefs.gNi)).dense := by
        subst hk; rfl
      have dD : (RShift.startD (shiftCfg c r g)).dense = (RShift.setSide (F := ZMod r.p) k c.normDen (c.den.prior c.base.unDen c.base.coefs.gDi)).dense := by
        subst hk; rfl
      have qN : (!c.normDen) = true → c.base.coefs.combNi.find? (List.replicate k 0) = none := fun h0 => h.constN (by simpa using h0)
      have hcN' : (!c.normDen) = true → b'.coefs.combNi.find? (List.replicate k 0) = none := fun h0 => hcN (by simpa using h0)
      refine ⟨_, e7, Or.inr (Or.inl ⟨_, rfl, ?_, by rw [← hcc]; exact hon, rfl, by rw [← hcc], by rw [← hcc], by rw [← hcc], by rw [← hb']; rfl, ?_⟩), fun _ N D he => by cases he⟩
      · subst hcc
        refine ⟨hbase, h.num.next rfl rfl, h.den.next rfl rfl, fun _ => ?_, fun _ => ?_, h.len, h.one, ?_, h.den0, h.eqn, fun h0 => h0, fun _ => hon, ?_⟩
        · exact next_shifts (c := shiftCfg c r g) (S0 := RShift.startN (shiftCfg c r g)) hn h.base.num h.base.unNum hbase.num hbase.unNum h.num (h.shN hon) hu qN hcN' (hr.same false) (hr.distinct false) hr.anchor (hr.large false) hk eN dN
        · exact next_shifts (c := shiftCfg c r g) (S0 := RShift.startD (shiftCfg c r g)) hd h.base.den h.base.unDen hbase.den hbase.unDen h.den (h.shD hon) hu h.constD hcD (hr.same true) (hr.distinct true) hr.anchor (hr.large true) hk eD dD
        · show (if c.normDen then b'.coefs.combDi else b'.coefs.combNi).find? (List.replicate k 0) = none
          cases hb : c.normDen with
          | true => exact hcD hb
          | false => exact hcN hb
        · rcases h.progress with ⟨b, m, hm, hp1⟩ | ⟨-, hmany⟩
          · left
            refine ⟨b, m, hm, fun m' hm' hdeg => ?_⟩
            have := hp1 m' hm' hdeg
            show (if b then b'.coefs.combDi else b'.coefs.combNi).find? (exps k m') = none
            rw [hbN, hbD]
            cases b with
            | true => exact k5 _ this
            | false => exact k4 _ this
          · cases hs : sing with
            | true => exact Or.inr ⟨rfl, hmany⟩
            | false =>
              left
              rw [hs] at hsing
              have hzero : ∀ (b : Bool) (x : Side), Shape k (side n d b) (S b) x → x.maxDeg ≠ 0 := by
                intro b x hx h0
                obtain ⟨m, hm, hm0⟩ := hx.lead
                obtain ⟨m', hm', h1, h2⟩ := hmany b m hm
                rw [h0] at hm0
                rw [hm0] at h2
                rw [Finsupp.degree_eq_zero_iff] at hm0 h2
                exact h1 (by rw [hm0, h2])
              have z1 := hzero false c.num h.num
              have z2 := hzero true c.den h.den
              have fin : ∀ (b : Bool) (j : ℕ) (U : FFMap (List (List ℕ))) (comb : MpzMap), (∃ m ∈ (side n d b).support, m.degree = j) → Grouped (comb.map Prod.fst) U → U.find? [j] = none →
                  (if b then b'.coefs.combDi else b'.coefs.combNi) = comb → InVars k (side n d b) →
                  ∃ b, ∃ m ∈ (side n d b).support, ∀ m' ∈ (side n d b).support, m'.degree = m.degree → (if b then b'.coefs.combDi else b'.coefs.combNi).find? (exps k m') = none := by
                rintro b j U comb ⟨m, hm, rfl⟩ hG hf hc hv
                refine ⟨b, m, hm, fun m' hm' hdeg => ?_⟩
                rw [hc, find?_eq_none]
                intro h0
                refine grouped_none hG hf _ h0 ?_
                rw [← RShift.toFinsupp_degree, toFinsupp_exps (hv m' hm'), hdeg]
              unfold stillSingular at hsing
              have y1 : ¬ (nextSide c.num s.num).maxDeg = 0 := z1
              have y2 : ¬ (nextSide c.den s.den).maxDeg = 0 := z2
              simp only [Bool.true_and] at hsing
              rw [show ((nextSide c.num s.num).maxDeg == 0) = false by simpa using y1, show ((nextSide c.den s.den).maxDeg == 0) = false by simpa using y2] at hsing
              simp only [Bool.or_false, Bool.not_false, Bool.true_and, Bool.and_eq_false_iff, List.all_eq_false] at hsing
              rcases hsing with ⟨j, hj, h0⟩ | ⟨j, hj, h0⟩
              · exact fin false j _ _ (solved_mono eN hj) hbase.unNum (by simpa using h0) rfl hn
              · exact fin true j _ _ (solved_mono eD hj) hbase.unDen (by simpa using h0) rfl hd
      · intro hs
        obtain ⟨g0, hg0, x1, x2⟩ := hsmall hs
        exact h2 (hexact g0 hg0 x1 x2 _ _)

end
end FireFly.RRun.Shifted
