import Verif.Lemmas.RatShiftAllCore
/-! # A further prime field, with or without shift -/
set_option linter.all false
namespace FireFly.RRun.Shifted
open MvPolynomial FFMap

section
variable {k : ℕ} {n d : MvPolynomial ℕ ℚ} {S : Bool → ℕ → Finset (ℕ →₀ ℕ)} {M : ℤ} {c : Cross} {r : RRun.Prime}

/-- the degrees of the unknown coefficients -/
lemma un_degree {f : MvPolynomial ℕ ℚ} (hf : InVars k f) {g : RnMap} {comb : MpzMap} {U : FFMap (List (List ℕ))} (h : SideOK (coefOf f) (monos k f) M g comb) (hU : Grouped (comb.map Prod.fst) U) {j : ℕ}
    (hj : [j] ∈ U.map Prod.fst) : ∃ m ∈ f.support, m.degree = j ∧ comb.find? (RRun.exps k m) ≠ none := by
  obtain ⟨u, hu, hu1⟩ := List.mem_map.mp hj
  obtain ⟨i, h1, h2, h3⟩ := hU.form u hu
  obtain rfl : i = j := by rw [hu1] at h1; exact (List.cons.inj h1).1.symm
  obtain ⟨e, he⟩ := List.exists_mem_of_ne_nil _ h2
  have hk : e ∈ comb.map Prod.fst := hU.perm.mem_iff.mp (List.mem_flatMap.mpr ⟨u, hu, he⟩)
  obtain ⟨k1, k2⟩ := (side_keys hf h).2.2 e hk
  refine ⟨e.toFinsupp, mem_support_iff.mpr k2, by rw [RShift.toFinsupp_degree, h3 e he], ?_⟩
  rw [show RRun.exps k e.toFinsupp = e from exps_toFinsupp k1]
  intro h0
  exact find?_eq_none.mp h0 hk

/-- A further prime field without shift. -/
theorem plain_core {inv : ℤ → ℤ → ℤ} (hinv : InvertSpec inv) {ord : RRun.Order} (hord : ord.OK) (hn : InVars k n) (hd : InVars k d) (h : Ready k n d S M c) (hsing : c.singular = false) (hoff : c.on = false)
    (hr : PlainOK k n d r) (hshift : r.cfg.shift = List.replicate r.cfg.n 0) (hne : r.probes ≠ []) (hpM : ¬ (r.p : ℤ) ∣ M) (h300 : c.base.primeNumber + 1 < 300)
    (hx : ∀ m, ¬ Deceptive (coeff m n) M (M * r.p) ∧ ¬ Deceptive (coeff m d) M (M * r.p)) :
    ∃ out, laterPlain inv ord c r = some out ∧
      ((∃ N D, out = .finished N D ∧ Certified k n d M r N D) ∨
       (∃ c', out = .nextPrime c' ∧ Ready k n d S (M * r.p) c' ∧ c'.on = false ∧ c'.asks = c'.singular ∧ c'.normDen = c.normDen ∧ c'.normalizerDen = c.normalizerDen ∧ c'.normalizerDeg = c.normalizerDeg ∧
         c'.base.primeNumber = c.base.primeNumber + 1 ∧ ¬ AllSmall n d M) ∨
       (out = .running ∧ ¬ Enough k n d r ∧ (AllSmall n d M → ∀ q ∈ r.probes, q.2.2 ≠ List.replicate (k - 1) 1))) ∧
      (AllSmall n d M → ∀ N D, out = .finished N D → rnPoly N = n ∧ rnPoly D = d) := by
  haveI := r.fact
  obtain ⟨b, m, hm, hp⟩ : ∃ b, ∃ m ∈ (side n d b).support, ∀ m' ∈ (side n d b).support, m'.degree = m.degree → (if b then c.base.coefs.combDi else c.base.coefs.combNi).find? (RRun.exps k m') = none := by
    rcases h.progress with h0 | h0
    · exact h0
    · rw [hsing] at h0; cases h0.1
  obtain ⟨out, e1, e2, e3⟩ := later_core hinv hord hn hd h.base hr.field hne hpM h300 (by
    intro o A B ts hA hB h1 h2 h3 x y h4
    have uA := fun j hj => un_degree hn h.base.num h.base.unNum (hA j hj)
    have uB := fun j hj => un_degree hd h.base.den h.base.unDen (hB j hj)
    refine hr.det o A B ts (fun j hj => ?_) (fun j hj => ?_) ?_ h1 h2 h3 x y h4
    · obtain ⟨m, q1, q2, -⟩ := uA j hj; exact ⟨m, q1, q2⟩
    · obtain ⟨m, q1, q2, -⟩ := uB j hj; exact ⟨m, q1, q2⟩
    · cases b with
      | false =>
        refine Or.inl ⟨m, hm, fun h0 => ?_⟩
        obtain ⟨m', q1, q2, q3⟩ := uA _ h0
        exact q3 (hp m' q1 q2)
      | true =>
        refine Or.inr ⟨m, hm, fun h0 => ?_⟩
        obtain ⟨m', q1, q2, q3⟩ := uB _ h0
        exact q3 (hp m' q1 q2)) hx
  unfold laterPlain
  rw [e1]
  rcases e2 with ⟨N, D, rfl, hc⟩ | ⟨kk, rfl, hb, k4, k5, hs⟩ | ⟨rfl, q1, q2⟩
  · refine ⟨_, rfl, Or.inl ⟨N, D, rfl, hc.num, hc.den, ?_⟩, ?_⟩
    · obtain ⟨q, h1, h2⟩ := hc.probe
      refine ⟨q, h1, ?_⟩
      rw [hshift, value_zero]; exact h2
    · intro hs N' D' he
      obtain ⟨rfl, rfl⟩ := Out.finished.inj he
      exact e3 hs _ _ rfl
  · refine ⟨_, rfl, Or.inr (Or.inl ⟨_, rfl, ?_, hoff, rfl, rfl, rfl, rfl, rfl, hs⟩), fun _ N D he => by cases he⟩
    refine ⟨hb, h.num.next rfl rfl, h.den.next rfl rfl, fun h0 => ?_, fun h0 => ?_, h.len, h.one, ?_, h.den0, h.eqn, fun h0 => h0, fun h0 => (by cases h0), Or.inl ⟨b, m, hm, fun m' q1 q2 => ?_⟩⟩
    · rw [show c.on = true from h0] at hoff; cases hoff
    · rw [show c.on = true from h0] at hoff; cases hoff
    · show (if c.normDen then kk.combDi else kk.combNi).find? (List.replicate k 0) = none
      cases hb : c.normDen with
      | true => exact k5 _ (h.constD hb)
      | false => exact k4 _ (h.constN hb)
    · have := hp m' q1 q2
      show (if b then kk.combDi else kk.combNi).find? (RRun.exps k m') = none
      cases b with
      | true => exact k5 _ this
      | false => exact k4 _ this
  · exact ⟨_, rfl, Or.inr (Or.inr ⟨rfl, q1, q2⟩), fun _ N D he => by cases he⟩

end
end FireFly.RRun.Shifted
