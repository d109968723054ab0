import Verif.Lemmas.PolyRunBasic
/-!
# C47: polynomials over the rational numbers, from several prime fields
-/
set_option linter.all false
namespace FireFly.PRun
open MvPolynomial RRun FFMap

/-- values with the requested orders are the run of C43 -/
lemma answers_feed {F : Type} [_root_.Field F] [DecidableEq F] {c : MPoly.Cfg F} {g : FFMap F} : ∀ (L : List (F × List ℕ)) (N : ℕ) (s : MPoly.St F), MPoly.answered c g N = some s → Answers c s L →
    (∀ q ∈ L, q.1 = MPoly.valueAt c.anchor g q.2) → c.feedAll s L = MPoly.answered c g (N + L.length)
  | [], N, s, h, _, _ => by rw [List.length_nil, Nat.add_zero, h]; rfl
  | q :: L, N, s, h, ha, hv => by
    have heq : c.interpolate s q.1 q.2 = c.interpolate s (MPoly.valueAt c.anchor g s.ord) s.ord := by
      cases hr : s.result with
      | some r => rw [interpolate_done c hr, interpolate_done c hr]
      | none => rw [hv q (by simp), ha.1 hr]
    have hN : MPoly.answered c g (N + 1) = c.interpolate s q.1 q.2 := by
      show (MPoly.answered c g N).bind _ = _
      rw [h, Option.bind_some, heq]
    unfold MPoly.Cfg.feedAll
    rw [List.foldlM_cons, List.length_cons, show N + (L.length + 1) = (N + 1) + L.length by omega]
    cases hs : c.interpolate s q.1 q.2 with
    | none =>
      rw [hs] at hN
      have : ∀ j, MPoly.answered c g (N + 1 + j) = none := by
        intro j
        induction j with
        | zero => exact hN
        | succ j ih =>
          show (MPoly.answered c g (N + 1 + j)).bind _ = none
          rw [ih]; rfl
      rw [this]; rfl
    | some s' =>
      rw [hs] at hN
      exact answers_feed L (N + 1) s' hN (ha.2 s' hs) (fun q hq => hv q (List.mem_cons_of_mem _ hq))

/-- what a prime field determines: the polynomial modulo `p` -/
lemma interp_spec {k : ℕ} {f : MvPolynomial ℕ ℚ} {r : Field} (h : FieldOK k f r) : haveI := r.fact
    ∃ st, r.cfg.feedAll r.cfg.init r.probes = some st ∧ (∀ res, st.result = some res → WFMap k res ∧ (∀ t ∈ res, t.2 ≠ 0) ∧ denote res = red r.p f) ∧ (Enough f r → ∃ res, st.result = some res) := by
  haveI := r.fact
  have hord : r.cfg.init.ord = ones k := by
    show List.replicate r.cfg.n 1 = _
    rw [h.nvars]; rfl
  obtain ⟨g, hg, hcase⟩ := h.target
  have hval : ∀ q ∈ r.probes, q.1 = MPoly.valueAt r.cfg.anchor g q.2 := by
    intro q hq
    rw [h.values q hq]
    unfold valueMod MPoly.valueAt
    rw [hg]
  rcases hcase with ⟨rfl, hnew⟩ | hfit
  · have hz : ∀ q ∈ r.probes, q.1 = 0 := by
      intro q hq
      rw [hval q hq]
      simp [MPoly.valueAt, denote]
    obtain ⟨st, e1, e2⟩ := MPoly.C43_zero (c := r.cfg) (by rw [h.nvars]; exact h.vars) hnew
    rw [h.nvars] at e1
    rcases once_split _ _ h.once with hno | ⟨L1, q, L2, hL, hq, h1, h2⟩
    · refine ⟨r.cfg.init, feedAll_skip r.cfg _ _ ?_, ?_, ?_⟩
      · intro q hq
        rw [hord]
        simpa using hno q hq
      · intro res hres; cases hres
      · rintro ⟨ha, hlen⟩
        exfalso
        rcases hp : r.probes with _ | ⟨q, L⟩
        · rw [hp] at hlen; simp at hlen
        · rw [hp] at ha
          have := ha.1 rfl
          rw [hord] at this
          have h3 := hno q (by rw [hp]; simp)
          rw [this] at h3; simp at h3
    · refine ⟨st, ?_, ?_, fun _ => ⟨_, e2⟩⟩
      · have hq' : q.2 = ones k := by simpa using hq
        have h0 : q.1 = 0 := hz q (by rw [hL]; simp)
        have hs := feedAll_skip r.cfg r.cfg.init L1 (fun x hx => by rw [hord]; simpa using h1 x hx)
        unfold MPoly.Cfg.feedAll at hs ⊢
        rw [hL, List.foldlM_append, hs, Option.bind_eq_bind, Option.bind_some, List.foldlM_cons, hq', h0]
        unfold ones
        rw [e1]
        exact feedAll_done r.cfg e2 L2
      · intro res hres
        rw [e2] at hres
        cases hres
        exact ⟨WFMap.nil k, by simp, hg⟩
  · obtain ⟨st, e1, e2⟩ := MPoly.C43_any_order hfit r.probes hval
    refine ⟨st, e1, ?_, ?_⟩
    · intro res hres
      obtain ⟨i1, i2, i3⟩ := e2 res hres
      rw [h.nvars] at i1
      refine ⟨i1, ?_, i3.trans hg⟩
      rintro ⟨t, v⟩ ht
      have := FFMap.find?_of_mem i1.1 ht
      rw [i2] at this
      exact hfit.nonzero _ (FFMap.find?_mem this)
    · rintro ⟨ha, hlen⟩
      have e3 := answers_feed r.probes 0 r.cfg.init rfl ha hval
      rw [e1, Nat.zero_add] at e3
      have hwf := hfit.wf
      rw [h.nvars] at hwf
      have hmem : ∀ t ∈ g, t.1.toFinsupp ∈ f.support := by
        rintro ⟨t, v⟩ ht
        rw [mem_support_iff]
        intro hc
        have h1 : coeff t.toFinsupp (denote g) = v := by
          rw [coeff_denote hwf (hwf.2 _ ht), FFMap.find?_of_mem hwf.1 ht]; rfl
        rw [hg, red_coeff, hc, Rat.cast_zero] at h1
        exact hfit.nonzero _ ht h1.symm
      have hD : ∀ t ∈ g, t.1.sum ≤ f.totalDegree := by
        intro t ht
        rw [← degree_toFinsupp]
        exact le_totalDegree (hmem t ht)
      have hcard : g.length ≤ f.support.card := by
        have hinj : (g.map (fun t => t.1.toFinsupp)).Nodup := by
          have : g.map (fun t => t.1.toFinsupp) = (g.map Prod.fst).map (fun e : List ℕ => e.toFinsupp) := by rw [List.map_map]; rfl
          rw [this]
          apply List.Nodup.map_on _ hwf.1
          intro a ha b hb hab
          obtain ⟨s, hs, rfl⟩ := List.mem_map.mp ha
          obtain ⟨s', hs', rfl⟩ := List.mem_map.mp hb
          exact toFinsupp_inj (hwf.2 s hs) (hwf.2 s' hs') hab
        have h1 := List.toFinset_card_of_nodup hinj
        rw [List.length_map] at h1
        rw [← h1]
        apply Finset.card_le_card
        intro m hm
        rw [List.mem_toFinset] at hm
        obtain ⟨t, ht, rfl⟩ := List.mem_map.mp hm
        exact hmem t ht
      obtain ⟨st', e4, -, e5⟩ := MPoly.C43_reconstruct hfit hD r.probes.length
      rw [e4] at e3
      rw [Option.some.inj e3]
      apply e5
      refine le_trans ?_ (le_trans (Nat.le_succ _) hlen)
      gcongr

/-- residues of the coefficients -/
lemma res_coeff {p : ℕ} [Fact p.Prime] {k : ℕ} {f : MvPolynomial ℕ ℚ} {res : FFMap (ZMod p)} (hw : WFMap k res) (hd : denote res = red p f) {e : List ℕ} (he : e.length = k) :
    (res.find? e).getD 0 = ((RRun.coefOf f e : ℚ) : ZMod p) := by
  rw [coeff_find hw he, hd, red_coeff]; rfl

lemma res_supp {p : ℕ} [Fact p.Prime] {k : ℕ} {f : MvPolynomial ℕ ℚ} {res : FFMap (ZMod p)} (hw : WFMap k res) (hnz : ∀ t ∈ res, t.2 ≠ 0) (hd : denote res = red p f) :
    ∀ e ∈ res.map Prod.fst, RRun.coefOf f e ≠ 0 := by
  intro e he hc
  obtain ⟨⟨e', v⟩, ht, rfl⟩ := List.mem_map.mp he
  have := res_coeff hw hd (hw.2 _ ht)
  rw [hc, FFMap.find?_of_mem hw.1 ht] at this
  simp only [Option.getD_some, Rat.cast_zero] at this
  exact hnz _ ht this

/-- a coefficient that is zero modulo `M` and small for `M` is zero -/
lemma small_zero {c : ℚ} {M : ℤ} (h : Reduces c 0 M) (hs : Small c M) : c = 0 := by
  have h1 := h.2.2
  rw [zero_mul, Int.modEq_zero_iff_dvd] at h1
  by_contra hc
  have hn : c.num ≠ 0 := fun h => hc (Rat.num_eq_zero.mp h)
  have h2 := Int.le_of_dvd (abs_pos.mpr hn) ((dvd_abs _ _).mpr h1)
  have h3 : 0 < |c.num| := abs_pos.mpr hn
  have h4 := hs.1
  rw [← sq_abs] at h4
  nlinarith

lemma rnPoly_coeff {k : ℕ} {G : RnMap} (hw : WFMap k G) {e : List ℕ} (he : e.length = k) : coeff e.toFinsupp (RRun.rnPoly G) = ((G.find? e).map RationalNumber.val).getD 0 := by
  have hw2 : WFMap k (G.map (fun t => (t.1, t.2.val))) := by
    refine ⟨by rw [List.map_map]; exact hw.1, ?_⟩
    intro t ht
    obtain ⟨s, hs, rfl⟩ := List.mem_map.mp ht
    exact hw.2 s hs
  unfold RRun.rnPoly
  rw [coeff_denote hw2 he]
  congr 1
  clear hw hw2
  induction G with
  | nil => rfl
  | cons t G ih =>
    obtain ⟨tk, tv⟩ := t
    rw [List.map_cons, find?_cons, find?_cons, ih]
    by_cases h : e = tk <;> simp [h]

lemma rnPoly_other {k : ℕ} {G : RnMap} (hw : WFMap k G) {m : ℕ →₀ ℕ} (hm : ∀ e : List ℕ, e.length = k → e.toFinsupp ≠ m) : coeff m (RRun.rnPoly G) = 0 := by
  have hw2 : WFMap k (G.map (fun t => (t.1, t.2.val))) := by
    refine ⟨by rw [List.map_map]; exact hw.1, ?_⟩
    intro t ht
    obtain ⟨s, hs, rfl⟩ := List.mem_map.mp ht
    exact hw.2 s hs
  unfold RRun.rnPoly
  exact coeff_denote_other hw2 hm

/-- the monomials of the variables -/
lemma mono_cases {k : ℕ} {f : MvPolynomial ℕ ℚ} (hf : InVars k f) (m : ℕ →₀ ℕ) : (∃ e : List ℕ, e.length = k ∧ e.toFinsupp = m) ∨ (coeff m f = 0 ∧ ∀ e : List ℕ, e.length = k → e.toFinsupp ≠ m) := by
  by_cases h : ∃ e : List ℕ, e.length = k ∧ e.toFinsupp = m
  · exact Or.inl h
  · right
    push Not at h
    refine ⟨?_, h⟩
    by_contra hc
    apply h (exps k m) (by simp [exps])
    exact toFinsupp_exps (hf m (mem_support_iff.mpr hc))

/-- the guess in a further prime field -/
lemma guess_cert {k : ℕ} {f : MvPolynomial ℕ ℚ} (hf : InVars k f) {M : ℤ} {c : Cross} (h : OK k f M c) :
    ∃ o, guess c.prime c.ci [] = some o ∧ (∀ G, o = some G → WFMap k G ∧ (∀ t ∈ G, t.2.Valid) ∧ (∀ t ∈ G, RRun.coefOf f t.1 ≠ 0) ∧
        (∀ m, (coeff m (RRun.rnPoly G)).num * (coeff m f).den ≡ (coeff m f).num * (coeff m (RRun.rnPoly G)).den [ZMOD M]) ∧ (AllSmall f M → RRun.rnPoly G = f)) ∧
      (AllSmall f M → ∃ G, o = some G) ∧ (c.ci = [] → o = some []) := by
  have hred : ∀ t ∈ c.ci, Reduces (RRun.coefOf f t.1) t.2 M := by
    rintro ⟨e, v⟩ ht
    have := h.res e (h.wf.2 _ ht)
    rw [FFMap.find?_of_mem h.wf.1 ht] at this
    exact this
  obtain ⟨o, e1, e2, e3⟩ := guess_spec (c := RRun.coefOf f) (M := M) c.ci [] (by simpa using h.wf.1) hred (by simp)
  rw [h.prime]
  refine ⟨o, e1, ?_, ?_, ?_⟩
  · intro G hG
    obtain ⟨k1, k2⟩ := e2 G hG
    rw [List.map_nil, List.nil_append] at k1
    have hw : WFMap k G := by
      rw [wf_iff, k1, ← wf_iff]; exact h.wf
    have hcase : ∀ e : List ℕ, e.length = k → (∃ v, (e, v) ∈ G ∧ G.find? e = some v) ∨ (G.find? e = none ∧ Reduces (RRun.coefOf f e) 0 M) := by
      intro e he
      cases hv : G.find? e with
      | some v => exact Or.inl ⟨v, FFMap.find?_mem hv, rfl⟩
      | none =>
        right
        refine ⟨rfl, ?_⟩
        have h1 := h.res e he
        rw [FFMap.find?_eq_none, k1, ← FFMap.find?_eq_none] at hv
        rw [hv] at h1
        exact h1
    refine ⟨hw, fun t ht => (k2 t ht).1, ?_, ?_, ?_⟩
    · intro t ht
      have : t.1 ∈ G.map Prod.fst := List.mem_map_of_mem ht
      rw [k1] at this
      obtain ⟨s, hs, hst⟩ := List.mem_map.mp this
      rw [← hst]; exact h.supp s hs
    · intro m
      rcases mono_cases hf m with ⟨e, he, rfl⟩ | ⟨h0, hm⟩
      · rw [rnPoly_coeff hw he]
        rcases hcase e he with ⟨v, hv, hfd⟩ | ⟨hfd, hr⟩
        · obtain ⟨k3, k4⟩ := k2 _ hv
          obtain ⟨v1, v2⟩ := valid_num_den k3
          rw [hfd]
          simp only [Option.map_some, Option.getD_some]
          rw [v1, v2]
          exact k4
        · rw [hfd]
          have := hr.2.2
          rw [zero_mul] at this
          simp only [Option.map_none, Option.getD_none, Rat.num_zero, zero_mul, Rat.den_zero, Nat.cast_one, mul_one]
          exact this.symm
      · rw [h0, rnPoly_other hw hm]
    · intro hs
      obtain ⟨G', hG', hex⟩ := e3 (by simp) (fun t _ => hs _)
      rw [hG] at hG'
      cases hG'
      ext m
      rcases mono_cases hf m with ⟨e, he, rfl⟩ | ⟨h0, hm⟩
      · rw [rnPoly_coeff hw he]
        rcases hcase e he with ⟨v, hv, hfd⟩ | ⟨hfd, hr⟩
        · rw [hfd]
          exact hex _ hv
        · rw [hfd]
          exact (small_zero hr (hs _)).symm
      · rw [h0, rnPoly_other hw hm]
  · intro hs
    obtain ⟨G, hG, -⟩ := e3 (by simp) (fun t _ => hs _)
    exact ⟨G, hG⟩
  · intro hci
    rw [hci] at e1
    exact (Option.some.inj e1).symm

/-- the end of a prime field: no further value for `(1, …, 1)`, no test -/
lemma rest_spec {inv : ℤ → ℤ → ℤ} {k : ℕ} {f : MvPolynomial ℕ ℚ} {r : Field} (h : FieldOK k f r) {c : Cross} (hc : c.newPrime = false) {L1 L2 : List (ZMod r.p × List ℕ)} {q : ZMod r.p × List ℕ} (hL : r.probes = L1 ++ q :: L2)
    (h1 : ∀ x ∈ L1, x.2 ≠ ones k) (h2 : ∀ x ∈ L2, x.2 ≠ ones k) : haveI := r.fact
    ∃ o : Obj r.p, ({ cross := c, st := r.cfg.init } : Obj r.p).feedAll inv r.cfg (q :: L2) = some o ∧ o.done = none ∧
      ((∃ res, o.cross = c.combine inv res ∧ WFMap k res ∧ (∀ t ∈ res, t.2 ≠ 0) ∧ denote res = red r.p f) ∨ (o.cross = c ∧ ¬ Enough f r)) := by
  haveI := r.fact
  have hord : r.cfg.init.ord = ones k := by
    show List.replicate r.cfg.n 1 = _
    rw [h.nvars]; rfl
  obtain ⟨st, e1, e2, e3⟩ := interp_spec h
  have e4 : r.cfg.feedAll r.cfg.init (q :: L2) = some st := by
    have hs := feedAll_skip r.cfg r.cfg.init L1 (fun x hx => by rw [hord]; exact h1 x hx)
    unfold MPoly.Cfg.feedAll at hs e1 ⊢
    rw [hL, List.foldlM_append, hs, Option.bind_eq_bind, Option.bind_some] at e1
    exact e1
  refine ⟨_, obj_feed inv r.cfg (q :: L2) { cross := c, st := r.cfg.init } (by rw [List.tail_cons, h.nvars]; exact h2) rfl hc rfl st e4, ?_, ?_⟩
  · cases st.result <;> rfl
  · cases hr : st.result with
    | none =>
      right
      refine ⟨rfl, ?_⟩
      intro he
      obtain ⟨res, hres⟩ := e3 he
      rw [hr] at hres; cases hres
    | some res => exact Or.inl ⟨res, rfl, e2 res hr⟩

lemma no_ones {k : ℕ} {f : MvPolynomial ℕ ℚ} {r : Field} (h : FieldOK k f r) (hno : ∀ q ∈ r.probes, q.2 ≠ ones k) : ¬ Enough f r := by
  haveI := r.fact
  rintro ⟨ha, hlen⟩
  rcases hp : r.probes with _ | ⟨q, L⟩
  · rw [hp] at hlen; simp at hlen
  · rw [hp] at ha
    apply hno q (by rw [hp]; simp)
    rw [ha.1 rfl]
    show List.replicate r.cfg.n 1 = _
    rw [h.nvars]; rfl

/-- **C47 (the first prime field).** The values of `f` modulo the first prime `p` lead without undefined behaviour to the request for a new prime field, where all coefficients of `f` are known modulo
`p`, or to the wish for more values; the latter only if the values do not suffice. -/
theorem C47_first {inv : ℤ → ℤ → ℤ} {k : ℕ} {f : MvPolynomial ℕ ℚ} {r : Field} (h : FieldOK k f r) :
    ∃ out, field inv (Cross.initial r.p) r = some out ∧
      ((∃ c, out = .nextPrime c ∧ OK k f r.p c ∧ c.primeNumber = 1) ∨ (out = .running ∧ ¬ Enough f r)) := by
  haveI := r.fact
  have hord : r.cfg.init.ord = ones k := by
    show List.replicate r.cfg.n 1 = _
    rw [h.nvars]; rfl
  unfold field
  rcases once_split _ _ h.once with hno | ⟨L1, q, L2, hL, hq, h1, h2⟩
  · have hno' : ∀ q ∈ r.probes, q.2 ≠ ones k := fun q hq => by simpa using hno q hq
    rw [obj_idle inv r.cfg _ r.probes (Or.inl (fun q hq => by show q.2 ≠ r.cfg.init.ord; rw [hord]; exact hno' q hq))]
    simp only [Option.bind_eq_bind, Option.bind_some]
    refine ⟨_, rfl, Or.inr ⟨?_, no_ones h hno'⟩⟩
    simp [Cross.initial]
  · have h1' : ∀ x ∈ L1, x.2 ≠ ones k := fun x hx => by simpa using h1 x hx
    have h2' : ∀ x ∈ L2, x.2 ≠ ones k := fun x hx => by simpa using h2 x hx
    obtain ⟨o, e1, e2, e3⟩ := rest_spec (inv := inv) h (c := Cross.initial r.p) rfl hL h1' h2'
    have hs := obj_idle inv r.cfg ({ cross := Cross.initial r.p, st := r.cfg.init } : Obj r.p) L1 (Or.inl (fun q hq => by show q.2 ≠ r.cfg.init.ord; rw [hord]; exact h1' q hq))
    have hall : ({ cross := Cross.initial r.p, st := r.cfg.init } : Obj r.p).feedAll inv r.cfg r.probes = some o := by
      unfold Obj.feedAll at hs e1 ⊢
      rw [hL, List.foldlM_append, hs, Option.bind_eq_bind, Option.bind_some]
      exact e1
    rw [hall]
    simp only [Option.bind_eq_bind, Option.bind_some, e2]
    rcases e3 with ⟨res, hc, w1, w2, w3⟩ | ⟨hc, hne⟩
    · rw [hc]
      refine ⟨_, rfl, Or.inl ⟨(Cross.initial r.p).combine inv res, ?_, ?_, rfl⟩⟩
      · simp [Cross.initial, Cross.combine]
      · refine ⟨rfl, by exact_mod_cast r.fact.out.pos, convert_wf w1, ?_, ?_, rfl⟩
        · intro e he
          show Reduces _ (((convertToMpz res).find? e).getD 0) _
          rw [convert_getD, res_coeff w1 w3 he]
          exact reduces_cast r.p _ (h.den _)
        · intro t ht
          apply res_supp w1 w2 w3
          obtain ⟨s, hs, rfl⟩ := List.mem_map.mp (show t ∈ res.map _ from ht)
          exact List.mem_map_of_mem hs
    · rw [hc]
      exact ⟨_, rfl, Or.inr ⟨by simp [Cross.initial], hne⟩⟩

/-- **C47 (a further prime field).** Let all coefficients of `f` be known modulo `M`. The values of `f` modulo another prime `p` lead without undefined behaviour to
* a result; its coefficients agree with those of `f` modulo `M`, and it has the value of `f` modulo `p` at the anchor point; or
* the request for a new prime field, where all coefficients are known modulo `M * p`; or
* the wish for more values, but only if the values do not suffice.
If the coefficients of `f` are small for `M`, the value for `(1, …, 1)` leads to a result, and this is `f`. -/
theorem C47_field {inv : ℤ → ℤ → ℤ} (hinv : InvertSpec inv) {k : ℕ} {f : MvPolynomial ℕ ℚ} (hf : InVars k f) {M : ℤ} {c : Cross} (h : OK k f M c) {r : Field} (hr : FieldOK k f r) (hpM : ¬ (r.p : ℤ) ∣ M) :
    ∃ out, field inv c r = some out ∧
      ((∃ G, out = .finished G ∧ Certified k f M r G ∧ (AllSmall f M → RRun.rnPoly G = f)) ∨
        (∃ c', out = .nextPrime c' ∧ OK k f (M * r.p) c' ∧ c'.primeNumber = c.primeNumber + 1 ∧ ¬ AllSmall f M) ∨
        (out = .running ∧ ¬ Enough f r ∧ (AllSmall f M → ∀ q ∈ r.probes, q.2 ≠ ones k))) := by
  haveI := r.fact
  have hord : r.cfg.init.ord = ones k := by
    show List.replicate r.cfg.n 1 = _
    rw [hr.nvars]; rfl
  unfold field
  rcases once_split _ _ hr.once with hno | ⟨L1, q, L2, hL, hq, h1, h2⟩
  · have hno' : ∀ q ∈ r.probes, q.2 ≠ ones k := fun q hq => by simpa using hno q hq
    rw [obj_idle inv r.cfg _ r.probes (Or.inl (fun q hq => by show q.2 ≠ r.cfg.init.ord; rw [hord]; exact hno' q hq))]
    simp only [Option.bind_eq_bind, Option.bind_some]
    exact ⟨_, rfl, Or.inr (Or.inr ⟨by simp, no_ones hr hno', fun _ => hno'⟩)⟩
  · have h1' : ∀ x ∈ L1, x.2 ≠ ones k := fun x hx => by simpa using h1 x hx
    have h2' : ∀ x ∈ L2, x.2 ≠ ones k := fun x hx => by simpa using h2 x hx
    have hq' : q.2 = ones k := by simpa using hq
    have hs := obj_idle inv r.cfg ({ cross := c, st := r.cfg.init } : Obj r.p) L1 (Or.inl (fun q hq => by show q.2 ≠ r.cfg.init.ord; rw [hord]; exact h1' q hq))
    have hall : ({ cross := c, st := r.cfg.init } : Obj r.p).feedAll inv r.cfg r.probes =
        (({ cross := c, st := r.cfg.init } : Obj r.p).interpolate inv r.cfg q.1 q.2).bind (fun o => o.feedAll inv r.cfg L2) := by
      unfold Obj.feedAll at hs ⊢
      rw [hL, List.foldlM_append, hs, Option.bind_eq_bind, Option.bind_some, List.foldlM_cons]
      rfl
    obtain ⟨g, g1, g2, g3, g4⟩ := guess_cert hf h
    have hqv : q.1 = valueMod r f (ones k) := by rw [← hq']; exact hr.values q (by rw [hL]; simp)
    -- the case in which the field is interpolated
    have hgo : (c.ci = [] → valueMod r f (ones k) ≠ 0) → ¬ AllSmall f M →
        ({ cross := c, st := r.cfg.init } : Obj r.p).interpolate inv r.cfg q.1 q.2 = ({ cross := { c with crt := true, newPrime := false }, st := r.cfg.init } : Obj r.p).work inv r.cfg q.1 q.2 →
        ∃ out, (do
            let o ← ({ cross := c, st := r.cfg.init } : Obj r.p).feedAll inv r.cfg r.probes
            match o.done with
            | some g => some (Out.finished g)
            | none => some (if o.cross.newPrime ∧ c.primeNumber < o.cross.primeNumber then .nextPrime o.cross else .running)) = some out ∧
          ((∃ c', out = .nextPrime c' ∧ OK k f (M * r.p) c' ∧ c'.primeNumber = c.primeNumber + 1 ∧ ¬ AllSmall f M) ∨
            (out = .running ∧ ¬ Enough f r ∧ (AllSmall f M → ∀ q ∈ r.probes, q.2 ≠ ones k))) := by
      intro hval hns hint
      obtain ⟨o, e1, e2, e3⟩ := rest_spec (inv := inv) hr (c := { c with crt := true, newPrime := false }) rfl hL h1' h2'
      have hfirst : ({ cross := { c with crt := true, newPrime := false }, st := r.cfg.init } : Obj r.p).interpolate inv r.cfg q.1 q.2 =
          ({ cross := { c with crt := true, newPrime := false }, st := r.cfg.init } : Obj r.p).work inv r.cfg q.1 q.2 := by
        unfold Obj.interpolate
        rw [if_pos ⟨by show q.2 = r.cfg.init.ord; rw [hord]; exact hq', rfl⟩]
        rfl
      rw [hall, hint, ← hfirst]
      have : (({ cross := { c with crt := true, newPrime := false }, st := r.cfg.init } : Obj r.p).interpolate inv r.cfg q.1 q.2).bind (fun o => o.feedAll inv r.cfg L2) = some o := by
        rw [← e1]
        unfold Obj.feedAll
        rw [List.foldlM_cons]
        rfl
      rw [this]
      simp only [Option.bind_eq_bind, Option.bind_some, e2]
      rcases e3 with ⟨res, hc, w1, w2, w3⟩ | ⟨hc, hne⟩
      · rw [hc]
        have hne : c.ci ≠ [] ∨ res ≠ [] := by
          by_contra hcon
          push Not at hcon
          obtain ⟨a1, a2⟩ := hcon
          apply hval a1
          unfold valueMod
          rw [← w3, a2]
          simp [denote]
        obtain ⟨m, m1, m2, m3, m4⟩ := crtMaps_ok hinv (c := RRun.coefOf f) h.pos hpM h.wf w1 hne (fun e => hr.den _) h.res (fun e he => res_coeff w1 w3 he)
        rw [← h.prime] at m1
        refine ⟨_, rfl, Or.inl ⟨_, if_pos ⟨rfl, ?hlt⟩, ?hok, rfl, hns⟩⟩
        case hlt => show c.primeNumber < c.primeNumber + 1; omega
        case hok =>
          have hcomb : ({ c with crt := true, newPrime := false } : Cross).combine inv res = { c with ci := m, prime := c.prime * r.p, crt := true, newPrime := true, primeNumber := c.primeNumber + 1 } := by
            unfold Cross.combine
            simp only [if_true]
            rw [m1]
          rw [hcomb]
          refine ⟨by rw [h.prime], mul_pos h.pos (by exact_mod_cast r.fact.out.pos), m2, m3, ?_, rfl⟩
          intro t ht
          rcases m4 t.1 (List.mem_map_of_mem ht) with ht' | ht'
          · obtain ⟨s, hs, hst⟩ := List.mem_map.mp ht'
            rw [← hst]
            exact h.supp s hs
          · exact res_supp w1 w2 w3 _ ht'
      · rw [hc]
        exact ⟨_, rfl, Or.inr ⟨by simp, hne, fun hs => absurd hs hns⟩⟩
    have hint : ({ cross := c, st := r.cfg.init } : Obj r.p).interpolate inv r.cfg q.1 q.2 = (do
        match g with
        | some G =>
          if ← testGuess r.cfg G q.1 then
            some { cross := { c with prime := 0, ci := [], crt := false, newPrime := false }, st := r.cfg.init, done := some G }
          else ({ cross := { c with crt := true, newPrime := false }, st := r.cfg.init } : Obj r.p).work inv r.cfg q.1 q.2
        | none => ({ cross := { c with crt := true, newPrime := false }, st := r.cfg.init } : Obj r.p).work inv r.cfg q.1 q.2) := by
      unfold Obj.interpolate
      rw [if_pos ⟨by show q.2 = r.cfg.init.ord; rw [hord]; exact hq', rfl⟩]
      simp only [h.flag, if_true, g1, Option.bind_eq_bind, Option.bind_some]
      cases g <;> rfl
    cases g with
    | none =>
      have hns : ¬ AllSmall f M := fun hs => by obtain ⟨G, hG⟩ := g3 hs; cases hG
      obtain ⟨out, o1, o2⟩ := hgo (fun hci => by have := g4 hci; cases this) hns hint
      exact ⟨out, o1, Or.inr o2⟩
    | some G =>
      obtain ⟨c1, c2, c3, c4, c5⟩ := g2 G rfl
      have hn := hr.nvars
      have ht := testGuess_spec r.cfg (g := G) (by rw [hn]; exact c1) c2 q.1
      have hv : eval (fun j => r.cfg.anchor.getD j 0 ^ (ones r.cfg.n).getD j 0) (red r.p (RRun.rnPoly G)) = valueMod r (RRun.rnPoly G) (ones k) := by
        rw [hn]; rfl
      rw [hv, hqv] at ht
      simp only [hqv] at hint
      by_cases heq : valueMod r (RRun.rnPoly G) (ones k) = valueMod r f (ones k)
      · rw [ht] at hint
        simp only [heq, decide_true, Option.bind_eq_bind, Option.bind_some, if_true] at hint
        rw [hall, hqv, hint, Option.bind_some, obj_idle inv r.cfg _ L2 (Or.inr (by simp))]
        simp only [Option.bind_eq_bind, Option.bind_some]
        exact ⟨_, rfl, Or.inl ⟨G, rfl, ⟨c1, c2, c3, c4, heq⟩, c5⟩⟩
      · rw [ht] at hint
        simp only [heq, decide_false, Option.bind_eq_bind, Option.bind_some, Bool.false_eq_true, if_false] at hint
        have hns : ¬ AllSmall f M := fun hs => heq (by rw [c5 hs])
        obtain ⟨out, o1, o2⟩ := hgo (fun hci h0 => by
          have := g4 hci
          cases this
          apply heq
          rw [h0]
          simp [valueMod, RRun.rnPoly, denote, red]) hns (by rw [hqv]; exact hint)
        exact ⟨out, o1, Or.inr o2⟩

/-- the state after some prime fields, the other prime fields -/
lemma run_spec {inv : ℤ → ℤ → ℤ} (hinv : InvertSpec inv) {k : ℕ} {f : MvPolynomial ℕ ℚ} (hf : InVars k f) : ∀ (rs : List Field) (pre : List Field) (c : Cross), pre ≠ [] → OK k f (primeProd pre) c → RunsOK k f (pre ++ rs) →
    (∀ rs1 r rs2, pre = rs1 ++ r :: rs2 → rs1 ≠ [] → ¬ AllSmall f (primeProd rs1)) → ∃ out, run inv c rs = some out ∧ Outcome k f (pre ++ rs) out
  | [], pre, c, _, h, _, hs => by
    refine ⟨_, rfl, ?_⟩
    rw [List.append_nil]
    exact ⟨h, hs⟩
  | r :: rs, pre, c, hpre, h, hr, hs => by
    haveI := r.fact
    have hpM : ¬ (r.p : ℤ) ∣ primeProd pre := by
      intro hd
      have hpr : Prime (r.p : ℤ) := Nat.prime_iff_prime_int.mp r.fact.out
      unfold primeProd at hd
      obtain ⟨x, hx, hdx⟩ := (Prime.dvd_prod_iff hpr).mp hd
      obtain ⟨r', hr', rfl⟩ := List.mem_map.mp hx
      have h1 : r.p ∣ r'.p := by exact_mod_cast hdx
      have h2 : r.p = r'.p := (Nat.prime_dvd_prime_iff_eq r.fact.out r'.fact.out).mp h1
      have h3 := hr.distinct
      rw [List.map_append, List.map_cons, List.nodup_append] at h3
      exact h3.2.2 r'.p (List.mem_map_of_mem hr') r.p (by simp) h2.symm
    have hfo : FieldOK k f r := hr.ok r (by simp)
    obtain ⟨out, e1, e2⟩ := C47_field hinv hf h hfo hpM
    unfold run
    rw [e1]
    simp only [Option.bind_eq_bind, Option.bind_some]
    rcases e2 with ⟨G, rfl, g1, g2⟩ | ⟨c', rfl, c1, c2, c3⟩ | ⟨rfl, h1, h2⟩
    · exact ⟨_, rfl, pre, r, rs, rfl, hpre, g1, g2⟩
    · simp only
      obtain ⟨out, e3, e4⟩ := run_spec hinv hf rs (pre ++ [r]) c' (by simp) (by
          have : primeProd (pre ++ [r]) = primeProd pre * r.p := by simp [primeProd]
          rw [this]; exact c1) (by simpa using hr) (by
          intro rs1 r' rs2 hsplit hne
          rcases List.eq_nil_or_concat rs2 with rfl | ⟨rs2', y, rfl⟩
          · have := List.append_inj' (s₁ := pre) (t₁ := [r]) (s₂ := rs1) (t₂ := [r']) hsplit rfl
            rw [← this.1]; exact c3
          · have h3 : pre ++ [r] = (rs1 ++ r' :: rs2') ++ [y] := by rw [hsplit]; simp
            have h4 := (List.append_inj' h3 rfl).1
            exact hs rs1 r' rs2' h4 hne)
      refine ⟨out, e3, ?_⟩
      rw [show pre ++ r :: rs = pre ++ [r] ++ rs by simp]
      exact e4
    · exact ⟨_, rfl, pre, r, rs, rfl, h1, fun _ => h2⟩

/-- **C47.** A new object for a polynomial with rational coefficients is fed with the values of `f` modulo different primes, in any order, the one for `(1, …, 1)` at most once for each prime. Then there is no
undefined behaviour, and
* the object reports a result; this is `f` if the coefficients are small for the product of the primes before, and otherwise it agrees with `f` modulo this product and in one value modulo the last prime; or
* a field has not enough values; or
* it requests a further field, and the coefficients of `f` are not small for the product of all primes but the last. -/
theorem C47_run {inv : ℤ → ℤ → ℤ} (hinv : InvertSpec inv) {k : ℕ} {f : MvPolynomial ℕ ℚ} (hf : InVars k f) (r : Field) (rs : List Field) (h : RunsOK k f (r :: rs)) :
    ∃ out, run inv (Cross.initial r.p) (r :: rs) = some out ∧ Outcome k f (r :: rs) out := by
  obtain ⟨out, e1, e2⟩ := C47_first (inv := inv) (h.ok r (by simp))
  unfold run
  rw [e1]
  simp only [Option.bind_eq_bind, Option.bind_some]
  rcases e2 with ⟨c, rfl, h1, -⟩ | ⟨rfl, h1⟩
  · simp only
    exact run_spec hinv hf rs [r] c (by simp) (by simpa [primeProd] using h1) (by simpa using h) (by
      intro rs1 r' rs2 hsplit hne
      exfalso
      rcases rs1 with _ | ⟨a, rs1⟩
      · exact hne rfl
      · have := congrArg List.length hsplit
        simp at this)
  · exact ⟨_, rfl, [], r, rs, rfl, h1, fun hne => absurd rfl hne⟩

/-- **C47 (completeness).** If every field has enough values, and the coefficients of `f` are small for the product of the first `m ≥ 1` primes, then with one more field the object reports a result. It
is `f`, unless another polynomial agrees with `f` modulo fewer primes and in the value that is used for the test. -/
theorem C47_complete {inv : ℤ → ℤ → ℤ} (hinv : InvertSpec inv) {k : ℕ} {f : MvPolynomial ℕ ℚ} (hf : InVars k f) {rs1 rs2 : List Field} {r : Field} (hne : rs1 ≠ []) (h : RunsOK k f (rs1 ++ r :: rs2))
    (hen : ∀ q ∈ rs1 ++ r :: rs2, Enough f q) (hs : AllSmall f (primeProd rs1)) :
    ∃ G, run inv (Cross.initial (rs1.head hne).p) (rs1 ++ r :: rs2) = some (.finished G) ∧
      ((∀ l q l' G', rs1 = l ++ q :: l' → l ≠ [] → Certified k f (primeProd l) q G' → RRun.rnPoly G' = f) → RRun.rnPoly G = f) := by
  obtain ⟨a, l, rfl⟩ := List.exists_cons_of_ne_nil hne
  obtain ⟨out, e1, e2⟩ := C47_run hinv hf a (l ++ r :: rs2) (by simpa using h)
  rw [List.head_cons, List.cons_append, e1]
  have mono : ∀ m' m'' : List Field, AllSmall f (primeProd m') → AllSmall f (primeProd (m' ++ m'')) := by
    intro m' m'' hsm m
    have hle : primeProd m' ≤ primeProd (m' ++ m'') := by
      have h1 : ∀ l : List Field, 1 ≤ primeProd l := by
        intro l
        induction l with
        | nil => simp [primeProd]
        | cons a l ih =>
          have ha : (1 : ℤ) ≤ a.p := by exact_mod_cast a.fact.out.pos
          show 1 ≤ (a.p : ℤ) * primeProd l
          nlinarith
      have h2 : primeProd (m' ++ m'') = primeProd m' * primeProd m'' := by simp [primeProd]
      rw [h2]
      have := h1 m'
      have := h1 m''
      nlinarith
    exact ⟨lt_of_lt_of_le (hsm m).1 hle, lt_of_lt_of_le (hsm m).2 hle⟩
  cases out with
  | finished G =>
    refine ⟨G, rfl, ?_⟩
    intro hu
    obtain ⟨l1, q, l2, hsplit, hl1, hc, hex⟩ := e2
    rw [← List.cons_append] at hsplit
    rcases List.append_eq_append_iff.mp hsplit with ⟨as, ha1, ha2⟩ | ⟨bs, hb1, hb2⟩
    · exact hex (by rw [ha1]; exact mono _ _ hs)
    · rcases bs with _ | ⟨b, bs⟩
      · rw [List.append_nil] at hb1
        exact hex (by rw [← hb1]; exact hs)
      · rw [List.cons_append] at hb2
        obtain ⟨rfl, -⟩ := List.cons.inj hb2
        exact hu l1 q bs G hb1 hl1 hc
  | waiting c =>
    exfalso
    exact e2.2 (a :: l) r rs2 (by simp) (by simp) hs
  | running =>
    exfalso
    obtain ⟨l1, q, l2, hsplit, hq, -⟩ := e2
    apply hq
    apply hen
    rw [List.cons_append, hsplit]; simp

/-- the coefficients of a polynomial are small for every large number -/
lemma allSmall_eventually (f : MvPolynomial ℕ ℚ) : ∃ B : ℤ, ∀ M, B ≤ M → AllSmall f M := by
  refine ⟨∑ m ∈ f.support, (2 * (coeff m f).num ^ 2 + 2 * ((coeff m f).den : ℤ) ^ 2 + 1) + 3, ?_⟩
  intro M hM m
  have hnn : ∀ m, 0 ≤ 2 * (coeff m f).num ^ 2 + 2 * ((coeff m f).den : ℤ) ^ 2 + 1 := fun m => by positivity
  by_cases hm : m ∈ f.support
  · have h1 := Finset.single_le_sum (f := fun m => 2 * (coeff m f).num ^ 2 + 2 * ((coeff m f).den : ℤ) ^ 2 + 1) (fun i _ => hnn i) hm
    have h2 : 0 ≤ 2 * (coeff m f).num ^ 2 := by positivity
    have h3 : 0 ≤ 2 * ((coeff m f).den : ℤ) ^ 2 := by positivity
    exact ⟨by linarith, by linarith⟩
  · have h1 : 0 ≤ ∑ m ∈ f.support, (2 * (coeff m f).num ^ 2 + 2 * ((coeff m f).den : ℤ) ^ 2 + 1) := Finset.sum_nonneg (fun i _ => hnn i)
    rw [notMem_support_iff.mp hm]
    exact ⟨by simp; linarith, by simp; linarith⟩

/-- **C47 (termination).** For every polynomial `f` there is a number of prime fields after which an object that gets enough values in each field has reported a result, whatever the primes and anchor points are. -/
theorem C47_terminates {inv : ℤ → ℤ → ℤ} (hinv : InvertSpec inv) {k : ℕ} {f : MvPolynomial ℕ ℚ} (hf : InVars k f) :
    ∃ N, ∀ (r : Field) (rs : List Field), N ≤ rs.length → RunsOK k f (r :: rs) → (∀ q ∈ r :: rs, Enough f q) → ∃ G, run inv (Cross.initial r.p) (r :: rs) = some (.finished G) := by
  obtain ⟨B, hB⟩ := allSmall_eventually f
  refine ⟨B.toNat + 1, ?_⟩
  intro r rs hlen hok hen
  have hprod : ∀ l : List Field, (l.length : ℤ) ≤ primeProd l := by
    intro l
    have : (2 : ℤ) ^ l.length ≤ primeProd l := by
      induction l with
      | nil => simp [primeProd]
      | cons a l ih =>
        have ha : (2 : ℤ) ≤ a.p := by exact_mod_cast a.fact.out.two_le
        show (2 : ℤ) ^ (l.length + 1) ≤ (a.p : ℤ) * primeProd l
        have : (0 : ℤ) < 2 ^ l.length := by positivity
        rw [pow_succ]; nlinarith
    refine le_trans ?_ this
    exact_mod_cast (Nat.lt_two_pow_self (n := l.length)).le
  rcases List.eq_nil_or_concat rs with rfl | ⟨rs', y, rfl⟩
  · simp at hlen
  · rw [List.length_concat] at hlen
    obtain ⟨G, h1, -⟩ := C47_complete hinv hf (rs1 := r :: rs') (rs2 := []) (r := y) (by simp) (by simpa using hok) (by simpa using hen) (hB _ (by
      have := hprod (r :: rs')
      rw [List.length_cons] at this
      push_cast at this
      omega))
    exact ⟨G, by simpa using h1⟩

end FireFly.PRun
