import Verif.Lemmas.RatShiftAllFirst
/-!
# C63: rational functions in several variables over several prime fields, with a shift that is kept as long as it is needed
-/
set_option linter.all false
namespace FireFly.RRun.Shifted
open MvPolynomial FFMap

section
variable {k : ℕ} {n d : MvPolynomial ℕ ℚ} {S : Bool → ℕ → Finset (ℕ →₀ ℕ)} {M : ℤ} {c : Cross} {f : Stage}

/-- The step for one further prime field: what the object does with the probes of the field `f`. -/
def Step (k : ℕ) (n d : MvPolynomial ℕ ℚ) (S : Bool → ℕ → Finset (ℕ →₀ ℕ)) (M : ℤ) (c : Cross) (f : Stage) (out : Out) : Prop :=
  ((∃ N D, out = .finished N D ∧ Certified k n d M (f.at (shiftOn c f)) N D) ∨
   (∃ c', out = .nextPrime c' ∧ Ready k n d S (M * f.base.p) c' ∧ c'.on = shiftOn c f ∧ c'.asks = c'.singular ∧ c'.normDen = c.normDen ∧ c'.normalizerDen = c.normalizerDen ∧ c'.normalizerDeg = c.normalizerDeg ∧
     c'.base.primeNumber = c.base.primeNumber + 1 ∧ ¬ AllSmall n d M) ∨
   (out = .running ∧ ¬ EnoughIn k n d S c.normDen f (shiftOn c f) ∧ (AllSmall n d M → ∀ q ∈ (f.at (shiftOn c f)).probes, q.2.2 ≠ List.replicate (k - 1) 1))) ∧
  (AllSmall n d M → ∀ N D, out = .finished N D → rnPoly N = n ∧ rnPoly D = d)

/-- **C63 (one further prime field).** Between two prime fields the coefficients of `n/d` are known modulo `M` and the object knows which monomials the shift produces. In the next prime field the caller keeps the shift or disables it.
Then the object does not fail. It reports a result that agrees with `n/d` modulo `M` and at a probe; or it requests the next prime field, the coefficients are known modulo `M p`, and it asks for the shift again if and
only if it still needs it; or there are too few probes. If the coefficients are small compared with `M`, the first probe with the order vector `(1, …, 1)` is enough, and the result is `n/d`. -/
theorem C63_prime {inv : ℤ → ℤ → ℤ} (hinv : InvertSpec inv) {ord : RRun.Order} (hord : ord.OK) (hn : InVars k n) (hd : InVars k d) (h : Ready k n d S M c) (hc : Consistent c f)
    (hr : FieldFits k n d S c.normDen f (shiftOn c f)) (hne : (f.at (shiftOn c f)).probes ≠ []) (hns : ¬ (f.at (shiftOn c f)).Skipped) (hpM : ¬ (f.base.p : ℤ) ∣ M) (h300 : c.base.primeNumber + 1 < 300)
    (hx : ∀ m, ¬ Deceptive (coeff m n) M (M * f.base.p) ∧ ¬ Deceptive (coeff m d) M (M * f.base.p)) :
    ∃ out, prime inv ord c f = some out ∧ Step k n d S M c f out := by
  have hz := h.base.zeros
  have hon : shiftOn c f = (c.on && (c.asks || f.others)) := by unfold shiftOn; rw [if_neg (by omega)]
  obtain ⟨on, hon'⟩ : ∃ on, shiftOn c f = on := ⟨_, rfl⟩
  have hprime : prime inv ord c f = if (c.singular || c.asks || f.others || decide ((f.at on).cfg.shift ≠ List.replicate (f.at on).cfg.n 0)) = true then
      laterShift inv ord { c with on := on } (f.at on) else laterPlain inv ord { c with on := on } (f.at on) := by
    unfold prime field
    rw [hon']
    rw [hon'] at hne hns
    rcases hl : (f.at on).probes with _ | ⟨q0, rest⟩
    · exact absurd hl hne
    · have hq0v : q0.2.1 ≠ 0 := fun h0 => hns ⟨q0, rest, hl, h0⟩
      simp only [if_neg hq0v, if_pos h.base.known]
  unfold Step
  rw [hon'] at hr hne hns ⊢
  cases on with
  | true =>
    rw [hon', eq_comm, Bool.and_eq_true, Bool.or_eq_true] at hon
    have hcc : ({ c with on := true } : Cross) = c := by
      obtain ⟨_⟩ := c
      have := hon.1
      simp only at this
      subst this
      rfl
    rw [hprime, if_pos (by rcases hon.2 with h0 | h0 <;> simp [h0]), hcc]
    exact shift_core hinv hord hn hd h hon.1 hr hne hpM h300 hx
  | false =>
    have hsing : c.singular = false := by
      cases hs : c.singular with
      | false => rfl
      | true =>
        have h1 := h.on hs
        have h2 := hc.2 hs
        rw [hon', h1] at hon
        rcases h2 with h2 | h2 <;> simp [h2] at hon
    have hasks : c.asks = false := by
      cases hs : c.asks with
      | false => rfl
      | true => rw [h.asks hs] at hsing; cases hsing
    have hoth : f.others = false := by
      cases hs : f.others with
      | false => rfl
      | true =>
        rw [hon', hc.1 hs, hs] at hon
        simp at hon
    have hsh : (f.at false).cfg.shift = List.replicate (f.at false).cfg.n 0 := rfl
    rw [hprime, if_neg (by simp [hsing, hasks, hoth, hsh])]
    have h' : Ready k n d S M { c with on := false } :=
      ⟨h.base, h.num, h.den, fun h0 => (by cases h0), fun h0 => (by cases h0), h.len, h.one, h.const, h.den0, h.eqn, h.asks, fun h0 => (by rw [show c.singular = true from h0] at hsing; cases hsing), h.progress⟩
    exact plain_core hinv hord hn hd h' hsing rfl hr hsh hne hpM h300 hx

/-- **C63 (a skipped field).** A further field whose first probe is zero is skipped: nothing is lost, but the object does not ask for the shift of the next field. -/
theorem C63_skip (inv : ℤ → ℤ → ℤ) (ord : RRun.Order) (h : Ready k n d S M c) (hc : Consistent c f) (hs : (f.at (shiftOn c f)).Skipped) (h300 : c.base.primeNumber + 1 < 300) :
    ∃ c', prime inv ord c f = some (.nextPrime c') ∧ Ready k n d S M c' ∧ c'.on = shiftOn c f ∧ c'.asks = false ∧ c'.singular = c.singular ∧ c'.normDen = c.normDen ∧ c'.normalizerDen = c.normalizerDen ∧
      c'.normalizerDeg = c.normalizerDeg ∧ c'.base.primeNumber = c.base.primeNumber + 1 := by
  have hz := h.base.zeros
  have hon : shiftOn c f = (c.on && (c.asks || f.others)) := by unfold shiftOn; rw [if_neg (by omega)]
  obtain ⟨on, hon'⟩ : ∃ on, shiftOn c f = on := ⟨_, rfl⟩
  rw [hon'] at hon hs ⊢
  obtain ⟨q, rest, h1, h2⟩ := hs
  refine ⟨{ c with on := on, asks := false, base := { c.base with zeroCounter := c.base.zeroCounter + 1, primeNumber := c.base.primeNumber + 1 } }, ?_, ?_, rfl, rfl, rfl, rfl, rfl, rfl, rfl⟩
  · unfold prime field
    rw [hon', h1]
    simp only [if_pos h2]
    unfold feedZero RRun.feedZero
    simp only
    rw [if_neg (by omega), if_neg (by omega), if_neg (by omega)]
    rfl
  · have hof : on = true → c.on = true := fun h0 => by rw [hon, Bool.and_eq_true] at h0; exact h0.1
    refine ⟨⟨h.base.prime, h.base.pos, h.base.num, h.base.den, h.base.known, h.base.check, h.base.unNum, h.base.unDen, ?_⟩, h.num, h.den, fun h0 => h.shN (hof h0), fun h0 => h.shD (hof h0), h.len, h.one, h.const, h.den0, h.eqn,
      fun h0 => (by cases h0), fun h0 => ?_, h.progress⟩
    · show c.base.zeroCounter + 1 < c.base.primeNumber + 1
      omega
    · have h0 : c.singular = true := h0
      show on = true
      rw [hon, h.on h0]
      rcases hc.2 h0 with h3 | h3 <;> simp [h3]

/-- **C63 (violated).** The function needs the shift (`singular`). If the first probe of a field is zero and no other function asks for the shift, then the shift is disabled in the next field, although the function still needs it: the
assumption `Consistent` of the theorems above does not hold. (`C63_skip_fails` shows what then happens.) -/
theorem C63_skip_violated (inv : ℤ → ℤ → ℤ) (ord : RRun.Order) (h : Ready k n d S M c) (hc : Consistent c f) (hs : (f.at (shiftOn c f)).Skipped) (h300 : c.base.primeNumber + 1 < 300) (hsing : c.singular = true) :
    ∃ c', prime inv ord c f = some (.nextPrime c') ∧ Ready k n d S M c' ∧ c'.singular = true ∧ ∀ f' : Stage, f'.others = false → shiftOn c' f' = false ∧ ¬ Consistent c' f' := by
  obtain ⟨c', h1, h2, -, h3, h4, -, -, -, h5⟩ := C63_skip inv ord h hc hs h300
  refine ⟨c', h1, h2, h4.trans hsing, fun f' hf => ⟨?_, ?_⟩⟩
  · unfold shiftOn
    rw [if_neg (by omega), h3, hf]
    simp
  · rintro ⟨-, h6⟩
    rcases h6 (h4.trans hsing) with h7 | h7
    · rw [h3] at h7; cases h7
    · rw [hf] at h7; cases h7

/-- the normalization of the first field -/
lemma first_factor {p : ℕ} [hp : Fact p.Prime] {f : MvPolynomial ℕ ℚ} {m : FFMap (ZMod p)} {σ : ZMod p} {e : List ℕ} (hf : InVars k f) (hw : WFMap k m) (hden : denote m = C σ * red p f)
    (hdd : ∀ m, ¬ (p : ℤ) ∣ (coeff m f).den) (h1 : m.find? e = some 1) :
    ∃ l : ℚ, l ≠ 0 ∧ ¬ (p : ℤ) ∣ l.den ∧ (l : ZMod p) = σ ∧ e.length = k ∧ e ∈ m.map Prod.fst ∧ coeff e.toFinsupp (C l * f) = 1 := by
  have hmm : e ∈ m.map Prod.fst := by
    by_contra hc
    rw [find?_eq_none.mpr hc] at h1
    cases h1
  have hlen : e.length = k := by
    obtain ⟨t, ht, hte⟩ := List.mem_map.mp hmm
    rw [← hte]; exact hw.2 t ht
  have hc1 := coeff_find hw hlen
  rw [h1, hden, coeff_C_mul, red_coeff] at hc1
  have hc1 : (1 : ZMod p) = σ * ((coeff e.toFinsupp f : ℚ) : ZMod p) := hc1
  obtain ⟨x, hx⟩ : ∃ x, x = coeff e.toFinsupp f := ⟨_, rfl⟩
  rw [← hx] at hc1
  have hxc : (x : ZMod p) ≠ 0 := by intro h0; rw [h0, mul_zero] at hc1; exact one_ne_zero hc1
  have hx0 : x ≠ 0 := by rintro rfl; simp at hxc
  have hxd : ¬ (p : ℤ) ∣ x.den := by rw [hx]; exact hdd _
  have hxn : ((x.num : ℤ) : ZMod p) ≠ 0 := by
    intro h0
    rw [Rat.cast_def, h0, zero_div] at hxc
    exact hxc rfl
  have hinvden : ¬ (p : ℤ) ∣ (x⁻¹).den := by
    rw [not_dvd_iff, Rat.den_inv_of_ne_zero hx0]
    intro h0
    apply hxn
    rw [ZMod.natCast_eq_zero_iff] at h0
    rw [ZMod.intCast_zmod_eq_zero_iff_dvd]
    exact Int.natCast_dvd.mpr h0
  have hinv : ((x⁻¹ : ℚ) : ZMod p) = σ := by
    have := (cast_scale hinvden hxd).1
    rw [inv_mul_cancel₀ hx0, Rat.cast_one] at this
    exact mul_right_cancel₀ hxc (this.symm.trans hc1)
  exact ⟨x⁻¹, inv_ne_zero hx0, hinvden, hinv, hlen, hmm, by rw [coeff_C_mul, ← hx, inv_mul_cancel₀ hx0]⟩

lemma side_scale {l : ℚ} (b : Bool) : side (C l * n) (C l * d) b = C l * side n d b := by unfold side; cases b <;> rfl

lemma Shape.scale {g : MvPolynomial ℕ ℚ} {S : ℕ → Finset (ℕ →₀ ℕ)} {x : Side} (h : Shape k g S x) {l : ℚ} (hl : l ≠ 0) : Shape k (C l * g) S x := by
  have := support_scale (f := g) hl
  exact ⟨by rw [this]; exact h.lead, by rw [this]; exact h.le, h.top, h.mem, by rw [this]; exact h.zeros⟩

/-- the end of the first prime field -/
lemma first_end {ord : RRun.Order} (hord : ord.OK) (hn : InVars k n) (hd : InVars k d) {r : RRun.Prime} {u : ZMod r.p} {mN mD : ℕ} (hk : r.cfg.n = k) (hdenN : ∀ m, ¬ (r.p : ℤ) ∣ (coeff m n).den)
    (hdenD : ∀ m, ¬ (r.p : ℤ) ∣ (coeff m d).den) (hnumN : haveI := r.fact; ∀ m ∈ n.support, ((coeff m n : ℚ) : ZMod r.p) ≠ 0) (hnumD : haveI := r.fact; ∀ m ∈ d.support, ((coeff m d : ℚ) : ZMod r.p) ≠ 0)
    (hP : haveI := r.fact; RMulti.Prob r.cfg (C u * red r.p n) (C u * red r.p d) mN mD) (hshift : haveI := r.fact; r.cfg.hasShift = true) (hsame : SameShift n d S r)
    (hden0 : haveI := r.fact; r.cfg.normDen = false → eval (fun i => r.cfg.shift.getD i 0) (red r.p d) = 0) (hu : u ≠ 0) {s : RMulti.St (ZMod r.p)} (e1 : haveI := r.fact; r.cfg.feedAll r.cfg.init r.probes = some s)
    {res : RMulti.Result (ZMod r.p)} (hres : s.result = some res) (hends : haveI := r.fact; RMulti.Ends r.cfg (C u * red r.p n) (C u * red r.p d) s res) :
    ∃ (l : ℚ) (c' : Cross), l ≠ 0 ∧ firstPrime ord (Cross.initial r.p) r = some (.nextPrime c') ∧ Ready k (C l * n) (C l * d) S r.p c' ∧ c'.on = true ∧ c'.asks = c'.singular ∧
      c'.normDen = r.cfg.normDen ∧ c'.base.primeNumber = 1 ∧
      (c'.singular = true → ∀ b, ∀ m ∈ (side n d b).support, ∃ m' ∈ (side n d b).support, m' ≠ m ∧ m'.degree = m.degree) := by
  haveI := r.fact
  obtain ⟨e3, eN, eD, ec⟩ := hends
  obtain ⟨τ, hτ, v1, v2⟩ := e3.value
  have hσ : τ * u ≠ 0 := mul_ne_zero hτ hu
  rw [← mul_assoc, ← C_mul] at v1 v2
  have w1 : WFMap k res.num := by rw [← hk]; exact e3.wfNum
  have w2 : WFMap k res.den := by rw [← hk]; exact e3.wfDen
  have kN := keys_first hn hσ w1 e3.nzNum v1 hnumN
  have kD := keys_first hd hσ w2 e3.nzDen v2 hnumD
  have hmem : ∀ (f : MvPolynomial ℕ ℚ) (m : FFMap (ZMod r.p)), InVars k f → (m.map Prod.fst).Perm (monos k f) → ∀ x ∈ f.support, RRun.exps k x ∈ m.map Prod.fst ∧ (RRun.exps k x).sum = x.degree ∧ (RRun.exps k x).toFinsupp = x := by
    intro f m hf hperm x hx
    have h1 := toFinsupp_exps (hf x hx)
    refine ⟨hperm.mem_iff.mpr (List.mem_map_of_mem (Finset.mem_toList.mpr hx)), ?_, h1⟩
    rw [← degree_toFinsupp, h1]
  -- each degree has several monomials
  have hmany : res.singular = true → ∀ b, ∀ m ∈ (side n d b).support, ∃ m' ∈ (side n d b).support, m' ≠ m ∧ m'.degree = m.degree := by
    intro hs
    have key : ∀ (f : MvPolynomial ℕ ℚ) (m : FFMap (ZMod r.p)), InVars k f → WFMap k m → (m.map Prod.fst).Perm (monos k f) → (∀ t ∈ m, ∃ u ∈ m, u.1 ≠ t.1 ∧ u.1.sum = t.1.sum) →
        ∀ x ∈ f.support, ∃ x' ∈ f.support, x' ≠ x ∧ x'.degree = x.degree := by
      intro f m hf hw hperm hmany x hx
      obtain ⟨h1, h2, h3⟩ := hmem f m hf hperm x hx
      obtain ⟨t, ht, hte⟩ := List.mem_map.mp h1
      obtain ⟨v, hv, hv1, hv2⟩ := hmany t ht
      have hvm := (mem_monos hf).mp (hperm.mem_iff.mp (List.mem_map_of_mem hv))
      refine ⟨v.1.toFinsupp, mem_support_iff.mpr hvm.2, ?_, ?_⟩
      · intro heq
        apply hv1
        rw [hte]
        exact toFinsupp_inj hvm.1 (by simp [RRun.exps]) (heq.trans h3.symm)
      · rw [degree_toFinsupp, hv2, hte, h2]
    have hmany := e3.many hs
    intro b
    cases b with
    | false => exact key _ res.num hn w1 kN (hmany _ (by simp))
    | true => exact key _ res.den hd w2 kD (hmany _ (by simp))
  -- the normalization
  obtain ⟨K, hK⟩ : ∃ K, (Cross.initial r.p).base.coefs.combineFirst res.normDen res.normDeg res.num res.den = K := ⟨_, rfl⟩
  obtain ⟨b', hb'⟩ : ∃ b', RRun.endCross ord (Cross.initial r.p).base K = b' := ⟨_, rfl⟩
  obtain ⟨cc, hcc⟩ : ∃ cc : Cross, { Cross.initial r.p with normDen := r.cfg.normDen, normalizerDen := res.normDen, normalizerDeg := res.normDeg, maxEqn := s.num.solved.length + s.den.solved.length - 1, num := firstSide s.num, den := firstSide s.den, singular := res.singular } = cc := ⟨_, rfl⟩
  obtain ⟨sing, hsing⟩ : ∃ sing, stillSingular cc (res.num.map (fun t => t.1.sum)) (res.den.map (fun t => t.1.sum)) b' = sing := ⟨_, rfl⟩
  have hfp : firstPrime ord (Cross.initial r.p) r = some (.nextPrime { cc with base := b', singular := sing, asks := sing }) := by
    unfold firstPrime
    rw [e1]
    simp only [Option.bind_eq_bind, Option.bind_some]
    rw [hres]
    simp only
    unfold endPrime
    rw [hcc, hK, if_neg (by rw [← hcc]; show ¬ 0 + 1 = 300; norm_num)]
    simp only
    rw [show cc.base = (Cross.initial r.p).base by rw [← hcc], hb', hsing]
  have hpos : (0 : ℤ) < r.p := by exact_mod_cast r.fact.out.pos
  have hot : ∀ (e : List ℕ) (m : FFMap (ZMod r.p)), combineFirstSide false e m [] = combineFirstSide false [] m [] := fun e m => by rw [first_other, first_other]
  have hnorm : ∃ l : ℚ, l ≠ 0 ∧ Base k (C l * n) (C l * d) r.p b' ∧ res.normDeg.length = k ∧ coeff res.normDeg.toFinsupp (side (C l * n) (C l * d) res.normDen) = 1 ∧
      (if res.normDen then b'.coefs.combDi else b'.coefs.combNi).find? res.normDeg = none ∧
      (∀ e ∉ res.num.map Prod.fst, b'.coefs.combNi.find? e = none) ∧ (∀ e ∉ res.den.map Prod.fst, b'.coefs.combDi.find? e = none) := by
    have hone := e3.one
    have hout : ∀ (x : Bool) (e : List ℕ) (m : FFMap (ZMod r.p)), (m.map Prod.fst).Nodup → (x = true → e ∈ m.map Prod.fst) → ∀ i ∉ m.map Prod.fst, (combineFirstSide x e m []).2.find? i = none := by
      intro x e m hnd hx i hi
      have hi' : i ∉ (convertToMpz m).map Prod.fst := by unfold convertToMpz; rw [List.map_map]; exact hi
      cases x with
      | false => rw [first_other]; exact find?_eq_none.mpr hi'
      | true =>
        rw [first_norm m [] hnd (hx rfl)]
        refine find?_eq_none.mpr (fun h0 => hi' ?_)
        obtain ⟨t, ht, hte⟩ := List.mem_map.mp h0
        rw [← hte]
        exact List.mem_map_of_mem (mem_erase ht)
    rw [← hb', ← hK]
    cases hb : res.normDen with
    | true =>
      rw [hb] at hone
      obtain ⟨l, l0, l1, l2, l3, l4, l5⟩ := first_factor hd w2 v2 hdenD hone
      have sN := (first_sides l0 hn l1 hσ l2 w1 e3.nzNum v1 hdenN hnumN).1
      obtain ⟨sD, sf⟩ := (first_sides l0 hd l1 hσ l2 w2 e3.nzDen v2 hdenD hnumD).2 _ l4 l5
      rw [← hot res.normDeg] at sN
      exact ⟨l, l0, ⟨rfl, hpos, sN, sD, rfl, rfl, grouped_end hord _, grouped_end hord _, by show 0 < 1; norm_num⟩, l3, l5, sf, hout false _ _ w1.1 (fun h0 => by cases h0), hout true _ _ w2.1 (fun _ => l4)⟩
    | false =>
      rw [hb] at hone
      obtain ⟨l, l0, l1, l2, l3, l4, l5⟩ := first_factor hn w1 v1 hdenN hone
      have sD := (first_sides l0 hd l1 hσ l2 w2 e3.nzDen v2 hdenD hnumD).1
      obtain ⟨sN, sf⟩ := (first_sides l0 hn l1 hσ l2 w1 e3.nzNum v1 hdenN hnumN).2 _ l4 l5
      rw [← hot res.normDeg] at sD
      exact ⟨l, l0, ⟨rfl, hpos, sN, sD, rfl, rfl, grouped_end hord _, grouped_end hord _, by show 0 < 1; norm_num⟩, l3, l5, sf, hout true _ _ w1.1 (fun _ => l4), hout false _ _ w2.1 (fun h0 => by cases h0)⟩
  obtain ⟨l, l0, hbase, hlen, hco, hfn, oN, oD⟩ := hnorm
  have fN := first_side eN hshift hk hu hnumN (hsame false)
  have fD := first_side eD hshift hk hu hnumD (hsame true)
  have cN := first_count eN hu hnumN (hsame false)
  have cD := first_count eD hu hnumD (hsame true)
  have pN := part_ne_iff eN hu hnumN (hsame false)
  have pD := part_ne_iff eD hu hnumD (hsame true)
  have hsupp : ∀ b, (side (C l * n) (C l * d) b).support = (side n d b).support := fun b => by rw [side_scale, support_scale l0]
  have hsing' : sing = true → res.singular = true := by
    intro h0
    rw [← hsing] at h0
    unfold stillSingular at h0
    rw [Bool.and_eq_true, Bool.and_eq_true, Bool.and_eq_true] at h0
    have := h0.1.1.1
    rw [← hcc] at this
    exact this
  have hnormP : RMulti.part r.cfg.shift (if r.cfg.normDen then C u * red r.p d else C u * red r.p n) 0 ≠ 0 := by
    rw [RMulti.part_zero, hP.norm]; simp
  refine ⟨l, _, l0, hfp, ?_, by rw [← hcc]; rfl, rfl, by rw [← hcc], by rw [← hb']; rfl, fun h0 => hmany (hsing' h0)⟩
  have hmaxN : (firstSide s.num).maxDeg = s.num.maxDeg := rfl
  subst hcc
  refine ⟨hbase, fN.shape.scale l0, fD.shape.scale l0, fun _ => ⟨fN.nodup, fN.mem, by simp [firstSide]⟩, fun _ => ⟨fD.nodup, fD.mem, by simp [firstSide]⟩, hlen, hco, ?_, ?_, ?_, fun h0 => h0, fun _ => rfl, ?_⟩
  · show (if r.cfg.normDen then b'.coefs.combDi else b'.coefs.combNi).find? (List.replicate k 0) = none
    rw [← hk]
    rcases ec with ⟨ec1, ec2⟩ | ec
    · rw [← ec1, ← ec2]; exact hfn
    · cases hb : r.cfg.normDen with
      | true => rw [hb] at ec; exact oD _ (find?_eq_none.mp ec)
      | false => rw [hb] at ec; exact oN _ (find?_eq_none.mp ec)
  · intro hb
    have hz := hden0 hb
    have hp0 : RMulti.part r.cfg.shift (C u * red r.p d) 0 = 0 := by
      rw [RMulti.part_zero, eval_mul, hz, mul_zero, C_0]
    have := mt (pD 0).mpr (not_not.mpr hp0)
    push Not at this
    rw [support_scale l0]
    refine ⟨fun h0 => this.1 0 h0 ?_, this.2⟩
    simp
  · show s.num.solved.length + s.den.solved.length - 1 = _
    classical
    have hA : ∀ (b : Bool) (x : Side), Shape k (C l * side n d b) (S b) x → askedDegs (C l * n) (C l * d) S r.cfg.normDen b =
        ((Finset.range (x.maxDeg + 1)).filter (fun j => (∃ m ∈ (side n d b).support, m.degree = j) ∨ S b j ≠ ∅)).filter (fun j => ¬ (b = r.cfg.normDen ∧ j = 0)) := by
      intro b x hx
      unfold askedDegs Asked
      rw [side_scale, hx.total, support_scale l0, Finset.filter_filter]
      ext j
      simp only [Finset.mem_filter]
    have aN := hA false _ (fN.shape.scale l0)
    have aD := hA true _ (fD.shape.scale l0)
    have drop : ∀ (A : Finset ℕ), 0 ∈ A → ∀ b : Bool, b = r.cfg.normDen → (A.filter (fun j => ¬ (b = r.cfg.normDen ∧ j = 0))).card + 1 = A.card := by
      intro A h0 b hb
      have : A.filter (fun j => ¬ (b = r.cfg.normDen ∧ j = 0)) = A.erase 0 := by
        ext j
        rw [Finset.mem_filter, Finset.mem_erase]
        constructor
        · rintro ⟨h1, h2⟩; exact ⟨fun h3 => h2 ⟨hb, h3⟩, h1⟩
        · rintro ⟨h1, h2⟩; exact ⟨h2, fun h3 => h1 h3.2⟩
      rw [this, Finset.card_erase_add_one h0]
    have same : ∀ (A : Finset ℕ) (b : Bool), b ≠ r.cfg.normDen → A.filter (fun j => ¬ (b = r.cfg.normDen ∧ j = 0)) = A := by
      intro A b hb
      exact Finset.filter_true_of_mem (fun j _ h3 => hb h3.1)
    rw [aN, aD, cN, cD]
    show _ = (Finset.filter _ (Finset.filter _ (Finset.range (s.num.maxDeg + 1)))).card + (Finset.filter _ (Finset.filter _ (Finset.range (s.den.maxDeg + 1)))).card
    cases hb : r.cfg.normDen with
    | true =>
      rw [hb] at hnormP drop same
      have h0 := (pD 0).mp hnormP
      have d1 := drop ((Finset.range (s.den.maxDeg + 1)).filter (fun j => (∃ m ∈ d.support, m.degree = j) ∨ S true j ≠ ∅)) (by rw [Finset.mem_filter, Finset.mem_range]; exact ⟨by omega, h0⟩) true rfl
      have d2 := same ((Finset.range (s.num.maxDeg + 1)).filter (fun j => (∃ m ∈ n.support, m.degree = j) ∨ S false j ≠ ∅)) false (by simp)
      unfold side
      simp only [Bool.false_eq_true, if_false, if_true] at d1 d2 ⊢
      rw [d2]
      omega
    | false =>
      rw [hb] at hnormP drop same
      have h0 := (pN 0).mp hnormP
      have d1 := drop ((Finset.range (s.num.maxDeg + 1)).filter (fun j => (∃ m ∈ n.support, m.degree = j) ∨ S false j ≠ ∅)) (by rw [Finset.mem_filter, Finset.mem_range]; exact ⟨by omega, h0⟩) false rfl
      have d2 := same ((Finset.range (s.den.maxDeg + 1)).filter (fun j => (∃ m ∈ d.support, m.degree = j) ∨ S true j ≠ ∅)) true (by simp)
      unfold side
      simp only [Bool.false_eq_true, if_false, if_true] at d1 d2 ⊢
      rw [d2]
      omega
  · -- progress
    have fin : ∀ (b : Bool) (j : ℕ) (U : FFMap (List (List ℕ))) (comb : MpzMap), (∃ m ∈ (side n d b).support, m.degree = j) → Grouped (comb.map Prod.fst) U → U.find? [j] = none →
        (if b then b'.coefs.combDi else b'.coefs.combNi) = comb → InVars k (side n d b) →
        ∃ b, ∃ m ∈ (side (C l * n) (C l * d) b).support, ∀ m' ∈ (side (C l * n) (C l * d) b).support, m'.degree = m.degree → (if b then b'.coefs.combDi else b'.coefs.combNi).find? (RRun.exps k m') = none := by
      rintro b j U comb ⟨m, hm, rfl⟩ hG hf hc hv
      refine ⟨b, m, by rw [hsupp]; exact hm, fun m' hm' hdeg => ?_⟩
      rw [hsupp] at hm'
      rw [hc, find?_eq_none]
      intro h0
      refine grouped_none hG hf _ h0 ?_
      rw [← RShift.toFinsupp_degree, toFinsupp_exps (hv m' hm'), hdeg]
    cases hrs : res.singular with
    | false =>
      left
      have hlone := e3.lone hrs
      have hin : res.normDeg.toFinsupp ∈ (side (C l * n) (C l * d) res.normDen).support := by
        rw [mem_support_iff, hco]; exact one_ne_zero
      refine ⟨res.normDen, res.normDeg.toFinsupp, hin, fun m' hm' hdeg => ?_⟩
      rw [hsupp] at hm'
      have key : ∀ (f : MvPolynomial ℕ ℚ) (m : FFMap (ZMod r.p)), InVars k f → (m.map Prod.fst).Perm (monos k f) → m' ∈ f.support → (∀ t ∈ m, t.1.sum = res.normDeg.sum → t.1 = res.normDeg) → RRun.exps k m' = res.normDeg := by
        intro f m hf hperm hm hl
        obtain ⟨h1, h2, h3⟩ := hmem f m hf hperm m' hm
        obtain ⟨t, ht, hte⟩ := List.mem_map.mp h1
        rw [← hte]
        exact hl t ht (by rw [hte, h2, hdeg, degree_toFinsupp])
      have : RRun.exps k m' = res.normDeg := by
        cases hb : res.normDen with
        | true => rw [hb] at hm' hlone; exact key d res.den hd kD hm' hlone
        | false => rw [hb] at hm' hlone; exact key n res.num hn kN hm' hlone
      rw [this]
      exact hfn
    | true =>
      have hmany := hmany hrs
      cases hs : sing with
      | true =>
        refine Or.inr ⟨rfl, ?_⟩
        intro b
        rw [hsupp]
        exact hmany b
      | false =>
        left
        rw [hs] at hsing
        have hzero : ∀ (b : Bool) (x : Side), Shape k (side n d b) (S b) x → x.maxDeg ≠ 0 := by
          intro b x hx h0
          obtain ⟨m, hm, hm0⟩ := hx.lead
          obtain ⟨m', hm', h1, h2⟩ := hmany b m hm
          rw [h0] at hm0
          rw [hm0] at h2
          rw [Finsupp.degree_eq_zero_iff] at hm0 h2
          exact h1 (by rw [hm0, h2])
        have z1 := hzero false _ fN.shape
        have z2 := hzero true _ fD.shape
        unfold stillSingular at hsing
        simp only [hrs, Bool.true_and] at hsing
        rw [show ((firstSide s.num).maxDeg == 0) = false by simpa using z1, show ((firstSide s.den).maxDeg == 0) = false by simpa using z2] at hsing
        simp only [Bool.or_false, Bool.not_false, Bool.true_and, Bool.and_eq_false_iff, List.all_eq_false] at hsing
        have deg : ∀ (g : MvPolynomial ℕ ℚ) (m : FFMap (ZMod r.p)), InVars k g → (m.map Prod.fst).Perm (monos k g) → ∀ j ∈ m.map (fun t => t.1.sum), ∃ x ∈ g.support, x.degree = j := by
          intro g m hg hperm j hj
          obtain ⟨t, ht, rfl⟩ := List.mem_map.mp hj
          have hvm := (mem_monos hg).mp (hperm.mem_iff.mp (List.mem_map_of_mem ht))
          exact ⟨t.1.toFinsupp, mem_support_iff.mpr hvm.2, degree_toFinsupp _⟩
        rcases hsing with ⟨j, hj, h0⟩ | ⟨j, hj, h0⟩
        · exact fin false j _ _ (deg n res.num hn kN j hj) hbase.unNum (by simpa using h0) rfl hn
        · exact fin true j _ _ (deg d res.den hd kD j hj) hbase.unDen (by simpa using h0) rfl hd

/-- **C63 (the first prime field).** A new object is fed with values of `n/d` in the first prime field, with a shift, in any order. There are two possibilities: the object needs more probes, and then there have not been enough; or it
requests a new prime field, has the residues of all coefficients of `n/d` with one coefficient equal to one, knows the monomials the shift produces, and asks for the shift if and only if it needs it. -/
theorem C63_first {inv : ℤ → ℤ → ℤ} {ord : RRun.Order} (hord : ord.OK) (hn : InVars k n) (hd : InVars k d) {u : ZMod f.base.p} {mN mD : ℕ} (h : FirstOK k n d S f.base u mN mD) :
    (prime inv ord (Cross.initial f.base.p) f = some .running ∧ ¬ EnoughFirst n d f.base u mN mD) ∨
    ∃ (l : ℚ) (c' : Cross), l ≠ 0 ∧ prime inv ord (Cross.initial f.base.p) f = some (.nextPrime c') ∧ Ready k (C l * n) (C l * d) S f.base.p c' ∧ c'.on = true ∧ c'.asks = c'.singular ∧
      c'.normDen = f.base.cfg.normDen ∧ c'.base.primeNumber = 1 ∧
      (c'.singular = true → ∀ b, ∀ m ∈ (side n d b).support, ∃ m' ∈ (side n d b).support, m' ≠ m ∧ m'.degree = m.degree) := by
  have hon : shiftOn (Cross.initial f.base.p) f = true := rfl
  have hp1 : prime inv ord (Cross.initial f.base.p) f = field inv ord (Cross.initial f.base.p) f.others f.base := rfl
  rw [hp1]
  obtain ⟨r, hr⟩ : ∃ r, f.base = r := ⟨_, rfl⟩
  obtain ⟨oth, hoth⟩ : ∃ o, f.others = o := ⟨_, rfl⟩
  rw [hoth]
  revert u
  rw [hr]
  intro u h'
  have h := h'.base
  haveI := r.fact
  obtain ⟨q0, rest, hq0⟩ : ∃ q0 rest, r.probes = q0 :: rest := by
    rcases hl : r.probes with _ | ⟨q0, rest⟩
    · exact absurd hl h.nonempty
    · exact ⟨q0, rest, rfl⟩
  have hq0v : q0.2.1 ≠ 0 := fun h0 => h.notSkipped ⟨q0, rest, hq0, h0⟩
  have hprime : field inv ord (Cross.initial r.p) oth r = firstPrime ord (Cross.initial r.p) r := by
    unfold field
    rw [hq0]
    simp only [if_neg hq0v, Cross.initial, RRun.Cross.initial, Bool.false_eq_true, if_false, if_true]
  rw [hprime]
  have hP := h.prob
  have hu : u ≠ 0 := by
    rintro rfl
    apply hP.okN.lead
    simp only [map_zero, zero_mul]
    unfold RMulti.part
    simp
  have hpe : RMulti.withValues r.cfg (C u * red r.p n) (C u * red r.p d) (r.probes.map (fun q => (q.1, q.2.2))) = r.probes := by
    unfold RMulti.withValues
    rw [List.map_map]
    conv_rhs => rw [← List.map_id r.probes]
    apply List.map_congr_left
    intro q hq
    simp only [Function.comp, id]
    rw [value_scale _ _ hu, ← h.values q hq]
  obtain ⟨s, e1, e2, -⟩ := RMulti.reconstruct_ends h.gt hP _ h.nodup h.good h.thiele
  have hcomplete := RMulti.C44_complete h.gt hP _ h.nodup h.good h.thiele
  rw [hpe] at e1 hcomplete
  rw [List.length_map] at hcomplete
  cases hres : s.result with
  | none =>
    left
    constructor
    · unfold firstPrime
      rw [e1]
      simp only [Option.bind_eq_bind, Option.bind_some]
      rw [hres]
    · rintro ⟨h1, h2⟩
      obtain ⟨s', res, e4, e5, -⟩ := hcomplete h1 h2
      rw [e1] at e4
      obtain rfl := Option.some.inj e4
      rw [hres] at e5
      cases e5
  | some res =>
  right
  exact first_end hord hn hd h.nvars h.denN h.denD h.numN h.numD hP h'.shift h'.same h'.den0 hu e1 hres (e2 res hres)

lemma run_cons {inv : ℤ → ℤ → ℤ} {ord : RRun.Order} {c c' : Cross} {f : Stage} (h : prime inv ord c f = some (.nextPrime c')) (fs : List Stage) : run inv ord c (f :: fs) = run inv ord c' fs := by
  rw [run, h]; rfl

lemma run_spec {inv : ℤ → ℤ → ℤ} (hinv : InvertSpec inv) {ord : RRun.Order} (hord : ord.OK) (hn : InVars k n) (hd : InVars k d) {nd : Bool} :
    ∀ (fs : List Stage) (M : ℤ) (c : Cross), Ready k n d S M c → c.asks = c.singular → c.normDen = nd → RunsOK k n d S nd M fs → NoLateAsks inv ord c fs → c.base.primeNumber + fs.length < 300 →
      ∃ out, run inv ord c fs = some out ∧ Outcome inv ord k n d S nd M c fs out
  | [], M, c, h, _, _, _, _, _ => ⟨_, rfl, Or.inl ⟨c, rfl, by simpa [primeProd] using h, by simp⟩⟩
  | f :: fs, M, c, h, has, hnd, hr, hna, h300 => by
    rw [List.length_cons] at h300
    obtain ⟨hfit, hpM, hx, hrest⟩ := hr
    have hprod : ∀ l : List Stage, M * f.base.p * primeProd l = M * primeProd (f :: l) := by
      intro l; simp [primeProd, mul_assoc]
    have hc : Consistent c f := ⟨fun h0 => hna [] f fs c rfl h0 rfl, fun h0 => Or.inl (by rw [has]; exact h0)⟩
    obtain ⟨f1, f2, f3⟩ := hfit (shiftOn c f)
    subst hnd
    obtain ⟨out, e1, hout, hex⟩ := C63_prime hinv hord hn hd h hc f1 f2 f3 hpM (by omega) hx
    rcases hout with ⟨N, D, rfl, hcert⟩ | ⟨c', rfl, hc', -, has', hnd', -, -, hnum, hbig⟩ | ⟨rfl, h1, h2⟩
    · refine ⟨.finished N D, by rw [run, e1]; rfl, Or.inr (Or.inr ⟨N, D, rfl, ?_⟩)⟩
      by_cases hs : AllSmall n d M
      · exact Or.inl (hex hs N D rfl)
      · exact Or.inr ⟨[], f, fs, c, rfl, rfl, by simpa [primeProd] using hcert, by simpa [primeProd] using hs⟩
    · have hna' : NoLateAsks inv ord c' fs := by
        intro fs1 q fs2 c'' hq ho hrun
        exact hna (f :: fs1) q fs2 c'' (by rw [hq]; rfl) ho (by rw [run_cons e1]; exact hrun)
      obtain ⟨out, e', ho⟩ := run_spec hinv hord hn hd fs (M * f.base.p) c' hc' has' hnd' hrest hna' (by omega)
      refine ⟨out, by rw [run_cons e1]; exact e', ?_⟩
      rcases ho with ⟨c'', rfl, hc'', hsm⟩ | ⟨rfl, fs1, q, fs2, c'', hq, hrun, h1, h2⟩ | ⟨N, D, rfl, ho⟩
      · refine Or.inl ⟨c'', rfl, by rw [← hprod]; exact hc'', ?_⟩
        intro fs1 q fs2 hq
        rcases fs1 with _ | ⟨q', fs1⟩
        · simpa [primeProd] using hbig
        · rw [List.cons_append] at hq
          obtain ⟨h1, h2⟩ := List.cons.inj hq
          subst h1
          have := hsm fs1 q fs2 h2
          rwa [hprod] at this
      · refine Or.inr (Or.inl ⟨rfl, f :: fs1, q, fs2, c'', by rw [hq]; rfl, by rw [run_cons e1]; exact hrun, h1, ?_⟩)
        rw [← hprod]; exact h2
      · refine Or.inr (Or.inr ⟨N, D, rfl, ho.imp id ?_⟩)
        rintro ⟨fs1, q, fs2, c'', hq, hrun, h1, h2⟩
        refine ⟨f :: fs1, q, fs2, c'', by rw [hq]; rfl, by rw [run_cons e1]; exact hrun, ?_, ?_⟩
        · rw [← hprod]; exact h1
        · rw [← hprod]; exact h2
    · exact ⟨.running, by rw [run, e1]; rfl, Or.inr (Or.inl ⟨rfl, [], f, fs, c, rfl, rfl, h1, by simpa [primeProd] using h2⟩)⟩

/-- **C63.** A new object for a function of several variables is fed with values of `n/d` over several prime fields. There is a shift, which the caller keeps as long as this function or another one asks for it. The function may have a
monomial that is the only one of its degree, or not. Then there is no undefined behaviour and no error. Either there are too few probes in the first prime field, or `n/d` is normalized with a factor `l` that makes one coefficient one, and
the object reports `n/d`, or a result that is right modulo the primes and at a probe; or some field has too few probes; or it requests a further prime field, because the coefficients are too large for the primes so far. -/
theorem C63_run_partial {inv : ℤ → ℤ → ℤ} (hinv : InvertSpec inv) {ord : RRun.Order} (hord : ord.OK) (hn : InVars k n) (hd : InVars k d) (f : Stage) (fs : List Stage)
    {u : ZMod f.base.p} {mN mD : ℕ} (h1 : FirstOK k n d S f.base u mN mD) (h2 : ∀ l : ℚ, l ≠ 0 → (∃ b m, coeff m (side (C l * n) (C l * d) b) = 1) → RunsOK k (C l * n) (C l * d) S f.base.cfg.normDen f.base.p fs)
    (hna : ∀ c, prime inv ord (Cross.initial f.base.p) f = some (.nextPrime c) → NoLateAsks inv ord c fs) (h300 : fs.length + 1 < 300) :
    (run inv ord (Cross.initial f.base.p) (f :: fs) = some .running ∧ prime inv ord (Cross.initial f.base.p) f = some .running ∧ ¬ EnoughFirst n d f.base u mN mD) ∨
    ∃ (l : ℚ) (c : Cross) (out : RunOut), l ≠ 0 ∧ (∃ b m, coeff m (side (C l * n) (C l * d) b) = 1) ∧ prime inv ord (Cross.initial f.base.p) f = some (.nextPrime c) ∧
      run inv ord (Cross.initial f.base.p) (f :: fs) = some out ∧ Outcome inv ord k (C l * n) (C l * d) S f.base.cfg.normDen f.base.p c fs out := by
  rcases C63_first (inv := inv) hord hn hd h1 with ⟨e1, e2⟩ | ⟨l, c', l0, e1, hc', -, has, hnd, hnum, -⟩
  · exact Or.inl ⟨by rw [run, e1]; rfl, e1, e2⟩
  · right
    have hv : ∀ g, InVars k g → InVars k (C l * g) := by
      intro g hg m hm
      rw [support_scale l0] at hm
      exact hg m hm
    have hone : ∃ b m, coeff m (side (C l * n) (C l * d) b) = 1 := ⟨_, _, hc'.one⟩
    obtain ⟨out, e', ho⟩ := run_spec hinv hord (hv n hn) (hv d hd) fs f.base.p c' hc' has hnd (h2 l l0 hone) (hna c' e1) (by rw [hnum]; omega)
    exact ⟨l, c', out, l0, hone, e1, by rw [run_cons e1]; exact e', ho⟩

/-- **C63 (the object finishes; missing: skipped fields).** If there are enough probes in every field, with the shift and without it, and the coefficients are small for the product of the primes before some field, then a result is reported. -/
theorem C63_finishes_partial {inv : ℤ → ℤ → ℤ} (hinv : InvertSpec inv) {ord : RRun.Order} (hord : ord.OK) (hn : InVars k n) (hd : InVars k d) (f : Stage) (fs : List Stage)
    {u : ZMod f.base.p} {mN mD : ℕ} (h1 : FirstOK k n d S f.base u mN mD) (h2 : ∀ l : ℚ, l ≠ 0 → (∃ b m, coeff m (side (C l * n) (C l * d) b) = 1) → RunsOK k (C l * n) (C l * d) S f.base.cfg.normDen f.base.p fs)
    (hna : ∀ c, prime inv ord (Cross.initial f.base.p) f = some (.nextPrime c) → NoLateAsks inv ord c fs) (h300 : fs.length + 1 < 300)
    (hE0 : EnoughFirst n d f.base u mN mD ∨ prime inv ord (Cross.initial f.base.p) f ≠ some .running) (hE : ∀ q ∈ fs, ∀ on, EnoughIn k n d S f.base.cfg.normDen q on) {fs1 : List Stage} {q : Stage} {fs2 : List Stage} (hfs : fs = fs1 ++ q :: fs2)
    (hs : ∀ l : ℚ, l ≠ 0 → (∃ b m, coeff m (side (C l * n) (C l * d) b) = 1) → AllSmall (C l * n) (C l * d) (f.base.p * primeProd fs1)) :
    ∃ (l : ℚ) (N D : RnMap), l ≠ 0 ∧ run inv ord (Cross.initial f.base.p) (f :: fs) = some (.finished N D) ∧
      ((rnPoly N = C l * n ∧ rnPoly D = C l * d) ∨
        ∃ fs1 q fs2 on, fs = fs1 ++ q :: fs2 ∧ Certified k (C l * n) (C l * d) (f.base.p * primeProd fs1) (q.at on) N D ∧ ¬ AllSmall (C l * n) (C l * d) (f.base.p * primeProd fs1)) := by
  rcases C63_run_partial hinv hord hn hd f fs h1 h2 hna h300 with ⟨-, h', h⟩ | ⟨l, c, out, l0, hone, e1, e2, ho⟩
  · exact hE0.elim (fun h0 => absurd h0 h) (fun h0 => absurd h' h0)
  · have hsc : ∀ b, (side (C l * n) (C l * d) b).support = (side n d b).support := fun b => by rw [side_scale, support_scale l0]
    have hdeg : ∀ b, (side (C l * n) (C l * d) b).totalDegree = (side n d b).totalDegree := fun b => by unfold totalDegree; rw [hsc]
    rcases ho with ⟨c', rfl, -, h3⟩ | ⟨rfl, gs1, g, gs2, c', hg, -, h3, -⟩ | ⟨N, D, rfl, h3⟩
    · exact absurd (hs l l0 hone) (h3 fs1 q fs2 hfs)
    · exfalso
      apply h3
      have := hE g (by rw [hg]; simp) (shiftOn c' g)
      cases hm : shiftOn c' g with
      | true =>
        rw [hm] at this
        have hA : ∀ b, askedDegs (C l * n) (C l * d) S f.base.cfg.normDen b = askedDegs n d S f.base.cfg.normDen b := by
          intro b
          unfold askedDegs
          rw [hdeg]
          ext j
          simp only [Finset.mem_filter]
          unfold Asked
          rw [hsc]
        have this : EnoughShift k n d S f.base.cfg.normDen (g.at true) := this
        show EnoughShift k (C l * n) (C l * d) S f.base.cfg.normDen (g.at true)
        intro o o1 o2
        rw [hA, hA]
        refine this o o1 ?_
        obtain ⟨b, j, h4⟩ := o2
        rw [hsc] at h4
        exact ⟨b, j, h4⟩
      | false =>
        rw [hm] at this
        unfold EnoughIn Enough numDegs at this ⊢
        rw [support_scale l0, support_scale l0]
        exact this
    · refine ⟨l, N, D, l0, e2, h3.imp id ?_⟩
      rintro ⟨gs1, g, gs2, c', hg, -, k1, k2⟩
      exact ⟨gs1, g, gs2, _, hg, k1, k2⟩

end
end FireFly.RRun.Shifted
