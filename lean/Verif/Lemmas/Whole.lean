import Verif.Spec.Whole
import Verif.Props.RatRunProps
import Verif.Props.FirstFeedProps
import Verif.Props.NeededFeedProps
/-! # A whole run: one object in one field -/
set_option linter.all false
namespace FireFly

/-- the state of an object is the result of what it has got -/
lemma First.fold {F ι : Type} [DecidableEq ι] [DecidableEq F] {objs : ι → First.Obj F} {n : ℕ} {good : F × List ℕ → Prop} {ts rest more : List F} {s0 s : First.Fld F objs} (h0 : First.Starts objs n good ts rest more s0)
    (hr : First.Reaches objs n good s0 s) (i : ι) : (s.got i).foldlM (objs i).feed (objs i).init = some (s.st i) := by
  have one : ∀ (l : List (F × List ℕ)) (q : F × List ℕ) (i : ι) (x y : (objs i).S), l.foldlM (objs i).feed (objs i).init = some x → (objs i).feed x q = some y → (l ++ [q]).foldlM (objs i).feed (objs i).init = some y := by
    intro l q i x y h1 h2
    rw [List.foldlM_append, h1]; simpa using h2
  have key : ∀ s, First.Reaches objs n good s0 s → ∀ i, (s.got i).foldlM (objs i).feed (objs i).init = some (s.st i) := by
    intro s hr
    induction hr with
    | refl => intro i; have := h0.fed i; rw [h0.eq]; exact this
    | tail _ h ih =>
      cases h with
      | feed j q x hq1 hq2 hf =>
        intro i
        by_cases hij : i = j
        · subst hij
          simp only [Function.update_self]
          exact one _ q i _ _ (ih i) hf
        · simp only [Function.update_of_ne hij]
          exact ih i
      | compute => exact ih
      | look => exact ih
      | skip => exact ih
      | one => exact ih
      | entry => exact ih
  exact key s hr i

namespace Whole
open MvPolynomial RRun FFMap

lemma prime_first {inv : ℤ → ℤ → ℤ} {ord : Order} {p0 : ℕ} {r : Prime} (hne : r.probes ≠ []) (hns : ¬ r.Skipped) : prime inv ord (Cross.initial p0) r = firstPrime ord (Cross.initial p0) r := by
  obtain ⟨q, rest, hq⟩ : ∃ q rest, r.probes = q :: rest := by
    rcases hl : r.probes with _ | ⟨q0, rest⟩
    · exact absurd hl hne
    · exact ⟨q0, rest, rfl⟩
  have hv : q.2.1 ≠ 0 := fun h0 => hns ⟨q, rest, hq, h0⟩
  unfold prime
  rw [hq]
  simp only [if_neg hv, Cross.initial, Bool.false_eq_true, if_false, if_true]

lemma prime_later {inv : ℤ → ℤ → ℤ} {ord : Order} {c : Cross} (hc : c.known = true) {r : Prime} (hne : r.probes ≠ []) (hns : ¬ r.Skipped) : prime inv ord c r = laterPrime inv ord c r := by
  obtain ⟨q, rest, hq⟩ : ∃ q rest, r.probes = q :: rest := by
    rcases hl : r.probes with _ | ⟨q0, rest⟩
    · exact absurd hl hne
    · exact ⟨q0, rest, rfl⟩
  have hv : q.2.1 ≠ 0 := fun h0 => hns ⟨q, rest, hq, h0⟩
  unfold prime
  rw [hq]
  simp only [if_neg hv, hc, if_true]

lemma later_not_running {inv : ℤ → ℤ → ℤ} {ord : Order} {c : Cross} {r : Prime} {g : Option (RnMap × RnMap)} (eg : c.coefs.recRatCoef = some g) {s : RLater.St (ZMod r.p)}
    (hs : haveI := r.fact; (laterCfg c r g).feedAll ((laterCfg c r g).init c.unNum c.unDen) r.probes = some s) (hdone : s.out.isSome = true) : laterPrime inv ord c r ≠ some .running := by
  haveI := r.fact
  have e : laterPrime inv ord c r = (match (generalizing := false) s.out, g with
        | none, _ => some .running
        | some .accepted, some g => some (.finished g.1 g.2)
        | some .accepted, none => none
        | some (.solved num den), _ => do
          let k ← c.coefs.combineNext inv num den
          RRun.endPrime ord c k) := by
    unfold laterPrime
    rw [eg]
    simp only [Option.bind_eq_bind, Option.bind_some]
    unfold laterCfg at hs
    rw [hs]
    rfl
  rw [e]
  cases ho : s.out with
  | none => rw [ho] at hdone; cases hdone
  | some o =>
    cases o with
    | accepted => cases g <;> simp
    | solved num den =>
      intro h
      have h := Option.bind_eq_some_iff.mp h
      obtain ⟨kk, -, e1⟩ := h
      unfold RRun.endPrime at e1
      split at e1 <;> simp at e1

lemma record_ne {ι : Type} {f : PField ι} {i : ι} {got : List (ZMod f.p × List ℕ)} (h : got ≠ []) : (f.record i got).probes ≠ [] := by
  unfold PField.record
  simpa using h

lemma record_ns {ι : Type} {f : PField ι} {i : ι} {got : List (ZMod f.p × List ℕ)} (h : ∀ q ∈ got, f.value i q.1 q.2 ≠ 0) : ¬ (f.record i got).Skipped := by
  rintro ⟨q', r', h1, h2⟩
  have : q' ∈ (f.record i got).probes := by rw [h1]; simp
  obtain ⟨x, hx, rfl⟩ := List.mem_map.mp this
  exact h x hx h2

section
variable {ι : Type} {k : ℕ} {n d : MvPolynomial ℕ ℚ} {f : PField ι} {i : ι}

lemma FirstGood.ne {u : ZMod f.p} {mN mD : ℕ} (h : FirstGood k n d f i u mN mD) : u ≠ 0 := by
  haveI := f.fact
  rintro rfl
  apply h.prob.okN.lead
  simp only [map_zero, zero_mul]
  unfold RMulti.part
  simp

lemma FirstGood.described {u : ZMod f.p} {mN mD : ℕ} (h : FirstGood k n d f i u mN mD) : haveI := f.fact
    First.Described k f.good (f.firstObjs i) (mN + mD + 2) (fun s => ∃ r, RMulti.St.result s = some r ∧ RMulti.Good (f.cfg i) (C u * red f.p n) (C u * red f.p d) r) := by
  haveI := f.fact
  have hv : f.value i = RMulti.valueOf (f.cfg i).shift (f.cfg i).anchor (C u * red f.p n) (C u * red f.p d) := by
    funext t o
    rw [h.values]
    unfold RMulti.valueOf
    rw [eval_mul, eval_mul, eval_C, mul_div_mul_left _ _ h.ne]
  show First.Described k f.good (RMulti.obj (f.cfg i) (f.value i)) (mN + mD + 2) _
  rw [hv]
  exact First.Described.multi (f.cfg i) _ _ mN mD h.nvars h.gt h.prob h.points h.thiele

lemma record_first {s : RMulti.St (ZMod f.p)} {got : List (ZMod f.p × List ℕ)} (hs : haveI := f.fact; got.foldlM (f.firstObjs i).feed (f.firstObjs i).init = some s) :
    haveI := f.fact; (f.cfg i).feedAll (f.cfg i).init (f.record i got).probes = some s := by
  haveI := f.fact
  rw [← hs]
  unfold RMulti.Cfg.feedAll PField.record
  simp only
  rw [List.foldlM_map]; rfl

/-- the first prime field for one object -/
lemma first_one {inv : ℤ → ℤ → ℤ} {ord : Order} (hord : ord.OK) (hn : InVars k n) (hd : InVars k d) (hlone : ∃ g ∈ [n, d], ∃ m ∈ g.support, ∀ m' ∈ g.support, m'.degree = m.degree → m' = m)
    {u : ZMod f.p} {mN mD : ℕ} (h : FirstGood k n d f i u mN mD) {got : List (ZMod f.p × List ℕ)} (hgood : ∀ q ∈ got, f.good q) {s : RMulti.St (ZMod f.p)}
    (hs : haveI := f.fact; got.foldlM (f.firstObjs i).feed (f.firstObjs i).init = some s)
    (hright : haveI := f.fact; ∃ r, s.result = some r ∧ RMulti.Good (f.cfg i) (C u * red f.p n) (C u * red f.p d) r) :
    ∃ (l : ℚ) (b : Bool) (e : List ℕ) (c' : Cross), l ≠ 0 ∧ Normalized k (C l * n) (C l * d) b e ∧ prime inv ord (Cross.initial f.p) (f.record i got) = some (.nextPrime c') ∧
      OK k (C l * n) (C l * d) b e f.p c' ∧ c'.primeNumber = 1 := by
  haveI := f.fact
  obtain ⟨res, hres, hgd⟩ := hright
  have hne : got ≠ [] := by
    intro hg
    rw [hg] at hs
    have hs : some (f.cfg i).init = some s := hs
    obtain rfl := Option.some.inj hs
    have : (f.cfg i).init.result = none := rfl
    rw [this] at hres; cases hres
  rw [prime_first (record_ne hne) (record_ns (fun q hq => h.nonzero q (hgood q hq)))]
  have hcore := first_core (r := f.record i got) (u := u) hord hn hd h.ne h.nvars h.denN h.denD h.numN h.numD (s := s) (record_first hs) hres hgd
  rcases hcore with ⟨-, h2⟩ | h2
  · obtain ⟨g, hg, m, hm, hm2⟩ := hlone
    obtain ⟨m', h3, h4, h5⟩ := h2 g hg m hm
    exact absurd (hm2 m' h3 h5) h4
  · exact h2

end

section
variable {ι : Type} {k : ℕ} {n d : MvPolynomial ℕ ℚ} {b : Bool} {e : List ℕ} {f : PField ι} {i : ι}

lemma LaterGood.ok (h : LaterGood k n d b e f i) {got : List (ZMod f.p × List ℕ)} (hgood : ∀ q ∈ got, f.good q) (hnd : got.Nodup) : LaterOK k n d b e (f.record i got) := by
  haveI := f.fact
  have hm : (f.record i got).probes.map (fun q => (q.1, q.2.2)) = got := by
    unfold PField.record
    simp only [List.map_map]
    conv_rhs => rw [← List.map_id got]
    rfl
  refine ⟨h.nvars, h.anchorLen, h.anchor, h.gt, h.denN, h.denD, h.distinct, ?_, by rw [hm]; exact hnd, ?_⟩
  · intro q hq
    obtain ⟨x, hx, rfl⟩ := List.mem_map.mp hq
    obtain ⟨h1, h2, -⟩ := h.probes x (hgood x hx)
    exact ⟨h1, h2, h.values x.1 x.2⟩
  · intro ord A B ts hA hB h1 h2 h3 x y h4
    rw [hm] at h2
    refine h.det ord A B ts hA hB h1 (fun t ht => hgood _ (h2 t ht)) h3 x y (fun t ht => ?_)
    rw [h.values]
    exact h4 t ht

/-- the settings of the object -/
def cfgOf (f : PField ι) (i : ι) (c : Cross) (g : Option (RnMap × RnMap)) : haveI := f.fact; RLater.Cfg (ZMod f.p) :=
  haveI := f.fact
  { n := (f.cfg i).n, anchor := (f.cfg i).anchor, gt := (f.cfg i).gt, known := (convertToFF f.p c.coefs.gNi, convertToFF f.p c.coefs.gDi), guess := g.map (fun g => (convertToFF f.p g.1, convertToFF f.p g.2)) }

/-- the number of order vectors the parts need -/
def lensOf (c : Cross) : List ℕ := c.unNum.map (fun u => u.2.length) ++ c.unDen.map (fun u => u.2.length)

lemma later_described (hk : 2 ≤ k) (hn : InVars k n) (hd : InVars k d) {M : ℤ} {c : Cross} (h : OK k n d b e M c) (he : e.length = k) (hg : LaterGood k n d b e f i) :
    haveI := f.fact
    ∃ g, c.coefs.recRatCoef = some g ∧ ∃ right, Needed.Described k f.good (RLater.obj (cfgOf f i c g) c.unNum c.unDen (f.value i)) (lensOf c) right := by
  haveI := f.fact
  have hM := h.prime
  obtain ⟨g, eg, g1, g2⟩ := C36_guess (c1 := RRun.coefOf n) (c2 := RRun.coefOf d) (K1 := RRun.monos k n) (K2 := RRun.monos k d) c.coefs (hM ▸ h.num) (hM ▸ h.den)
  refine ⟨g, eg, ?_⟩
  rw [hM] at g1 g2
  have hkk := hg.nvars
  have hval : f.value i = RLater.value (cfgOf f i c g).anchor (red f.p n) (red f.p d) := by
    funext t o; exact hg.values t o
  have hguess : RLater.GuessOK (cfgOf f i c g) := by
    intro gg hgg
    unfold cfgOf at hgg
    simp only [Option.map_eq_some_iff] at hgg
    obtain ⟨g0, hg0, rfl⟩ := hgg
    have := g1 g0 hg0
    show WFMap (f.cfg i).n _ ∧ WFMap (f.cfg i).n _
    rw [hkk]
    exact ⟨wf_convert f.p (RRun.guess_facts hn this.1).2, wf_convert f.p (RRun.guess_facts hd this.2).2⟩
  have hlen : (cfgOf f i c g).anchor.length + 1 = (cfgOf f i c g).n := by
    show (f.cfg i).anchor.length + 1 = (f.cfg i).n
    rw [hkk]; exact hg.anchorLen
  rw [hval]
  by_cases hU : c.unNum = [] ∧ c.unDen = []
  · obtain ⟨g0, hg0, x1, x2⟩ := g2 (by rw [grouped_nil h.unNum hU.1]; simp) (by rw [grouped_nil h.unDen hU.2]; simp)
    have hl : lensOf c = [] := by unfold lensOf; rw [hU.1, hU.2]; rfl
    rw [hl, hU.1, hU.2]
    refine ⟨_, Needed.Described.known (cfgOf f i c g) _ _ hkk hlen hguess (fun q hq => ⟨(hg.probes q hq).1, ?_⟩)⟩
    have := g1 g0 hg0
    refine ⟨(convertToFF f.p g0.1, convertToFF f.p g0.2), by unfold cfgOf; rw [hg0]; rfl, ?_⟩
    rw [← RRun.red_rnPoly f.p (RRun.guess_facts hn this.1).2 (RRun.guess_facts hn this.1).1, ← RRun.red_rnPoly f.p (RRun.guess_facts hd this.2).2 (RRun.guess_facts hd this.2).1, RRun.rnPoly_exact hn x1, RRun.rnPoly_exact hd x2]
  · have hU : c.unNum ≠ [] ∨ c.unDen ≠ [] := by
      by_contra hc
      push Not at hc
      exact hU hc
    have hSN : RLater.Split (cfgOf f i c g).n (cfgOf f i c g).anchor (red f.p n) (cfgOf f i c g).known.1 c.unNum := by
      have := side_split (p := f.p) hn h.num h.unNum hg.anchor (hg.distinct n (by simp))
      rw [← hkk] at this
      exact this
    have hSD : RLater.Split (cfgOf f i c g).n (cfgOf f i c g).anchor (red f.p d) (cfgOf f i c g).known.2 c.unDen := by
      have := side_split (p := f.p) hd h.den h.unDen hg.anchor (hg.distinct d (by simp))
      rw [← hkk] at this
      exact this
    have hGP : RLater.GoodPts (cfgOf f i c g).anchor (red f.p n) (red f.p d) c.unNum c.unDen (fun t o => f.good (t, o)) := by
      refine ⟨fun t o hm => (hg.probes _ hm).1, fun t o hm => (hg.probes _ hm).2.1, ?_⟩
      intro o A B ts hA hB h1 h2 h3 x y h4
      refine hg.det o A B ts ?_ ?_ h1 h2 h3 x y (fun t ht => by rw [hg.values]; exact h4 t ht)
      · intro j hj
        obtain ⟨e', m1, m2, m3, m4⟩ := grouped_degree hn h.num h.unNum (hA j hj)
        refine ⟨_, m3, m4, ?_⟩
        intro hb heq
        have := h.norm
        rw [hb] at this
        simp only [Bool.false_eq_true, if_false] at this
        rw [find?_eq_none] at this
        rw [toFinsupp_inj m2 he heq] at m1
        exact this m1
      · intro j hj
        obtain ⟨e', m1, m2, m3, m4⟩ := grouped_degree hd h.den h.unDen (hB j hj)
        refine ⟨_, m3, m4, ?_⟩
        intro hb heq
        have := h.norm
        rw [hb] at this
        simp only [if_true] at this
        rw [find?_eq_none] at this
        rw [toFinsupp_inj m2 he heq] at m1
        exact this m1
    exact ⟨_, Needed.Described.plain (cfgOf f i c g) _ _ _ _ hkk hg.gt hlen hSN hSD hU hguess hGP⟩

/-- a further prime field for one object -/
lemma later_one {inv : ℤ → ℤ → ℤ} (hinv : InvertSpec inv) {ord : Order} (hord : ord.OK) (hn : InVars k n) (hd : InVars k d) {M : ℤ} {c : Cross} (h : OK k n d b e M c) (he : e.length = k) (hg : LaterGood k n d b e f i)
    (hpM : ¬ (f.p : ℤ) ∣ M) (h300 : c.primeNumber + 1 < 300) (hx : ∀ m, ¬ Deceptive (coeff m n) M (M * f.p) ∧ ¬ Deceptive (coeff m d) M (M * f.p))
    {got : List (ZMod f.p × List ℕ)} (hgood : ∀ q ∈ got, f.good q) (hnd : got.Nodup) {g : Option (RnMap × RnMap)} (eg : c.coefs.recRatCoef = some g) {s : RLater.St (ZMod f.p)}
    (hs : haveI := f.fact; got.foldlM (RLater.obj (cfgOf f i c g) c.unNum c.unDen (f.value i)).feed (RLater.obj (cfgOf f i c g) c.unNum c.unDen (f.value i)).init = some s) (hdone : s.out.isSome = true) :
    (∃ N D, prime inv ord c (f.record i got) = some (.finished N D) ∧ RRun.Certified k n d M (f.record i got) N D ∧ (AllSmall n d M → RRun.rnPoly N = n ∧ RRun.rnPoly D = d)) ∨
    ∃ c', prime inv ord c (f.record i got) = some (.nextPrime c') ∧ OK k n d b e (M * f.p) c' ∧ c'.primeNumber = c.primeNumber + 1 ∧ ¬ AllSmall n d M := by
  haveI := f.fact
  have hne : got ≠ [] := by
    intro hgt
    rw [hgt] at hs
    have hs : some ((cfgOf f i c g).init c.unNum c.unDen) = some s := hs
    obtain rfl := Option.some.inj hs
    have : ((cfgOf f i c g).init c.unNum c.unDen).out = none := rfl
    rw [this] at hdone; cases hdone
  have hns : ¬ (f.record i got).Skipped := record_ns (fun q hq => (hg.probes q (hgood q hq)).2.2)
  obtain ⟨out, e1, e2, e3⟩ := C46_prime hinv hord hn hd h he (hg.ok hgood hnd) (record_ne hne) hns hpM h300 hx
  rcases e2 with ⟨N, D, rfl, e4⟩ | ⟨c', rfl, e4, e5, e6⟩ | ⟨rfl, -⟩
  · exact Or.inl ⟨N, D, e1, e4, fun hsm => e3 hsm N D rfl⟩
  · exact Or.inr ⟨c', e1, e4, e5, e6⟩
  · exfalso
    rw [prime_later h.known (record_ne hne) hns] at e1
    refine later_not_running (r := f.record i got) (g := g) (s := s) eg ?_ hdone e1
    have h1 : (cfgOf f i c g).feedAll ((cfgOf f i c g).init c.unNum c.unDen) (got.map (fun q => (q.1, f.value i q.1 q.2, q.2))) =
        got.foldlM (RLater.obj (cfgOf f i c g) c.unNum c.unDen (f.value i)).feed (RLater.obj (cfgOf f i c g) c.unNum c.unDen (f.value i)).init := by
      unfold RLater.Cfg.feedAll
      rw [List.foldlM_map]; rfl
    exact h1.trans hs

end

end Whole
end FireFly
