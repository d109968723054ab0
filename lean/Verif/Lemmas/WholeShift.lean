import Verif.Spec.WholeShift
import Verif.Lemmas.Whole
import Verif.Props.RatShiftAllProps
/-! # A whole run with a shift: one object in one field -/
set_option linter.all false
namespace FireFly

/-- what an object has at the end of the first prime field, whatever the order of the allowed probes -/
lemma RMulti.ends_of_fold {F : Type} [Field F] [DecidableEq F] {c : RMulti.Cfg F} {N D : MvPolynomial ℕ F} {mN mD : ℕ} {G : F → List ℕ → Prop} (gtp : PivotOrder c.gt) (hp : RMulti.Prob c N D mN mD)
    (hG : RMulti.GoodPts c N D G) (hTG : RMulti.ThieleGood c N D mN mD G) (got : List (F × List ℕ)) (hg : ∀ x ∈ got, G x.1 x.2) (hnd : got.Nodup) {s : RMulti.St F}
    (hs : got.foldlM (fun s q => c.feed s (q.1, RMulti.valueOf c.shift c.anchor N D q.1 q.2, q.2)) c.init = some s) {r : RMulti.Result F} (hr : s.result = some r) : RMulti.Ends c N D s r := by
  have key : ∀ (l past : List (F × List ℕ)) (x : RMulti.St F) (φ : ℕ), RMulti.Inv2 c N D mN mD G past x φ → (∀ y ∈ past ++ l, G y.1 y.2) → (past ++ l).Nodup → ∀ y, l.foldlM (fun s q => c.feed s (q.1, RMulti.valueOf c.shift c.anchor N D q.1 q.2, q.2)) x = some y →
      ∃ φ', RMulti.Inv2 c N D mN mD G (past ++ l) y φ' := by
    intro l
    induction l with
    | nil => intro past x φ h _ _ y hy; obtain rfl := Option.some.inj hy; exact ⟨φ, by simpa using h⟩
    | cons q l ih =>
      intro past x φ h h1 h2 y hy
      have e : past ++ q :: l = (past ++ [q]) ++ l := by simp
      rw [e] at h1 h2
      obtain ⟨s', φ', e1, e2, -⟩ := RMulti.feed2 gtp hp hG hTG (q := q) (fun x hx => h1 x (List.mem_append_left _ hx)) (List.nodup_append.mp h2).1 h
      rw [List.foldlM_cons, e1] at hy
      rw [e]
      exact ih _ s' φ' e2 h1 h2 y hy
  obtain ⟨φ, h⟩ := key got [] c.init _ (RMulti.Inv2.start c N D mN mD G) (by simpa using hg) (by simpa using hnd) s hs
  rcases h with ⟨-, r', h1, h2⟩ | ⟨h, -⟩ | ⟨pts, h, -⟩
  · rw [hr] at h1; obtain rfl := Option.some.inj h1; exact h2
  · rw [h.result] at hr; cases hr
  · rw [h.late.run.both.result] at hr; cases hr

namespace WholeShift
open MvPolynomial RRun FFMap

lemma stage_ne {ι : Type} {f : PField ι} {i : ι} {o on : Bool} {got : List (ZMod f.p × List ℕ)} (h : got ≠ []) : ((f.stage i o got).at on).probes ≠ [] := by
  cases on <;> unfold PField.stage Shifted.Stage.at <;> simpa using h

lemma stage_ns {ι : Type} {f : PField ι} {i : ι} {o on : Bool} {got : List (ZMod f.p × List ℕ)} (h : ∀ q ∈ got, f.value on i q.1 q.2 ≠ 0) : ¬ ((f.stage i o got).at on).Skipped := by
  cases on
  · rintro ⟨q', r', h1, h2⟩
    have : q' ∈ ((f.stage i o got).at false).probes := by rw [h1]; simp
    obtain ⟨x, hx, rfl⟩ := List.mem_map.mp this
    exact h x hx h2
  · rintro ⟨q', r', h1, h2⟩
    have : q' ∈ ((f.stage i o got).at true).probes := by rw [h1]; simp
    obtain ⟨x, hx, rfl⟩ := List.mem_map.mp this
    exact h x hx h2

section
variable {ι : Type} {k : ℕ} {n d : MvPolynomial ℕ ℚ} {S : Bool → ℕ → Finset (ℕ →₀ ℕ)} {f : PField ι} {i : ι}

/-- the first prime field for one object -/
lemma first_one {inv : ℤ → ℤ → ℤ} {ord : Order} (hord : ord.OK) (hn : InVars k n) (hd : InVars k d) {u : ZMod f.p} {mN mD : ℕ} (h : FirstGood k n d S f i u mN mD) {o : Bool} {got : List (ZMod f.p × List ℕ)} (hgood : ∀ q ∈ got, f.good true q)
    (hnd : got.Nodup) {s : RMulti.St (ZMod f.p)} (hs : haveI := f.fact; got.foldlM (f.first.firstObjs i).feed (f.first.firstObjs i).init = some s) (hdone : s.result.isSome = true) :
    ∃ (l : ℚ) (c' : Shifted.Cross), l ≠ 0 ∧ Shifted.prime inv ord (Shifted.Cross.initial f.p) (f.stage i o got) = some (.nextPrime c') ∧ Shifted.Ready k (C l * n) (C l * d) S f.p c' ∧ c'.on = true ∧ c'.asks = c'.singular ∧
      c'.normDen = (f.cfg i).normDen ∧ c'.base.primeNumber = 1 := by
  haveI := f.fact
  have hb := h.base
  have hu : u ≠ 0 := hb.ne
  obtain ⟨res, hres⟩ := Option.isSome_iff_exists.mp hdone
  have hne : got ≠ [] := by
    rintro rfl
    have hs : some (f.cfg i).init = some s := hs
    obtain rfl := Option.some.inj hs
    have : (f.cfg i).init.result = none := rfl
    rw [this] at hres; cases hres
  have hv : f.value true i = RMulti.valueOf (f.cfg i).shift (f.cfg i).anchor (C u * red f.p n) (C u * red f.p d) := by
    funext t o
    have := hb.values t o
    rw [Shifted.value_scale _ _ hu]
    exact this
  have hs' : got.foldlM (fun s q => (f.cfg i).feed s (q.1, RMulti.valueOf (f.cfg i).shift (f.cfg i).anchor (C u * red f.p n) (C u * red f.p d) q.1 q.2, q.2)) (f.cfg i).init = some s := by
    rw [← hv]; exact hs
  have hends := RMulti.ends_of_fold (mN := mN) (mD := mD) (G := fun t ord => f.good true (t, ord)) hb.gt hb.prob hb.points hb.thiele got hgood hnd hs' hres
  have e1 : (f.cfg i).feedAll (f.cfg i).init (f.stage i o got).base.probes = some s := Whole.record_first (f := f.first) (i := i) hs
  obtain ⟨l, c', h1, h2, h3, h4, h5, h6, h7, -⟩ := Shifted.first_end (r := (f.stage i o got).base) (ord := ord) hord hn hd hb.nvars hb.denN hb.denD hb.numN hb.numD hb.prob h.shift h.same h.den0 hu e1 hres hends
  refine ⟨l, c', h1, ?_, h3, h4, h5, h6, h7⟩
  rw [← h2]
  have hns : ¬ ((f.stage i o got).at true).Skipped := stage_ns (fun q hq => hb.nonzero q (hgood q hq))
  show Shifted.field inv ord (Shifted.Cross.initial f.p) o (f.stage i o got).base = _
  obtain ⟨q, rest, hq⟩ : ∃ q rest, (f.stage i o got).base.probes = q :: rest := by
    rcases hl : (f.stage i o got).base.probes with _ | ⟨q0, rest⟩
    · exact absurd hl (stage_ne (on := true) hne)
    · exact ⟨q0, rest, rfl⟩
  have hq0 : q.2.1 ≠ 0 := fun h0 => hns ⟨q, rest, hq, h0⟩
  unfold Shifted.field
  rw [hq]
  simp only [if_neg hq0, Shifted.Cross.initial, RRun.Cross.initial, Bool.false_eq_true, if_false, if_true]
  rfl

end

section
variable {ι : Type} {k : ℕ} {n d : MvPolynomial ℕ ℚ} {S : Bool → ℕ → Finset (ℕ →₀ ℕ)} {nd : Bool} {f : PField ι} {i : ι}

lemma map_probes {ι : Type} {f : PField ι} {i : ι} (o on : Bool) (got : List (ZMod f.p × List ℕ)) : (got.map (fun q => (q.1, f.value on i q.1 q.2, q.2))).map (fun q => (q.1, q.2.2)) = got := by
  rw [List.map_map]
  conv_rhs => rw [← List.map_id got]
  rfl

lemma ShiftGood.ok (hk : 2 ≤ k) (h : ShiftGood k n d S nd f i) {o : Bool} {got : List (ZMod f.p × List ℕ)} (hgood : ∀ q ∈ got, f.good true q) (hnd : got.Nodup) : Shifted.ShiftOK k n d S nd ((f.stage i o got).at true) := by
  haveI := f.fact
  have hm : ((f.stage i o got).at true).probes.map (fun q => (q.1, q.2.2)) = got := map_probes o true got
  refine ⟨hk, h.nvars, h.lenShift, h.anchorLen, h.anchor, h.gt, h.denom, h.norm, h.same, h.distinct, h.large, ?_, by rw [hm]; exact hnd, ?_⟩
  · intro q hq
    obtain ⟨x, hx, rfl⟩ := List.mem_map.mp hq
    obtain ⟨h1, h2, -⟩ := h.probes x (hgood x hx)
    exact ⟨h1, h2, h.values x.1 x.2⟩
  · intro ord A B ts hA hB h1 h2 h3 x y h4
    rw [hm] at h2
    refine h.det ord A B ts hA hB h1 (fun t ht => hgood _ (h2 t ht)) h3 x y (fun t ht => ?_)
    rw [h.values]
    exact h4 t ht

lemma PlainGood.ok (h : PlainGood k n d f i) {o : Bool} {got : List (ZMod f.p × List ℕ)} (hgood : ∀ q ∈ got, f.good false q) (hnd : got.Nodup) : Shifted.PlainOK k n d ((f.stage i o got).at false) := by
  haveI := f.fact
  have hm : ((f.stage i o got).at false).probes.map (fun q => (q.1, q.2.2)) = got := map_probes o false got
  refine ⟨⟨h.nvars, h.anchorLen, h.anchor, h.gt, h.denN, h.denD, h.distinct, ?_, by rw [hm]; exact hnd⟩, ?_⟩
  · intro q hq
    obtain ⟨x, hx, rfl⟩ := List.mem_map.mp hq
    obtain ⟨h1, h2, -⟩ := h.probes x (hgood x hx)
    exact ⟨h1, h2, h.values x.1 x.2⟩
  · intro ord A B ts hA hB h0 h1 h2 h3 x y h4
    rw [hm] at h2
    refine h.det ord A B ts hA hB h0 h1 (fun t ht => hgood _ (h2 t ht)) h3 x y (fun t ht => ?_)
    rw [h.values]
    exact h4 t ht

/-- the settings of the object with the shift -/
abbrev shiftCfgOf (f : PField ι) (i : ι) (c : Shifted.Cross) (g : Option (RnMap × RnMap)) : haveI := f.fact; RShift.Cfg (ZMod f.p) := haveI := f.fact; Shifted.shiftCfg c (f.settings true i) g

/-- the settings of the object without shift -/
def plainCfgOf (f : PField ι) (i : ι) (c : RRun.Cross) (g : Option (RnMap × RnMap)) : haveI := f.fact; RLater.Cfg (ZMod f.p) :=
  haveI := f.fact
  { n := (f.cfg i).n, anchor := (f.cfg i).anchor, gt := (f.cfg i).gt, known := (convertToFF f.p c.coefs.gNi, convertToFF f.p c.coefs.gDi), guess := g.map (fun g => (convertToFF f.p g.1, convertToFF f.p g.2)) }

/-- the number of order vectors the parts need, with the shift or without it -/
noncomputable def lensOf (f : PField ι) (on : Bool) (i : ι) (c : Shifted.Cross) : List ℕ :=
  if on then Needed.parts (f.cfg i).n (!c.normDen) (c.num.prior c.base.unNum c.base.coefs.gNi) ++ Needed.parts (f.cfg i).n c.normDen (c.den.prior c.base.unDen c.base.coefs.gDi)
  else c.base.unNum.map (fun u => u.2.length) ++ c.base.unDen.map (fun u => u.2.length)

/-- an object with the shift -/
lemma shift_described (hk : 2 ≤ k) (hn : InVars k n) (hd : InVars k d) {M : ℤ} {c : Shifted.Cross} (h : Shifted.Ready k n d S M c) (hon : c.on = true) (hg : ShiftGood k n d S c.normDen f i) :
    haveI := f.fact
    ∃ g, c.base.coefs.recRatCoef = some g ∧ f.laterObj true true i c = RShift.obj (shiftCfgOf f i c g) (f.value true i) ∧ ∃ right, Needed.Described k (f.good true) (f.laterObj true true i c) (lensOf f true i c) right := by
  haveI := f.fact
  have hM := h.base.prime
  obtain ⟨g, eg, g1, g2⟩ := C36_guess (c1 := RRun.coefOf n) (c2 := RRun.coefOf d) (K1 := RRun.monos k n) (K2 := RRun.monos k d) c.base.coefs (hM ▸ h.base.num) (hM ▸ h.base.den)
  rw [hM] at g1 g2
  have hok := hg.ok hk (o := false) (got := []) (by simp) (by simp)
  obtain ⟨w, hw⟩ : ∃ w : ZMod f.p, w = Shifted.factor n d c.normDen ((f.stage i false []).at true) := ⟨_, rfl⟩
  have hu : w ≠ 0 := by rw [hw]; exact Shifted.factor_ne hok
  have hkk := hg.nvars
  have hval : f.value true i = RMulti.valueOf (f.cfg i).shift (f.cfg i).anchor (C w * red f.p n) (C w * red f.p d) := by
    funext t o
    refine (hg.values t o).trans ?_
    exact (Shifted.value_scale _ _ hu _ _ _ _).symm
  haveI : Fact (f.settings true i).p.Prime := f.fact
  have hinit : Shifted.shiftInit c (f.settings true i) g = (Shifted.shiftCfg c (f.settings true i) g).init := Shifted.shift_init hn hd h hon hok g
  have e : f.laterObj true true i c = RShift.obj (shiftCfgOf f i c g) (f.value true i) := by
    unfold PField.laterObj
    rw [if_pos rfl, eg]
    show Needed.Obj.mk _ _ _ _ _ = _
    unfold RShift.obj shiftCfgOf
    congr 1
  refine ⟨g, eg, e, ?_⟩
  rw [e, hval]
  have hguess : RShift.GuessOK (shiftCfgOf f i c g) := by
    intro gg hgg
    have hgg : g.map (fun g => (convertToFF f.p g.1, convertToFF f.p g.2)) = some gg := hgg
    rw [Option.map_eq_some_iff] at hgg
    obtain ⟨g0, hg0, rfl⟩ := hgg
    have := g1 g0 hg0
    show WFMap (f.cfg i).n _ ∧ WFMap (f.cfg i).n _
    rw [hkk]
    exact ⟨wf_convert f.p (RRun.guess_facts hn this.1).2, wf_convert f.p (RRun.guess_facts hd this.2).2⟩
  have hprob : RShift.Prob (shiftCfgOf f i c g) (C w * red f.p n) (C w * red f.p d) := by rw [hw]; exact Shifted.shift_prob hn hd h hon hok g
  obtain ⟨aN, aN'⟩ := h.askedN hn hon (f.cfg i).n
  obtain ⟨aD, aD'⟩ := h.askedD hd hon (f.cfg i).n
  have hpts : RShift.GoodPts (shiftCfgOf f i c g) (C w * red f.p n) (C w * red f.p d) (fun t ord => f.good true (t, ord)) := by
    refine ⟨fun t o hm => (hg.probes _ hm).1, fun t o hm => ?_, ?_⟩
    · have h0 := (hg.probes _ hm).2.1
      have h1 : eval (RMulti.pt (f.cfg i).shift (f.cfg i).anchor t o) (C w * red f.p d) ≠ 0 := by
        rw [eval_mul, eval_C]
        exact mul_ne_zero hu h0
      exact h1
    · intro ord A B ts hA hB h1 h2 h3 x y h4
      have hA : A ⊆ RShift.asked (f.cfg i).n (!c.normDen) (c.num.prior c.base.unNum c.base.coefs.gNi) := hA
      have hB : B ⊆ RShift.asked (f.cfg i).n c.normDen (c.den.prior c.base.unDen c.base.coefs.gDi) := hB
      rw [aN] at hA
      rw [aD] at hB
      refine hg.det ord A B ts (fun j hj => aN' j (hA hj)) (fun j hj => aD' j (hB hj)) h1 h2 h3 x y ?_
      intro t ht
      rw [h4 t ht, hval]
      rfl
  exact ⟨_, Needed.Described.shift (shiftCfgOf f i c g) _ _ hkk hg.gt hprob hguess hpts⟩

/-- an object without shift -/
lemma plain_described (hn : InVars k n) (hd : InVars k d) {M : ℤ} {c : Shifted.Cross} (h : Shifted.Ready k n d S M c) (hsing : c.singular = false) (hg : PlainGood k n d f i) :
    haveI := f.fact
    ∃ g, c.base.coefs.recRatCoef = some g ∧ f.laterObj false false i c = RLater.obj (plainCfgOf f i c.base g) c.base.unNum c.base.unDen (f.value false i) ∧ ∃ right, Needed.Described k (f.good false) (f.laterObj false false i c) (lensOf f false i c) right := by
  haveI := f.fact
  have hB := h.base
  have hM := hB.prime
  obtain ⟨g, eg, g1, g2⟩ := C36_guess (c1 := RRun.coefOf n) (c2 := RRun.coefOf d) (K1 := RRun.monos k n) (K2 := RRun.monos k d) c.base.coefs (hM ▸ hB.num) (hM ▸ hB.den)
  rw [hM] at g1 g2
  have e : f.laterObj false false i c = RLater.obj (plainCfgOf f i c.base g) c.base.unNum c.base.unDen (f.value false i) := by
    unfold PField.laterObj
    rw [if_neg (by simp), eg]
    rfl
  refine ⟨g, eg, e, ?_⟩
  rw [e]
  have hkk := hg.nvars
  have hval : f.value false i = RLater.value (plainCfgOf f i c.base g).anchor (red f.p n) (red f.p d) := by
    funext t o; exact hg.values t o
  have hguess : RLater.GuessOK (plainCfgOf f i c.base g) := by
    intro gg hgg
    unfold plainCfgOf at hgg
    simp only [Option.map_eq_some_iff] at hgg
    obtain ⟨g0, hg0, rfl⟩ := hgg
    have := g1 g0 hg0
    show WFMap (f.cfg i).n _ ∧ WFMap (f.cfg i).n _
    rw [hkk]
    exact ⟨wf_convert f.p (RRun.guess_facts hn this.1).2, wf_convert f.p (RRun.guess_facts hd this.2).2⟩
  have hlen : (plainCfgOf f i c.base g).anchor.length + 1 = (plainCfgOf f i c.base g).n := by
    show (f.cfg i).anchor.length + 1 = (f.cfg i).n
    rw [hkk]; exact hg.anchorLen
  rw [hval]
  by_cases hU : c.base.unNum = [] ∧ c.base.unDen = []
  · obtain ⟨g0, hg0, x1, x2⟩ := g2 (by rw [grouped_nil hB.unNum hU.1]; simp) (by rw [grouped_nil hB.unDen hU.2]; simp)
    have hl : lensOf f false i c = [] := by unfold lensOf; rw [hU.1, hU.2]; rfl
    rw [hl, hU.1, hU.2]
    refine ⟨_, Needed.Described.known (plainCfgOf f i c.base g) _ _ hkk hlen hguess (fun q hq => ⟨(hg.probes q hq).1, ?_⟩)⟩
    have := g1 g0 hg0
    refine ⟨(convertToFF f.p g0.1, convertToFF f.p g0.2), by unfold plainCfgOf; rw [hg0]; rfl, ?_⟩
    rw [← RRun.red_rnPoly f.p (RRun.guess_facts hn this.1).2 (RRun.guess_facts hn this.1).1, ← RRun.red_rnPoly f.p (RRun.guess_facts hd this.2).2 (RRun.guess_facts hd this.2).1, RRun.rnPoly_exact hn x1, RRun.rnPoly_exact hd x2]
  · have hU : c.base.unNum ≠ [] ∨ c.base.unDen ≠ [] := by
      by_contra hc
      push Not at hc
      exact hU hc
    have hSN : RLater.Split (plainCfgOf f i c.base g).n (plainCfgOf f i c.base g).anchor (red f.p n) (plainCfgOf f i c.base g).known.1 c.base.unNum := by
      have := side_split (p := f.p) hn hB.num hB.unNum hg.anchor (hg.distinct n (by simp))
      rw [← hkk] at this
      exact this
    have hSD : RLater.Split (plainCfgOf f i c.base g).n (plainCfgOf f i c.base g).anchor (red f.p d) (plainCfgOf f i c.base g).known.2 c.base.unDen := by
      have := side_split (p := f.p) hd hB.den hB.unDen hg.anchor (hg.distinct d (by simp))
      rw [← hkk] at this
      exact this
    obtain ⟨b, m, hm, hp⟩ : ∃ b, ∃ m ∈ (Shifted.side n d b).support, ∀ m' ∈ (Shifted.side n d b).support, m'.degree = m.degree → (if b then c.base.coefs.combDi else c.base.coefs.combNi).find? (RRun.exps k m') = none := by
      rcases h.progress with h0 | h0
      · exact h0
      · rw [hsing] at h0; cases h0.1
    have hGP : RLater.GoodPts (plainCfgOf f i c.base g).anchor (red f.p n) (red f.p d) c.base.unNum c.base.unDen (fun t o => f.good false (t, o)) := by
      refine ⟨fun t o hm => (hg.probes _ hm).1, fun t o hm => (hg.probes _ hm).2.1, ?_⟩
      intro o A B ts hA hB' h1 h2 h3 x y h4
      have uA := fun j hj => Shifted.un_degree hn hB.num hB.unNum (hA j hj)
      have uB := fun j hj => Shifted.un_degree hd hB.den hB.unDen (hB' j hj)
      refine hg.det o A B ts (fun j hj => ?_) (fun j hj => ?_) ?_ h1 h2 h3 x y (fun t ht => by rw [hg.values]; exact h4 t ht)
      · obtain ⟨m, q1, q2, -⟩ := uA j hj; exact ⟨m, q1, q2⟩
      · obtain ⟨m, q1, q2, -⟩ := uB j hj; exact ⟨m, q1, q2⟩
      · cases b with
        | false =>
          refine Or.inl ⟨m, hm, fun h0 => ?_⟩
          obtain ⟨m', q1, q2, q3⟩ := uA _ h0
          exact q3 (hp m' q1 q2)
        | true =>
          refine Or.inr ⟨m, hm, fun h0 => ?_⟩
          obtain ⟨m', q1, q2, q3⟩ := uB _ h0
          exact q3 (hp m' q1 q2)
    exact ⟨_, Needed.Described.plain (plainCfgOf f i c.base g) _ _ _ _ hkk hg.gt hlen hSN hSD hU hguess hGP⟩

lemma shiftOn_stage {c : Shifted.Cross} (h0 : c.base.primeNumber ≠ 0) (o : Bool) (got : List (ZMod f.p × List ℕ)) : Shifted.shiftOn c (f.stage i o got) = (c.on && (c.asks || o)) := by
  unfold Shifted.shiftOn
  rw [if_neg h0]; rfl

/-- with the shift the interpolation with a shift is chosen, without it the other one -/
lemma mode_eq {M : ℤ} {c : Shifted.Cross} (h : Shifted.Ready k n d S M c) (has : c.asks = c.singular) {o : Bool} (ho : o = true → c.on = true) : f.mode (c.on && (c.asks || o)) o i c = (c.on && (c.asks || o)) := by
  haveI := f.fact
  unfold PField.mode
  cases hn : (c.on && (c.asks || o)) with
  | true =>
    rw [Bool.and_eq_true, Bool.or_eq_true] at hn
    rcases hn.2 with h0 | h0 <;> simp [h0]
  | false =>
    have hsing : c.singular = false := by
      cases hs : c.singular with
      | false => rfl
      | true => rw [h.on hs, has, hs] at hn; simp at hn
    have hoth : o = false := by
      cases hs : o with
      | false => rfl
      | true => rw [ho hs, hs] at hn; simp at hn
    have hsh : (f.settings false i).cfg.shift = List.replicate (f.settings false i).cfg.n 0 := rfl
    simp [hsing, has, hoth, hsh]

lemma shift_not_running {inv : ℤ → ℤ → ℤ} {ord : Order} {c : Shifted.Cross} {r : Prime} {g : Option (RnMap × RnMap)} (eg : c.base.coefs.recRatCoef = some g) {s : RShift.St (ZMod r.p)}
    (hs : haveI := r.fact; (Shifted.shiftCfg c r g).feedAll (Shifted.shiftInit c r g) r.probes = some s) (hdone : s.out.isSome = true) : Shifted.laterShift inv ord c r ≠ some .running := by
  haveI := r.fact
  have e : Shifted.laterShift inv ord c r = (match (generalizing := false) s.out, g with
        | none, _ => some .running
        | some .accepted, some g => some (.finished g.1 g.2)
        | some .accepted, none => none
        | some (.solved num den), _ => do
          let k ← c.base.coefs.combineNext inv num den
          Shifted.endPrime ord { c with singular := true, num := Shifted.nextSide c.num s.num, den := Shifted.nextSide c.den s.den } (Shifted.solvedDegs c.num.zeros s.num) (Shifted.solvedDegs c.den.zeros s.den) k) := by
    unfold Shifted.laterShift
    rw [eg]
    simp only [Option.bind_eq_bind, Option.bind_some]
    rw [hs]
    rfl
  rw [e]
  cases ho : s.out with
  | none => rw [ho] at hdone; cases hdone
  | some o =>
    cases o with
    | accepted => cases g <;> simp
    | solved num den =>
      intro h
      have h := Option.bind_eq_some_iff.mp h
      obtain ⟨kk, -, e1⟩ := h
      unfold Shifted.endPrime at e1
      split at e1 <;> simp at e1

/-- a further prime field for one object -/
lemma later_one {inv : ℤ → ℤ → ℤ} (hinv : InvertSpec inv) {ord : Order} (hord : ord.OK) (hk : 2 ≤ k) (hn : InVars k n) (hd : InVars k d) {M : ℤ} {c : Shifted.Cross} (h : Shifted.Ready k n d S M c) (has : c.asks = c.singular)
    {o : Bool} (ho : o = true → c.on = true) (hS : ShiftGood k n d S c.normDen f i) (hP : PlainGood k n d f i)
    (hpM : ¬ (f.p : ℤ) ∣ M) (h300 : c.base.primeNumber + 1 < 300) (hx : ∀ m, ¬ Deceptive (coeff m n) M (M * f.p) ∧ ¬ Deceptive (coeff m d) M (M * f.p))
    {on : Bool} (hon : on = (c.on && (c.asks || o))) {got : List (ZMod f.p × List ℕ)} (hgood : ∀ q ∈ got, f.good on q) (hnd : got.Nodup) {O : Needed.Obj (ZMod f.p)} (hO : O = f.laterObj on on i c) {s : O.S}
    (hs : got.foldlM O.feed O.init = some s) (hdone : O.done s = true) :
    (∃ N D, Shifted.prime inv ord c (f.stage i o got) = some (.finished N D) ∧ Shifted.Certified k n d M ((f.stage i o got).at on) N D ∧ (AllSmall n d M → RRun.rnPoly N = n ∧ RRun.rnPoly D = d)) ∨
    ∃ c', Shifted.prime inv ord c (f.stage i o got) = some (.nextPrime c') ∧ Shifted.Ready k n d S (M * f.p) c' ∧ c'.asks = c'.singular ∧ c'.on = on ∧ c'.normDen = c.normDen ∧ c'.base.primeNumber = c.base.primeNumber + 1 ∧ ¬ AllSmall n d M := by
  haveI := f.fact
  have hz := h.base.zeros
  have hsn : Shifted.shiftOn c (f.stage i o got) = on := by rw [shiftOn_stage (by omega), hon]
  have hcons : Shifted.Consistent c (f.stage i o got) := ⟨ho, fun h0 => Or.inl (by rw [has]; exact h0)⟩
  have hval : ∀ q ∈ got, f.value on i q.1 q.2 ≠ 0 := by
    intro q hq
    cases on with
    | true => exact (hS.probes q (hgood q hq)).2.2
    | false => exact (hP.probes q (hgood q hq)).2.2
  have hns : ¬ ((f.stage i o got).at on).Skipped := stage_ns hval
  have hfit : Shifted.FieldFits k n d S c.normDen (f.stage i o got) on := by
    cases on with
    | true => exact hS.ok hk hgood hnd
    | false => exact hP.ok hgood hnd
  have hsing : on = false → c.singular = false := by
    intro h0
    cases hs : c.singular with
    | false => rfl
    | true => rw [h.on hs, has, hs, h0] at hon; simp at hon
  have key : got ≠ [] ∧ (if on = true then Shifted.laterShift inv ord { c with on := on } ((f.stage i o got).at on) else Shifted.laterPlain inv ord { c with on := on } ((f.stage i o got).at on)) ≠ some .running := by
    cases on with
    | true =>
      have hon1 : c.on = true := by
        have := hon.symm
        rw [Bool.and_eq_true] at this
        exact this.1
      obtain ⟨g, eg, eO, -⟩ := shift_described hk hn hd h hon1 hS
      rw [eO] at hO
      subst hO
      have hcc : ({ c with on := true } : Shifted.Cross) = c := by
        obtain ⟨_⟩ := c
        simp only at hon1
        subst hon1
        rfl
      haveI : Fact (f.settings true i).p.Prime := f.fact
      have hinit : Shifted.shiftInit c (f.settings true i) g = (Shifted.shiftCfg c (f.settings true i) g).init := Shifted.shift_init hn hd h hon1 (hS.ok hk (o := false) (got := []) (by simp) (by simp)) g
      refine ⟨?_, ?_⟩
      · rintro rfl
        have hs : some (shiftCfgOf f i c g).init = some s := hs
        obtain rfl := Option.some.inj hs
        have : (shiftCfgOf f i c g).init.out = none := rfl
        have hdone : (shiftCfgOf f i c g).init.out.isSome = true := hdone
        rw [this] at hdone; cases hdone
      · rw [if_pos rfl, hcc]
        refine shift_not_running (r := (f.stage i o got).at true) (g := g) (s := s) eg ?_ hdone
        have h1 : (shiftCfgOf f i c g).feedAll (shiftCfgOf f i c g).init (got.map (fun q => (q.1, f.value true i q.1 q.2, q.2))) = got.foldlM (RShift.obj (shiftCfgOf f i c g) (f.value true i)).feed (RShift.obj (shiftCfgOf f i c g) (f.value true i)).init := by
          unfold RShift.Cfg.feedAll
          rw [List.foldlM_map]; rfl
        show (shiftCfgOf f i c g).feedAll (Shifted.shiftInit c (f.settings true i) g) (got.map (fun q => (q.1, f.value true i q.1 q.2, q.2))) = some s
        rw [hinit]
        exact h1.trans hs
    | false =>
      obtain ⟨g, eg, eO, -⟩ := plain_described hn hd h (hsing rfl) hP
      rw [eO] at hO
      subst hO
      refine ⟨?_, ?_⟩
      · rintro rfl
        have hs : some ((plainCfgOf f i c.base g).init c.base.unNum c.base.unDen) = some s := hs
        obtain rfl := Option.some.inj hs
        have : ((plainCfgOf f i c.base g).init c.base.unNum c.base.unDen).out = none := rfl
        have hdone : ((plainCfgOf f i c.base g).init c.base.unNum c.base.unDen).out.isSome = true := hdone
        rw [this] at hdone; cases hdone
      · rw [if_neg (by simp)]
        intro e1
        unfold Shifted.laterPlain at e1
        obtain ⟨x, hx1, hx2⟩ := Option.map_eq_some_iff.mp e1
        have hxr : x = .running := by cases x <;> first | rfl | cases hx2
        rw [hxr] at hx1
        refine Whole.later_not_running (r := (f.stage i o got).at false) (g := g) (s := s) eg ?_ hdone hx1
        have h1 : (plainCfgOf f i c.base g).feedAll ((plainCfgOf f i c.base g).init c.base.unNum c.base.unDen) (got.map (fun q => (q.1, f.value false i q.1 q.2, q.2))) =
            got.foldlM (RLater.obj (plainCfgOf f i c.base g) c.base.unNum c.base.unDen (f.value false i)).feed (RLater.obj (plainCfgOf f i c.base g) c.base.unNum c.base.unDen (f.value false i)).init := by
          unfold RLater.Cfg.feedAll
          rw [List.foldlM_map]; rfl
        exact h1.trans hs
  obtain ⟨hne, hrun⟩ := key
  obtain ⟨out, e1, e2, e3⟩ := Shifted.C63_prime hinv hord hn hd h hcons (by rw [hsn]; exact hfit) (by rw [hsn]; exact stage_ne hne) (by rw [hsn]; exact hns) hpM h300 hx
  rcases e2 with ⟨N, D, rfl, e4⟩ | ⟨c', rfl, e4, e5, e6, e7, -, -, e8, e9⟩ | ⟨rfl, -⟩
  · exact Or.inl ⟨N, D, e1, by rw [← hsn]; exact e4, fun hsm => e3 hsm N D rfl⟩
  · exact Or.inr ⟨c', e1, e4, e6, by rw [e5, hsn], e7, e8, e9⟩
  · exfalso
    apply hrun
    rw [← e1]
    unfold Shifted.prime Shifted.field
    rw [hsn]
    have hmode := mode_eq (f := f) (i := i) h has ho
    rw [← hon] at hmode
    unfold PField.mode at hmode
    rcases hl : ((f.stage i o got).at on).probes with _ | ⟨q0, rest⟩
    · exact absurd hl (stage_ne hne)
    · have hq0v : q0.2.1 ≠ 0 := fun h0 => hns ⟨q0, rest, hl, h0⟩
      simp only [if_neg hq0v, if_pos h.base.known]
      have hm2 : (c.singular || c.asks || o || decide (((f.stage i o got).at on).cfg.shift ≠ List.replicate ((f.stage i o got).at on).cfg.n 0)) = on := by
        refine Eq.trans ?_ hmode
        cases on <;> rfl
      congr 1
      exact congrArg (fun x : Bool => x = true) hm2.symm

end

end WholeShift
end FireFly
