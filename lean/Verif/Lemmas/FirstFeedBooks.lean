import Verif.Lemmas.RatMultiMain
import Verif.Model.FirstFeed
/-! # Which order vectors an object wants -/
set_option linter.all false
namespace FireFly.RMulti
open MvPolynomial
variable {F : Type} [Field F] [DecidableEq F] {c : Cfg F} {bounds : Option (List ℕ)} {Q N D : MvPolynomial ℕ F} {m T mN mD : ℕ} {G : F → List ℕ → Prop}

/-- the value an open polynomial wants is not known -/
def FreshAt (saved : FFMap F) (e : ℕ × MPoly.St F) : Prop := saved.find? (e.1 :: (e.2.zi + 1) :: e.2.ord) = none

/-- no open polynomial wants a value that is known -/
def Fresh (s : St F) : Prop := (∀ e ∈ s.num.coefs, FreshAt s.num.saved e) ∧ ∀ e ∈ s.den.coefs, FreshAt s.den.saved e

/-- the values for an order vector are known on one side -/
def UsedSide (s : Side F) (z : ℕ) (o : List ℕ) : Prop := ∀ k ∈ s.open, o.getD (z - 1) 0 < k + 2 → (s.saved.find? (k :: (z + 1) :: o)).isSome = true

/-- the values for an order vector are known -/
def Used (c : Cfg F) (s : St F) (o : List ℕ) : Prop := ∃ z, ZiOrd (c.n - 1) z o ∧ UsedSide s.num z o ∧ UsedSide s.den z o

lemma feedLoop_fresh {pc : MPoly.Cfg F} {s : Side F} {k : ℕ} {sparse : Bool} : ∀ (fuel : ℕ) (st st' : MPoly.St F), c.feedLoop pc s k sparse fuel st = some (st', false) →
    FreshAt s.saved (k, st') := by
  intro fuel
  induction fuel with
  | zero => intro st st' h; simp [Cfg.feedLoop] at h
  | succ fuel ih =>
    intro st st' h
    rw [Cfg.feedLoop] at h
    split at h
    · simp at h
    · cases hsv : s.saved.find? (k :: (st.zi + 1) :: st.ord) with
      | none =>
        rw [hsv] at h
        simp at h
        rw [← h]; exact hsv
      | some food =>
        rw [hsv] at h
        simp only [Option.bind_eq_bind] at h
        split at h
        · obtain ⟨sub, -, h⟩ := Option.bind_eq_some_iff.mp h
          obtain ⟨st2, -, h⟩ := Option.bind_eq_some_iff.mp h
          exact ih _ _ h
        · simp only [Option.bind_some] at h
          obtain ⟨st2, -, h⟩ := Option.bind_eq_some_iff.mp h
          exact ih _ _ h

lemma addSub_saved {s s' : Side F} {k : ℕ} (h : c.addSub s k = some s') : s'.saved = s.saved := by
  unfold Cfg.addSub at h
  simp only [Option.bind_eq_bind] at h
  obtain ⟨x, -, h⟩ := Option.bind_eq_some_iff.mp h
  rw [← Option.some.inj h]

lemma between_saved : ∀ (degs : List ℕ) (s s' : Side F), c.between s degs = some s' → s'.saved = s.saved := by
  intro degs
  induction degs with
  | nil => intro s s' h; simp [Cfg.between] at h; rw [h]
  | cons d degs ih =>
    intro s s' h
    unfold Cfg.between at h
    rw [List.foldlM_cons] at h
    simp only [Option.bind_eq_bind] at h
    obtain ⟨x, h1, h2⟩ := Option.bind_eq_some_iff.mp h
    rw [ih x s' h2]
    split at h1
    · rw [addSub_saved h1]; rfl
    · rw [← Option.some.inj h1]

lemma polyDone_saved {s s' : Side F} {k : ℕ} {pol : FFMap F} (h : c.polyDone s k pol = some s') : s'.saved = s.saved := by
  unfold Cfg.polyDone at h
  simp only [Option.bind_eq_bind] at h
  split at h
  · obtain ⟨x, h1, h2⟩ := Option.bind_eq_some_iff.mp h
    have e := addSub_saved h1
    split at h2
    · rw [between_saved _ _ _ h2]; exact e
    · rw [← Option.some.inj h2]; exact e
  · rw [← Option.some.inj h]

lemma pass_fresh (ord : List ℕ) : ∀ (rest before : List (ℕ × MPoly.St F)) (s s' : Side F), c.pass bounds ord before rest s = some s' → s.coefs = before ++ rest →
    (∀ e ∈ before, FreshAt s.saved e) → (∀ e ∈ rest, e.2.ord ≠ ord → FreshAt s.saved e) →
    s'.saved = s.saved ∧ (∀ e ∈ s'.coefs, FreshAt s.saved e) ∧ ∀ k ∈ s'.open, k ∈ (before ++ rest).map Prod.fst := by
  intro rest
  induction rest with
  | nil =>
    intro before s s' h hc h1 h2
    simp [Cfg.pass] at h
    subst h
    refine ⟨rfl, ?_, ?_⟩
    · rw [hc]; simpa using h1
    · unfold Side.open; rw [hc]; exact fun k hk => hk
  | cons e rest ih =>
    intro before s s' h hc h1 h2
    obtain ⟨k, st⟩ := e
    rw [Cfg.pass] at h
    simp only [Option.bind_eq_bind] at h
    split at h
    · obtain ⟨⟨st', b⟩, hr, h⟩ := Option.bind_eq_some_iff.mp h
      cases b with
      | true =>
        simp only [if_true] at h
        obtain ⟨s1, hs1, h⟩ := Option.bind_eq_some_iff.mp h
        have hsv : s1.saved = s.saved := (polyDone_saved hs1).trans rfl
        obtain ⟨g1, g2, g3⟩ := ih before { s1 with coefs := before ++ rest } s' h rfl (by
          show ∀ e ∈ before, FreshAt s1.saved e
          rw [hsv]; exact h1) (by
          show ∀ e ∈ rest, _ → FreshAt s1.saved e
          rw [hsv]; exact fun e he => h2 e (by simp [he]))
        have g1 : s'.saved = s1.saved := g1
        have g2 : ∀ e ∈ s'.coefs, FreshAt s1.saved e := g2
        rw [hsv] at g1 g2
        refine ⟨g1, g2, fun k' hk' => ?_⟩
        have := g3 k' hk'
        simp only [List.map_append, List.mem_append, List.map_cons, List.mem_cons] at this ⊢
        tauto
      | false =>
        simp only [Bool.false_eq_true, if_false] at h
        have hf := feedLoop_fresh _ _ _ hr
        obtain ⟨g1, g2, g3⟩ := ih (before ++ [(k, st')]) { { s with restart := false } with coefs := before ++ (k, st') :: rest } s' h (by simp) (by
          intro e he
          rcases List.mem_append.mp he with he | he
          · exact h1 e he
          · rw [List.mem_singleton.mp he]; exact hf) (fun e he => h2 e (by simp [he]))
        exact ⟨g1, g2, fun k' hk' => by simpa using g3 k' hk'⟩
    · rename_i hcond
      obtain ⟨g1, g2, g3⟩ := ih (before ++ [(k, st)]) s s' h (by rw [hc]; simp) (by
        intro e he
        rcases List.mem_append.mp he with he | he
        · exact h1 e he
        · rw [List.mem_singleton.mp he]
          exact h2 (k, st) (by simp) (fun h0 => hcond (Or.inl h0))) (fun e he => h2 e (by simp [he]))
      exact ⟨g1, g2, fun k' hk' => by simpa using g3 k' hk'⟩

lemma saveFold_other (zi : ℕ) (ord : List ℕ) {k z : ℕ} {o : List ℕ} (ho : o ≠ ord) : ∀ (vals saved : FFMap F), (saveFold zi ord saved vals).find? (k :: z :: o) = saved.find? (k :: z :: o) := by
  intro vals
  induction vals with
  | nil => intro saved; rfl
  | cons t vals ih =>
    intro saved
    unfold saveFold at ih ⊢
    rw [List.foldl_cons, ih]
    split
    · rw [FFMap.find?_set, if_neg]
      intro h
      rw [List.cons.injEq, List.cons.injEq] at h
      exact ho h.2.2
    · rfl

/-- one side -/
lemma half_books {s s' : Side F} {zi : ℕ} {ord : List ℕ} {vals : FFMap F} (hsv : SavedOK c Q s.saved) (hv : ValsOK c Q ord s.open vals) (hz : 1 ≤ zi)
    (hfresh : ∀ e ∈ s.coefs, e.2.ord ≠ ord → FreshAt s.saved e) (h : c.pass bounds ord [] s.coefs (saveValues (zi + 1) ord vals s) = some s') :
    (∀ e ∈ s'.coefs, FreshAt s'.saved e) ∧ UsedSide s' zi ord ∧ ∀ z o, UsedSide s z o → UsedSide s' z o := by
  obtain ⟨v1, v2, v3⟩ := saveFold_spec (c := c) (Q := Q) (zi + 1) ord vals s.saved hsv hv.right
  have hss : (saveValues (zi + 1) ord vals s).saved = saveFold (zi + 1) ord s.saved vals := rfl
  obtain ⟨g1, g2, g3⟩ := pass_fresh ord s.coefs [] _ s' h rfl (by simp) (by
    intro e he hne
    unfold FreshAt
    rw [hss, saveFold_other _ _ hne]
    exact hfresh e he hne)
  have hop : ∀ k ∈ s'.open, k ∈ s.open := fun k hk => g3 k hk
  refine ⟨fun e he => by rw [g1]; exact g2 e he, ?_, ?_⟩
  · intro k hk hlt
    rw [g1, hss]
    apply v3 k (hv.all k (hop k hk))
    rw [show zi + 1 - 2 = zi - 1 by omega]; exact hlt
  · intro z o hu k hk hlt
    rw [g1, hss]
    exact v2 _ (hu k (hop k hk) hlt)

lemma finish_result {s s' : St F} (h : c.finish s = some s') : s'.result.isSome = true := by
  unfold Cfg.finish at h
  simp only [Option.bind_eq_bind] at h
  by_cases hs : c.hasShift = true
  · simp only [hs, if_true] at h
    obtain ⟨a, -, h⟩ := Option.bind_eq_some_iff.mp h
    obtain ⟨b, -, h⟩ := Option.bind_eq_some_iff.mp h
    rw [← Option.some.inj h]; rfl
  · simp only [hs, if_false, Option.bind_some] at h
    rw [← Option.some.inj h]; rfl

/-- both sides -/
lemma handle_books {s s' : St F} (h : Both c N D mN mD s) {vals : FFMap F × FFMap F} (hv1 : ValsOK c N s.ord s.num.open vals.1) (hv2 : ValsOK c D s.ord s.den.open vals.2)
    (hz : 2 ≤ s.zi) (hzo : ZiOrd (c.n - 1) (s.zi - 1) s.ord)
    (hf1 : ∀ e ∈ s.num.coefs, e.2.ord ≠ s.ord → FreshAt s.num.saved e) (hf2 : ∀ e ∈ s.den.coefs, e.2.ord ≠ s.ord → FreshAt s.den.saved e)
    (hh : c.handle s vals = some s') (hr : s'.result = none) : Fresh s' ∧ Used c s' s.ord ∧ ∀ o, Used c s o → Used c s' o := by
  unfold Cfg.handle at hh
  simp only [Option.bind_eq_bind] at hh
  obtain ⟨num, hn, hh⟩ := Option.bind_eq_some_iff.mp hh
  obtain ⟨den, hd, hh⟩ := Option.bind_eq_some_iff.mp hh
  obtain ⟨w, hw⟩ : ∃ w, s.zi = w + 1 := ⟨s.zi - 1, by omega⟩
  rw [hw] at hn hd
  obtain ⟨a1, a2, a3⟩ := half_books h.num.saved hv1 (by omega) hf1 hn
  obtain ⟨b1, b2, b3⟩ := half_books h.den.saved hv2 (by omega) hf2 hd
  split at hh
  · have := finish_result hh
    rw [hr] at this; simp at this
  · have hh := (Option.some.inj hh).symm
    subst hh
    refine ⟨⟨a1, b1⟩, ⟨w, by rw [hw] at hzo; exact hzo, a2, b2⟩, ?_⟩
    rintro o ⟨z, h1, h2, h3⟩
    exact ⟨z, h1, a3 z o h2, b3 z o h3⟩

/-- an order vector whose values are known is not wanted -/
lemma Used.ne (hp : Prob c N D mN mD) {s : St F} (h : Both c N D mN mD s) (ha : Asks s) (hf : Fresh s) {o : List ℕ} (hu : Used c s o) : o ≠ s.ord := by
  rintro rfl
  obtain ⟨z, h1, h2, h3⟩ := hu
  obtain ⟨e, he, -, e2⟩ := ha
  rcases List.mem_append.mp he with he | he
  · have hz := h.num.ziOrd hp.two he
    rw [← e2] at hz
    have := ZiOrd.unique h1 hz
    subst this
    have ho := h.num.order hp.two he
    have h4 := h2 e.1 (List.mem_map.mpr ⟨e, he, rfl⟩) (by rw [e2]; omega)
    have h5 := hf.1 e he
    unfold FreshAt at h5
    rw [e2, h5] at h4; simp at h4
  · have hz := h.den.ziOrd hp.two he
    rw [← e2] at hz
    have := ZiOrd.unique h1 hz
    subst this
    have ho := h.den.order hp.two he
    have h4 := h3 e.1 (List.mem_map.mpr ⟨e, he, rfl⟩) (by rw [e2]; omega)
    have h5 := hf.2 e he
    unfold FreshAt at h5
    rw [e2, h5] at h4; simp at h4

lemma Run.ziOrd (hp : Prob c N D mN mD) {s : St F} (h : Both c N D mN mD s) (ha : Asks s) : 2 ≤ s.zi ∧ ZiOrd (c.n - 1) (s.zi - 1) s.ord := by
  obtain ⟨e, he, e1, e2⟩ := ha
  have hz : ZiOrd (c.n - 1) e.2.zi e.2.ord := by
    rcases List.mem_append.mp he with he | he
    · exact h.num.ziOrd hp.two he
    · exact h.den.ziOrd hp.two he
  rw [e1, e2]
  exact ⟨by have := hz.pos; omega, hz⟩

/-- the probes that were used are counted -/
def Acc (c : Cfg F) (s : St F) (pts : List (F × F)) (past : List (F × List ℕ)) (sv : FFMap (List (F × F))) : Prop :=
  ∀ t o, (t, o) ∈ past → (o = s.ord ∧ t ∈ pts.map Prod.fst) ∨ (∃ l, sv.find? o = some l ∧ t ∈ l.map Prod.fst) ∨ Used c s o

lemma use_books (gtp : PivotOrder c.gt) (hp : Prob c N D mN mD) (hG : GoodPts c N D G) {s : St F} {pts food : List (F × F)} (h : Run c N D mN mD G s pts) (hfr : Fresh s)
    (hf : ∀ q ∈ food, Right c N D G s.ord q) (hnd : ((pts ++ food).map Prod.fst).Nodup) {s' : St F} (hu : c.use s food = some s') (hr : s'.result = none) :
    Fresh s' ∧ (∀ o, Used c s o → Used c s' o) ∧ ((s'.ord = s.ord ∧ s'.rows.length = (pts ++ food).length) ∨ (s'.rows = [] ∧ Used c s' s.ord)) := by
  obtain ⟨rw', sn, sd, b, pts', e1, e2, e3, e4, e5⟩ := addRows_spec hp food pts s h.both h.rows h.lt hf hnd
  unfold Cfg.use at hu
  rw [e1] at hu
  simp only [Option.bind_eq_bind, Option.bind_some] at hu
  cases b with
  | false =>
    obtain ⟨f1, f2⟩ := e5 rfl
    subst f1
    rw [if_neg (by simp)] at hu
    have hu := (Option.some.inj hu).symm
    subst hu
    refine ⟨hfr, fun o ho => ho, Or.inl ⟨rfl, ?_⟩⟩
    have := congrArg List.length e3.rows
    simpa using this
  | true =>
    have hlen := e4 rfl
    rw [if_pos rfl] at hu
    obtain ⟨x, g1, g2, g3⟩ := solve_spec (gtp := gtp) hp hG e2 h.eqn e3 hlen (by show 1 ≤ s.numEqn; have := h.lt; omega)
    rw [g1] at hu
    simp only [Option.bind_some] at hu
    have hB : Both c N D mN mD { s with rows := [], subNum := [], subDen := [] } := ⟨e2.num, e2.den, e2.known, e2.result⟩
    obtain ⟨z1, z2⟩ := Run.ziOrd hp h.both h.asks
    obtain ⟨k1, k2, k3⟩ := handle_books hB g2 g3 z1 z2 (fun e he _ => hfr.1 e he) (fun e he _ => hfr.2 e he) hu hr
    obtain ⟨s2, l1, l2⟩ := handle_spec hp hB g2 g3
    have : s2 = s' := Option.some.inj (l1.symm.trans hu)
    subst this
    refine ⟨k1, k3, Or.inr ⟨?_, k2⟩⟩
    rcases l2 with ⟨-, r, l2, -⟩ | ⟨-, -, -, -, -, l6, -⟩
    · rw [hr] at l2; simp at l2
    · exact l6

lemma start_books (hp : Prob c N D mN mD) {s : St F} (hord : s.ord = ones c) (hres : s.result = none) {r : FFMap F × FFMap F} {u : F} (hu : u ≠ 0)
    (h1 : CanonU c N u r.1) (h2 : CanonU c D u r.2) {s' : St F} (hs : c.start s r = some s') (hr : s'.result = none) : Fresh s' ∧ Used c s' (ones c) := by
  obtain ⟨dN, dN0⟩ := h1.degs hu hp.okN
  obtain ⟨dD, dD0⟩ := h2.degs hu hp.okD
  have hev : ∀ Q : MvPolynomial ℕ F, ev c Q (ones c) 0 = eval (fun i => c.shift.getD i 0) Q := by
    intro Q; unfold ev; rw [part_zero, eval_C]
  have heq : (1 / (if c.normDen then (r.2.find? (PolyFF.degs r.2).2).getD 0 else (r.1.find? (PolyFF.degs r.1).2).getD 0) : F) = 1 / u := by
    congr 1
    have hnorm := hp.norm
    cases hb : c.normDen
    · rw [hb] at hnorm
      simp only [Bool.false_eq_true, if_false] at hnorm ⊢
      rw [dN0 (by rw [hev, hnorm]; exact one_ne_zero), h1.val, hev, hnorm, mul_one]
    · rw [hb] at hnorm
      simp only [if_true] at hnorm ⊢
      rw [dD0 (by rw [hev, hnorm]; exact one_ne_zero), h2.val, hev, hnorm, mul_one]
  obtain ⟨a1, a2, a3, a4⟩ := startSide_spec hp.len hp.two hp.okN (h1.scale hu)
  obtain ⟨b1, b2, b3, b4⟩ := startSide_spec hp.len hp.two hp.okD (h2.scale hu)
  let s0 : St F := { s with known := true, thiele := {}, num := c.startSide c.boundsNum (PolyFF.scale r.1 (1 / u)) mN, den := c.startSide c.boundsDen (PolyFF.scale r.2 (1 / u)) mD, zi := 2 }
  have hstart : c.start s r = c.handle s0 (((PolyFF.scale r.1 (1 / u)).erase [0]).filter (fun t => t.2 ≠ 0), ((PolyFF.scale r.2 (1 / u)).erase [0]).filter (fun t => t.2 ≠ 0)) := by
    unfold Cfg.start
    simp only [heq, dN, dD]
    rfl
  rw [hstart] at hs
  have ho : s0.ord = ones c := hord
  obtain ⟨k1, k2, -⟩ := handle_books (s := s0) (N := N) (D := D) (mN := mN) (mD := mD) ⟨a1, b1, rfl, hres⟩ (by rw [ho]; exact a3) (by rw [ho]; exact b3) le_rfl
    (by rw [ho]; exact ZiOrd.ones (by have := hp.two; omega)) (fun e he hne => absurd ((a4 e he).2.trans ho.symm) hne) (fun e he hne => absurd ((b4 e he).2.trans ho.symm) hne) hs hr
  rw [ho] at k2
  exact ⟨k1, k2⟩

end FireFly.RMulti
