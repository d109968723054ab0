import Verif.Lemmas.RatMultiStart
/-! # From Thiele's method to the systems -/
set_option linter.all false
namespace FireFly.RMulti
open MvPolynomial
variable {F : Type} [Field F] [DecidableEq F] {c : Cfg F} {bounds : Option (List ℕ)} {Q N D : MvPolynomial ℕ F} {m T mN mD : ℕ} {G : F → List ℕ → Prop}

/-- the coefficients up to a factor -/
structure CanonU (c : Cfg F) (Q : MvPolynomial ℕ F) (u : F) (r : FFMap F) : Prop where
  wf : WFMap 1 r
  nz : NZ r
  val : ∀ k, (r.find? [k]).getD 0 = u * ev c Q (ones c) k

lemma CanonU.scale {u : F} (hu : u ≠ 0) {r : FFMap F} (h : CanonU c Q u r) : Canon c Q (PolyFF.scale r (1 / u)) := by
  refine ⟨(C13_scale h.wf _).1, scale_nz h.nz (one_div_ne_zero hu), ?_⟩
  intro k
  rw [find_scale]
  have := h.val k
  cases hf : r.find? [k] with
  | none =>
    rw [hf] at this
    have h0 : ev c Q (ones c) k = 0 := by
      rcases mul_eq_zero.mp this.symm with h1 | h1
      · exact absurd h1 hu
      · exact h1
    rw [h0]; rfl
  | some v =>
    rw [hf] at this
    have hv : v = u * ev c Q (ones c) k := this
    show v * (1 / u) = _
    rw [hv]; field_simp

lemma CanonU.mem {u : F} (hu : u ≠ 0) {r : FFMap F} (h : CanonU c Q u r) {t : List ℕ × F} (ht : t ∈ r) : ∃ k, t.1 = [k] ∧ ev c Q (ones c) k ≠ 0 := by
  obtain ⟨key, v⟩ := t
  obtain ⟨k, rfl⟩ := List.length_eq_one_iff.mp (h.wf.2 _ ht)
  have h1 := h.val k
  rw [FFMap.find?_of_mem h.wf.1 ht, Option.getD_some] at h1
  refine ⟨k, rfl, ?_⟩
  intro h0
  rw [h0, mul_zero] at h1
  exact h.nz _ ht h1

lemma CanonU.key {u : F} (hu : u ≠ 0) {r : FFMap F} (h : CanonU c Q u r) {k : ℕ} (hk : ev c Q (ones c) k ≠ 0) : ∃ v, ([k], v) ∈ r := by
  have h1 := h.val k
  cases hf : r.find? [k] with
  | none =>
    rw [hf] at h1
    exact absurd h1.symm (mul_ne_zero hu hk)
  | some v => exact ⟨v, FFMap.find?_mem hf⟩

lemma CanonU.degs {u : F} (hu : u ≠ 0) {r : FFMap F} (h : CanonU c Q u r) (hok : SideOK c bounds Q m) :
    (PolyFF.degs r).1.getD 0 0 = m ∧ (ev c Q (ones c) 0 ≠ 0 → (PolyFF.degs r).2 = [0]) := by
  obtain ⟨v, hv⟩ := h.key hu ((hok.ev_ne m).mpr hok.lead)
  have hne : r ≠ [] := by rintro rfl; simp at hv
  obtain ⟨h1, h2, h3, -⟩ := C34_degs (n := 1) le_rfl h.wf hne
  have e1 : (PolyObj.mk' 1 r).maxDeg.2 = (PolyFF.degs r).1 := by
    unfold PolyObj.maxDeg PolyObj.mk'; simp
  have e2 : (PolyObj.mk' 1 r).minDeg.2 = (PolyFF.degs r).2 := by
    unfold PolyObj.minDeg PolyObj.maxDeg PolyObj.mk'; simp [hne]
  rw [e1] at h1 h3
  rw [e2] at h2 h3
  obtain ⟨t, ht, hte⟩ := List.mem_map.mp h1
  obtain ⟨k, hk, hkn⟩ := h.mem hu ht
  obtain ⟨t', ht', hte'⟩ := List.mem_map.mp h2
  obtain ⟨k', hk', hkn'⟩ := h.mem hu ht'
  rw [← hte, hk, ← hte', hk'] at h3
  constructor
  · rw [← hte, hk]
    show k = m
    have a1 := hok.le ((hok.ev_ne k).mp hkn)
    have a2 := (h3 _ hv).1
    simp at a2
    omega
  · intro h0
    obtain ⟨w, hw⟩ := h.key hu h0
    have := (h3 _ hw).2
    simp at this
    rw [← hte', hk', this]

lemma start_spec (hp : Prob c N D mN mD) {s : St F} (hord : s.ord = ones c) (hrows : s.rows = []) (hres : s.result = none) {r : FFMap F × FFMap F} {u : F} (hu : u ≠ 0)
    (h1 : CanonU c N u r.1) (h2 : CanonU c D u r.2) :
    ∃ s', c.start s r = some s' ∧ ((s'.savedTi = [] ∧ ∃ r, s'.result = some r ∧ Ends c N D s' r) ∨
      (Run c N D mN mD G s' [] ∧ s'.savedTi = s.savedTi ∧ Missing c N D s' ≤ needs c N mN + needs c D mD)) := by
  obtain ⟨dN, dN0⟩ := h1.degs hu hp.okN
  obtain ⟨dD, dD0⟩ := h2.degs hu hp.okD
  have hev : ∀ Q : MvPolynomial ℕ F, ev c Q (ones c) 0 = eval (fun i => c.shift.getD i 0) Q := by
    intro Q; unfold ev; rw [part_zero, eval_C]
  have heq : (1 / (if c.normDen then (r.2.find? (PolyFF.degs r.2).2).getD 0 else (r.1.find? (PolyFF.degs r.1).2).getD 0) : F) = 1 / u := by
    congr 1
    have hnorm := hp.norm
    cases hb : c.normDen
    · rw [hb] at hnorm
      simp only [Bool.false_eq_true, if_false] at hnorm ⊢
      rw [dN0 (by rw [hev, hnorm]; exact one_ne_zero), h1.val, hev, hnorm, mul_one]
    · rw [hb] at hnorm
      simp only [if_true] at hnorm ⊢
      rw [dD0 (by rw [hev, hnorm]; exact one_ne_zero), h2.val, hev, hnorm, mul_one]
  obtain ⟨a1, a2, a3, a4⟩ := startSide_spec hp.len hp.two hp.okN (h1.scale hu)
  obtain ⟨b1, b2, b3, b4⟩ := startSide_spec hp.len hp.two hp.okD (h2.scale hu)
  let s0 : St F := { s with known := true, thiele := {}, num := c.startSide c.boundsNum (PolyFF.scale r.1 (1 / u)) mN, den := c.startSide c.boundsDen (PolyFF.scale r.2 (1 / u)) mD, zi := 2 }
  have hstart : c.start s r = c.handle s0 (((PolyFF.scale r.1 (1 / u)).erase [0]).filter (fun t => t.2 ≠ 0), ((PolyFF.scale r.2 (1 / u)).erase [0]).filter (fun t => t.2 ≠ 0)) := by
    unfold Cfg.start
    simp only [heq, dN, dD]
    rfl
  have hboth : Both c N D mN mD s0 := ⟨a1, b1, rfl, hres⟩
  obtain ⟨s', e1, e2⟩ := handle_spec hp hboth (vals := (((PolyFF.scale r.1 (1 / u)).erase [0]).filter (fun t => t.2 ≠ 0), ((PolyFF.scale r.2 (1 / u)).erase [0]).filter (fun t => t.2 ≠ 0)))
    (by rw [show s0.ord = ones c from hord]; exact a3) (by rw [show s0.ord = ones c from hord]; exact b3)
  refine ⟨s', hstart.trans e1, ?_⟩
  rcases e2 with e2 | ⟨g1, g2, g3, g4, g5, g6, g7, g8, g9⟩
  · exact Or.inl e2
  · right
    have hr0 : s'.rows = [] := g6.trans hrows
    refine ⟨⟨g1, g2, g3, ⟨by rw [hr0]; rfl, fun h => absurd hr0 h, by simp, by simp⟩, ?_⟩, g7, ?_⟩
    · obtain ⟨e, he, -⟩ := g2
      rw [g3, ← List.length_append]
      exact List.length_pos_of_mem he
    · refine g4.trans ?_
      unfold Missing
      exact Nat.add_le_add a2 b2

/-! ### after Thiele's method -/

/-- the state when the degrees are known: the probes `food` for the requested order vector are used -/
def Cfg.use (c : Cfg F) (s : St F) (food : List (F × F)) : Option (St F) := do
  let r ← c.addRows s food
  if r.2 then
    let x ← c.solve r.1
    c.handle { r.1 with rows := [], subNum := [], subDen := [] } x
  else some r.1

lemma addRows_spec (hp : Prob c N D mN mD) : ∀ (food pts : List (F × F)) (s : St F), Both c N D mN mD s → RowsOK c N D G s pts → pts.length < s.numEqn →
    (∀ q ∈ food, Right c N D G s.ord q) → ((pts ++ food).map Prod.fst).Nodup →
    ∃ rw sn sd b pts', c.addRows s food = some ({ s with rows := rw, subNum := sn, subDen := sd }, b) ∧ Both c N D mN mD { s with rows := rw, subNum := sn, subDen := sd } ∧
      RowsOK c N D G { s with rows := rw, subNum := sn, subDen := sd } pts' ∧ (b = true → pts'.length = s.numEqn) ∧ (b = false → pts' = pts ++ food ∧ pts'.length < s.numEqn) := by
  intro food
  induction food with
  | nil =>
    intro pts s h1 h2 h3 _ _
    exact ⟨s.rows, s.subNum, s.subDen, false, pts, rfl, h1, h2, by simp, fun _ => ⟨by simp, h3⟩⟩
  | cons q food ih =>
    intro pts s h1 h2 h3 h4 h5
    rw [Cfg.addRows]
    have hnew : q.1 ∉ pts.map Prod.fst := by
      rw [List.map_append, List.nodup_append] at h5
      intro hmem
      exact h5.2.2 _ hmem q.1 (by simp) rfl
    obtain ⟨rw', sn, sd, e1, e2, e3⟩ := addRow_spec hp h1 h2 (h4 q (by simp)) hnew
    rw [e1]
    simp only [Option.bind_eq_bind, Option.bind_some]
    have hlen : rw'.length = pts.length + 1 := by
      have := congrArg List.length e2.rows
      simpa using this
    by_cases hfull : s.numEqn = rw'.length
    · rw [if_pos hfull]
      exact ⟨rw', sn, sd, true, pts ++ [q], rfl, e3, e2, fun _ => by rw [hfull, hlen]; simp, by simp⟩
    · rw [if_neg hfull]
      obtain ⟨rw2, sn2, sd2, b, pts', f1, f2, f3, f4, f5⟩ := ih (pts ++ [q]) { s with rows := rw', subNum := sn, subDen := sd } e3 e2 (by simp; omega)
        (fun x hx => h4 x (by simp [hx])) (by simpa using h5)
      exact ⟨rw2, sn2, sd2, b, pts', f1, f2, f3, f4, fun hb => by simpa using f5 hb⟩

lemma use_spec (gtp : PivotOrder c.gt) (hp : Prob c N D mN mD) (hG : GoodPts c N D G) {s : St F} {pts food : List (F × F)} (h : Run c N D mN mD G s pts)
    (hf : ∀ q ∈ food, Right c N D G s.ord q) (hnd : ((pts ++ food).map Prod.fst).Nodup) :
    ∃ s', c.use s food = some s' ∧ ((s'.savedTi = [] ∧ ∃ r, s'.result = some r ∧ Ends c N D s' r) ∨
      (s'.savedTi = s.savedTi ∧ ((s'.ord = s.ord ∧ Run c N D mN mD G s' (pts ++ food) ∧ Missing c N D s' = Missing c N D s) ∨
        (Run c N D mN mD G s' [] ∧ Missing c N D s' < Missing c N D s)))) := by
  obtain ⟨rw', sn, sd, b, pts', e1, e2, e3, e4, e5⟩ := addRows_spec hp food pts s h.both h.rows h.lt hf hnd
  unfold Cfg.use
  rw [e1]
  simp only [Option.bind_eq_bind, Option.bind_some]
  cases b with
  | false =>
    obtain ⟨f1, f2⟩ := e5 rfl
    subst f1
    refine ⟨{ s with rows := rw', subNum := sn, subDen := sd }, by rw [if_neg (by simp)], Or.inr ⟨rfl, Or.inl ⟨rfl, ⟨e2, h.asks, h.eqn, e3, f2⟩, rfl⟩⟩⟩
  | true =>
    have hlen := e4 rfl
    rw [if_pos rfl]
    obtain ⟨x, g1, g2, g3⟩ := solve_spec (gtp := gtp) hp hG e2 h.eqn e3 hlen (by show 1 ≤ s.numEqn; have := h.lt; omega)
    rw [g1]
    simp only [Option.bind_some]
    obtain ⟨s', k1, k2⟩ := handle_spec hp (s := { s with rows := [], subNum := [], subDen := [] }) ⟨e2.num, e2.den, e2.known, e2.result⟩ g2 g3
    refine ⟨s', k1, ?_⟩
    rcases k2 with k2 | ⟨l1, l2, l3, l4, l5, l6, l7, l8, l9⟩
    · exact Or.inl k2
    · right
      refine ⟨l7, Or.inr ⟨⟨l1, l2, l3, ⟨by rw [l6]; rfl, fun h0 => absurd l6 h0, by simp, by simp⟩, ?_⟩, l5 h.asks⟩⟩
      obtain ⟨e, he, -⟩ := l2
      rw [l3, ← List.length_append]
      exact List.length_pos_of_mem he

end FireFly.RMulti
