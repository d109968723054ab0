import Verif.Lemmas.RatLaterInv
import Verif.Lemmas.RatMultiMain
/-! # The further prime fields: the linear systems -/
set_option linter.all false
namespace FireFly.RLater
open MvPolynomial FFMap
open FireFly.RMulti (rowOf rowOf_left rowOf_rhs sum_index)
variable {F : Type} [Field F] [DecidableEq F] {c : Cfg F} {N D : MvPolynomial ℕ F} {kN kD : FFMap F} {UN UD : FFMap (List (List ℕ))} {G : F → List ℕ → Prop}

/-- a complete system with one solution at most, of which a solution is known -/
lemma sys_spec {gt : F → F → Bool} (gtp : PivotOrder gt) {A B : List ℕ} (hA : A.Nodup) (hB : B.Nodup) (subN subD : FFMap F) (pts : List (F × F))
    (hlen : pts.length = A.length + B.length) (hpos : 1 ≤ pts.length)
    (hdet : ∀ x y : ℕ → F, (∀ q ∈ pts, ∑ k ∈ A.toFinset, x k * q.1 ^ k = q.2 * ∑ k ∈ B.toFinset, y k * q.1 ^ k) → (∀ k ∈ A.toFinset, x k = 0) ∧ ∀ k ∈ B.toFinset, y k = 0)
    (fN fD : ℕ → F)
    (hsol : ∀ q ∈ pts, (A.map (fun k => fN k * q.1 ^ k)).sum + (subN.map (fun u => u.2 * q.1 ^ u.1.getD 0 0)).sum =
      q.2 * ((B.map (fun k => fD k * q.1 ^ k)).sum + (subD.map (fun u => u.2 * q.1 ^ u.1.getD 0 0)).sum)) :
    ∃ x, solveGauss gt pts.length (fun i j => ((pts.map (rowOf A B subN subD)).getD i []).getD j 0) false = some x ∧
      (∀ i < A.length, x i = fN (A.getD i 0)) ∧ ∀ i < B.length, x (A.length + i) = fD (B.getD i 0) := by
  obtain ⟨n, hn⟩ : ∃ n, n = pts.length := ⟨_, rfl⟩
  obtain ⟨a, ha0⟩ : ∃ a : Mat F, a = fun i j => ((pts.map (rowOf A B subN subD)).getD i []).getD j 0 := ⟨_, rfl⟩
  rw [← ha0, ← hn]
  rw [← hn] at hpos
  have ha : ∀ (r : ℕ) (hr' : r < pts.length) (j : ℕ), a r j = (rowOf A B subN subD pts[r]).getD j 0 := by
    intro r hr' j
    rw [ha0]
    have e : (pts.map (rowOf A B subN subD)).getD r [] = rowOf A B subN subD pts[r] := by
      rw [List.getD_eq_getElem _ _ (by simpa using hr'), List.getElem_map]
    simp only [e]
  have hdot : ∀ (z : ℕ → F) (r : ℕ) (hr' : r < pts.length), ∑ j ∈ Finset.range n, a r j * z j =
      ∑ i ∈ Finset.range A.length, z i * pts[r].1 ^ A.getD i 0 - pts[r].2 * ∑ i ∈ Finset.range B.length, z (A.length + i) * pts[r].1 ^ B.getD i 0 := by
    intro z r hr'
    rw [hn, hlen, ← rowOf_left A B subN subD pts[r] z]
    apply Finset.sum_congr rfl
    intro j _
    rw [ha r hr' j]
  have huniq : ∀ z : ℕ → F, (∀ r < n, ∑ j ∈ Finset.range n, a r j * z j = 0) → ∀ i < n, z i = 0 := by
    intro z hz
    obtain ⟨h1, h2⟩ := hdet (fun k => z (A.idxOf k)) (fun k => z (A.length + B.idxOf k)) (by
      intro q hq
      obtain ⟨r, hr', rfl⟩ := List.mem_iff_getElem.mp hq
      have := hz r (by omega)
      rw [hdot z r hr', sum_index A hA z (fun k => pts[r].1 ^ k), sum_index B hB (fun i => z (A.length + i)) (fun k => pts[r].1 ^ k)] at this
      exact sub_eq_zero.mp this)
    intro i hi
    by_cases hiA : i < A.length
    · have := h1 A[i] (by rw [List.mem_toFinset]; exact List.getElem_mem hiA)
      rwa [hA.idxOf_getElem] at this
    · have hiB : i - A.length < B.length := by omega
      have := h2 B[i - A.length] (by rw [List.mem_toFinset]; exact List.getElem_mem hiB)
      rw [hB.idxOf_getElem] at this
      rwa [show A.length + (i - A.length) = i by omega] at this
  have hd : (toMatrix n a).det ≠ 0 := by
    intro h0
    obtain ⟨x, ⟨j, hj, hx⟩, hz⟩ := (det_zero_iff _ _).mp h0
    exact hx (huniq x hz j hj)
  obtain ⟨x, e1, e2⟩ := C22_solve gtp a false hpos hd
  obtain ⟨y, hy0⟩ : ∃ y : ℕ → F, y = fun j => if j < A.length then fN (A.getD j 0) else fD (B.getD (j - A.length) 0) := ⟨_, rfl⟩
  have hyA : ∀ i < A.length, y i = fN (A.getD i 0) := by intro i hi; rw [hy0]; exact if_pos hi
  have hyB : ∀ i, y (A.length + i) = fD (B.getD i 0) := by
    intro i; rw [hy0]; simp only; rw [if_neg (by omega), Nat.add_sub_cancel_left]
  have hy : ∀ r < n, ∑ j ∈ Finset.range n, a r j * y j = a r n := by
    intro r hr'
    have hr2 : r < pts.length := by omega
    rw [hdot y r hr2, ha r hr2, hn, hlen, rowOf_rhs]
    have s1 : ∑ i ∈ Finset.range A.length, y i * pts[r].1 ^ A.getD i 0 = (A.map (fun k => fN k * pts[r].1 ^ k)).sum := by
      rw [← List.sum_toFinset _ hA, ← Finset.sum_congr rfl (fun i hi => by
        show fN (A.getD i 0) * pts[r].1 ^ A.getD i 0 = y i * pts[r].1 ^ A.getD i 0
        rw [hyA i (Finset.mem_range.mp hi)])]
      have := sum_index A hA (fun _ => (1 : F)) (fun k => fN k * pts[r].1 ^ k)
      simpa using this
    have s2 : ∑ i ∈ Finset.range B.length, y (A.length + i) * pts[r].1 ^ B.getD i 0 = (B.map (fun k => fD k * pts[r].1 ^ k)).sum := by
      rw [← List.sum_toFinset _ hB, ← Finset.sum_congr rfl (fun i hi => by
        show fD (B.getD i 0) * pts[r].1 ^ B.getD i 0 = y (A.length + i) * pts[r].1 ^ B.getD i 0
        rw [hyB i])]
      have := sum_index B hB (fun _ => (1 : F)) (fun k => fD k * pts[r].1 ^ k)
      simpa using this
    rw [s1, s2]
    linear_combination hsol pts[r] (List.getElem_mem hr2)
  have hxy : ∀ i < n, x i = y i := by
    intro i hi
    have := huniq (fun j => x j - y j) (by
      intro r hr'
      have h1 := e2 r hr'
      have h2 := hy r hr'
      simp only [mul_sub, Finset.sum_sub_distrib]
      rw [h1, h2, sub_self]) i hi
    exact sub_eq_zero.mp this
  refine ⟨x, e1, ?_, ?_⟩
  · intro i hi
    rw [hxy i (by omega), hyA i hi]
  · intro i hi
    rw [hxy _ (by omega), hyB i]

/-- the degrees of the parts that are asked -/
def Side.open (s : Side F) : List ℕ := s.unsolved.map (fun u => u.1.getD 0 0)

/-- a probe that is right -/
def Right (c : Cfg F) (N D : MvPolynomial ℕ F) (G : F → List ℕ → Prop) (ord : List ℕ) (q : F × F) : Prop := G q.1 ord ∧ q.2 = value c.anchor N D q.1 ord

/-- the rows belong to the probes `pts` -/
structure RowsOK (c : Cfg F) (N D : MvPolynomial ℕ F) (G : F → List ℕ → Prop) (o : ℕ) (s : St F) (pts : List (F × F)) : Prop where
  rows : s.rows = pts.map (rowOf s.num.open s.den.open (subOf c s.num o) (subOf c s.den o))
  sub : s.rows ≠ [] → s.subNum = subOf c s.num o ∧ s.subDen = subOf c s.den o
  right : ∀ q ∈ pts, Right c N D G (uni c o) q
  nodup : (pts.map Prod.fst).Nodup

/-- numerator and denominator -/
structure Both (c : Cfg F) (N D : MvPolynomial ℕ F) (kN kD : FFMap F) (UN UD : FFMap (List (List ℕ))) (o : ℕ) (s : St F) : Prop where
  num : SInv c N kN UN o s.num
  den : SInv c D kD UD o s.den
  ord : s.ord = uni c o
  pos : 1 ≤ o
  eqn : s.numEqn = s.num.unsolved.length + s.den.unsolved.length
  np : s.newPrime = false
  out : s.out = none

/-- between two probes -/
structure Run (c : Cfg F) (N D : MvPolynomial ℕ F) (kN kD : FFMap F) (UN UD : FFMap (List (List ℕ))) (G : F → List ℕ → Prop) (o : ℕ) (s : St F) (pts : List (F × F)) : Prop where
  both : Both c N D kN kD UN UD o s
  rows : RowsOK c N D G o s pts
  lt : pts.length < s.numEqn

/-- the problem -/
structure Prob (c : Cfg F) (N D : MvPolynomial ℕ F) (kN kD : FFMap F) (UN UD : FFMap (List (List ℕ))) : Prop where
  len : c.anchor.length + 1 = c.n
  num : Split c.n c.anchor N kN UN
  den : Split c.n c.anchor D kD UD

lemma addRow_spec (hp : Prob c N D kN kD UN UD) {o : ℕ} {s : St F} {pts : List (F × F)} (h : Both c N D kN kD UN UD o s) (hr : RowsOK c N D G o s pts) {q : F × F}
    (hq : Right c N D G (uni c o) q) (hnew : q.1 ∉ pts.map Prod.fst) : ∃ rw sn sd, c.addRow s q.1 q.2 = some { s with rows := rw, subNum := sn, subDen := sd } ∧
      RowsOK c N D G o { s with rows := rw, subNum := sn, subDen := sd } (pts ++ [q]) ∧ Both c N D kN kD UN UD o { s with rows := rw, subNum := sn, subDen := sd } := by
  have hn : 1 ≤ c.n := by have := hp.len; omega
  have a := subVals_spec hn h.num.parts o
  have b := subVals_spec hn h.den.parts o
  rw [← h.ord] at a b
  refine ⟨s.rows ++ [rowOf s.num.open s.den.open (subOf c s.num o) (subOf c s.den o) q], subOf c s.num o, subOf c s.den o, ?_, ?_, ?_⟩
  · have hrow : ∀ s1 : St F, s1.rows = s.rows → s1.num = s.num → s1.den = s.den → s1.subNum = subOf c s.num o → s1.subDen = subOf c s.den o →
        s1.rows ++ [s1.num.unsolved.map (fun el => q.1 ^ el.1.getD 0 0) ++ s1.den.unsolved.map (fun el => -q.2 * q.1 ^ el.1.getD 0 0) ++
          [s1.subDen.foldl (fun (res : F) el => res + el.2 * q.1 ^ el.1.getD 0 0 * q.2) (s1.subNum.foldl (fun (res : F) el => res - el.2 * q.1 ^ el.1.getD 0 0) 0)]] =
        s.rows ++ [rowOf s.num.open s.den.open (subOf c s.num o) (subOf c s.den o) q] := by
      intro s1 h1 h2 h3 h4 h5
      rw [h1, h2, h3, h4, h5]
      unfold rowOf Side.open
      rw [List.map_map, List.map_map]; rfl
    unfold Cfg.addRow
    by_cases h0 : s.rows = []
    · rw [if_pos h0, a, b]
      simp only [Option.bind_eq_bind, Option.bind_some]
      rw [hrow { s with subNum := subOf c s.num o, subDen := subOf c s.den o } rfl rfl rfl rfl rfl]
    · rw [if_neg h0]
      simp only [Option.bind_eq_bind, Option.bind_some]
      obtain ⟨e1, e2⟩ := hr.sub h0
      rw [hrow s rfl rfl rfl e1 e2, ← e1, ← e2]
  · refine ⟨?_, fun _ => ⟨rfl, rfl⟩, ?_, ?_⟩
    · show s.rows ++ _ = (pts ++ [q]).map _
      rw [List.map_append, ← hr.rows]; rfl
    · intro x hx
      rcases List.mem_append.mp hx with hx | hx
      · exact hr.right x hx
      · rw [List.mem_singleton.mp hx]; exact hq
    · rw [List.map_append, List.nodup_append]
      refine ⟨hr.nodup, by simp, ?_⟩
      intro x hx y hy hxy
      rw [List.map_singleton, List.mem_singleton] at hy
      rw [hxy, hy] at hx
      exact hnew hx
  · exact ⟨h.num, h.den, h.ord, h.pos, h.eqn, h.np, h.out⟩

lemma addRows_spec (hp : Prob c N D kN kD UN UD) {o : ℕ} : ∀ (food pts : List (F × F)) (s : St F), Both c N D kN kD UN UD o s → RowsOK c N D G o s pts → pts.length < s.numEqn →
    (∀ q ∈ food, Right c N D G (uni c o) q) → ((pts ++ food).map Prod.fst).Nodup →
    ∃ rw sn sd b pts', c.addRows s food = some ({ s with rows := rw, subNum := sn, subDen := sd }, b) ∧ Both c N D kN kD UN UD o { s with rows := rw, subNum := sn, subDen := sd } ∧
      RowsOK c N D G o { s with rows := rw, subNum := sn, subDen := sd } pts' ∧ (b = true → pts'.length = s.numEqn) ∧ (b = false → pts' = pts ++ food ∧ pts'.length < s.numEqn) := by
  intro food
  induction food with
  | nil =>
    intro pts s h1 h2 h3 _ _
    exact ⟨s.rows, s.subNum, s.subDen, false, pts, rfl, h1, h2, by simp, fun _ => ⟨by simp, h3⟩⟩
  | cons q food ih =>
    intro pts s h1 h2 h3 h4 h5
    have hnew : q.1 ∉ pts.map Prod.fst := by
      intro hm
      rw [List.map_append, List.nodup_append] at h5
      exact h5.2.2 _ hm _ (by simp) rfl
    obtain ⟨rw1, sn, sd, e1, e2, e3⟩ := addRow_spec hp h1 h2 (h4 q (by simp)) hnew
    have hrl : rw1.length = (pts ++ [q]).length := by
      have := e2.rows
      simp only at this
      rw [this, List.length_map]
    rw [Cfg.addRows, e1]
    simp only [Option.bind_eq_bind, Option.bind_some]
    by_cases hc : s.numEqn = rw1.length
    · rw [if_pos hc]
      refine ⟨rw1, sn, sd, true, pts ++ [q], rfl, e3, e2, fun _ => by rw [hc, hrl], by simp⟩
    · rw [if_neg hc]
      obtain ⟨rw2, sn2, sd2, b, pts', f1, f2, f3, f4, f5⟩ := ih (pts ++ [q]) _ e3 e2 (by
        show (pts ++ [q]).length < s.numEqn
        rw [hrl] at hc
        simp at hc ⊢
        omega)
        (fun x hx => h4 x (by simp [hx])) (by simpa using h5)
      exact ⟨rw2, sn2, sd2, b, pts', f1, f2, f3, f4, fun hb => by simpa using f5 hb⟩

lemma SInv.nodup (hsp : Split c.n c.anchor N kN UN) {o : ℕ} {s : Side F} (h : SInv c N kN UN o s) : (s.unsolved.map Prod.fst).Nodup := by
  rw [h.unsolved]; exact hsp.nodup.sublist (List.filter_sublist.map _)

lemma SInv.open_mem (hsp : Split c.n c.anchor N kN UN) {o : ℕ} {s : Side F} (h : SInv c N kN UN o s) {u : List ℕ × List (List ℕ)} (hu : u ∈ s.unsolved) : u.1 = [u.1.getD 0 0] ∧ u ∈ UN := by
  rw [h.unsolved] at hu
  have hu := (List.mem_filter.mp hu).1
  obtain ⟨d, h1, -⟩ := hsp.form u hu
  exact ⟨by rw [h1]; rfl, hu⟩

lemma SInv.open_nodup (hsp : Split c.n c.anchor N kN UN) {o : ℕ} {s : Side F} (h : SInv c N kN UN o s) : s.open.Nodup := by
  unfold Side.open
  rw [show s.unsolved.map (fun u => u.1.getD 0 0) = (s.unsolved.map Prod.fst).map (fun k => k.getD 0 0) by rw [List.map_map]; rfl]
  apply List.Nodup.map_on _ (h.nodup hsp)
  intro x hx y hy hxy
  obtain ⟨u, hu, rfl⟩ := List.mem_map.mp hx
  obtain ⟨w, hw, rfl⟩ := List.mem_map.mp hy
  rw [(h.open_mem hsp hu).1, (h.open_mem hsp hw).1, hxy]

lemma SInv.open_in (hsp : Split c.n c.anchor N kN UN) {o : ℕ} {s : Side F} (h : SInv c N kN UN o s) {k : ℕ} (hk : k ∈ s.open) : [k] ∈ UN.map Prod.fst := by
  obtain ⟨u, hu, rfl⟩ := List.mem_map.mp hk
  rw [← (h.open_mem hsp hu).1]
  exact List.mem_map_of_mem (h.open_mem hsp hu).2

/-- the solution of the system, part by part -/
lemma SInv.read (hsp : Split c.n c.anchor N kN UN) {o : ℕ} {s : Side F} (h : SInv c N kN UN o s) (x : ℕ → F)
    (hx : ∀ i < s.open.length, x i = pv c.anchor N ((s.unsolved.find? [s.open.getD i 0]).getD []) o) :
    s.unsolved.mapIdx (fun i el => (el.1, x i)) = s.unsolved.map (fun u => (u.1, pv c.anchor N u.2 o)) := by
  apply List.ext_getElem (by simp)
  intro i h1 h2
  rw [List.getElem_mapIdx, List.getElem_map]
  have hi : i < s.unsolved.length := by simpa using h1
  have hio : i < s.open.length := by unfold Side.open; simpa using hi
  obtain ⟨u, hu⟩ : ∃ u, u = s.unsolved[i] := ⟨_, rfl⟩
  have hm : u ∈ s.unsolved := by rw [hu]; exact List.getElem_mem hi
  rw [hx i hio]
  have : [s.open.getD i 0] = u.1 := by
    unfold Side.open
    rw [List.getD_eq_getElem _ _ (by simpa using hi), List.getElem_map, ← hu]
    exact (h.open_mem hsp hm).1.symm
  rw [this, FFMap.find?_of_mem (h.nodup hsp) hm, ← hu]; rfl

/-- the system is complete -/
lemma solve_spec (gtp : PivotOrder c.gt) (hp : Prob c N D kN kD UN UD) (hG : GoodPts c.anchor N D UN UD G) {o : ℕ} {s : St F} {pts : List (F × F)}
    (h : Both c N D kN kD UN UD o s) (hr : RowsOK c N D G o s pts) (hlen : pts.length = s.numEqn) (hpos : 1 ≤ s.numEqn) :
    c.solve s = some (s.num.unsolved.map (fun u => (u.1, pv c.anchor N u.2 o)), s.den.unsolved.map (fun u => (u.1, pv c.anchor D u.2 o))) := by
  have hA := h.num.open_nodup hp.num
  have hB := h.den.open_nodup hp.den
  have lA : s.num.open.length = s.num.unsolved.length := by unfold Side.open; simp
  have lB : s.den.open.length = s.den.unsolved.length := by unfold Side.open; simp
  have hl : pts.length = s.num.open.length + s.den.open.length := by rw [lA, lB, hlen, h.eqn]
  obtain ⟨x, e1, e2, e3⟩ := sys_spec gtp hA hB (subOf c s.num o) (subOf c s.den o) pts hl (by omega)
    (by
      intro x y hxy
      apply hG.det (uni c o) s.num.open.toFinset s.den.open.toFinset (pts.map Prod.fst) (by
        intro k hk; exact h.num.open_in hp.num (List.mem_toFinset.mp hk)) (by
        intro k hk; exact h.den.open_in hp.den (List.mem_toFinset.mp hk)) hr.nodup (by
        intro t ht
        obtain ⟨q, hq, rfl⟩ := List.mem_map.mp ht
        exact (hr.right q hq).1) (by
        rw [List.length_map, hl, List.toFinset_card_of_nodup hA, List.toFinset_card_of_nodup hB]) x y
      intro t ht
      obtain ⟨q, hq, rfl⟩ := List.mem_map.mp ht
      rw [← (hr.right q hq).2]
      exact hxy q hq)
    (fun k => pv c.anchor N ((s.num.unsolved.find? [k]).getD []) o) (fun k => pv c.anchor D ((s.den.unsolved.find? [k]).getD []) o)
    (by
      intro q hq
      obtain ⟨g1, g2⟩ := hr.right q hq
      have hd := hG.den _ _ g1
      have l1 := h.num.line hp.len hp.num q.1
      have l2 := h.den.line hp.len hp.den q.1
      have : q.2 * eval (at_ c.anchor q.1 (uni c o)) D = eval (at_ c.anchor q.1 (uni c o)) N := by
        rw [g2]; unfold value; exact div_mul_cancel₀ _ hd
      rw [l1, l2] at this
      exact this.symm)
  unfold Cfg.solve
  rw [← hlen, hr.rows, e1, Option.map_some]
  congr 1
  rw [h.num.read hp.num x e2, h.den.read hp.den (fun i => x (s.num.unsolved.length + i)) (by rw [← lA]; exact e3)]

end FireFly.RLater
