import Verif.Lemmas.RatMultiSys
/-! # The probes after Thiele's method -/
set_option linter.all false
namespace FireFly.RMulti
open MvPolynomial
variable {F : Type} [Field F] [DecidableEq F] {c : Cfg F} {bounds : Option (List ℕ)} {Q N D : MvPolynomial ℕ F} {m T mN mD : ℕ} {G : F → List ℕ → Prop}

/-- a probe that is right -/
def Right (c : Cfg F) (N D : MvPolynomial ℕ F) (G : F → List ℕ → Prop) (ord : List ℕ) (q : F × F) : Prop := G q.1 ord ∧ q.2 = valueOf c.shift c.anchor N D q.1 ord

/-- the rows belong to the probes `pts` -/
structure RowsOK (c : Cfg F) (N D : MvPolynomial ℕ F) (G : F → List ℕ → Prop) (s : St F) (pts : List (F × F)) : Prop where
  rows : s.rows = pts.map (rowOf s.num.open s.den.open (subOf c N s.num s.ord) (subOf c D s.den s.ord))
  sub : s.rows ≠ [] → s.subNum = subOf c N s.num s.ord ∧ s.subDen = subOf c D s.den s.ord
  right : ∀ q ∈ pts, Right c N D G s.ord q
  nodup : (pts.map Prod.fst).Nodup

/-- between two probes, the degrees are known -/
structure Run (c : Cfg F) (N D : MvPolynomial ℕ F) (mN mD : ℕ) (G : F → List ℕ → Prop) (s : St F) (pts : List (F × F)) : Prop where
  both : Both c N D mN mD s
  asks : Asks s
  eqn : s.numEqn = s.num.coefs.length + s.den.coefs.length
  rows : RowsOK c N D G s pts
  lt : pts.length < s.numEqn

lemma Both.sub (hp : Prob c N D mN mD) {s : St F} (h : Both c N D mN mD s) :
    c.subVals s.num (c.point s.ord) = some (subOf c N s.num s.ord) ∧ c.subVals s.den (c.point s.ord) = some (subOf c D s.den s.ord) := by
  obtain ⟨TN, iN⟩ := h.num.inv
  obtain ⟨TD, iD⟩ := h.den.inv
  have := hp.two
  exact ⟨iN.subVals hp.len (by omega) hp.okN s.ord, iD.subVals hp.len (by omega) hp.okD s.ord⟩

/-- one more row -/
lemma addRow_spec (hp : Prob c N D mN mD) {s : St F} {pts : List (F × F)} (h : Both c N D mN mD s) (hr : RowsOK c N D G s pts) {q : F × F} (hq : Right c N D G s.ord q)
    (hnew : q.1 ∉ pts.map Prod.fst) : ∃ rw sn sd, c.addRow s q.1 q.2 = some { s with rows := rw, subNum := sn, subDen := sd } ∧
      RowsOK c N D G { s with rows := rw, subNum := sn, subDen := sd } (pts ++ [q]) ∧ Both c N D mN mD { s with rows := rw, subNum := sn, subDen := sd } := by
  obtain ⟨a, b⟩ := h.sub hp
  refine ⟨s.rows ++ [rowOf s.num.open s.den.open (subOf c N s.num s.ord) (subOf c D s.den s.ord) q], subOf c N s.num s.ord, subOf c D s.den s.ord, ?_, ?_, ?_⟩
  · have hrow : ∀ s1 : St F, s1.rows = s.rows → s1.num = s.num → s1.den = s.den → s1.subNum = subOf c N s.num s.ord → s1.subDen = subOf c D s.den s.ord →
        s1.rows ++ [s1.num.coefs.map (fun el => q.1 ^ el.1) ++ s1.den.coefs.map (fun el => -q.2 * q.1 ^ el.1) ++
          [s1.subDen.foldl (fun (res : F) el => res + el.2 * q.1 ^ el.1.getD 0 0 * q.2) (s1.subNum.foldl (fun (res : F) el => res - el.2 * q.1 ^ el.1.getD 0 0) 0)]] =
        s.rows ++ [rowOf s.num.open s.den.open (subOf c N s.num s.ord) (subOf c D s.den s.ord) q] := by
      intro s1 h1 h2 h3 h4 h5
      rw [h1, h2, h3, h4, h5]
      unfold rowOf Side.open
      rw [List.map_map, List.map_map]; rfl
    unfold Cfg.addRow
    by_cases h0 : s.rows = []
    · rw [if_pos h0, a, b]
      simp only [Option.bind_eq_bind, Option.bind_some]
      rw [hrow { s with subNum := subOf c N s.num s.ord, subDen := subOf c D s.den s.ord } rfl rfl rfl rfl rfl]
    · rw [if_neg h0]
      simp only [Option.bind_eq_bind, Option.bind_some]
      obtain ⟨e1, e2⟩ := hr.sub h0
      rw [hrow s rfl rfl rfl e1 e2, ← e1, ← e2]
  · refine ⟨?_, fun _ => ⟨rfl, rfl⟩, ?_, ?_⟩
    · show s.rows ++ _ = (pts ++ [q]).map _
      rw [List.map_append, ← hr.rows]; rfl
    · intro x hx
      rcases List.mem_append.mp hx with hx | hx
      · exact hr.right x hx
      · rw [List.mem_singleton.mp hx]; exact hq
    · rw [List.map_append, List.nodup_append]
      refine ⟨hr.nodup, by simp, ?_⟩
      intro x hx y hy hxy
      rw [List.map_singleton, List.mem_singleton] at hy
      rw [hxy, hy] at hx
      exact hnew hx
  · exact ⟨h.num, h.den, h.known, h.result⟩

/-- the system is complete -/
lemma solve_spec {gtp : PivotOrder c.gt} (hp : Prob c N D mN mD) (hG : GoodPts c N D G) {s : St F} {pts : List (F × F)} (h : Both c N D mN mD s)
    (heq : s.numEqn = s.num.coefs.length + s.den.coefs.length) (hr : RowsOK c N D G s pts) (hlen : pts.length = s.numEqn) (hpos : 1 ≤ s.numEqn) :
    ∃ x, c.solve s = some x ∧ ValsOK c N s.ord s.num.open x.1 ∧ ValsOK c D s.ord s.den.open x.2 := by
  obtain ⟨TN, iN⟩ := h.num.inv
  obtain ⟨TD, iD⟩ := h.den.inv
  have lA : s.num.open.length = s.num.coefs.length := by unfold Side.open; simp
  have lB : s.den.open.length = s.den.coefs.length := by unfold Side.open; simp
  have hnA : s.num.open.Nodup := iN.desc.imp (fun {a b} hab => by omega)
  have hnB : s.den.open.Nodup := iD.desc.imp (fun {a b} hab => by omega)
  have hn : s.numEqn = s.num.open.length + s.den.open.length := by rw [lA, lB]; exact heq
  let a : Mat F := fun i j => (s.rows.getD i []).getD j 0
  have ha : ∀ (r : ℕ) (hr' : r < pts.length) (j : ℕ), a r j = (rowOf s.num.open s.den.open (subOf c N s.num s.ord) (subOf c D s.den s.ord) pts[r]).getD j 0 := by
    intro r hr' j
    show (s.rows.getD r []).getD j 0 = _
    have e : s.rows.getD r [] = rowOf s.num.open s.den.open (subOf c N s.num s.ord) (subOf c D s.den s.ord) pts[r] := by
      rw [hr.rows, List.getD_eq_getElem _ _ (by simpa using hr'), List.getElem_map]
    rw [e]
  have hdot : ∀ (z : ℕ → F) (r : ℕ) (hr' : r < pts.length), ∑ j ∈ Finset.range s.numEqn, a r j * z j =
      ∑ i ∈ Finset.range s.num.open.length, z i * pts[r].1 ^ s.num.open.getD i 0 - pts[r].2 * ∑ i ∈ Finset.range s.den.open.length, z (s.num.open.length + i) * pts[r].1 ^ s.den.open.getD i 0 := by
    intro z r hr'
    rw [hn, ← rowOf_left s.num.open s.den.open (subOf c N s.num s.ord) (subOf c D s.den s.ord) pts[r] z]
    apply Finset.sum_congr rfl
    intro j _
    rw [ha r hr' j]
  have huniq : ∀ z : ℕ → F, (∀ r < s.numEqn, ∑ j ∈ Finset.range s.numEqn, a r j * z j = 0) → ∀ i < s.numEqn, z i = 0 := by
    intro z hz
    rw [hn]
    apply solve_unique hG hnA hnB iN.el iD.el hr.nodup (ord := s.ord) (by
      intro t ht
      obtain ⟨q, hq, rfl⟩ := List.mem_map.mp ht
      exact (hr.right q hq).1) (by rw [List.length_map, hlen, hn])
    intro t ht
    obtain ⟨q, hq, rfl⟩ := List.mem_map.mp ht
    obtain ⟨r, hr', rfl⟩ := List.mem_iff_getElem.mp hq
    rw [← (hr.right _ hq).2, ← hdot z r hr']
    exact hz r (by omega)
  have hdet : (toMatrix s.numEqn a).det ≠ 0 := by
    intro h0
    obtain ⟨x, ⟨j, hj, hx⟩, hz⟩ := (det_zero_iff _ _).mp h0
    exact hx (huniq x hz j hj)
  obtain ⟨x, e1, e2⟩ := C22_solve gtp a false hpos hdet
  -- the values of the parts solve the system, too
  let y : ℕ → F := fun j => if j < s.num.open.length then ev c N s.ord (s.num.open.getD j 0) else ev c D s.ord (s.den.open.getD (j - s.num.open.length) 0)
  have hy : ∀ r < s.numEqn, ∑ j ∈ Finset.range s.numEqn, a r j * y j = a r s.numEqn := by
    intro r hr'
    have hr2 : r < pts.length := by omega
    rw [hdot y r hr2, ha r hr2, hn, rowOf_rhs]
    obtain ⟨hGq, hval⟩ := hr.right pts[r] (List.getElem_mem hr2)
    have l1 := iN.line hp.okN pts[r].1 s.ord
    have l2 := iD.line hp.okD pts[r].1 s.ord
    have hv : pts[r].2 * eval (pt c.shift c.anchor pts[r].1 s.ord) D = eval (pt c.shift c.anchor pts[r].1 s.ord) N := by
      rw [hval]; unfold valueOf; exact div_mul_cancel₀ _ (hG.den _ _ hGq)
    rw [l1, l2] at hv
    have s1 : ∑ i ∈ Finset.range s.num.open.length, y i * pts[r].1 ^ s.num.open.getD i 0 = (s.num.open.map (fun k => ev c N s.ord k * pts[r].1 ^ k)).sum := by
      rw [← List.sum_toFinset _ hnA, ← Finset.sum_congr rfl (fun i hi => by
        show ev c N s.ord (s.num.open.getD i 0) * pts[r].1 ^ s.num.open.getD i 0 = y i * pts[r].1 ^ s.num.open.getD i 0
        have : y i = ev c N s.ord (s.num.open.getD i 0) := if_pos (Finset.mem_range.mp hi)
        rw [this])]
      have := sum_index s.num.open hnA (fun _ => (1 : F)) (fun k => ev c N s.ord k * pts[r].1 ^ k)
      simpa using this
    have s2 : ∑ i ∈ Finset.range s.den.open.length, y (s.num.open.length + i) * pts[r].1 ^ s.den.open.getD i 0 = (s.den.open.map (fun k => ev c D s.ord k * pts[r].1 ^ k)).sum := by
      rw [← List.sum_toFinset _ hnB, ← Finset.sum_congr rfl (fun i hi => by
        show ev c D s.ord (s.den.open.getD i 0) * pts[r].1 ^ s.den.open.getD i 0 = y (s.num.open.length + i) * pts[r].1 ^ s.den.open.getD i 0
        have : y (s.num.open.length + i) = ev c D s.ord (s.den.open.getD i 0) := by
          show (if _ then _ else _) = _
          rw [if_neg (by omega), Nat.add_sub_cancel_left]
        rw [this])]
      have := sum_index s.den.open hnB (fun _ => (1 : F)) (fun k => ev c D s.ord k * pts[r].1 ^ k)
      simpa using this
    rw [s1, s2]
    linear_combination hv.symm
  have hxy : ∀ i < s.numEqn, x i = y i := by
    intro i hi
    have := huniq (fun j => x j - y j) (by
      intro r hr'
      have h1 := e2 r hr'
      have h2 := hy r hr'
      simp only [mul_sub, Finset.sum_sub_distrib]
      rw [h1, h2, sub_self]) i hi
    exact sub_eq_zero.mp this
  refine ⟨(s.num.coefs.mapIdx (fun i el => ([el.1], x i)), s.den.coefs.mapIdx (fun i el => ([el.1], x (s.num.coefs.length + i)))), ?_, ⟨?_, ?_⟩, ⟨?_, ?_⟩⟩
  · unfold Cfg.solve
    rw [show (fun i j => (s.rows.getD i []).getD j 0) = a from rfl, e1]; rfl
  · intro t ht
    obtain ⟨i, hi, rfl⟩ := List.mem_mapIdx.mp ht
    refine ⟨s.num.coefs[i].1, rfl, ?_⟩
    show x i = _
    rw [hxy i (by omega)]
    have : y i = ev c N s.ord (s.num.open.getD i 0) := if_pos (by omega)
    rw [this, List.getD_eq_getElem _ _ (by omega)]
    unfold Side.open
    rw [List.getElem_map]; rfl
  · intro k hk
    obtain ⟨e, he, rfl⟩ := List.mem_map.mp hk
    obtain ⟨i, hi, rfl⟩ := List.mem_iff_getElem.mp he
    exact ⟨_, List.mem_mapIdx.mpr ⟨i, hi, rfl⟩, rfl⟩
  · intro t ht
    obtain ⟨i, hi, rfl⟩ := List.mem_mapIdx.mp ht
    refine ⟨s.den.coefs[i].1, rfl, ?_⟩
    show x (s.num.coefs.length + i) = _
    rw [hxy _ (by omega)]
    have : y (s.num.coefs.length + i) = ev c D s.ord (s.den.open.getD i 0) := by
      show (if _ then _ else _) = _
      rw [if_neg (by omega), ← lA, Nat.add_sub_cancel_left]
    rw [this, List.getD_eq_getElem _ _ (by omega)]
    unfold Side.open
    rw [List.getElem_map]; rfl
  · intro k hk
    obtain ⟨e, he, rfl⟩ := List.mem_map.mp hk
    obtain ⟨i, hi, rfl⟩ := List.mem_iff_getElem.mp he
    exact ⟨_, List.mem_mapIdx.mpr ⟨i, hi, rfl⟩, rfl⟩

end FireFly.RMulti
