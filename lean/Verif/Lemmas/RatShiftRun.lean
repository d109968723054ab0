import Verif.Lemmas.RatShiftPass
import Verif.Lemmas.RatLaterRun
/-! # A further prime field with a shift: the linear systems and the result -/
set_option linter.all false
namespace FireFly.RShift
open MvPolynomial FFMap
open FireFly.RMulti (polyAt part dir sh subSum tgt addShifts rowOf)
variable {F : Type} [Field F] [DecidableEq F] {c : Cfg F} {const : Bool} {p : Prior} {Q N D : MvPolynomial ℕ F} {S : Side F} {dn dn' : ℕ → Bool} {r T : ℕ} {s : Side F} {G : F → List ℕ → Prop}

/-- the degrees of the parts that are asked -/
def Side.open (s : Side F) : List ℕ := s.unsolved.map dg

/-- the values of the parts that are known -/
noncomputable def subOf (c : Cfg F) (Q : MvPolynomial ℕ F) (s : Side F) (o : ℕ) : FFMap F := s.solved.map (fun t => (t.1, val c Q o (dg t)))

/-- the normalized constant -/
def cst (const : Bool) : FFMap F := if const = true then [([0], 1)] else []

lemma eff_le (hc : Ctx c Q const p S) {u : List ℕ × List (List ℕ)} (hu : u ∈ S.unsolved) : eff S (dg u) ≤ S.most.2 := by
  unfold eff
  split
  · rw [hc.len hu]; exact hc.le_most hu
  · exact le_rfl

lemma subVals_spec (hc : Ctx c Q const p S) {o : ℕ} (h : SInv c Q p S o s) : c.subVals s (c.point (uni c o)) = some (subOf c Q s o) := by
  unfold Cfg.subVals subOf
  apply RLater.mapM_vals
  intro t ht
  obtain ⟨u, h1, h2, h3, h4, h5, h6⟩ := h.solved t ht
  have hdt : dg t = dg u := by unfold dg; rw [h2]
  have h3 : eff S (dg u) < o := by simpa using h3
  rw [calcNM1_dir' hc h4, show t.1.getD 0 0 = dg u from hdt, h.dense]
  simp only [Option.bind_eq_bind, Option.bind_some]
  by_cases hd : dg u ∈ S.dense
  · rw [if_pos (by simpa using hd), h6, hdt]
    unfold tgt
    rw [if_pos hd]; rfl
  · rw [if_neg (by simpa using hd)]
    have hoM : ¬ o ≤ S.most.2 := by unfold eff at h3; rw [if_neg hd] at h3; omega
    have hle := (hc.key h1).2.2.1
    obtain ⟨g1, -, g3⟩ := h.sub (dg u) hle
    rw [if_neg hoM, RMulti.subSum_ge c.multi Q p.maxDeg (show 1 ≤ dg u + 1 by omega)] at g3
    rw [calcNM1_dir' hc g1, g3, Option.bind_some, h6, hdt]
    unfold tgt val
    rw [if_neg hd, part_unshift hc.hcTop hle, map_add]

lemma open_nodup (hc : Ctx c Q const p S) (h : MInv c Q p S dn r T s) : s.open.Nodup := by
  unfold Side.open
  have hnd := h.nodup hc
  apply List.Nodup.map_on _ hnd.of_map
  intro x hx y hy hxy
  exact hc.inj (h.mem.mp hx).1 (h.mem.mp hy).1 hxy

lemma open_asked (hc : Ctx c Q const p S) (h : MInv c Q p S dn r T s) {k : ℕ} (hk : k ∈ s.open) : k ∈ asked c.n const p := by
  obtain ⟨u, hu, rfl⟩ := List.mem_map.mp hk
  exact (hc.key (h.mem.mp hu).1).2.1

lemma solved_key (hc : Ctx c Q const p S) (h : MInv c Q p S dn r T s) {x : List ℕ × FFMap F} (hx : x ∈ s.solved) : x.1 = [dg x] ∧ dg x ∈ asked c.n const p ∧ dn (dg x) = true := by
  obtain ⟨u, h1, h2, h3, -⟩ := h.solved x hx
  have hd : dg x = dg u := by unfold dg; rw [h2]
  rw [hd, h2]
  exact ⟨(hc.key h1).1, (hc.key h1).2.1, h3⟩

lemma solved_nodup (hc : Ctx c Q const p S) (h : MInv c Q p S dn r T s) : (s.solved.map dg).Nodup := by
  have hnd := h.solvedKeys
  have : s.solved.map dg = (s.solved.map Prod.fst).map (fun k : List ℕ => k.getD 0 0) := by rw [List.map_map]; rfl
  rw [this]
  apply List.Nodup.map_on _ hnd
  intro x hx y hy hxy
  obtain ⟨u, hu, rfl⟩ := List.mem_map.mp hx
  obtain ⟨w, hw, rfl⟩ := List.mem_map.mp hy
  rw [(solved_key hc h hu).1, (solved_key hc h hw).1]
  exact congrArg (fun k => [k]) hxy

/-- the degrees of the polynomial -/
def degsOf (const : Bool) (s : Side F) : List ℕ := s.open ++ (s.solved.map dg ++ if const = true then [0] else [])

lemma degsOf_spec (hc : Ctx c Q const p S) (h : MInv c Q p S dn r T s) : (degsOf const s).Nodup ∧ (∀ k ∈ degsOf const s, k < p.maxDeg + 1) ∧
    ∀ k < p.maxDeg + 1, k ∉ degsOf const s → homogeneousComponent k Q = 0 ∧ part c.shift Q k = 0 := by
  have hlt : ∀ {k}, k ∈ asked c.n const p → k < p.maxDeg + 1 := fun hk => by
    unfold asked at hk; exact Finset.mem_range.mp (Finset.mem_filter.mp hk).1
  have h0 : const = true → 0 ∉ asked c.n const p := fun hk hm => by
    unfold asked at hm; exact (Finset.mem_filter.mp hm).2.2 ⟨hk, rfl⟩
  have hs : ∀ {k}, k ∈ s.solved.map dg → k ∈ asked c.n const p ∧ dn k = true := fun hk => by
    obtain ⟨x, hx, rfl⟩ := List.mem_map.mp hk
    exact (solved_key hc h hx).2
  have hz : ∀ {k}, k ∈ (if const = true then [0] else [] : List ℕ) → k = 0 ∧ const = true := fun hk => by
    split at hk
    · rename_i hh; exact ⟨by simpa using hk, hh⟩
    · simp at hk
  unfold degsOf
  refine ⟨?_, ?_, ?_⟩
  · rw [List.nodup_append]
    refine ⟨open_nodup hc h, ?_, ?_⟩
    · rw [List.nodup_append]
      refine ⟨solved_nodup hc h, by split <;> simp, ?_⟩
      intro a ha b hb hab
      obtain ⟨rfl, hh⟩ := hz hb
      rw [hab] at ha
      exact h0 hh (hs ha).1
    · intro a ha b hb hab
      subst hab
      rcases List.mem_append.mp hb with hb | hb
      · obtain ⟨u, hu, rfl⟩ := List.mem_map.mp ha
        have := (h.mem.mp hu).2
        rw [(hs hb).2] at this
        cases this
      · obtain ⟨rfl, hh⟩ := hz hb
        exact h0 hh (open_asked hc h ha)
  · intro k hk
    rcases List.mem_append.mp hk with hk | hk
    · exact hlt (open_asked hc h hk)
    · rcases List.mem_append.mp hk with hk | hk
      · exact hlt (hs hk).1
      · obtain ⟨rfl, -⟩ := hz hk; omega
  · intro k hk hn
    rw [List.mem_append, List.mem_append, not_or, not_or] at hn
    apply hc.not_asked (by omega)
    · rintro ⟨g1, rfl⟩
      exact hn.2.2 (by rw [if_pos g1]; simp)
    · intro u hu he
      cases hdn : dn (dg u) with
      | false => exact hn.1 (he ▸ List.mem_map_of_mem (h.mem.mpr ⟨hu, hdn⟩))
      | true =>
        obtain ⟨x, hx, hxk⟩ := List.mem_map.mp (h.solvedAll u hu hdn)
        apply hn.2.1
        refine List.mem_map.mpr ⟨x, hx, ?_⟩
        rw [← he]; unfold dg; rw [hxk]

lemma sum_degs {M : Type} [AddCommMonoid M] (hc : Ctx c Q const p S) (h : MInv c Q p S dn r T s) (f : ℕ → M) (hf : ∀ k, homogeneousComponent k Q = 0 → part c.shift Q k = 0 → f k = 0) :
    ∑ k ∈ Finset.range (p.maxDeg + 1), f k = (s.open.map f).sum + ((s.solved.map (fun x => f (dg x))).sum + if const = true then f 0 else 0) := by
  obtain ⟨h1, h2, h3⟩ := degsOf_spec hc h
  have e1 : ∑ k ∈ Finset.range (p.maxDeg + 1), f k = ∑ k ∈ (degsOf const s).toFinset, f k := by
    symm
    apply Finset.sum_subset
    · intro k hk
      rw [Finset.mem_range]; exact h2 k (List.mem_toFinset.mp hk)
    · intro k hk hn
      obtain ⟨a, b⟩ := h3 k (Finset.mem_range.mp hk) (fun hh => hn (List.mem_toFinset.mpr hh))
      exact hf k a b
  rw [e1, List.sum_toFinset _ h1]
  unfold degsOf
  rw [List.map_append, List.map_append, List.sum_append, List.sum_append, List.map_map]
  congr 2
  split <;> simp

/-- the values of the parts add up to the value of the polynomial -/
lemma SInv.line (hc : Ctx c Q const p S) (hn : const = true → eval (fun i => c.shift.getD i 0) Q = 1) {o : ℕ} (h : SInv c Q p S o s) (t : F) :
    eval (RMulti.pt c.shift c.anchor t (uni c o)) Q =
      (s.open.map (fun d => val c Q o d * t ^ d)).sum + ((cst const ++ subOf c Q s o).map (fun u : List ℕ × F => u.2 * t ^ u.1.getD 0 0)).sum := by
  rw [RMulti.eval_pt c.shift c.anchor Q p.maxDeg (fun k hk => part_above c.shift hc.hcTop hk)]
  have := sum_degs hc h (fun k => val c Q o k * t ^ k) (fun k _ h2 => by unfold val; rw [h2]; simp)
  unfold val at this ⊢
  rw [this]
  congr 1
  rw [List.map_append, List.sum_append, add_comm]
  congr 1
  · unfold cst
    split
    · rename_i h1
      rw [RMulti.part_zero, hn h1]; simp
    · simp
  · unfold subOf
    rw [List.map_map]; rfl

/-! ### rows -/

/-- a probe that is right -/
def RightP (c : Cfg F) (N D : MvPolynomial ℕ F) (G : F → List ℕ → Prop) (ord : List ℕ) (q : F × F) : Prop := G q.1 ord ∧ q.2 = RMulti.valueOf c.shift c.anchor N D q.1 ord

/-- the row of a probe -/
noncomputable def rowFor (c : Cfg F) (N D : MvPolynomial ℕ F) (o : ℕ) (s : St F) : F × F → List F :=
  rowOf s.num.open s.den.open (cst (!c.normDen) ++ subOf c N s.num o) (cst c.normDen ++ subOf c D s.den o)

/-- the rows belong to the probes `pts` -/
structure RowsOK (c : Cfg F) (N D : MvPolynomial ℕ F) (G : F → List ℕ → Prop) (o : ℕ) (s : St F) (pts : List (F × F)) : Prop where
  rows : s.rows = pts.map (rowFor c N D o s)
  sub : s.rows ≠ [] → s.subNum = subOf c N s.num o ∧ s.subDen = subOf c D s.den o
  right : ∀ q ∈ pts, RightP c N D G (uni c o) q
  nodup : (pts.map Prod.fst).Nodup

/-- the parts that are asked, at the start -/
def startN (c : Cfg F) : Side F := setSide c.n (!c.normDen) c.num
def startD (c : Cfg F) : Side F := setSide c.n c.normDen c.den

/-- numerator and denominator -/
structure Both (c : Cfg F) (N D : MvPolynomial ℕ F) (o : ℕ) (s : St F) : Prop where
  num : SInv c N c.num (startN c) o s.num
  den : SInv c D c.den (startD c) o s.den
  ord : s.ord = uni c o
  pos : 1 ≤ o
  eqn : s.numEqn = s.num.unsolved.length + s.den.unsolved.length
  np : s.newPrime = false
  out : s.out = none

/-- between two probes -/
structure Run (c : Cfg F) (N D : MvPolynomial ℕ F) (G : F → List ℕ → Prop) (o : ℕ) (s : St F) (pts : List (F × F)) : Prop where
  both : Both c N D o s
  rows : RowsOK c N D G o s pts
  lt : pts.length < s.numEqn

lemma Prob.ctxN (hp : Prob c N D) : Ctx c N (!c.normDen) c.num (startN c) := ⟨hp.two, hp.lenShift, hp.lenAnchor, hp.num, setSide_spec hp.lenAnchor hp.num⟩
lemma Prob.ctxD (hp : Prob c N D) : Ctx c D c.normDen c.den (startD c) := ⟨hp.two, hp.lenShift, hp.lenAnchor, hp.den, setSide_spec hp.lenAnchor hp.den⟩
lemma Prob.normN (hp : Prob c N D) : (!c.normDen) = true → eval (fun i => c.shift.getD i 0) N = 1 := fun h => by
  have := hp.norm
  rw [if_neg (by simpa using h)] at this; exact this
lemma Prob.normD (hp : Prob c N D) : c.normDen = true → eval (fun i => c.shift.getD i 0) D = 1 := fun h => by
  have := hp.norm
  rw [if_pos h] at this; exact this

lemma addRow_spec (hp : Prob c N D) {o : ℕ} {s : St F} {pts : List (F × F)} (h : Both c N D o s) (hr : RowsOK c N D G o s pts) {q : F × F}
    (hq : RightP c N D G (uni c o) q) (hnew : q.1 ∉ pts.map Prod.fst) : ∃ rw sn sd, c.addRow s q.1 q.2 = some { s with rows := rw, subNum := sn, subDen := sd } ∧
      RowsOK c N D G o { s with rows := rw, subNum := sn, subDen := sd } (pts ++ [q]) ∧ Both c N D o { s with rows := rw, subNum := sn, subDen := sd } := by
  have a := subVals_spec hp.ctxN h.num
  have b := subVals_spec hp.ctxD h.den
  rw [← h.ord] at a b
  refine ⟨s.rows ++ [rowFor c N D o s q], subOf c N s.num o, subOf c D s.den o, ?_, ?_, ?_⟩
  · have hrow : ∀ s1 : St F, s1.rows = s.rows → s1.num = s.num → s1.den = s.den → s1.subNum = subOf c N s.num o → s1.subDen = subOf c D s.den o →
        s1.rows ++ [s1.num.unsolved.map (fun el => q.1 ^ el.1.getD 0 0) ++ s1.den.unsolved.map (fun el => -q.2 * q.1 ^ el.1.getD 0 0) ++
          [s1.subDen.foldl (fun (res : F) el => res + el.2 * q.1 ^ el.1.getD 0 0 * q.2) (s1.subNum.foldl (fun (res : F) el => res - el.2 * q.1 ^ el.1.getD 0 0) (if c.normDen then q.2 else -1))]] =
        s.rows ++ [rowFor c N D o s q] := by
      intro s1 h1 h2 h3 h4 h5
      rw [h1, h2, h3, h4, h5]
      unfold rowFor rowOf Side.open
      rw [List.map_map, List.map_map]
      congr 2
      congr 1
      congr 1
      rw [RMulti.foldl_sub_sum (fun el : List ℕ × F => el.2 * q.1 ^ el.1.getD 0 0), RMulti.foldl_add_sum (fun el : List ℕ × F => el.2 * q.1 ^ el.1.getD 0 0 * q.2),
        RMulti.foldl_sub_sum (fun el : List ℕ × F => el.2 * q.1 ^ el.1.getD 0 0), RMulti.foldl_add_sum (fun el : List ℕ × F => el.2 * q.1 ^ el.1.getD 0 0 * q.2)]
      rw [List.map_append, List.map_append, List.sum_append, List.sum_append]
      unfold cst
      cases c.normDen
      · simp; ring
      · simp; ring
    unfold Cfg.addRow
    by_cases h0 : s.rows = []
    · rw [if_pos h0, a, b]
      simp only [Option.bind_eq_bind, Option.bind_some]
      rw [hrow { s with subNum := subOf c N s.num o, subDen := subOf c D s.den o } rfl rfl rfl rfl rfl]
    · rw [if_neg h0]
      simp only [Option.bind_eq_bind, Option.bind_some]
      obtain ⟨e1, e2⟩ := hr.sub h0
      rw [hrow s rfl rfl rfl e1 e2, ← e1, ← e2]
  · refine ⟨?_, fun _ => ⟨rfl, rfl⟩, ?_, ?_⟩
    · show s.rows ++ _ = (pts ++ [q]).map (rowFor c N D o s)
      rw [List.map_append, ← hr.rows]; rfl
    · intro x hx
      rcases List.mem_append.mp hx with hx | hx
      · exact hr.right x hx
      · rw [List.mem_singleton.mp hx]; exact hq
    · rw [List.map_append, List.nodup_append]
      refine ⟨hr.nodup, by simp, ?_⟩
      intro x hx y hy hxy
      rw [List.map_singleton, List.mem_singleton] at hy
      rw [hxy, hy] at hx
      exact hnew hx
  · exact ⟨h.num, h.den, h.ord, h.pos, h.eqn, h.np, h.out⟩

lemma addRows_spec (hp : Prob c N D) {o : ℕ} : ∀ (food pts : List (F × F)) (s : St F), Both c N D o s → RowsOK c N D G o s pts → pts.length < s.numEqn →
    (∀ q ∈ food, RightP c N D G (uni c o) q) → ((pts ++ food).map Prod.fst).Nodup →
    ∃ rw sn sd b pts', c.addRows s food = some ({ s with rows := rw, subNum := sn, subDen := sd }, b) ∧ Both c N D o { s with rows := rw, subNum := sn, subDen := sd } ∧
      RowsOK c N D G o { s with rows := rw, subNum := sn, subDen := sd } pts' ∧ (b = true → pts'.length = s.numEqn) ∧ (b = false → pts' = pts ++ food ∧ pts'.length < s.numEqn) := by
  intro food
  induction food with
  | nil =>
    intro pts s h1 h2 h3 _ _
    exact ⟨s.rows, s.subNum, s.subDen, false, pts, rfl, h1, h2, by simp, fun _ => ⟨by simp, h3⟩⟩
  | cons q food ih =>
    intro pts s h1 h2 h3 h4 h5
    have hnew : q.1 ∉ pts.map Prod.fst := by
      intro hm
      rw [List.map_append, List.nodup_append] at h5
      exact h5.2.2 _ hm _ (by simp) rfl
    obtain ⟨rw1, sn, sd, e1, e2, e3⟩ := addRow_spec hp h1 h2 (h4 q (by simp)) hnew
    have hrl : rw1.length = (pts ++ [q]).length := by
      have := e2.rows
      simp only at this
      rw [this, List.length_map]
    rw [Cfg.addRows, e1]
    simp only [Option.bind_eq_bind, Option.bind_some]
    by_cases hc : s.numEqn = rw1.length
    · rw [if_pos hc]
      refine ⟨rw1, sn, sd, true, pts ++ [q], rfl, e3, e2, fun _ => by rw [hc, hrl], by simp⟩
    · rw [if_neg hc]
      obtain ⟨rw2, sn2, sd2, b, pts', f1, f2, f3, f4, f5⟩ := ih (pts ++ [q]) _ e3 e2 (by
        show (pts ++ [q]).length < s.numEqn
        rw [hrl] at hc
        simp at hc ⊢
        omega)
        (fun x hx => h4 x (by simp [hx])) (by simpa using h5)
      exact ⟨rw2, sn2, sd2, b, pts', f1, f2, f3, f4, fun hb => by simpa using f5 hb⟩

/-- the solution of the system, part by part -/
lemma read_spec (s : Side F) (Q : MvPolynomial ℕ F) (o : ℕ) (x : ℕ → F) (hx : ∀ i < s.open.length, x i = val c Q o (s.open.getD i 0)) :
    s.unsolved.mapIdx (fun i el => (el.1, x i)) = s.unsolved.map (fun u => (u.1, val c Q o (dg u))) := by
  apply List.ext_getElem (by simp)
  intro i h1 h2
  rw [List.getElem_mapIdx, List.getElem_map]
  have hi : i < s.unsolved.length := by simpa using h1
  have hio : i < s.open.length := by unfold Side.open; simpa using hi
  have : s.open.getD i 0 = dg s.unsolved[i] := by
    unfold Side.open
    rw [List.getD_eq_getElem _ _ (by simpa using hi), List.getElem_map]
  rw [hx i hio, this]

/-- the system is complete -/
lemma solve_spec (gtp : PivotOrder c.gt) (hp : Prob c N D) (hG : GoodPts c N D G) {o : ℕ} {s : St F} {pts : List (F × F)}
    (h : Both c N D o s) (hr : RowsOK c N D G o s pts) (hlen : pts.length = s.numEqn) (hpos : 1 ≤ s.numEqn) :
    c.solve s = some (s.num.unsolved.map (fun u => (u.1, val c N o (dg u))), s.den.unsolved.map (fun u => (u.1, val c D o (dg u)))) := by
  have hA := open_nodup hp.ctxN h.num
  have hB := open_nodup hp.ctxD h.den
  have lA : s.num.open.length = s.num.unsolved.length := by unfold Side.open; simp
  have lB : s.den.open.length = s.den.unsolved.length := by unfold Side.open; simp
  have hl : pts.length = s.num.open.length + s.den.open.length := by rw [lA, lB, hlen, h.eqn]
  obtain ⟨x, e1, e2, e3⟩ := RLater.sys_spec gtp hA hB (cst (!c.normDen) ++ subOf c N s.num o) (cst c.normDen ++ subOf c D s.den o) pts hl (by omega)
    (by
      intro x y hxy
      apply hG.det (uni c o) s.num.open.toFinset s.den.open.toFinset (pts.map Prod.fst) (by
        intro k hk; exact open_asked hp.ctxN h.num (List.mem_toFinset.mp hk)) (by
        intro k hk; exact open_asked hp.ctxD h.den (List.mem_toFinset.mp hk)) hr.nodup (by
        intro t ht
        obtain ⟨q, hq, rfl⟩ := List.mem_map.mp ht
        exact (hr.right q hq).1) (by
        rw [List.length_map, hl, List.toFinset_card_of_nodup hA, List.toFinset_card_of_nodup hB]) x y
      intro t ht
      obtain ⟨q, hq, rfl⟩ := List.mem_map.mp ht
      rw [← (hr.right q hq).2]
      exact hxy q hq)
    (fun k => val c N o k) (fun k => val c D o k)
    (by
      intro q hq
      obtain ⟨g1, g2⟩ := hr.right q hq
      have hd := hG.den _ _ g1
      have l1 := h.num.line hp.ctxN hp.normN q.1
      have l2 := h.den.line hp.ctxD hp.normD q.1
      have : q.2 * eval (RMulti.pt c.shift c.anchor q.1 (uni c o)) D = eval (RMulti.pt c.shift c.anchor q.1 (uni c o)) N := by
        rw [g2]; unfold RMulti.valueOf; exact div_mul_cancel₀ _ hd
      rw [l1, l2] at this
      exact this.symm)
  unfold Cfg.solve
  rw [← hlen, hr.rows]
  unfold rowFor
  rw [e1, Option.map_some]
  congr 1
  rw [read_spec (c := c) s.num N o x e2, read_spec (c := c) s.den D o (fun i => x (s.num.unsolved.length + i)) (by rw [← lA]; exact e3)]

end FireFly.RShift
