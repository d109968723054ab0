import Verif.Lemmas.RatShiftEnd
import Verif.Lemmas.RatLaterMain
/-! # A further prime field with a shift: any sequence of probes -/
set_option linter.all false
namespace FireFly.RShift
open MvPolynomial FFMap
open FireFly.RMulti (polyAt mem_set_cases set_erase valueOf Pool)
open FireFly.RLater (Kept)
variable {F : Type} [Field F] [DecidableEq F] {c : Cfg F} {N D : MvPolynomial ℕ F} {G : F → List ℕ → Prop}

/-- the values that are asked for the order vectors from `o` on -/
def rem (S : Side F) (o : ℕ) : ℕ := (S.unsolved.map (fun u => eff S (dg u) + 1 - o)).sum

lemma rem_next (S : Side F) (o : ℕ) : rem S (o + 1) + (S.unsolved.filter (fun u => !decide (eff S (dg u) < o))).length = rem S o := by
  unfold rem
  induction S.unsolved with
  | nil => rfl
  | cons u U ih =>
    rw [List.map_cons, List.sum_cons, List.map_cons, List.sum_cons, List.filter_cons]
    split
    · rename_i h
      have h : o ≤ eff S (dg u) := by simpa using h
      rw [List.length_cons]
      omega
    · rename_i h
      have h : ¬ o ≤ eff S (dg u) := by simpa using h
      omega

/-- the end -/
def Done (c : Cfg F) (N D : MvPolynomial ℕ F) (past : List (F × List ℕ)) (s : St F) : Prop :=
  ∃ q, firstProbe c past = some q ∧
  ((s.out = some .accepted ∧ s.savedTi.find? s.ord = none ∧ Passes c N D q.1 q.2) ∨
   (∃ num den, s.out = some (.solved num den) ∧ s.savedTi.find? s.ord = none ∧ ¬ Passes c N D q.1 q.2 ∧ Fin c N D s num den))

lemma testGuess_two (c : Cfg F) (hp : 2 ≤ c.n) {g : FFMap F × FFMap F} (h1 : WFMap c.n g.1) (h2 : WFMap c.n g.2) (ord : List ℕ) (t v : F) :
    c.testGuess g ord t v = some (decide (valueOf c.shift c.anchor (denote g.1) (denote g.2) t ord = v)) := by
  obtain ⟨ys, hys⟩ : ∃ ys, ys = (t + c.shift.getD 0 0) :: (c.point ord).mapIdx (fun i y => t * y + c.shift.getD (i + 1) 0) := ⟨_, rfl⟩
  have hpl : (c.point ord).length = c.n - 1 := by simp [Cfg.point, RMulti.Cfg.point, Cfg.multi]
  have hl : ys.length = c.n := by
    rw [hys, List.length_cons, List.length_mapIdx, hpl]
    omega
  have key : ∀ {m : FFMap F}, WFMap c.n m → PolyFF.calc c.n m ys = some (eval (RMulti.pt c.shift c.anchor t ord) (denote m)) := by
    intro m hm
    rw [C15_calc hm _ hl.ge]
    congr 1
    apply RMulti.eval_denote_congr hm
    intro i hi
    unfold RMulti.pt
    rw [hys]
    rcases i with _ | i
    · simp [RMulti.dir]
    · rw [List.getD_cons_succ, RMulti.dir]
      have hi' : i < c.n - 1 := by omega
      rw [List.getD_eq_getElem _ _ (by rw [List.length_mapIdx, hpl]; exact hi'), List.getElem_mapIdx]
      congr 2
      simp [Cfg.point, RMulti.Cfg.point, Cfg.multi]
  unfold Cfg.testGuess
  simp only [← hys]
  simp only [key h1, key h2]; rfl

lemma testGuess_spec (hp : Prob c N D) {g : FFMap F × FFMap F} (h1 : WFMap c.n g.1) (h2 : WFMap c.n g.2) (ord : List ℕ) (t v : F) :
    c.testGuess g ord t v = some (decide (valueOf c.shift c.anchor (denote g.1) (denote g.2) t ord = v)) := testGuess_two c hp.two h1 h2 ord t v

/-- the state after the check -/
def Cfg.checked (c : Cfg F) (s : St F) : St F :=
  { s with newPrime := false, num := { s.num with solved := [], sub := zeroSub c.n c.num.maxDeg }, den := { s.den with solved := [], sub := zeroSub c.n c.den.maxDeg } }

/-- the check with the first probe -/
lemma check_spec (hp : Prob c N D) (hg : GuessOK c) {s : St F} (ho : s.out = none) (t : F) :
    c.checkIfDone s t (valueOf c.shift c.anchor N D t s.ord) =
      some (open Classical in if Passes c N D t s.ord then { s with newPrime := false, ord := [], out := some .accepted } else c.checked s) := by
  unfold Cfg.checkIfDone Cfg.checked
  cases hgu : c.guess with
  | none =>
    have : ¬ Passes c N D t s.ord := by rintro ⟨g, h, -⟩; rw [hgu] at h; simp at h
    simp [this]
  | some g =>
    obtain ⟨h1, h2⟩ := hg g hgu
    simp only [testGuess_spec hp h1 h2, Option.bind_eq_bind, Option.bind_some]
    by_cases hp : Passes c N D t s.ord
    · obtain ⟨g', e, hv⟩ := id hp
      rw [hgu] at e
      obtain rfl : g = g' := by simpa using e
      rw [if_pos hp]
      simp [hv]
    · have : ¬ valueOf c.shift c.anchor (denote g.1) (denote g.2) t s.ord = valueOf c.shift c.anchor N D t s.ord := fun h => hp ⟨g, hgu, h⟩
      rw [if_neg hp]
      simp [this]

/-- one loop over the probes -/
def Cfg.use (c : Cfg F) (s : St F) (food : List (F × F)) : Option (St F) := do
  let r ← c.addRows s food
  if r.2 then
    let x ← c.solve r.1
    c.handle { r.1 with rows := [], subNum := [], subDen := [] } x
  else some r.1

lemma Run.saved {o : ℕ} {s : St F} {pts : List (F × F)} (h : Run c N D G o s pts) (sv : FFMap (List (F × F))) : Run c N D G o { s with savedTi := sv } pts :=
  ⟨⟨h.both.num, h.both.den, h.both.ord, h.both.pos, h.both.eqn, h.both.np, h.both.out⟩, ⟨h.rows.rows, h.rows.sub, h.rows.right, h.rows.nodup⟩, h.lt⟩

lemma use_spec (gtp : PivotOrder c.gt) (hp : Prob c N D) (hG : GoodPts c N D G) {o : ℕ} {s : St F} {pts food : List (F × F)} (h : Run c N D G o s pts)
    (hf : ∀ q ∈ food, RightP c N D G (uni c o) q) (hnd : ((pts ++ food).map Prod.fst).Nodup) :
    ∃ s', c.use s food = some s' ∧
      ((∃ num den, s'.out = some (.solved num den) ∧ s'.savedTi = [] ∧ Fin c N D s' num den) ∨
       (s'.savedTi = s.savedTi ∧ Run c N D G o s' (pts ++ food)) ∨ (s'.savedTi = s.savedTi.erase s.ord ∧ Run c N D G (o + 1) s' [])) := by
  obtain ⟨rw', sn, sd, b, pts', e1, e2, e3, e4, e5⟩ := addRows_spec hp food pts s h.both h.rows h.lt hf hnd
  unfold Cfg.use
  rw [e1]
  simp only [Option.bind_eq_bind, Option.bind_some]
  cases b with
  | false =>
    obtain ⟨f1, f2⟩ := e5 rfl
    subst f1
    exact ⟨{ s with rows := rw', subNum := sn, subDen := sd }, by rw [if_neg (by simp)], Or.inr (Or.inl ⟨rfl, e2, e3, f2⟩)⟩
  | true =>
    have hlen := e4 rfl
    rw [if_pos rfl]
    have g1 := solve_spec gtp hp hG e2 e3 hlen (by show 1 ≤ s.numEqn; have := h.lt; omega)
    rw [g1]
    simp only [Option.bind_some]
    obtain ⟨s', k1, k2⟩ := handle_spec (G := G) hp (o := o) (s := { s with rows := [], subNum := [], subDen := [] }) ⟨e2.num, e2.den, e2.ord, e2.pos, e2.eqn, e2.np, e2.out⟩ rfl
    refine ⟨s', k1, ?_⟩
    rcases k2 with k2 | k2
    · exact Or.inl k2
    · exact Or.inr (Or.inr k2)

/-- the probe belongs to an order vector that is finished, or it is used -/
def Used (c : Cfg F) (o : ℕ) (pts : List (F × F)) (q : F × List ℕ) : Prop := (∃ o' < o, q.2 = uni c o') ∨ (q.2 = uni c o ∧ q.1 ∈ pts.map Prod.fst)

/-! ### the phases -/

/-- before the check -/
structure Fresh (c : Cfg F) (N D : MvPolynomial ℕ F) (past : List (F × List ℕ)) (s : St F) : Prop where
  np : s.newPrime = true
  out : s.out = none
  ord : s.ord = uni c 1
  rows : s.rows = []
  num : s.num = startN c
  den : s.den = startD c
  eqn : s.numEqn = c.maxEqn
  pool : Pool c.multi N D past s.savedTi
  nosv : s.savedTi.find? (uni c 1) = none
  first : firstProbe c past = none
  kept : Kept past s.savedTi (fun _ => False)

/-- after the check -/
structure Late (c : Cfg F) (N D : MvPolynomial ℕ F) (G : F → List ℕ → Prop) (past : List (F × List ℕ)) (o : ℕ) (s : St F)
    (pts : List (F × F)) : Prop where
  run : Run c N D G o s pts
  pool : Pool c.multi N D past s.savedTi
  inPast : ∀ q ∈ pts, (q.1, uni c o) ∈ past
  fresh : s.savedTi.find? s.ord ≠ none → pts = []
  first : ∃ q, firstProbe c past = some q ∧ ¬ Passes c N D q.1 q.2
  kept : Kept past s.savedTi (Used c o pts)

/-- the number of requested probes that are still missing -/
def missing (c : Cfg F) (o k : ℕ) : ℕ := rem (startN c) o + rem (startD c) o - k

lemma Run.small {o : ℕ} {s : St F} {pts : List (F × F)} (h : Run c N D G o s pts) : rem (startN c) (o + 1) + rem (startD c) (o + 1) + pts.length < rem (startN c) o + rem (startD c) o := by
  have h1 := h.lt
  rw [h.both.eqn, h.both.num.unsolved, h.both.den.unsolved] at h1
  have := rem_next (startN c) o
  have := rem_next (startD c) o
  omega

lemma late_use (gtp : PivotOrder c.gt) (hp : Prob c N D) (hG : GoodPts c N D G) {past : List (F × List ℕ)} (hpast : ∀ q ∈ past, G q.1 q.2)
    {o : ℕ} {s : St F} {pts food : List (F × F)} (h : Run c N D G o s pts) {sv : FFMap (List (F × F))} (hpool : Pool c.multi N D past sv) (hnone : sv.find? s.ord = none)
    (hne : food ≠ []) (hpts : ∀ q ∈ pts, (q.1, uni c o) ∈ past) (hfirst : ∃ q, firstProbe c past = some q ∧ ¬ Passes c N D q.1 q.2)
    (hfood : ∀ q ∈ food, (q.1, uni c o) ∈ past ∧ q.2 = valueOf c.shift c.anchor N D q.1 (uni c o)) (hnd : ((pts ++ food).map Prod.fst).Nodup)
    (hkept : Kept past sv (Used c o (pts ++ food))) :
    ∃ s', c.use { s with savedTi := sv } food = some s' ∧ (Done c N D past s' ∨
      ∃ o' pts', Late c N D G past o' s' pts' ∧ (s'.savedTi.length ≤ sv.length) ∧ missing c o' pts'.length + 1 ≤ missing c o pts.length) := by
  obtain ⟨s', e1, e2⟩ := use_spec gtp hp hG (h.saved sv) (food := food) (fun q hq => ⟨hpast _ (hfood q hq).1, (hfood q hq).2⟩) hnd
  refine ⟨s', e1, ?_⟩
  have hsm := h.small
  rcases e2 with ⟨num, den, f1, f2, f3⟩ | ⟨f1, f2⟩ | ⟨f1, f2⟩
  · left
    obtain ⟨q, hq, hq2⟩ := hfirst
    exact ⟨q, hq, Or.inr ⟨num, den, f1, by rw [f2]; rfl, hq2, f3⟩⟩
  · right
    have f1 : s'.savedTi = sv := f1
    refine ⟨o, pts ++ food, ⟨f2, f1 ▸ hpool, ?_, ?_, hfirst, f1 ▸ hkept⟩, by rw [f1], ?_⟩
    · intro q hq
      rcases List.mem_append.mp hq with hq | hq
      · exact hpts q hq
      · exact (hfood q hq).1
    · intro h0
      rw [f1, f2.both.ord, ← h.both.ord] at h0
      exact absurd hnone h0
    · have h1 : 1 ≤ food.length := List.length_pos_iff.mpr hne
      have := f2.small
      unfold missing
      rw [List.length_append] at this ⊢
      omega
  · right
    have f1 : s'.savedTi = sv.erase s.ord := f1
    refine ⟨o + 1, [], ⟨f2, f1 ▸ hpool.erase _, by simp, fun _ => rfl, hfirst, ?_⟩, ?_, ?_⟩
    · rw [f1]
      refine hkept.erase _ ?_ ?_
      · rintro q - (⟨o', h1, h2⟩ | ⟨h1, -⟩)
        · exact Or.inl ⟨o', by omega, h2⟩
        · exact Or.inl ⟨o, by omega, h1⟩
      · intro q _ h1 _ _ _
        exact Or.inl ⟨o, by omega, by rw [h1]; exact h.both.ord⟩
    · rw [f1]; unfold FFMap.erase; exact List.length_filter_le _ _
    · have := f2.small
      unfold missing
      simp only [List.length_nil]
      omega

lemma probe_late {s : St F} (h1 : s.out = none) (h2 : s.newPrime = false) (t v : F) :
    c.probe s t v s.ord = c.use { s with savedTi := s.savedTi.erase s.ord } ((s.savedTi.find? s.ord).getD [] ++ [(t, v)]) := by
  unfold Cfg.probe Cfg.use Cfg.work
  rw [h1]
  simp [h2, h1]

lemma drain_done {past : List (F × List ℕ)} {s : St F} (h : Done c N D past s) (k : ℕ) : c.drain k s = some s := by
  have hn : s.savedTi.find? s.ord = none := by
    obtain ⟨q, -, ⟨-, h, -⟩ | ⟨_, _, -, h, -⟩⟩ := h <;> exact h
  cases k <;> rw [Cfg.drain, hn]

lemma Done.mono {past : List (F × List ℕ)} {s : St F} (h : Done c N D past s) (q : F × List ℕ) : Done c N D (past ++ [q]) s := by
  obtain ⟨x, hx, h⟩ := h
  exact ⟨x, by unfold firstProbe at hx ⊢; rw [List.find?_append, hx]; rfl, h⟩

lemma Done.some {past : List (F × List ℕ)} {s : St F} (h : Done c N D past s) : s.out.isSome = true := by
  obtain ⟨q, -, ⟨h, -⟩ | ⟨_, _, h, -⟩⟩ := h <;> rw [h] <;> rfl

lemma drain_spec (gtp : PivotOrder c.gt) (hp : Prob c N D) (hG : GoodPts c N D G) {past : List (F × List ℕ)} (hpast : ∀ q ∈ past, G q.1 q.2) :
    ∀ (k : ℕ) (o : ℕ) (s : St F) (pts : List (F × F)), s.savedTi.length ≤ k → Late c N D G past o s pts →
    ∃ s', c.drain k s = some s' ∧ (Done c N D past s' ∨ ∃ o' pts', Late c N D G past o' s' pts' ∧ s'.savedTi.find? s'.ord = none ∧
      missing c o' pts'.length ≤ missing c o pts.length) := by
  intro k
  induction k with
  | zero =>
    intro o s pts hk h
    have h0 : s.savedTi = [] := List.length_eq_zero_iff.mp (by omega)
    rw [Cfg.drain, h0]
    exact ⟨s, rfl, Or.inr ⟨o, pts, h, by rw [h0]; rfl, le_rfl⟩⟩
  | succ k ih =>
    intro o s pts hk h
    rw [Cfg.drain]
    cases hf : s.savedTi.find? s.ord with
    | none => exact ⟨s, rfl, Or.inr ⟨o, pts, h, hf, le_rfl⟩⟩
    | some l =>
      have hmem := FFMap.find?_mem hf
      cases l with
      | nil => exact absurd rfl (h.pool.ne _ hmem)
      | cons q rest =>
        simp only
        have hpts : pts = [] := h.fresh (by rw [hf]; simp)
        subst hpts
        have hp' := probe_late (c := c) (s := { s with savedTi := s.savedTi.set s.ord rest }) h.run.both.out h.run.both.np q.1 q.2
        simp only [set_erase, FFMap.find?_set, if_true, Option.getD_some] at hp'
        have hr := h.pool.right _ hmem
        have hnd := h.pool.nodup _ hmem
        simp only [h.run.both.ord] at hr
        obtain ⟨s', e1, e2⟩ := late_use gtp hp hG hpast (s := { s with savedTi := s.savedTi.set s.ord rest }) (pts := []) (food := rest ++ [q]) (h.run.saved _) (h.pool.erase s.ord)
          (by show (s.savedTi.erase s.ord).find? s.ord = none; rw [FFMap.find?_erase, if_pos rfl]) (by simp) (by simp) h.first
          (by
            intro x hx
            refine hr x ?_
            rcases List.mem_append.mp hx with hx | hx
            · simp [hx]
            · rw [List.mem_singleton.mp hx]; simp)
          (by
            rw [List.nil_append]
            refine List.Perm.nodup ?_ hnd
            exact List.Perm.map _ (List.perm_append_singleton q rest).symm)
          (by
            refine h.kept.erase s.ord ?_ ?_
            · rintro x - (⟨o', h1, h2⟩ | ⟨-, h2⟩)
              · exact Or.inl ⟨o', h1, h2⟩
              · simp at h2
            · intro x _ h1 l h2 h3
              rw [hf] at h2
              rw [← Option.some.inj h2] at h3
              refine Or.inr ⟨by rw [h1]; exact h.run.both.ord, ?_⟩
              simp only [List.map_cons, List.mem_cons, List.nil_append, List.map_append, List.mem_append, List.map_nil, List.mem_singleton] at h3 ⊢
              tauto)
        rw [hp', e1]
        simp only [Option.bind_eq_bind, Option.bind_some]
        rcases e2 with e2 | ⟨o', pts', f1, f2, f3⟩
        · exact ⟨s', drain_done e2 k, Or.inl e2⟩
        · have hlen : s'.savedTi.length ≤ k := by
            have : (s.savedTi.erase s.ord).length < s.savedTi.length := by
              unfold FFMap.erase
              apply List.length_filter_lt_length_iff_exists.mpr
              exact ⟨_, hmem, by simp⟩
            omega
          obtain ⟨s2, g1, g2⟩ := ih o' s' pts' hlen f1
          refine ⟨s2, g1, ?_⟩
          rcases g2 with g2 | ⟨o2, pts2, g3, g4, g5⟩
          · exact Or.inl g2
          · exact Or.inr ⟨o2, pts2, g3, g4, by omega⟩

/-- what holds between two probes; `φ` bounds the number of requested probes that are still missing -/
def Inv (c : Cfg F) (N D : MvPolynomial ℕ F) (G : F → List ℕ → Prop) (past : List (F × List ℕ)) (s : St F) (φ : ℕ) : Prop :=
  Done c N D past s ∨ (Fresh c N D past s ∧ missing c 1 0 ≤ φ) ∨
  ∃ o pts, Late c N D G past o s pts ∧ s.savedTi.find? s.ord = none ∧ missing c o pts.length ≤ φ

lemma polyAt_zeroSub (n m : ℕ) {j : ℕ} (hj : j ≤ m) : polyAt (zeroSub (F := F) n m) j = [(List.replicate n 0, 0)] := by
  unfold polyAt
  rw [FFMap.find?_of_mem (v := [(List.replicate n 0, 0)])]
  · rfl
  · unfold zeroSub
    rw [List.map_map]
    exact List.nodup_range.map (fun a b h => by simpa using h)
  · unfold zeroSub
    exact List.mem_map.mpr ⟨j, List.mem_range.mpr (by omega), rfl⟩

lemma SInv.start {const : Bool} {p : Prior} {Q : MvPolynomial ℕ F} {S : Side F} (hc : Ctx c Q const p S) : SInv c Q p S 1 { S with solved := [], sub := zeroSub c.n p.maxDeg } := by
  have hpos : ∀ u ∈ S.unsolved, ¬ eff S (dg u) < 1 := by
    intro u hu
    have h1 := (hc.mostMem (List.ne_nil_of_mem hu)).1
    have h2 := List.length_pos_iff.mpr (hc.key hu).2.2.2.1
    unfold eff
    split
    · rw [hc.len hu]; omega
    · omega
  have hT : (if 1 ≤ S.most.2 then p.maxDeg + 1 else 1) = p.maxDeg + 1 := by
    by_cases hS : S.unsolved = []
    · rw [(hc.nil hS).1]; simp
    · rw [if_pos (hc.mostMem hS).1]
  unfold SInv
  rw [hT]
  refine ⟨rfl, rfl, ?_, ?_, ?_, by simp, by simp, ?_, ?_, ?_⟩
  · symm
    apply List.filter_eq_self.mpr
    intro u hu
    simpa using hpos u hu
  · intro x hx
    obtain ⟨y, hy, rfl⟩ := List.mem_map.mp hx
    exact (hc.set.mat y hy).1
  · intro u hu
    refine ⟨?_, fun h => by omega⟩
    show (S.mat.find? u.1).getD [] = _
    cases hf : S.mat.find? u.1 with
    | none => simp [valsTo]
    | some v =>
      have := (hc.set.mat _ (FFMap.find?_mem hf)).2
      simp only at this
      rw [this]; simp [valsTo]
  · intro u hu h
    exact absurd (by simpa using h) (hpos u hu)
  · intro j hj
    show WFMap c.n (polyAt (zeroSub c.n p.maxDeg) j) ∧ Zc c.n (polyAt (zeroSub c.n p.maxDeg) j) ∧ denote (polyAt (zeroSub c.n p.maxDeg) j) = _
    rw [polyAt_zeroSub _ _ hj, RMulti.subSum_top, RMulti.denote_single, monomial_zero]
    exact ⟨⟨by simp, by simp⟩, by intro t ht _; rw [List.mem_singleton.mp ht], rfl⟩
  · show S.count + S.unsolved.length = _
    rw [hc.set.count, zero_add]

lemma start_run (hp : Prob c N D) {past : List (F × List ℕ)} {s : St F} (h : Fresh c N D past s) : Run c N D G 1 (c.checked s) [] := by
  refine ⟨⟨?_, ?_, h.ord, le_rfl, ?_, rfl, h.out⟩, ⟨by simpa [Cfg.checked] using h.rows, fun h0 => absurd h.rows h0, by simp, by simp⟩, ?_⟩
  · show SInv c N c.num (startN c) 1 { s.num with solved := [], sub := zeroSub c.n c.num.maxDeg }
    rw [h.num]; exact SInv.start hp.ctxN
  · show SInv c D c.den (startD c) 1 { s.den with solved := [], sub := zeroSub c.n c.den.maxDeg }
    rw [h.den]; exact SInv.start hp.ctxD
  · show s.numEqn = s.num.unsolved.length + s.den.unsolved.length
    rw [h.num, h.den, hp.ctxN.card, hp.ctxD.card, h.eqn, hp.eqn]
  · show 0 < s.numEqn
    rw [h.eqn]; exact hp.pos

lemma feed_spec (gtp : PivotOrder c.gt) (hp : Prob c N D) (hg : GuessOK c) (hG : GoodPts c N D G)
    {past : List (F × List ℕ)} {q : F × List ℕ} (hpast : ∀ x ∈ past ++ [q], G x.1 x.2) (hnd : (past ++ [q]).Nodup)
    {s : St F} {φ : ℕ} (h : Inv c N D G past s φ) :
    ∃ s' φ', c.feed s (q.1, valueOf c.shift c.anchor N D q.1 q.2, q.2) = some s' ∧ Inv c N D G (past ++ [q]) s' φ' ∧
      φ' + (if q.2 = s.ord ∧ s.out.isSome = false then 1 else 0) ≤ φ := by
  obtain ⟨t, ord⟩ := q
  have hnew : (t, ord) ∉ past := by
    rw [List.nodup_append] at hnd
    intro hmem
    exact hnd.2.2 _ hmem _ (by simp) rfl
  unfold Cfg.feed
  rcases h with h | ⟨h, hφ⟩ | ⟨o, pts, h, hn, hφ⟩
  · refine ⟨s, φ, ?_, Or.inl (h.mono _), ?_⟩
    · have : c.probe s t (valueOf c.shift c.anchor N D t ord) ord = some s := by unfold Cfg.probe; rw [if_pos h.some]
      simp only [this, Option.bind_eq_bind, Option.bind_some]
      exact drain_done h _
    · rw [h.some]; simp
  · by_cases hord : ord = uni c 1
    · subst hord
      have hfp : firstProbe c (past ++ [(t, uni c 1)]) = some (t, uni c 1) := by
        have := h.first
        unfold firstProbe at this ⊢
        rw [List.find?_append, this]; simp
      have hchk := check_spec hp hg h.out t
      rw [h.ord] at hchk
      by_cases hpass : Passes c N D t (uni c 1)
      · rw [if_pos hpass] at hchk
        have hprobe : c.probe s t (valueOf c.shift c.anchor N D t (uni c 1)) (uni c 1) = some { s with newPrime := false, ord := [], out := some .accepted } := by
          unfold Cfg.probe
          rw [h.out, h.ord, h.np, hchk]; simp
        have hk : s.savedTi.find? [] = none := by
          cases hf : s.savedTi.find? [] with
          | none => rfl
          | some l =>
            have hm := FFMap.find?_mem hf
            cases l with
            | nil => exact absurd rfl (h.pool.ne _ hm)
            | cons x l =>
              have := (h.pool.right _ hm x (by simp)).1
              exact absurd rfl (hG.ord _ _ (hpast _ (List.mem_append_left _ this)))
        have hD : Done c N D (past ++ [(t, uni c 1)]) { s with newPrime := false, ord := [], out := some .accepted } := ⟨_, hfp, Or.inl ⟨rfl, hk, hpass⟩⟩
        refine ⟨_, φ - 1, ?_, Or.inl hD, ?_⟩
        · simp only [hprobe, Option.bind_eq_bind, Option.bind_some]
          exact drain_done hD _
        · have : 1 ≤ φ := by
            refine le_trans ?_ hφ
            have hsm := (start_run hp (G := G) h).small
            unfold missing
            simp only [List.length_nil] at hsm
            omega
          split <;> omega
      · rw [if_neg hpass] at hchk
        obtain ⟨s1, hs1⟩ : ∃ s1 : St F, s1 = c.checked s := ⟨_, rfl⟩
        have hchk : c.checkIfDone s t (valueOf c.shift c.anchor N D t (uni c 1)) = some s1 := by
          rw [hchk, hs1]
        have ho1 : s1.ord = uni c 1 := by rw [hs1]; exact h.ord
        have hprobe : c.probe s t (valueOf c.shift c.anchor N D t (uni c 1)) (uni c 1) = c.use { s1 with savedTi := s1.savedTi.erase s1.ord } [(t, valueOf c.shift c.anchor N D t (uni c 1))] := by
          have hp1 := probe_late (c := c) (s := s1) (by rw [hs1]; exact h.out) (by rw [hs1]; rfl) t (valueOf c.shift c.anchor N D t (uni c 1))
          have hnone : s1.savedTi.find? s1.ord = none := by rw [ho1, hs1]; exact h.nosv
          rw [hnone, Option.getD_none, List.nil_append] at hp1
          rw [← hp1]
          have o1 : s1.out = none := by rw [hs1]; exact h.out
          have n1 : s1.newPrime = false := by rw [hs1]; rfl
          unfold Cfg.probe
          rw [h.out, h.ord, h.np, hchk, ho1, o1, n1]
          simp [o1]
        have hrun : Run c N D G 1 s1 [] := by rw [hs1]; exact start_run hp h
        have hpool1 : Pool c.multi N D past s1.savedTi := by rw [hs1]; exact h.pool
        obtain ⟨s2, e1, e2⟩ := late_use gtp hp hG hpast (food := [(t, valueOf c.shift c.anchor N D t (uni c 1))]) hrun ((hpool1.mono (t, uni c 1)).erase s1.ord)
          (by rw [FFMap.find?_erase, if_pos rfl]) (by simp) (by simp) ⟨_, hfp, hpass⟩ (by simp) (by simp)
          (by
            have hk1 : Kept past s1.savedTi (fun _ => False) := by rw [hs1]; exact h.kept
            refine Kept.push (P := Used c 1 _) (Kept.erase hk1 _ (fun _ _ h => h.elim) ?_) (Or.inr ⟨rfl, by simp⟩)
            intro x _ _ l hl _
            rw [ho1, hs1] at hl
            have := h.nosv
            have hl : s.savedTi.find? (uni c 1) = some l := hl
            rw [this] at hl; cases hl)
        rw [← hprobe] at e1
        simp only [e1, Option.bind_eq_bind, Option.bind_some]
        have hsm := hrun.small
        have hm1 : 1 ≤ missing c 1 0 := by unfold missing; simp only [List.length_nil] at hsm; omega
        rcases e2 with e2 | ⟨o', pts', f1, f2, f3⟩
        · refine ⟨s2, φ - 1, drain_done e2 _, Or.inl e2, ?_⟩
          split <;> omega
        · obtain ⟨s3, g1, g2⟩ := drain_spec gtp hp hG hpast _ o' s2 pts' le_rfl f1
          simp only [List.length_nil] at f3
          rcases g2 with g2 | ⟨o2, pts2, g3, g4, g5⟩
          · exact ⟨s3, φ - 1, g1, Or.inl g2, by split <;> omega⟩
          · exact ⟨s3, φ - 1, g1, Or.inr (Or.inr ⟨o2, pts2, g3, g4, by omega⟩), by split <;> omega⟩
    · have hprobe : c.probe s t (valueOf c.shift c.anchor N D t ord) ord =
          some { s with savedTi := s.savedTi.set ord ((s.savedTi.find? ord).getD [] ++ [(t, valueOf c.shift c.anchor N D t ord)]) } := by
        unfold Cfg.probe
        rw [h.out, h.ord]
        simp [hord]
      have hnone : (s.savedTi.set ord ((s.savedTi.find? ord).getD [] ++ [(t, valueOf c.shift c.anchor N D t ord)])).find? (uni c 1) = none := by
        rw [FFMap.find?_set, if_neg (fun e => hord e.symm)]; exact h.nosv
      have hF : Fresh c N D (past ++ [(t, ord)]) { s with savedTi := s.savedTi.set ord ((s.savedTi.find? ord).getD [] ++ [(t, valueOf c.shift c.anchor N D t ord)]) } :=
        ⟨h.np, h.out, h.ord, h.rows, h.num, h.den, h.eqn, h.pool.set hnew, hnone, by
          have := h.first
          unfold firstProbe at this ⊢
          rw [List.find?_append, this]; simp [hord], h.kept.set _ _ _⟩
      refine ⟨_, φ, ?_, Or.inr (Or.inl ⟨hF, hφ⟩), ?_⟩
      · simp only [hprobe, Option.bind_eq_bind, Option.bind_some]
        have : ∀ k, c.drain k { s with savedTi := s.savedTi.set ord ((s.savedTi.find? ord).getD [] ++ [(t, valueOf c.shift c.anchor N D t ord)]) } =
            some { s with savedTi := s.savedTi.set ord ((s.savedTi.find? ord).getD [] ++ [(t, valueOf c.shift c.anchor N D t ord)]) } := by
          intro k
          cases k <;> rw [Cfg.drain] <;> simp only [h.ord, hnone]
        exact this _
      · rw [h.ord]; simp [hord]
  · have hso := h.run.both.ord
    by_cases hord : ord = s.ord
    · subst hord
      have hprobe := probe_late (c := c) h.run.both.out h.run.both.np t (valueOf c.shift c.anchor N D t s.ord)
      rw [hn, Option.getD_none, List.nil_append] at hprobe
      have hfp : ∃ q, firstProbe c (past ++ [(t, s.ord)]) = some q ∧ ¬ Passes c N D q.1 q.2 := by
        obtain ⟨x, hx, hx2⟩ := h.first
        exact ⟨x, by unfold firstProbe at hx ⊢; rw [List.find?_append, hx]; rfl, hx2⟩
      obtain ⟨s1, e1, e2⟩ := late_use gtp hp hG hpast (food := [(t, valueOf c.shift c.anchor N D t s.ord)]) h.run ((h.pool.mono (t, s.ord)).erase s.ord)
        (by rw [FFMap.find?_erase, if_pos rfl]) (by simp) (fun x hx => List.mem_append_left _ (h.inPast x hx)) hfp (by simp [hso])
        (by
          rw [List.map_append, List.nodup_append]
          refine ⟨h.run.rows.nodup, by simp, ?_⟩
          intro x hx y hy hxy
          obtain ⟨z, hz, rfl⟩ := List.mem_map.mp hx
          simp at hy
          subst hy
          have := h.inPast z hz
          rw [hxy, ← hso] at this
          exact hnew this)
        (by
          refine Kept.push (P := Used c o _) (Kept.erase h.kept _ ?_ ?_) (Or.inr ⟨hso, by simp⟩)
          · rintro x - (⟨o', h1, h2⟩ | ⟨h1, h2⟩)
            · exact Or.inl ⟨o', h1, h2⟩
            · exact Or.inr ⟨h1, by rw [List.map_append]; exact List.mem_append_left _ h2⟩
          · intro x _ _ l hl _
            rw [hn] at hl; cases hl)
      rw [← hprobe] at e1
      simp only [e1, Option.bind_eq_bind, Option.bind_some]
      have hsm := h.run.small
      have hm1 : 1 ≤ missing c o pts.length := by unfold missing; omega
      rcases e2 with e2 | ⟨o', pts', f1, f2, f3⟩
      · refine ⟨s1, φ - 1, drain_done e2 _, Or.inl e2, ?_⟩
        split <;> omega
      · obtain ⟨s2, g1, g2⟩ := drain_spec gtp hp hG hpast _ o' s1 pts' le_rfl f1
        rcases g2 with g2 | ⟨o2, pts2, g3, g4, g5⟩
        · exact ⟨s2, φ - 1, g1, Or.inl g2, by split <;> omega⟩
        · exact ⟨s2, φ - 1, g1, Or.inr (Or.inr ⟨o2, pts2, g3, g4, by omega⟩), by split <;> omega⟩
    · have hprobe : c.probe s t (valueOf c.shift c.anchor N D t ord) ord =
          some { s with savedTi := s.savedTi.set ord ((s.savedTi.find? ord).getD [] ++ [(t, valueOf c.shift c.anchor N D t ord)]) } := by
        unfold Cfg.probe
        rw [h.run.both.out]
        simp [hord]
      have hnone : (s.savedTi.set ord ((s.savedTi.find? ord).getD [] ++ [(t, valueOf c.shift c.anchor N D t ord)])).find? s.ord = none := by
        rw [FFMap.find?_set, if_neg (fun e => hord e.symm)]; exact hn
      have hL : Late c N D G (past ++ [(t, ord)]) o { s with savedTi := s.savedTi.set ord ((s.savedTi.find? ord).getD [] ++ [(t, valueOf c.shift c.anchor N D t ord)]) } pts :=
        ⟨h.run.saved _, h.pool.set hnew, fun x hx => List.mem_append_left _ (h.inPast x hx), fun h0 => absurd hnone h0, by
          obtain ⟨x, hx, hx2⟩ := h.first
          exact ⟨x, by unfold firstProbe at hx ⊢; rw [List.find?_append, hx]; rfl, hx2⟩, h.kept.set _ _ _⟩
      refine ⟨_, φ, ?_, Or.inr (Or.inr ⟨o, pts, hL, hnone, hφ⟩), ?_⟩
      · simp only [hprobe, Option.bind_eq_bind, Option.bind_some]
        have : ∀ k, c.drain k { s with savedTi := s.savedTi.set ord ((s.savedTi.find? ord).getD [] ++ [(t, valueOf c.shift c.anchor N D t ord)]) } =
            some { s with savedTi := s.savedTi.set ord ((s.savedTi.find? ord).getD [] ++ [(t, valueOf c.shift c.anchor N D t ord)]) } := by
          intro k
          cases k <;> rw [Cfg.drain] <;> simp only [hnone]
        exact this _
      · simp [hord]

lemma feedAll_spec (gtp : PivotOrder c.gt) (hp : Prob c N D) (hg : GuessOK c) (hG : GoodPts c N D G) :
    ∀ (probes past : List (F × List ℕ)) (s : St F) (φ : ℕ), (∀ x ∈ past ++ probes, G x.1 x.2) → (past ++ probes).Nodup → Inv c N D G past s φ →
    ∃ s' φ', c.feedAll s (withValues c N D probes) = some s' ∧ Inv c N D G (past ++ probes) s' φ' ∧ φ' + hits c s (withValues c N D probes) ≤ φ := by
  intro probes
  induction probes with
  | nil =>
    intro past s φ _ _ h
    exact ⟨s, φ, rfl, by simpa using h, by simp [withValues, hits]⟩
  | cons q probes ih =>
    intro past s φ h1 h2 h
    obtain ⟨s1, φ1, e1, e2, e3⟩ := feed_spec gtp hp hg hG (past := past) (q := q) (fun x hx => h1 x (by
      rcases List.mem_append.mp hx with hx | hx
      · simp [hx]
      · rw [List.mem_singleton.mp hx]; simp)) (by
      have : (past ++ q :: probes) = (past ++ [q]) ++ probes := by simp
      rw [this] at h2
      exact (List.nodup_append.mp h2).1) h
    obtain ⟨s2, φ2, f1, f2, f3⟩ := ih (past ++ [q]) s1 φ1 (by simpa using h1) (by simpa using h2) e2
    refine ⟨s2, φ2, ?_, by simpa using f2, ?_⟩
    · unfold Cfg.feedAll withValues at f1 ⊢
      rw [List.map_cons, List.foldlM_cons, e1]; exact f1
    · unfold withValues at f3 ⊢
      rw [List.map_cons, hits, e1]
      simp only
      omega

end FireFly.RShift
