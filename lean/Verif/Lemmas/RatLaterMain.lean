import Verif.Lemmas.RatLaterRun
/-! # The further prime fields: any sequence of probes -/
set_option linter.all false
namespace FireFly.RLater
open MvPolynomial FFMap
open FireFly.RMulti (mem_set_cases set_erase)
variable {F : Type} [Field F] [DecidableEq F] {c : Cfg F} {N D : MvPolynomial ℕ F} {kN kD : FFMap F} {UN UD : FFMap (List (List ℕ))} {G : F → List ℕ → Prop}

/-- the coefficients that are asked for the order vectors from `o` on -/
def rem (U : FFMap (List (List ℕ))) (o : ℕ) : ℕ := (U.map (fun u => u.2.length + 1 - o)).sum

lemma rem_one (U : FFMap (List (List ℕ))) : rem U 1 = unknowns U := by
  unfold rem unknowns; simp

lemma rem_next (U : FFMap (List (List ℕ))) (o : ℕ) : rem U (o + 1) + (U.filter (fun u => decide (o ≤ u.2.length))).length = rem U o := by
  unfold rem
  induction U with
  | nil => rfl
  | cons u U ih =>
    rw [List.map_cons, List.sum_cons, List.map_cons, List.sum_cons, List.filter_cons]
    split
    · rename_i h
      have h : o ≤ u.2.length := by simpa using h
      rw [List.length_cons]
      omega
    · rename_i h
      have h : ¬ o ≤ u.2.length := by simpa using h
      omega

/-- the end -/
def Done (c : Cfg F) (N D : MvPolynomial ℕ F) (past : List (F × List ℕ)) (s : St F) : Prop :=
  ∃ q, firstProbe c past = some q ∧
  ((s.out = some .accepted ∧ s.savedTi.find? s.ord = none ∧ Passes c N D q.1 q.2) ∨
   (∃ num den, s.out = some (.solved num den) ∧ s.savedTi.find? s.ord = none ∧ ¬ Passes c N D q.1 q.2 ∧ WFMap c.n num ∧ WFMap c.n den ∧ denote num = N ∧ denote den = D))

lemma testGuess_spec (hlen : c.anchor.length + 1 = c.n) {g : FFMap F × FFMap F} (h1 : WFMap c.n g.1) (h2 : WFMap c.n g.2) (ord : List ℕ) (t v : F) :
    c.testGuess g ord t v = some (decide (value c.anchor (denote g.1) (denote g.2) t ord = v)) := by
  have hl : (t :: (c.point ord).map (fun y => t * y)).length = c.n := by
    simp [Cfg.point]; omega
  have key : ∀ {m : FFMap F}, WFMap c.n m → PolyFF.calc c.n m (t :: (c.point ord).map (fun y => t * y)) = some (eval (at_ c.anchor t ord) (denote m)) := by
    intro m hm
    rw [C15_calc hm _ hl.ge]
    congr 1
    apply RMulti.eval_denote_congr hm
    intro i hi
    unfold at_
    rcases i with _ | i
    · simp [RMulti.dir]
    · rw [List.getD_cons_succ, RMulti.dir]
      have hi' : i < c.n - 1 := by omega
      rw [List.getD_eq_getElem _ _ (by simpa [Cfg.point] using hi'), List.getElem_map]
      congr 1
      simp [Cfg.point]
  unfold Cfg.testGuess
  simp only [key h1, key h2]; rfl

/-- the check with the first probe -/
lemma check_spec (hlen : c.anchor.length + 1 = c.n) (hg : GuessOK c) {s : St F} (ho : s.out = none) (t : F) :
    c.checkIfDone s t (value c.anchor N D t s.ord) =
      some (open Classical in if Passes c N D t s.ord then { s with newPrime := false, ord := [], out := some .accepted }
        else { s with newPrime := false, num := { s.num with solved := c.group c.known.1 }, den := { s.den with solved := c.group c.known.2 } }) := by
  unfold Cfg.checkIfDone
  cases hgu : c.guess with
  | none =>
    have : ¬ Passes c N D t s.ord := by rintro ⟨g, h, -⟩; rw [hgu] at h; simp at h
    simp [this]
  | some g =>
    obtain ⟨h1, h2⟩ := hg g hgu
    simp only [testGuess_spec hlen h1 h2, Option.bind_eq_bind, Option.bind_some]
    by_cases hp : Passes c N D t s.ord
    · obtain ⟨g', e, hv⟩ := id hp
      rw [hgu] at e
      obtain rfl : g = g' := by simpa using e
      rw [if_pos hp]
      simp [hv]
    · have : ¬ value c.anchor (denote g.1) (denote g.2) t s.ord = value c.anchor N D t s.ord := fun h => hp ⟨g, hgu, h⟩
      rw [if_neg hp]
      simp [this]

/-- one loop over the probes -/
def Cfg.use (c : Cfg F) (s : St F) (food : List (F × F)) : Option (St F) := do
  let r ← c.addRows s food
  if r.2 then
    let x ← c.solve r.1
    c.handle { r.1 with rows := [], subNum := [], subDen := [] } x
  else some r.1

lemma handle_spec (hp : Prob c N D kN kD UN UD) {o : ℕ} {s : St F} (h : Both c N D kN kD UN UD o s) (hr : s.rows = []) :
    ∃ s', c.handle s (s.num.unsolved.map (fun u => (u.1, pv c.anchor N u.2 o)), s.den.unsolved.map (fun u => (u.1, pv c.anchor D u.2 o))) = some s' ∧
      ((∃ num den, s'.out = some (.solved num den) ∧ s'.savedTi = [] ∧ WFMap c.n num ∧ WFMap c.n den ∧ denote num = N ∧ denote den = D) ∨
       (s'.savedTi = s.savedTi.erase s.ord ∧ Run c N D kN kD UN UD G (o + 1) s' [])) := by
  obtain ⟨num, e1, e2⟩ := h.num.absorb hp.len hp.num h.pos
  obtain ⟨den, e3, e4⟩ := h.den.absorb hp.len hp.den h.pos
  unfold Cfg.handle
  simp only [e1, e3, Option.bind_eq_bind, Option.bind_some]
  by_cases hd : num.mat = [] ∧ den.mat = []
  · rw [if_pos hd]
    obtain ⟨a1, a2⟩ := e2.collect hp.num hd.1
    obtain ⟨b1, b2⟩ := e4.collect hp.den hd.2
    exact ⟨_, rfl, Or.inl ⟨_, _, rfl, rfl, a1, b1, a2, b2⟩⟩
  · rw [if_neg hd]
    refine ⟨_, rfl, Or.inr ⟨rfl, ⟨e2, e4, ?_, by omega, rfl, h.np, h.out⟩, ⟨by simpa using hr, fun h0 => absurd hr h0, by simp, by simp⟩, ?_⟩⟩
    · show s.ord.map (· + 1) = uni c (o + 1)
      rw [h.ord]; unfold uni; simp
    · show 0 < num.unsolved.length + den.unsolved.length
      by_contra h0
      apply hd
      have h1 : num.unsolved = [] := List.length_eq_zero_iff.mp (by omega)
      have h2 : den.unsolved = [] := List.length_eq_zero_iff.mp (by omega)
      rw [e2.mat, e4.mat, h1, h2]; exact ⟨rfl, rfl⟩

lemma Run.saved {o : ℕ} {s : St F} {pts : List (F × F)} (h : Run c N D kN kD UN UD G o s pts) (sv : FFMap (List (F × F))) : Run c N D kN kD UN UD G o { s with savedTi := sv } pts :=
  ⟨⟨h.both.num, h.both.den, h.both.ord, h.both.pos, h.both.eqn, h.both.np, h.both.out⟩, ⟨h.rows.rows, h.rows.sub, h.rows.right, h.rows.nodup⟩, h.lt⟩

lemma use_spec (gtp : PivotOrder c.gt) (hp : Prob c N D kN kD UN UD) (hG : GoodPts c.anchor N D UN UD G) {o : ℕ} {s : St F} {pts food : List (F × F)} (h : Run c N D kN kD UN UD G o s pts)
    (hf : ∀ q ∈ food, Right c N D G (uni c o) q) (hnd : ((pts ++ food).map Prod.fst).Nodup) :
    ∃ s', c.use s food = some s' ∧
      ((∃ num den, s'.out = some (.solved num den) ∧ s'.savedTi = [] ∧ WFMap c.n num ∧ WFMap c.n den ∧ denote num = N ∧ denote den = D) ∨
       (s'.savedTi = s.savedTi ∧ Run c N D kN kD UN UD G o s' (pts ++ food)) ∨ (s'.savedTi = s.savedTi.erase s.ord ∧ Run c N D kN kD UN UD G (o + 1) s' [])) := by
  obtain ⟨rw', sn, sd, b, pts', e1, e2, e3, e4, e5⟩ := addRows_spec hp food pts s h.both h.rows h.lt hf hnd
  unfold Cfg.use
  rw [e1]
  simp only [Option.bind_eq_bind, Option.bind_some]
  cases b with
  | false =>
    obtain ⟨f1, f2⟩ := e5 rfl
    subst f1
    exact ⟨{ s with rows := rw', subNum := sn, subDen := sd }, by rw [if_neg (by simp)], Or.inr (Or.inl ⟨rfl, e2, e3, f2⟩)⟩
  | true =>
    have hlen := e4 rfl
    rw [if_pos rfl]
    have g1 := solve_spec gtp hp hG e2 e3 hlen (by show 1 ≤ s.numEqn; have := h.lt; omega)
    rw [g1]
    simp only [Option.bind_some]
    obtain ⟨s', k1, k2⟩ := handle_spec (G := G) hp (o := o) (s := { s with rows := [], subNum := [], subDen := [] }) ⟨e2.num, e2.den, e2.ord, e2.pos, e2.eqn, e2.np, e2.out⟩ rfl
    refine ⟨s', k1, ?_⟩
    rcases k2 with k2 | k2
    · exact Or.inl k2
    · exact Or.inr (Or.inr k2)

/-! ### saved probes -/

/-- the saved probes -/
structure Pool (c : Cfg F) (N D : MvPolynomial ℕ F) (past : List (F × List ℕ)) (sv : FFMap (List (F × F))) : Prop where
  keys : (sv.map Prod.fst).Nodup
  ne : ∀ e ∈ sv, e.2 ≠ []
  right : ∀ e ∈ sv, ∀ q ∈ e.2, (q.1, e.1) ∈ past ∧ q.2 = value c.anchor N D q.1 e.1
  nodup : ∀ e ∈ sv, (e.2.map Prod.fst).Nodup

lemma Pool.mono {past : List (F × List ℕ)} {sv : FFMap (List (F × F))} (h : Pool c N D past sv) (q : F × List ℕ) : Pool c N D (past ++ [q]) sv :=
  ⟨h.keys, h.ne, fun e he x hx => ⟨List.mem_append_left _ (h.right e he x hx).1, (h.right e he x hx).2⟩, h.nodup⟩

lemma Pool.erase {past : List (F × List ℕ)} {sv : FFMap (List (F × F))} (h : Pool c N D past sv) (k : List ℕ) : Pool c N D past (sv.erase k) := by
  have hsub : ∀ e ∈ sv.erase k, e ∈ sv := fun e he => (List.mem_filter.mp he).1
  refine ⟨?_, fun e he => h.ne e (hsub e he), fun e he => h.right e (hsub e he), fun e he => h.nodup e (hsub e he)⟩
  exact h.keys.sublist (List.Sublist.map _ List.filter_sublist)

lemma value_eq (a : List F) (N D : MvPolynomial ℕ F) (t : F) (ord : List ℕ) : value a N D t ord = RMulti.valueOf [] a N D t ord := by
  unfold value RMulti.valueOf
  have : at_ a t ord = RMulti.pt [] a t ord := by
    funext j; unfold at_ RMulti.pt; simp
  rw [this]

lemma Pool.set {past : List (F × List ℕ)} {sv : FFMap (List (F × F))} (h : Pool c N D past sv) {t : F} {ord : List ℕ} (hnew : (t, ord) ∉ past) :
    Pool c N D (past ++ [(t, ord)]) (sv.set ord ((sv.find? ord).getD [] ++ [(t, value c.anchor N D t ord)])) := by
  have := RMulti.Pool.set (c := { n := c.n, shift := [], anchor := c.anchor, gt := c.gt, fuel := 0 }) (N := N) (D := D) (past := past) (sv := sv)
    ⟨h.keys, h.ne, fun e he q hq => by rw [← value_eq]; exact h.right e he q hq, h.nodup⟩ hnew
  simp only [← value_eq] at this
  exact ⟨this.keys, this.ne, fun e he q hq => by rw [value_eq]; exact this.right e he q hq, this.nodup⟩

/-- each probe satisfies `P` or is saved -/
def Kept (past : List (F × List ℕ)) (sv : FFMap (List (F × F))) (P : F × List ℕ → Prop) : Prop := ∀ q ∈ past, P q ∨ ∃ l, sv.find? q.2 = some l ∧ q.1 ∈ l.map Prod.fst

lemma Kept.erase {past : List (F × List ℕ)} {sv : FFMap (List (F × F))} {P P' : F × List ℕ → Prop} (h : Kept past sv P) (k : List ℕ) (h1 : ∀ q ∈ past, P q → P' q)
    (h2 : ∀ q ∈ past, q.2 = k → ∀ l, sv.find? k = some l → q.1 ∈ l.map Prod.fst → P' q) : Kept past (sv.erase k) P' := by
  intro q hq
  rcases h q hq with h | ⟨l, h3, h4⟩
  · exact Or.inl (h1 q hq h)
  · by_cases hk : q.2 = k
    · exact Or.inl (h2 q hq hk l (hk ▸ h3) h4)
    · exact Or.inr ⟨l, by rw [FFMap.find?_erase, if_neg hk]; exact h3, h4⟩

lemma Kept.push {past : List (F × List ℕ)} {sv : FFMap (List (F × F))} {P : F × List ℕ → Prop} (h : Kept past sv P) {q : F × List ℕ} (hq : P q) : Kept (past ++ [q]) sv P := by
  intro x hx
  rcases List.mem_append.mp hx with hx | hx
  · exact h x hx
  · rw [List.mem_singleton.mp hx]; exact Or.inl hq

lemma Kept.mono {past : List (F × List ℕ)} {sv : FFMap (List (F × F))} {P P' : F × List ℕ → Prop} (h : Kept past sv P) (h1 : ∀ q, P q → P' q) : Kept past sv P' :=
  fun q hq => (h q hq).imp (h1 q) id

lemma Kept.set {past : List (F × List ℕ)} {sv : FFMap (List (F × F))} {P : F × List ℕ → Prop} (h : Kept past sv P) (t v : F) (ord : List ℕ) :
    Kept (past ++ [(t, ord)]) (sv.set ord ((sv.find? ord).getD [] ++ [(t, v)])) P := by
  intro x hx
  rcases List.mem_append.mp hx with hx | hx
  · rcases h x hx with h | ⟨l, h3, h4⟩
    · exact Or.inl h
    · right
      by_cases hk : x.2 = ord
      · refine ⟨l ++ [(t, v)], ?_, by rw [List.map_append]; exact List.mem_append_left _ h4⟩
        rw [← hk, h3, FFMap.find?_set, if_pos rfl]; rfl
      · exact ⟨l, by rw [FFMap.find?_set, if_neg hk]; exact h3, h4⟩
  · rw [List.mem_singleton.mp hx]
    exact Or.inr ⟨_, by rw [FFMap.find?_set, if_pos rfl], by simp⟩

/-- the probe belongs to an order vector that is finished, or it is used -/
def Used (c : Cfg F) (o : ℕ) (pts : List (F × F)) (q : F × List ℕ) : Prop := (∃ o' < o, q.2 = uni c o') ∨ (q.2 = uni c o ∧ q.1 ∈ pts.map Prod.fst)

/-! ### the phases -/

/-- before the check -/
structure Fresh (c : Cfg F) (N D : MvPolynomial ℕ F) (UN UD : FFMap (List (List ℕ))) (past : List (F × List ℕ)) (s : St F) : Prop where
  np : s.newPrime = true
  out : s.out = none
  ord : s.ord = uni c 1
  rows : s.rows = []
  num : s.num.unsolved = UN ∧ s.num.mat = UN.map (fun t => (t.1, []))
  den : s.den.unsolved = UD ∧ s.den.mat = UD.map (fun t => (t.1, []))
  eqn : s.numEqn = UN.length + UD.length
  pool : Pool c N D past s.savedTi
  nosv : s.savedTi.find? (uni c 1) = none
  first : firstProbe c past = none
  kept : Kept past s.savedTi (fun _ => False)

/-- after the check -/
structure Late (c : Cfg F) (N D : MvPolynomial ℕ F) (kN kD : FFMap F) (UN UD : FFMap (List (List ℕ))) (G : F → List ℕ → Prop) (past : List (F × List ℕ)) (o : ℕ) (s : St F)
    (pts : List (F × F)) : Prop where
  run : Run c N D kN kD UN UD G o s pts
  pool : Pool c N D past s.savedTi
  inPast : ∀ q ∈ pts, (q.1, uni c o) ∈ past
  fresh : s.savedTi.find? s.ord ≠ none → pts = []
  first : ∃ q, firstProbe c past = some q ∧ ¬ Passes c N D q.1 q.2
  kept : Kept past s.savedTi (Used c o pts)

/-- the number of requested probes that are still missing -/
def missing (UN UD : FFMap (List (List ℕ))) (o k : ℕ) : ℕ := rem UN o + rem UD o - k

lemma Run.small {o : ℕ} {s : St F} {pts : List (F × F)} (h : Run c N D kN kD UN UD G o s pts) : rem UN (o + 1) + rem UD (o + 1) + pts.length < rem UN o + rem UD o := by
  have h1 := h.lt
  rw [h.both.eqn, h.both.num.unsolved, h.both.den.unsolved] at h1
  have := rem_next UN o
  have := rem_next UD o
  omega

lemma late_use (gtp : PivotOrder c.gt) (hp : Prob c N D kN kD UN UD) (hG : GoodPts c.anchor N D UN UD G) {past : List (F × List ℕ)} (hpast : ∀ q ∈ past, G q.1 q.2)
    {o : ℕ} {s : St F} {pts food : List (F × F)} (h : Run c N D kN kD UN UD G o s pts) {sv : FFMap (List (F × F))} (hpool : Pool c N D past sv) (hnone : sv.find? s.ord = none)
    (hne : food ≠ []) (hpts : ∀ q ∈ pts, (q.1, uni c o) ∈ past) (hfirst : ∃ q, firstProbe c past = some q ∧ ¬ Passes c N D q.1 q.2)
    (hfood : ∀ q ∈ food, (q.1, uni c o) ∈ past ∧ q.2 = value c.anchor N D q.1 (uni c o)) (hnd : ((pts ++ food).map Prod.fst).Nodup)
    (hkept : Kept past sv (Used c o (pts ++ food))) :
    ∃ s', c.use { s with savedTi := sv } food = some s' ∧ (Done c N D past s' ∨
      ∃ o' pts', Late c N D kN kD UN UD G past o' s' pts' ∧ (s'.savedTi.length ≤ sv.length) ∧ missing UN UD o' pts'.length + 1 ≤ missing UN UD o pts.length) := by
  obtain ⟨s', e1, e2⟩ := use_spec gtp hp hG (h.saved sv) (food := food) (fun q hq => ⟨hpast _ (hfood q hq).1, (hfood q hq).2⟩) hnd
  refine ⟨s', e1, ?_⟩
  have hsm := h.small
  rcases e2 with ⟨num, den, f1, f2, f3⟩ | ⟨f1, f2⟩ | ⟨f1, f2⟩
  · left
    obtain ⟨q, hq, hq2⟩ := hfirst
    exact ⟨q, hq, Or.inr ⟨num, den, f1, by rw [f2]; rfl, hq2, f3⟩⟩
  · right
    have f1 : s'.savedTi = sv := f1
    refine ⟨o, pts ++ food, ⟨f2, f1 ▸ hpool, ?_, ?_, hfirst, f1 ▸ hkept⟩, by rw [f1], ?_⟩
    · intro q hq
      rcases List.mem_append.mp hq with hq | hq
      · exact hpts q hq
      · exact (hfood q hq).1
    · intro h0
      rw [f1, f2.both.ord, ← h.both.ord] at h0
      exact absurd hnone h0
    · have h1 : 1 ≤ food.length := List.length_pos_iff.mpr hne
      have := f2.small
      unfold missing
      rw [List.length_append] at this ⊢
      omega
  · right
    have f1 : s'.savedTi = sv.erase s.ord := f1
    refine ⟨o + 1, [], ⟨f2, f1 ▸ hpool.erase _, by simp, fun _ => rfl, hfirst, ?_⟩, ?_, ?_⟩
    · rw [f1]
      refine hkept.erase _ ?_ ?_
      · rintro q - (⟨o', h1, h2⟩ | ⟨h1, -⟩)
        · exact Or.inl ⟨o', by omega, h2⟩
        · exact Or.inl ⟨o, by omega, h1⟩
      · intro q _ h1 _ _ _
        exact Or.inl ⟨o, by omega, by rw [h1]; exact h.both.ord⟩
    · rw [f1]; unfold FFMap.erase; exact List.length_filter_le _ _
    · have := f2.small
      unfold missing
      simp only [List.length_nil]
      omega

lemma probe_late {s : St F} (h1 : s.out = none) (h2 : s.newPrime = false) (t v : F) :
    c.probe s t v s.ord = c.use { s with savedTi := s.savedTi.erase s.ord } ((s.savedTi.find? s.ord).getD [] ++ [(t, v)]) := by
  unfold Cfg.probe Cfg.use Cfg.work
  rw [h1]
  simp [h2, h1]

lemma drain_done {past : List (F × List ℕ)} {s : St F} (h : Done c N D past s) (k : ℕ) : c.drain k s = some s := by
  have hn : s.savedTi.find? s.ord = none := by
    obtain ⟨q, -, ⟨-, h, -⟩ | ⟨_, _, -, h, -⟩⟩ := h <;> exact h
  cases k <;> rw [Cfg.drain, hn]

lemma Done.mono {past : List (F × List ℕ)} {s : St F} (h : Done c N D past s) (q : F × List ℕ) : Done c N D (past ++ [q]) s := by
  obtain ⟨x, hx, h⟩ := h
  exact ⟨x, by unfold firstProbe at hx ⊢; rw [List.find?_append, hx]; rfl, h⟩

lemma Done.some {past : List (F × List ℕ)} {s : St F} (h : Done c N D past s) : s.out.isSome = true := by
  obtain ⟨q, -, ⟨h, -⟩ | ⟨_, _, h, -⟩⟩ := h <;> rw [h] <;> rfl

lemma drain_spec (gtp : PivotOrder c.gt) (hp : Prob c N D kN kD UN UD) (hG : GoodPts c.anchor N D UN UD G) {past : List (F × List ℕ)} (hpast : ∀ q ∈ past, G q.1 q.2) :
    ∀ (k : ℕ) (o : ℕ) (s : St F) (pts : List (F × F)), s.savedTi.length ≤ k → Late c N D kN kD UN UD G past o s pts →
    ∃ s', c.drain k s = some s' ∧ (Done c N D past s' ∨ ∃ o' pts', Late c N D kN kD UN UD G past o' s' pts' ∧ s'.savedTi.find? s'.ord = none ∧
      missing UN UD o' pts'.length ≤ missing UN UD o pts.length) := by
  intro k
  induction k with
  | zero =>
    intro o s pts hk h
    have h0 : s.savedTi = [] := List.length_eq_zero_iff.mp (by omega)
    rw [Cfg.drain, h0]
    exact ⟨s, rfl, Or.inr ⟨o, pts, h, by rw [h0]; rfl, le_rfl⟩⟩
  | succ k ih =>
    intro o s pts hk h
    rw [Cfg.drain]
    cases hf : s.savedTi.find? s.ord with
    | none => exact ⟨s, rfl, Or.inr ⟨o, pts, h, hf, le_rfl⟩⟩
    | some l =>
      have hmem := FFMap.find?_mem hf
      cases l with
      | nil => exact absurd rfl (h.pool.ne _ hmem)
      | cons q rest =>
        simp only
        have hpts : pts = [] := h.fresh (by rw [hf]; simp)
        subst hpts
        have hp' := probe_late (c := c) (s := { s with savedTi := s.savedTi.set s.ord rest }) h.run.both.out h.run.both.np q.1 q.2
        simp only [set_erase, FFMap.find?_set, if_true, Option.getD_some] at hp'
        have hr := h.pool.right _ hmem
        have hnd := h.pool.nodup _ hmem
        simp only [h.run.both.ord] at hr
        obtain ⟨s', e1, e2⟩ := late_use gtp hp hG hpast (s := { s with savedTi := s.savedTi.set s.ord rest }) (pts := []) (food := rest ++ [q]) (h.run.saved _) (h.pool.erase s.ord)
          (by show (s.savedTi.erase s.ord).find? s.ord = none; rw [FFMap.find?_erase, if_pos rfl]) (by simp) (by simp) h.first
          (by
            intro x hx
            refine hr x ?_
            rcases List.mem_append.mp hx with hx | hx
            · simp [hx]
            · rw [List.mem_singleton.mp hx]; simp)
          (by
            rw [List.nil_append]
            refine List.Perm.nodup ?_ hnd
            exact List.Perm.map _ (List.perm_append_singleton q rest).symm)
          (by
            refine h.kept.erase s.ord ?_ ?_
            · rintro x - (⟨o', h1, h2⟩ | ⟨-, h2⟩)
              · exact Or.inl ⟨o', h1, h2⟩
              · simp at h2
            · intro x _ h1 l h2 h3
              rw [hf] at h2
              rw [← Option.some.inj h2] at h3
              refine Or.inr ⟨by rw [h1]; exact h.run.both.ord, ?_⟩
              simp only [List.map_cons, List.mem_cons, List.nil_append, List.map_append, List.mem_append, List.map_nil, List.mem_singleton] at h3 ⊢
              tauto)
        rw [hp', e1]
        simp only [Option.bind_eq_bind, Option.bind_some]
        rcases e2 with e2 | ⟨o', pts', f1, f2, f3⟩
        · exact ⟨s', drain_done e2 k, Or.inl e2⟩
        · have hlen : s'.savedTi.length ≤ k := by
            have : (s.savedTi.erase s.ord).length < s.savedTi.length := by
              unfold FFMap.erase
              apply List.length_filter_lt_length_iff_exists.mpr
              exact ⟨_, hmem, by simp⟩
            omega
          obtain ⟨s2, g1, g2⟩ := ih o' s' pts' hlen f1
          refine ⟨s2, g1, ?_⟩
          rcases g2 with g2 | ⟨o2, pts2, g3, g4, g5⟩
          · exact Or.inl g2
          · exact Or.inr ⟨o2, pts2, g3, g4, by omega⟩

/-- what holds between two probes; `φ` bounds the number of requested probes that are still missing -/
def Inv (c : Cfg F) (N D : MvPolynomial ℕ F) (kN kD : FFMap F) (UN UD : FFMap (List (List ℕ))) (G : F → List ℕ → Prop) (past : List (F × List ℕ)) (s : St F) (φ : ℕ) : Prop :=
  Done c N D past s ∨ (Fresh c N D UN UD past s ∧ unknowns UN + unknowns UD ≤ φ) ∨
  ∃ o pts, Late c N D kN kD UN UD G past o s pts ∧ s.savedTi.find? s.ord = none ∧ missing UN UD o pts.length ≤ φ

lemma filter_all {U : FFMap (List (List ℕ))} (h : ∀ u ∈ U, u.2 ≠ []) : U.filter (fun u => decide (1 ≤ u.2.length)) = U := by
  apply List.filter_eq_self.mpr
  intro u hu
  have := List.length_pos_iff.mpr (h u hu)
  exact decide_eq_true this

lemma SInv.start (hsp : Split c.n c.anchor N kN UN) {s : Side F} (h1 : s.unsolved = UN) (h2 : s.mat = UN.map (fun t => (t.1, []))) :
    SInv c N kN UN 1 { s with solved := c.group kN } := by
  have hne : ∀ u ∈ UN, u.2 ≠ [] := fun u hu => by obtain ⟨d, -, h, -⟩ := hsp.form u hu; exact h
  obtain ⟨g1, g2⟩ := group_spec c hsp.wf
  refine ⟨by rw [filter_all hne]; exact h1, ?_, g1, ?_⟩
  · show s.mat = s.unsolved.map _
    rw [h2, h1]
    apply List.map_congr_left
    intro u _
    simp [vals]
  · show psum (c.group kN) = _
    rw [g2, List.filter_eq_nil_iff.mpr]
    · simp
    · intro u hu
      have := List.length_pos_iff.mpr (hne u hu)
      simp
      exact hne u hu

lemma feed_spec (gtp : PivotOrder c.gt) (hp : Prob c N D c.known.1 c.known.2 UN UD) (hg : GuessOK c) (hU : 1 ≤ UN.length + UD.length) (hG : GoodPts c.anchor N D UN UD G)
    {past : List (F × List ℕ)} {q : F × List ℕ} (hpast : ∀ x ∈ past ++ [q], G x.1 x.2) (hnd : (past ++ [q]).Nodup)
    {s : St F} {φ : ℕ} (h : Inv c N D c.known.1 c.known.2 UN UD G past s φ) :
    ∃ s' φ', c.feed s (q.1, value c.anchor N D q.1 q.2, q.2) = some s' ∧ Inv c N D c.known.1 c.known.2 UN UD G (past ++ [q]) s' φ' ∧
      φ' + (if q.2 = s.ord ∧ s.out.isSome = false then 1 else 0) ≤ φ := by
  obtain ⟨t, ord⟩ := q
  have hnew : (t, ord) ∉ past := by
    rw [List.nodup_append] at hnd
    intro hmem
    exact hnd.2.2 _ hmem _ (by simp) rfl
  unfold Cfg.feed
  rcases h with h | ⟨h, hφ⟩ | ⟨o, pts, h, hn, hφ⟩
  · refine ⟨s, φ, ?_, Or.inl (h.mono _), ?_⟩
    · have : c.probe s t (value c.anchor N D t ord) ord = some s := by unfold Cfg.probe; rw [if_pos h.some]
      simp only [this, Option.bind_eq_bind, Option.bind_some]
      exact drain_done h _
    · rw [h.some]; simp
  · by_cases hord : ord = uni c 1
    · subst hord
      have hfp : firstProbe c (past ++ [(t, uni c 1)]) = some (t, uni c 1) := by
        have := h.first
        unfold firstProbe at this ⊢
        rw [List.find?_append, this]; simp
      have hchk := check_spec (N := N) (D := D) hp.len hg h.out t
      rw [h.ord] at hchk
      by_cases hpass : Passes c N D t (uni c 1)
      · rw [if_pos hpass] at hchk
        have hprobe : c.probe s t (value c.anchor N D t (uni c 1)) (uni c 1) = some { s with newPrime := false, ord := [], out := some .accepted } := by
          unfold Cfg.probe
          rw [h.out, h.ord, h.np, hchk]; simp
        have hk : s.savedTi.find? [] = none := by
          cases hf : s.savedTi.find? [] with
          | none => rfl
          | some l =>
            have hm := FFMap.find?_mem hf
            cases l with
            | nil => exact absurd rfl (h.pool.ne _ hm)
            | cons x l =>
              have := (h.pool.right _ hm x (by simp)).1
              exact absurd rfl (hG.ord _ _ (hpast _ (List.mem_append_left _ this)))
        have hD : Done c N D (past ++ [(t, uni c 1)]) { s with newPrime := false, ord := [], out := some .accepted } := ⟨_, hfp, Or.inl ⟨rfl, hk, hpass⟩⟩
        refine ⟨_, φ - 1, ?_, Or.inl hD, ?_⟩
        · simp only [hprobe, Option.bind_eq_bind, Option.bind_some]
          exact drain_done hD _
        · have : 1 ≤ φ := by
            refine le_trans ?_ hφ
            rw [← rem_one, ← rem_one, ← rem_next UN 1, ← rem_next UD 1]
            have hneN : ∀ u ∈ UN, u.2 ≠ [] := fun u hu => by obtain ⟨d, -, h, -⟩ := hp.num.form u hu; exact h
            have hneD : ∀ u ∈ UD, u.2 ≠ [] := fun u hu => by obtain ⟨d, -, h, -⟩ := hp.den.form u hu; exact h
            rw [filter_all hneN, filter_all hneD]
            omega
          split <;> omega
      · rw [if_neg hpass] at hchk
        obtain ⟨s1, hs1⟩ : ∃ s1 : St F, s1 = { s with newPrime := false, num := { s.num with solved := c.group c.known.1 }, den := { s.den with solved := c.group c.known.2 } } := ⟨_, rfl⟩
        have hchk : c.checkIfDone s t (value c.anchor N D t (uni c 1)) = some s1 := by
          rw [hchk, hs1, ← h.ord]
        have ho1 : s1.ord = uni c 1 := by rw [hs1]; exact h.ord
        have hprobe : c.probe s t (value c.anchor N D t (uni c 1)) (uni c 1) = c.use { s1 with savedTi := s1.savedTi.erase s1.ord } [(t, value c.anchor N D t (uni c 1))] := by
          have hp1 := probe_late (c := c) (s := s1) (by rw [hs1]; exact h.out) (by rw [hs1]) t (value c.anchor N D t (uni c 1))
          have hnone : s1.savedTi.find? s1.ord = none := by rw [ho1, hs1]; exact h.nosv
          rw [hnone, Option.getD_none, List.nil_append] at hp1
          rw [← hp1]
          have o1 : s1.out = none := by rw [hs1]; exact h.out
          have n1 : s1.newPrime = false := by rw [hs1]
          unfold Cfg.probe
          rw [h.out, h.ord, h.np, hchk, ho1, o1, n1]
          simp [o1]
        have hrun : Run c N D c.known.1 c.known.2 UN UD G 1 s1 [] := by
          rw [hs1]
          refine ⟨⟨SInv.start hp.num h.num.1 h.num.2, SInv.start hp.den h.den.1 h.den.2, h.ord, le_rfl, ?_, rfl, h.out⟩, ⟨by simpa using h.rows, fun h0 => absurd h.rows h0, by simp, by simp⟩, ?_⟩
          · show s.numEqn = s.num.unsolved.length + s.den.unsolved.length
            rw [h.num.1, h.den.1]; exact h.eqn
          · show 0 < s.numEqn
            rw [h.eqn]; omega
        have hpool1 : Pool c N D past s1.savedTi := by rw [hs1]; exact h.pool
        obtain ⟨s2, e1, e2⟩ := late_use gtp hp hG hpast (food := [(t, value c.anchor N D t (uni c 1))]) hrun ((hpool1.mono (t, uni c 1)).erase s1.ord)
          (by rw [FFMap.find?_erase, if_pos rfl]) (by simp) (by simp) ⟨_, hfp, hpass⟩ (by simp) (by simp)
          (by
            have hk1 : Kept past s1.savedTi (fun _ => False) := by rw [hs1]; exact h.kept
            refine Kept.push (P := Used c 1 _) (Kept.erase hk1 _ (fun _ _ h => h.elim) ?_) (Or.inr ⟨rfl, by simp⟩)
            intro x _ _ l hl _
            rw [ho1, hs1] at hl
            have := h.nosv
            simp only at hl
            rw [this] at hl; cases hl)
        rw [← hprobe] at e1
        simp only [e1, Option.bind_eq_bind, Option.bind_some]
        have hm1 : missing UN UD 1 0 = unknowns UN + unknowns UD := by unfold missing; rw [rem_one, rem_one]; rfl
        have hsm := hrun.small
        rw [rem_one, rem_one] at hsm
        rcases e2 with e2 | ⟨o', pts', f1, f2, f3⟩
        · refine ⟨s2, φ - 1, drain_done e2 _, Or.inl e2, ?_⟩
          split <;> omega
        · obtain ⟨s3, g1, g2⟩ := drain_spec gtp hp hG hpast _ o' s2 pts' le_rfl f1
          simp only [List.length_nil] at f3
          rcases g2 with g2 | ⟨o2, pts2, g3, g4, g5⟩
          · exact ⟨s3, φ - 1, g1, Or.inl g2, by split <;> omega⟩
          · exact ⟨s3, φ - 1, g1, Or.inr (Or.inr ⟨o2, pts2, g3, g4, by omega⟩), by split <;> omega⟩
    · have hprobe : c.probe s t (value c.anchor N D t ord) ord =
          some { s with savedTi := s.savedTi.set ord ((s.savedTi.find? ord).getD [] ++ [(t, value c.anchor N D t ord)]) } := by
        unfold Cfg.probe
        rw [h.out, h.ord]
        simp [hord]
      have hnone : (s.savedTi.set ord ((s.savedTi.find? ord).getD [] ++ [(t, value c.anchor N D t ord)])).find? (uni c 1) = none := by
        rw [FFMap.find?_set, if_neg (fun e => hord e.symm)]; exact h.nosv
      have hF : Fresh c N D UN UD (past ++ [(t, ord)]) { s with savedTi := s.savedTi.set ord ((s.savedTi.find? ord).getD [] ++ [(t, value c.anchor N D t ord)]) } :=
        ⟨h.np, h.out, h.ord, h.rows, h.num, h.den, h.eqn, h.pool.set hnew, hnone, by
          have := h.first
          unfold firstProbe at this ⊢
          rw [List.find?_append, this]; simp [hord], h.kept.set _ _ _⟩
      refine ⟨_, φ, ?_, Or.inr (Or.inl ⟨hF, hφ⟩), ?_⟩
      · simp only [hprobe, Option.bind_eq_bind, Option.bind_some]
        have : ∀ k, c.drain k { s with savedTi := s.savedTi.set ord ((s.savedTi.find? ord).getD [] ++ [(t, value c.anchor N D t ord)]) } =
            some { s with savedTi := s.savedTi.set ord ((s.savedTi.find? ord).getD [] ++ [(t, value c.anchor N D t ord)]) } := by
          intro k
          cases k <;> rw [Cfg.drain] <;> simp only [h.ord, hnone]
        exact this _
      · rw [h.ord]; simp [hord]
  · have hso := h.run.both.ord
    by_cases hord : ord = s.ord
    · subst hord
      have hprobe := probe_late (c := c) h.run.both.out h.run.both.np t (value c.anchor N D t s.ord)
      rw [hn, Option.getD_none, List.nil_append] at hprobe
      have hfp : ∃ q, firstProbe c (past ++ [(t, s.ord)]) = some q ∧ ¬ Passes c N D q.1 q.2 := by
        obtain ⟨x, hx, hx2⟩ := h.first
        exact ⟨x, by unfold firstProbe at hx ⊢; rw [List.find?_append, hx]; rfl, hx2⟩
      obtain ⟨s1, e1, e2⟩ := late_use gtp hp hG hpast (food := [(t, value c.anchor N D t s.ord)]) h.run ((h.pool.mono (t, s.ord)).erase s.ord)
        (by rw [FFMap.find?_erase, if_pos rfl]) (by simp) (fun x hx => List.mem_append_left _ (h.inPast x hx)) hfp (by simp [hso])
        (by
          rw [List.map_append, List.nodup_append]
          refine ⟨h.run.rows.nodup, by simp, ?_⟩
          intro x hx y hy hxy
          obtain ⟨z, hz, rfl⟩ := List.mem_map.mp hx
          simp at hy
          subst hy
          have := h.inPast z hz
          rw [hxy, ← hso] at this
          exact hnew this)
        (by
          refine Kept.push (P := Used c o _) (Kept.erase h.kept _ ?_ ?_) (Or.inr ⟨hso, by simp⟩)
          · rintro x - (⟨o', h1, h2⟩ | ⟨h1, h2⟩)
            · exact Or.inl ⟨o', h1, h2⟩
            · exact Or.inr ⟨h1, by rw [List.map_append]; exact List.mem_append_left _ h2⟩
          · intro x _ _ l hl _
            rw [hn] at hl; cases hl)
      rw [← hprobe] at e1
      simp only [e1, Option.bind_eq_bind, Option.bind_some]
      have hsm := h.run.small
      have hm1 : 1 ≤ missing UN UD o pts.length := by unfold missing; omega
      rcases e2 with e2 | ⟨o', pts', f1, f2, f3⟩
      · refine ⟨s1, φ - 1, drain_done e2 _, Or.inl e2, ?_⟩
        split <;> omega
      · obtain ⟨s2, g1, g2⟩ := drain_spec gtp hp hG hpast _ o' s1 pts' le_rfl f1
        rcases g2 with g2 | ⟨o2, pts2, g3, g4, g5⟩
        · exact ⟨s2, φ - 1, g1, Or.inl g2, by split <;> omega⟩
        · exact ⟨s2, φ - 1, g1, Or.inr (Or.inr ⟨o2, pts2, g3, g4, by omega⟩), by split <;> omega⟩
    · have hprobe : c.probe s t (value c.anchor N D t ord) ord =
          some { s with savedTi := s.savedTi.set ord ((s.savedTi.find? ord).getD [] ++ [(t, value c.anchor N D t ord)]) } := by
        unfold Cfg.probe
        rw [h.run.both.out]
        simp [hord]
      have hnone : (s.savedTi.set ord ((s.savedTi.find? ord).getD [] ++ [(t, value c.anchor N D t ord)])).find? s.ord = none := by
        rw [FFMap.find?_set, if_neg (fun e => hord e.symm)]; exact hn
      have hL : Late c N D c.known.1 c.known.2 UN UD G (past ++ [(t, ord)]) o { s with savedTi := s.savedTi.set ord ((s.savedTi.find? ord).getD [] ++ [(t, value c.anchor N D t ord)]) } pts :=
        ⟨h.run.saved _, h.pool.set hnew, fun x hx => List.mem_append_left _ (h.inPast x hx), fun h0 => absurd hnone h0, by
          obtain ⟨x, hx, hx2⟩ := h.first
          exact ⟨x, by unfold firstProbe at hx ⊢; rw [List.find?_append, hx]; rfl, hx2⟩, h.kept.set _ _ _⟩
      refine ⟨_, φ, ?_, Or.inr (Or.inr ⟨o, pts, hL, hnone, hφ⟩), ?_⟩
      · simp only [hprobe, Option.bind_eq_bind, Option.bind_some]
        have : ∀ k, c.drain k { s with savedTi := s.savedTi.set ord ((s.savedTi.find? ord).getD [] ++ [(t, value c.anchor N D t ord)]) } =
            some { s with savedTi := s.savedTi.set ord ((s.savedTi.find? ord).getD [] ++ [(t, value c.anchor N D t ord)]) } := by
          intro k
          cases k <;> rw [Cfg.drain] <;> simp only [hnone]
        exact this _
      · simp [hord]

lemma feedAll_spec (gtp : PivotOrder c.gt) (hp : Prob c N D c.known.1 c.known.2 UN UD) (hg : GuessOK c) (hU : 1 ≤ UN.length + UD.length) (hG : GoodPts c.anchor N D UN UD G) :
    ∀ (probes past : List (F × List ℕ)) (s : St F) (φ : ℕ), (∀ x ∈ past ++ probes, G x.1 x.2) → (past ++ probes).Nodup → Inv c N D c.known.1 c.known.2 UN UD G past s φ →
    ∃ s' φ', c.feedAll s (withValues c.anchor N D probes) = some s' ∧ Inv c N D c.known.1 c.known.2 UN UD G (past ++ probes) s' φ' ∧ φ' + hits c s (withValues c.anchor N D probes) ≤ φ := by
  intro probes
  induction probes with
  | nil =>
    intro past s φ _ _ h
    exact ⟨s, φ, rfl, by simpa using h, by simp [withValues, hits]⟩
  | cons q probes ih =>
    intro past s φ h1 h2 h
    obtain ⟨s1, φ1, e1, e2, e3⟩ := feed_spec gtp hp hg hU hG (past := past) (q := q) (fun x hx => h1 x (by
      rcases List.mem_append.mp hx with hx | hx
      · simp [hx]
      · rw [List.mem_singleton.mp hx]; simp)) (by
      have : (past ++ q :: probes) = (past ++ [q]) ++ probes := by simp
      rw [this] at h2
      exact (List.nodup_append.mp h2).1) h
    obtain ⟨s2, φ2, f1, f2, f3⟩ := ih (past ++ [q]) s1 φ1 (by simpa using h1) (by simpa using h2) e2
    refine ⟨s2, φ2, ?_, by simpa using f2, ?_⟩
    · unfold Cfg.feedAll withValues at f1 ⊢
      rw [List.map_cons, List.foldlM_cons, e1]; exact f1
    · unfold withValues at f3 ⊢
      rw [List.map_cons, hits, e1]
      simp only
      omega

end FireFly.RLater
