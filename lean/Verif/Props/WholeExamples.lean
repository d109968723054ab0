import Verif.Props.WholeProps
import Verif.Props.RatRunExamples
/-!
# C69: examples
-/
set_option linter.all false
set_option maxRecDepth 20000
namespace FireFly.Whole
open MvPolynomial RRun

/-! ### a schedule that is executed -/

/-- what a thread does -/
inductive Act (F ι : Type) where
  | compute (q : F × List ℕ)
  | feed (i : ι) (q : F × List ℕ)
  | look (i : ι)
  | entry (i : ι) (new : List (F × List ℕ))

section
variable {F ι : Type} [DecidableEq ι] [DecidableEq F] {objs : ι → First.Obj F}

/-- one step; `none`: it is not possible -/
def exec (n : ℕ) (goodb : F × List ℕ → Bool) (s : First.Fld F objs) : Act F ι → Option (First.Fld F objs)
  | .compute q => if q ∈ s.probes ∧ q ∉ s.computed then some { s with computed := s.computed ++ [q], balance := if q.2 = List.replicate (n - 1) 1 then s.balance + 1 else s.balance } else none
  | .feed i q => if q ∈ s.computed ∧ q ∉ s.got i then
      ((objs i).feed (s.st i) q).map (fun x => { s with st := Function.update s.st i x, got := Function.update s.got i (s.got i ++ [q]), pend := Function.update s.pend i true }) else none
  | .look i => if s.pend i = true ∧ (objs i).done (s.st i) = false then
      ((objs i).orders (s.st i)).map (fun x => { s with pend := Function.update s.pend i false, todo := Function.update s.todo i (s.todo i ++ First.asks n x.1 x.2) }) else none
  | .entry i new => match s.todo i with
    | .entry el size :: b => if new.map Prod.snd = (Needed.Req.askOrder size { started := s.started } el).queued ∧ (s.probes ++ new).Nodup ∧ new.all goodb = true then
        some { s with started := (Needed.Req.askOrder size { started := s.started } el).started, probes := s.probes ++ new, todo := Function.update s.todo i b } else none
    | _ => none

lemma exec_step {n : ℕ} {goodb : F × List ℕ → Bool} {s s' : First.Fld F objs} {a : Act F ι} (h : exec n goodb s a = some s') : First.Step objs n (fun q => goodb q = true) s s' := by
  cases a with
  | compute q =>
    unfold exec at h
    simp only at h
    by_cases hc : q ∈ s.probes ∧ q ∉ s.computed
    · rw [if_pos hc] at h
      obtain rfl := Option.some.inj h
      exact .compute s q hc.1 hc.2
    · rw [if_neg hc] at h; cases h
  | feed i q =>
    unfold exec at h
    simp only at h
    by_cases hc : q ∈ s.computed ∧ q ∉ s.got i
    · rw [if_pos hc] at h
      obtain ⟨x, hx, rfl⟩ := Option.map_eq_some_iff.mp h
      exact .feed s i q x hc.1 hc.2 hx
    · rw [if_neg hc] at h; cases h
  | look i =>
    unfold exec at h
    simp only at h
    by_cases hc : s.pend i = true ∧ (objs i).done (s.st i) = false
    · rw [if_pos hc] at h
      obtain ⟨x, hx, rfl⟩ := Option.map_eq_some_iff.mp h
      exact .look s i x.1 x.2 hc.1 hc.2 hx
    · rw [if_neg hc] at h; cases h
  | entry i new =>
    unfold exec at h
    simp only at h
    split at h
    · rename_i el size b htodo
      by_cases hc : new.map Prod.snd = (Needed.Req.askOrder size { started := s.started } el).queued ∧ (s.probes ++ new).Nodup ∧ new.all goodb = true
      · rw [if_pos hc] at h
        obtain rfl := Option.some.inj h
        exact First.Step.entry s i el size [] b new htodo hc.1 hc.2.1 (fun q hq => List.all_eq_true.mp hc.2.2 q hq)
      · rw [if_neg hc] at h; cases h
    · cases h

lemma exec_reaches {n : ℕ} {goodb : F × List ℕ → Bool} (acts : List (Act F ι)) : ∀ {s s' : First.Fld F objs}, acts.foldlM (exec n goodb) s = some s' → First.Reaches objs n (fun q => goodb q = true) s s' := by
  induction acts with
  | nil =>
    intro s s' h
    obtain rfl := Option.some.inj h
    exact Relation.ReflTransGen.refl
  | cons a acts ih =>
    intro s s' h
    rw [List.foldlM_cons] at h
    obtain ⟨x, hx, h2⟩ := Option.bind_eq_some_iff.mp h
    exact Relation.ReflTransGen.head (exec_step hx) (ih h2)

end

/-! ### two objects with the function `x / (x + 40/3 y)`, the primes 101, 103, 107 -/

def goodb0 (q : ZMod 101 × List ℕ) : Bool := (decide (q.2 = [1]) && decide (q.1 ∈ ([1, 2, 3, 4, 5] : List (ZMod 101)))) || (decide (q.2 = [2]) && decide (q.1 ∈ ([1, 2, 3, 5, 6, 7] : List (ZMod 101))))

def val0 (t : ZMod 101) (ord : List ℕ) : ZMod 101 := (t + 1) / (t + 1 + (40 / 3) * (t * 2 ^ ord.getD 0 0))

def field0 : PField Bool := { p := 101, fact := fact101, cfg := fun _ => rr0.cfg, value := fun _ => val0, good := fun q => goodb0 q = true, nextP := 103 }

/-- a further prime field with the anchor point `y` -/
def fieldN (p : ℕ) (hp : Fact p.Prime) (y : ZMod p) (gt : ZMod p → ZMod p → Bool) (nextP : ℕ) : PField Bool :=
  { p := p, fact := hp, cfg := fun _ => { n := 2, shift := [0, 0], anchor := [y], gt := gt, fuel := 100 }
    value := fun _ t o => t / (t * (1 + 40 / 3 * y ^ o.getD 0 0))
    good := fun q => (∃ o, q.2 = [o]) ∧ q.1 ≠ 0 ∧ 1 + (40 / 3 : ZMod p) * y ^ q.2.getD 0 0 ≠ 0, nextP := nextP }

def field1 : PField Bool := fieldN 103 fact103 3 (exGt 103) 107
def field2 : PField Bool := fieldN 107 fact107 5 (exGt 107) 109

/-- the start: one probe in the first bunch, two more queued, and one for the bunch -/
def acts0 : List (Act (ZMod 101) Bool) := [.compute (2, [1]), .feed true (2, [1]), .compute (3, [1]), .compute (4, [1]), .feed false (3, [1]), .feed false (4, [1]), .feed false (2, [1]), .feed true (4, [1]), .feed true (3, [1]),
  .look false, .entry false [(5, [2]), (6, [2])], .compute (6, [2]), .compute (5, [2]), .feed true (5, [2]), .feed false (6, [2]), .feed false (5, [2]), .feed true (6, [2])]

def fed0 : Option (First.Fld (ZMod 101) field0.firstObjs) :=
  ((field0.firstObjs true).feed (field0.firstObjs true).init (1, [1])).map (fun x => First.Fld.start field0.firstObjs 2 [1] [2, 3] [4] (fun _ => x))

lemma fed0_done : (fed0.bind (fun s => acts0.foldlM (exec 2 goodb0) s)).map (fun s => (field0.firstObjs true).done (s.st true) && (field0.firstObjs false).done (s.st false)) = some true := by decide +kernel


lemma val0_eq (t : ZMod 101) (ord : List ℕ) : val0 t ord = RMulti.valueOf (F := ZMod 101) rr0.cfg.shift rr0.cfg.anchor (C 1 * X 0 + C 0 * X 1) (C 1 * X 0 + C (40 / 3) * X 1) t ord := (rr0_value t ord).symm

lemma goodb0_mem {q : ZMod 101 × List ℕ} (h : goodb0 q = true) : q ∈ ([1, 2, 3, 4, 5] : List (ZMod 101)).map (fun t => (t, [1])) ++ ([1, 2, 3, 5, 6, 7] : List (ZMod 101)).map (fun t => (t, [2])) := by
  obtain ⟨t, o⟩ := q
  unfold goodb0 at h
  simp only [Bool.or_eq_true, Bool.and_eq_true, decide_eq_true_eq] at h
  rw [List.mem_append]
  rcases h with ⟨rfl, h⟩ | ⟨rfl, h⟩
  · exact Or.inl (List.mem_map.mpr ⟨t, h, rfl⟩)
  · exact Or.inr (List.mem_map.mpr ⟨t, h, rfl⟩)

lemma good0_all : ∀ q ∈ ([1, 2, 3, 4, 5] : List (ZMod 101)).map (fun t => (t, [1])) ++ ([1, 2, 3, 5, 6, 7] : List (ZMod 101)).map (fun t => (t, [2])),
    (q.1 ≠ 0 ∧ q.1 + 1 ≠ 0 ∧ q.1 + 1 + (40 / 3) * (q.1 * 2 ^ q.2.getD 0 0) ≠ 0 ∧ (40 / 3 : ZMod 101) * 2 ^ q.2.getD 0 0 ≠ 0) ∧ val0 q.1 q.2 ≠ 0 := by decide +kernel

/-- all lists of at most `k` of the values -/
def lists : ℕ → List (List (ZMod 101))
  | 0 => [[]]
  | k + 1 => [] :: (lists k).flatMap (fun l => ([1, 2, 3, 4, 5] : List (ZMod 101)).map (fun t => t :: l))

lemma mem_lists (k : ℕ) : ∀ l : List (ZMod 101), l.length ≤ k → (∀ t ∈ l, t ∈ ([1, 2, 3, 4, 5] : List (ZMod 101))) → l ∈ lists k := by
  induction k with
  | zero =>
    intro l h _
    have : l = [] := List.length_eq_zero_iff.mp (by omega)
    rw [this]; exact List.mem_cons_self
  | succ k ih =>
    intro l h hm
    cases l with
    | nil => exact List.mem_cons_self
    | cons t l =>
      refine List.mem_cons_of_mem _ (List.mem_flatMap.mpr ⟨l, ih l (by simp at h; omega) (fun x hx => hm x (by simp [hx])), List.mem_map.mpr ⟨t, hm t (by simp), rfl⟩⟩)

lemma thiele0 : ∀ l ∈ lists 4, l.Nodup → ((({} : Thiele (ZMod 101)).runChecked (l.map (fun t => (val0 t [1], t)))).map (fun r => !r.2 || decide (2 ≤ r.1.ti.length))) = some true := by decide +kernel

lemma first_good (i : Bool) : FirstGood 2 exN exD field0 i 1 1 1 := by
  have eN : red 101 exN = C 1 * X 0 + C 0 * X 1 := by rw [exN, red_lin]; simp
  have eD : red 101 exD = C 1 * X 0 + C (40 / 3) * X 1 := by rw [exD, red_lin, cast_40]; simp
  have gN : C (1 : ZMod 101) * red 101 exN = C 1 * X 0 + C 0 * X 1 := by rw [eN, C_1, one_mul]
  have gD : C (1 : ZMod 101) * red 101 exD = C 1 * X 0 + C (40 / 3) * X 1 := by rw [eD, C_1, one_mul]
  have h := ex_first
  refine ⟨h.nvars, h.gt, h.denN, h.denD, h.numN, h.numD, ?_, ?_, ?_, ?_, ?_⟩
  · intro t o
    suffices val0 t o = RMulti.valueOf (F := ZMod 101) rr0.cfg.shift rr0.cfg.anchor (red 101 exN) (red 101 exD) t o from this
    rw [eN, eD]
    exact val0_eq t o
  · intro q hq
    exact (good0_all q (goodb0_mem hq)).2
  · exact h.prob
  · suffices RMulti.GoodPts (exShift (exGt 101)) (C (1 : ZMod 101) * red 101 exN) (C (1 : ZMod 101) * red 101 exD) (fun t ord => goodb0 (t, ord) = true) from this
    rw [gN, gD]
    refine exShift_good (gt := exGt 101) (c := (40 / 3 : ZMod 101)) (fun t ord => goodb0 (t, ord) = true) ?_
    intro t ord h
    exact (good0_all (t, ord) (goodb0_mem h)).1
  · suffices RMulti.ThieleGood (exShift (exGt 101)) (C (1 : ZMod 101) * red 101 exN) (C (1 : ZMod 101) * red 101 exD) 1 1 (fun t ord => goodb0 (t, ord) = true) from this
    rw [gN, gD]
    intro ts hnd hlen hg
    have hv : ts.map (fun t => (RMulti.valueOf (exShift (exGt 101)).shift (exShift (exGt 101)).anchor (C 1 * X 0 + C 0 * X 1) (C 1 * X 0 + C (40 / 3) * X 1) t (RMulti.ones (exShift (exGt 101))), t)) = ts.map (fun t => (val0 t [1], t)) := by
      apply List.map_congr_left
      intro t _
      exact congrArg (fun x => (x, t)) (val0_eq t [1]).symm
    rw [hv]
    have h15 : ∀ t ∈ ts, t ∈ ([1, 2, 3, 4, 5] : List (ZMod 101)) := by
      intro t ht
      have := hg t ht
      unfold goodb0 at this
      have e1 : (RMulti.ones (exShift (exGt 101) : RMulti.Cfg (ZMod 101))) = [1] := rfl
      rw [e1] at this
      simpa using this
    have hl4 : ts.length ≤ 4 := hlen
    obtain ⟨r, hr, hr2⟩ := Option.map_eq_some_iff.mp (thiele0 ts (mem_lists 4 ts hl4 h15) hnd)
    have hne : ∀ t ∈ ts, t ≠ 0 ∧ val0 t [1] ≠ 0 := by
      intro t ht
      have := good0_all (t, [1]) (goodb0_mem (hg t ht))
      exact ⟨this.1.1, this.2⟩
    refine ⟨⟨r, hr, ?_⟩, ?_, ?_, ?_, ?_⟩
    · intro h2
      rw [h2] at hr2
      have : 2 ≤ r.1.ti.length := by simpa using hr2
      omega
    · intro q hq
      obtain ⟨t, ht, rfl⟩ := List.mem_map.mp (List.mem_of_mem_head? hq)
      exact (hne t ht).2
    · intro q hq
      obtain ⟨t, ht, rfl⟩ := List.mem_map.mp hq
      exact (hne t ht).1
    · rw [List.length_map]; omega
    · exact exShift_coprime (gt := exGt 101) (by decide +kernel)

lemma later_good {e : List ℕ} (he : e.toFinsupp = Finsupp.single 0 1) {p : ℕ} (hpr : Fact p.Prime) {y : ZMod p} {gt : ZMod p → ZMod p → Bool} {nextP : ℕ} (hp : 3 < p) (hgt : PivotOrder gt) (hy : y ≠ 0 ∧ y ≠ 1) (i : Bool) :
    LaterGood 2 exN exD false e (fieldN p hpr y gt nextP) i := by
  have eN : red p exN = C 1 * X 0 + C 0 * X 1 := by rw [exN, red_lin]; simp
  have eD : red p exD = C 1 * X 0 + C (40 / 3) * X 1 := by
    rw [exD, red_lin]
    rw [cast_40]; simp
  have ev : ∀ (t a b : ZMod p) (o : List ℕ), eval (RLater.at_ [y] t o) (C a * X 0 + C b * X 1) = t * (a + b * y ^ o.getD 0 0) := by
    intro t a b o
    simp [RLater.at_, RMulti.dir]; ring
  have hval : ∀ (t : ZMod p) (o : List ℕ), t / (t * (1 + 40 / 3 * y ^ o.getD 0 0)) = RLater.value [y] (red p exN) (red p exD) t o := by
    intro t o
    unfold RLater.value
    rw [eN, eD, ev, ev, zero_mul, add_zero, mul_one]
  have hden : ∀ (t : ZMod p) (o : List ℕ), t ≠ 0 → 1 + (40 / 3 : ZMod p) * y ^ o.getD 0 0 ≠ 0 → eval (RLater.at_ [y] t o) (red p exD) ≠ 0 ∧ t / (t * (1 + 40 / 3 * y ^ o.getD 0 0)) ≠ 0 := by
    intro t o h2 h3
    rw [eD, ev]
    exact ⟨mul_ne_zero h2 h3, div_ne_zero h2 (mul_ne_zero h2 h3)⟩
  have hone : ∀ (t z : ZMod p) (o : List ℕ), t ≠ 0 → 1 + (40 / 3 : ZMod p) * y ^ o.getD 0 0 ≠ 0 → (0 : ZMod p) = t / (t * (1 + 40 / 3 * y ^ o.getD 0 0)) * (z * t) → z = 0 := by
    intro t z o h2 h3 h
    exact (mul_eq_zero.mp ((mul_eq_zero.mp h.symm).resolve_left (hden t o h2 h3).2)).resolve_right h2
  have hanc : ∀ x ∈ [y], x ≠ 0 := by simpa using hy.1
  refine ⟨rfl, rfl, hanc, hgt, fun m => (ex_den hpr.out hp m).1, fun m => (ex_den hpr.out hp m).2, ?_, hval, ?_, ?_⟩
  · intro f hf m hm m' hm' _ h
    simp only [List.mem_cons, List.not_mem_nil, or_false] at hf
    have e0 : eval (RMulti.dir [y] (List.replicate (2 - 1) 1)) (monomial (Finsupp.single 0 1) (1 : ZMod p)) = 1 := by
      simp [RMulti.dir, eval_monomial]
    have e1 : eval (RMulti.dir [y] (List.replicate (2 - 1) 1)) (monomial (Finsupp.single 1 1) (1 : ZMod p)) = y := by
      simp [RMulti.dir, eval_monomial]
    have h : eval (RMulti.dir [y] (List.replicate (2 - 1) 1)) (monomial m (1 : ZMod p)) = eval (RMulti.dir [y] (List.replicate (2 - 1) 1)) (monomial m' 1) := h
    rcases hf with rfl | rfl
    · rw [exN_support, Finset.mem_singleton] at hm hm'
      rw [hm, hm']
    · rw [exD_support, Finset.mem_insert, Finset.mem_singleton] at hm hm'
      rcases hm with rfl | rfl <;> rcases hm' with rfl | rfl
      · rfl
      · rw [e0, e1] at h; exact absurd h.symm hy.2
      · rw [e0, e1] at h; exact absurd h hy.2
      · rfl
  · rintro q ⟨⟨o, h1⟩, h2, h3⟩
    exact ⟨by rw [h1]; simp, hden q.1 q.2 h2 h3⟩
  · intro ord A B ts hA hB hnd' hts hlen x z heq
    have hA' : A = ∅ := by
      by_contra hc
      obtain ⟨j, hj⟩ := Finset.nonempty_iff_ne_empty.mpr hc
      obtain ⟨m, h1, -, h2⟩ := hA j hj
      rw [exN_support, Finset.mem_singleton] at h1
      exact h2 rfl (h1.trans he.symm)
    subst hA'
    have hB' := ex_single (A := B) (k := 1) (by
      intro j hj
      obtain ⟨m, h1, h2, -⟩ := hB j hj
      rw [exD_support, Finset.mem_insert, Finset.mem_singleton] at h1
      rw [← h2]
      rcases h1 with rfl | rfl <;> simp)
    refine ⟨by simp, ?_⟩
    rcases hB' with rfl | rfl
    · simp
    · intro k hk
      rw [Finset.mem_singleton.mp hk]
      obtain ⟨t, rfl⟩ := List.length_eq_one_iff.mp (by simpa using hlen)
      obtain ⟨-, h2, h3⟩ := hts t (by simp)
      have := heq t (by simp)
      simp only [Finset.sum_empty, Finset.sum_singleton, pow_one] at this
      exact hone t (z 1) ord h2 h3 this

lemma ex_lone (i : Bool) : ∃ g ∈ [exN, exD], ∃ m ∈ g.support, ∀ m' ∈ g.support, m'.degree = m.degree → m' = m := by
  refine ⟨exN, by simp, Finsupp.single 0 1, by rw [exN_support]; simp, ?_⟩
  intro m hm _
  rw [exN_support, Finset.mem_singleton] at hm
  exact hm

lemma ex_deceptive {M q : ℕ} (hM : 1 ≤ M) (hq : 80 < q) (m : ℕ →₀ ℕ) : ¬ Deceptive (coeff m exN) M (M * q) ∧ ¬ Deceptive (coeff m exD) M (M * q) := by
  obtain ⟨h1, h2⟩ := ex_below hq
  exact ⟨C36_not_deceptive _ _ _ (by exact_mod_cast hM) (h1 m).1 (h1 m).2, C36_not_deceptive _ _ _ (by exact_mod_cast hM) (h2 m).1 (h2 m).2⟩

/-- the assumptions hold -/
lemma ex_hyp : Hyp 2 (fun _ : Bool => exN) (fun _ => exD) field0 [field1, field2] := by
  have hone : ∀ f : MvPolynomial ℕ ℚ, C 1 * f = f := fun f => by rw [C_1, one_mul]
  refine ⟨le_rfl, fun _ => exN_vars, fun _ => exD_vars, ex_lone, fun i => ⟨1, 1, 1, first_good i⟩, ?_, by norm_num⟩
  intro i l b e hl hno
  obtain ⟨rfl, rfl, he⟩ := ex_norm hl hno
  show AllGood 2 (C 1 * exN) (C 1 * exD) false e i _ _
  rw [hone, hone]
  refine ⟨later_good he fact103 (by norm_num) (exGt_spec 103) ⟨by decide, by decide⟩ i, by decide, fun m => ?_, later_good he fact107 (by norm_num) (exGt_spec 107) ⟨by decide, by decide⟩ i, by decide, fun m => ?_, trivial⟩
  · have := ex_deceptive (M := 101) (q := 103) (by norm_num) (by norm_num) m
    exact this
  · have := ex_deceptive (M := 101 * 103) (q := 107) (by norm_num) (by norm_num) m
    have e : ((101 * 103 : ℕ) : ℤ) = (101 : ℕ) * (103 : ℕ) := by norm_num
    rw [e] at this
    exact this

lemma ex_small {l : ℚ} {b : Bool} {e : List ℕ} (hl : l ≠ 0) (h : Normalized 2 (C l * exN) (C l * exD) b e) : AllSmall (C l * exN) (C l * exD) (field0.p * prod [field1]) := by
  obtain ⟨rfl, rfl, he⟩ := ex_norm hl h
  have hone : ∀ f : MvPolynomial ℕ ℚ, C 1 * f = f := fun f => by rw [C_1, one_mul]
  rw [hone, hone]
  have e : (field0.p : ℤ) * prod [field1] = (101 : ℕ) * (103 : ℕ) := by
    unfold prod; simp; rfl
  rw [e]
  obtain ⟨a1, a2⟩ := ex_below (q := 101) (by norm_num)
  obtain ⟨b1, b2⟩ := ex_below (q := 103) (by norm_num)
  exact fun m => ⟨below_small a1 b1 m, below_small a2 b2 m⟩

/-- the first field, with the schedule above -/
lemma ex_firstField : ∃ st, FirstField mpzInvert idOrder 2 field0 st := by
  obtain ⟨b, hb, hbd⟩ := Option.map_eq_some_iff.mp fed0_done
  obtain ⟨s0, h0, h1⟩ := Option.bind_eq_some_iff.mp hb
  obtain ⟨x, hx, rfl⟩ := Option.map_eq_some_iff.mp h0
  rw [Bool.and_eq_true] at hbd
  refine ⟨fun i => Fn.of (prime mpzInvert idOrder (Cross.initial field0.p) (field0.record i (b.got i))), [1], [2, 3], [4], _, b, ⟨by simp, rfl, by decide, ?_, ?_, rfl⟩, exec_reaches acts0 h1, ?_, fun i => rfl⟩
  · show ∀ t ∈ ([1] ++ [2, 3] ++ [4] : List (ZMod 101)), goodb0 (t, [1]) = true
    decide
  · intro i
    show ([(1, [1])] : List (ZMod 101 × List ℕ)).foldlM (field0.firstObjs i).feed (field0.firstObjs i).init = some x
    have hx : (field0.firstObjs i).feed (field0.firstObjs i).init (1, [1]) = some x := hx
    have e : ∀ (f : RMulti.St (ZMod 101) → ZMod 101 × List ℕ → Option (RMulti.St (ZMod 101))) (s x : RMulti.St (ZMod 101)) (q : ZMod 101 × List ℕ), f s q = some x → [q].foldlM f s = some x := by
      intro f s x q h
      rw [List.foldlM_cons, h]; rfl
    exact e _ _ _ _ hx
  · intro i
    cases i
    · exact hbd.2
    · exact hbd.1

lemma ex_supply {p : ℕ} (hpr : Fact p.Prime) {y : ZMod p} {gt : ZMod p → ZMod p → Bool} {nextP : ℕ} (h1 : (1 : ZMod p) ≠ 2) (h2 : (2 : ZMod p) ≠ 0) (hy : 1 + (40 / 3 : ZMod p) * y ^ 1 ≠ 0) (hy2 : 1 + (40 / 3 : ZMod p) * y ^ 2 ≠ 0) :
    Supply 2 (fun _ : Bool => exN) (fun _ => exD) (fieldN p hpr y gt nextP) ∧ ∃ t, (fieldN p hpr y gt nextP).good (t, List.replicate (2 - 1) 1) := by
  have g : ∀ (t : ZMod p) (o : ℕ), t ≠ 0 → o = 1 ∨ o = 2 → (fieldN p hpr y gt nextP).good (t, List.replicate (2 - 1) o) := by
    intro t o ht ho
    refine ⟨⟨o, rfl⟩, ht, ?_⟩
    show 1 + (40 / 3 : ZMod p) * y ^ o ≠ 0
    rcases ho with rfl | rfl
    · exact hy
    · exact hy2
  refine ⟨?_, 1, g 1 1 one_ne_zero (Or.inl rfl)⟩
  intro i o ho
  have hN : (exN.support.image Finsupp.degree) = {1} := by rw [exN_support]; simp
  have hD : (exD.support.image Finsupp.degree) = {1} := by rw [exD_support]; simp
  have cN : (exN.support.filter (fun m => m.degree = 1)).card = 1 := by rw [exN_support]; simp [Finset.filter_singleton]
  have cD : (exD.support.filter (fun m => m.degree = 1)).card = 2 := by
    rw [exD_support, Finset.filter_true_of_mem]
    · rw [Finset.card_pair s01]
    · intro x hx; rw [Finset.mem_insert, Finset.mem_singleton] at hx; rcases hx with rfl | rfl <;> simp
  unfold numDegs
  rw [hN, hD, Finset.filter_singleton, Finset.filter_singleton, cN, cD]
  rcases Nat.lt_or_ge o 3 with h | h
  · have hnd : ([1, 2] : List (ZMod p)).Nodup := by simpa using h1
    refine ⟨([1, 2] : List (ZMod p)), hnd, ?_, ?_⟩
    · show _ ≤ 2
      split_ifs <;> simp
    · intro t ht
      have ht : t = 1 ∨ t = 2 := by
        have ht : t ∈ ([1, 2] : List (ZMod p)) := ht
        rcases List.mem_cons.mp ht with h | h
        · exact Or.inl h
        · exact Or.inr (List.mem_singleton.mp h)
      rcases ht with rfl | rfl
      · exact g 1 o one_ne_zero (by omega)
      · exact g 2 o h2 (by omega)
  · exact ⟨[], by simp, by rw [if_neg (by omega), if_neg (by omega)]; simp, by simp⟩

/-- The hypotheses of the theorems hold, and there is such a run, in which both functions are reported: with the primes 101, 103, and, if needed, 107. -/
example : ∃ (fs : List (PField Bool)) (st : Bool → Fn), fs <+: [field1, field2] ∧ Run mpzInvert idOrder 2 field0 fs st ∧
    ∀ i, ∃ N D, st i = .closed (some (.finished N D)) ∧ (Right 2 exN exD N D ∨ Early 2 exN exD i field0 fs N D) := by
  obtain ⟨st1, h1⟩ := ex_firstField
  obtain ⟨fs, st, h2, h3, h4⟩ := C69_complete (fs1 := []) (fs2 := [field1, field2]) mpzInvert_spec idOrder_ok ex_hyp (by
    intro g hg
    simp only [List.mem_cons, List.not_mem_nil, or_false] at hg
    rcases hg with rfl | rfl
    · exact ex_supply fact103 (by decide) (by decide) (by decide +kernel) (by decide +kernel)
    · exact ex_supply fact107 (by decide) (by decide) (by decide +kernel) (by decide +kernel)) ⟨st1, h1, .nil _⟩
  refine ⟨fs, st, h2, h3, ?_⟩
  rcases h4 with rfl | h4
  · exact C69_all mpzInvert_spec idOrder_ok ex_hyp h3 (fs1 := [field1]) (g := field2) (fs2 := []) rfl (fun i l b e l0 hno => ex_small l0 hno)
  · exact h4

end FireFly.Whole
