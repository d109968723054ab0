import Verif.Props.WholeShiftProps
import Verif.Props.WholeExamples
import Verif.Props.RatShiftAllExamples
/-!
# C72: examples
-/
set_option linter.all false
set_option maxRecDepth 20000
namespace FireFly.WholeShift
open MvPolynomial RRun RRun.Shifted Whole

/-! ### two objects with the function `(x + 2 y) / (x + 40/3 y)`, the shift `(1, 0)`, the primes 101, 103, 107 -/

/-- the values in the first field -/
def sval0 (t : ZMod 101) (o : List ℕ) : ZMod 101 := (1 + (1 + 2 * 2 ^ o.getD 0 0) * t) / (1 + (1 + 40 / 3 * 2 ^ o.getD 0 0) * t)

/-- the allowed probes in the first field -/
def sgood0 (q : ZMod 101 × List ℕ) : Bool := decide (q ∈ st0Probes.map (fun q => (q.1, q.2.2)))

def sfield0 : PField Bool :=
  { p := 101, fact := fact101, cfg := fun _ => { n := 2, shift := [1, 0], anchor := [2], gt := exGt 101, fuel := 100 }, value := fun _ _ => sval0, good := fun _ q => sgood0 q = true, nextP := 103 }

/-- a further field; the allowed probes are those of `s` -/
noncomputable def ofStage (s : Stage) : PField Bool :=
  haveI := s.base.fact
  { p := s.base.p, fact := s.base.fact, cfg := fun _ => s.base.cfg
    value := fun on _ t o => if on then RMulti.valueOf s.base.cfg.shift s.base.cfg.anchor (red s.base.p shN) (red s.base.p shD) t o else RLater.value s.base.cfg.anchor (red s.base.p shN) (red s.base.p shD) t o
    good := fun on q => q ∈ ((if on then s.base.probes else s.plain) : List (ZMod s.base.p × ZMod s.base.p × List ℕ)).map (fun q => (q.1, q.2.2)), nextP := s.base.nextP }

/-- the start: one probe in the first bunch, two more queued, and one for the bunch -/
def sacts0 : List (Act (ZMod 101) Bool) := [.compute (2, [1]), .feed true (2, [1]), .compute (3, [1]), .compute (4, [1]), .feed false (3, [1]), .feed false (4, [1]), .feed false (2, [1]), .feed true (4, [1]), .feed true (3, [1]),
  .look false, .entry false [(5, [2]), (7, [2])], .compute (7, [2]), .compute (5, [2]), .feed true (5, [2]), .feed false (7, [2]), .feed false (5, [2]), .feed true (7, [2])]

def sfed0 : Option (First.Fld (ZMod 101) sfield0.firstObjs) :=
  ((sfield0.firstObjs true).feed (sfield0.firstObjs true).init (1, [1])).map (fun x => First.Fld.start sfield0.firstObjs 2 [1] [2, 3] [4] (fun _ => x))

lemma sfed0_done : (sfed0.bind (fun s => sacts0.foldlM (exec 2 sgood0) s)).map (fun s => (sfield0.firstObjs true).done (s.st true) && (sfield0.firstObjs false).done (s.st false)) = some true := by decide +kernel

lemma sval0_eq (t : ZMod 101) (o : List ℕ) : sval0 t o = RMulti.valueOf [1, 0] [2] (C 1 * X 0 + C 2 * X 1) (C 1 * X 0 + C (40 / 3) * X 1) t o := by
  unfold RMulti.valueOf sval0
  have h := fun a b => exShift_eval (gt := fun _ _ => true) (F := ZMod 101) a b t o
  simp only [exShift] at h
  rw [h, h]
  congr 1 <;> ring

lemma sgood0_mem {q : ZMod 101 × List ℕ} (h : sgood0 q = true) : q ∈ st0Probes.map (fun q => (q.1, q.2.2)) := of_decide_eq_true h

lemma sgood0_all : ∀ q ∈ st0Probes.map (fun q => (q.1, q.2.2)), q.1 ≠ 0 ∧ sval0 q.1 q.2 ≠ 0 ∧ (q.2 = [1] → q.1 ∈ ([1, 2, 3, 4] : List (ZMod 101))) := by decide +kernel

lemma sthiele0 : ∀ l ∈ lists 4, l.Nodup → (∀ t ∈ l, t ∈ ([1, 2, 3, 4] : List (ZMod 101))) → ((({} : Thiele (ZMod 101)).runChecked (l.map (fun t => (sval0 t [1], t)))).map (fun r => !r.2 || decide (2 ≤ r.1.ti.length))) = some true := by decide +kernel

lemma sfirst_good (i : Bool) : FirstGood 2 shN shD shS sfield0 i 1 1 1 := by
  have eN : red 101 shN = C 1 * X 0 + C 2 * X 1 := by rw [shN, red_lin]; simp
  have eD : red 101 shD = C 1 * X 0 + C (40 / 3) * X 1 := by rw [shD, red_lin, cast_40]; simp
  have gN : C (1 : ZMod 101) * red 101 shN = C 1 * X 0 + C 2 * X 1 := by rw [eN, C_1, one_mul]
  have gD : C (1 : ZMod 101) * red 101 shD = C 1 * X 0 + C (40 / 3) * X 1 := by rw [eD, C_1, one_mul]
  have h := sh_first
  refine ⟨⟨h.base.nvars, h.base.gt, h.base.denN, h.base.denD, h.base.numN, h.base.numD, ?_, ?_, h.base.prob, ?_, ?_⟩, h.shift, h.same, h.den0⟩
  · intro t o
    suffices sval0 t o = RMulti.valueOf (F := ZMod 101) [1, 0] [2] (red 101 shN) (red 101 shD) t o from this
    rw [eN, eD]
    exact sval0_eq t o
  · intro q hq
    exact (sgood0_all q (sgood0_mem hq)).2.1
  · suffices RMulti.GoodPts (exShift (exGt 101)) (C (1 : ZMod 101) * red 101 shN) (C (1 : ZMod 101) * red 101 shD) (fun t ord => sgood0 (t, ord) = true) from this
    rw [gN, gD]
    have := st0_good
    have e : (fun (t : ZMod 101) (ord : List ℕ) => sgood0 (t, ord) = true) = (fun t ord => (t, ord) ∈ st0Probes.map (fun q => (q.1, q.2.2))) := by
      funext t ord
      unfold sgood0
      simp only [decide_eq_true_eq]
    rw [e]
    exact this
  · suffices RMulti.ThieleGood (exShift (exGt 101)) (C (1 : ZMod 101) * red 101 shN) (C (1 : ZMod 101) * red 101 shD) 1 1 (fun t ord => sgood0 (t, ord) = true) from this
    rw [gN, gD]
    intro ts hnd hlen hg
    have hv : ts.map (fun t => (RMulti.valueOf (exShift (exGt 101)).shift (exShift (exGt 101)).anchor (C 1 * X 0 + C 2 * X 1) (C 1 * X 0 + C (40 / 3) * X 1) t (RMulti.ones (exShift (exGt 101))), t)) = ts.map (fun t => (sval0 t [1], t)) := by
      apply List.map_congr_left
      intro t _
      exact congrArg (fun x => (x, t)) (sval0_eq t [1]).symm
    rw [hv]
    have h14 : ∀ t ∈ ts, t ∈ ([1, 2, 3, 4] : List (ZMod 101)) := by
      intro t ht
      have := hg t ht
      exact (sgood0_all _ (sgood0_mem this)).2.2 rfl
    have h15 : ∀ t ∈ ts, t ∈ ([1, 2, 3, 4, 5] : List (ZMod 101)) := by
      intro t ht
      have := h14 t ht
      simp only [List.mem_cons, List.not_mem_nil, or_false] at this ⊢
      tauto
    have hl4 : ts.length ≤ 4 := hlen
    obtain ⟨r, hr, hr2⟩ := Option.map_eq_some_iff.mp (sthiele0 ts (mem_lists 4 ts hl4 h15) hnd h14)
    have hne : ∀ t ∈ ts, t ≠ 0 ∧ sval0 t [1] ≠ 0 := by
      intro t ht
      have := sgood0_all (t, [1]) (sgood0_mem (hg t ht))
      exact ⟨this.1, this.2.1⟩
    refine ⟨⟨r, hr, ?_⟩, ?_, ?_, ?_, ?_⟩
    · intro h2
      rw [h2] at hr2
      have : 2 ≤ r.1.ti.length := by simpa using hr2
      omega
    · intro q hq
      obtain ⟨t, ht, rfl⟩ := List.mem_map.mp (List.mem_of_mem_head? hq)
      exact (hne t ht).2
    · intro q hq
      obtain ⟨t, ht, rfl⟩ := List.mem_map.mp hq
      exact (hne t ht).1
    · rw [List.length_map]; omega
    · exact st0_coprime

lemma red_scale {p : ℕ} [Fact p.Prime] {l : ℚ} (h : ScaleOK p l) (h1 : ScaleOK p 1) : red p (C l * shN) = C (l : ZMod p) * red p shN ∧ red p (C l * shD) = C (l : ZMod p) * red p shD := by
  have e : ∀ f : MvPolynomial ℕ ℚ, C 1 * f = f := fun f => by rw [C_1, one_mul]
  have k : ∀ b, red p (side (C l * shN) (C l * shD) b) = C (l : ZMod p) * red p (side shN shD b) := by
    intro b
    have a1 := h.red b
    have a2 := h1.red b
    rw [e, e] at a2
    rw [a1, a2, Rat.cast_one, C_mul, one_mul, C_1]
    ring
  exact ⟨k false, k true⟩

/-- multiplication from the left -/
def mulBy (p : ℕ) [Fact p.Prime] (a v : ZMod p) : ZMod p := v * a

lemma shiftGood_of {s : Stage} {l : ℚ} (hl : haveI := s.base.fact; ScaleOK s.base.p l) (h1 : haveI := s.base.fact; ScaleOK s.base.p 1) (h : ShiftOK 2 (C l * shN) (C l * shD) shS true s.base) (hne : ∀ q ∈ s.base.probes, q.2.1 ≠ 0) (i : Bool) :
    ShiftGood 2 (C l * shN) (C l * shD) shS true (ofStage s) i := by
  haveI := s.base.fact
  have key : ∀ (t : ZMod s.base.p) (o : List ℕ), RMulti.valueOf s.base.cfg.shift s.base.cfg.anchor (red s.base.p shN) (red s.base.p shD) t o = RMulti.valueOf s.base.cfg.shift s.base.cfg.anchor (red s.base.p (C l * shN)) (red s.base.p (C l * shD)) t o := by
    intro t o
    rw [(red_scale hl h1).1, (red_scale hl h1).2, Shifted.value_scale _ _ hl.l0]
  have hv : ∀ (t : ZMod s.base.p) (o : List ℕ), (ofStage s).value true i t o = RMulti.valueOf s.base.cfg.shift s.base.cfg.anchor (red s.base.p (C l * shN)) (red s.base.p (C l * shD)) t o := key
  refine ⟨h.nvars, h.lenShift, h.anchorLen, h.anchor, h.gt, h.denom, h.norm, h.same, h.distinct, h.large, hv, ?_, ?_⟩
  · intro q hq
    have hq : q ∈ s.base.probes.map (fun q => (q.1, q.2.2)) := hq
    obtain ⟨x, hx, rfl⟩ := List.mem_map.mp hq
    obtain ⟨a, b, c⟩ := h.values x hx
    refine ⟨a, b, ?_⟩
    intro h0
    exact hne x hx (c.trans ((hv _ _).symm.trans h0))
  · intro ord A B ts hA hB a b c x y e
    refine h.det ord A B ts hA hB a b c x y (fun t ht => ?_)
    exact (e t ht).trans (congrArg (mulBy s.base.p _) (hv t ord))

lemma plainGood_of {s : Stage} {l : ℚ} (hl : haveI := s.base.fact; ScaleOK s.base.p l) (h1 : haveI := s.base.fact; ScaleOK s.base.p 1) (h : PlainOK 2 (C l * shN) (C l * shD) (s.at false)) (hne : ∀ q ∈ s.plain, q.2.1 ≠ 0) (i : Bool) :
    PlainGood 2 (C l * shN) (C l * shD) (ofStage s) i := by
  haveI := s.base.fact
  have key : ∀ (t : ZMod s.base.p) (o : List ℕ), RLater.value s.base.cfg.anchor (red s.base.p shN) (red s.base.p shD) t o = RLater.value s.base.cfg.anchor (red s.base.p (C l * shN)) (red s.base.p (C l * shD)) t o := by
    intro t o
    rw [(red_scale hl h1).1, (red_scale hl h1).2, ← value_zero _ 2, ← value_zero _ 2, Shifted.value_scale _ _ hl.l0]
  have hv : ∀ (t : ZMod s.base.p) (o : List ℕ), (ofStage s).value false i t o = RLater.value s.base.cfg.anchor (red s.base.p (C l * shN)) (red s.base.p (C l * shD)) t o := key
  refine ⟨h.field.nvars, h.field.anchorLen, h.field.anchor, h.field.gt, h.field.denN, h.field.denD, h.field.distinct, hv, ?_, ?_⟩
  · intro q hq
    have hq : q ∈ s.plain.map (fun q => (q.1, q.2.2)) := hq
    obtain ⟨x, hx, rfl⟩ := List.mem_map.mp hq
    obtain ⟨a, b, c⟩ := h.field.values x hx
    refine ⟨a, b, ?_⟩
    intro h0
    exact hne x hx (c.trans ((hv _ _).symm.trans h0))
  · intro ord A B ts hA hB h0 a b c x y e
    refine h.det ord A B ts hA hB h0 a b c x y (fun t ht => ?_)
    exact (e t ht).trans (congrArg (mulBy s.base.p _) (hv t ord))

lemma st1_ne : (∀ q ∈ st1Probes, q.2.1 ≠ 0) ∧ ∀ q ∈ st1Plain, q.2.1 ≠ 0 := by decide +kernel
lemma st2_ne : (∀ q ∈ st2Probes, q.2.1 ≠ 0) ∧ ∀ q ∈ st2Plain, q.2.1 ≠ 0 := by decide +kernel

/-- the assumptions hold -/
lemma sh_hyp : Hyp 2 (fun _ : Bool => shN) (fun _ => shD) (fun _ => shS) sfield0 [ofStage st1, ofStage st2] := by
  refine ⟨le_rfl, fun _ => lin_vars one_ne_zero (by norm_num), fun _ => lin_vars one_ne_zero (by norm_num), fun i => ⟨1, 1, 1, sfirst_good i⟩, ?_, by norm_num⟩
  intro i l hl hno
  have hc := sh_scale hno
  obtain ⟨-, -, hx, -, -, hy, -⟩ := sh_runs hl hno
  exact ⟨shiftGood_of (scale103 hc) (scale103 (Or.inl rfl)) (sh_fits1 hl hc true) st1_ne.1 i, plainGood_of (scale103 hc) (scale103 (Or.inl rfl)) (sh_fits1 hl hc false) st1_ne.2 i, by decide, hx,
    shiftGood_of (scale107 hc) (scale107 (Or.inl rfl)) (sh_fits2 hl hc true) st2_ne.1 i, plainGood_of (scale107 hc) (scale107 (Or.inl rfl)) (sh_fits2 hl hc false) st2_ne.2 i, by decide, hy, trivial⟩

lemma sh_small {l : ℚ} (h : HasOne (C l * shN) (C l * shD)) : AllSmall (C l * shN) (C l * shD) (sfield0.p * prod [ofStage st1]) := by
  have hc := sh_scale h
  have e : (sfield0.p : ℤ) * prod [ofStage st1] = (101 : ℕ) * (103 : ℕ) := by
    unfold prod; simp; rfl
  rw [e]
  have hB : ∀ q : ℕ, 80 < q → Below (C l * shN) q ∧ Below (C l * shD) q := fun q hq => ⟨sh_below hc hq false, sh_below hc hq true⟩
  obtain ⟨a1, a2⟩ := hB 101 (by norm_num)
  obtain ⟨b1, b2⟩ := hB 103 (by norm_num)
  exact fun m => ⟨below_small a1 b1 m, below_small a2 b2 m⟩

/-- the first field, with the schedule above -/
lemma sh_firstField : ∃ st, FirstField mpzInvert idOrder 2 sfield0 st := by
  obtain ⟨b, hb, hbd⟩ := Option.map_eq_some_iff.mp sfed0_done
  obtain ⟨s0, h0, h1⟩ := Option.bind_eq_some_iff.mp hb
  obtain ⟨x, hx, rfl⟩ := Option.map_eq_some_iff.mp h0
  rw [Bool.and_eq_true] at hbd
  refine ⟨⟨true, fun i => Fn.of (Shifted.prime mpzInvert idOrder (Shifted.Cross.initial sfield0.p) (sfield0.stage i false (b.got i)))⟩, [1], [2, 3], [4], _, b, ⟨by simp, rfl, by decide, ?_, ?_, rfl⟩, exec_reaches sacts0 h1, ?_, rfl, fun i => rfl⟩
  · show ∀ t ∈ ([1] ++ [2, 3] ++ [4] : List (ZMod 101)), sgood0 (t, [1]) = true
    decide +kernel
  · intro i
    show ([(1, [1])] : List (ZMod 101 × List ℕ)).foldlM (sfield0.firstObjs i).feed (sfield0.firstObjs i).init = some x
    have hx : (sfield0.firstObjs i).feed (sfield0.firstObjs i).init (1, [1]) = some x := hx
    have e : ∀ (f : RMulti.St (ZMod 101) → ZMod 101 × List ℕ → Option (RMulti.St (ZMod 101))) (s x : RMulti.St (ZMod 101)) (q : ZMod 101 × List ℕ), f s q = some x → [q].foldlM f s = some x := by
      intro f s x q h
      rw [List.foldlM_cons, h]; rfl
    exact e _ _ _ _ hx
  · intro i
    cases i
    · exact hbd.2
    · exact hbd.1

lemma sh_supply {s : Stage} (h1 : ∀ o, 1 ≤ o → o ≤ 2 → ∃ ts : List (ZMod s.base.p), ts.Nodup ∧ 3 ≤ ts.length ∧ ∀ t ∈ ts, (t, [o]) ∈ s.base.probes.map (fun q => (q.1, q.2.2)))
    (h2 : ∀ o, 1 ≤ o → o ≤ 2 → ∃ ts : List (ZMod s.base.p), ts.Nodup ∧ 2 ≤ ts.length ∧ ∀ t ∈ ts, (t, [o]) ∈ s.plain.map (fun q => (q.1, q.2.2))) :
    Supply 2 (fun _ : Bool => shN) (fun _ => shD) (fun _ => shS) (fun i => (sfield0.cfg i).normDen) (ofStage s) ∧ ∀ on, ∃ t, (ofStage s).good on (t, List.replicate (2 - 1) 1) := by
  refine ⟨fun i o ho => ⟨?_, ?_⟩, ?_⟩
  · rintro ⟨b, j, hb⟩
    obtain ⟨ts, a, b, c⟩ := h1 o ho (le_trans hb (sh_two b j))
    exact ⟨ts, a, le_trans sh_cards b, c⟩
  · have a1 := sh_numDegs false o
    have a2 := sh_numDegs true o
    have a3 : numDegs shN o + numDegs shD o ≤ if o ≤ 2 then 2 else 0 := by
      show numDegs (side shN shD false) o + numDegs (side shN shD true) o ≤ _
      split_ifs at a1 a2 ⊢ <;> omega
    by_cases h : o ≤ 2
    · rw [if_pos h] at a3
      obtain ⟨ts, a, b, c⟩ := h2 o ho h
      exact ⟨ts, a, le_trans a3 b, c⟩
    · rw [if_neg h] at a3
      exact ⟨[], List.nodup_nil, a3, by simp⟩
  · intro on
    cases on with
    | true =>
      obtain ⟨ts, a, b, c⟩ := h1 1 le_rfl (by omega)
      rcases ts with _ | ⟨t, ts⟩
      · simp at b
      · exact ⟨t, c t (by simp)⟩
    | false =>
      obtain ⟨ts, a, b, c⟩ := h2 1 le_rfl (by omega)
      rcases ts with _ | ⟨t, ts⟩
      · simp at b
      · exact ⟨t, c t (by simp)⟩

lemma two_cases {P : ℕ → Prop} (h1 : P 1) (h2 : P 2) : ∀ o, 1 ≤ o → o ≤ 2 → P o := by
  intro o a b
  obtain rfl | rfl : o = 1 ∨ o = 2 := by omega
  · exact h1
  · exact h2

lemma sup1a : ([1, 2, 3] : List (ZMod 103)).Nodup ∧ 3 ≤ ([1, 2, 3] : List (ZMod 103)).length ∧ ∀ t ∈ ([1, 2, 3] : List (ZMod 103)), (t, [1]) ∈ st1Probes.map (fun q => (q.1, q.2.2)) := by decide +kernel
lemma sup1b : ([4, 5, 6] : List (ZMod 103)).Nodup ∧ 3 ≤ ([4, 5, 6] : List (ZMod 103)).length ∧ ∀ t ∈ ([4, 5, 6] : List (ZMod 103)), (t, [2]) ∈ st1Probes.map (fun q => (q.1, q.2.2)) := by decide +kernel
lemma sup1c : ([1, 2] : List (ZMod 103)).Nodup ∧ 2 ≤ ([1, 2] : List (ZMod 103)).length ∧ ∀ t ∈ ([1, 2] : List (ZMod 103)), (t, [1]) ∈ st1Plain.map (fun q => (q.1, q.2.2)) := by decide +kernel
lemma sup1d : ([3, 4] : List (ZMod 103)).Nodup ∧ 2 ≤ ([3, 4] : List (ZMod 103)).length ∧ ∀ t ∈ ([3, 4] : List (ZMod 103)), (t, [2]) ∈ st1Plain.map (fun q => (q.1, q.2.2)) := by decide +kernel
lemma sup2a : ([1, 2, 4] : List (ZMod 107)).Nodup ∧ 3 ≤ ([1, 2, 4] : List (ZMod 107)).length ∧ ∀ t ∈ ([1, 2, 4] : List (ZMod 107)), (t, [1]) ∈ st2Probes.map (fun q => (q.1, q.2.2)) := by decide +kernel
lemma sup2b : ([4, 5, 6] : List (ZMod 107)).Nodup ∧ 3 ≤ ([4, 5, 6] : List (ZMod 107)).length ∧ ∀ t ∈ ([4, 5, 6] : List (ZMod 107)), (t, [2]) ∈ st2Probes.map (fun q => (q.1, q.2.2)) := by decide +kernel
lemma sup2c : ([1, 2] : List (ZMod 107)).Nodup ∧ 2 ≤ ([1, 2] : List (ZMod 107)).length ∧ ∀ t ∈ ([1, 2] : List (ZMod 107)), (t, [1]) ∈ st2Plain.map (fun q => (q.1, q.2.2)) := by decide +kernel
lemma sup2d : ([3, 4] : List (ZMod 107)).Nodup ∧ 2 ≤ ([3, 4] : List (ZMod 107)).length ∧ ∀ t ∈ ([3, 4] : List (ZMod 107)), (t, [2]) ∈ st2Plain.map (fun q => (q.1, q.2.2)) := by decide +kernel

lemma sh_supply1 : Supply 2 (fun _ : Bool => shN) (fun _ => shD) (fun _ => shS) (fun i => (sfield0.cfg i).normDen) (ofStage st1) ∧ ∀ on, ∃ t, (ofStage st1).good on (t, List.replicate (2 - 1) 1) := by
  exact sh_supply (two_cases ⟨_, sup1a⟩ ⟨_, sup1b⟩) (two_cases ⟨_, sup1c⟩ ⟨_, sup1d⟩)

lemma sh_supply2 : Supply 2 (fun _ : Bool => shN) (fun _ => shD) (fun _ => shS) (fun i => (sfield0.cfg i).normDen) (ofStage st2) ∧ ∀ on, ∃ t, (ofStage st2).good on (t, List.replicate (2 - 1) 1) := by
  exact sh_supply (two_cases ⟨_, sup2a⟩ ⟨_, sup2b⟩) (two_cases ⟨_, sup2c⟩ ⟨_, sup2d⟩)

/-- The hypotheses of the theorems hold, and there is such a run, in which both functions are reported: with the primes 101, 103, and, if needed, 107. No degree of the functions has one monomial only, and the shift is kept after the first field. -/
example : (∃ st, Run mpzInvert idOrder 2 sfield0 [] st ∧ Nonempty (Open st)) ∧ ∃ (fs : List (PField Bool)) (st : State Bool), fs <+: [ofStage st1, ofStage st2] ∧ Run mpzInvert idOrder 2 sfield0 fs st ∧
    ∀ i, ∃ N D, st.fn i = .closed (some (.finished N D)) ∧ (Right shN shD N D ∨ Early 2 shN shD i sfield0 fs N D) := by
  obtain ⟨st1', h1⟩ := sh_firstField
  refine ⟨⟨st1', ⟨st1', h1, .nil _⟩, ?_⟩, ?_⟩
  · obtain ⟨-, hf⟩ := first_all (inv := mpzInvert) idOrder_ok sh_hyp.varsN sh_hyp.varsD sh_hyp.first h1
    obtain ⟨l, c, -, -, hc, -⟩ := hf true
    exact ⟨true, by rw [hc]; rfl⟩
  obtain ⟨fs, st, h2, h3, h4⟩ := C72_complete (fs1 := []) (fs2 := [ofStage st1, ofStage st2]) mpzInvert_spec idOrder_ok sh_hyp (by
    intro g hg
    simp only [List.mem_cons, List.not_mem_nil, or_false] at hg
    rcases hg with rfl | rfl
    · exact sh_supply1
    · exact sh_supply2) ⟨st1', h1, .nil _⟩
  refine ⟨fs, st, h2, h3, ?_⟩
  rcases h4 with rfl | h4
  · exact C72_all mpzInvert_spec idOrder_ok sh_hyp h3 (fs1 := [ofStage st1]) (g := ofStage st2) (fs2 := []) rfl (fun i l l0 hno => sh_small hno)
  · exact h4

end FireFly.WholeShift
