import Verif.Props.WholeUniProps
import Verif.Props.WholeExamples
/-!
# C71: examples
-/
set_option linter.all false
set_option maxRecDepth 20000
namespace FireFly.WholeUni
open Polynomial

/-! ### two objects, with the functions `x / (1 + 40/3 x)` and `x / (1 + 5 x)`, the primes 101, 103, 107 -/

/-- the coefficient in the denominator -/
def cf (i : Bool) : ℚ := if i then 40 / 3 else 5

noncomputable def exn : ℚ[X] := monomial 1 1
noncomputable def exd (i : Bool) : ℚ[X] := monomial 0 1 + monomial 1 (cf i)

/-- the values in a prime field -/
def val (p : ℕ) [Fact p.Prime] (i : Bool) (t : ZMod p) : ZMod p := t / (1 + (if i then 40 / 3 else 5) * t)

def field0 : PField Bool := { p := 101, fact := fact101, value := val 101, good := fun q => (decide (q.2 = []) && decide (q.1 ∈ ([1, 2, 3, 4, 5] : List (ZMod 101)))) = true, nextP := 103 }

/-- a further prime field -/
def fieldN (p : ℕ) (hp : Fact p.Prime) (nextP : ℕ) : PField Bool :=
  { p := p, fact := hp, value := val p, good := fun q => q.2 = [] ∧ q.1 ≠ 0 ∧ ∀ i : Bool, 1 + (if i then 40 / 3 else 5) * q.1 ≠ (0 : ZMod p), nextP := nextP }

def field1 : PField Bool := fieldN 103 fact103 107
def field2 : PField Bool := fieldN 107 fact107 109

lemma cast_cf (p : ℕ) [Fact p.Prime] (i : Bool) : ((cf i : ℚ) : ZMod p) = if i then 40 / 3 else 5 := by
  cases i
  · show ((5 : ℚ) : ZMod p) = 5
    exact_mod_cast Rat.cast_natCast 5
  · exact RRun.cast_40 p

lemma exd_red (p : ℕ) [Fact p.Prime] (i : Bool) : redPoly p (exd i) = monomial 0 1 + monomial 1 (if i then 40 / 3 else 5 : ZMod p) := by
  ext k
  rw [redPoly_coeff, exd, coeff_add, coeff_add, coeff_monomial, coeff_monomial, coeff_monomial, coeff_monomial]
  rcases k with _ | _ | k
  · simp
  · simp [cast_cf]
  · simp

lemma eval_n (p : ℕ) [Fact p.Prime] (t : ZMod p) : (redPoly p exn).eval t = t := by rw [exn, redPoly_monomial]; simp
lemma eval_d (p : ℕ) [Fact p.Prime] (i : Bool) (t : ZMod p) : (redPoly p (exd i)).eval t = 1 + (if i then 40 / 3 else 5) * t := by rw [exd_red]; simp

lemma coeff_n (e : ℕ) : exn.coeff e = 0 ∨ exn.coeff e = 1 := by rw [exn, coeff_monomial]; split_ifs <;> simp
lemma coeff_d (i : Bool) (e : ℕ) : (exd i).coeff e = 0 ∨ (exd i).coeff e = 1 ∨ (exd i).coeff e = 40 / 3 ∨ (exd i).coeff e = 5 := by
  rw [exd, coeff_add, coeff_monomial, coeff_monomial]
  rcases e with _ | _ | e
  · simp
  · cases i <;> simp [cf]
  · simp

lemma cf_ne (i : Bool) : cf i ≠ 0 := by cases i <;> simp [cf]

lemma supp_n {e : ℕ} (h : e ∈ exn.support) : e = 1 := by
  rw [mem_support_iff, exn, coeff_monomial] at h
  by_contra hc
  exact h (if_neg (Ne.symm hc))

lemma supp_d {i : Bool} {e : ℕ} (h : e ∈ (exd i).support) : e = 0 ∨ e = 1 := by
  rw [mem_support_iff, exd, coeff_add, coeff_monomial, coeff_monomial] at h
  rcases e with _ | _ | e
  · simp
  · simp
  · simp at h

lemma d_zero (i : Bool) : (exd i).coeff 0 = 1 := by rw [exd, coeff_add, coeff_monomial, coeff_monomial]; simp

lemma d_trail (i : Bool) : (exd i).natTrailingDegree = 0 :=
  Nat.le_zero.mp (natTrailingDegree_le_of_ne_zero (by rw [d_zero]; exact one_ne_zero))

lemma deg_n : exn.natDegree = 1 := by rw [exn]; exact natDegree_monomial_eq 1 one_ne_zero
lemma deg_d (i : Bool) : (exd i).natDegree = 1 := by
  have : (exd i) = C (cf i) * X + C 1 := by rw [exd, ← C_mul_X_pow_eq_monomial, ← C_mul_X_pow_eq_monomial]; simp [add_comm]
  rw [this]
  exact natDegree_linear (cf_ne i)

lemma den_ok {p : ℕ} (h3 : 3 < p) {q : ℚ} (h : q = 0 ∨ q = 1 ∨ q = 40 / 3 ∨ q = 5) : ¬ (p : ℤ) ∣ q.den := by
  intro hd
  have hd := Nat.le_of_dvd q.den_pos (Int.natCast_dvd_natCast.mp hd)
  have h4 : ((40 / 3 : ℚ)).den = 3 := by decide +kernel
  rcases h with rfl | rfl | rfl | rfl
  · simp at hd; omega
  · simp at hd; omega
  · rw [h4] at hd; omega
  · have : ((5 : ℚ)).den = 1 := by decide +kernel
    rw [this] at hd; omega

lemma below_ok {q : ℚ} (h : q = 0 ∨ q = 1 ∨ q = 40 / 3 ∨ q = 5) : 2 * |q.num| < 101 ∧ 2 * (q.den : ℤ) < 101 := by
  have h4 : ((40 / 3 : ℚ)).den = 3 ∧ ((40 / 3 : ℚ)).num = 40 := by decide +kernel
  have h5 : ((5 : ℚ)).den = 1 ∧ ((5 : ℚ)).num = 5 := by decide +kernel
  rcases h with rfl | rfl | rfl | rfl
  · simp
  · simp
  · rw [h4.1, h4.2]; norm_num
  · rw [h5.1, h5.2]; norm_num

lemma all_n (e : ℕ) : exn.coeff e = 0 ∨ exn.coeff e = 1 ∨ exn.coeff e = 40 / 3 ∨ exn.coeff e = 5 := by rcases coeff_n e with h | h <;> simp [h]

/-- Thiele's method works for all lists of at most four probes -/
lemma thiele0 : ∀ i : Bool, ∀ l ∈ Whole.lists 4, l.Nodup → ((({} : Thiele (ZMod 101)).runChecked (l.map (fun t => (val 101 i t, t)))).map (fun r => !r.2 || decide (2 ≤ r.1.ti.length))) = some true := by decide +kernel

lemma good0 : ∀ i : Bool, ∀ t ∈ ([1, 2, 3, 4, 5] : List (ZMod 101)), t ≠ 0 ∧ 1 + (if i then 40 / 3 else 5) * t ≠ (0 : ZMod 101) ∧ val 101 i t ≠ 0 := by decide +kernel

lemma good0_mem {q : ZMod 101 × List ℕ} (h : field0.good q) : q.2 = [] ∧ q.1 ∈ ([1, 2, 3, 4, 5] : List (ZMod 101)) := by
  have h : (decide (q.2 = []) && decide (q.1 ∈ ([1, 2, 3, 4, 5] : List (ZMod 101)))) = true := h
  rw [Bool.and_eq_true] at h
  exact ⟨of_decide_eq_true h.1, of_decide_eq_true h.2⟩

lemma first_good (i : Bool) : FirstGood exn (exd i) field0 i := by
  refine ⟨fun e => den_ok (by norm_num [field0]) (all_n e), fun e => den_ok (by norm_num [field0]) (coeff_d i e), ?_, ?_, ?_, ?_, ?_, ?_⟩
  · intro e he
    rw [supp_n he]
    show ((exn.coeff 1 : ℚ) : ZMod 101) ≠ 0
    rw [exn, coeff_monomial, if_pos rfl]; simp
  · intro e he
    show (((exd i).coeff e : ℚ) : ZMod 101) ≠ 0
    rcases supp_d he with rfl | rfl
    · rw [d_zero]; simp
    · have : (exd i).coeff 1 = cf i := by rw [exd, coeff_add, coeff_monomial, coeff_monomial]; simp
      rw [this, cast_cf]
      have hc : ∀ i : Bool, (if i then 40 / 3 else 5) ≠ (0 : ZMod 101) := by decide +kernel
      exact hc i
  · show IsCoprime (redPoly 101 exn) (redPoly 101 (exd i))
    rw [exd_red, exn, redPoly_monomial]
    refine ⟨-monomial 0 (if i then 40 / 3 else 5 : ZMod 101), 1, ?_⟩
    rw [neg_mul, monomial_mul_monomial, one_mul]
    simp
  · have key : ∀ q : ZMod 101 × List ℕ, field0.good q → q.2 = [] ∧ q.1 ≠ 0 ∧ (redPoly 101 (exd i)).eval q.1 ≠ 0 ∧ val 101 i q.1 = (redPoly 101 exn).eval q.1 / (redPoly 101 (exd i)).eval q.1 ∧ val 101 i q.1 ≠ 0 := by
      intro q hq
      obtain ⟨h1, h2⟩ := good0_mem hq
      obtain ⟨g1, g2, g3⟩ := good0 i q.1 h2
      refine ⟨h1, g1, ?_, ?_, g3⟩
      · rw [eval_d]; exact g2
      · rw [eval_d, eval_n]; rfl
    exact key
  · intro ts hnd hts hlen
    rw [deg_n, deg_d] at hlen
    have hl4 : ts.length ≤ 4 := hlen
    obtain ⟨r, hr, hr2⟩ := Option.map_eq_some_iff.mp (thiele0 i ts (Whole.mem_lists 4 ts hl4 (fun t ht => (good0_mem (hts t ht)).2)) hnd)
    refine ⟨r, hr, fun h2 => ?_⟩
    rw [h2] at hr2
    have : 2 ≤ r.1.ti.length := by simpa using hr2
    rw [deg_n, deg_d]
    exact ⟨this, le_trans this (Nat.le_succ _)⟩
  · rw [deg_n, deg_d]; decide

/-- lists of distinct elements that are all equal -/
lemma one_list {l : List ℕ} {k : ℕ} (hn : l.Nodup) (h : ∀ x ∈ l, x = k) : l = [] ∨ l = [k] := by
  rcases l with _ | ⟨x, _ | ⟨y, l⟩⟩
  · exact Or.inl rfl
  · rw [h x (by simp)]; exact Or.inr rfl
  · have e1 := h x (by simp)
    have e2 := h y (by simp)
    rw [e1, e2] at hn
    simp at hn

lemma later_good {p : ℕ} (hp : Fact p.Prime) {nextP : ℕ} (h3 : 3 < p) (i : Bool) : LaterGood exn (exd i) (fieldN p hp nextP) i := by
  refine ⟨fun e => den_ok h3 (all_n e), fun e => den_ok h3 (coeff_d i e), ?_, ?_⟩
  · have key : ∀ q : ZMod p × List ℕ, (q.2 = [] ∧ q.1 ≠ 0 ∧ ∀ i : Bool, 1 + (if i then 40 / 3 else 5) * q.1 ≠ (0 : ZMod p)) →
        q.2 = [] ∧ (redPoly p (exd i)).eval q.1 ≠ 0 ∧ val p i q.1 = (redPoly p exn).eval q.1 / (redPoly p (exd i)).eval q.1 ∧ val p i q.1 ≠ 0 := by
      rintro q ⟨h1, h2, h4⟩
      refine ⟨h1, ?_, ?_, ?_⟩
      · rw [eval_d]; exact h4 i
      · rw [eval_d, eval_n]; rfl
      · exact div_ne_zero h2 (h4 i)
    exact key
  · have key : ∀ (nn nd : List ℕ) (ts : List (ZMod p)), nn.Nodup → nd.Nodup → (∀ e ∈ nn, e ∈ exn.support) → (∀ e ∈ nd, e ∈ (exd i).support ∧ e ≠ (exd i).natTrailingDegree) → ts.Nodup →
        (∀ t ∈ ts, (([] : List ℕ) = [] ∧ t ≠ 0 ∧ ∀ i : Bool, 1 + (if i then 40 / 3 else 5) * t ≠ (0 : ZMod p))) → ts.length = nn.length + nd.length → (probeMatrix nn nd (ts.map (fun t => (t, val p i t)))).det ≠ 0 := by
      intro nn nd ts h1 h2 h4 h5 hnd hts hlen
      have hd : ∀ t ∈ ts, t ≠ 0 ∧ 1 + (if i then 40 / 3 else 5) * t ≠ (0 : ZMod p) := fun t ht => ⟨(hts t ht).2.1, (hts t ht).2.2 i⟩
      have hv : ∀ t ∈ ts, val p i t ≠ 0 := fun t ht => div_ne_zero (hd t ht).1 (hd t ht).2
      have e1 := one_list h1 (fun e he => supp_n (h4 e he))
      have e2 := one_list (k := 1) h2 (fun e he => by
        have := h5 e he
        rw [d_trail] at this
        exact (supp_d this.1).resolve_left this.2)
      rcases e1 with rfl | rfl <;> rcases e2 with rfl | rfl
      · simp [Matrix.det_isEmpty]
      · obtain ⟨t, rfl⟩ := List.length_eq_one_iff.mp (by simpa using hlen)
        show Matrix.det (n := Fin 1) _ ≠ 0
        rw [Matrix.det_fin_one]
        simp [probeMatrix]
        exact ⟨hv t (by simp), (hd t (by simp)).1⟩
      · obtain ⟨t, rfl⟩ := List.length_eq_one_iff.mp (by simpa using hlen)
        show Matrix.det (n := Fin 1) _ ≠ 0
        rw [Matrix.det_fin_one]
        simp [probeMatrix]
        exact (hd t (by simp)).1
      · obtain ⟨t, u, rfl⟩ := List.length_eq_two.mp (by simpa using hlen)
        show Matrix.det (n := Fin 2) _ ≠ 0
        rw [Matrix.det_fin_two]
        simp only [probeMatrix, Matrix.of_apply]
        simp
        have htu : t ≠ u := by simpa using hnd
        obtain ⟨a1, a2⟩ := hd t (by simp)
        obtain ⟨b1, b2⟩ := hd u (by simp)
        have e : t * (val p i u * u) - val p i t * t * u = t * u * (u - t) / ((1 + (if i then 40 / 3 else 5) * t) * (1 + (if i then 40 / 3 else 5) * u)) := by
          unfold val
          obtain ⟨c, hc⟩ : ∃ c : ZMod p, c = if i then 40 / 3 else 5 := ⟨_, rfl⟩
          rw [← hc] at a2 b2 ⊢
          rw [div_mul_eq_mul_div, mul_div_assoc', div_mul_eq_mul_div, div_mul_eq_mul_div, div_sub_div _ _ b2 a2, div_eq_div_iff (mul_ne_zero b2 a2) (mul_ne_zero a2 b2)]
          ring
        intro h
        have h : t * (val p i u * u) - val p i t * t * u = 0 := by
          linear_combination -h
        rw [e] at h
        exact div_ne_zero (mul_ne_zero (mul_ne_zero a1 b1) (sub_ne_zero.mpr (Ne.symm htu))) (mul_ne_zero a2 b2) h
    exact key

/-- the assumptions hold -/
lemma ex_hyp : Hyp (fun _ => exn) exd field0 [field1, field2] := by
  have hdec : ∀ {q : ℚ} {M : ℤ} {p : ℕ}, 1 ≤ M → 101 ≤ p → (q = 0 ∨ q = 1 ∨ q = 40 / 3 ∨ q = 5) → ¬ Deceptive q M (M * p) := by
    intro q M p hM hp h
    obtain ⟨b1, b2⟩ := below_ok h
    have : (101 : ℤ) ≤ p := by exact_mod_cast hp
    exact C36_not_deceptive q M p hM (by omega) (by omega)
  refine ⟨fun i => ?_, first_good, fun i => ?_, by decide⟩
  · rw [trailingCoeff, d_trail, d_zero]
  · refine ⟨later_good fact103 (by norm_num) i, by decide, fun e => ⟨?_, ?_⟩, later_good fact107 (by norm_num) i, by decide, fun e => ⟨?_, ?_⟩, trivial⟩
    · exact hdec (by decide) (by decide) (all_n e)
    · exact hdec (by decide) (by decide) (coeff_d i e)
    · exact hdec (by decide) (by decide) (all_n e)
    · exact hdec (by decide) (by decide) (coeff_d i e)

lemma ex_small (i : Bool) : AllSmall exn (exd i) (field0.p * prod [field1]) := by
  have e : (field0.p : ℤ) * prod [field1] = 101 * 103 := by unfold prod; simp; rfl
  have key : ∀ {q : ℚ}, (q = 0 ∨ q = 1 ∨ q = 40 / 3 ∨ q = 5) → Small q (101 * 103) := by
    intro q h
    obtain ⟨b1, b2⟩ := below_ok h
    have hn : |q.num| < 51 := by omega
    have hd : (q.den : ℤ) < 51 := by omega
    have hd0 : (0 : ℤ) ≤ q.den := by positivity
    refine ⟨?_, by nlinarith⟩
    rw [← sq_abs]
    nlinarith [abs_nonneg q.num]
  rw [e]
  exact fun m => ⟨key (all_n m), key (coeff_d i m)⟩

/-- the function `x / (1 + 5 x)` is small for the first prime already -/
lemma ex_small_first : AllSmall exn (exd false) field0.p := by
  have h5 : ((5 : ℚ)).den = 1 ∧ ((5 : ℚ)).num = 5 := by decide +kernel
  have key : ∀ {q : ℚ}, (q = 0 ∨ q = 1 ∨ q = 5) → Small q (101 : ℕ) := by
    intro q h
    unfold Small
    rcases h with rfl | rfl | rfl
    · norm_num
    · norm_num
    · rw [h5.1, h5.2]; norm_num
  intro m
  refine ⟨key ?_, key ?_⟩
  · rcases coeff_n m with h | h <;> simp [h]
  · rw [exd, coeff_add, coeff_monomial, coeff_monomial]
    rcases m with _ | _ | e
    · simp
    · simp [cf]
    · simp

/-- the start: one probe in the first bunch, two more queued, and one for the bunch; the threads do something -/
def acts0 : List (Whole.Act (ZMod 101) Bool) := [.compute (2, []), .feed true (2, []), .compute (4, []), .feed false (4, []), .look false, .compute (3, []), .feed false (3, []), .feed true (4, []), .feed true (3, []), .feed false (2, [])]

/-- the probes that may be chosen -/
def goodb0 (q : ZMod 101 × List ℕ) : Bool := decide (q.2 = []) && decide (q.1 ∈ ([1, 2, 3, 4, 5] : List (ZMod 101)))

def objs0 (i : Bool) : First.Obj (ZMod 101) := field0.firstObjs mpzInvert exGt id i

def fed0 (i : Bool) : Option (objs0 i).S := (objs0 i).feed (objs0 i).init (1, [])

def run0 : Option (First.Fld (ZMod 101) objs0) :=
  match h1 : fed0 false, h2 : fed0 true with
  | some a, some b => acts0.foldlM (Whole.exec 1 goodb0) (First.Fld.start objs0 1 [1] [2, 3] [4] (fun i => match i with | false => a | true => b))
  | _, _ => none

lemma run0_done : run0.map (fun s => (objs0 true).done (s.st true) && (objs0 false).done (s.st false)) = some true := by decide +kernel


/-- the first field, with the schedule above -/
lemma ex_firstField : ∃ st, FirstField mpzInvert exGt id field0 st := by
  obtain ⟨b, hb, hbd⟩ := Option.map_eq_some_iff.mp run0_done
  rw [Bool.and_eq_true] at hbd
  unfold run0 at hb
  split at hb
  · rename_i a0 a1 h0 h1
    refine ⟨fun i => Fn.of (St.out (b.st i)), [1], [2, 3], [4], _, b, by simp, rfl, by decide, ?_, ?_, rfl, Whole.exec_reaches acts0 hb, ?_, fun i => rfl⟩
    · show ∀ t ∈ ([1] ++ [2, 3] ++ [4] : List (ZMod 101)), goodb0 (t, []) = true
      decide
    · have e : ∀ (f : St 101 → ZMod 101 × List ℕ → Option (St 101)) (s x : St 101) (q : ZMod 101 × List ℕ), f s q = some x → [q].foldlM f s = some x := by
        intro f s x q h
        rw [List.foldlM_cons, h]; rfl
      intro i
      cases i
      · exact e _ _ _ _ h0
      · exact e _ _ _ _ h1
    · intro i
      cases i
      · exact hbd.2
      · exact hbd.1
  · cases hb

lemma ex_supply {p : ℕ} (hp : Fact p.Prime) {nextP : ℕ} (h : ∀ t ∈ ([1, 2, 3, 4] : List (ZMod p)), t ≠ 0 ∧ ∀ i : Bool, 1 + (if i then 40 / 3 else 5) * t ≠ (0 : ZMod p)) (hnd : ([1, 2, 3, 4] : List (ZMod p)).Nodup) :
    Supply (fun _ => exn) exd (fieldN p hp nextP) ∧ ∃ t, (fieldN p hp nextP).good (t, []) := by
  refine ⟨fun i => ⟨([1, 2, 3, 4] : List (ZMod p)), hnd, ?_, fun t ht => ⟨rfl, h t ht⟩⟩, ?_⟩
  · have h1 : exn.support.card ≤ 1 := by
      refine le_trans (Finset.card_le_card (t := {1}) (fun e he => by rw [supp_n he]; simp)) (by simp)
    have h2 : (exd i).support.card ≤ 2 := by
      refine le_trans (Finset.card_le_card (t := {0, 1}) (fun e he => ?_)) (by simp)
      rcases supp_d he with rfl | rfl <;> simp
    have : exn.support.card + (exd i).support.card ≤ 4 := by omega
    exact this
  · have := h 1 (by simp)
    exact ⟨(1 : ZMod p), rfl, this⟩

/-- The hypotheses of the theorems hold, and there is such a run, in which both functions are reported: with the primes 101, 103, and, if needed, 107; what is reported for `x / (1 + 5 x)` is right. -/
example : ∃ (fs : List (PField Bool)) (st : Bool → Fn), fs <+: [field1, field2] ∧ Run mpzInvert exGt id field0 fs st ∧
    (∀ i, ∃ N D, st i = .reported N D ∧ ((rnPoly N = exn ∧ rnPoly D = exd i) ∨ Early exn (exd i) i field0 fs N D)) ∧
    ∃ N D, st false = .reported N D ∧ rnPoly N = exn ∧ rnPoly D = exd false := by
  have hinv := mpzInvert_spec
  have hgt : ∀ p [Fact p.Prime], PivotOrder (exGt p) := fun p _ => exGt_spec p
  have hord : ∀ l : List ℕ, (id l).Perm l := fun l => List.Perm.refl _
  obtain ⟨st1, h1⟩ := ex_firstField
  obtain ⟨fs, st, h2, h3, h4⟩ := C71_complete (fs1 := []) (fs2 := [field1, field2]) hinv hgt hord ex_hyp (by
    intro g hg
    simp only [List.mem_cons, List.not_mem_nil, or_false] at hg
    rcases hg with rfl | rfl
    · exact ex_supply fact103 (by decide +kernel) (by decide)
    · exact ex_supply fact107 (by decide +kernel) (by decide)) ⟨st1, h1, .nil _⟩
  have h3 : Run mpzInvert exGt id field0 fs st := h3
  have hall : ∀ i, ∃ N D, st i = .reported N D ∧ ((rnPoly N = exn ∧ rnPoly D = exd i) ∨ Early exn (exd i) i field0 fs N D) := by
    rcases h4 with rfl | h4
    · exact C71_all hinv hgt hord ex_hyp h3 (fs1 := [field1]) (g := field2) (fs2 := []) rfl ex_small
    · exact h4
  refine ⟨fs, st, h2, h3, hall, ?_⟩
  have hyp : Hyp (fun _ => exn) exd field0 fs := by
    obtain ⟨r, hr⟩ := h2
    have := ex_hyp
    rw [← hr] at this
    exact this.left
  rcases C71_right hinv hgt hord hyp h3 false ex_small_first with h | ⟨-, c, hc⟩
  · exact h
  · obtain ⟨N, D, h, -⟩ := hall false
    rw [h] at hc; cases hc

end FireFly.WholeUni
