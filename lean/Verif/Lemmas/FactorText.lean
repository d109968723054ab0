import Verif.Model.Factors
import Verif.Spec.Factors
import Verif.Props.PrintProps
import Verif.Props.HistoryProps
/-! # The text of a factor -/
set_option linter.all false
namespace FireFly
variable {vars : List Str} {P N : ℕ}

/-- `Txt` for an expression without a quotient as a divisor; if `q` is not set, it is not a quotient itself -/
def Tq (vars : List Str) (P N lv : ℕ) (q : Bool) (s : Str) (v : Val) : Prop :=
  ∃ e : Expr, e.render = s ∧ e.WF vars P N ∧ e.Norm ∧ e.unsigned ∧ lv ≤ e.level ∧ (∀ (K : Type) [Field K] (env : Str → K), e.denote env = v K env) ∧ e.NoQuot ∧ (q = false → e.quot = false)

lemma Tq.mono {lv lv' : ℕ} {q : Bool} {s : Str} {v : Val} (h : Tq vars P N lv q s v) (hl : lv' ≤ lv) : Tq vars P N lv' q s v := by
  obtain ⟨e, h1, h2, h3, h4, h5, h6⟩ := h
  exact ⟨e, h1, h2, h3, h4, by omega, h6⟩

lemma Tq.weak {lv : ℕ} {q : Bool} {s : Str} {v : Val} (h : Tq vars P N lv q s v) : Tq vars P N lv true s v := by
  obtain ⟨e, h1, h2, h3, h4, h5, h6, h7, h8⟩ := h
  exact ⟨e, h1, h2, h3, h4, h5, h6, h7, fun h => by cases h⟩

lemma Tq.congr {lv : ℕ} {q : Bool} {s : Str} {v w : Val} (h : Tq vars P N lv q s v) (hw : ∀ (K : Type) [Field K] (env : Str → K), v K env = w K env) :
    Tq vars P N lv q s w := by
  obtain ⟨e, h1, h2, h3, h4, h5, h6, h7⟩ := h
  exact ⟨e, h1, h2, h3, h4, h5, fun K _ env => by rw [h6, hw], h7⟩

lemma tq_nat (n : ℕ) : Tq vars P N 4 false (natStr n) (fun K _ _ => (n : K)) := by
  refine ⟨.num (natStr n), rfl, (natStr_spec n).1, trivial, trivial, le_rfl, ?_, trivial, fun _ => rfl⟩
  intro K _ env
  show ((decimal (natStr n) : ℕ) : K) = n
  rw [(natStr_spec n).2]

lemma tq_var {name : Str} (h : name ∈ vars) : Tq vars P N 4 false name (fun K _ env => env name) :=
  ⟨.var name, rfl, h, trivial, trivial, le_rfl, fun _ _ _ => rfl, trivial, fun _ => rfl⟩

lemma Tq.paren {q : Bool} {s : Str} {v : Val} (h : Tq vars P N 0 q s v) : Tq vars P N 4 q ('(' :: s ++ [')']) v := by
  obtain ⟨e, h1, h2, h3, h4, h5, h6, h7, h8⟩ := h
  exact ⟨.paren e, by rw [← h1]; rfl, h2, h3, trivial, le_rfl, h6, h7, h8⟩

lemma Tq.parenNeg {q : Bool} {s : Str} {v : Val} (h : Tq vars P N 2 q s v) : Tq vars P N 4 q ('(' :: '-' :: s ++ [')']) (fun K _ env => - v K env) := by
  obtain ⟨e, h1, h2, h3, h4, h5, h6, h7, h8⟩ := h
  refine ⟨.paren (.neg .m e), by rw [← h1]; rfl, ⟨h2, h5⟩, ⟨rfl, h3⟩, trivial, le_rfl, fun K _ env => ?_, h7, h8⟩
  show -e.denote env = -v K env
  rw [← h6]

lemma Tq.mul {q r : Bool} {s t : Str} {v u : Val} (h : Tq vars P N 2 q s v) (g : Tq vars P N 3 r t u) : Tq vars P N 2 false (s ++ '*' :: t) (fun K _ env => v K env * u K env) := by
  obtain ⟨e, h1, h2, h3, h4, h5, h6, h7, h8⟩ := h
  obtain ⟨f, g1, g2, g3, g4, g5, g6, g7, g8⟩ := g
  refine ⟨.mul e f, by rw [← h1, ← g1]; rfl, ⟨h2, h5, g2, g5⟩, ⟨h3, g3⟩, trivial, le_rfl, fun K _ env => ?_, ⟨h7, g7⟩, fun _ => rfl⟩
  show e.denote env * f.denote env = v K env * u K env
  rw [← h6, ← g6]

lemma Tq.div {q : Bool} {s t : Str} {v u : Val} (h : Tq vars P N 2 q s v) (g : Tq vars P N 3 false t u) : Tq vars P N 2 true (s ++ '/' :: t) (fun K _ env => v K env / u K env) := by
  obtain ⟨e, h1, h2, h3, h4, h5, h6, h7, h8⟩ := h
  obtain ⟨f, g1, g2, g3, g4, g5, g6, g7, g8⟩ := g
  refine ⟨.div e f, by rw [← h1, ← g1]; rfl, ⟨h2, h5, g2, g5⟩, ⟨h3, g3⟩, trivial, le_rfl, fun K _ env => ?_, ⟨h7, g7, g8 rfl⟩, fun h => by cases h⟩
  show e.denote env / f.denote env = v K env / u K env
  rw [← h6, ← g6]

lemma Tq.pow {q : Bool} {s : Str} {v : Val} (h : Tq vars P N 4 q s v) {k : ℕ} (hk : k < P) : Tq vars P N 3 false (s ++ '^' :: natStr k) (fun K _ env => v K env ^ k) := by
  obtain ⟨e, h1, h2, h3, h4, h5, h6, h7, h8⟩ := h
  have := natStr_spec k
  refine ⟨.pow e (.plain (natStr k)), by rw [← h1]; rfl, ⟨h2, h5, this.1, by rw [this.2]; exact hk⟩, h3, trivial, le_rfl, fun K _ env => ?_, h7, fun _ => rfl⟩
  show e.denote env ^ decimal (natStr k) = v K env ^ k
  rw [← h6, this.2]

lemma Tq.powStr {s : Str} {v : Val} (h : Tq vars P N 4 false s v) {k : ℕ} (hk : k < P) : Tq vars P N 3 false (s ++ powStr k) (fun K _ env => v K env ^ k) := by
  unfold FireFly.powStr
  split
  · exact h.pow hk
  · rename_i h1
    simp only [not_not] at h1
    subst h1
    simpa using h.mono (by norm_num)

lemma addLeft_noQuot (a : Expr) (ha : a.NoQuot) : ∀ e : Expr, e.NoQuot → (Expr.addLeft a e).NoQuot ∧ (e.unsigned → (Expr.addLeft a e).quot = false)
  | .num ds, h => ⟨⟨ha, h⟩, fun _ => rfl⟩
  | .var ds, h => ⟨⟨ha, h⟩, fun _ => rfl⟩
  | .paren e, h => ⟨⟨ha, h⟩, fun _ => rfl⟩
  | .pow b x, h => ⟨⟨ha, h⟩, fun _ => rfl⟩
  | .mul b c, h => ⟨⟨ha, h⟩, fun _ => rfl⟩
  | .div b c, h => ⟨⟨ha, h⟩, fun _ => rfl⟩
  | .add b c, h => ⟨⟨(addLeft_noQuot a ha b h.1).1, h.2⟩, fun _ => rfl⟩
  | .sub k b c, h => ⟨⟨(addLeft_noQuot a ha b h.1).1, h.2⟩, fun _ => rfl⟩
  | .neg k b, h => ⟨⟨ha, h⟩, fun _ => rfl⟩
  | .pos b, h => ⟨⟨ha, h⟩, fun _ => rfl⟩

lemma Tq.add {q r : Bool} {s t : Str} {v u : Val} (h : Tq vars P N 0 q s v) (g : Tq vars P N 0 r t u) : Tq vars P N 0 false (s ++ '+' :: t) (fun K _ env => v K env + u K env) := by
  obtain ⟨e, h1, h2, h3, h4, h5, h6, h7, h8⟩ := h
  obtain ⟨f, g1, g2, g3, g4, g5, g6, g7, g8⟩ := g
  obtain ⟨k1, k2, k3, k4, k5⟩ := addLeft_spec e h2 h3 h4 f g2 g3 g4
  obtain ⟨l1, l2⟩ := addLeft_noQuot e h7 f g7
  exact ⟨Expr.addLeft e f, by rw [k1, h1, g1], k2, k3, k4, by omega, fun K _ env => by rw [k5, h6, g6], l1, fun _ => l2 g4⟩

/-- a printed rational number -/
lemma tq_rat {r : RationalNumber} (hd : 0 < r.den) : Tq vars P N 2 true r.str (fun K _ _ => (r.num : K) / (r.den : K)) := by
  have hden : intStr r.den = natStr r.den.natAbs := by unfold intStr; rw [if_neg (by omega)]
  have hdc : ∀ (K : Type) [Field K], ((r.den.natAbs : ℕ) : K) = (r.den : K) := by
    intro K _
    rw [← Int.cast_natCast, Int.natAbs_of_nonneg hd.le]
  have hpos : 0 ≤ r.num → intStr r.num = natStr r.num.natAbs ∧ ∀ (K : Type) [Field K], ((r.num.natAbs : ℕ) : K) = (r.num : K) := by
    intro h
    refine ⟨by unfold intStr; rw [if_neg (by omega)], fun K _ => ?_⟩
    rw [← Int.cast_natCast, Int.natAbs_of_nonneg h]
  have hneg : r.num < 0 → intStr r.num = '-' :: natStr r.num.natAbs ∧ ∀ (K : Type) [Field K], -((r.num.natAbs : ℕ) : K) = (r.num : K) := by
    intro h
    refine ⟨by unfold intStr; rw [if_pos h], fun K _ => ?_⟩
    rw [← Int.cast_natCast, Int.ofNat_natAbs_of_nonpos h.le]; simp
  unfold RationalNumber.str
  by_cases h1 : r.den = 1
  · rw [if_pos h1]
    have hone : ∀ (K : Type) [Field K], (r.num : K) = (r.num : K) / (r.den : K) := by intro K _; rw [h1]; simp
    by_cases h2 : r.num < 1
    · rw [if_pos h2]
      rcases lt_or_ge r.num 0 with h3 | h3
      · rw [(hneg h3).1]
        refine (((tq_nat _).mono (by norm_num)).parenNeg.mono (by norm_num)).weak.congr fun K _ env => ?_
        rw [(hneg h3).2, ← hone]
      · rw [(hpos h3).1]
        refine (((tq_nat _).mono (by norm_num)).paren.mono (by norm_num)).weak.congr fun K _ env => ?_
        rw [(hpos h3).2, ← hone]
    · rw [if_neg h2, (hpos (by omega)).1]
      refine ((tq_nat _).mono (by norm_num)).weak.congr fun K _ env => ?_
      rw [(hpos (by omega)).2, ← hone]
  · rw [if_neg h1]
    have hdiv : Tq vars P N 2 true (natStr r.num.natAbs ++ '/' :: natStr r.den.natAbs) (fun K _ _ => ((r.num.natAbs : ℕ) : K) / ((r.den.natAbs : ℕ) : K)) :=
      ((tq_nat _).mono (by norm_num)).div ((tq_nat _).mono (by norm_num))
    rw [hden]
    by_cases h2 : r.num < 1
    · rw [if_pos h2]
      rcases lt_or_ge r.num 0 with h3 | h3
      · rw [(hneg h3).1]
        have := hdiv.parenNeg
        rw [show '(' :: ('-' :: natStr r.num.natAbs ++ '/' :: natStr r.den.natAbs) ++ [')'] =
          '(' :: '-' :: (natStr r.num.natAbs ++ '/' :: natStr r.den.natAbs) ++ [')'] by simp]
        refine (this.mono (by norm_num)).congr fun K _ env => ?_
        rw [hdc, ← (hneg h3).2]; ring
      · rw [(hpos h3).1]
        refine ((hdiv.mono (by norm_num)).paren.mono (by norm_num)).congr fun K _ env => ?_
        rw [(hpos h3).2, hdc]
    · rw [if_neg h2, (hpos (by omega)).1]
      refine hdiv.congr fun K _ env => ?_
      rw [(hpos (by omega)).2, hdc]

/-! ### a polynomial in one variable -/

/-- one monomial -/
def monoTxt (name : Str) (t : List ℕ × RationalNumber) : Str :=
  if t.1.getD 0 0 = 0 then t.2.str else (if t.2.isOne then [] else t.2.str ++ ['*']) ++ (name ++ powStr (t.1.getD 0 0))

lemma dropLast_star {a b : Str} (h : b ≠ []) : (a ++ (b ++ ['*'])).dropLast = a ++ b := by
  rw [← List.append_assoc, List.dropLast_concat]

lemma monoStr_one {name : Str} {t : List ℕ × RationalNumber} (hl : t.1.length = 1) : monoStr RationalNumber.str RationalNumber.isOne [name] t = monoTxt name t := by
  obtain ⟨e, c⟩ := t
  match e, hl with
  | [k], _ =>
    unfold monoStr monoTxt monoVars powStr
    simp only [List.foldl_cons, List.foldl_nil, zero_add, List.length_singleton, List.range_one, List.map_cons, List.map_nil, List.flatten_cons, List.flatten_nil, List.append_nil, List.getD_cons_zero]
    by_cases h0 : k = 0
    · subst h0; simp
    · rw [if_neg h0, if_neg h0]
      by_cases h1 : k = 1
      · subst h1
        cases hc : c.isOne
        · simp [dropLast_star, ← List.append_assoc]
        · simp
      · rw [if_pos (by omega : k > 1)]
        cases hc : c.isOne
        · simp only [h0, ne_eq, not_false_eq_true, true_and, and_self, if_true, Bool.false_eq_true, if_false, h1]
          rw [← List.append_assoc, ← List.append_assoc, List.dropLast_concat]
        · simp only [h0, ne_eq, not_false_eq_true, true_and, Bool.true_eq_false, and_false, if_false, if_true, List.nil_append, h1]
          rw [List.dropLast_concat]

lemma monoTxt_tq {name : Str} (hname : name ∈ vars) {t : List ℕ × RationalNumber} (hdeg : t.1.getD 0 0 < P) (hden : 0 < t.2.den) :
    Tq vars P N 2 true (monoTxt name t) (fun K _ env => ratVal t.2 * env name ^ t.1.getD 0 0) ∧
      (t.1.getD 0 0 ≠ 0 → t.2 = ⟨1, 1⟩ → Tq vars P N 2 false (monoTxt name t) (fun K _ env => ratVal t.2 * env name ^ t.1.getD 0 0)) := by
  unfold monoTxt
  by_cases h0 : t.1.getD 0 0 = 0
  · rw [if_pos h0]
    exact ⟨(tq_rat hden).congr fun K _ env => by rw [h0]; simp [ratVal], fun h => absurd h0 h⟩
  · rw [if_neg h0]
    have hp : Tq vars P N 3 false (name ++ powStr (t.1.getD 0 0)) (fun K _ env => env name ^ t.1.getD 0 0) := (tq_var hname).powStr hdeg
    cases hc : t.2.isOne
    · refine ⟨?_, fun _ h => ?_⟩
      · have := ((tq_rat (vars := vars) (P := P) (N := N) hden).mul hp).weak
        simp only [Bool.false_eq_true, if_false, List.append_assoc, List.cons_append, List.nil_append]
        exact this
      · rw [h] at hc; exact absurd hc (by decide)
    · have h1 : t.2.num = 1 ∧ t.2.den = 1 := by unfold RationalNumber.isOne at hc; simpa using hc
      have : Tq vars P N 2 false (name ++ powStr (t.1.getD 0 0)) (fun K _ env => ratVal t.2 * env name ^ t.1.getD 0 0) :=
        (hp.mono (by norm_num)).congr fun K _ env => by simp [ratVal, h1.1, h1.2]
      simp only [if_true, List.nil_append]
      exact ⟨this.weak, fun _ _ => this⟩

lemma sumTq : ∀ (ps : List (Str × Val)) (acc : Str) (u : Val) (q : Bool), Tq vars P N 0 q acc u → (∀ q ∈ ps, Tq vars P N 0 true q.1 q.2) →
    Tq vars P N 0 (if ps = [] then q else false) ((acc ++ ['+'] ++ (ps.map fun q => q.1 ++ ['+']).flatten).dropLast) (fun K _ env => u K env + (ps.map fun q => q.2 K env).sum)
  | [], acc, u, q, h, _ => by
    simp only [List.map_nil, List.flatten_nil, List.append_nil, List.dropLast_concat, List.sum_nil, add_zero, if_true]
    exact h
  | (s, v) :: ps, acc, u, q, h, hp => by
    have := sumTq ps (acc ++ '+' :: s) _ false (h.add (hp (s, v) (by simp))) (fun q hq => hp q (by simp [hq]))
    have hs : (acc ++ ['+'] ++ (((s, v) :: ps).map fun q => q.1 ++ ['+']).flatten) = (acc ++ '+' :: s) ++ ['+'] ++ (ps.map fun q => q.1 ++ ['+']).flatten := by simp
    rw [hs, if_neg (by simp)]
    rw [show (if ps = [] then false else false) = false by split <;> rfl] at this
    exact this.congr fun K _ env => by simp [add_assoc]

lemma toStr_uni {name : Str} {m : List (List ℕ × RationalNumber)} (h0 : m ≠ []) (hl : ∀ t ∈ m, t.1.length = 1) :
    Polynomial.toStr { n := 1, coefs := m } [name] = some (((m.map fun t => monoTxt name t ++ ['+']).flatten).dropLast) := by
  unfold Polynomial.toStr
  rw [if_neg h0, if_neg (by simp)]
  congr 1
  rw [polyStrLoop_eq]
  congr 2
  apply List.map_congr_left
  intro t ht
  show monoStr RationalNumber.str RationalNumber.isOne [name] t ++ ['+'] = _
  rw [monoStr_one (hl t ht)]

lemma uni_tq {name : Str} (hname : name ∈ vars) {m : List (List ℕ × RationalNumber)} (h : FacUniOK m P) :
    Tq vars P N 0 false (((m.map fun t => monoTxt name t ++ ['+']).flatten).dropLast) (fun K _ env => uniVal m (env name)) := by
  obtain ⟨t0, ht0, h1, h2⟩ := h.monic
  cases m with
  | nil => simp at ht0
  | cons t m =>
    have hm := fun u hu => monoTxt_tq (N := N) hname (h.deg u hu) (h.den u hu)
    have key : ∀ q, Tq vars P N 2 q (monoTxt name t) (fun K _ env => ratVal t.2 * env name ^ t.1.getD 0 0) →
        Tq vars P N 0 (if m = [] then q else false) (((((t :: m).map fun t => monoTxt name t ++ ['+']).flatten).dropLast)) (fun K _ env => uniVal (t :: m) (env name)) := by
      intro q hq
      have := sumTq (m.map fun u => (monoTxt name u, fun K _ env => ratVal u.2 * env name ^ u.1.getD 0 0)) (monoTxt name t) _ q (hq.mono (by norm_num)) (by
        intro r hr
        rw [List.mem_map] at hr
        obtain ⟨u, hu, rfl⟩ := hr
        exact ((hm u (by simp [hu])).1).mono (by norm_num))
      rw [List.map_map] at this
      simp only [List.map_eq_nil_iff] at this
      rw [List.map_cons, List.flatten_cons]
      refine Tq.congr this fun K _ env => ?_
      unfold uniVal
      rw [List.map_cons, List.sum_cons, List.map_map]
      rfl
    cases m with
    | nil =>
      obtain rfl : t0 = t := by simpa using ht0
      exact key false ((hm t0 (by simp)).2 h1 h2)
    | cons u m => exact key true ((hm t (by simp)).1)

/-! ### the texts of factors in different variables are different -/

/-- the digits after the first `x` -/
def keyOf (s : Str) : Str := ((s.dropWhile fun c => c != 'x').drop 1).takeWhile isDigitC

lemma keyOf_skip {a s : Str} (h : ∀ c ∈ a, c ≠ 'x') : keyOf (a ++ s) = keyOf s := by
  unfold keyOf
  rw [List.dropWhile_append_of_pos]
  intro c hc
  simpa using h c hc

lemma keyOf_hit {d : Str} (hd : ∀ c ∈ d, isDigitC c = true) {c : Char} (hc : isDigitC c = false) (r : Str) : keyOf ('x' :: (d ++ c :: r)) = d := by
  unfold keyOf
  rw [List.dropWhile_cons_of_neg (by simp), List.drop_succ_cons, List.drop_zero, List.takeWhile_append_of_pos hd, List.takeWhile_cons_of_neg (by simp [hc]), List.append_nil]

lemma natStr_no_x (n : ℕ) : ∀ c ∈ natStr n, c ≠ 'x' := by
  rintro c hc rfl
  have := (natStr_spec0 n).1.2 _ hc
  exact absurd this (by decide)

lemma intStr_no_x (z : ℤ) : ∀ c ∈ intStr z, c ≠ 'x' := by
  intro c hc
  unfold intStr at hc
  split at hc
  · rcases List.mem_cons.mp hc with rfl | h
    · decide
    · exact natStr_no_x _ c h
  · exact natStr_no_x _ c hc

lemma rat_no_x (r : RationalNumber) : ∀ c ∈ r.str, c ≠ 'x' := by
  intro c hc
  have h1 := intStr_no_x r.num c
  have h2 := intStr_no_x r.den c
  unfold RationalNumber.str at hc
  split at hc <;> split at hc <;> (try simp only [List.mem_append, List.mem_cons, List.cons_append, List.not_mem_nil, or_false] at hc)
  · rcases hc with rfl | h | rfl
    · decide
    · exact h1 h
    · decide
  · exact h1 hc
  · rcases hc with rfl | (h | rfl | h) | rfl
    · decide
    · exact h1 h
    · decide
    · exact h2 h
    · decide
  · rcases hc with h | rfl | h
    · exact h1 h
    · decide
    · exact h2 h

lemma key_uni {i : ℕ} : ∀ {m : List (List ℕ × RationalNumber)}, (∃ t ∈ m, t.1.getD 0 0 ≠ 0) → keyOf ((m.map fun t => monoTxt (facName i) t ++ ['+']).flatten) = natStr (i + 1)
  | [], h => by simp at h
  | t :: m, h => by
    rw [List.map_cons, List.flatten_cons]
    by_cases h0 : t.1.getD 0 0 = 0
    · rw [keyOf_skip, key_uni]
      · obtain ⟨u, hu, h1⟩ := h
        rcases List.mem_cons.mp hu with rfl | hu
        · exact absurd h0 h1
        · exact ⟨u, hu, h1⟩
      · intro c hc
        unfold monoTxt at hc
        rw [if_pos h0, List.mem_append, List.mem_singleton] at hc
        rcases hc with hc | rfl
        · exact rat_no_x _ c hc
        · decide
    · unfold monoTxt
      rw [if_neg h0, List.append_assoc, List.append_assoc, keyOf_skip]
      · unfold facName powStr
        have hd := (natStr_spec0 (i + 1)).1.2
        split
        · simp only [List.cons_append, List.append_assoc]
          exact keyOf_hit hd (by decide) _
        · simp only [List.cons_append, List.append_assoc, List.nil_append]
          exact keyOf_hit hd (by decide) _
      · intro c hc
        split at hc
        · simp at hc
        · rw [List.mem_append, List.mem_singleton] at hc
          rcases hc with hc | rfl
          · exact rat_no_x _ c hc
          · decide

/-- the text of a polynomial in one variable -/
def uniText (i : ℕ) (m : List (List ℕ × RationalNumber)) : Str := ((m.map fun t => monoTxt (facName i) t ++ ['+']).flatten).dropLast

lemma flatten_plus {i : ℕ} {m : List (List ℕ × RationalNumber)} (h : m ≠ []) : (m.map fun t => monoTxt (facName i) t ++ ['+']).flatten = uniText i m ++ ['+'] := by
  unfold uniText
  obtain ⟨A, t, rfl⟩ := (List.eq_nil_or_concat m).resolve_left h
  rw [List.concat_eq_append, List.map_append, List.flatten_append, List.map_cons, List.map_nil, List.flatten_cons, List.flatten_nil, List.append_nil, ← List.append_assoc, List.dropLast_concat]

lemma uniText_inj {i j : ℕ} {m k : List (List ℕ × RationalNumber)} (hm : FacUniOK m P) (hk : FacUniOK k P) (h : uniText i m = uniText j k) : i = j := by
  obtain ⟨t, ht, h1, -⟩ := hm.monic
  obtain ⟨u, hu, h2, -⟩ := hk.monic
  have e1 := key_uni (i := i) ⟨t, ht, h1⟩
  have e2 := key_uni (i := j) ⟨u, hu, h2⟩
  rw [flatten_plus (List.ne_nil_of_mem ht), h, ← flatten_plus (List.ne_nil_of_mem hu), e2] at e1
  have := congrArg decimal e1
  rw [(natStr_spec _).2, (natStr_spec _).2] at this
  omega

/-! ### the sets of strings -/

lemma addString_eq {i : ℕ} {m : List (List ℕ × RationalNumber)} (h : m = [] ∨ FacUniOK m P) {s : List Str} (hs : m ≠ [] → uniText i m ∉ s) :
    addString i m s = some (s ++ if m = [] then [] else [uniText i m]) := by
  unfold addString
  by_cases h0 : m = []
  · simp [h0]
  · have hu := h.resolve_left h0
    rw [if_neg h0, toStr_uni h0 hu.len, if_neg h0]
    show some (if uniText i m ∈ s then s else s ++ [uniText i m]) = _
    rw [if_neg (hs h0)]

/-- the strings of the numerators (or denominators) -/
def texts (g : Factor → List (List ℕ × RationalNumber)) (fs : List Factor) : List Str := (fs.filter fun f => g f ≠ []).map fun f => uniText f.pos (g f)

lemma mem_texts {g : Factor → List (List ℕ × RationalNumber)} {fs : List Factor} {s : Str} (h : s ∈ texts g fs) : ∃ f ∈ fs, g f ≠ [] ∧ s = uniText f.pos (g f) := by
  unfold texts at h
  rw [List.mem_map] at h
  obtain ⟨f, hf, rfl⟩ := h
  rw [List.mem_filter] at hf
  exact ⟨f, hf.1, by simpa using hf.2, rfl⟩

lemma texts_snoc (g : Factor → List (List ℕ × RationalNumber)) (fs : List Factor) (f : Factor) : texts g (fs ++ [f]) = texts g fs ++ if g f = [] then [] else [uniText f.pos (g f)] := by
  unfold texts
  rw [List.filter_append, List.map_append]
  by_cases h : g f = [] <;> simp [h]

lemma factorStrings_eq {n : ℕ} (fs : List Factor) (hpos : (fs.map Factor.pos).Nodup) (hok : ∀ f ∈ fs, f.OK n P) : factorStrings fs = some (texts Factor.num fs, texts Factor.den fs) := by
  unfold factorStrings
  have key : ∀ (l A : List Factor), A ++ l = fs → l.foldlM (fun s f => do
      let a ← addString f.pos f.num s.1
      let b ← addString f.pos f.den s.2
      some (a, b)) (texts Factor.num A, texts Factor.den A) = some (texts Factor.num fs, texts Factor.den fs) := by
    intro l
    induction l with
    | nil => intro A h; rw [← h, List.append_nil]; rfl
    | cons f l ih =>
      intro A h
      have hf : f.OK n P := hok f (by rw [← h]; simp)
      have hA : ∀ f' ∈ A, f'.OK n P ∧ f'.pos ≠ f.pos := by
        intro f' h'
        refine ⟨hok f' (by rw [← h]; simp [h']), ?_⟩
        rw [← h, List.map_append, List.nodup_append] at hpos
        exact hpos.2.2 _ (List.mem_map_of_mem h') _ (by simp)
      rw [List.foldlM_cons]
      have e1 : addString f.pos f.num (texts Factor.num A) = some (texts Factor.num (A ++ [f])) := by
        rw [texts_snoc]
        apply addString_eq hf.num
        intro h0 hmem
        obtain ⟨f', g1, g2, g3⟩ := mem_texts hmem
        obtain ⟨k1, k2⟩ := hA f' g1
        exact k2 (uniText_inj (k1.num.resolve_left g2) (hf.num.resolve_left h0) g3.symm)
      have e2 : addString f.pos f.den (texts Factor.den A) = some (texts Factor.den (A ++ [f])) := by
        rw [texts_snoc]
        apply addString_eq hf.den
        intro h0 hmem
        obtain ⟨f', g1, g2, g3⟩ := mem_texts hmem
        obtain ⟨k1, k2⟩ := hA f' g1
        exact k2 (uniText_inj (k1.den.resolve_left g2) (hf.den.resolve_left h0) g3.symm)
      have := ih (A ++ [f]) (by rw [← h]; simp)
      show ((addString f.pos f.num (texts Factor.num A)).bind fun a => (addString f.pos f.den (texts Factor.den A)).bind fun b => some (a, b)).bind _ = _
      rw [e1, Option.bind_some, e2, Option.bind_some, Option.bind_some]
      exact this
  exact key fs [] rfl

/-! ### the product -/

lemma perm_map_lift {α β : Type} (f : α → β) {l' l2 : List β} (h : l'.Perm l2) : ∀ l : List α, l2 = l.map f → ∃ l'' : List α, l''.Perm l ∧ l''.map f = l' := by
  induction h with
  | nil => intro l h; exact ⟨l, .refl _, h.symm⟩
  | cons x _ ih =>
    intro l h
    cases l with
    | nil => simp at h
    | cons a l =>
      simp only [List.map_cons, List.cons.injEq] at h
      obtain ⟨l'', h1, h2⟩ := ih l h.2
      exact ⟨a :: l'', h1.cons a, by simp [h.1, h2]⟩
  | swap x y l0 =>
    intro l h
    match l, h with
    | a :: b :: l, h =>
      simp only [List.map_cons, List.cons.injEq] at h
      exact ⟨b :: a :: l, .swap _ _ _, by simp [h.1, h.2.1, h.2.2]⟩
    | [a], h => simp at h
    | [], h => simp at h
  | trans _ _ ih1 ih2 =>
    intro l h
    obtain ⟨l1, h1, h2⟩ := ih2 l h
    obtain ⟨l2, h3, h4⟩ := ih1 l1 h2.symm
    exact ⟨l2, h3.trans h1, h4⟩

lemma prodTq : ∀ (ps : List (Str × Val)) (acc : Str) (u : Val), Tq vars P N 2 false acc u → (∀ q ∈ ps, Tq vars P N 0 false q.1 q.2) →
    Tq vars P N 2 false ((acc ++ ['*'] ++ (ps.map fun q => '(' :: q.1 ++ [')', '*']).flatten).dropLast) (fun K _ env => u K env * (ps.map fun q => q.2 K env).prod)
  | [], acc, u, h, _ => by
    simp only [List.map_nil, List.flatten_nil, List.append_nil, List.dropLast_concat, List.prod_nil, mul_one]
    exact h
  | (s, v) :: ps, acc, u, h, hp => by
    have := prodTq ps (acc ++ '*' :: ('(' :: s ++ [')'])) _ (h.mul ((hp (s, v) (by simp)).paren.mono (by norm_num))) (fun q hq => hp q (by simp [hq]))
    have hs : (acc ++ ['*'] ++ (((s, v) :: ps).map fun q => '(' :: q.1 ++ [')', '*']).flatten) = (acc ++ '*' :: ('(' :: s ++ [')'])) ++ ['*'] ++ (ps.map fun q => '(' :: q.1 ++ [')', '*']).flatten := by simp
    rw [hs]
    exact this.congr fun K _ env => by simp [mul_assoc]

lemma productText_tq {ps : List (Str × Val)} (h0 : ps ≠ []) (hp : ∀ q ∈ ps, Tq vars P N 0 false q.1 q.2) :
    Tq vars P N 2 false (productText (ps.map Prod.fst)) (fun K _ env => (ps.map fun q => q.2 K env).prod) := by
  obtain ⟨q, ps, rfl⟩ := List.exists_cons_of_ne_nil h0
  have := prodTq ps ('(' :: q.1 ++ [')']) q.2 ((hp q (by simp)).paren.mono (by norm_num)) (fun r hr => hp r (by simp [hr]))
  unfold productText
  rw [List.map_map, List.map_cons, List.flatten_cons]
  simp only [List.map_cons, List.prod_cons]
  have e : ('(' :: q.1 ++ [')'] ++ ['*'] ++ (ps.map fun q => '(' :: q.1 ++ [')', '*']).flatten) =
      ((fun a => '(' :: a ++ [')', '*']) ∘ Prod.fst) q ++ (List.map ((fun a => '(' :: a ++ [')', '*']) ∘ Prod.fst) ps).flatten := by
    simp [Function.comp_def]
  rw [← e]
  exact this

lemma factorText_tq {ps rs : List (Str × Val)} (h0 : ps ≠ [] ∨ rs ≠ []) (hp : ∀ q ∈ ps, Tq vars P N 0 false q.1 q.2) (hr : ∀ q ∈ rs, Tq vars P N 0 false q.1 q.2) :
    Tq vars P N 2 true (factorText (ps.map Prod.fst) (rs.map Prod.fst)) (fun K _ env => (ps.map fun q => q.2 K env).prod / (rs.map fun q => q.2 K env).prod) := by
  unfold factorText
  by_cases h1 : ps = []
  · have h2 : rs ≠ [] := h0.resolve_left (by simpa using h1)
    subst h1
    rw [if_neg (by simp), if_pos (by simpa using h2), if_neg (by simp)]
    have e1 : natStr 1 = ['1'] := by rw [natStr]; rfl
    have := Tq.div ((tq_nat (vars := vars) (P := P) (N := N) 1).mono (by norm_num : 2 ≤ 4)) ((((productText_tq h2 hr).mono (by norm_num : 0 ≤ 2)).paren).mono (by norm_num : 3 ≤ 4))
    rw [e1] at this
    simp only [List.nil_append, List.cons_append] at this ⊢
    exact this.congr fun K _ env => by simp
  · rw [if_pos (by simpa using h1)]
    have hn := ((productText_tq h1 hp).mono (by norm_num : 0 ≤ 2)).paren
    by_cases h2 : rs = []
    · subst h2
      rw [if_neg (by simp), List.append_nil]
      exact (hn.mono (by norm_num)).weak.congr fun K _ env => by simp
    · rw [if_pos (by simpa using h2), if_pos (by simpa using h1)]
      have := Tq.div (hn.mono (by norm_num : 2 ≤ 4)) ((((productText_tq h2 hr).mono (by norm_num : 0 ≤ 2)).paren).mono (by norm_num : 3 ≤ 4))
      simp only [List.append_assoc, List.cons_append, List.nil_append] at this ⊢
      exact this

lemma WF_mono2 {P' N' : ℕ} (hP : P ≤ P') (hN : N ≤ N') : ∀ e : Expr, e.WF vars P N → e.WF vars P' N'
  | .num ds, g => g
  | .var name, g => g
  | .paren e, g => WF_mono2 hP hN e g
  | .pow a x, g => ⟨WF_mono2 hP hN a g.1, g.2.1, by
      have h := g.2.2
      cases x <;> simp only [Exponent.WF] at h ⊢ <;> exact ⟨h.1, by omega⟩⟩
  | .mul a b, g => ⟨WF_mono2 hP hN a g.1, g.2.1, WF_mono2 hP hN b g.2.2.1, g.2.2.2⟩
  | .div a b, g => ⟨WF_mono2 hP hN a g.1, g.2.1, WF_mono2 hP hN b g.2.2.1, g.2.2.2⟩
  | .add a b, g => ⟨WF_mono2 hP hN a g.1, WF_mono2 hP hN b g.2.1, g.2.2⟩
  | .sub _ a b, g => ⟨WF_mono2 hP hN a g.1, WF_mono2 hP hN b g.2.1, g.2.2⟩
  | .neg _ a, g => ⟨WF_mono2 hP hN a g.1, g.2⟩
  | .pos a, g => ⟨WF_mono2 hP hN a g.1, g.2⟩

lemma natStr_len : ∀ (k n : ℕ), n < 10 ^ (k + 1) → (natStr n).length ≤ k + 1
  | 0, n, h => by
    rw [natStr, if_pos (by simpa using h)]; simp
  | k + 1, n, h => by
    rw [natStr]
    split
    · simp
    · have := natStr_len k (n / 10) (by rw [pow_succ] at h; omega)
      rw [List.length_append, List.length_singleton]; omega

lemma facName_isName {i : ℕ} (h : i < 2 ^ 32) : IsName (facName i) := by
  have hl := natStr_len 9 (i + 1) (by norm_num; omega)
  have hd := (natStr_spec0 (i + 1)).1.2
  refine ⟨by unfold facName; rw [List.length_cons]; omega, ?_, 'x', by simp [facName], by decide⟩
  intro c hc
  rcases List.mem_cons.mp hc with rfl | hc
  · exact Or.inl (by decide)
  · exact Or.inr (hd c hc)

lemma facNames_isName {n : ℕ} (h : n ≤ 2 ^ 32) : ∀ v ∈ facNames n, IsName v := by
  intro v hv
  obtain ⟨i, hi, rfl⟩ := List.mem_map.mp hv
  exact facName_isName (by have := List.mem_range.mp hi; omega)

lemma facName_inj {i j : ℕ} (h : facName i = facName j) : i = j := by
  unfold facName at h
  simp only [List.cons.injEq, true_and] at h
  have := congrArg decimal h
  rw [(natStr_spec _).2, (natStr_spec _).2] at this
  omega

lemma idxOf_facName {n i : ℕ} (h : i < n) : (facNames n).idxOf (facName i) = i := by
  have hl : (facNames n).length = n := by simp [facNames]
  have hnd : (facNames n).Nodup := by
    unfold facNames
    exact List.nodup_range.map (fun a b hab => facName_inj hab)
  have : (facNames n)[i]'(by omega) = facName i := by simp [facNames]
  rw [← this, hnd.idxOf_getElem]

end FireFly
