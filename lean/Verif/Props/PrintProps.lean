import Verif.Props.HornerProps
/-!
# C33: printed polynomials and rational functions denote what was printed, and are read back
-/
set_option linter.all false
namespace FireFly

/-! ### specification -/

/-- the names a polynomial refers to: all variables, or the one variable of a univariate factor -/
def Polynomial.names (a : Polynomial) (vars : List Str) : List Str :=
  match a.varPos with
  | none => vars
  | some i => [vars.getD i []]

/-- the value of a polynomial with rational coefficients -/
def Polynomial.value {K : Type} [Field K] (a : Polynomial) (vars : List Str) (env : Str → K) : K :=
  polyVal env (a.names vars) ratVal a.coefs

/-- an absent polynomial (no monomials) in a factor or a denominator stands for one -/
def Polynomial.valueOrOne {K : Type} [Field K] (a : Polynomial) (vars : List Str) (env : Str → K) : K :=
  if a.coefs = [] then 1 else a.value vars env

/-- the variable at position `i` of numerator and denominator is `vars[order(i)]` -/
def RationalFunction.orderedNames (f : RationalFunction) (vars : List Str) : List Str :=
  if f.order = [] then vars else (List.range vars.length).map fun i => vars.getD ((f.order.lookup i).getD 0) []

/-- the value of a rational function with its factors -/
def RationalFunction.value {K : Type} [Field K] (f : RationalFunction) (vars : List Str) (env : Str → K) : K :=
  ((f.factors.map fun q => q.1.valueOrOne vars env).prod * f.num.value (f.orderedNames vars) env) /
    ((f.factors.map fun q => q.2.valueOrOne vars env).prod * f.den.valueOrOne (f.orderedNames vars) env)

/-- a polynomial that can be printed with `k` variable names: exponent vectors of the right length, positive
denominators, exponents below `P` -/
structure Polynomial.OK (a : Polynomial) (k P : ℕ) : Prop where
  len : ∀ t ∈ a.coefs, t.1.length = match a.varPos with | none => a.n | some _ => 1
  num : match a.varPos with | none => a.n = k | some i => i < k
  den : ∀ t ∈ a.coefs, 0 < t.2.den
  deg : ∀ t ∈ a.coefs, ∀ d ∈ t.1, d < P

/-- no exponent vector occurs twice -/
def Polynomial.Distinct (a : Polynomial) : Prop := (a.coefs.map Prod.fst).Nodup

/-- the map `order_map` is empty or a permutation of the positions -/
def OrderOK (order : List (ℕ × ℕ)) (k : ℕ) : Prop :=
  order = [] ∨ ((order.map Prod.fst).Nodup ∧ (∀ q ∈ order, q.1 < k ∧ q.2 < k) ∧ ∀ i < k, i ∈ order.map Prod.fst)

/-! ### proofs -/

lemma Expr.WF_mono {vars vars' : List Str} {P N : ℕ} (h : ∀ x ∈ vars, x ∈ vars') : ∀ e : Expr, e.WF vars P N → e.WF vars' P N
  | .num ds, g => g
  | .var name, g => h _ g
  | .paren e, g => Expr.WF_mono h e g
  | .pow a x, g => ⟨Expr.WF_mono h a g.1, g.2⟩
  | .mul a b, g => ⟨Expr.WF_mono h a g.1, g.2.1, Expr.WF_mono h b g.2.2.1, g.2.2.2⟩
  | .div a b, g => ⟨Expr.WF_mono h a g.1, g.2.1, Expr.WF_mono h b g.2.2.1, g.2.2.2⟩
  | .add a b, g => ⟨Expr.WF_mono h a g.1, Expr.WF_mono h b g.2.1, g.2.2⟩
  | .sub _ a b, g => ⟨Expr.WF_mono h a g.1, Expr.WF_mono h b g.2.1, g.2.2⟩
  | .neg _ a, g => ⟨Expr.WF_mono h a g.1, g.2⟩
  | .pos a, g => ⟨Expr.WF_mono h a g.1, g.2⟩

variable {vars : List Str} {P N : ℕ}

lemma prodTxt : ∀ (ps : List (Str × Val)) (acc : Str) (u : Val), Txt vars P N 2 acc u → (∀ q ∈ ps, Txt vars P N 3 q.1 q.2) →
    Txt vars P N 2 ((acc ++ ['*'] ++ (ps.map fun q => q.1 ++ ['*']).flatten).dropLast) (fun K _ env => u K env * (ps.map fun q => q.2 K env).prod)
  | [], acc, u, h, _ => by
    simp only [List.map_nil, List.flatten_nil, List.append_nil, List.dropLast_concat, List.prod_nil, mul_one]
    exact h
  | (s, v) :: ps, acc, u, h, hp => by
    have := prodTxt ps (acc ++ '*' :: s) _ (h.mul (hp (s, v) (by simp))) (fun q hq => hp q (by simp [hq]))
    have hs : (acc ++ ['*'] ++ (((s, v) :: ps).map fun q => q.1 ++ ['*']).flatten) = (acc ++ '*' :: s) ++ ['*'] ++ (ps.map fun q => q.1 ++ ['*']).flatten := by simp
    rw [hs]
    exact this.congr fun K _ env => by simp [mul_assoc]

lemma sumTxt : ∀ (ps : List (Str × Val)) (acc : Str) (u : Val), Txt vars P N 0 acc u → (∀ q ∈ ps, Txt vars P N 0 q.1 q.2) →
    Txt vars P N 0 ((acc ++ ['+'] ++ (ps.map fun q => q.1 ++ ['+']).flatten).dropLast) (fun K _ env => u K env + (ps.map fun q => q.2 K env).sum)
  | [], acc, u, h, _ => by
    simp only [List.map_nil, List.flatten_nil, List.append_nil, List.dropLast_concat, List.sum_nil, add_zero]
    exact h
  | (s, v) :: ps, acc, u, h, hp => by
    have := sumTxt ps (acc ++ '+' :: s) _ (h.add (hp (s, v) (by simp))) (fun q hq => hp q (by simp [hq]))
    have hs : (acc ++ ['+'] ++ (((s, v) :: ps).map fun q => q.1 ++ ['+']).flatten) = (acc ++ '+' :: s) ++ ['+'] ++ (ps.map fun q => q.1 ++ ['+']).flatten := by simp
    rw [hs]
    exact this.congr fun K _ env => by simp [add_assoc]

/-- the factors of a monomial that are printed -/
def monoPieces (names : List Str) (e : List ℕ) : List (Str × Val) :=
  ((List.range e.length).filter fun i => decide (e.getD i 0 ≥ 1)).map fun i =>
    (names.getD i [] ++ powStr (e.getD i 0), fun K _ env => env (names.getD i []) ^ e.getD i 0)

lemma monoVars_pieces (names : List Str) (e : List ℕ) : monoVars names e = ((monoPieces names e).map fun q => q.1 ++ ['*']).flatten := by
  unfold monoVars monoPieces
  generalize List.range e.length = l
  induction l with
  | nil => rfl
  | cons i l ih =>
    rw [List.map_cons, List.flatten_cons, ih, List.filter_cons]
    by_cases h1 : e.getD i 0 > 1
    · rw [if_pos h1, if_pos (by simp only [decide_eq_true_eq]; omega), List.map_cons, List.map_cons, List.flatten_cons]
      unfold powStr
      simp only
      rw [if_pos (by omega)]
    · rw [if_neg h1]
      by_cases h2 : e.getD i 0 = 1
      · rw [if_pos h2, if_pos (by simp only [decide_eq_true_eq]; omega), List.map_cons, List.map_cons, List.flatten_cons]
        unfold powStr
        simp only
        rw [if_neg (by omega)]
        simp
      · rw [if_neg h2, if_neg (by simp only [decide_eq_true_eq]; omega), List.nil_append]

lemma zip_prod_le {K : Type} [Field K] : ∀ (names : List Str) (e : List ℕ) (env : Str → K), e.length ≤ names.length →
    (List.zipWith (fun name k => env name ^ k) names e).prod = ((List.range e.length).map fun i => env (names.getD i []) ^ e.getD i 0).prod
  | names, [], env, _ => by simp
  | a :: names, d :: e, env, h => by
    rw [List.zipWith_cons_cons, List.prod_cons, zip_prod_le names e env (by simpa using h), List.length_cons, List.range_succ_eq_map, List.map_cons,
      List.prod_cons, List.map_map]
    rfl
  | [], _ :: _, _, h => by simp at h

lemma monoPieces_prod {K : Type} [Field K] (names : List Str) (e : List ℕ) (env : Str → K) (h : e.length ≤ names.length) :
    ((monoPieces names e).map fun q => q.2 K env).prod = monoVal env names e := by
  unfold monoVal
  rw [zip_prod_le names e env h]
  unfold monoPieces
  generalize List.range e.length = l
  induction l with
  | nil => rfl
  | cons i l ih =>
    rw [List.filter_cons, List.map_cons, List.prod_cons, ← ih]
    split
    · simp
    · rename_i h
      have : e.getD i 0 = 0 := by simpa using h
      rw [this]; simp

lemma totalDeg_zero {e : List ℕ} : e.foldl (· + ·) 0 = 0 ↔ ∀ i, e.getD i 0 = 0 := by
  have : e.foldl (· + ·) 0 = e.sum := by
    have := totalDeg_eq e
    exact this
  rw [this, List.sum_eq_zero_iff]
  constructor
  · intro h i
    by_cases hi : i < e.length
    · rw [List.getD_eq_getElem _ _ hi]; exact h _ (List.getElem_mem hi)
    · rw [List.getD_eq_default _ _ (by omega)]
  · intro h x hx
    obtain ⟨i, hi, rfl⟩ := List.getElem_of_mem hx
    rw [← List.getD_eq_getElem _ 0 hi]; exact h i

section
variable {C : Type} {str : C → Str} {isOne : C → Bool} {val : C → ∀ (K : Type) [Field K], K}

lemma monoStr_txt {names : List Str} (hnames : ∀ x ∈ names, x ∈ vars) (hone : ∀ c, isOne c = true → ∀ (K : Type) [Field K], val c K = 1)
    {t : List ℕ × C} (hlen : t.1.length ≤ names.length) (hdeg : ∀ d ∈ t.1, d < P) (hstr : Txt vars P N 2 (str t.2) (fun K _ _ => val t.2 K)) :
    Txt vars P N 2 (monoStr str isOne names t) (fun K _ env => val t.2 K * monoVal env names t.1) := by
  have hps : ∀ q ∈ monoPieces names t.1, Txt vars P N 3 q.1 q.2 := by
    intro q hq
    unfold monoPieces at hq
    rw [List.mem_map] at hq
    obtain ⟨i, hi, rfl⟩ := hq
    rw [List.mem_filter, List.mem_range] at hi
    refine Txt.powStr (txt_var (hnames _ ?_)) ?_
    · rw [List.getD_eq_getElem _ _ (by omega)]; exact List.getElem_mem _
    · rw [List.getD_eq_getElem _ _ hi.1]; exact hdeg _ (List.getElem_mem _)
  have hfull := prodTxt (monoPieces names t.1) (str t.2) _ hstr hps
  have hfull' : Txt vars P N 2 ((str t.2 ++ ['*'] ++ monoVars names t.1).dropLast) (fun K _ env => val t.2 K * monoVal env names t.1) := by
    rw [monoVars_pieces]
    exact hfull.congr fun K _ env => by rw [monoPieces_prod names t.1 env hlen]
  unfold monoStr
  simp only
  by_cases h0 : t.1.foldl (· + ·) 0 = 0
  · rw [if_neg (by simp [h0]), if_pos h0]
    exact hfull'
  · by_cases h1 : isOne t.2 = true
    · rw [if_neg (by simp [h1]), if_neg h0, List.nil_append, monoVars_pieces]
      obtain ⟨q, ps, hq⟩ : ∃ q ps, monoPieces names t.1 = q :: ps := by
        cases hp : monoPieces names t.1 with
        | cons q ps => exact ⟨q, ps, rfl⟩
        | nil =>
          exfalso
          apply h0
          rw [totalDeg_zero]
          intro i
          by_cases hi : i < t.1.length
          · unfold monoPieces at hp
            rw [List.map_eq_nil_iff, List.filter_eq_nil_iff] at hp
            have := hp i (List.mem_range.mpr hi)
            simpa using this
          · rw [List.getD_eq_default _ _ (by omega)]
      rw [hq] at hps
      have := prodTxt ps q.1 q.2 ((hps q (by simp)).mono (by norm_num)) (fun r hr => hps r (by simp [hr]))
      have hv : ∀ (K : Type) [Field K] (env : Str → K), val t.2 K * monoVal env names t.1 = q.2 K env * (ps.map fun q => q.2 K env).prod := by
        intro K _ env
        rw [hone _ h1 K, one_mul, ← monoPieces_prod names t.1 env hlen, hq, List.map_cons, List.prod_cons]
      rw [hq, List.map_cons, List.flatten_cons]
      exact this.congr fun K _ env => (hv K env).symm
    · rw [if_pos ⟨h0, by simpa using h1⟩]
      exact hfull'

lemma polyStrLoop_eq (names : List Str) (m : List (List ℕ × C)) :
    polyStrLoop str isOne names m = ((m.map fun t => monoStr str isOne names t ++ ['+']).flatten).dropLast := by
  unfold polyStrLoop
  have : ∀ (m : List (List ℕ × C)) (s : Str), m.foldl (fun s t => s ++ monoStr str isOne names t ++ ['+']) s =
      s ++ (m.map fun t => monoStr str isOne names t ++ ['+']).flatten := by
    intro m
    induction m with
    | nil => simp
    | cons t m ih => intro s; rw [List.foldl_cons, ih, List.map_cons, List.flatten_cons]; simp
  rw [this, List.nil_append]

lemma polyStrLoop_txt {names : List Str} (hnames : ∀ x ∈ names, x ∈ vars) (hone : ∀ c, isOne c = true → ∀ (K : Type) [Field K], val c K = 1)
    {m : List (List ℕ × C)} (h0 : m ≠ []) (hlen : ∀ t ∈ m, t.1.length ≤ names.length) (hdeg : ∀ t ∈ m, ∀ d ∈ t.1, d < P)
    (hstr : ∀ t ∈ m, Txt vars P N 2 (str t.2) (fun K _ _ => val t.2 K)) :
    Txt vars P N 0 (polyStrLoop str isOne names m) (fun K _ env => polyVal env names (fun c => val c K) m) := by
  rw [polyStrLoop_eq]
  obtain ⟨t, m, rfl⟩ := List.exists_cons_of_ne_nil h0
  have hm : ∀ u ∈ t :: m, Txt vars P N 0 (monoStr str isOne names u) (fun K _ env => val u.2 K * monoVal env names u.1) := fun u hu =>
    (monoStr_txt hnames hone (hlen u hu) (hdeg u hu) (hstr u hu)).mono (by norm_num)
  have := sumTxt (m.map fun u => (monoStr str isOne names u, fun K _ env => val u.2 K * monoVal env names u.1)) _ _ (hm t (by simp)) (by
    intro q hq
    rw [List.mem_map] at hq
    obtain ⟨u, hu, rfl⟩ := hq
    exact hm u (by simp [hu]))
  rw [List.map_map] at this
  rw [List.map_cons, List.flatten_cons]
  refine (Txt.congr this fun K _ env => ?_)
  unfold polyVal
  rw [List.map_cons, List.sum_cons, List.map_map]
  rfl

end

/-- `PolynomialFF::to_string` -/
lemma polyFF_txt {n : ℕ} {m : FFMap ℕ} (hlen : ∀ t ∈ m, t.1.length = n) (hdeg : ∀ t ∈ m, ∀ d ∈ t.1, d < P) (hv : m = [] ∨ vars.length = n) :
    ∃ s, PolyFF.toStr n m vars = some s ∧ Txt vars P N 0 s (fun K _ env => polyVal env vars (fun c : ℕ => (c : K)) m) := by
  unfold PolyFF.toStr
  split
  · rename_i h
    subst h
    exact ⟨_, rfl, (txt_zero.mono (by norm_num)).congr fun K _ env => by simp [polyVal]⟩
  · rename_i h
    have hv : vars.length = n := by tauto
    rw [if_neg (by simpa using hv)]
    exact ⟨_, rfl, polyStrLoop_txt (val := fun (c : ℕ) K _ => (c : K)) (fun x h => h)
      (fun c hc K _ => by have : c = 1 := (by simpa using hc); simp [this]) h (fun t ht => by rw [hlen t ht, hv]) hdeg
      (fun t ht => (txt_nat t.2).mono (by norm_num))⟩

/-- **C33 (`PolynomialFF::to_string`).** For every polynomial over the words in `n` variables with exponents
below `P` and `n` variable names the printed text is a well-formed expression with the value of the
polynomial in every field. -/
theorem C33_polynomial_ff {n : ℕ} {m : FFMap ℕ} (hlen : ∀ t ∈ m, t.1.length = n) (hdeg : ∀ t ∈ m, ∀ d ∈ t.1, d < P) (hv : m = [] ∨ vars.length = n) :
    ∃ s, PolyFF.toStr n m vars = some s ∧ Denotes vars P N s (fun K _ env => polyVal env vars (fun c : ℕ => (c : K)) m) := by
  obtain ⟨s, h1, h2⟩ := polyFF_txt (N := N) hlen hdeg hv
  exact ⟨s, h1, h2.denotes⟩

/-- **C33 (`RationalFunctionFF::to_string`).** An empty denominator is printed as one. -/
theorem C33_rational_function_ff {n : ℕ} {a b : FFMap ℕ} (ha : ∀ t ∈ a, t.1.length = n) (hb : ∀ t ∈ b, t.1.length = n)
    (hda : ∀ t ∈ a, ∀ d ∈ t.1, d < P) (hdb : ∀ t ∈ b, ∀ d ∈ t.1, d < P) (hv : vars.length = n) :
    ∃ s, ratFFStr n a b vars = some s ∧ Denotes vars P N s (fun K _ env =>
      polyVal env vars (fun c : ℕ => (c : K)) a / (if b = [] then 1 else polyVal env vars (fun c : ℕ => (c : K)) b)) := by
  obtain ⟨s, h1, h2⟩ := polyFF_txt (N := N) ha hda (Or.inr hv)
  obtain ⟨t, g1, g2⟩ := polyFF_txt (N := N) hb hdb (Or.inr hv)
  unfold ratFFStr
  rw [h1, Option.bind_some]
  by_cases hb0 : b = []
  · rw [if_neg (by simpa using hb0)]
    refine ⟨_, rfl, ?_⟩
    have := Txt.div (h2.paren.mono (by norm_num : 2 ≤ 4)) ((Txt.paren (s := natStr 1) ((txt_nat 1).mono (by norm_num))).mono (by norm_num : 3 ≤ 4))
    have e1 : natStr 1 = ['1'] := by rw [natStr]; rfl
    rw [e1] at this
    simp only [List.append_assoc, List.cons_append, List.nil_append] at this ⊢
    exact (this.congr fun K _ env => by simp [hb0]).denotes
  · rw [if_pos hb0, g1]
    refine ⟨_, rfl, ?_⟩
    have := Txt.div (h2.paren.mono (by norm_num : 2 ≤ 4)) (g2.paren.mono (by norm_num : 3 ≤ 4))
    simp only [List.append_assoc, List.cons_append, List.nil_append] at this ⊢
    exact (this.congr fun K _ env => by simp [hb0]).denotes

lemma Polynomial.vars_mem {a : Polynomial} {names : List Str} (h : a.OK names.length P) : ∀ x ∈ a.vars names, x ∈ names := by
  intro x hx
  have hn := h.num
  unfold Polynomial.vars at hx
  cases hv : a.varPos with
  | none => rw [hv] at hx; exact hx
  | some i =>
    rw [hv] at hx hn
    rcases List.mem_or_eq_of_mem_set hx with h | h
    · exact h
    · rw [h, List.getD_eq_getElem _ _ hn]; exact List.getElem_mem _

lemma Polynomial.vars_length (a : Polynomial) (names : List Str) : (a.vars names).length = names.length := by
  unfold Polynomial.vars
  cases a.varPos <;> simp

lemma Polynomial.len_le {a : Polynomial} {k : ℕ} (h : a.OK k P) : ∀ t ∈ a.coefs, t.1.length ≤ k := by
  intro t ht
  have h1 := h.len t ht
  have h2 := h.num
  cases hv : a.varPos with
  | none => rw [hv] at h1 h2; simp only at h1 h2; omega
  | some i => rw [hv] at h1 h2; simp only at h1 h2; omega

lemma Polynomial.value_vars {K : Type} [Field K] {a : Polynomial} {names : List Str} (h : a.OK names.length P) (env : Str → K) :
    polyVal env (a.vars names) ratVal a.coefs = a.value names env := by
  unfold Polynomial.value Polynomial.names
  have hl := h.len
  have hn := h.num
  unfold Polynomial.vars
  cases hv : a.varPos with
  | none => rfl
  | some i =>
    rw [hv] at hl hn
    unfold polyVal
    congr 1
    apply List.map_congr_left
    intro t ht
    congr 1
    have hl := hl t ht
    obtain ⟨e, c⟩ := t
    simp only at hl ⊢
    match e, hl with
    | [d], _ =>
      cases names with
      | nil => simp at hn
      | cons x xs => simp [monoVal]

/-- what is needed of a way to print polynomials -/
def PrintsPoly (vars : List Str) (P N : ℕ) (pr : Polynomial → List Str → Option Str) (a : Polynomial) (names : List Str) : Prop :=
  ∃ s, pr a names = some s ∧ Txt vars P N 0 s (fun K _ env => a.value names env)

lemma polynomial_prints {a : Polynomial} {names : List Str} (hnames : ∀ x ∈ names, x ∈ vars) (h : a.OK names.length P) :
    PrintsPoly vars P N Polynomial.toStr a names := by
  unfold PrintsPoly Polynomial.toStr
  split
  · rename_i h0
    exact ⟨_, rfl, (txt_zero.mono (by norm_num)).congr fun K _ env => by simp [Polynomial.value, h0, polyVal]⟩
  · rename_i h0
    rw [if_neg (by
      rintro ⟨h1, h2⟩
      have := h.num
      rw [h2] at this
      exact h1 this.symm)]
    refine ⟨_, rfl, ?_⟩
    have := polyStrLoop_txt (vars := vars) (N := N) (names := a.vars names) (str := RationalNumber.str) (isOne := RationalNumber.isOne) (val := fun c K _ => ratVal c)
      (fun x hx => hnames x (Polynomial.vars_mem h x hx)) (by
        intro c hc K _
        unfold RationalNumber.isOne at hc
        simp only [Bool.and_eq_true, beq_iff_eq] at hc
        simp [ratVal, hc.1, hc.2]) h0 (fun t ht => by rw [Polynomial.vars_length]; exact Polynomial.len_le h t ht) h.deg
      (fun t ht => txt_rat (h.den t ht))
    exact this.congr fun K _ env => Polynomial.value_vars h env

lemma horner_prints {a : Polynomial} {names : List Str} (hnames : ∀ x ∈ names, x ∈ vars) (h : a.OK names.length P) (hd : a.Distinct) :
    PrintsPoly vars P N Polynomial.generateHorner a names := by
  unfold PrintsPoly Polynomial.generateHorner
  refine ⟨_, rfl, ?_⟩
  by_cases h0 : a.coefs = []
  · unfold generateHornerMon
    rw [if_pos h0]
    exact (txt_zero.mono (by norm_num)).congr fun K _ env => by simp [Polynomial.value, h0, polyVal]
  · have hw : ∃ k, WFMap k a.coefs ∧ k ≤ names.length := by
      have h1 := h.len
      have h2 := h.num
      cases hv : a.varPos with
      | none => rw [hv] at h1 h2; exact ⟨a.n, ⟨hd, h1⟩, h2.le⟩
      | some i => rw [hv] at h1 h2; exact ⟨1, ⟨hd, h1⟩, by simp only at h2; omega⟩
    obtain ⟨k, hw, hk⟩ := hw
    unfold generateHornerMon generateHornerRN
    rw [if_neg h0, emplace_all a.coefs [] (by rw [List.nil_append]; exact hd), List.nil_append, if_neg h0, firstSize_eq hw h0]
    have := hornerSparse_txt (vars := a.vars names) (P := P) (N := N) (str := RationalNumber.str) (isOne := RationalNumber.isOne) (val := fun c K _ => ratVal c) (by
      intro c hc K _
      unfold RationalNumber.isOne at hc
      simp only [Bool.and_eq_true, beq_iff_eq] at hc
      simp [ratVal, hc.1, hc.2]) k 0 a.coefs hw h0 (by rw [Polynomial.vars_length]; omega) (fun t ht => ⟨h.deg t ht, txt_rat (h.den t ht)⟩)
    have hsub : ∀ {lv : ℕ} {s : Str} {v : Val}, Txt (a.vars names) P N lv s v → Txt vars P N lv s v := by
      intro lv s v ⟨e, g1, g2, g3, g4, g5, g6⟩
      exact ⟨e, g1, Expr.WF_mono (fun x hx => hnames x (Polynomial.vars_mem h x hx)) e g2, g3, g4, g5, g6⟩
    refine (hsub this).congr fun K _ env => ?_
    unfold restVal
    rw [List.drop_zero]
    exact Polynomial.value_vars h env

lemma set_fold (vars : List Str) : ∀ (order : List (ℕ × ℕ)) (v : List Str), (order.map Prod.fst).Nodup → (∀ q ∈ order, q.1 < v.length) →
    let r := order.foldl (fun v el => v.set el.1 (vars.getD el.2 [])) v
    r.length = v.length ∧ ∀ i, r.getD i [] = match order.lookup i with | some j => vars.getD j [] | none => v.getD i []
  | [], v, _, _ => ⟨rfl, fun i => rfl⟩
  | (a, b) :: order, v, hn, hk => by
    rw [List.map_cons, List.nodup_cons] at hn
    obtain ⟨h1, h2⟩ := set_fold vars order (v.set a (vars.getD b [])) hn.2 (by
      intro q hq; rw [List.length_set]; exact hk q (by simp [hq]))
    refine ⟨by rw [List.foldl_cons, h1, List.length_set], ?_⟩
    intro i
    rw [List.foldl_cons, h2 i]
    by_cases hi : i = a
    · subst hi
      have hnone : order.lookup i = none := by
        rw [List.lookup_eq_none_iff]
        intro q hq
        simp only [beq_eq_false_iff_ne, ne_eq, bne_iff_ne]
        intro hh
        have := List.mem_map_of_mem (f := Prod.fst) hq
        rw [← hh] at this
        exact hn.1 this
      rw [hnone, List.lookup_cons_self]
      simp only
      have := hk (i, b) (by simp)
      simp [List.getD_eq_getElem?_getD, List.getElem?_set, this]
    · rw [List.lookup_cons, beq_eq_false_iff_ne.mpr hi]
      have : (v.set a (vars.getD b [])).getD i [] = v.getD i [] := by
        simp [List.getD_eq_getElem?_getD, List.getElem?_set, Ne.symm hi]
      rw [this]

lemma varsOrdered_eq {f : RationalFunction} (h : OrderOK f.order vars.length) : f.varsOrdered vars = f.orderedNames vars := by
  unfold RationalFunction.varsOrdered RationalFunction.orderedNames
  rcases h with h | ⟨h1, h2, h3⟩
  · rw [if_neg (by simpa using h), if_pos h]
  · by_cases h0 : f.order = []
    · rw [if_neg (by simpa using h0), if_pos h0]
    · rw [if_pos h0, if_neg h0]
      obtain ⟨g1, g2⟩ := set_fold vars f.order (List.replicate vars.length []) h1 (by
        intro q hq; rw [List.length_replicate]; exact (h2 q hq).1)
      rw [List.length_replicate] at g1
      apply List.ext_getElem
      · rw [g1]; simp
      · intro i hi hi'
        rw [← List.getD_eq_getElem _ [] hi, g2 i, List.getElem_map, List.getElem_range]
        have hlt : i < vars.length := by rw [g1] at hi; exact hi
        have := h3 i hlt
        cases hl : f.order.lookup i with
        | some j => rfl
        | none =>
          exfalso
          rw [List.lookup_eq_none_iff] at hl
          rw [List.mem_map] at this
          obtain ⟨q, hq, rfl⟩ := this
          have := hl q hq
          simp at this

lemma orderedNames_length (f : RationalFunction) : (f.orderedNames vars).length = vars.length := by
  unfold RationalFunction.orderedNames
  split <;> simp

lemma lookup_mem {α : Type} : ∀ {l : List (ℕ × α)} {i : ℕ} {j : α}, l.lookup i = some j → (i, j) ∈ l
  | [], _, _, h => by simp at h
  | (a, b) :: l, i, j, h => by
    rw [List.lookup_cons] at h
    by_cases hh : i = a
    · subst hh; simp at h; simp [h]
    · rw [beq_eq_false_iff_ne.mpr hh] at h
      exact List.mem_cons_of_mem _ (lookup_mem h)

lemma orderedNames_mem {f : RationalFunction} (h : OrderOK f.order vars.length) : ∀ x ∈ f.orderedNames vars, x ∈ vars := by
  unfold RationalFunction.orderedNames
  intro x hx
  split at hx
  · exact hx
  · rename_i h0
    rw [List.mem_map] at hx
    obtain ⟨i, hi, rfl⟩ := hx
    rw [List.mem_range] at hi
    rcases h with h | ⟨h1, h2, h3⟩
    · exact absurd h h0
    · have := h3 i hi
      cases hl : f.order.lookup i with
      | none =>
        exfalso
        rw [List.lookup_eq_none_iff] at hl
        rw [List.mem_map] at this
        obtain ⟨q, hq, rfl⟩ := this
        have := hl q hq
        simp at this
      | some j =>
        have hj : j < vars.length := (h2 _ (lookup_mem hl)).2
        show vars.getD j [] ∈ vars
        rw [List.getD_eq_getElem _ _ hj]
        exact List.getElem_mem _

lemma factors_txt {pr : Polynomial → List Str → Option Str} : ∀ (fs : List Polynomial) (acc : Str), (∀ a ∈ fs, PrintsPoly vars P N pr a vars) →
    ∃ ps : List (Str × Val), fs.foldlM (factorStr pr vars) acc = some (acc ++ (ps.map fun q => q.1 ++ ['*']).flatten) ∧
      (∀ q ∈ ps, Txt vars P N 4 q.1 q.2) ∧ ∀ (K : Type) [Field K] (env : Str → K), (ps.map fun q => q.2 K env).prod = (fs.map fun a => a.valueOrOne vars env).prod
  | [], acc, _ => ⟨[], by simp, by simp, by simp⟩
  | a :: fs, acc, h => by
    by_cases h0 : a.coefs = []
    · obtain ⟨ps, h1, h2, h3⟩ := factors_txt fs acc (fun b hb => h b (by simp [hb]))
      refine ⟨ps, ?_, h2, ?_⟩
      · rw [List.foldlM_cons]
        unfold factorStr
        rw [if_neg (by simpa using h0)]
        exact h1
      · intro K _ env
        rw [h3 K env, List.map_cons, List.prod_cons]
        simp [Polynomial.valueOrOne, h0]
    · obtain ⟨t, ht1, ht2⟩ := h a (by simp)
      obtain ⟨ps, h1, h2, h3⟩ := factors_txt fs (acc ++ '(' :: t ++ [')', '*']) (fun b hb => h b (by simp [hb]))
      refine ⟨('(' :: t ++ [')'], fun K _ env => a.value vars env) :: ps, ?_, ?_, ?_⟩
      · rw [List.foldlM_cons]
        show ((factorStr pr vars acc a).bind fun s' => List.foldlM (factorStr pr vars) s' fs) = _
        have : factorStr pr vars acc a = some (acc ++ '(' :: t ++ [')', '*']) := by
          unfold factorStr
          rw [if_pos h0, ht1]; rfl
        rw [this, Option.bind_some, h1]
        simp
      · intro q hq
        rcases List.mem_cons.mp hq with rfl | hq
        · exact ht2.paren
        · exact h2 q hq
      · intro K _ env
        rw [List.map_cons, List.prod_cons, h3 K env, List.map_cons, List.prod_cons]
        simp [Polynomial.valueOrOne, h0]

lemma product_txt {ps : List (Str × Val)} (hps : ∀ q ∈ ps, Txt vars P N 4 q.1 q.2) {s : Str} {v : Val} (h : Txt vars P N 4 s v) :
    Txt vars P N 2 ((ps.map fun q => q.1 ++ ['*']).flatten ++ s) (fun K _ env => (ps.map fun q => q.2 K env).prod * v K env) := by
  have hall : ∀ q ∈ ps ++ [(s, v)], Txt vars P N 4 q.1 q.2 := by
    intro q hq
    rcases List.mem_append.mp hq with hq | hq
    · exact hps q hq
    · rw [List.mem_singleton] at hq; subst hq; exact h
  obtain ⟨q, qs, hq⟩ : ∃ q qs, ps ++ [(s, v)] = q :: qs := by
    cases ps with
    | nil => exact ⟨_, _, rfl⟩
    | cons q qs => exact ⟨_, _, rfl⟩
  have hs : ((ps.map fun q => q.1 ++ ['*']).flatten ++ s) = (q.1 ++ ['*'] ++ (qs.map fun q => q.1 ++ ['*']).flatten).dropLast := by
    have : (q.1 ++ ['*'] ++ (qs.map fun q => q.1 ++ ['*']).flatten) = ((q :: qs).map fun q => q.1 ++ ['*']).flatten := by simp
    rw [this, ← hq]
    simp only [List.map_append, List.map_cons, List.map_nil, List.flatten_append, List.flatten_cons, List.flatten_nil, List.append_nil]
    rw [← List.append_assoc, List.dropLast_concat]
  have hv : ∀ (K : Type) [Field K] (env : Str → K), (ps.map fun q => q.2 K env).prod * v K env = q.2 K env * (qs.map fun q => q.2 K env).prod := by
    intro K _ env
    have : ((ps ++ [(s, v)]).map fun q => q.2 K env).prod = ((q :: qs).map fun q => q.2 K env).prod := by rw [hq]
    simpa using this
  rw [hq] at hall
  rw [hs]
  exact (prodTxt qs q.1 q.2 ((hall q (by simp)).mono (by norm_num)) (fun r hr => (hall r (by simp [hr])).mono (by norm_num))).congr
    fun K _ env => (hv K env).symm

lemma txt_one : Txt vars P N 4 ['(', '1', ')'] (fun K _ _ => 1) := by
  have e1 : natStr 1 = ['1'] := by rw [natStr]; rfl
  have := Txt.paren (s := natStr 1) ((txt_nat (vars := vars) (P := P) (N := N) 1).mono (by norm_num : 0 ≤ 4))
  rw [e1] at this
  exact this.congr fun K _ env => by simp

lemma print_txt {pr : Polynomial → List Str → Option Str} {f : RationalFunction} (ho : OrderOK f.order vars.length)
    (hfac : ∀ q ∈ f.factors, PrintsPoly vars P N pr q.1 vars ∧ PrintsPoly vars P N pr q.2 vars)
    (hnum : PrintsPoly vars P N pr f.num (f.orderedNames vars)) (hden : PrintsPoly vars P N pr f.den (f.orderedNames vars)) :
    ∃ s, f.print pr vars = some s ∧ Txt vars P N 2 s (fun K _ env => f.value vars env) := by
  obtain ⟨a, ha1, ha2⟩ := hnum
  obtain ⟨b, hb1, hb2⟩ := hden
  have hbtxt : ∃ b', (f.den.coefs ≠ [] → b' = '(' :: b ++ [')']) ∧ (f.den.coefs = [] → b' = ['(', '1', ')']) ∧
      Txt vars P N 4 b' (fun K _ env => f.den.valueOrOne (f.orderedNames vars) env) := by
    by_cases h0 : f.den.coefs = []
    · exact ⟨_, fun h => absurd h0 h, fun _ => rfl, txt_one.congr fun K _ env => by simp [Polynomial.valueOrOne, h0]⟩
    · exact ⟨_, fun _ => rfl, fun h => absurd h h0, hb2.paren.congr fun K _ env => by simp [Polynomial.valueOrOne, h0]⟩
  obtain ⟨b', e1, e2, hb'⟩ := hbtxt
  unfold RationalFunction.print
  simp only [varsOrdered_eq ho]
  by_cases hf : f.factors = []
  · rw [if_neg (by simpa using hf), ha1, Option.bind_some]
    have htxt := Txt.div (ha2.paren.mono (by norm_num : 2 ≤ 4)) (hb'.mono (by norm_num : 3 ≤ 4))
    have hval : ∀ (K : Type) [Field K] (env : Str → K), f.num.value (f.orderedNames vars) env / f.den.valueOrOne (f.orderedNames vars) env = f.value vars env := by
      intro K _ env
      simp [RationalFunction.value, hf]
    by_cases h0 : f.den.coefs = []
    · rw [if_neg (by simpa using h0)]
      refine ⟨_, rfl, ?_⟩
      rw [e2 h0] at htxt
      simp only [List.append_assoc, List.cons_append, List.nil_append] at htxt ⊢
      exact htxt.congr fun K _ env => hval K env
    · rw [if_pos h0, hb1]
      refine ⟨_, rfl, ?_⟩
      rw [e1 h0] at htxt
      simp only [List.append_assoc, List.cons_append, List.nil_append] at htxt ⊢
      exact htxt.congr fun K _ env => hval K env
  · rw [if_pos hf]
    obtain ⟨ps, p1, p2, p3⟩ := factors_txt (pr := pr) (f.factors.map Prod.fst) ['('] (by
      intro a ha; rw [List.mem_map] at ha; obtain ⟨q, hq, rfl⟩ := ha; exact (hfac q hq).1)
    obtain ⟨qs, q1, q2, q3⟩ := factors_txt (pr := pr) (f.factors.map Prod.snd) ['('] (by
      intro a ha; rw [List.mem_map] at ha; obtain ⟨q, hq, rfl⟩ := ha; exact (hfac q hq).2)
    rw [p1, Option.bind_some, q1, Option.bind_some, ha1, Option.bind_some]
    have t1 := ((product_txt p2 ha2.paren).mono (by norm_num : 0 ≤ 2)).paren
    have t2 := ((product_txt q2 hb').mono (by norm_num : 0 ≤ 2)).paren
    have htxt := Txt.div (t1.mono (by norm_num : 2 ≤ 4)) (t2.mono (by norm_num : 3 ≤ 4))
    have hval : ∀ (K : Type) [Field K] (env : Str → K), ((ps.map fun q => q.2 K env).prod * f.num.value (f.orderedNames vars) env) /
        ((qs.map fun q => q.2 K env).prod * f.den.valueOrOne (f.orderedNames vars) env) = f.value vars env := by
      intro K _ env
      rw [p3, q3, List.map_map, List.map_map]
      rfl
    by_cases h0 : f.den.coefs = []
    · rw [if_neg (by simpa using h0)]
      refine ⟨_, rfl, ?_⟩
      rw [e2 h0] at htxt
      simp only [List.append_assoc, List.cons_append, List.nil_append] at htxt ⊢
      exact htxt.congr fun K _ env => hval K env
    · rw [if_pos h0, hb1]
      refine ⟨_, rfl, ?_⟩
      rw [e1 h0] at htxt
      simp only [List.append_assoc, List.cons_append, List.nil_append] at htxt ⊢
      exact htxt.congr fun K _ env => hval K env

/-- **C33 (`Polynomial::to_string`).** -/
theorem C33_polynomial {a : Polynomial} (h : a.OK vars.length P) :
    ∃ s, a.toStr vars = some s ∧ Denotes vars P N s (fun K _ env => a.value vars env) := by
  obtain ⟨s, h1, h2⟩ := polynomial_prints (N := N) (fun x hx => hx) h
  exact ⟨s, h1, h2.denotes⟩

/-- **C33 (`RationalFunction::to_string`).** For every rational function with univariate or multivariate
factors and any order of the variables the printed text is a well-formed expression with the value of the
rational function in every field. -/
theorem C33_rational_function {f : RationalFunction} (ho : OrderOK f.order vars.length) (hnum : f.num.OK vars.length P) (hden : f.den.OK vars.length P)
    (hfac : ∀ q ∈ f.factors, q.1.OK vars.length P ∧ q.2.OK vars.length P) :
    ∃ s, f.toStr vars = some s ∧ Denotes vars P N s (fun K _ env => f.value vars env) := by
  obtain ⟨s, h1, h2⟩ := print_txt (N := N) (P := P) (pr := Polynomial.toStr) ho
    (fun q hq => ⟨polynomial_prints (fun x hx => hx) (hfac q hq).1, polynomial_prints (fun x hx => hx) (hfac q hq).2⟩)
    (polynomial_prints (orderedNames_mem ho) (by rw [orderedNames_length]; exact hnum)) (polynomial_prints (orderedNames_mem ho) (by rw [orderedNames_length]; exact hden))
  exact ⟨s, h1, h2.denotes⟩

/-- **C26, C33 (`RationalFunction::generate_horner`).** The same for the Horner form, if no exponent vector
occurs twice in a polynomial. -/
theorem C26_rational_function_horner {f : RationalFunction} (ho : OrderOK f.order vars.length) (hnum : f.num.OK vars.length P ∧ f.num.Distinct)
    (hden : f.den.OK vars.length P ∧ f.den.Distinct)
    (hfac : ∀ q ∈ f.factors, (q.1.OK vars.length P ∧ q.1.Distinct) ∧ (q.2.OK vars.length P ∧ q.2.Distinct)) :
    ∃ s, f.generateHorner vars = some s ∧ Denotes vars P N s (fun K _ env => f.value vars env) := by
  obtain ⟨s, h1, h2⟩ := print_txt (N := N) (P := P) (pr := Polynomial.generateHorner) ho
    (fun q hq => ⟨horner_prints (fun x hx => hx) (hfac q hq).1.1 (hfac q hq).1.2, horner_prints (fun x hx => hx) (hfac q hq).2.1 (hfac q hq).2.2⟩)
    (horner_prints (orderedNames_mem ho) (by rw [orderedNames_length]; exact hnum.1) hnum.2)
    (horner_prints (orderedNames_mem ho) (by rw [orderedNames_length]; exact hden.1) hden.2)
  exact ⟨s, h1, h2.denotes⟩

/-- **C33, C24.** The result of a reconstruction is read back: the text of `to_string` of every rational
function is accepted by the parser, and the value computed from it modulo `p` is the value of the rational
function over `ℤ/p`. -/
theorem C33_read_back [LongDouble] {p : ℕ} [Fact p.Prime] (hlt : p < 2 ^ 63) (h3 : 3 < p) (hvars : ∀ v ∈ vars, IsName v)
    {f : RationalFunction} (ho : OrderOK f.order vars.length) (hnum : f.num.OK vars.length (p - 1)) (hden : f.den.OK vars.length (p - 1))
    (hfac : ∀ q ∈ f.factors, q.1.OK vars.length (p - 1) ∧ q.2.OK vars.length (p - 1))
    {values : List ℕ} (hlen : vars.length ≤ values.length) (hval : ∀ x ∈ values, x < p) :
    ∃ s t T c, f.toStr vars = some s ∧ validate s = some t ∧ parse t = some T ∧ evaluateRpn opTokens p vars values T = some c ∧ c < p ∧
      (c : ZMod p) = f.value vars (fun name => ((values.getD (vars.idxOf name) 0 : ℕ) : ZMod p)) := by
  obtain ⟨s, h1, h2⟩ := C33_rational_function (N := min p (2 ^ 31)) ho hnum hden hfac
  obtain ⟨t, T, c, g1, g2, g3, g4, g5⟩ := C26_read_back hlt h3 hvars hlen hval h2
  exact ⟨s, t, T, c, h1, g1, g2, g3, g4, g5⟩

/-- the hypotheses hold and the strings are as expected: `(3 x y^2 - 2/7) / (y + 1)` with the factor
`(y + 2)/1` and the variables of the numerator exchanged -/
def sampleF : RationalFunction where
  num := ⟨2, [([1, 2], ⟨3, 1⟩), ([0, 0], ⟨-2, 7⟩)], none⟩
  den := ⟨2, [([0, 1], ⟨1, 1⟩), ([0, 0], ⟨1, 1⟩)], none⟩
  factors := [(⟨1, [([1], ⟨1, 1⟩), ([0], ⟨2, 1⟩)], some 1⟩, ⟨1, [], some 1⟩)]
  order := [(0, 1), (1, 0)]

example : sampleF.toStr ["x".toList, "y".toList] = some "((y+2)*(3*y*x^2+(-2/7)))/((x+1))".toList ∧
    sampleF.generateHorner ["x".toList, "y".toList] = some "((y+2)*((3*x^2)*y+(-2/7)))/((x+1))".toList ∧
    OrderOK sampleF.order 2 ∧ sampleF.num.OK 2 100 ∧ sampleF.den.OK 2 100 ∧ sampleF.num.Distinct ∧
    ∀ q ∈ sampleF.factors, q.1.OK 2 100 ∧ q.2.OK 2 100 := by
  refine ⟨by decide +kernel, by decide +kernel, Or.inr ⟨by decide, by decide, by decide⟩, ⟨?_, ?_, ?_, ?_⟩, ⟨?_, ?_, ?_, ?_⟩, ?_, ?_⟩
  all_goals try (simp [sampleF, Polynomial.Distinct]; done)
  intro q hq
  simp only [sampleF, List.mem_singleton] at hq
  subst hq
  exact ⟨⟨by simp, by simp, by simp, by simp⟩, ⟨by simp, by simp, by simp, by simp⟩⟩

end FireFly
