import Verif.Lemmas.TokenLemmas
import Verif.Props.PrecomputeProps
/-!
# C25: precomputed evaluation of an expression after any history of primes, condition on the expression
-/
set_option linter.all false
namespace FireFly

/-! ### specification -/

/-- the expression is, up to parentheses and a sign, a quotient -/
def Expr.quot : Expr → Bool
  | .div _ _ => true
  | .paren e => e.quot
  | .neg _ a => a.quot
  | .pos a => a.quot
  | _ => false

/-- no divisor in the expression is a quotient, as in `x/(2/3)` -/
def Expr.NoQuot : Expr → Prop
  | .num _ => True
  | .var _ => True
  | .paren e => e.NoQuot
  | .pow a _ => a.NoQuot
  | .mul a b => a.NoQuot ∧ b.NoQuot
  | .div a b => a.NoQuot ∧ b.NoQuot ∧ b.quot = false
  | .add a b => a.NoQuot ∧ b.NoQuot
  | .sub _ a b => a.NoQuot ∧ b.NoQuot
  | .neg _ a => a.NoQuot
  | .pos a => a.NoQuot

/-! ### proofs -/

variable {vars : List Str} {P N : ℕ}

/-- the tokens are not two quotients -/
def NSS (a b : Str) : Prop := ¬ (a = ['/'] ∧ b = ['/'])

lemma noslash {sg ds : Str} (h0 : ds ≠ []) (hal : ∀ c ∈ ds, isAlnum c = true) : sg ++ ds ≠ ['/'] := by
  intro h
  obtain ⟨c, t, rfl⟩ := List.exists_cons_of_ne_nil h0
  have hl := congrArg List.length h
  simp at hl
  have hs : sg = [] := List.length_eq_zero_iff.mp (by omega)
  subst hs
  have : c = '/' := by simpa using (List.cons.inj h).1
  exact (alnum_ne (hal c (by simp))).2.2.2.1 this

lemma code_last : ∀ (e : Expr) (sg : Str), e.WF vars P N → (∀ v ∈ vars, IsName v) → ['/'] ∈ (e.code sg).getLast? → e.quot = true
  | .num ds, sg, h, _, g => by
    have : sg ++ ds = ['/'] := by simpa [Expr.code] using g
    exact absurd this (noslash h.1 (isNum_alnum h).2)
  | .var ds, sg, h, hv, g => by
    have : sg ++ ds = ['/'] := by simpa [Expr.code] using g
    exact absurd this (noslash (isName_alnum (hv ds h)).1 (isName_alnum (hv ds h)).2)
  | .paren e, _, h, hv, g => code_last e [] h hv g
  | .pow a x, sg, h, hv, g => by
    have : x.op (decide (sg = ['-'])) = '/' := by simpa [Expr.code, List.getLast?_append] using g
    by_cases hs : sg = ['-'] <;> cases x <;> simp [Exponent.op, hs] at this
  | .mul a b, sg, h, hv, g => by simp [Expr.code, List.getLast?_append] at g
  | .div a b, sg, h, hv, g => rfl
  | .add a b, sg, h, hv, g => by simp [Expr.code, List.getLast?_append] at g
  | .sub _ a b, sg, h, hv, g => by simp [Expr.code, List.getLast?_append] at g
  | .neg _ a, sg, h, hv, g => by
    simp only [Expr.code] at g
    split at g
    · rw [Option.mem_def, List.getLast?_append_of_ne_nil _ (by simp)] at g
      simp at g
    · exact code_last a _ h.1 hv g
  | .pos a, sg, h, hv, g => by
    simp only [Expr.code] at g
    split at g
    · rw [Option.mem_def, List.getLast?_append_of_ne_nil _ (by simp)] at g
      simp at g
    · exact code_last a _ h.1 hv g

lemma code_head : ∀ (e : Expr) (sg : Str), SgOK sg → e.WF vars P N → (∀ v ∈ vars, IsName v) → ['/'] ∉ (e.code sg).head?
  | .num ds, sg, hs, h, _ => by
    intro g
    have : sg ++ ds = ['/'] := by simpa [Expr.code] using g
    exact absurd this (noslash h.1 (isNum_alnum h).2)
  | .var ds, sg, hs, h, hv => by
    intro g
    have : sg ++ ds = ['/'] := by simpa [Expr.code] using g
    exact absurd this (noslash (isName_alnum (hv ds h)).1 (isName_alnum (hv ds h)).2)
  | .paren e, _, hs, h, hv => code_head e [] (Or.inl rfl) h hv
  | .pow a x, sg, hs, h, hv => by
    simp only [Expr.code]
    rw [List.append_assoc, List.head?_append_of_ne_nil _ (code_ne_nil _ _)]
    apply code_head a _ _ h.1 hv
    split
    · exact Or.inl rfl
    · exact hs
  | .mul a b, sg, hs, h, hv => by
    simp only [Expr.code]
    rw [List.append_assoc, List.head?_append_of_ne_nil _ (code_ne_nil _ _)]
    exact code_head a _ hs h.1 hv
  | .div a b, sg, hs, h, hv => by
    simp only [Expr.code]
    rw [List.append_assoc, List.head?_append_of_ne_nil _ (code_ne_nil _ _)]
    exact code_head a _ hs h.1 hv
  | .add a b, sg, hs, h, hv => by
    simp only [Expr.code]
    rw [List.append_assoc, List.head?_append_of_ne_nil _ (code_ne_nil _ _)]
    exact code_head a _ (Or.inl rfl) h.1 hv
  | .sub _ a b, sg, hs, h, hv => by
    simp only [Expr.code]
    rw [List.append_assoc, List.head?_append_of_ne_nil _ (code_ne_nil _ _)]
    exact code_head a _ (Or.inl rfl) h.1 hv
  | .neg _ a, sg, hs, h, hv => by
    simp only [Expr.code]
    split
    · simp
    · exact code_head a _ (Or.inr (Or.inl rfl)) h.1 hv
  | .pos a, sg, hs, h, hv => by
    simp only [Expr.code]
    split
    · simp
    · exact code_head a _ (Or.inr (Or.inr rfl)) h.1 hv

/-- two operands and an operator other than `/` after a quotient -/
lemma chain_binary {A B : List Str} {c : Str} (hA : A.IsChain NSS) (hB : B.IsChain NSS) (hB0 : B ≠ []) (hh : ['/'] ∉ B.head?)
    (hc : c = ['/'] → ['/'] ∉ B.getLast?) : (A ++ B ++ [c]).IsChain NSS := by
  rw [List.isChain_append]
  refine ⟨?_, by simp, ?_⟩
  · rw [List.isChain_append]
    refine ⟨hA, hB, ?_⟩
    rintro x - y hy ⟨-, rfl⟩
    exact hh hy
  · rintro x hx y hy ⟨rfl, rfl⟩
    have : c = ['/'] := by simpa using hy
    rw [List.getLast?_append_of_ne_nil _ hB0] at hx
    exact hc this hx

lemma code_chain (hv : ∀ v ∈ vars, IsName v) : ∀ (e : Expr) (sg : Str), SgOK sg → e.WF vars P N → e.NoQuot → (e.code sg).IsChain NSS
  | .num ds, sg, hs, h, _ => by simp [Expr.code]
  | .var ds, sg, hs, h, _ => by simp [Expr.code]
  | .paren e, _, hs, h, hq => code_chain hv e [] (Or.inl rfl) h hq
  | .pow a x, sg, hs, h, hq => by
    simp only [Expr.code]
    have hds : x.digits ≠ ['/'] := by
      intro hx
      have h2 := h.2.2
      cases x with
      | plain ds => exact absurd ((isNum_alnum h2.1).2 '/' (by rw [show ds = ['/'] from hx]; simp)) (by decide)
      | paren ds => exact absurd ((isNum_alnum h2.1).2 '/' (by rw [show ds = ['/'] from hx]; simp)) (by decide)
      | neg ds => exact absurd ((isNum_alnum h2.1).2 '/' (by rw [show ds = ['/'] from hx]; simp)) (by decide)
    apply chain_binary
    · apply code_chain hv a _ _ h.1 hq
      split
      · exact Or.inl rfl
      · exact hs
    · simp
    · simp
    · simpa using hds
    · intro hx
      simpa using hds
  | .mul a b, sg, hs, h, hq => by
    simp only [Expr.code]
    exact chain_binary (code_chain hv a _ hs h.1 hq.1) (code_chain hv b _ (Or.inl rfl) h.2.2.1 hq.2) (code_ne_nil _ _)
      (code_head b _ (Or.inl rfl) h.2.2.1 hv) (by simp)
  | .div a b, sg, hs, h, hq => by
    simp only [Expr.code]
    refine chain_binary (code_chain hv a _ hs h.1 hq.1) (code_chain hv b _ (Or.inl rfl) h.2.2.1 hq.2.1) (code_ne_nil _ _)
      (code_head b _ (Or.inl rfl) h.2.2.1 hv) (fun _ hx => ?_)
    have := code_last b _ h.2.2.1 hv hx
    rw [hq.2.2] at this
    exact absurd this (by simp)
  | .add a b, sg, hs, h, hq => by
    simp only [Expr.code]
    exact chain_binary (code_chain hv a _ (Or.inl rfl) h.1 hq.1) (code_chain hv b _ (Or.inl rfl) h.2.1 hq.2) (code_ne_nil _ _)
      (code_head b _ (Or.inl rfl) h.2.1 hv) (by simp)
  | .sub _ a b, sg, hs, h, hq => by
    simp only [Expr.code]
    exact chain_binary (code_chain hv a _ (Or.inl rfl) h.1 hq.1) (code_chain hv b _ (Or.inl rfl) h.2.1 hq.2) (code_ne_nil _ _)
      (code_head b _ (Or.inl rfl) h.2.1 hv) (by simp)
  | .neg _ a, sg, hs, h, hq => by
    simp only [Expr.code]
    split
    · exact chain_binary (by simp) (code_chain hv a _ (Or.inl rfl) h.1 hq) (code_ne_nil _ _) (code_head a _ (Or.inl rfl) h.1 hv) (by simp)
    · exact code_chain hv a _ (Or.inr (Or.inl rfl)) h.1 hq
  | .pos a, sg, hs, h, hq => by
    simp only [Expr.code]
    split
    · exact chain_binary (by simp) (code_chain hv a _ (Or.inl rfl) h.1 hq) (code_ne_nil _ _) (code_head a _ (Or.inl rfl) h.1 hv) (by simp)
    · exact code_chain hv a _ (Or.inr (Or.inr rfl)) h.1 hq

lemma octFree_append {A B : List Str} (hA : OctFree A) (hB : OctFree B) : OctFree (A ++ B) := by
  intro ds h
  rw [List.mem_append] at h
  exact h.elim (hA ds) (hB ds)

lemma octFree_one {c : Char} : OctFree [[c]] := by
  intro ds h hl
  have : '+' :: ds = [c] := by simpa using h
  have := congrArg List.length this
  simp at this
  subst this
  simp at hl

lemma octFree_num {ds sg : Str} (hs : SgOK sg) (h : IsNum ds) : OctFree [sg ++ ds] := by
  intro es g hl
  have g' : '+' :: es = sg ++ ds := by simpa using g
  have hd := (isNum_alnum h).2
  obtain ⟨c, t, rfl⟩ := List.exists_cons_of_ne_nil h.1
  rcases hs with rfl | rfl | rfl
  · simp only [List.nil_append, List.cons.injEq] at g'
    exact absurd g'.1.symm (alnum_ne (hd c (by simp))).1
  · simp at g'
  · simp only [List.cons_append, List.nil_append, List.cons.injEq, true_and] at g'
    subst g'
    refine ⟨h.2.2 (by omega), ?_⟩
    simpa using (alnum_ne (hd c (by simp))).2.1

lemma code_oct (hv : ∀ v ∈ vars, IsName v) : ∀ (e : Expr) (sg : Str), SgOK sg → e.WF vars P N → OctFree (e.code sg)
  | .num ds, sg, hs, h => octFree_num hs h
  | .var ds, sg, hs, h => by
    intro es g hl
    have g' : '+' :: es = sg ++ ds := by simpa [Expr.code] using g
    have hd := (isName_alnum (hv ds h)).2
    have h16 := (hv ds h).1
    have := congrArg List.length g'
    rcases hs with rfl | rfl | rfl <;> simp at this <;> omega
  | .paren e, _, hs, h => code_oct hv e [] (Or.inl rfl) h
  | .pow a x, sg, hs, h => by
    simp only [Expr.code]
    refine octFree_append (octFree_append ?_ ?_) octFree_one
    · apply code_oct hv a _ _ h.1
      split
      · exact Or.inl rfl
      · exact hs
    · have h2 := h.2.2
      cases x with
      | plain ds => exact octFree_num (sg := []) (Or.inl rfl) h2.1
      | paren ds => exact octFree_num (sg := []) (Or.inl rfl) h2.1
      | neg ds => exact octFree_num (sg := []) (Or.inl rfl) h2.1
  | .mul a b, sg, hs, h => octFree_append (octFree_append (code_oct hv a _ hs h.1) (code_oct hv b _ (Or.inl rfl) h.2.2.1)) octFree_one
  | .div a b, sg, hs, h => octFree_append (octFree_append (code_oct hv a _ hs h.1) (code_oct hv b _ (Or.inl rfl) h.2.2.1)) octFree_one
  | .add a b, sg, hs, h => octFree_append (octFree_append (code_oct hv a _ (Or.inl rfl) h.1) (code_oct hv b _ (Or.inl rfl) h.2.1)) octFree_one
  | .sub _ a b, sg, hs, h => octFree_append (octFree_append (code_oct hv a _ (Or.inl rfl) h.1) (code_oct hv b _ (Or.inl rfl) h.2.1)) octFree_one
  | .neg _ a, sg, hs, h => by
    simp only [Expr.code]
    split
    · exact octFree_append (octFree_append octFree_one (code_oct hv a _ (Or.inl rfl) h.1)) octFree_one
    · exact code_oct hv a _ (Or.inr (Or.inl rfl)) h.1
  | .pos a, sg, hs, h => by
    simp only [Expr.code]
    split
    · exact octFree_append (octFree_append octFree_one (code_oct hv a _ (Or.inl rfl) h.1)) octFree_one
    · exact code_oct hv a _ (Or.inr (Or.inr rfl)) h.1

lemma fixSign_noQuot : ∀ e : Expr, e.NoQuot → e.fixSign.NoQuot
  | .num _, h => h
  | .var _, h => h
  | .paren _, h => h
  | .pow _ _, h => h
  | .mul _ _, h => h
  | .div _ _, h => h
  | .add a b, h => ⟨fixSign_noQuot a h.1, h.2⟩
  | .sub k a b, h => ⟨fixSign_noQuot a h.1, h.2⟩
  | .neg k a, h => by
    unfold Expr.fixSign
    split
    · exact ⟨trivial, h⟩
    · exact h
  | .pos a, h => by
    unfold Expr.fixSign
    split
    · exact h
    · exact h

lemma strip_quot (e : Expr) : ∀ pv nx, (e.strip pv nx).quot = e.quot := by
  induction e with
  | paren e ih =>
    intro pv nx
    unfold Expr.strip
    split
    · exact ih _ _
    · exact ih _ _
  | neg k a ih => intro pv nx; exact ih _ _
  | pos a ih => intro pv nx; exact ih _ _
  | _ => intros; rfl

lemma strip_noQuot (e : Expr) : ∀ pv nx, e.NoQuot → (e.strip pv nx).NoQuot := by
  induction e with
  | num => intros; trivial
  | var => intros; trivial
  | paren e ih =>
    intro pv nx h
    unfold Expr.strip
    split
    · exact ih _ _ h
    · exact ih _ _ h
  | pow a x ih => intro pv nx h; exact ih _ _ h
  | mul a b iha ihb => intro pv nx h; exact ⟨iha _ _ h.1, ihb _ _ h.2⟩
  | div a b iha ihb => intro pv nx h; exact ⟨iha _ _ h.1, ihb _ _ h.2.1, by rw [strip_quot]; exact h.2.2⟩
  | add a b iha ihb => intro pv nx h; exact ⟨iha _ _ h.1, ihb _ _ h.2⟩
  | sub k a b iha ihb => intro pv nx h; exact ⟨iha _ _ h.1, ihb _ _ h.2⟩
  | neg k a ih => intro pv nx h; exact ih _ _ h
  | pos a ih => intro pv nx h; exact ih _ _ h

/-- the tokens of an expression without a quotient as a divisor -/
lemma parse_good (hvars : ∀ v ∈ vars, IsName v) {e : Expr} (h : e.WF vars P N) (hn : e.Norm) (hq : e.NoQuot) {T : List Str} (hT : parse e.render = some T) :
    (∀ A B, T ≠ A ++ [['/'], ['/']] ++ B) ∧ OctFree T := by
  rw [parse_code hvars h hn] at hT
  obtain rfl : e.fixSign.code [] = T := by simpa using hT
  refine ⟨fun A B hAB => ?_, code_oct hvars _ _ (Or.inl rfl) (fixSign_wf e h)⟩
  have := code_chain hvars e.fixSign [] (Or.inl rfl) (fixSign_wf e h) (fixSign_noQuot e hq)
  rw [hAB, List.append_assoc, List.isChain_append] at this
  have h2 := this.2.1
  simp only [List.cons_append, List.nil_append, List.isChain_cons_cons] at h2
  exact h2.1 ⟨rfl, rfl⟩

section
variable [LongDouble]

/-- **C25 (expressions).** For every well-formed expression in which no divisor is a quotient, every first prime, every sequence of changes of the prime and all values of the variables, the precomputed
evaluation, with tokens that are only refreshed when the prime changes, gives the canonical word of the value of the expression in the current field. With validation. -/
theorem C25_expression {p : ℕ} {qs : List ℕ} [Fact (lastPrime p qs).Prime] (hvars : ∀ v ∈ vars, IsName v)
    (hp : p.Prime) (hlt : p < 2 ^ 63) (h3 : 3 < p) (hqs : ∀ q ∈ qs, q.Prime ∧ q < 2 ^ 63 ∧ 3 < q)
    {values : List ℕ} (hlen : vars.length ≤ values.length) (hval : ∀ x ∈ values, x < lastPrime p qs)
    {e : Expr} (he : ∀ q ∈ p :: qs, e.WF vars (q - 1) (min q (2 ^ 31))) (hq : e.NoQuot) :
    ∃ f T s c, validate e.render = some f ∧ parse f = some T ∧ preHistory p vars T qs = some s ∧
        evaluatePre (lastPrime p qs) values s.1 = some c ∧ c < lastPrime p qs ∧
        (c : ZMod (lastPrime p qs)) = e.denote (fun name => ((values.getD (vars.idxOf name) 0 : ℕ) : ZMod (lastPrime p qs))) := by
  obtain ⟨f, T, h1, h2, h4⟩ := C25_expression_partial hvars hp hlt h3 hqs hlen hval he
  have hf : f = (e.strip false false).render := by
    rw [validate_render hvars (he p (by simp))] at h1
    simpa using h1.symm
  subst hf
  obtain ⟨g1, g2⟩ := parse_good hvars (strip_wf e false false (he p (by simp))) (strip_norm e false false) (strip_noQuot e false false hq) h2
  obtain ⟨s, c, k⟩ := h4 g1 g2
  exact ⟨_, T, s, c, h1, h2, k⟩

/-- **C25 (expressions without validation).** The same for a text that is parsed as it is, if its minus signs are written `-`. -/
theorem C25_expression_plain {p : ℕ} {qs : List ℕ} [Fact (lastPrime p qs).Prime] (hvars : ∀ v ∈ vars, IsName v)
    (hp : p.Prime) (hlt : p < 2 ^ 63) (h3 : 3 < p) (hqs : ∀ q ∈ qs, q.Prime ∧ q < 2 ^ 63 ∧ 3 < q)
    {values : List ℕ} (hlen : vars.length ≤ values.length) (hval : ∀ x ∈ values, x < lastPrime p qs)
    {e : Expr} (he : ∀ q ∈ p :: qs, e.WF vars (q - 1) (min q (2 ^ 31))) (hn : e.Norm) (hq : e.NoQuot) :
    ∃ T s c, parse e.render = some T ∧ preHistory p vars T qs = some s ∧
        evaluatePre (lastPrime p qs) values s.1 = some c ∧ c < lastPrime p qs ∧
        (c : ZMod (lastPrime p qs)) = e.denote (fun name => ((values.getD (vars.idxOf name) 0 : ℕ) : ZMod (lastPrime p qs))) := by
  have hmem : lastPrime p qs ∈ p :: qs := by
    unfold lastPrime
    rcases List.eq_nil_or_concat qs with rfl | ⟨A, a, rfl⟩
    · simp
    · simp
  have hl : lastPrime p qs < 2 ^ 63 ∧ 3 < lastPrime p qs := by
    rw [List.mem_cons] at hmem
    rcases hmem with h | h
    · rw [h]; exact ⟨hlt, h3⟩
    · exact (hqs _ h).2
  haveI := Fact.mk hp
  obtain ⟨T, c, h2, h4, h5, h6⟩ := C24_parse_without_validate hl.1 hl.2 hvars hlen hval (he _ hmem) hn
  obtain ⟨hT, hO⟩ := parse_good hvars (he p (by simp)) hn hq h2
  have hv0 : ∀ x ∈ List.replicate vars.length 0, x < p := by
    intro x hx
    rw [List.eq_of_mem_replicate hx]; omega
  obtain ⟨T', c', g2, g3, -⟩ := C24_parse_without_validate (values := List.replicate vars.length 0) hlt h3 hvars (by simp) hv0 (he p (by simp)) hn
  rw [h2] at g2
  obtain rfl : T = T' := by simpa using g2
  obtain ⟨s, k1, k2⟩ := C25_evaluate_history_partial hvars hT hO hp hlt hv0 g3 qs (fun q hq => ⟨(hqs q hq).1, (hqs q hq).2.1⟩) hval h4
  exact ⟨T, s, c, h2, k1, k2, h5, h6⟩

end

/-! ### non-vacuity -/

/-- `(x+(-2/3))/(x^2-1/7)` -/
def quotExample : Expr :=
  .div (.paren (.add (.var ['x']) (.paren (.neg .m (.div (.num ['2']) (.num ['3']))))))
    (.paren (.sub .m (.pow (.var ['x']) (.plain ['2'])) (.div (.num ['1']) (.num ['7']))))

example : quotExample.NoQuot ∧ quotExample.render = "(x+(-2/3))/(x^2-1/7)".toList ∧ ∀ q ∈ [11, 101, 13], quotExample.WF [['x']] (q - 1) (min q (2 ^ 31)) := by
  refine ⟨by simp [quotExample, Expr.NoQuot, Expr.quot], by decide, ?_⟩
  intro q hq
  have : 5 ≤ q := by simp at hq; omega
  simp only [quotExample, Expr.WF, Expr.level, Exponent.WF, IsNum, decimal]
  have h1 : ∀ c : Char, c ∈ ['2'] ∨ c ∈ ['3'] ∨ c ∈ ['1'] ∨ c ∈ ['7'] → isDigitC c = true := by
    intro c hc
    simp at hc
    rcases hc with rfl | rfl | rfl | rfl <;> decide
  have h2 : ('2' : Char).toNat - '0'.toNat = 2 := by decide
  simp only [List.foldl_cons, List.foldl_nil, zero_mul, zero_add, h2]
  refine ⟨⟨by simp, ⟨⟨⟨⟨by simp, ?_, by simp⟩, by omega, ⟨by simp, ?_, by simp⟩, by omega⟩, by omega⟩, by omega⟩⟩, by omega, ⟨⟨by simp, by omega, ⟨by simp, ?_, by simp⟩, by omega⟩, ⟨⟨by simp, ?_, by simp⟩, by omega, ⟨by simp, ?_, by simp⟩, by omega⟩, by omega⟩, by omega⟩ <;>
    (intro c hc; apply h1; tauto)

end FireFly
