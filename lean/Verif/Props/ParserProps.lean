import Verif.Lemmas.ValidateLemmas
/-!
# C24: the parser respects the usual semantics
-/
set_option linter.all false
namespace FireFly

section
variable [LongDouble] {p : ℕ} {vars : List Str} {values : List ℕ}

/-- **C24.** Every well-formed expression in the documented input format (Spec/Expr.lean) is accepted by
`validate` and `parse`, and the evaluation of the resulting reverse Polish notation at canonical values of
the variables is the canonical word of the value of the expression in the field of `p` elements. Exponents
are below `p - 1`, negative ones also below `2^31`. -/
theorem C24_evaluate [Fact p.Prime] (hlt : p < 2 ^ 63) (h3 : 3 < p) (hvars : ∀ v ∈ vars, IsName v)
    (hlen : vars.length ≤ values.length) (hval : ∀ x ∈ values, x < p)
    {e : Expr} (h : e.WF vars (p - 1) (min p (2 ^ 31))) :
    ∃ f T c, validate e.render = some f ∧ parse f = some T ∧ evaluateRpn opTokens p vars values T = some c ∧
      c < p ∧ (c : ZMod p) = e.denote (fun name => ((values.getD (vars.idxOf name) 0 : ℕ) : ZMod p)) := by
  have hp : p.Prime := Fact.out
  obtain ⟨T, h1, w, h2, h3, h4⟩ := parse_render hp hlt h3 hvars hlen hval (strip_wf e false false h) (strip_norm e false false)
  refine ⟨_, T, w, validate_render hvars h, h1, ?_, h2, ?_⟩
  · unfold evaluateRpn
    have := h4 []
    unfold runRpn at this
    rw [this]; rfl
  · rw [h3, strip_denote]; rfl

/-- `validate` only removes redundant parentheses and signs: it is harmless to apply it to a text that has
been validated already, and a text without doubled parentheses and doubled signs needs no validation. -/
theorem C24_parse_without_validate [Fact p.Prime] (hlt : p < 2 ^ 63) (h3 : 3 < p) (hvars : ∀ v ∈ vars, IsName v)
    (hlen : vars.length ≤ values.length) (hval : ∀ x ∈ values, x < p)
    {e : Expr} (h : e.WF vars (p - 1) (min p (2 ^ 31))) (hn : e.Norm) :
    ∃ T c, parse e.render = some T ∧ evaluateRpn opTokens p vars values T = some c ∧
      c < p ∧ (c : ZMod p) = e.denote (fun name => ((values.getD (vars.idxOf name) 0 : ℕ) : ZMod p)) := by
  have hp : p.Prime := Fact.out
  obtain ⟨T, h1, w, h2, h3, h4⟩ := parse_render hp hlt h3 hvars hlen hval h hn
  refine ⟨T, w, h1, ?_, h2, h3⟩
  unfold evaluateRpn
  have := h4 []
  unfold runRpn at this
  rw [this]; rfl

end

/-! ### texts with mismatched parentheses are rejected -/

/-- the nesting depth after a text; `none` if a closing parenthesis has no partner -/
def nesting : Str → ℕ → Option ℕ
  | [], d => some d
  | c :: t, d =>
    if c = '(' then nesting t (d + 1)
    else if c = ')' then (match d with | 0 => none | d + 1 => nesting t d)
    else nesting t d

/-- the parentheses of a text match -/
def Balanced (f : Str) : Prop := nesting f 0 = some 0

/-- the parenthesis at a place of a text -/
def parenOf (c : Char) : Option Bool := if c = '(' then some true else if c = ')' then some false else none

/-- the invariant of `validate` -/
structure VInv (f : Str) (i : ℕ) (s : Str × List Int) : Prop where
  len : s.1.length = f.length
  same : ∀ j, i ≤ j → parenOf (s.1.getD j '\x00') = parenOf (f.getD j '\x00')
  st : ∀ t ∈ s.2, t.natAbs < i
  nest : nesting (f.drop i) s.2.length = nesting f 0

lemma getD_set_ne {r : Str} {i j : ℕ} {c d : Char} (h : i ≠ j) : (r.set i c).getD j d = r.getD j d := by
  simp [List.getD_eq_getElem?_getD, List.getElem?_set_ne h]

lemma getD_set_self {r : Str} {i : ℕ} {c d : Char} (h : i < r.length) : (r.set i c).getD i d = c := by
  simp [List.getD_eq_getElem?_getD, h]

lemma parenOf_set {r : Str} {i j : ℕ} {c : Char} (h1 : parenOf (r.getD i '\x00') = none) (h2 : parenOf c = none) :
    parenOf ((r.set i c).getD j '\x00') = parenOf (r.getD j '\x00') := by
  by_cases h : i = j
  · subst h
    by_cases hl : i < r.length
    · rw [getD_set_self hl, h1, h2]
    · rw [List.set_eq_of_length_le (by omega)]
  · rw [getD_set_ne h]

lemma validateMPPM {r : Str} {i j : ℕ} : parenOf ((validateMP (validatePM r i) i).getD j '\x00') = parenOf (r.getD j '\x00') ∧
    (validateMP (validatePM r i) i).length = r.length := by
  have h1 : parenOf ((validatePM r i).getD j '\x00') = parenOf (r.getD j '\x00') ∧ (validatePM r i).length = r.length := by
    unfold validatePM
    split
    · rename_i h
      exact ⟨parenOf_set (by rw [h.1]; decide) (by decide), by simp⟩
    · exact ⟨rfl, rfl⟩
  unfold validateMP
  split
  · rename_i h
    exact ⟨by rw [parenOf_set (by rw [h.2]; decide) (by decide)]; exact h1.1, by simpa using h1.2⟩
  · exact h1

lemma nesting_drop {f : Str} {i d : ℕ} (hi : i < f.length) : nesting (f.drop i) d =
    match parenOf (f.getD i '\x00') with
    | some true => nesting (f.drop (i + 1)) (d + 1)
    | some false => (match d with | 0 => none | d + 1 => nesting (f.drop (i + 1)) d)
    | none => nesting (f.drop (i + 1)) d := by
  rw [List.drop_eq_getElem_cons hi, List.getD_eq_getElem _ _ hi]
  conv_lhs => unfold nesting
  unfold parenOf
  split
  · rename_i h; simp [h]
  · split
    · rename_i h; simp [h]
    · rfl

lemma parenOf_true {c : Char} : parenOf c = some true ↔ c = '(' := by
  unfold parenOf; split
  · simpa
  · split <;> simp_all
lemma parenOf_false {c : Char} : parenOf c = some false ↔ c = ')' := by
  unfold parenOf; split
  · rename_i h; subst h; simp
  · split <;> simp_all

lemma validateStep_inv {f : Str} {i : ℕ} (hi : i ≤ f.length) {s : Str × List Int} (h : VInv f i s) :
    match validateStep s i with
    | none => nesting f 0 = none
    | some s' => VInv f (i + 1) s' := by
  unfold validateStep
  obtain ⟨r0, st⟩ := s
  have hc : ∀ j, parenOf ((validateMP (validatePM r0 i) i).getD j '\x00') = parenOf (r0.getD j '\x00') := fun j => validateMPPM.1
  have hl : (validateMP (validatePM r0 i) i).length = r0.length := (validateMPPM (j := 0)).2
  simp only
  generalize validateMP (validatePM r0 i) i = r at hc hl
  have hlen : r.length = f.length := by rw [hl]; exact h.len
  have hsame : ∀ j, i ≤ j → parenOf (r.getD j '\x00') = parenOf (f.getD j '\x00') := fun j hj => by rw [hc]; exact h.same j hj
  have hst := h.st
  have hnest := h.nest
  simp only at hst hnest
  have hsi := hsame i le_rfl
  have hlt : parenOf (r.getD i '\x00') ≠ none → i < f.length := by
    intro hh
    by_contra hcon
    rw [List.getD_eq_default _ _ (by omega)] at hh
    exact hh (by decide)
  unfold validateParen
  simp only
  by_cases ho : r.getD i '\x00' = '('
  · rw [if_pos ho]
    have hp := parenOf_true.mpr ho
    have hif := hlt (by rw [hp]; simp)
    rw [nesting_drop hif, ← hsi, hp] at hnest
    simp only at hnest
    split
    · rename_i hx
      split at hx
      · simp at hx
      · simp at hx
    · rename_i s' hx
      have : s'.1 = r ∧ s'.2.length = st.length + 1 ∧ ∀ t ∈ s'.2, t ∈ st ∨ t.natAbs = i := by
        split at hx <;> (simp only [Option.some.injEq] at hx; subst hx; simp; exact fun a ha => Or.inl ha)
      obtain ⟨e1, e2, e3⟩ := this
      refine ⟨by rw [e1]; exact hlen, fun j hj => by rw [e1]; exact hsame j (by omega), ?_, by rw [e2]; exact hnest⟩
      intro t ht
      rcases e3 t ht with h | h
      · have := hst t h; omega
      · omega
  · rw [if_neg ho]
    by_cases hcl : r.getD i '\x00' = ')'
    · rw [if_pos hcl]
      have hp := parenOf_false.mpr hcl
      have hif := hlt (by rw [hp]; simp)
      rw [nesting_drop hif, ← hsi, hp] at hnest
      simp only at hnest
      cases st with
      | nil => simpa using hnest.symm
      | cons top st =>
        simp only
        have htop := hst top (by simp)
        split
        · rename_i hx
          split at hx <;> simp at hx
        · rename_i s' hx
          have : s'.1.length = r.length ∧ s'.2 = st ∧ ∀ j, i + 1 ≤ j → s'.1.getD j '\x00' = r.getD j '\x00' := by
            split at hx
            · simp only [Option.some.injEq] at hx
              subst hx
              refine ⟨by simp, rfl, fun j hj => ?_⟩
              rw [getD_set_ne (by omega), getD_set_ne (by omega)]
            · simp only [Option.some.injEq] at hx
              subst hx
              exact ⟨rfl, rfl, fun _ _ => rfl⟩
          obtain ⟨e1, e2, e3⟩ := this
          refine ⟨by rw [e1]; exact hlen, fun j hj => by rw [e3 j hj]; exact hsame j (by omega), ?_, by rw [e2]; simpa using hnest⟩
          intro t ht
          rw [e2] at ht
          have := hst t (List.mem_cons_of_mem _ ht); omega
    · rw [if_neg hcl]
      refine ⟨hlen, fun j hj => hsame j (by omega), fun t ht => by have := hst t ht; omega, ?_⟩
      by_cases hif : i < f.length
      · rw [nesting_drop hif, ← hsi] at hnest
        have : parenOf (r.getD i '\x00') = none := by
          unfold parenOf; rw [if_neg ho, if_neg hcl]
        rw [this] at hnest
        exact hnest
      · rw [List.drop_eq_nil_of_le (by omega)] at hnest ⊢
        exact hnest

lemma validate_fold {f : Str} (n : ℕ) : ∀ (i : ℕ), i + n = f.length + 1 → ∀ s, VInv f i s →
    match (List.range' i n).foldlM validateStep s with
    | none => nesting f 0 = none
    | some s' => VInv f (f.length + 1) s' := by
  induction n with
  | zero => intro i hi s h; simp at hi; subst hi; simpa using h
  | succ n ih =>
    intro i hi s h
    rw [List.range'_succ, List.foldlM_cons]
    have := validateStep_inv (by omega) h
    cases hs : validateStep s i with
    | none => rw [hs] at this; simpa using this
    | some s' =>
      rw [hs] at this
      exact ih (i + 1) (by omega) s' this

/-- **C24 (rejection).** `validate` accepts exactly the texts whose parentheses match; on all others it
stops the program. -/
theorem C24_validate_balanced (f : Str) : (validate f).isSome = true ↔ Balanced f := by
  have := validate_fold (f := f) (f.length + 1) 0 (by omega) (f, [])
    ⟨rfl, fun _ _ => rfl, by simp, by simp⟩
  unfold validate Balanced
  rw [List.range_eq_range']
  cases hs : (List.range' 0 (f.length + 1)).foldlM validateStep (f, []) with
  | none =>
    rw [hs] at this
    simp only at this ⊢
    simp [this]
  | some s' =>
    rw [hs] at this
    simp only at this ⊢
    have hn := this.nest
    rw [List.drop_eq_nil_of_le (by omega)] at hn
    rw [← hn, show nesting [] s'.2.length = some s'.2.length from rfl]
    cases hst : s'.2 with
    | nil => simp
    | cons a b => simp

/-! ### where the parser does not respect the usual semantics -/

/-- The public `evaluate` has no operators for negative exponents: on `x^(-2)` it ends the program (an
undeclared variable), for every prime and every value. -/
theorem C24_public_violated [LongDouble] (p x : ℕ) : ∃ T, parse "x^(-2)".toList = some T ∧
    evaluateRpn opTokensPublic p [['x']] [x] T = none := by
  refine ⟨[['x'], ['2'], ['~']], by decide, ?_⟩
  simp [evaluateRpn, opTokensPublic, evalStep, classify, varIndex, isDigitC, Operand.word, stoull, List.takeWhile]

/-- The exponent of `x^(-2147483649)` is truncated to 32 bits: with the first prime of the table the value
of the expression at 2 is not the one of `2^(-2147483649)` but the one of `2^2147483647`. -/
theorem C24_large_negative_exponent_violated : letI := x87
    ∃ T, parse "x^(-2147483649)".toList = some T ∧
      evaluateRpn opTokens 9223372036854775783 [['x']] [2] T = ffPow 9223372036854775783 2 2147483647 := by
  letI := x87
  exact ⟨[['x'], "2147483649".toList, ['~']], by decide, by decide +kernel⟩

/-- A number with more than 18 digits and a leading zero is read as an octal number: `0000000000000000010` (19 digits) is 8,
with 18 digits it is 10. -/
theorem C24_octal_violated : letI := x87
    (∃ T, parse "0000000000000000010".toList = some T ∧ evaluateRpn opTokens 9223372036854775783 [['x']] [2] T = some 8) ∧
    (∃ T, parse "000000000000000010".toList = some T ∧ evaluateRpn opTokens 9223372036854775783 [['x']] [2] T = some 10) := by
  letI := x87
  exact ⟨⟨["0000000000000000010".toList], by decide, by decide +kernel⟩, ⟨["000000000000000010".toList], by decide, by decide +kernel⟩⟩

/-! ### non-vacuity -/

/-- `-+(x^2-((y+-3)))^(-2)*4/x` -/
def exampleExpr : Expr :=
  .neg .mp (.div (.mul (.pow (.paren (.sub .m (.pow (.var ['x']) (.plain ['2'])) (.paren (.paren (.sub .pm (.var ['y']) (.num ['3']))))))
    (.neg ['2'])) (.num ['4'])) (.var ['x']))

example : exampleExpr.render = "-+(x^2-((y+-3)))^(-2)*4/x".toList := by decide

example : exampleExpr.WF [['x'], ['y']] (101 - 1) (min 101 (2 ^ 31)) ∧ (∀ v ∈ [['x'], ['y']], IsName v) := by
  refine ⟨?_, ?_⟩
  · simp [exampleExpr, Expr.WF, Exponent.WF, Expr.level, IsNum, decimal]; decide
  · intro v hv
    fin_cases hv <;> exact ⟨by decide, by decide, by decide⟩

end FireFly
