import Verif.Lemmas.RpnLemmas
/-! # What the parser reads on the text of an expression -/
set_option linter.all false
namespace FireFly

/-- every minus sign of the expression is written `-` -/
def Expr.Norm : Expr → Prop
  | .num _ => True
  | .var _ => True
  | .paren e => e.Norm
  | .pow a _ => a.Norm
  | .mul a b => a.Norm ∧ b.Norm
  | .div a b => a.Norm ∧ b.Norm
  | .add a b => a.Norm ∧ b.Norm
  | .sub k a b => k = .m ∧ a.Norm ∧ b.Norm
  | .neg k a => k = .m ∧ a.Norm
  | .pos a => a.Norm

/-- does the text start with a sign followed by a parenthesis? -/
def Expr.signParen : Expr → Prop
  | .num _ => False
  | .var _ => False
  | .paren _ => False
  | .pow _ _ => False
  | .mul _ _ => False
  | .div _ _ => False
  | .add a _ => a.signParen
  | .sub _ a _ => a.signParen
  | .neg _ a => a.render.head? = some '('
  | .pos a => a.render.head? = some '('

def toks (tmp : Str) : List Str := if tmp = [] then [] else [tmp]

lemma flush_eq (T : List Str) (O : List Char) (tmp : Str) (b : Bool) :
    PState.flush ⟨T, O, tmp, b⟩ = ⟨T ++ toks tmp, O, [], b⟩ := by
  unfold PState.flush toks
  by_cases h : tmp = []
  · subst h; simp
  · simp [h]

lemma popWhile_append (ex : Char) : ∀ (P : List Char) (T : List Str) (O : List Char),
    (∀ c ∈ P, c ≠ '(' ∧ getWeight ex ≤ getWeight c) → (∀ c ∈ O.head?, getWeight c < getWeight ex) →
    popWhile ex T (P ++ O) = (T ++ P.map fun c => [c], O)
  | [], T, [], _, _ => by simp [popWhile]
  | [], T, o :: O, _, h => by
    have := h o (by simp)
    simp only [List.nil_append, popWhile, List.map_nil, List.append_nil]
    rw [if_neg (by omega)]
  | c :: P, T, O, h1, h2 => by
    have := h1 c (by simp)
    simp only [List.cons_append, popWhile]
    rw [if_pos ⟨this.1, this.2⟩, popWhile_append ex P _ O (fun d hd => h1 d (List.mem_cons_of_mem _ hd)) h2]
    simp

lemma popParen_append : ∀ (P : List Char) (T : List Str) (O : List Char), (∀ c ∈ P, c ≠ '(') →
    popParen T (P ++ '(' :: O) = (T ++ P.map fun c => [c], O)
  | [], T, O, _ => by simp [popParen]
  | c :: P, T, O, h => by
    simp only [List.cons_append, popParen]
    rw [if_neg (h c (by simp)), popParen_append P _ O (fun d hd => h d (List.mem_cons_of_mem _ hd))]
    simp

/-! single characters -/

lemma step_open {prev : Char} {rest : Str} (s : PState) : s.step prev '(' rest = some { s with ops := '(' :: s.ops } := by
  unfold PState.step
  rw [if_neg (by decide), if_neg (by decide), if_neg (by decide), if_pos rfl]

lemma step_close {prev : Char} {rest : Str} (T : List Str) (O : List Char) (tmp : Str) (b : Bool) :
    PState.step prev ')' rest ⟨T, O, tmp, b⟩ =
      some ⟨(popParen (T ++ toks tmp) O).1, (popParen (T ++ toks tmp) O).2, [], b⟩ := by
  unfold PState.step
  rw [if_neg (by decide), if_neg (by decide), if_neg (by decide), if_neg (by decide), if_pos rfl]
  simp only [flush_eq]

lemma step_operator {prev c : Char} {rest : Str} (s : PState) (h : isOperator c = true) :
    s.step prev c rest = s.operator prev c rest := by
  have h1 : isOperand c = false := by unfold isOperand; rw [h]; rfl
  have h2 : isVariable c = false := by
    unfold isOperator at h
    simp only [Bool.or_eq_true, beq_iff_eq] at h
    rcases h with (((h | h) | h) | h) | h <;> (subst h; decide)
  unfold PState.step
  rw [h1, h2, h]
  rw [if_neg (by decide), if_neg (by decide), if_pos rfl]

lemma operator_eq (prev c : Char) (rest : Str) (T : List Str) (O : List Char) (tmp : Str) :
    PState.operator prev c rest ⟨T, O, tmp, false⟩ = PState.operatorFlushed prev c rest ⟨T ++ toks tmp, O, [], false⟩ := by
  rw [← flush_eq]; rfl

/-- a binary operator of weight 1 or 2 after a complete operand -/
lemma step_binary {prev c : Char} {rest : Str} {T : List Str} {O P : List Char} {tmp : Str} (hc : isOperator c = true) (hc' : c ≠ '^')
    (hprev : prev ≠ '(') (hT : T ++ toks tmp ≠ []) (hP : ∀ d ∈ P, d ≠ '(' ∧ getWeight c ≤ getWeight d)
    (hO : ∀ d ∈ O.head?, getWeight d < getWeight c) :
    PState.step prev c rest ⟨T, P ++ O, tmp, false⟩ = some ⟨T ++ toks tmp ++ P.map (fun c => [c]), c :: O, [], false⟩ := by
  rw [step_operator _ hc]
  rw [operator_eq]
  unfold PState.operatorFlushed
  simp only
  rw [if_neg (fun h => hprev h.2), if_neg (fun h => hT h.2), popWhile_append c P _ O hP hO]
  simp only
  rw [if_neg (fun h => hc' h.1), if_neg hc']

/-- `^` after a complete operand whose last token is `b` -/
lemma step_pow {prev : Char} {rest : Str} {T : List Str} {O : List Char} {tmp : Str} {b : Str}
    (hprev : prev ≠ '(') (hb : (T ++ toks tmp).getLast? = some b)
    (hO : ∀ d ∈ O.head?, getWeight d < 3) :
    PState.step prev '^' rest ⟨T, O, tmp, false⟩ =
      if rest.getD 0 '\x00' = '(' ∧ rest.getD 1 '\x00' = '-' then
        if signedBase b prev then some ⟨(T ++ toks tmp).dropLast ++ [b.tail], ';' :: O, [], true⟩
        else some ⟨T ++ toks tmp, '~' :: O, [], true⟩
      else
        if signedBase b prev then some ⟨(T ++ toks tmp).dropLast ++ [b.tail], '!' :: O, [], false⟩
        else some ⟨T ++ toks tmp, '^' :: O, [], false⟩ := by
  have hT : T ++ toks tmp ≠ [] := by intro h; rw [h] at hb; simp at hb
  rw [step_operator _ (by decide)]
  rw [operator_eq]
  unfold PState.operatorFlushed
  simp only
  have := popWhile_append '^' [] (T ++ toks tmp) O (by simp) hO
  simp only [List.nil_append, List.map_nil, List.append_nil] at this
  rw [if_neg (fun h => hprev h.2), if_neg (fun h => hT h.2), this]
  simp only
  rw [hb]
  by_cases h : rest.getD 0 '\x00' = '(' ∧ rest.getD 1 '\x00' = '-'
  · rw [if_pos ⟨trivial, h⟩, if_pos h]
  · rw [if_neg (fun h' => h h'.2), if_neg h, if_pos trivial]

/-- a sign directly after an opening parenthesis, followed by another one -/
lemma step_sign_paren {c : Char} {rest : Str} {T : List Str} {O : List Char} (hc : c = '+' ∨ c = '-') (hO : O ≠ [])
    (hr : rest.getD 0 '\x00' = '(') :
    PState.step '(' c rest ⟨T, O, [], false⟩ = some ⟨T ++ [['0']], c :: O, [], false⟩ := by
  rw [step_operator _ (by rcases hc with rfl | rfl <;> decide)]
  rw [operator_eq]
  unfold PState.operatorFlushed
  simp only
  rw [if_pos ⟨hO, trivial⟩, if_pos hr]
  simp [toks]

/-- a sign directly after an opening parenthesis or at the beginning -/
lemma step_sign {prev c : Char} {rest : Str} {T : List Str} {O : List Char} (hc : c = '+' ∨ c = '-')
    (hO : (O ≠ [] ∧ prev = '(') ∨ (O = [] ∧ T = []))
    (hr : rest.getD 0 '\x00' ≠ '(') :
    PState.step prev c rest ⟨T, O, [], false⟩ = some ⟨T, O, [c], false⟩ := by
  rw [step_operator _ (by rcases hc with rfl | rfl <;> decide)]
  rw [operator_eq]
  unfold PState.operatorFlushed
  simp only
  rcases hO with h | ⟨h1, h2⟩
  · rw [if_pos h, if_neg hr, if_neg (by decide)]
    simp [toks]
  · subst h1; subst h2
    rw [if_neg (fun h => h.1 rfl), if_pos ⟨rfl, by simp [toks]⟩]
    simp [toks]

/-- the sign of a negative exponent -/
lemma step_neg_exp {rest : Str} {T : List Str} {O : List Char} (hr : rest.getD 0 '\x00' ≠ '(') :
    PState.step '(' '-' rest ⟨T, '(' :: O, [], true⟩ = some ⟨T, '(' :: O, [], false⟩ := by
  rw [step_operator _ (by decide)]
  show PState.operatorFlushed _ _ _ ⟨T, '(' :: O, [], true⟩ = _
  unfold PState.operatorFlushed
  simp only
  rw [if_pos ⟨by simp, trivial⟩, if_neg hr, if_pos trivial]

/-! heads of texts -/

lemma num_head {ds : Str} (h0 : ds ≠ []) (h : ∀ c ∈ ds, isAlnum c = true) (rest : Str) :
    ∃ c, (ds ++ rest).getD 0 '\x00' = c ∧ (ds ++ rest).head? = some c ∧ isAlnum c = true := by
  obtain ⟨c, t, rfl⟩ := List.exists_cons_of_ne_nil h0
  exact ⟨c, by simp, by simp, h c (by simp)⟩

variable {vars : List Str} {P N : ℕ}

lemma render_head (hvars : ∀ v ∈ vars, IsName v) : ∀ (e : Expr), e.WF vars P N → 2 ≤ e.level → ∀ rest : Str,
    ∃ c, (e.render ++ rest).getD 0 '\x00' = c ∧ (e.render ++ rest).head? = some c ∧ e.render.head? = some c ∧ (isAlnum c = true ∨ c = '(')
  | .num ds, h, _, rest => by
    obtain ⟨c, h1, h2, h3⟩ := num_head h.1 (isNum_alnum h).2 rest
    obtain ⟨c', h1', h2', h3'⟩ := num_head h.1 (isNum_alnum h).2 []
    obtain ⟨d, t, rfl⟩ := List.exists_cons_of_ne_nil h.1
    exact ⟨d, by simp [Expr.render], by simp [Expr.render], by simp [Expr.render], Or.inl ((isNum_alnum h).2 d (by simp))⟩
  | .var name, h, _, rest => by
    have := isName_alnum (hvars name h)
    obtain ⟨d, t, rfl⟩ := List.exists_cons_of_ne_nil this.1
    exact ⟨d, by simp [Expr.render], by simp [Expr.render], by simp [Expr.render], Or.inl (this.2 d (by simp))⟩
  | .paren e, _, _, rest => ⟨'(', by simp [Expr.render], by simp [Expr.render], by simp [Expr.render], Or.inr rfl⟩
  | .pow a x, h, _, rest => by
    obtain ⟨c, h1, h2, h3, h4⟩ := render_head hvars a h.1 (by have := h.2.1; omega) ('^' :: x.render ++ rest)
    refine ⟨c, by simpa [Expr.render] using h1, by simpa [Expr.render] using h2, by simp [Expr.render, h3], h4⟩
  | .mul a b, h, _, rest => by
    obtain ⟨c, h1, h2, h3, h4⟩ := render_head hvars a h.1 h.2.1 ('*' :: b.render ++ rest)
    refine ⟨c, by simpa [Expr.render] using h1, by simpa [Expr.render] using h2, by simp [Expr.render, h3], h4⟩
  | .div a b, h, _, rest => by
    obtain ⟨c, h1, h2, h3, h4⟩ := render_head hvars a h.1 h.2.1 ('/' :: b.render ++ rest)
    refine ⟨c, by simpa [Expr.render] using h1, by simpa [Expr.render] using h2, by simp [Expr.render, h3], h4⟩

/-! ### reading -/

section
variable [LongDouble] {p : ℕ} {values : List ℕ}

/-- the conclusion common to all reading lemmas: the text `f` read in the state `s₀` adds the code of
`v`, operators of weight at least `lv` being left on the stack -/
def Reads (p : ℕ) (vars : List Str) (values : List ℕ) (f : Str) (lv : ℕ) (v : ZMod p)
    (prev : Char) (T : List Str) (O : List Char) (sg : Str) : Prop :=
  ∃ (T' : List Str) (P : List Char) (tmp' : Str) (prev' : Char),
    (∀ rest, parseLoop prev (f ++ rest) ⟨T, O, sg, false⟩ = parseLoop prev' rest ⟨T ++ T', P ++ O, tmp', false⟩) ∧
    Pushes p vars values (T' ++ toks tmp' ++ P.map fun c => [c]) v ∧
    (∀ c ∈ P, c ≠ '(' ∧ lv ≤ getWeight c) ∧ T' ++ toks tmp' ≠ [] ∧ prev' ≠ '('

/-- an expression of level at least two, read after a sign `sg` -/
def ReadsA (p : ℕ) (vars : List Str) (values : List ℕ) (e : Expr) (v : ZMod p) : Prop :=
  ∀ (prev : Char) (T : List Str) (O : List Char) (sg : Str), SgOK sg →
    (∀ d ∈ O.head?, getWeight d < e.level) → (sg ≠ [] → e.render.head? ≠ some '(') →
    Reads p vars values e.render e.level (sgVal sg * v) prev T O sg

/-- any expression, read after an opening parenthesis or at the beginning -/
def ReadsB (p : ℕ) (vars : List Str) (values : List ℕ) (e : Expr) (v : ZMod p) : Prop :=
  ∀ (prev : Char) (T : List Str) (O : List Char),
    (prev = '(' ∧ O.head? = some '(') ∨ (T = [] ∧ O = [] ∧ ¬ e.signParen) →
    Reads p vars values e.render 1 v prev T O []

lemma readsA_name {e : Expr} {name : Str} {v : ZMod p} (hr : e.render = name) (hne : name ≠ []) (hal : ∀ c ∈ name, isAlnum c = true)
    (hv : ∀ sg, SgOK sg → Pushes p vars values [sg ++ name] (sgVal sg * v)) : ReadsA p vars values e v := by
  intro prev T O sg hsg hO _
  obtain ⟨prev', h1, h2⟩ := parseLoop_alnum name prev ⟨T, O, sg, false⟩ hne hal
  have hne' : sg ++ name ≠ [] := by simp [hne]
  refine ⟨[], [], sg ++ name, prev', fun rest => ?_, ?_, by simp, by simp [toks, hne'], (alnum_ne h1).2.2.2.2.2.1⟩
  · rw [hr, h2]; simp
  · simpa [toks, hne'] using hv sg hsg

/-- the explicit form for a parenthesis -/
lemma reads_paren {e : Expr} {v : ZMod p} (h : ReadsB p vars values e v) (prev : Char) (T : List Str) (O : List Char) :
    ∃ C, (∀ rest, parseLoop prev ((Expr.paren e).render ++ rest) ⟨T, O, [], false⟩ = parseLoop ')' rest ⟨T ++ C, O, [], false⟩) ∧
      Pushes p vars values C v := by
  obtain ⟨T', P, tmp', prev', h1, h2, h3, h4, h5⟩ := h '(' T ('(' :: O) (Or.inl ⟨rfl, rfl⟩)
  refine ⟨T' ++ toks tmp' ++ P.map fun c => [c], fun rest => ?_, h2⟩
  have : (Expr.paren e).render ++ rest = '(' :: (e.render ++ (')' :: rest)) := by simp [Expr.render]
  rw [this, parseLoop_cons (step_open _)]
  simp only
  rw [h1, parseLoop_cons (step_close _ _ _ _), popParen_append _ _ _ (fun c hc => (h3 c hc).1)]
  simp [List.append_assoc]

lemma readsA_paren {e : Expr} {v : ZMod p} (h : ReadsB p vars values e v) : ReadsA p vars values (.paren e) v := by
  intro prev T O sg hsg hO hh
  have : sg = [] := by
    by_contra hne
    exact hh hne (by simp [Expr.render])
  subst this
  obtain ⟨C, h1, h2⟩ := reads_paren h prev T O
  refine ⟨C, [], [], ')', fun rest => by rw [h1]; rfl, by simpa [toks, sgVal] using h2, by simp, ?_, by decide⟩
  simpa [toks] using h2.ne_nil

variable (hp : p.Prime) (hlt : p < 2 ^ 63)
include hp hlt

/-- a binary operator -/
lemma reads_binary {a b : Str} {va vb r : ZMod p} {la lb : ℕ} {c : Char} {prev : Char} {T : List Str} {O : List Char} {sg : Str}
    (ha : Reads p vars values a la va prev T O sg)
    (hc : isOperator c = true) (hc' : c ≠ '^') (hc'' : c ≠ '(') (hla : getWeight c ≤ la) (hO : ∀ d ∈ O.head?, getWeight d < getWeight c)
    (hlb : getWeight c ≤ lb)
    (hb : ∀ T', Reads p vars values b lb vb c T' (c :: O) [])
    (hop : ∀ {C D}, Pushes p vars values C va → Pushes p vars values D vb → Pushes p vars values (C ++ D ++ [[c]]) r) :
    Reads p vars values (a ++ c :: b) (getWeight c) r prev T O sg := by
  obtain ⟨T1, P1, tmp1, prev1, h1, h2, h3, h4, h5⟩ := ha
  obtain ⟨T2, P2, tmp2, prev2, g1, g2, g3, g4, g5⟩ := hb (T ++ T1 ++ toks tmp1 ++ P1.map fun c => [c])
  refine ⟨T1 ++ toks tmp1 ++ (P1.map fun c => [c]) ++ T2, P2 ++ [c], tmp2, prev2, fun rest => ?_, ?_, ?_, ?_, g5⟩
  · rw [List.append_assoc, h1, List.cons_append,
      parseLoop_cons (step_binary hc hc' h5 (by rw [List.append_assoc]; simp [h4]) (fun d hd => ⟨(h3 d hd).1, le_trans hla (h3 d hd).2⟩) hO), g1]
    simp [List.append_assoc]
  · have := hop h2 g2
    simpa [List.append_assoc] using this
  · intro d hd
    rw [List.mem_append, List.mem_singleton] at hd
    rcases hd with hd | rfl
    · exact ⟨(g3 d hd).1, le_trans hlb (g3 d hd).2⟩
    · exact ⟨hc'', le_rfl⟩
  · simp only [ne_eq, List.append_eq_nil_iff, not_and] at h4 ⊢
    intro h
    obtain ⟨⟨⟨h, h'⟩, -⟩, -⟩ := h
    exact absurd h' (h4 h)


omit hp hlt in
/-- the power denoted by an exponent -/
def powVal [Fact p.Prime] (u : ZMod p) : Exponent → ZMod p
  | .plain ds => u ^ decimal ds
  | .paren ds => u ^ decimal ds
  | .neg ds => (u ^ decimal ds)⁻¹

/-- exponents: after `^` the parser reads the digits of the exponent -/
lemma readsA_pow_aux [Fact p.Prime] (h3 : 3 < p) (hvars : ∀ v ∈ vars, IsName v) {prev : Char} {T B B' : List Str} {O : List Char} {tmp : Str} {b : Str}
    {u v : ZMod p} {neg : Bool} {x : Exponent} (hx : x.WF (p - 1) (min p (2 ^ 31)))
    (hprev : prev ≠ '(') (hb : (T ++ B ++ toks tmp).getLast? = some b) (hO : ∀ d ∈ O.head?, getWeight d < 3)
    (hneg : signedBase b prev = neg)
    (hB : (if neg then (T ++ B ++ toks tmp).dropLast ++ [b.tail] else T ++ B ++ toks tmp) = T ++ B')
    (hpush : Pushes p vars values B' u)
    (hv : v = (if neg then -1 else 1) * powVal u x) :
    ∃ (T' : List Str) (P : List Char) (tmp' : Str) (prev' : Char),
      (∀ rest, parseLoop prev ('^' :: x.render ++ rest) ⟨T ++ B, O, tmp, false⟩ = parseLoop prev' rest ⟨T ++ T', P ++ O, tmp', false⟩) ∧
      Pushes p vars values (T' ++ toks tmp' ++ P.map fun c => [c]) v ∧
      (∀ c ∈ P, c ≠ '(' ∧ 3 ≤ getWeight c) ∧ T' ++ toks tmp' ≠ [] ∧ prev' ≠ '(' := by
  have hne := hpush.ne_nil
  cases x with
  | plain ds =>
    obtain ⟨prev', g1, g2⟩ := parseLoop_alnum ds '^' ⟨T ++ B', (if neg then '!' else '^') :: O, [], false⟩ hx.1.1 (isNum_alnum hx.1).2
    refine ⟨B', [if neg then '!' else '^'], ds, prev', fun rest => ?_, ?_, ?_, by simp [hne], (alnum_ne g1).2.2.2.2.2.1⟩
    · have : '^' :: (Exponent.plain ds).render ++ rest = '^' :: (ds ++ rest) := rfl
      rw [this, parseLoop_cons (s' := ⟨T ++ B', (if neg then '!' else '^') :: O, [], false⟩)]
      · rw [g2 rest]; rfl
      · rw [step_pow hprev hb hO, if_neg, hneg]
        · cases neg
          · simp only [Bool.false_eq_true, if_false] at hB ⊢
            rw [hB]
          · simp only [if_true] at hB ⊢
            rw [hB]
        · obtain ⟨c, c1, c2, c3⟩ := num_head hx.1.1 (isNum_alnum hx.1).2 rest
          intro h
          have : (ds ++ rest).getD 0 '\x00' = '(' := h.1
          rw [c1] at this
          exact (alnum_ne c3).2.2.2.2.2.1 this
    · have h := push_pow hp hlt h3 hvars hpush hx.1 hx.2
      rw [hv]
      cases neg
      · simpa [toks, hx.1.1, powVal] using h.1
      · simpa [toks, hx.1.1, powVal] using h.2
    · intro c hc
      simp only [List.mem_singleton] at hc
      subst hc
      cases neg <;> decide
  | paren ds =>
    obtain ⟨prev', g1, g2⟩ := parseLoop_alnum ds '(' ⟨T ++ B', '(' :: (if neg then '!' else '^') :: O, [], false⟩ hx.1.1 (isNum_alnum hx.1).2
    refine ⟨B' ++ [ds], [if neg then '!' else '^'], [], ')', fun rest => ?_, ?_, ?_, by simp [hne], by decide⟩
    · have : '^' :: (Exponent.paren ds).render ++ rest = '^' :: '(' :: (ds ++ (')' :: rest)) := by simp [Exponent.render]
      rw [this, parseLoop_cons (s' := ⟨T ++ B', (if neg then '!' else '^') :: O, [], false⟩)]
      · rw [parseLoop_cons (step_open _)]
        simp only
        rw [g2, parseLoop_cons (step_close _ _ _ _)]
        have := popParen_append [] ((T ++ B') ++ toks ([] ++ ds)) ((if neg then '!' else '^') :: O) (by simp)
        simp only [List.nil_append, List.map_nil, List.append_nil] at this
        simp only [List.nil_append]
        rw [this]
        simp [toks, hx.1.1]
      · rw [step_pow hprev hb hO, if_neg, hneg]
        · cases neg
          · simp only [Bool.false_eq_true, if_false] at hB ⊢
            rw [hB]
          · simp only [if_true] at hB ⊢
            rw [hB]
        · obtain ⟨c, c1, c2, c3⟩ := num_head hx.1.1 (isNum_alnum hx.1).2 (')' :: rest)
          intro h
          have : (ds ++ ')' :: rest).getD 0 '\x00' = '-' := h.2
          rw [c1] at this
          exact (alnum_ne c3).2.1 this
    · have h := push_pow hp hlt h3 hvars hpush hx.1 hx.2
      rw [hv]
      cases neg
      · simpa [toks, powVal] using h.1
      · simpa [toks, powVal] using h.2
    · intro c hc
      simp only [List.mem_singleton] at hc
      subst hc
      cases neg <;> decide
  | neg ds =>
    obtain ⟨prev', g1, g2⟩ := parseLoop_alnum ds '-' ⟨T ++ B', '(' :: (if neg then ';' else '~') :: O, [], false⟩ hx.1.1 (isNum_alnum hx.1).2
    refine ⟨B' ++ [ds], [if neg then ';' else '~'], [], ')', fun rest => ?_, ?_, ?_, by simp [hne], by decide⟩
    · have : '^' :: (Exponent.neg ds).render ++ rest = '^' :: '(' :: '-' :: (ds ++ (')' :: rest)) := by simp [Exponent.render]
      rw [this, parseLoop_cons (s' := ⟨T ++ B', (if neg then ';' else '~') :: O, [], true⟩)]
      · rw [parseLoop_cons (step_open _)]
        simp only
        obtain ⟨c, c1, c2, c3⟩ := num_head hx.1.1 (isNum_alnum hx.1).2 (')' :: rest)
        rw [parseLoop_cons (step_neg_exp (by rw [c1]; exact (alnum_ne c3).2.2.2.2.2.1)), g2, parseLoop_cons (step_close _ _ _ _)]
        have := popParen_append [] ((T ++ B') ++ toks ([] ++ ds)) ((if neg then ';' else '~') :: O) (by simp)
        simp only [List.nil_append, List.map_nil, List.append_nil] at this
        simp only [List.nil_append]
        rw [this]
        simp [toks, hx.1.1]
      · rw [step_pow hprev hb hO, if_pos ⟨rfl, rfl⟩, hneg]
        cases neg
        · simp only [Bool.false_eq_true, if_false] at hB ⊢
          rw [hB]
        · simp only [if_true] at hB ⊢
          rw [hB]
    · have h := push_negpow hp hlt hvars hpush hx.1 hx.2
      rw [hv]
      cases neg
      · simpa [toks, powVal] using h.1
      · simpa [toks, powVal] using h.2
    · intro c hc
      simp only [List.mem_singleton] at hc
      subst hc
      cases neg <;> decide


lemma readsA_pow_name [Fact p.Prime] (h3 : 3 < p) (hvars : ∀ v ∈ vars, IsName v) {a : Expr} {name : Str} {u v : ZMod p} {x : Exponent}
    (hr : a.render = name) (hne : name ≠ []) (hal : ∀ c ∈ name, isAlnum c = true)
    (hpush : ∀ sg, SgOK sg → Pushes p vars values [sg ++ name] (sgVal sg * u))
    (hx : x.WF (p - 1) (min p (2 ^ 31)))
    (hv : v = powVal u x) :
    ReadsA p vars values (.pow a x) v := by
  intro prev T O sg hsg hO _
  obtain ⟨prev', h1, h2⟩ := parseLoop_alnum name prev ⟨T, O, sg, false⟩ hne hal
  have hne' : sg ++ name ≠ [] := by simp [hne]
  have htoks : toks (sg ++ name) = [sg ++ name] := by rw [toks, if_neg hne']
  have hnepar := (alnum_ne h1).2.2.2.2.2.1
  have hneclose := (alnum_ne h1).2.2.2.2.2.2.1
  have hname0 : name.head? ≠ some '-' := by
    obtain ⟨c, t, rfl⟩ := List.exists_cons_of_ne_nil hne
    have := (alnum_ne (hal c (by simp))).2.1
    simpa using this
  have key : ∀ (neg : Bool) (B' : List Str), signedBase (sg ++ name) prev' = neg →
      (if neg then [(sg ++ name).tail] else [sg ++ name]) = B' → Pushes p vars values B' u → (if neg then (-1 : ZMod p) else 1) = sgVal sg →
      Reads p vars values (Expr.pow a x).render (Expr.pow a x).level (sgVal sg * v) prev T O sg := by
    intro neg B' hneg hB hB' hsv
    obtain ⟨T', P, tmp', prev'', g1, g2, g3, g4, g5⟩ := readsA_pow_aux (prev := prev') (T := T) (B := []) (B' := B') (O := O)
      (tmp := sg ++ name) (b := sg ++ name) (u := u) (v := sgVal sg * v) (neg := neg) (x := x) hp hlt h3 hvars hx hnepar
      (by simp [htoks]) hO hneg (by rw [htoks, ← hB]; cases neg <;> simp) hB' (by rw [hsv, hv])
    refine ⟨T', P, tmp', prev'', fun rest => ?_, g2, g3, g4, g5⟩
    rw [← g1 rest]
    show parseLoop prev ((a.render ++ '^' :: x.render) ++ rest) _ = _
    rw [hr, List.append_assoc, h2]
    simp
  rcases hsg with rfl | rfl | rfl
  · refine key false [name] ?_ rfl (by simpa [sgVal] using hpush [] (Or.inl rfl)) (by simp [sgVal])
    simp [signedBase, hname0]
  · refine key true [name] ?_ rfl (by simpa [sgVal] using hpush [] (Or.inl rfl)) (by simp [sgVal])
    have : 0 < name.length := List.length_pos_of_ne_nil hne
    simp [signedBase, hneclose, this]
  · refine key false [['+'] ++ name] ?_ rfl (by simpa [sgVal] using hpush ['+'] (Or.inr (Or.inr rfl))) (by simp [sgVal])
    simp [signedBase]

lemma readsA_pow_paren [Fact p.Prime] (h3 : 3 < p) (hvars : ∀ v ∈ vars, IsName v) {a : Expr} {u v : ZMod p} {x : Exponent}
    (h : ReadsB p vars values a u)
    (hx : x.WF (p - 1) (min p (2 ^ 31)))
    (hv : v = powVal u x) :
    ReadsA p vars values (.pow (.paren a) x) v := by
  intro prev T O sg hsg hO hh
  have : sg = [] := by
    by_contra hne
    exact hh hne (by simp [Expr.render])
  subst this
  obtain ⟨C, h1, h2⟩ := reads_paren h prev T O
  have hne := h2.ne_nil
  have hlast : (T ++ C ++ toks []).getLast? = some (C.getLast hne) := by
    simp [toks, List.getLast?_append, List.getLast?_eq_getLast_of_ne_nil hne]
  obtain ⟨T', P, tmp', prev'', g1, g2, g3, g4, g5⟩ := readsA_pow_aux (prev := ')') (T := T) (B := C) (B' := C) (O := O)
      (tmp := []) (b := C.getLast hne) (u := u) (v := sgVal [] * v) (neg := false) (x := x) hp hlt h3 hvars hx (by decide)
      hlast hO (by simp [signedBase]) (by simp [toks]) h2 (by simp [sgVal, hv])
  refine ⟨T', P, tmp', prev'', fun rest => ?_, g2, g3, g4, g5⟩
  rw [← g1 rest]
  show parseLoop prev (((Expr.paren a).render ++ '^' :: x.render) ++ rest) _ = _
  rw [List.append_assoc, h1]

/-- a leading sign -/
lemma readsB_sign (hvars : ∀ v ∈ vars, IsName v) {a e : Expr} {v r : ZMod p} {c : Char} (hc : c = '+' ∨ c = '-') (he : e.render = c :: a.render)
    (hsp : e.signParen ↔ a.render.head? = some '(')
    (ha : a.WF vars P N) (hl : 2 ≤ a.level) (h : ReadsA p vars values a v) (hr : r = sgVal [c] * v) : ReadsB p vars values e r := by
  intro prev T O hst
  obtain ⟨d, -, -, d3, d4⟩ := render_head hvars a ha hl []
  have hd : ∀ rest, (a.render ++ rest).getD 0 '\x00' = d := by
    intro rest
    obtain ⟨d', e1, e2, e3, e4⟩ := render_head hvars a ha hl rest
    rw [d3] at e3
    rw [e1]; simpa using e3.symm
  by_cases hd' : d = '('
  · -- the sign becomes a binary operator with the operand 0
    subst hd'
    rcases hst with ⟨rfl, hO⟩ | ⟨-, -, hn⟩
    · have hO' : O ≠ [] := by rintro rfl; simp at hO
      obtain ⟨T', Q, tmp', prev', g1, g2, g3, g4, g5⟩ := h c (T ++ [['0']]) (c :: O) [] (Or.inl rfl)
        (by
          intro x hx
          have : c = x := by simpa using hx
          subst this
          have : getWeight c = 1 := by rcases hc with rfl | rfl <;> decide
          omega) (fun hn => absurd rfl hn)
      have h0 : Pushes p vars values [['0']] (0 : ZMod p) := by
        have := push_num hp hlt (values := values) hvars (sg := []) (ds := ['0']) (Or.inl rfl) ⟨by simp, by decide⟩
        simpa [sgVal, decimal] using this
      refine ⟨[['0']] ++ T', Q ++ [c], tmp', prev', fun rest => ?_, ?_, ?_, by simp, g5⟩
      · rw [he, List.cons_append, parseLoop_cons (step_sign_paren hc hO' (hd rest)), g1]
        simp
      · have : Pushes p vars values ([['0']] ++ (T' ++ toks tmp' ++ Q.map fun c => [c]) ++ [[c]]) r := by
          simp only [sgVal] at g2
          rw [if_neg (by decide), one_mul] at g2
          rcases hc with rfl | rfl
          · have := push_add hp hlt h0 g2
            simpa [hr, sgVal] using this
          · have := push_sub hp hlt h0 g2
            simpa [hr, sgVal] using this
        simpa [List.append_assoc] using this
      · intro x hx
        rw [List.mem_append, List.mem_singleton] at hx
        rcases hx with hx | rfl
        · exact ⟨(g3 x hx).1, by have := (g3 x hx).2; omega⟩
        · rcases hc with rfl | rfl <;> decide
    · exact absurd (hsp.mpr d3) hn
  · have hO : (O ≠ [] ∧ prev = '(') ∨ (O = [] ∧ T = []) := by
      rcases hst with ⟨h1, h2⟩ | ⟨h1, h2, -⟩
      · exact Or.inl ⟨by rintro rfl; simp at h2, h1⟩
      · exact Or.inr ⟨h2, h1⟩
    have hOw : ∀ x ∈ O.head?, getWeight x < a.level := by
      intro x hx
      rcases hst with ⟨h1, h2⟩ | ⟨h1, h2, -⟩
      · rw [h2] at hx
        have : '(' = x := by simpa using hx
        subst this
        have : getWeight '(' = 0 := by decide
        omega
      · subst h2; simp at hx
    obtain ⟨T', Q, tmp', prev', g1, g2, g3, g4, g5⟩ := h c T O [c] (by rcases hc with rfl | rfl <;> simp [SgOK]) hOw
        (fun _ => by rw [d3]; simpa using hd')
    refine ⟨T', Q, tmp', prev', fun rest => ?_, by rw [hr]; exact g2, fun x hx => ⟨(g3 x hx).1, by have := (g3 x hx).2; omega⟩, g4, g5⟩
    rw [he, List.cons_append, parseLoop_cons (step_sign hc hO (by rw [hd rest]; exact hd')), g1]

/-- the parser on the text of a well-formed expression -/
lemma reads_main [Fact p.Prime] (h3 : 3 < p) (hvars : ∀ v ∈ vars, IsName v) (hlen : vars.length ≤ values.length) (hval : ∀ x ∈ values, x < p) :
    ∀ e : Expr, e.WF vars (p - 1) (min p (2 ^ 31)) → e.Norm →
      (2 ≤ e.level → ReadsA p vars values e (e.denote (envOf p vars values))) ∧
      ReadsB p vars values e (e.denote (envOf p vars values)) ∧
      ∀ a, e = .paren a → ReadsB p vars values a (a.denote (envOf p vars values)) := by
  intro e
  have AB : ∀ (e : Expr), 2 ≤ e.level → ReadsA p vars values e (e.denote (envOf p vars values)) →
      ReadsB p vars values e (e.denote (envOf p vars values)) := by
    intro e hl hA prev T O hst
    have hOw : ∀ x ∈ O.head?, getWeight x < e.level := by
      intro x hx
      rcases hst with ⟨h1, h2⟩ | ⟨h1, h2, -⟩
      · rw [h2] at hx
        have : '(' = x := by simpa using hx
        subst this
        have : getWeight '(' = 0 := by decide
        omega
      · subst h2; simp at hx
    obtain ⟨T', Q, tmp', prev', g1, g2, g3, g4, g5⟩ := hA prev T O [] (Or.inl rfl) hOw (fun h => absurd rfl h)
    refine ⟨T', Q, tmp', prev', g1, by simpa [sgVal] using g2, fun x hx => ⟨(g3 x hx).1, by have := (g3 x hx).2; omega⟩, g4, g5⟩
  have Ow : ∀ {e e' : Expr} {T : List Str} {O : List Char} {prev : Char} {n : ℕ}, 0 < n → 
      ((prev = '(' ∧ O.head? = some '(') ∨ (T = [] ∧ O = [] ∧ ¬ e.signParen)) → ∀ d ∈ O.head?, getWeight d < n := by
    intro e e' T O prev n hn hst x hx
    rcases hst with ⟨h1, h2⟩ | ⟨h1, h2, -⟩
    · rw [h2] at hx
      have : '(' = x := by simpa using hx
      subst this
      have : getWeight '(' = 0 := by decide
      omega
    · subst h2; simp at hx
  induction e with
  | num ds =>
    intro h _
    have hA : ReadsA p vars values (.num ds) ((Expr.num ds).denote (envOf p vars values)) :=
      readsA_name rfl h.1 (isNum_alnum h).2 (fun sg hsg => push_num hp hlt hvars hsg h)
    exact ⟨fun _ => hA, AB _ (by simp [Expr.level]) hA, by simp⟩
  | var name =>
    intro h _
    have hA : ReadsA p vars values (.var name) ((Expr.var name).denote (envOf p vars values)) :=
      readsA_name rfl (isName_alnum (hvars name h)).1 (isName_alnum (hvars name h)).2
        (fun sg hsg => push_var hp hlt hvars hlen hval hsg h)
    exact ⟨fun _ => hA, AB _ (by simp [Expr.level]) hA, by simp⟩
  | paren e ih =>
    intro h hn
    have hA : ReadsA p vars values (.paren e) ((Expr.paren e).denote (envOf p vars values)) := readsA_paren (ih h hn).2.1
    exact ⟨fun _ => hA, AB _ (by simp [Expr.level]) hA, by rintro a ⟨⟩; exact (ih h hn).2.1⟩
  | pow a x ih =>
    intro h hn
    have hA : ReadsA p vars values (.pow a x) ((Expr.pow a x).denote (envOf p vars values)) := by
      obtain ⟨h1, h2, hx⟩ := h
      have hden : ∀ u, u = a.denote (envOf p vars values) → (Expr.pow a x).denote (envOf p vars values) =
          powVal u x := by
        rintro u rfl
        cases x <;> rfl
      cases a with
      | num ds => exact readsA_pow_name hp hlt h3 hvars rfl h1.1 (isNum_alnum h1).2 (fun sg hsg => push_num hp hlt hvars hsg h1) hx (hden _ rfl)
      | var name =>
        exact readsA_pow_name hp hlt h3 hvars rfl (isName_alnum (hvars name h1)).1 (isName_alnum (hvars name h1)).2
          (fun sg hsg => push_var hp hlt hvars hlen hval hsg h1) hx (hden _ rfl)
      | paren a =>
        have hB : ReadsB p vars values a (a.denote (envOf p vars values))  :=
          (ih h1 hn).2.2 a rfl
        exact readsA_pow_paren hp hlt h3 hvars hB hx (hden _ rfl)
      | _ => simp [Expr.level] at h2
    exact ⟨fun _ => hA, AB _ (by simp [Expr.level]) hA, by simp⟩
  | mul a b iha ihb =>
    intro h hn
    have hA : ReadsA p vars values (.mul a b) ((Expr.mul a b).denote (envOf p vars values)) := by
      intro prev T O sg hsg hO hh
      obtain ⟨h1, h2, h3', h4⟩ := h
      obtain ⟨c, -, -, c3, -⟩ := render_head hvars a h1 h2 []
      have ha := (iha h1 hn.1).1 h2 prev T O sg hsg (fun d hd => lt_of_lt_of_le (hO d hd) h2)
        (fun hs => by have := hh hs; simpa [Expr.render, c3] using this)
      exact reads_binary (c := '*') hp hlt ha (by decide) (by decide) (by decide) h2 hO (lb := b.level) (le_trans (show getWeight '*' ≤ 2 by decide) (by omega))
        (fun T' => by
          have := (ihb h3' hn.2).1 (by omega) '*' T' ('*' :: O) [] (Or.inl rfl) (by
            intro d hd
            have : '*' = d := by simpa using hd
            subst this
            have : getWeight '*' = 2 := by decide
            omega) (fun h => absurd rfl h)
          simpa [sgVal] using this)
        (fun {C D} hC hD => by
          have := push_mul hp hlt hC hD
          simpa [Expr.denote, mul_assoc] using this)
    exact ⟨fun _ => hA, AB _ (by simp [Expr.level]) hA, by simp⟩
  | div a b iha ihb =>
    intro h hn
    have hA : ReadsA p vars values (.div a b) ((Expr.div a b).denote (envOf p vars values)) := by
      intro prev T O sg hsg hO hh
      obtain ⟨h1, h2, h3', h4⟩ := h
      obtain ⟨c, -, -, c3, -⟩ := render_head hvars a h1 h2 []
      have ha := (iha h1 hn.1).1 h2 prev T O sg hsg (fun d hd => lt_of_lt_of_le (hO d hd) h2)
        (fun hs => by have := hh hs; simpa [Expr.render, c3] using this)
      exact reads_binary (c := '/') hp hlt ha (by decide) (by decide) (by decide) h2 hO (lb := b.level) (le_trans (show getWeight '/' ≤ 2 by decide) (by omega))
        (fun T' => by
          have := (ihb h3' hn.2).1 (by omega) '/' T' ('/' :: O) [] (Or.inl rfl) (by
            intro d hd
            have : '/' = d := by simpa using hd
            subst this
            have : getWeight '/' = 2 := by decide
            omega) (fun h => absurd rfl h)
          simpa [sgVal] using this)
        (fun {C D} hC hD => by
          have := push_div hp hlt hC hD
          simpa [Expr.denote, mul_div_assoc] using this)
    exact ⟨fun _ => hA, AB _ (by simp [Expr.level]) hA, by simp⟩
  | add a b iha ihb =>
    intro h hn
    refine ⟨fun hl => by simp [Expr.level] at hl, fun prev T O hst => ?_, by simp⟩
    obtain ⟨h1, h2, h3'⟩ := h
    refine reads_binary (c := '+') hp hlt ((iha h1 hn.1).2.1 prev T O hst) (by decide) (by decide) (by decide) (by decide)
      (Ow (e := .add a b) (e' := a) (by decide) hst) (lb := b.level) (le_trans (show getWeight '+' ≤ 1 by decide) (by omega))
        (fun T' => by
          have := (ihb h2 hn.2).1 (by omega) '+' T' ('+' :: O) [] (Or.inl rfl) (by
            intro d hd
            have : '+' = d := by simpa using hd
            subst this
            have : getWeight '+' = 1 := by decide
            omega) (fun h => absurd rfl h)
          simpa [sgVal] using this)
        (fun {C D} hC hD => push_add hp hlt hC hD)
  | sub k a b iha ihb =>
    intro h hn
    refine ⟨fun hl => by simp [Expr.level] at hl, fun prev T O hst => ?_, by simp⟩
    obtain ⟨h1, h2, h3'⟩ := h
    obtain ⟨rfl, hn1, hn2⟩ := hn
    have hr : (Expr.sub .m a b).render = a.render ++ '-' :: b.render := by simp [Expr.render, Minus.render]
    rw [hr]
    refine reads_binary (c := '-') hp hlt ((iha h1 hn1).2.1 prev T O hst) (by decide) (by decide) (by decide) (by decide)
      (Ow (e := .sub .m a b) (e' := a) (by decide) hst) (lb := b.level) (le_trans (show getWeight '-' ≤ 1 by decide) (by omega))
        (fun T' => by
          have := (ihb h2 hn2).1 (by omega) '-' T' ('-' :: O) [] (Or.inl rfl) (by
            intro d hd
            have : '-' = d := by simpa using hd
            subst this
            have : getWeight '-' = 1 := by decide
            omega) (fun h => absurd rfl h)
          simpa [sgVal] using this)
        (fun {C D} hC hD => push_sub hp hlt hC hD)
  | neg k a iha =>
    intro h hn
    refine ⟨fun hl => by simp [Expr.level] at hl, ?_, by simp⟩
    obtain ⟨rfl, hn⟩ := hn
    exact readsB_sign hp hlt hvars (a := a) (c := '-') (Or.inr rfl) rfl Iff.rfl h.1 h.2 ((iha h.1 hn).1 h.2) (by simp [sgVal, Expr.denote])
  | pos a iha =>
    intro h hn
    refine ⟨fun hl => by simp [Expr.level] at hl, ?_, by simp⟩
    exact readsB_sign hp hlt hvars (a := a) (c := '+') (Or.inl rfl) rfl Iff.rfl h.1 h.2 ((iha h.1 hn).1 h.2) (by simp [sgVal, Expr.denote])

end
end FireFly
