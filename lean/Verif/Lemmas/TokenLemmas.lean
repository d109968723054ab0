import Verif.Lemmas.ParseTop
/-! # The tokens the parser makes of the text of an expression -/
set_option linter.all false
namespace FireFly

/-- the digits of an exponent -/
def Exponent.digits : Exponent → Str
  | .plain ds => ds
  | .paren ds => ds
  | .neg ds => ds

/-- the token of a power; `neg`: the base has the sign minus -/
def Exponent.op (x : Exponent) (neg : Bool) : Char :=
  match x with
  | .plain _ => if neg then '!' else '^'
  | .paren _ => if neg then '!' else '^'
  | .neg _ => if neg then ';' else '~'

/-- the tokens of an expression that follows the sign `sg` -/
def Expr.code : Expr → Str → List Str
  | .num ds, sg => [sg ++ ds]
  | .var name, sg => [sg ++ name]
  | .paren e, _ => e.code []
  | .pow a x, sg => a.code (if sg = ['-'] then [] else sg) ++ [x.digits] ++ [[x.op (decide (sg = ['-']))]]
  | .mul a b, sg => a.code sg ++ b.code [] ++ [['*']]
  | .div a b, sg => a.code sg ++ b.code [] ++ [['/']]
  | .add a b, _ => a.code [] ++ b.code [] ++ [['+']]
  | .sub _ a b, _ => a.code [] ++ b.code [] ++ [['-']]
  | .neg _ a, _ => if a.render.head? = some '(' then [['0']] ++ a.code [] ++ [['-']] else a.code ['-']
  | .pos a, _ => if a.render.head? = some '(' then [['0']] ++ a.code [] ++ [['+']] else a.code ['+']

lemma code_ne_nil : ∀ (e : Expr) (sg : Str), e.code sg ≠ []
  | .num _, _ => by simp [Expr.code]
  | .var _, _ => by simp [Expr.code]
  | .paren e, _ => by simp only [Expr.code]; exact code_ne_nil e []
  | .pow _ _, _ => by simp [Expr.code]
  | .mul _ _, _ => by simp [Expr.code]
  | .div _ _, _ => by simp [Expr.code]
  | .add _ _, _ => by simp [Expr.code]
  | .sub _ _ _, _ => by simp [Expr.code]
  | .neg _ a, _ => by
    simp only [Expr.code]
    split
    · simp
    · exact code_ne_nil a _
  | .pos a, _ => by
    simp only [Expr.code]
    split
    · simp
    · exact code_ne_nil a _

variable {vars : List Str} {P N : ℕ}

/-- the text `f` adds the tokens `C`, operators of weight at least `lv` being left on the stack -/
def Rds (f : Str) (lv : ℕ) (C : List Str) (prev : Char) (T : List Str) (O : List Char) (sg : Str) : Prop :=
  ∃ (T' : List Str) (P : List Char) (tmp' : Str) (prev' : Char),
    (∀ rest, parseLoop prev (f ++ rest) ⟨T, O, sg, false⟩ = parseLoop prev' rest ⟨T ++ T', P ++ O, tmp', false⟩) ∧
    (T' ++ toks tmp' ++ P.map fun c => [c]) = C ∧
    (∀ c ∈ P, c ≠ '(' ∧ lv ≤ getWeight c) ∧ T' ++ toks tmp' ≠ [] ∧ prev' ≠ '('

/-- an expression of level at least two, read after a sign `sg` -/
def RdsA (e : Expr) : Prop :=
  ∀ (prev : Char) (T : List Str) (O : List Char) (sg : Str), SgOK sg →
    (∀ d ∈ O.head?, getWeight d < e.level) → (sg ≠ [] → e.render.head? ≠ some '(') →
    Rds e.render e.level (e.code sg) prev T O sg

/-- any expression, read after an opening parenthesis or at the beginning -/
def RdsB (e : Expr) : Prop :=
  ∀ (prev : Char) (T : List Str) (O : List Char),
    (prev = '(' ∧ O.head? = some '(') ∨ (T = [] ∧ O = [] ∧ ¬ e.signParen) →
    Rds e.render 1 (e.code []) prev T O []

lemma rdsA_name {e : Expr} {name : Str} (hr : e.render = name) (hne : name ≠ []) (hal : ∀ c ∈ name, isAlnum c = true)
    (hv : ∀ sg, e.code sg = [sg ++ name]) : RdsA e := by
  intro prev T O sg hsg hO _
  obtain ⟨prev', h1, h2⟩ := parseLoop_alnum name prev ⟨T, O, sg, false⟩ hne hal
  have hne' : sg ++ name ≠ [] := by simp [hne]
  refine ⟨[], [], sg ++ name, prev', fun rest => ?_, ?_, by simp, by simp [toks, hne'], (alnum_ne h1).2.2.2.2.2.1⟩
  · rw [hr, h2]; simp
  · rw [hv]; simp [toks, hne']

lemma rds_paren {e : Expr} (h : RdsB e) (prev : Char) (T : List Str) (O : List Char) (rest : Str) :
    parseLoop prev ((Expr.paren e).render ++ rest) ⟨T, O, [], false⟩ = parseLoop ')' rest ⟨T ++ e.code [], O, [], false⟩ := by
  obtain ⟨T', P, tmp', prev', h1, h2, h3, h4, h5⟩ := h '(' T ('(' :: O) (Or.inl ⟨rfl, rfl⟩)
  have : (Expr.paren e).render ++ rest = '(' :: (e.render ++ (')' :: rest)) := by simp [Expr.render]
  rw [this, parseLoop_cons (step_open _)]
  simp only
  rw [h1, parseLoop_cons (step_close _ _ _ _), popParen_append _ _ _ (fun c hc => (h3 c hc).1), ← h2]
  simp [List.append_assoc]

lemma rdsA_paren {e : Expr} (h : RdsB e) : RdsA (.paren e) := by
  intro prev T O sg hsg hO hh
  have : sg = [] := by
    by_contra hne
    exact hh hne (by simp [Expr.render])
  subst this
  refine ⟨e.code [], [], [], ')', fun rest => by rw [rds_paren h prev T O]; rfl, by simp [toks, Expr.code], by simp, ?_, by decide⟩
  simpa [toks] using code_ne_nil e []

/-- a binary operator -/
lemma rds_binary {a b : Str} {A B : List Str} {la lb : ℕ} {c : Char} {prev : Char} {T : List Str} {O : List Char} {sg : Str}
    (ha : Rds a la A prev T O sg)
    (hc : isOperator c = true) (hc' : c ≠ '^') (hc'' : c ≠ '(') (hla : getWeight c ≤ la) (hO : ∀ d ∈ O.head?, getWeight d < getWeight c)
    (hlb : getWeight c ≤ lb)
    (hb : ∀ T', Rds b lb B c T' (c :: O) []) :
    Rds (a ++ c :: b) (getWeight c) (A ++ B ++ [[c]]) prev T O sg := by
  obtain ⟨T1, P1, tmp1, prev1, h1, h2, h3, h4, h5⟩ := ha
  obtain ⟨T2, P2, tmp2, prev2, g1, g2, g3, g4, g5⟩ := hb (T ++ T1 ++ toks tmp1 ++ P1.map fun c => [c])
  refine ⟨T1 ++ toks tmp1 ++ (P1.map fun c => [c]) ++ T2, P2 ++ [c], tmp2, prev2, fun rest => ?_, ?_, ?_, ?_, g5⟩
  · rw [List.append_assoc, h1, List.cons_append,
      parseLoop_cons (step_binary hc hc' h5 (by rw [List.append_assoc]; simp [h4]) (fun d hd => ⟨(h3 d hd).1, le_trans hla (h3 d hd).2⟩) hO), g1]
    simp [List.append_assoc]
  · rw [← h2, ← g2]
    simp [List.append_assoc]
  · intro d hd
    rw [List.mem_append, List.mem_singleton] at hd
    rcases hd with hd | rfl
    · exact ⟨(g3 d hd).1, le_trans hlb (g3 d hd).2⟩
    · exact ⟨hc'', le_rfl⟩
  · simp only [ne_eq, List.append_eq_nil_iff, not_and] at h4 ⊢
    intro h
    obtain ⟨⟨⟨h, h'⟩, -⟩, -⟩ := h
    exact absurd h' (h4 h)

/-- exponents: after `^` the parser reads the digits of the exponent -/
lemma rdsA_pow_aux {prev : Char} {T B B' : List Str} {O : List Char} {tmp : Str} {b : Str}
    {neg : Bool} {x : Exponent} (hx : x.WF P N)
    (hprev : prev ≠ '(') (hb : (T ++ B ++ toks tmp).getLast? = some b) (hO : ∀ d ∈ O.head?, getWeight d < 3)
    (hneg : signedBase b prev = neg)
    (hB : (if neg then (T ++ B ++ toks tmp).dropLast ++ [b.tail] else T ++ B ++ toks tmp) = T ++ B')
    (hne : B' ≠ []) :
    ∃ (T' : List Str) (P : List Char) (tmp' : Str) (prev' : Char),
      (∀ rest, parseLoop prev ('^' :: x.render ++ rest) ⟨T ++ B, O, tmp, false⟩ = parseLoop prev' rest ⟨T ++ T', P ++ O, tmp', false⟩) ∧
      (T' ++ toks tmp' ++ P.map fun c => [c]) = B' ++ [x.digits] ++ [[x.op neg]] ∧
      (∀ c ∈ P, c ≠ '(' ∧ 3 ≤ getWeight c) ∧ T' ++ toks tmp' ≠ [] ∧ prev' ≠ '(' := by
  cases x with
  | plain ds =>
    obtain ⟨prev', g1, g2⟩ := parseLoop_alnum ds '^' ⟨T ++ B', (if neg then '!' else '^') :: O, [], false⟩ hx.1.1 (isNum_alnum hx.1).2
    refine ⟨B', [if neg then '!' else '^'], ds, prev', fun rest => ?_, ?_, ?_, by simp [hne], (alnum_ne g1).2.2.2.2.2.1⟩
    · have : '^' :: (Exponent.plain ds).render ++ rest = '^' :: (ds ++ rest) := rfl
      rw [this, parseLoop_cons (s' := ⟨T ++ B', (if neg then '!' else '^') :: O, [], false⟩)]
      · rw [g2 rest]; rfl
      · rw [step_pow hprev hb hO, if_neg, hneg]
        · cases neg
          · simp only [Bool.false_eq_true, if_false] at hB ⊢
            rw [hB]
          · simp only [if_true] at hB ⊢
            rw [hB]
        · obtain ⟨c, c1, c2, c3⟩ := num_head hx.1.1 (isNum_alnum hx.1).2 rest
          intro h
          have : (ds ++ rest).getD 0 '\x00' = '(' := h.1
          rw [c1] at this
          exact (alnum_ne c3).2.2.2.2.2.1 this
    · cases neg <;> simp [toks, hx.1.1, Exponent.digits, Exponent.op]
    · intro c hc
      simp only [List.mem_singleton] at hc
      subst hc
      cases neg <;> decide
  | paren ds =>
    obtain ⟨prev', g1, g2⟩ := parseLoop_alnum ds '(' ⟨T ++ B', '(' :: (if neg then '!' else '^') :: O, [], false⟩ hx.1.1 (isNum_alnum hx.1).2
    refine ⟨B' ++ [ds], [if neg then '!' else '^'], [], ')', fun rest => ?_, ?_, ?_, by simp [hne], by decide⟩
    · have : '^' :: (Exponent.paren ds).render ++ rest = '^' :: '(' :: (ds ++ (')' :: rest)) := by simp [Exponent.render]
      rw [this, parseLoop_cons (s' := ⟨T ++ B', (if neg then '!' else '^') :: O, [], false⟩)]
      · rw [parseLoop_cons (step_open _)]
        simp only
        rw [g2, parseLoop_cons (step_close _ _ _ _)]
        have := popParen_append [] ((T ++ B') ++ toks ([] ++ ds)) ((if neg then '!' else '^') :: O) (by simp)
        simp only [List.nil_append, List.map_nil, List.append_nil] at this
        simp only [List.nil_append]
        rw [this]
        simp [toks, hx.1.1]
      · rw [step_pow hprev hb hO, if_neg, hneg]
        · cases neg
          · simp only [Bool.false_eq_true, if_false] at hB ⊢
            rw [hB]
          · simp only [if_true] at hB ⊢
            rw [hB]
        · obtain ⟨c, c1, c2, c3⟩ := num_head hx.1.1 (isNum_alnum hx.1).2 (')' :: rest)
          intro h
          have : (ds ++ ')' :: rest).getD 0 '\x00' = '-' := h.2
          rw [c1] at this
          exact (alnum_ne c3).2.1 this
    · cases neg <;> simp [toks, Exponent.digits, Exponent.op]
    · intro c hc
      simp only [List.mem_singleton] at hc
      subst hc
      cases neg <;> decide
  | neg ds =>
    obtain ⟨prev', g1, g2⟩ := parseLoop_alnum ds '-' ⟨T ++ B', '(' :: (if neg then ';' else '~') :: O, [], false⟩ hx.1.1 (isNum_alnum hx.1).2
    refine ⟨B' ++ [ds], [if neg then ';' else '~'], [], ')', fun rest => ?_, ?_, ?_, by simp [hne], by decide⟩
    · have : '^' :: (Exponent.neg ds).render ++ rest = '^' :: '(' :: '-' :: (ds ++ (')' :: rest)) := by simp [Exponent.render]
      rw [this, parseLoop_cons (s' := ⟨T ++ B', (if neg then ';' else '~') :: O, [], true⟩)]
      · rw [parseLoop_cons (step_open _)]
        simp only
        obtain ⟨c, c1, c2, c3⟩ := num_head hx.1.1 (isNum_alnum hx.1).2 (')' :: rest)
        rw [parseLoop_cons (step_neg_exp (by rw [c1]; exact (alnum_ne c3).2.2.2.2.2.1)), g2, parseLoop_cons (step_close _ _ _ _)]
        have := popParen_append [] ((T ++ B') ++ toks ([] ++ ds)) ((if neg then ';' else '~') :: O) (by simp)
        simp only [List.nil_append, List.map_nil, List.append_nil] at this
        simp only [List.nil_append]
        rw [this]
        simp [toks, hx.1.1]
      · rw [step_pow hprev hb hO, if_pos ⟨rfl, rfl⟩, hneg]
        cases neg
        · simp only [Bool.false_eq_true, if_false] at hB ⊢
          rw [hB]
        · simp only [if_true] at hB ⊢
          rw [hB]
    · cases neg <;> simp [toks, Exponent.digits, Exponent.op]
    · intro c hc
      simp only [List.mem_singleton] at hc
      subst hc
      cases neg <;> decide

lemma rdsA_pow_name {a : Expr} {name : Str} {x : Exponent}
    (hr : a.render = name) (hne : name ≠ []) (hal : ∀ c ∈ name, isAlnum c = true)
    (hcode : ∀ sg, a.code sg = [sg ++ name])
    (hx : x.WF P N) :
    RdsA (.pow a x) := by
  intro prev T O sg hsg hO _
  obtain ⟨prev', h1, h2⟩ := parseLoop_alnum name prev ⟨T, O, sg, false⟩ hne hal
  have hne' : sg ++ name ≠ [] := by simp [hne]
  have htoks : toks (sg ++ name) = [sg ++ name] := by rw [toks, if_neg hne']
  have hnepar := (alnum_ne h1).2.2.2.2.2.1
  have hneclose := (alnum_ne h1).2.2.2.2.2.2.1
  have hname0 : name.head? ≠ some '-' := by
    obtain ⟨c, t, rfl⟩ := List.exists_cons_of_ne_nil hne
    have := (alnum_ne (hal c (by simp))).2.1
    simpa using this
  have key : ∀ (neg : Bool) (B' : List Str), signedBase (sg ++ name) prev' = neg →
      (if neg then [(sg ++ name).tail] else [sg ++ name]) = B' → B' = a.code (if sg = ['-'] then [] else sg) → neg = decide (sg = ['-']) →
      Rds (Expr.pow a x).render (Expr.pow a x).level ((Expr.pow a x).code sg) prev T O sg := by
    intro neg B' hneg hB hB' hsv
    obtain ⟨T', P, tmp', prev'', g1, g2, g3, g4, g5⟩ := rdsA_pow_aux (prev := prev') (T := T) (B := []) (B' := B') (O := O)
      (tmp := sg ++ name) (b := sg ++ name) (neg := neg) (x := x) hx hnepar
      (by simp [htoks]) hO hneg (by rw [htoks, ← hB]; cases neg <;> simp) (by rw [hB']; exact code_ne_nil _ _)
    refine ⟨T', P, tmp', prev'', fun rest => ?_, ?_, g3, g4, g5⟩
    · rw [← g1 rest]
      show parseLoop prev ((a.render ++ '^' :: x.render) ++ rest) _ = _
      rw [hr, List.append_assoc, h2]
      simp
    · rw [g2, hB', hsv]; rfl
  rcases hsg with rfl | rfl | rfl
  · refine key false [name] ?_ rfl (by simp [hcode]) (by simp)
    simp [signedBase, hname0]
  · refine key true [name] ?_ rfl (by simp [hcode]) (by simp)
    have : 0 < name.length := List.length_pos_of_ne_nil hne
    simp [signedBase, hneclose, this]
  · refine key false [['+'] ++ name] ?_ rfl (by simp [hcode]) (by simp)
    simp [signedBase]

lemma rdsA_pow_paren {a : Expr} {x : Exponent}
    (h : RdsB a)
    (hx : x.WF P N) :
    RdsA (.pow (.paren a) x) := by
  intro prev T O sg hsg hO hh
  have : sg = [] := by
    by_contra hne
    exact hh hne (by simp [Expr.render])
  subst this
  have hne := code_ne_nil a []
  have hlast : (T ++ a.code [] ++ toks []).getLast? = some ((a.code []).getLast hne) := by
    simp [toks, List.getLast?_append, List.getLast?_eq_getLast_of_ne_nil hne]
  obtain ⟨T', P, tmp', prev'', g1, g2, g3, g4, g5⟩ := rdsA_pow_aux (prev := ')') (T := T) (B := a.code []) (B' := a.code []) (O := O)
      (tmp := []) (b := (a.code []).getLast hne) (neg := false) (x := x) hx (by decide)
      hlast hO (by simp [signedBase]) (by simp [toks]) hne
  refine ⟨T', P, tmp', prev'', fun rest => ?_, ?_, g3, g4, g5⟩
  · rw [← g1 rest]
    show parseLoop prev (((Expr.paren a).render ++ '^' :: x.render) ++ rest) _ = _
    rw [List.append_assoc, rds_paren h]
  · rw [g2]; simp [Expr.code]

/-- a leading sign -/
lemma rdsB_sign (hvars : ∀ v ∈ vars, IsName v) {a e : Expr} {c : Char} (hc : c = '+' ∨ c = '-') (he : e.render = c :: a.render)
    (hsp : e.signParen ↔ a.render.head? = some '(')
    (ha : a.WF vars P N) (hl : 2 ≤ a.level) (h : RdsA a)
    (hcode : e.code [] = if a.render.head? = some '(' then [['0']] ++ a.code [] ++ [[c]] else a.code [c]) : RdsB e := by
  intro prev T O hst
  obtain ⟨d, -, -, d3, d4⟩ := render_head hvars a ha hl []
  have hd : ∀ rest, (a.render ++ rest).getD 0 '\x00' = d := by
    intro rest
    obtain ⟨d', e1, e2, e3, e4⟩ := render_head hvars a ha hl rest
    rw [d3] at e3
    rw [e1]; simpa using e3.symm
  by_cases hd' : d = '('
  · subst hd'
    rw [if_pos d3] at hcode
    rcases hst with ⟨rfl, hO⟩ | ⟨-, -, hn⟩
    · have hO' : O ≠ [] := by rintro rfl; simp at hO
      obtain ⟨T', Q, tmp', prev', g1, g2, g3, g4, g5⟩ := h c (T ++ [['0']]) (c :: O) [] (Or.inl rfl)
        (by
          intro x hx
          have : c = x := by simpa using hx
          subst this
          have : getWeight c = 1 := by rcases hc with rfl | rfl <;> decide
          omega) (fun hn => absurd rfl hn)
      refine ⟨[['0']] ++ T', Q ++ [c], tmp', prev', fun rest => ?_, ?_, ?_, by simp, g5⟩
      · rw [he, List.cons_append, parseLoop_cons (step_sign_paren hc hO' (hd rest)), g1]
        simp
      · rw [hcode, ← g2]
        simp [List.append_assoc]
      · intro x hx
        rw [List.mem_append, List.mem_singleton] at hx
        rcases hx with hx | rfl
        · exact ⟨(g3 x hx).1, by have := (g3 x hx).2; omega⟩
        · rcases hc with rfl | rfl <;> decide
    · exact absurd (hsp.mpr d3) hn
  · rw [if_neg (by rw [d3]; simpa using hd')] at hcode
    have hO : (O ≠ [] ∧ prev = '(') ∨ (O = [] ∧ T = []) := by
      rcases hst with ⟨h1, h2⟩ | ⟨h1, h2, -⟩
      · exact Or.inl ⟨by rintro rfl; simp at h2, h1⟩
      · exact Or.inr ⟨h2, h1⟩
    have hOw : ∀ x ∈ O.head?, getWeight x < a.level := by
      intro x hx
      rcases hst with ⟨h1, h2⟩ | ⟨h1, h2, -⟩
      · rw [h2] at hx
        have : '(' = x := by simpa using hx
        subst this
        have : getWeight '(' = 0 := by decide
        omega
      · subst h2; simp at hx
    obtain ⟨T', Q, tmp', prev', g1, g2, g3, g4, g5⟩ := h c T O [c] (by rcases hc with rfl | rfl <;> simp [SgOK]) hOw
        (fun _ => by rw [d3]; simpa using hd')
    refine ⟨T', Q, tmp', prev', fun rest => ?_, by rw [hcode]; exact g2, fun x hx => ⟨(g3 x hx).1, by have := (g3 x hx).2; omega⟩, g4, g5⟩
    rw [he, List.cons_append, parseLoop_cons (step_sign hc hO (by rw [hd rest]; exact hd')), g1]

/-- the tokens of the text of a well-formed expression -/
lemma rds_main (hvars : ∀ v ∈ vars, IsName v) :
    ∀ e : Expr, e.WF vars P N → e.Norm → (2 ≤ e.level → RdsA e) ∧ RdsB e ∧ ∀ a, e = .paren a → RdsB a := by
  intro e
  have AB : ∀ (e : Expr), 2 ≤ e.level → RdsA e → RdsB e := by
    intro e hl hA prev T O hst
    have hOw : ∀ x ∈ O.head?, getWeight x < e.level := by
      intro x hx
      rcases hst with ⟨h1, h2⟩ | ⟨h1, h2, -⟩
      · rw [h2] at hx
        have : '(' = x := by simpa using hx
        subst this
        have : getWeight '(' = 0 := by decide
        omega
      · subst h2; simp at hx
    obtain ⟨T', Q, tmp', prev', g1, g2, g3, g4, g5⟩ := hA prev T O [] (Or.inl rfl) hOw (fun h => absurd rfl h)
    exact ⟨T', Q, tmp', prev', g1, g2, fun x hx => ⟨(g3 x hx).1, by have := (g3 x hx).2; omega⟩, g4, g5⟩
  have Ow : ∀ {e e' : Expr} {T : List Str} {O : List Char} {prev : Char} {n : ℕ}, 0 < n →
      ((prev = '(' ∧ O.head? = some '(') ∨ (T = [] ∧ O = [] ∧ ¬ e.signParen)) → ∀ d ∈ O.head?, getWeight d < n := by
    intro e e' T O prev n hn hst x hx
    rcases hst with ⟨h1, h2⟩ | ⟨h1, h2, -⟩
    · rw [h2] at hx
      have : '(' = x := by simpa using hx
      subst this
      have : getWeight '(' = 0 := by decide
      omega
    · subst h2; simp at hx
  induction e with
  | num ds =>
    intro h _
    have hA : RdsA (.num ds) := rdsA_name rfl h.1 (isNum_alnum h).2 (fun sg => rfl)
    exact ⟨fun _ => hA, AB _ (by simp [Expr.level]) hA, by simp⟩
  | var name =>
    intro h _
    have hA : RdsA (.var name) := rdsA_name rfl (isName_alnum (hvars name h)).1 (isName_alnum (hvars name h)).2 (fun sg => rfl)
    exact ⟨fun _ => hA, AB _ (by simp [Expr.level]) hA, by simp⟩
  | paren e ih =>
    intro h hn
    have hA : RdsA (.paren e) := rdsA_paren (ih h hn).2.1
    exact ⟨fun _ => hA, AB _ (by simp [Expr.level]) hA, by rintro a ⟨⟩; exact (ih h hn).2.1⟩
  | pow a x ih =>
    intro h hn
    have hA : RdsA (.pow a x) := by
      obtain ⟨h1, h2, hx⟩ := h
      cases a with
      | num ds => exact rdsA_pow_name rfl h1.1 (isNum_alnum h1).2 (fun sg => rfl) hx
      | var name => exact rdsA_pow_name rfl (isName_alnum (hvars name h1)).1 (isName_alnum (hvars name h1)).2 (fun sg => rfl) hx
      | paren a => exact rdsA_pow_paren ((ih h1 hn).2.2 a rfl) hx
      | _ => simp [Expr.level] at h2
    exact ⟨fun _ => hA, AB _ (by simp [Expr.level]) hA, by simp⟩
  | mul a b iha ihb =>
    intro h hn
    have hA : RdsA (.mul a b) := by
      intro prev T O sg hsg hO hh
      obtain ⟨h1, h2, h3', h4⟩ := h
      obtain ⟨c, -, -, c3, -⟩ := render_head hvars a h1 h2 []
      have ha := (iha h1 hn.1).1 h2 prev T O sg hsg (fun d hd => lt_of_lt_of_le (hO d hd) h2)
        (fun hs => by have := hh hs; simpa [Expr.render, c3] using this)
      exact rds_binary (c := '*') ha (by decide) (by decide) (by decide) h2 hO (lb := b.level) (le_trans (show getWeight '*' ≤ 2 by decide) (by omega))
        (fun T' => (ihb h3' hn.2).1 (by omega) '*' T' ('*' :: O) [] (Or.inl rfl) (by
            intro d hd
            have : '*' = d := by simpa using hd
            subst this
            have : getWeight '*' = 2 := by decide
            omega) (fun h => absurd rfl h))
    exact ⟨fun _ => hA, AB _ (by simp [Expr.level]) hA, by simp⟩
  | div a b iha ihb =>
    intro h hn
    have hA : RdsA (.div a b) := by
      intro prev T O sg hsg hO hh
      obtain ⟨h1, h2, h3', h4⟩ := h
      obtain ⟨c, -, -, c3, -⟩ := render_head hvars a h1 h2 []
      have ha := (iha h1 hn.1).1 h2 prev T O sg hsg (fun d hd => lt_of_lt_of_le (hO d hd) h2)
        (fun hs => by have := hh hs; simpa [Expr.render, c3] using this)
      exact rds_binary (c := '/') ha (by decide) (by decide) (by decide) h2 hO (lb := b.level) (le_trans (show getWeight '/' ≤ 2 by decide) (by omega))
        (fun T' => (ihb h3' hn.2).1 (by omega) '/' T' ('/' :: O) [] (Or.inl rfl) (by
            intro d hd
            have : '/' = d := by simpa using hd
            subst this
            have : getWeight '/' = 2 := by decide
            omega) (fun h => absurd rfl h))
    exact ⟨fun _ => hA, AB _ (by simp [Expr.level]) hA, by simp⟩
  | add a b iha ihb =>
    intro h hn
    refine ⟨fun hl => by simp [Expr.level] at hl, fun prev T O hst => ?_, by simp⟩
    obtain ⟨h1, h2, h3'⟩ := h
    exact rds_binary (c := '+') ((iha h1 hn.1).2.1 prev T O hst) (by decide) (by decide) (by decide) (by decide)
      (Ow (e := .add a b) (e' := a) (by decide) hst) (lb := b.level) (le_trans (show getWeight '+' ≤ 1 by decide) (by omega))
        (fun T' => (ihb h2 hn.2).1 (by omega) '+' T' ('+' :: O) [] (Or.inl rfl) (by
            intro d hd
            have : '+' = d := by simpa using hd
            subst this
            have : getWeight '+' = 1 := by decide
            omega) (fun h => absurd rfl h))
  | sub k a b iha ihb =>
    intro h hn
    refine ⟨fun hl => by simp [Expr.level] at hl, fun prev T O hst => ?_, by simp⟩
    obtain ⟨h1, h2, h3'⟩ := h
    obtain ⟨rfl, hn1, hn2⟩ := hn
    have hr : (Expr.sub .m a b).render = a.render ++ '-' :: b.render := by simp [Expr.render, Minus.render]
    rw [hr]
    exact rds_binary (c := '-') ((iha h1 hn1).2.1 prev T O hst) (by decide) (by decide) (by decide) (by decide)
      (Ow (e := .sub .m a b) (e' := a) (by decide) hst) (lb := b.level) (le_trans (show getWeight '-' ≤ 1 by decide) (by omega))
        (fun T' => (ihb h2 hn2).1 (by omega) '-' T' ('-' :: O) [] (Or.inl rfl) (by
            intro d hd
            have : '-' = d := by simpa using hd
            subst this
            have : getWeight '-' = 1 := by decide
            omega) (fun h => absurd rfl h))
  | neg k a iha =>
    intro h hn
    refine ⟨fun hl => by simp [Expr.level] at hl, ?_, by simp⟩
    obtain ⟨rfl, hn⟩ := hn
    exact rdsB_sign hvars (a := a) (c := '-') (Or.inr rfl) rfl Iff.rfl h.1 h.2 ((iha h.1 hn).1 h.2) rfl
  | pos a iha =>
    intro h hn
    refine ⟨fun hl => by simp [Expr.level] at hl, ?_, by simp⟩
    exact rdsB_sign hvars (a := a) (c := '+') (Or.inl rfl) rfl Iff.rfl h.1 h.2 ((iha h.1 hn).1 h.2) rfl

/-- `parse` gives the tokens of the expression -/
lemma parse_code (hvars : ∀ v ∈ vars, IsName v) {e : Expr} (h : e.WF vars P N) (hn : e.Norm) : parse e.render = some (e.fixSign.code []) := by
  obtain ⟨T', Q, tmp', prev', g1, g2, g3, g4, g5⟩ := (rds_main hvars e.fixSign (fixSign_wf e h) (fixSign_norm e hn)).2.1
    '\x00' [] [] (Or.inr ⟨rfl, rfl, fixSign_signParen e h⟩)
  unfold parse
  rw [globalSign_render hvars h hn]
  have := g1 []
  rw [List.append_nil] at this
  rw [show ({} : PState) = ⟨[], [], [], false⟩ from rfl, this]
  show some (PState.finish _) = _
  unfold PState.finish
  rw [flush_eq, ← g2]
  simp

end FireFly
