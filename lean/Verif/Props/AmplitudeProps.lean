import Verif.Lemmas.AmpFinal
/-!
# C57: the insertion of rules into an expression (`AmplitudeParser`)
-/
set_option linter.all false
namespace FireFly

variable {fams vars : List Str} {P N : ℕ}

/-- **C57 (terms).** A sum of functions with coefficients, with white space anywhere and with or without braces around it, is read as the list of its functions with their coefficients: the text of the
coefficient behind the function, `1` without one, and `-(...)` around it for a term with a minus sign. -/
theorem C57_terms (hvars : ∀ v ∈ vars, IsName v) (hf : FamsOK fams) {ts : List ATerm} (h : SumOK fams vars P N ts) (hne : ts ≠ []) {text : Str} (ht : Spelled (sumText ts) text) :
    ∃ es : List (Str × Expr), ampParseTop fams text = .ok (es.map fun q => (q.1, q.2.render)) ∧ es.map (·.1) = ts.map ATerm.name ∧
      ∀ (K : Type) [Field K] (env : Str → K), es.map (fun q => q.2.denote env) = ts.map (·.value env) := by
  have h0 : sumText ts ≠ [] := by
    obtain ⟨t, ts, rfl⟩ := List.exists_cons_of_ne_nil hne
    simp [sumText, ATerm.text, ATerm.name, fnName]
  have hc := sum_chars hvars hf h.1
  refine ⟨ts.map fun t => (t.name, t.expr), ?_, by simp [Function.comp_def], ?_⟩
  · unfold ampParseTop
    rw [strip_spelled ht h0 ⟨fun h => hc '{' h (by simp), fun h => hc '}' h (by simp)⟩]
    simp only [bind, Except.bind]
    rw [ampParse_sum hvars hf h hne, List.map_map]
    congr 1
    apply List.map_congr_left
    intro t _
    exact entry_expr t
  · intro K _ env
    rw [List.map_map]
    apply List.map_congr_left
    intro t _
    exact expr_value env t

/-- **C57 (files).** Of a file with an expression, the text up to the first semicolon counts. -/
theorem C57_file (s : AmpSt) {text rest : Str} (hne : text ≠ []) (ht : ';' ∉ text) : s.parseFile text = s.parseAmplitude text ∧ s.parseFile (text ++ ';' :: rest) = s.parseAmplitude text := by
  have h1 : ∀ rest, (text ++ ';' :: rest).takeWhile (· ≠ ';') = text := by
    intro rest
    rw [List.takeWhile_append_of_pos (by intro c hc; simp; rintro rfl; exact ht hc)]
    simp
  have h2 : text.takeWhile (· ≠ ';') = text := by
    rw [List.takeWhile_eq_self_iff]
    intro c hc; simp; rintro rfl; exact ht hc
  unfold AmpSt.parseFile
  rw [if_neg hne, if_neg (by simp), h1, h2]
  exact ⟨rfl, rfl⟩

/-- **C57 (coefficients).** An expression `ts` and tables of rules, at most one rule for every function of the expression, in any number of tables and in any spelling, are read without an error, and
whatever the order of the hash map: the reported number of masters is the number of the functions that are left after the replacement, every one of them is the master of exactly one number, and its coefficient is a
well-formed expression with the value of the coefficient of this function after the replacement, for all values of the variables in all fields. -/
theorem C57_coefficients (hvars : ∀ v ∈ vars, IsName v) (hf : FamsOK fams) {ts : List ATerm} (h : SumOK fams vars P N ts) (hne : ts ≠ []) {text : Str} (ht : Spelled (sumText ts) text)
    {tables : List (List ARule)} {texts : List Str} (htab : List.Forall₂ (fun rs text => Spelled (tableText rs) text) tables texts)
    (hok : ∀ rs ∈ tables, rs ≠ [] ∧ ∀ r ∈ rs, r.OK fams vars P N)
    (hdup : ((tables.flatten.map ARule.name).filter fun x => x ∈ ts.map ATerm.name).Nodup) :
    ∃ s1 s2, AmpSt.parseAmplitude { fams := fams } text = .ok s1 ∧ texts.foldlM AmpSt.parseTable s1 = .ok s2 ∧
      ∀ order, order.Perm s2.integrals → ∃ names : List Str, names.length = (s2.check order).2 ∧ names.Nodup ∧ (∀ n, n ∈ names ↔ IsMaster tables.flatten ts n) ∧
        ∀ m n, names[m]? = some n → (s2.check order).1.getMaster m = .ok n ∧
          ∃ e : Expr, (s2.check order).1.getCoef m = .ok e.render ∧ e.WF vars P N ∧ ∀ (K : Type) [Field K] (env : Str → K), e.denote env = masterCoef tables.flatten env ts n := by
  obtain ⟨s1, s2, h1, h2, h3⟩ := ampRun hvars hf h hne ht htab hok hdup
  refine ⟨s1, s2, h1, h2, fun order ho => ?_⟩
  obtain ⟨xs, names, hd, hl⟩ := h3 order ho
  refine ⟨names, hl.symm, hd.inv.nnodup, hd.names, fun m n hm => ⟨hd.getMaster hm, coefExpr tables.flatten ts n xs, hd.getCoef hm, ?_, ?_⟩⟩
  · apply coefExpr_wf
    · intro t ht'; exact expr_wf (h.1 t ht')
    · intro r hr t ht'
      obtain ⟨rs, hrs, hr⟩ := List.mem_flatten.mp hr
      exact expr_wf (((hok rs hrs).2 r hr).2.1 t ht')
  · intro K _ env
    exact coefExpr_value tables.flatten env ts n hd.inv.xnodup fun t ht' => (hd.mem _).mpr ⟨t, ht', rfl⟩

/-- **C57 (value).** The sum of the masters with their coefficients is the expression after the replacement: for all values of the variables and of the functions. -/
theorem C57_sum (hvars : ∀ v ∈ vars, IsName v) (hf : FamsOK fams) {ts : List ATerm} (h : SumOK fams vars P N ts) (hne : ts ≠ []) {text : Str} (ht : Spelled (sumText ts) text)
    {tables : List (List ARule)} {texts : List Str} (htab : List.Forall₂ (fun rs text => Spelled (tableText rs) text) tables texts)
    (hok : ∀ rs ∈ tables, rs ≠ [] ∧ ∀ r ∈ rs, r.OK fams vars P N)
    (hdup : ((tables.flatten.map ARule.name).filter fun x => x ∈ ts.map ATerm.name).Nodup) :
    ∃ s1 s2, AmpSt.parseAmplitude { fams := fams } text = .ok s1 ∧ texts.foldlM AmpSt.parseTable s1 = .ok s2 ∧
      ∀ order, order.Perm s2.integrals → ∃ out : List (Str × Expr), out.length = (s2.check order).2 ∧
        (∀ m (hm : m < out.length), (s2.check order).1.getMaster m = .ok (out[m].1) ∧ (s2.check order).1.getCoef m = .ok out[m].2.render) ∧
        ∀ (K : Type) [Field K] (env φ : Str → K), (out.map fun q => q.2.denote env * φ q.1).sum = replacedValue tables.flatten env φ ts := by
  obtain ⟨s1, s2, h1, h2, h3⟩ := ampRun hvars hf h hne ht htab hok hdup
  refine ⟨s1, s2, h1, h2, fun order ho => ?_⟩
  obtain ⟨xs, names, hd, hl⟩ := h3 order ho
  refine ⟨names.map fun n => (n, coefExpr tables.flatten ts n xs), by rw [hl]; simp, ?_, ?_⟩
  · intro m hm
    have hm' : names[m]? = some (names[m]'(by simpa using hm)) := List.getElem?_eq_getElem _
    simp only [List.getElem_map]
    exact ⟨hd.getMaster hm', hd.getCoef hm'⟩
  · intro K _ env φ
    rw [← sum_masters tables.flatten env φ ts hd.inv.nnodup (fun n hn => (hd.names n).mpr hn), List.map_map]
    congr 1
    apply List.map_congr_left
    intro n _
    simp only [Function.comp]
    rw [coefExpr_value tables.flatten env ts n hd.inv.xnodup fun t ht' => (hd.mem _).mpr ⟨t, ht', rfl⟩]

section
variable [LongDouble]

/-- **C57 (black boxes).** The black box of a master (the text that is given to the parser, with validation, precomputed for the first prime and for all later ones) returns the coefficient of this function after the
replacement in the current prime field, for all values of the variables and all sequences of primes. -/
theorem C57_black_box {p : ℕ} {qs : List ℕ} [Fact (lastPrime p qs).Prime] (hvars : ∀ v ∈ vars, IsName v) (hf : FamsOK fams)
    (hp : p.Prime) (hlt : p < 2 ^ 63) (h3 : 3 < p) (hqs : ∀ q ∈ qs, q.Prime ∧ q < 2 ^ 63 ∧ 3 < q)
    {values : List ℕ} (hlen : vars.length ≤ values.length) (hval : ∀ x ∈ values, x < lastPrime p qs)
    {ts : List ATerm} (h : ∀ q ∈ p :: qs, SumOK fams vars (q - 1) (min q (2 ^ 31)) ts) (hne : ts ≠ []) {text : Str} (ht : Spelled (sumText ts) text)
    {tables : List (List ARule)} {texts : List Str} (htab : List.Forall₂ (fun rs text => Spelled (tableText rs) text) tables texts)
    (hnt : ∀ rs ∈ tables, rs ≠ []) (hok : ∀ q ∈ p :: qs, ∀ rs ∈ tables, ∀ r ∈ rs, r.OK fams vars (q - 1) (min q (2 ^ 31)))
    (hdup : ((tables.flatten.map ARule.name).filter fun x => x ∈ ts.map ATerm.name).Nodup)
    (hnq : (∀ t ∈ ts, t.NoQuot) ∧ ∀ rs ∈ tables, ∀ r ∈ rs, ∀ t ∈ r.rhs, t.NoQuot) :
    ∃ s1 s2, AmpSt.parseAmplitude { fams := fams } text = .ok s1 ∧ texts.foldlM AmpSt.parseTable s1 = .ok s2 ∧
      ∀ order, order.Perm s2.integrals → ∀ m < (s2.check order).2, ∃ n fun_ f T s c, (s2.check order).1.getMaster m = .ok n ∧ (s2.check order).1.getCoef m = .ok fun_ ∧
        validate fun_ = some f ∧ parse f = some T ∧ preHistory p vars T qs = some s ∧ evaluatePre (lastPrime p qs) values s.1 = some c ∧ c < lastPrime p qs ∧
        (c : ZMod (lastPrime p qs)) = masterCoef tables.flatten (fun name => ((values.getD (vars.idxOf name) 0 : ℕ) : ZMod (lastPrime p qs))) ts n := by
  obtain ⟨s1, s2, h1, h2, h3'⟩ := ampRun hvars hf (h p (by simp)) hne ht htab (fun rs hrs => ⟨hnt rs hrs, hok p (by simp) rs hrs⟩) hdup
  refine ⟨s1, s2, h1, h2, fun order ho m hm => ?_⟩
  obtain ⟨xs, names, hd, hl⟩ := h3' order ho
  rw [hl] at hm
  have hm' : names[m]? = some names[m] := List.getElem?_eq_getElem _
  have hwf : ∀ q ∈ p :: qs, (coefExpr tables.flatten ts names[m] xs).WF vars (q - 1) (min q (2 ^ 31)) := by
    intro q hq
    apply coefExpr_wf
    · intro t ht'; exact expr_wf ((h q hq).1 t ht')
    · intro r hr t ht'
      obtain ⟨rs, hrs, hr⟩ := List.mem_flatten.mp hr
      exact expr_wf ((hok q hq rs hrs r hr).2.1 t ht')
  have hno : (coefExpr tables.flatten ts names[m] xs).NoQuot := by
    apply coefExpr_noQuot
    · intro t ht'; exact expr_noQuot (hnq.1 t ht')
    · intro r hr t ht'
      obtain ⟨rs, hrs, hr⟩ := List.mem_flatten.mp hr
      exact expr_noQuot (hnq.2 rs hrs r hr t ht')
  obtain ⟨f, T, s, c, g1, g2, g3, g4, g5, g6⟩ := C25_expression hvars hp hlt h3 hqs hlen hval hwf hno
  refine ⟨names[m], _, f, T, s, c, hd.getMaster hm', hd.getCoef hm', g1, g2, g3, g4, g5, ?_⟩
  rw [g6]
  exact coefExpr_value tables.flatten _ ts _ hd.inv.xnodup fun t ht' => (hd.mem _).mpr ⟨t, ht', rfl⟩

end

/-- **C57 (two rules).** If a function of the expression has two rules, in one table or in two, the program is terminated. -/
theorem C57_duplicate (hvars : ∀ v ∈ vars, IsName v) (hf : FamsOK fams) {ts : List ATerm} (h : SumOK fams vars P N ts) (hne : ts ≠ []) {text : Str} (ht : Spelled (sumText ts) text)
    {tables : List (List ARule)} {texts : List Str} (htab : List.Forall₂ (fun rs text => Spelled (tableText rs) text) tables texts)
    (hok : ∀ rs ∈ tables, rs ≠ [] ∧ ∀ r ∈ rs, r.OK fams vars P N)
    (hdup : ¬ ((tables.flatten.map ARule.name).filter fun x => x ∈ ts.map ATerm.name).Nodup) :
    ∃ s1, AmpSt.parseAmplitude { fams := fams } text = .ok s1 ∧ texts.foldlM AmpSt.parseTable s1 = .error .exit := by
  have hinit : AmpInv { fams := fams } [] [] (fun _ => []) fun _ => [] :=
    ⟨by simp, rfl, rfl, rfl, by simp, rfl, rfl, rfl, ⟨fun _ => [], rfl, by simp⟩, by simp⟩
  obtain ⟨xs, hx, h1⟩ := hinit.terms (ts.map ATerm.entry)
  obtain ⟨r1, f1⟩ := addTerms_rest (ts.map ATerm.entry) { fams := fams }
  refine ⟨_, parseAmplitude_eq hvars hf h hne ht, ?_⟩
  rw [tables_eq hvars hf htab hok f1]
  have hint : ((ts.map ATerm.entry).foldl AmpSt.addTerm { fams := fams }).integrals.map (·.1) = xs := by
    rw [h1.integrals]; apply List.ext_getElem <;> simp
  -- two rules with the same name
  have : ∀ rules : List ARule, ¬ ((rules.map ARule.name).filter fun x => x ∈ ts.map ATerm.name).Nodup → ∃ a b c r r', rules = a ++ r :: b ++ r' :: c ∧ r'.name = r.name ∧ r.name ∈ ts.map ATerm.name := by
    intro rules
    induction rules with
    | nil => intro h; simp at h
    | cons r rules ih =>
      intro hn
      by_cases hr : r.name ∈ ts.map ATerm.name
      · rw [List.map_cons, List.filter_cons_of_pos (by simpa using hr), List.nodup_cons] at hn
        by_cases hm : r.name ∈ (rules.map ARule.name).filter fun x => x ∈ ts.map ATerm.name
        · have hm := List.mem_of_mem_filter hm
          rw [List.mem_map] at hm
          obtain ⟨r', hr', e⟩ := hm
          obtain ⟨b, c, rfl⟩ := List.append_of_mem hr'
          exact ⟨[], b, c, r, r', by simp, e, hr⟩
        · obtain ⟨a, b, c, r1, r2, rfl, e⟩ := ih (fun h => hn ⟨hm, h⟩)
          exact ⟨r :: a, b, c, r1, r2, by simp, e⟩
      · rw [List.map_cons, List.filter_cons_of_neg (by simpa using hr)] at hn
        obtain ⟨a, b, c, r1, r2, rfl, e⟩ := ih hn
        exact ⟨r :: a, b, c, r1, r2, by simp, e⟩
  obtain ⟨a, b, c, r, r', e, e2, hm⟩ := this _ hdup
  rw [e]
  refine useRules_dup e2 ?_
  rw [hint, hx, List.map_map]
  have : (fun q : Str × Str => q.1) ∘ ATerm.entry = ATerm.name := by funext t; simp [entry_expr]
  rw [this]
  exact hm

/-! ## violations -/

/-- the texts of the masters and their coefficients -/
def AmpSt.results (s : AmpSt) : Except AmpErr (List (Str × Str)) := do
  let r := s.check s.integrals
  (List.range r.2).mapM fun m => do
    let n ← r.1.getMaster m
    let c ← r.1.getCoef m
    .ok (n, c)

/-- **C57 (names of functions).** The condition that no name of a function is a part of another one is needed: with the names `F1`, `F12` the expression `F1[1]*x-F12[1]*y` is read correctly, with the same names in the
other order, the minus sign of the second term is lost. -/
theorem C57_families_violated :
    ampParseTop ["F1".toList, "F12".toList] "F1[1]*x-F12[1]*y".toList = .ok [("F1[1]".toList, "x".toList), ("F12[1]".toList, "-(y)".toList)] ∧
    ampParseTop ["F12".toList, "F1".toList] "F1[1]*x-F12[1]*y".toList = .ok [("F1[1]".toList, "x".toList), ("F12[1]".toList, "y".toList)] := by
  constructor <;> decide +kernel

/-- **C57 (other operators).** A coefficient that is not behind a `*` is lost without an error: `F[1]/2` and `2F[1]` are read as `F[1]`. -/
theorem C57_operator_violated :
    ampParseTop ["F".toList] "F[1]/2".toList = .ok [("F[1]".toList, "1".toList)] ∧ ampParseTop ["F".toList] "2F[1]".toList = .ok [("F[1]".toList, "1".toList)] := by
  constructor <;> decide +kernel

/-- **C57 (two expressions).** A second expression is not added to the first one, and it is not read for itself either: the numbers start again at 0 while the tables are kept. After `F[1]*x` and `F[2]*y`, the function
`F[1]` has the coefficient `x*y` and `F[2]` the coefficient `x`; after `F[1]*x` and `F[1]*y`, the coefficient of `F[1]` is empty. -/
theorem C57_twice_violated :
    (AmpSt.parseAmplitude { fams := ["F".toList] } "F[1]*x".toList >>= fun s => s.parseAmplitude "F[2]*y".toList >>= AmpSt.results)
      = .ok [("F[1]".toList, "+((x))*((y))".toList), ("F[2]".toList, "+((x))*((1))".toList)] ∧
    (AmpSt.parseAmplitude { fams := ["F".toList] } "F[1]*x".toList >>= fun s => s.parseAmplitude "F[1]*y".toList >>= AmpSt.results) = .ok [("F[1]".toList, [])] := by
  constructor <;> decide +kernel

/-! ## the hypotheses can be met -/

/-- two names of functions -/
def exFams : List Str := ["INT".toList, "F_1".toList]

/-- two variables -/
def exAmpVars : List Str := ["x".toList, "y".toList]

/-- `INT[1,1]*x-F_1[2]*(x+y)+INT[1,1]*2/y` -/
def exTerms : List ATerm :=
  [⟨.none, "INT".toList, "1,1".toList, some (.var "x".toList)⟩, ⟨.minus, "F_1".toList, "2".toList, some (.paren (.add (.var "x".toList) (.var "y".toList)))⟩,
   ⟨.plus, "INT".toList, "1,1".toList, some (.div (.num "2".toList) (.var "y".toList))⟩]

/-- `INT[1,1]->INT[0,0]*x^2-F_1[2],F_1[7]->0` -/
def exRules : List ARule :=
  [⟨"INT".toList, "1,1".toList, [⟨.none, "INT".toList, "0,0".toList, some (.pow (.var "x".toList) (.plain "2".toList))⟩, ⟨.minus, "F_1".toList, "2".toList, none⟩]⟩, ⟨"F_1".toList, "7".toList, []⟩]

example : ∀ v ∈ exAmpVars, IsName v := by
  intro v hv
  simp only [exAmpVars, List.mem_cons, List.not_mem_nil, or_false] at hv
  rcases hv with rfl | rfl
  · exact ⟨by decide, by decide, 'x', by decide, by decide⟩
  · exact ⟨by decide, by decide, 'y', by decide, by decide⟩

lemma exFams_ok : FamsOK exFams := ⟨by decide, by decide⟩

example : SumOK exFams exAmpVars 100 100 exTerms ∧ exTerms ≠ [] := by
  refine ⟨⟨?_, by decide⟩, by decide⟩
  intro t ht
  simp only [exTerms, List.mem_cons, List.not_mem_nil, or_false] at ht
  rcases ht with rfl | rfl | rfl
  · refine ⟨⟨by decide, by decide⟩, ?_⟩
    rintro c ⟨⟩
    exact ⟨by show _ ∈ _; decide, by decide, by decide⟩
  · refine ⟨⟨by decide, by decide⟩, ?_⟩
    rintro c ⟨⟩
    exact ⟨⟨by show _ ∈ _; decide, by show _ ∈ _; decide, by decide⟩, by decide, by decide⟩
  · refine ⟨⟨by decide, by decide⟩, ?_⟩
    rintro c ⟨⟩
    exact ⟨⟨⟨by decide, by decide, by decide⟩, by decide, by show _ ∈ _; decide, by decide⟩, by decide, by decide⟩

example : ∀ r ∈ exRules, r.OK exFams exAmpVars 100 100 := by
  intro r hr
  simp only [exRules, List.mem_cons, List.not_mem_nil, or_false] at hr
  rcases hr with rfl | rfl
  · refine ⟨⟨by decide, by decide⟩, ?_, by decide⟩
    intro t ht
    simp only [List.mem_cons, List.not_mem_nil, or_false] at ht
    rcases ht with rfl | rfl
    · refine ⟨⟨by decide, by decide⟩, ?_⟩
      rintro c ⟨⟩
      exact ⟨⟨by show _ ∈ _; decide, by decide, ⟨by decide, by decide, by decide⟩, by decide⟩, by decide, by decide⟩
    · refine ⟨⟨by decide, by decide⟩, ?_⟩
      rintro c ⟨⟩
  · exact ⟨⟨by decide, by decide⟩, by simp, by simp⟩

example : (([exRules].flatten.map ARule.name).filter fun x => x ∈ exTerms.map ATerm.name).Nodup := by decide

example : Spelled (sumText exTerms) " { INT[1, 1]*x - F_1[2]*(x + y) + INT[1,1]*2/y }\n".toList ∧ Spelled (tableText exRules) "{INT[1,1] -> INT[0,0]*x^2 - F_1[2],\n F_1[7] -> 0}".toList :=
  ⟨Or.inr (by decide), Or.inr (by decide)⟩

/-- the result for this example -/
example : (AmpSt.parseAmplitude { fams := exFams } " { INT[1, 1]*x - F_1[2]*(x + y) + INT[1,1]*2/y }\n".toList >>= fun s => s.parseTable "{INT[1,1] -> INT[0,0]*x^2 - F_1[2],\n F_1[7] -> 0}".toList >>= AmpSt.results)
    = .ok [("INT[0,0]".toList, "+((x)+(2/y))*((x^2))".toList), ("F_1[2]".toList, "+((x)+(2/y))*((-(1)))+((-((x+y))))*((1))".toList)] := by decide +kernel

/-- two rules for the same function -/
example : ¬ (([exRules, exRules].flatten.map ARule.name).filter fun x => x ∈ exTerms.map ATerm.name).Nodup := by decide

example : (∀ t ∈ exTerms, t.NoQuot) ∧ ∀ r ∈ exRules, ∀ t ∈ r.rhs, t.NoQuot := by
  constructor
  · intro t ht
    simp only [exTerms, List.mem_cons, List.not_mem_nil, or_false] at ht
    rcases ht with rfl | rfl | rfl <;> rintro c ⟨⟩ <;> simp [Expr.NoQuot, Expr.quot]
  · intro r hr t ht
    simp only [exRules, List.mem_cons, List.not_mem_nil, or_false] at hr
    rcases hr with rfl | rfl
    · simp only [List.mem_cons, List.not_mem_nil, or_false] at ht
      rcases ht with rfl | rfl
      · rintro c ⟨⟩; simp [Expr.NoQuot]
      · rintro c ⟨⟩
    · simp at ht

end FireFly
