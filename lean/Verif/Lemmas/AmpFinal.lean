import Verif.Lemmas.AmpCoef
/-! # The coefficients of the masters -/
set_option linter.all false
namespace FireFly

/-- the masters of a function with expressions -/
def masterExprs (rules : List ARule) (x : Str) : List (Str × Expr) :=
  match ruleFor rules x with
  | none => [(x, .num ['1'])]
  | some rhs => rhs.map fun r => (r.name, r.expr)

/-- the same with texts -/
def masterTexts (rules : List ARule) (x : Str) : List (Str × Str) := (masterExprs rules x).map fun r => (r.1, r.2.render)

/-- the expressions of a master -/
def exprsFor (n : Str) (rs : List (Str × Expr)) : List Expr := (rs.filter fun r => r.1 = n).map (·.2)

lemma exprsFor_render (n : Str) (rs : List (Str × Expr)) : (exprsFor n rs).map Expr.render = forMaster n (rs.map fun r => (r.1, r.2.render)) := by
  unfold exprsFor forMaster coefsOf
  rw [List.filter_map, List.map_map, List.map_map]
  rfl

lemma coefsOf_exprs (ts : List ATerm) (x : Str) : coefsOf (ts.map ATerm.entry) x = ((ts.filter fun t => t.name = x).map ATerm.expr).map Expr.render := by
  unfold coefsOf
  rw [List.filter_map, List.map_map, List.map_map]
  have : (fun q : Str × Str => decide (q.1 = x)) ∘ ATerm.entry = fun t => decide (t.name = x) := by
    funext t; simp [entry_expr]
  rw [this]
  apply List.map_congr_left
  intro t _
  simp [entry_expr]

/-- the contribution of a function to the coefficient of `n` -/
def blockExpr (rules : List ARule) (ts : List ATerm) (n x : Str) : Expr :=
  .mul (.paren (sumExpr ((ts.filter fun t => t.name = x).map ATerm.expr))) (.paren (sumExpr (exprsFor n (masterExprs rules x))))

/-- the coefficient of `n` -/
def coefExpr (rules : List ARule) (ts : List ATerm) (n : Str) (xs : List Str) : Expr :=
  blockSum ((xs.filter fun x => exprsFor n (masterExprs rules x) ≠ []).map (blockExpr rules ts n))

lemma coefText_eq (rules : List ARule) (ts : List ATerm) (n : Str) (xs : List Str) (hx : ∀ x ∈ xs, ∃ t ∈ ts, t.name = x) (hn : ∃ x ∈ xs, exprsFor n (masterExprs rules x) ≠ []) :
    (xs.map fun x => if forMaster n (masterTexts rules x) = [] then [] else ['+', '('] ++ joinP false (coefsOf (ts.map ATerm.entry) x) ++ [')', '*', '('] ++ joinP false (forMaster n (masterTexts rules x)) ++ [')']).flatten
      = (coefExpr rules ts n xs).render := by
  have hne : ∀ x, forMaster n (masterTexts rules x) = [] ↔ exprsFor n (masterExprs rules x) = [] := by
    intro x
    unfold masterTexts
    rw [← exprsFor_render]
    simp
  have key : ∀ xs : List Str, (∀ x ∈ xs, ∃ t ∈ ts, t.name = x) → (xs.map fun x => if forMaster n (masterTexts rules x) = [] then [] else ['+', '('] ++ joinP false (coefsOf (ts.map ATerm.entry) x) ++ [')', '*', '('] ++ joinP false (forMaster n (masterTexts rules x)) ++ [')']).flatten
      = (((xs.filter fun x => exprsFor n (masterExprs rules x) ≠ []).map (blockExpr rules ts n)).map fun b => '+' :: b.render).flatten := by
    intro xs
    induction xs with
    | nil => intro _; rfl
    | cons x xs ih =>
      intro hx
      rw [List.map_cons, List.flatten_cons, ih fun y hy => hx y (by simp [hy])]
      by_cases h : exprsFor n (masterExprs rules x) = []
      · rw [if_pos ((hne x).mpr h), List.filter_cons_of_neg (by simpa using h)]; rfl
      · rw [if_neg (fun e => h ((hne x).mp e)), List.filter_cons_of_pos (by simpa using h), List.map_cons, List.map_cons, List.flatten_cons]
        congr 1
        unfold blockExpr
        have h1 : (ts.filter fun t => t.name = x).map ATerm.expr ≠ [] := by
          obtain ⟨t, ht, e⟩ := hx x (by simp)
          intro h0
          rw [List.map_eq_nil_iff, List.filter_eq_nil_iff] at h0
          exact h0 t ht (by simpa using e)
        simp only [Expr.render]
        rw [sumExpr_render h1, sumExpr_render h, exprsFor_render, coefsOf_exprs]
        simp [masterTexts]
  unfold coefExpr
  rw [blockSum_render, key xs hx]
  obtain ⟨x, hx1, hx2⟩ := hn
  intro h0
  rw [List.map_eq_nil_iff, List.filter_eq_nil_iff] at h0
  exact h0 x hx1 (by simpa using hx2)

/-! ## values -/

lemma sum_ite_mem {K : Type} [Field K] (a : Str) (v : K) (g : Str → K) : ∀ {xs : List Str}, xs.Nodup → (xs.map fun x => (if a = x then v else 0) * g x).sum = if a ∈ xs then v * g a else 0
  | [], _ => by simp
  | x :: xs, h => by
    rw [List.map_cons, List.sum_cons, sum_ite_mem a v g (List.nodup_cons.mp h).2]
    by_cases e : a = x
    · subst e
      have := (List.nodup_cons.mp h).1
      simp [this]
    · simp [e]

/-- a sum grouped by the names -/
lemma sum_grouped {K : Type} [Field K] (v : ATerm → K) (g : Str → K) {xs : List Str} (hn : xs.Nodup) : ∀ {ts : List ATerm}, (∀ t ∈ ts, t.name ∈ xs) →
    (xs.map fun x => ((ts.filter fun t => t.name = x).map v).sum * g x).sum = (ts.map fun t => v t * g t.name).sum
  | [], _ => by simp
  | t :: ts, h => by
    rw [List.map_cons, List.sum_cons, ← sum_grouped v g hn fun t' ht => h t' (by simp [ht])]
    have e : ∀ x, (((t :: ts).filter fun t => t.name = x).map v).sum * g x = (if t.name = x then v t else 0) * g x + ((ts.filter fun t => t.name = x).map v).sum * g x := by
      intro x
      by_cases hx : t.name = x
      · rw [List.filter_cons_of_pos (by simpa using hx), if_pos hx, List.map_cons, List.sum_cons, add_mul]
      · rw [List.filter_cons_of_neg (by simpa using hx), if_neg hx]; ring
    rw [List.map_congr_left fun x _ => e x, List.sum_map_add, sum_ite_mem _ _ _ hn, if_pos (h t (by simp))]

/-- the coefficient of `n` in what replaces `x` -/
def inReplaced {K : Type} [Field K] (rules : List ARule) (env : Str → K) (n x : Str) : K :=
  match ruleFor rules x with | none => if x = n then 1 else 0 | some rhs => ((rhs.filter fun r => r.name = n).map (·.value env)).sum

lemma masterExprs_value {K : Type} [Field K] (rules : List ARule) (env : Str → K) (n x : Str) : ((exprsFor n (masterExprs rules x)).map (·.denote env)).sum = inReplaced rules env n x := by
  unfold masterExprs inReplaced exprsFor
  cases ruleFor rules x with
  | none =>
    by_cases h : x = n
    · simp [h, Expr.denote, decimal]
    · simp [h]
  | some rhs =>
    simp only
    rw [List.filter_map, List.map_map, List.map_map]
    congr 1
    apply List.map_congr_left
    intro r _
    simp [expr_value]

lemma coefExpr_value {K : Type} [Field K] (rules : List ARule) (env : Str → K) (ts : List ATerm) (n : Str) {xs : List Str} (hn : xs.Nodup) (hx : ∀ t ∈ ts, t.name ∈ xs) :
    (coefExpr rules ts n xs).denote env = masterCoef rules env ts n := by
  have hb : ∀ x, (blockExpr rules ts n x).denote env = ((ts.filter fun t => t.name = x).map (·.value env)).sum * inReplaced rules env n x := by
    intro x
    unfold blockExpr
    simp only [Expr.denote]
    rw [sumExpr_denote, sumExpr_denote, masterExprs_value, List.map_map]
    congr 2
    apply List.map_congr_left
    intro t _
    exact expr_value env t
  have hmc : masterCoef rules env ts n = (ts.map fun t => t.value env * inReplaced rules env n t.name).sum := rfl
  rw [hmc, ← sum_grouped (fun t => t.value env) (inReplaced rules env n) hn hx]
  unfold coefExpr
  rw [blockSum_denote, List.map_map]
  have : ∀ xs : List Str, ((xs.filter fun x => exprsFor n (masterExprs rules x) ≠ []).map ((fun e => e.denote env) ∘ blockExpr rules ts n)).sum = (xs.map fun x => ((ts.filter fun t => t.name = x).map (·.value env)).sum * inReplaced rules env n x).sum := by
    intro xs
    induction xs with
    | nil => rfl
    | cons x xs ih =>
      rw [List.map_cons, List.sum_cons, ← ih]
      by_cases h : exprsFor n (masterExprs rules x) = []
      · rw [List.filter_cons_of_neg (by simpa using h), ← masterExprs_value, h]; simp
      · rw [List.filter_cons_of_pos (by simpa using h), List.map_cons, List.sum_cons, Function.comp, hb]
  exact this xs

/-- the sum over the masters -/
lemma sum_masters {K : Type} [Field K] (rules : List ARule) (env φ : Str → K) (ts : List ATerm) {names : List Str} (hn : names.Nodup) (hm : ∀ n, IsMaster rules ts n → n ∈ names) :
    (names.map fun n => masterCoef rules env ts n * φ n).sum = replacedValue rules env φ ts := by
  have h1 : ∀ n, masterCoef rules env ts n * φ n = (ts.map fun t => t.value env * (inReplaced rules env n t.name * φ n)).sum := by
    intro n
    have hmc : masterCoef rules env ts n = (ts.map fun t => t.value env * inReplaced rules env n t.name).sum := rfl
    rw [hmc, ← List.sum_map_mul_right]
    congr 1
    apply List.map_congr_left
    intro t _
    ring
  rw [List.map_congr_left fun n _ => h1 n]
  have h2 : ∀ (l : List ATerm), (names.map fun n => (l.map fun t => t.value env * (inReplaced rules env n t.name * φ n)).sum).sum = (l.map fun t => t.value env * (names.map fun n => inReplaced rules env n t.name * φ n).sum).sum := by
    intro l
    induction l with
    | nil => simp
    | cons t l ih =>
      simp only [List.map_cons, List.sum_cons]
      rw [List.sum_map_add, ih, List.sum_map_mul_left]
  rw [h2]
  unfold replacedValue
  congr 1
  apply List.map_congr_left
  intro t ht
  congr 1
  unfold inReplaced
  cases hr : ruleFor rules t.name with
  | none =>
    simp only
    rw [sum_ite_mem _ _ _ hn, if_pos, one_mul]
    exact hm _ ⟨t, ht, by rw [hr]⟩
  | some rhs =>
    simp only
    rw [sum_grouped (fun t => t.value env) φ hn]
    · rfl
    · intro r hrr
      exact hm _ ⟨t, ht, by rw [hr]; exact ⟨r, hrr, rfl⟩⟩

/-! ## form -/

lemma coefExpr_wf {vars : List Str} {P N : ℕ} (rules : List ARule) (ts : List ATerm) (n : Str) (xs : List Str) (h1 : ∀ t ∈ ts, t.expr.WF vars P N) (h2 : ∀ r ∈ rules, ∀ t ∈ r.rhs, t.expr.WF vars P N) :
    (coefExpr rules ts n xs).WF vars P N := by
  unfold coefExpr
  apply blockSum_wf
  intro e he
  rw [List.mem_map] at he
  obtain ⟨x, -, rfl⟩ := he
  have ha : (sumExpr ((ts.filter fun t => t.name = x).map ATerm.expr)).WF vars P N := by
    apply sumExpr_wf
    intro e he
    rw [List.mem_map] at he
    obtain ⟨t, ht, rfl⟩ := he
    exact h1 t (List.mem_of_mem_filter ht)
  have hb : (sumExpr (exprsFor n (masterExprs rules x))).WF vars P N := by
    apply sumExpr_wf
    intro e he
    unfold exprsFor at he
    rw [List.mem_map] at he
    obtain ⟨q, hq, rfl⟩ := he
    have hq := List.mem_of_mem_filter hq
    unfold masterExprs at hq
    cases hr : ruleFor rules x with
    | none =>
      rw [hr] at hq
      simp at hq
      subst hq
      refine ⟨by simp, ?_, by simp⟩
      intro c hc
      simp at hc
      subst hc; decide
    | some rhs =>
      rw [hr] at hq
      simp only [List.mem_map] at hq
      obtain ⟨t, ht, rfl⟩ := hq
      unfold ruleFor at hr
      rw [Option.map_eq_some_iff] at hr
      obtain ⟨r, hr, rfl⟩ := hr
      exact h2 r (List.mem_of_find?_eq_some hr) t ht
  exact ⟨⟨ha, by simp [Expr.level], hb, by simp [Expr.level]⟩, by simp [blockExpr, Expr.level]⟩

lemma coefExpr_noQuot (rules : List ARule) (ts : List ATerm) (n : Str) (xs : List Str) (h1 : ∀ t ∈ ts, t.expr.NoQuot) (h2 : ∀ r ∈ rules, ∀ t ∈ r.rhs, t.expr.NoQuot) :
    (coefExpr rules ts n xs).NoQuot := by
  unfold coefExpr
  apply blockSum_noQuot
  intro e he
  rw [List.mem_map] at he
  obtain ⟨x, -, rfl⟩ := he
  have ha : (sumExpr ((ts.filter fun t => t.name = x).map ATerm.expr)).NoQuot := by
    apply sumExpr_noQuot
    intro e he
    rw [List.mem_map] at he
    obtain ⟨t, ht, rfl⟩ := he
    exact h1 t (List.mem_of_mem_filter ht)
  have hb : (sumExpr (exprsFor n (masterExprs rules x))).NoQuot := by
    apply sumExpr_noQuot
    intro e he
    unfold exprsFor at he
    rw [List.mem_map] at he
    obtain ⟨q, hq, rfl⟩ := he
    have hq := List.mem_of_mem_filter hq
    unfold masterExprs at hq
    cases hr : ruleFor rules x with
    | none =>
      rw [hr] at hq
      simp at hq
      subst hq
      trivial
    | some rhs =>
      rw [hr] at hq
      simp only [List.mem_map] at hq
      obtain ⟨t, ht, rfl⟩ := hq
      unfold ruleFor at hr
      rw [Option.map_eq_some_iff] at hr
      obtain ⟨r, hr, rfl⟩ := hr
      exact h2 r (List.mem_of_find?_eq_some hr) t ht
  exact ⟨ha, hb⟩

/-! ## all calls -/

/-- the state after the expression, the tables and `check_for_unreplaced_masters`, with the functions `xs` and the masters `names` -/
structure AmpDone (rules : List ARule) (ts : List ATerm) (s : AmpSt) (xs names : List Str) : Prop where
  inv : AmpInv s xs names (coefsOf (ts.map ATerm.entry)) (masterTexts rules)
  mem : ∀ x, x ∈ xs ↔ ∃ t ∈ ts, t.name = x

lemma AmpDone.names {rules ts s xs names} (h : AmpDone rules ts s xs names) (n : Str) : n ∈ names ↔ IsMaster rules ts n := by
  have hR : ∀ x, (∃ r ∈ masterTexts rules x, r.1 = n) ↔ (match ruleFor rules x with | none => x = n | some rhs => ∃ r ∈ rhs, r.name = n) := by
    intro x
    unfold masterTexts masterExprs
    cases ruleFor rules x with
    | none => simp
    | some rhs => simp
  constructor
  · intro hn
    obtain ⟨x, hx, hr⟩ := h.inv.used n hn
    obtain ⟨t, ht, rfl⟩ := (h.mem x).mp hx
    exact ⟨t, ht, (hR _).mp hr⟩
  · rintro ⟨t, ht, hm⟩
    obtain ⟨r, hr, hrn⟩ := (hR _).mpr hm
    obtain ⟨E, hE, hent⟩ := h.inv.mapping
    obtain ⟨Pl, Q, -, -, h2⟩ := hent t.name ((h.mem _).mpr ⟨t, ht, rfl⟩)
    have : ∀ {Q : List (ℕ × ℕ)} {rs : List (Str × Str)}, List.Forall₂ (fun (e : ℕ × ℕ) (r : Str × Str) => s.functions[e.1]? = some r.2 ∧ ∃ m, names[m]? = some r.1 ∧ e.2 = m + 2) Q rs → ∀ r ∈ rs, r.1 ∈ names := by
      intro Q rs h
      induction h with
      | nil => simp
      | cons a _ ih =>
        intro r hr
        rcases List.mem_cons.mp hr with rfl | hr
        · obtain ⟨-, m, hm, -⟩ := a
          exact List.mem_of_getElem? hm
        · exact ih r hr
    exact hrn ▸ this h2 r hr

lemma AmpDone.getCoef {rules ts s xs names} (h : AmpDone rules ts s xs names) {m : ℕ} {n : Str} (hm : names[m]? = some n) : s.getCoef m = .ok (coefExpr rules ts n xs).render := by
  rw [getCoef_eq h.inv hm, coefText_eq]
  · intro x hx; exact (h.mem x).mp hx
  · obtain ⟨x, hx, r, hr, e⟩ := h.inv.used n (List.mem_of_getElem? hm)
    refine ⟨x, hx, ?_⟩
    unfold masterTexts at hr
    rw [List.mem_map] at hr
    obtain ⟨q, hq, rfl⟩ := hr
    intro h0
    unfold exprsFor at h0
    rw [List.map_eq_nil_iff, List.filter_eq_nil_iff] at h0
    exact h0 q hq (by simpa using e)

lemma AmpDone.getMaster {rules ts s xs names} (h : AmpDone rules ts s xs names) {m : ℕ} {n : Str} (hm : names[m]? = some n) : s.getMaster m = .ok n := by
  unfold AmpSt.getMaster
  rw [h.inv.inv]
  have : ∀ (l : List Str) (i k : ℕ), ((l.zipIdx k).map fun q => (q.2, q.1)).lookup (k + i) = l[i]? := by
    intro l
    induction l with
    | nil => simp
    | cons y ys ih =>
      intro i k
      rw [List.zipIdx_cons, List.map_cons, List.lookup_cons]
      cases i with
      | zero => simp
      | succ i =>
        have hb : (k + (i + 1) == k) = false := by simp
        simp only [hb]
        rw [show k + (i + 1) = k + 1 + i by omega, ih]
        simp
  have := this names m 0
  rw [Nat.zero_add] at this
  rw [this, hm]

variable {fams vars : List Str} {P N : ℕ}

lemma parseAmplitude_eq (hvars : ∀ v ∈ vars, IsName v) (hf : FamsOK fams) {ts : List ATerm} (h : SumOK fams vars P N ts) (hne : ts ≠ []) {text : Str} (ht : Spelled (sumText ts) text) :
    AmpSt.parseAmplitude { fams := fams } text = .ok ((ts.map ATerm.entry).foldl AmpSt.addTerm { fams := fams }) := by
  have h0 : sumText ts ≠ [] := by
    obtain ⟨t, ts, rfl⟩ := List.exists_cons_of_ne_nil hne
    simp [sumText, ATerm.text, ATerm.name, fnName]
  have hc := sum_chars hvars hf h.1
  unfold AmpSt.parseAmplitude ampParseTop
  rw [strip_spelled ht h0 ⟨fun h => hc '{' h (by simp), fun h => hc '}' h (by simp)⟩]
  simp only [bind, Except.bind]
  rw [ampParse_sum hvars hf h hne]

lemma useRules_fams : ∀ {rs : List ARule} {s s' : AmpSt}, rs.foldlM AmpSt.useRule s = .ok s' → s'.fams = s.fams
  | [], s, s', h => by cases h; rfl
  | r :: rs, s, s', h => by
    rw [List.foldlM_cons] at h
    cases hu : s.useRule r with
    | error e => rw [hu] at h; cases h
    | ok s1 => rw [hu] at h; rw [useRules_fams h, useRule_fams hu]

lemma tables_eq (hvars : ∀ v ∈ vars, IsName v) (hf : FamsOK fams) : ∀ {tables : List (List ARule)} {texts : List Str}, List.Forall₂ (fun rs text => Spelled (tableText rs) text) tables texts →
    (∀ rs ∈ tables, rs ≠ [] ∧ ∀ r ∈ rs, r.OK fams vars P N) → ∀ {s : AmpSt}, s.fams = fams → texts.foldlM AmpSt.parseTable s = tables.flatten.foldlM AmpSt.useRule s
  | _, _, .nil, _, s, _ => rfl
  | rs :: tables, t :: texts, .cons a as, hok, s, hs => by
    rw [List.foldlM_cons, List.flatten_cons, List.foldlM_append]
    have h1 := hok rs (by simp)
    rw [parseTable_eq hvars (hs ▸ hf) h1.1 (fun r hr => hs ▸ h1.2 r hr) a]
    cases hu : rs.foldlM AmpSt.useRule s with
    | error e => rfl
    | ok s1 => exact tables_eq hvars hf as (fun rs hrs => hok rs (by simp [hrs])) ((useRules_fams hu).trans hs)

/-- **the calls of `ff_insert`** -/
lemma ampRun (hvars : ∀ v ∈ vars, IsName v) (hf : FamsOK fams) {ts : List ATerm} (h : SumOK fams vars P N ts) (hne : ts ≠ []) {text : Str} (ht : Spelled (sumText ts) text)
    {tables : List (List ARule)} {texts : List Str} (htab : List.Forall₂ (fun rs text => Spelled (tableText rs) text) tables texts)
    (hok : ∀ rs ∈ tables, rs ≠ [] ∧ ∀ r ∈ rs, r.OK fams vars P N)
    (hdup : ((tables.flatten.map ARule.name).filter fun x => x ∈ ts.map ATerm.name).Nodup) :
    ∃ s1 s2, AmpSt.parseAmplitude { fams := fams } text = .ok s1 ∧ texts.foldlM AmpSt.parseTable s1 = .ok s2 ∧
      ∀ order, order.Perm s2.integrals → ∃ xs names, AmpDone tables.flatten ts (s2.check order).1 xs names ∧ (s2.check order).2 = names.length := by
  have hinit : AmpInv { fams := fams } [] [] (fun _ => []) fun _ => [] :=
    ⟨by simp, rfl, rfl, rfl, by simp, rfl, rfl, rfl, ⟨fun _ => [], rfl, by simp⟩, by simp⟩
  obtain ⟨xs, hx, h1⟩ := hinit.terms (ts.map ATerm.entry)
  obtain ⟨r1, f1⟩ := addTerms_rest (ts.map ATerm.entry) { fams := fams }
  have hx' : ∀ x, x ∈ xs ↔ x ∈ ts.map ATerm.name := by
    intro x
    rw [hx, List.map_map]
    have : (fun q : Str × Str => q.1) ∘ ATerm.entry = ATerm.name := by funext t; simp [entry_expr]
    rw [this]
  have hfil : (tables.flatten.map ARule.name).filter (fun x => x ∈ xs) = (tables.flatten.map ARule.name).filter (fun x => x ∈ ts.map ATerm.name) := by
    apply List.filter_congr
    intro x _
    simp only [hx']
  obtain ⟨s2, names2, h2, h3, h4⟩ := h1.rules r1 tables.flatten (hfil ▸ hdup)
  refine ⟨_, s2, parseAmplitude_eq hvars hf h hne ht, ?_, ?_⟩
  · rw [tables_eq hvars hf htab hok f1, h2]
  · intro order hperm
    have hord : order.Perm xs.zipIdx := h3.integrals ▸ hperm
    have hmap : (order.map (·.1)).Perm xs := by
      have := hord.map (·.1)
      have e : xs.zipIdx.map (·.1) = xs := by
        apply List.ext_getElem <;> simp
      exact e ▸ this
    obtain ⟨names, h5⟩ := h3.checks order (hmap.nodup_iff.mpr h3.xnodup) (by
      intro q hq
      have := hord.mem_iff.mp hq
      obtain ⟨y, i⟩ := q
      obtain ⟨hi, hy⟩ := List.mem_zipIdx' this
      have hi' : i < xs.length := hi
      have hy' : y = xs[i]'hi' := hy
      have e1 := List.getElem_mem hi'
      have e2 := (h3.xnodup.idxOf_getElem i hi').symm
      rw [← hy'] at e1 e2
      exact ⟨e1, e2⟩)
    refine ⟨xs, names, ⟨h5.congrR ?_, fun x => by rw [hx']; simp [List.mem_map]⟩, ?_⟩
    · intro x hxx
      have hm : x ∈ order.map (·.1) := hmap.mem_iff.mpr hxx
      simp only [hm, true_and]
      have := h4 x hxx
      unfold rulesOf masterTexts masterExprs
      cases hr : ruleFor tables.flatten x with
      | none =>
        rw [hr] at this
        simp at this
        simp [this, Expr.render]
      | some rhs =>
        rw [hr] at this
        simp at this
        simp [this, entry_expr]
    · show (order.foldl AmpSt.checkOne s2).masterCount - 2 = _
      rw [h5.mcount]; rfl

end FireFly
