import Verif.Props.ParserObjOps
import Verif.Props.ParserObjMain
import Verif.Props.ParserObjExamples
set_option linter.all false
/-!
# C64: `parse_function` and `evaluate_pre_2` of the parser object
-/
namespace FireFly

/-- `parse_function` for a list of functions -/
def SyParser.parseFunctions [LongDouble] (vars : List Str) (validateFun : Bool) (P : SyParser) (fs : List Str) : Option SyParser :=
  fs.foldlM (fun P f => P.parseFunction f vars validateFun) P

section
variable [LongDouble] {vars : List Str}

/-- `T` is the reverse Polish notation of the function `e`, which is read with or without validation -/
def IsRpnOf (vars : List Str) (validateFun : Bool) (e : Expr) (T : List Str) : Prop :=
  (∃ f, (if validateFun then validate e.render else some e.render) = some f ∧ parse f = some T) ∧ RpnOK vars T ∧
    ∀ q ∈ primes63, ∀ [Fact q.Prime], ∀ values, Canonical q vars values →
      ∃ c, runRpn q vars values T [] = some [c] ∧ IsValue q vars values e c

lemma runRpn_evaluate {q : ℕ} {values : List ℕ} {T : List Str} {c : ℕ} (h : runRpn q vars values T [] = some [c]) :
    evaluateRpn opTokens q vars values T = some c := by
  unfold evaluateRpn
  unfold runRpn at h
  rw [h]; rfl

/-- a function in normal form, read without validation -/
lemma norm_rpn (hvars : ∀ v ∈ vars, IsName v) {e : Expr} (he : e.Accepted vars) (hn : e.Norm) :
    ∃ T, parse e.render = some T ∧ RpnOK vars T ∧
      ∀ q ∈ primes63, ∀ [Fact q.Prime], ∀ values, Canonical q vars values →
        ∃ c, runRpn q vars values T [] = some [c] ∧ IsValue q vars values e c := by
  have hmono : ∀ q ∈ primes63, e.WF vars (q - 1) (min q (2 ^ 31)) := by
    intro q hq
    obtain ⟨-, h2, h3⟩ := syp_prime hq
    refine expr_wf_mono (a := 2 ^ 62) (b := 2 ^ 31) ?_ ?_ e he.1
    · exact Nat.le_sub_of_add_le (le_trans (Nat.le_succ _) h3)
    · refine le_min (le_trans ?_ h3) le_rfl; decide
  have hp0 : 9223372036854775783 ∈ primes63 := by unfold primes63; exact List.mem_cons_self
  have hrun : ∀ q ∈ primes63, ∀ [Fact q.Prime], ∀ values, Canonical q vars values →
        ∃ T c, parse e.render = some T ∧ runRpn q vars values T [] = some [c] ∧ IsValue q vars values e c := by
    intro q hq _ values hv
    have h3 : 3 < q := lt_of_lt_of_le (by decide) (syp_prime hq).2.2
    obtain ⟨T, h1, w, h2, h3, h4⟩ := parse_render Fact.out (syp_prime hq).2.1 h3 hvars hv.1 hv.2 (hmono _ hq) hn
    exact ⟨T, w, h1, h4 [], h2, h3⟩
  have hbase : ∃ T, parse e.render = some T := by
    haveI : Fact (Nat.Prime 9223372036854775783) := ⟨(syp_prime hp0).1⟩
    obtain ⟨T, c, h1, -⟩ := hrun _ hp0 (List.replicate vars.length 0) ⟨by simp, by intro x hx; rw [List.eq_of_mem_replicate hx]; decide⟩
    exact ⟨T, h1⟩
  obtain ⟨T, hT⟩ := hbase
  have hev : ∀ q ∈ primes63, ∀ [Fact q.Prime], ∀ values, Canonical q vars values →
        ∃ c, runRpn q vars values T [] = some [c] ∧ IsValue q vars values e c := by
    intro q hq _ values hv
    obtain ⟨T', c, h1, h2, h3⟩ := hrun q hq values hv
    rw [hT] at h1; cases h1
    exact ⟨c, h2, h3⟩
  obtain ⟨g1, g2⟩ := parse_good hvars he.1 hn he.2 hT
  refine ⟨T, hT, ⟨g1, g2, ?_⟩, hev⟩
  intro q hq values hl hv
  haveI : Fact q.Prime := ⟨(syp_prime hq).1⟩
  obtain ⟨c, h1, h2⟩ := hev q hq values ⟨hl, hv⟩
  exact ⟨c, runRpn_evaluate h1, h2.1⟩

lemma strip_accepted {e : Expr} (he : e.Accepted vars) : (e.strip false false).Accepted vars :=
  ⟨strip_wf e false false he.1, strip_noQuot e false false he.2⟩

lemma isRpnOf_of (hvars : ∀ v ∈ vars, IsName v) {v : Bool} {e : Expr} (he : e.Accepted vars) (hn : v = true ∨ e.Norm) : ∃ T, IsRpnOf vars v e T := by
  cases v with
  | false =>
    obtain ⟨T, h1, h2, h3⟩ := norm_rpn hvars he (hn.resolve_left (by simp))
    exact ⟨T, ⟨_, rfl, h1⟩, h2, h3⟩
  | true =>
    obtain ⟨T, h1, h2, h3⟩ := norm_rpn hvars (strip_accepted he) (strip_norm e false false)
    refine ⟨T, ⟨_, by rw [if_pos rfl]; exact validate_render hvars he.1, h1⟩, h2, ?_⟩
    intro q hq _ values hv
    obtain ⟨c, h4, h5, h6⟩ := h3 q hq values hv
    exact ⟨c, h4, h5, by rw [h6, strip_denote]⟩

lemma isRpnOf_all (hvars : ∀ v ∈ vars, IsName v) {v : Bool} : ∀ {es : List Expr}, (∀ e ∈ es, e.Accepted vars ∧ (v = true ∨ e.Norm)) →
    ∃ Ts, List.Forall₂ (IsRpnOf vars v) es Ts
  | [], _ => ⟨[], .nil⟩
  | e :: es, h => by
    obtain ⟨T, hT⟩ := isRpnOf_of hvars (h e (by simp)).1 (h e (by simp)).2
    obtain ⟨Ts, hTs⟩ := isRpnOf_all hvars (es := es) (fun e he => h e (by simp [he]))
    exact ⟨T :: Ts, .cons hT hTs⟩

lemma isRpnOf_ok {v : Bool} : ∀ {es : List Expr} {Ts : List (List Str)}, List.Forall₂ (IsRpnOf vars v) es Ts → ∀ T ∈ Ts, RpnOK vars T
  | [], [], _ => by simp
  | _ :: _, _ :: _, .cons h hs => by
    intro T hT
    rcases List.mem_cons.mp hT with rfl | hT
    · exact h.2.1
    · exact isRpnOf_ok hs T hT

lemma isRpnOf_values {v : Bool} {l : ℕ} (hl : l ∈ primes63) [Fact l.Prime] {values : List ℕ} (hv : Canonical l vars values) :
    ∀ {es : List Expr} {Ts : List (List Str)} {cs : List ℕ}, List.Forall₂ (IsRpnOf vars v) es Ts →
      cs.map some = Ts.map (evaluateRpn opTokens l vars values) → List.Forall₂ (IsValue l vars values) es cs
  | [], [], [], _, _ => .nil
  | [], [], _ :: _, _, h => by simp at h
  | _ :: _, _ :: _, [], _, h => by simp at h
  | e :: es, T :: Ts, c :: cs, .cons g gs, h => by
    simp only [List.map_cons, List.cons.injEq] at h
    obtain ⟨c', h1, h2⟩ := g.2.2 l hl values hv
    rw [runRpn_evaluate h1] at h
    obtain rfl : c = c' := by simpa using h.1
    exact .cons h2 (isRpnOf_values hl hv gs h.2)

lemma fold_parseFunction {v : Bool} : ∀ {es : List Expr} {Ts : List (List Str)} {P : SyParser}, (P.vars = [] ∨ P.vars = vars) →
    List.Forall₂ (IsRpnOf vars v) es Ts → es ≠ [] →
    P.parseFunctions vars v (es.map Expr.render) = some { P with vars := vars, functions := P.functions ++ Ts }
  | [], _, _, _, _, h => absurd rfl h
  | e :: es, T :: Ts, P, hP, .cons h hs, _ => by
    have h1 : P.parseFunction e.render vars v = some { P with vars := vars, functions := P.functions ++ [T] } := by
      obtain ⟨f, h1, h2⟩ := h.1
      unfold SyParser.parseFunction
      have : (if P.vars = [] then { P with vars := vars } else P) = { P with vars := vars } := by
        rcases hP with hP | hP
        · rw [if_pos hP]
        · split
          · rfl
          · rw [← hP]
      simp only [this]
      rw [h1, Option.bind_some, h2]
      rfl
    unfold SyParser.parseFunctions
    rw [List.map_cons, List.foldlM_cons, h1]
    show SyParser.parseFunctions vars v _ (es.map Expr.render) = _
    by_cases hes : es = []
    · subst hes
      cases hs
      rfl
    · rw [fold_parseFunction (Or.inr rfl) hs hes]
      simp

/-- **C64 (`parse_function`).** A default-constructed parser (or one with the same variables and no functions) gets functions by
`parse_function`, validated or in normal form, and `precompute_tokens` is called, also after every change of the prime. Then `evaluate_pre`
returns the values of the functions in this order. This is how the factors of a reconstruction are evaluated. -/
theorem C64_parse_function (hvars : ∀ v ∈ vars, IsName v) {p : ℕ} (hp : p ∈ primes63) (validateFun : Bool) {es : List Expr} (hne : es ≠ [])
    (hes : ∀ e ∈ es, e.Accepted vars ∧ (validateFun = true ∨ e.Norm)) {qs : List ℕ} (hqs : ∀ q ∈ qs, q ∈ primes63) [Fact (lastPrime p qs).Prime]
    {values : List ℕ} (hv : Canonical (lastPrime p qs) vars values) :
    ∃ P1 P2 P3 cs, SyParser.parseFunctions vars validateFun { vars := [] } (es.map Expr.render) = some P1 ∧ P1.getSize = es.length ∧
      P1.precomputeTokens p false = some P2 ∧ P2.history qs = some P3 ∧ P3.evaluatePreAll (lastPrime p qs) values = some cs ∧
      List.Forall₂ (IsValue (lastPrime p qs) vars values) es cs := by
  obtain ⟨Ts, hTs⟩ := isRpnOf_all hvars hes
  have hU := isRpnOf_ok hTs
  have h1 := fold_parseFunction (P := { vars := [] }) (Or.inl rfl) hTs hne
  obtain ⟨P2, f1, f2, f3, f4, f5, f6, f7, -⟩ := precompute_force hp (P := { vars := vars, functions := [] ++ Ts }) false (Or.inl rfl)
    (Or.inl (by have := (syp_prime hp).2.2; show p ≠ 0; omega)) (by simpa using hU)
  simp only [List.nil_append] at f2
  obtain ⟨P3, g1, g2, g3, g4, g5, g6, g7⟩ := ready_history qs hp hqs (P := P2) (by rw [f5]; exact hvars) (Us := Ts) (by rw [f5]; exact hU) f2
  have hl := lastPrime_mem hp hqs
  have hpre := g2.pre
  rw [g5, f5] at hpre
  obtain ⟨cs, k1, k2⟩ := ready_values hl hv.2 hv.1 hU hpre
  refine ⟨_, P2, P3, cs, h1, ?_, f1, g1, ?_, isRpnOf_values hl hv hTs k2⟩
  · unfold SyParser.getSize
    simpa using hTs.length_eq.symm
  · unfold SyParser.evaluatePreAll
    rw [k1, Option.bind_some]
    unfold SyParser.positions
    rw [if_pos (by rw [g6, f6])]

/-! ### `evaluate_pre_2` -/

lemma rpn_evaluatePre2 {p : ℕ} (hp : p ∈ primes63) {T : List Str} {s : PreState} (hs : precompute p vars T = some s)
    {values : List ℕ} (hv : ∀ x ∈ values, x < p) {c : ℕ} (hc : runRpn p vars values T [] = some [c]) (hl : s.1.length ≠ 1) :
    evaluatePre2 p values s.1 = some c := by
  obtain ⟨h1, h2, h3⟩ := syp_prime hp
  obtain ⟨s', g1, g2⟩ := precompute_inv h1 h2 hv T (s := ([], [])) (S := []) ⟨rfl, rfl, by simp⟩ hc
  have : precompute p vars T = some s' := g1
  rw [hs] at this; cases this
  exact C25_evaluate_pre_2 hl g2.run

/-- every stored function leaves one value on the stack -/
def OneValue (vars : List Str) (T : List Str) : Prop :=
  ∀ q ∈ primes63, ∀ values, Canonical q vars values → ∃ c, runRpn q vars values T [] = some [c]

lemma pre2_all {p : ℕ} (hp : p ∈ primes63) {values : List ℕ} (hv : Canonical p vars values) :
    ∀ {Us : List (List Str)} {tss : List (List PTok)} {cs : List ℕ}, (∀ T ∈ Us, RpnOK vars T) → (∀ T ∈ Us, OneValue vars T) →
      tss.map some = Us.map (fun T => (precompute p vars T).map Prod.fst) → (∀ ts ∈ tss, ts.length ≠ 1) → tss.mapM (evaluatePre p values) = some cs →
      tss.mapM (evaluatePre2 p values) = some cs
  | [], [], cs, _, _, _, _, h => by simpa using h
  | [], _ :: _, _, _, _, h, _, _ => by simp at h
  | _ :: _, [], _, _, _, h, _, _ => by simp at h
  | T :: Us, ts :: tss, cs, hU, hO, h, hl, he => by
    obtain ⟨s, hs⟩ := rpn_precompute hp (hU T (by simp))
    simp only [List.map_cons, List.cons.injEq, hs, Option.map_some, Option.some.injEq] at h
    obtain ⟨c, hc⟩ := hO T (by simp) p hp values hv
    have e1 := rpn_evaluatePre hp hs hv.2 (runRpn_evaluate hc)
    have e2 := rpn_evaluatePre2 hp hs hv.2 hc (by rw [← h.1]; exact hl ts (by simp))
    rw [List.mapM_cons, h.1, e1] at he
    cases ht : tss.mapM (evaluatePre p values) with
    | none => rw [ht] at he; cases he
    | some ds =>
      rw [ht] at he
      have := pre2_all hp hv (fun T hT => hU T (by simp [hT])) (fun T hT => hO T (by simp [hT])) h.2 (fun ts hts => hl ts (by simp [hts])) ht
      rw [List.mapM_cons, h.1, e2, this]
      exact he

lemma isRpnOf_isRpn : ∀ {es : List Expr} {Ts : List (List Str)}, List.Forall₂ (IsRpnOf vars true) es Ts → List.Forall₂ (IsRpn vars) es Ts
  | [], [], _ => .nil
  | _ :: _, _ :: _, .cons h hs => by
    refine .cons ⟨?_, h.2.1, ?_⟩ (isRpnOf_isRpn hs)
    · obtain ⟨f, h1, h2⟩ := h.1
      exact ⟨f, by simpa using h1, h2⟩
    · intro q hq _ values hv
      obtain ⟨c, h1, h2⟩ := h.2.2 q hq values hv
      exact ⟨c, runRpn_evaluate h1, h2⟩

lemma isRpnOf_one {v : Bool} : ∀ {es : List Expr} {Ts : List (List Str)}, List.Forall₂ (IsRpnOf vars v) es Ts → ∀ T ∈ Ts, OneValue vars T
  | [], [], _ => by simp
  | _ :: _, _ :: _, .cons h hs => by
    intro T hT
    rcases List.mem_cons.mp hT with rfl | hT
    · intro q hq values hv
      haveI : Fact q.Prime := ⟨(syp_prime hq).1⟩
      obtain ⟨c, h1, -⟩ := h.2.2 q hq values hv
      exact ⟨c, h1⟩
    · exact isRpnOf_one hs T hT

lemma construct_one {p q : ℕ} (hpq : CheckPrime p q) (hvars : ∀ v ∈ vars, IsName v) {r1 r2 : List ℕ} (h1 : Canonical q vars r1) (h2 : Canonical p vars r2)
    (check keep : Bool) {es : List Expr} (hes : ∀ e ∈ es, e.Accepted vars) :
    ∃ P Us Vs, SyParser.construct p r1 r2 vars check keep (es.map Expr.render) = some P ∧ SypReady P p Us ∧ P.functions = (if keep then Us else []) ∧
      Listing P Us Vs ∧ Vs.length = es.length ∧ (∀ U ∈ Us, RpnOK vars U) ∧ (∀ U ∈ Us, OneValue vars U) ∧ P.vars = vars ∧ P.checkIsEqual = check ∧ P.keepRpn = keep := by
  obtain ⟨Ts, hTs'⟩ := isRpnOf_all (v := true) hvars (fun e he => ⟨hes e he, Or.inl rfl⟩)
  have hTs := isRpnOf_isRpn hTs'
  have hok := forall₂_rpnOK hTs
  have hone := isRpnOf_one hTs'
  cases check with
  | false =>
    obtain ⟨P, a1, a2, a3, a4, a5, a6⟩ := construct_plain (checkPrime_mem hpq).1 (r1 := r1) (r2 := r2) (keep := keep) hTs
    refine ⟨P, Ts, Ts, a1, a2, a3, ⟨fun _ => rfl, ?_, ?_, ?_, ?_⟩, hTs.length_eq.symm, hok, hone, a4, a5, a6⟩ <;>
    · intro h; rw [a5] at h; cases h
  | true =>
    obtain ⟨P, Us, c1, c2, c3, c4, c5, c6, c7, c8, -⟩ := construct_check hpq h1 h2 (keep := keep) hTs
    obtain ⟨Vs, d1, d2⟩ := listing_of_dedup c7 c4
    exact ⟨P, Us, Vs, c1, c2, c3, d1, by rw [d2, hTs.length_eq], fun U hU => hok U (c5 U hU), fun U hU => hone U (c5 U hU), c6, c7, c8⟩

lemma pre2_none {p : ℕ} {values : List ℕ} : ∀ {tss : List (List PTok)}, (∃ t, [t] ∈ tss) → tss.mapM (evaluatePre2 p values) = none
  | [], h => by obtain ⟨t, h⟩ := h; simp at h
  | ts :: tss, h => by
    obtain ⟨t, h⟩ := h
    rw [List.mapM_cons]
    rcases List.mem_cons.mp h with rfl | h
    · rw [C25_evaluate_pre_2_single_violated]; rfl
    · rw [pre2_none ⟨t, h⟩]
      cases evaluatePre2 p values ts <;> rfl

/-- **C64 (`evaluate_pre_2`).** For every constructed parser and every history of changes of the prime, `evaluate_pre_2` returns what `evaluate_pre`
returns if no function is a single token after the precomputation; otherwise it writes beyond its array. -/
theorem C64_evaluate_pre_2 {p q : ℕ} (hpq : CheckPrime p q) (hvars : ∀ v ∈ vars, IsName v) {r1 r2 : List ℕ} (h1 : Canonical q vars r1) (h2 : Canonical p vars r2)
    (check keep : Bool) {es : List Expr} (hes : ∀ e ∈ es, e.Accepted vars) {qs : List ℕ} (hqs : ∀ q ∈ qs, q ∈ primes63)
    {values : List ℕ} (hv : Canonical (lastPrime p qs) vars values) :
    ∃ P P1 cs, SyParser.construct p r1 r2 vars check keep (es.map Expr.render) = some P ∧ P.history qs = some P1 ∧
      P1.evaluatePreAll (lastPrime p qs) values = some cs ∧ cs.length = es.length ∧
      ((∀ ts ∈ P1.precompTokens, ts.length ≠ 1) → P1.evaluatePre2All (lastPrime p qs) values = some cs) ∧
      ((∃ ts ∈ P1.precompTokens, ts.length = 1) → P1.evaluatePre2All (lastPrime p qs) values = none) := by
  obtain ⟨P, Us, Vs, a1, a2, a3, a4, a5, a6, a6', a7, a8, a9⟩ := construct_one hpq hvars h1 h2 check keep hes
  obtain ⟨hp, -⟩ := checkPrime_mem hpq
  obtain ⟨P1, g1, g2, g3, g4, g5, g6, g7⟩ := ready_history qs hp hqs (P := P) (by rw [a7]; exact hvars) (Us := Us) (by rw [a7]; exact a6) a2
  have hl := lastPrime_mem hp hqs
  have hf : P1.functions = Us ∨ P1.functions = [] := by
    rw [g3, a3]; cases keep
    · exact Or.inr rfl
    · exact Or.inl rfl
  have hL := listing_congr a4 g4 g6
  have hvar : P1.vars = vars := g5.trans a7
  obtain ⟨cs, b1, b2⟩ := listing_evaluate hl a6 hvar g2.pre hL hf hv
  have hcl : cs.length = es.length := by have := congrArg List.length b2; simp only [List.length_map] at this; rw [this, a5]
  have hpre := g2.pre
  rw [hvar] at hpre
  refine ⟨P, P1, cs, a1, g1, b1, hcl, ?_, ?_⟩
  · intro hne
    obtain ⟨res, k1, -⟩ := ready_values hl hv.2 hv.1 a6 hpre
    unfold SyParser.evaluatePre2All
    rw [pre2_all hl hv a6 a6' hpre hne k1, Option.bind_some]
    unfold SyParser.evaluatePreAll at b1
    rw [k1, Option.bind_some] at b1
    exact b1
  · rintro ⟨ts, hts, hlen⟩
    obtain ⟨t, rfl⟩ := List.length_eq_one_iff.mp hlen
    unfold SyParser.evaluatePre2All
    rw [pre2_none ⟨t, hts⟩]
    rfl

end

/-! ### non-vacuity -/

/-- the factor `x+1` of a reconstruction -/
example : letI := x87
    ((SyParser.parseFunctions [['x']] false { vars := [] } ["x+1".toList]).bind fun P => (P.precomputeTokens syp0 false).bind fun P =>
      (P.history [syp1]).bind fun P => P.evaluatePreAll syp1 [5]) = some [6] := by
  letI := x87
  decide +kernel

/-- `x+y` and `y+x` with `evaluate_pre_2` -/
example : letI := x87
    ((SyParser.construct syp0 [3, 4] [5, 6] [['x'], ['y']] true false ["x+y".toList, "y+x".toList]).bind fun P => P.evaluatePre2All syp0 [7, 8]) = some [15, 15] := by
  letI := x87
  decide +kernel

/-- the variable alone -/
example : letI := x87
    ((SyParser.construct syp0 [] [] [['x']] false false ["x".toList]).bind fun P => P.evaluatePre2All syp0 [7]) = none := by
  letI := x87
  decide +kernel

end FireFly
