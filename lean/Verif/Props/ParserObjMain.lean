import Verif.Props.ParserObjTrim
/-!
# C64: trimming and the public evaluation, theorems
-/
set_option linter.all false
namespace FireFly

section
variable [LongDouble] {vars : List Str}

lemma listing_congr {P P' : SyParser} {Us Vs : List (List Str)} (h : Listing P Us Vs) (h1 : P'.evaluationPositions = P.evaluationPositions)
    (h2 : P'.checkIsEqual = P.checkIsEqual) : Listing P' Us Vs :=
  ⟨by rw [h2]; exact h.plain, by rw [h1, h2]; exact h.len, by rw [h1, h2]; exact h.get, by rw [h1, h2]; exact h.le, by rw [h1, h2]; exact h.ident⟩

/-- a constructed parser -/
lemma construct_any {p q : ℕ} (hpq : CheckPrime p q) (hvars : ∀ v ∈ vars, IsName v) {r1 r2 : List ℕ} (h1 : Canonical q vars r1) (h2 : Canonical p vars r2)
    (check keep : Bool) {es : List Expr} (hes : ∀ e ∈ es, e.Accepted vars) :
    ∃ P Us Vs, SyParser.construct p r1 r2 vars check keep (es.map Expr.render) = some P ∧ SypReady P p Us ∧ P.functions = (if keep then Us else []) ∧
      Listing P Us Vs ∧ Vs.length = es.length ∧ (∀ U ∈ Us, RpnOK vars U) ∧ P.vars = vars ∧ P.checkIsEqual = check ∧ P.keepRpn = keep := by
  obtain ⟨Ts, hTs⟩ := accepted_all hvars hes
  have hok := forall₂_rpnOK hTs
  cases check with
  | false =>
    obtain ⟨P, a1, a2, a3, a4, a5, a6⟩ := construct_plain (checkPrime_mem hpq).1 (r1 := r1) (r2 := r2) (keep := keep) hTs
    refine ⟨P, Ts, Ts, a1, a2, a3, ⟨fun _ => rfl, ?_, ?_, ?_, ?_⟩, hTs.length_eq.symm, hok, a4, a5, a6⟩ <;>
    · intro h; rw [a5] at h; cases h
  | true =>
    obtain ⟨P, Us, c1, c2, c3, c4, c5, c6, c7, c8, -⟩ := construct_check hpq h1 h2 (keep := keep) hTs
    obtain ⟨Vs, d1, d2⟩ := listing_of_dedup c7 c4
    exact ⟨P, Us, Vs, c1, c2, c3, d1, by rw [d2, hTs.length_eq], fun U hU => hok U (c5 U hU), c6, c7, c8⟩

/-- **C64 (trim).** For every parser that keeps the reverse Polish notation, with or without the search for equal functions, constructed for
any list of accepted functions, after every history of changes of the prime, and every set of elements to keep, `trim` returns for the kept
elements their positions among the kept ones in order, and `evaluate_pre` of the trimmed parser returns the values the parser returned
before for the kept elements. -/
theorem C64_trim {p q : ℕ} (hpq : CheckPrime p q) (hvars : ∀ v ∈ vars, IsName v) {r1 r2 : List ℕ} (h1 : Canonical q vars r1) (h2 : Canonical p vars r2)
    (check : Bool) {es : List Expr} (hes : ∀ e ∈ es, e.Accepted vars) {qs : List ℕ} (hqs : ∀ q ∈ qs, q ∈ primes63) (keep : ℕ → Bool)
    {values : List ℕ} (hv : Canonical (lastPrime p qs) vars values) :
    ∃ P P1 cs P2 cs2, SyParser.construct p r1 r2 vars check true (es.map Expr.render) = some P ∧ P.history qs = some P1 ∧
      P1.evaluatePreAll (lastPrime p qs) values = some cs ∧ cs.length = es.length ∧
      P1.trim keep = some (P2, ((List.range es.length).filter keep).zipIdx) ∧ P2.evaluatePreAll (lastPrime p qs) values = some cs2 ∧
      cs2.map some = ((List.range es.length).filter keep).map fun i => cs[i]? := by
  obtain ⟨P, Us, Vs, a1, a2, a3, a4, a5, a6, a7, a8, a9⟩ := construct_any hpq hvars h1 h2 check true hes
  obtain ⟨hp, -⟩ := checkPrime_mem hpq
  obtain ⟨P1, g1, g2, g3, g4, g5, g6, g7⟩ := ready_history qs hp hqs (P := P) (by rw [a7]; exact hvars) (Us := Us) (by rw [a7]; exact a6) a2
  have hl := lastPrime_mem hp hqs
  have hf : P1.functions = Us := by rw [g3, a3, if_pos rfl]
  have hL := listing_congr a4 g4 g6
  obtain ⟨cs, b1, b2⟩ := listing_evaluate hl a6 (g5.trans a7) g2.pre hL (Or.inl hf) hv
  obtain ⟨P2, Us', Vs', c1, c2, c3, c4, c5, c6, c7, c8, c9⟩ := trim_spec (tok := fun T => (precompute (lastPrime p qs) P1.vars T).map Prod.fst) (Or.inr g2.pre) hf hL keep
  have hpre2 : P2.precompTokens.map some = Us'.map fun T => (precompute (lastPrime p qs) P2.vars T).map Prod.fst := by
    rw [c7]
    rcases c5 with c5 | c5
    · have : P2.precompTokens.length = Us'.length := by
        by_cases hn : P1.precompTokens = []
        · have hU0 : Us = [] := by
            have := g2.pre; rw [hn] at this; simpa using this.symm
          have : Us' = [] := by
            cases Us' with
            | nil => rfl
            | cons U Us' => have := c6 U (by simp); rw [hU0] at this; simp at this
          rw [this, c5]; rfl
        · by_contra hne
          have hU : Us' ≠ [] := by intro h; rw [h, c5] at hne; exact hne rfl
          -- the tokens of a nonempty trimmed parser are not empty
          exfalso
          obtain ⟨U, Us'', rfl⟩ := List.exists_cons_of_ne_nil hU
          unfold SyParser.trim at c1
          obtain ⟨s, hs1, hs2⟩ := Option.map_eq_some_iff.mp c1
          have hh1 : s.functions = U :: Us'' := by have := congrArg (fun x => x.1.functions) hs2; simp only at this; rw [this, c3]
          have hh2 : s.precompTokens = [] := by have := congrArg (fun x => x.1.precompTokens) hs2; simp only at this; rw [this, c5]
          have htt : TrimTok P1 (fun T => (precompute (lastPrime p qs) P1.vars T).map Prod.fst) s := by
            split at hs1
            · rename_i hcc
              obtain ⟨s', e1, -, e3, -⟩ := trimPlain_fold (Or.inr g2.pre) hf keep P1.functions.length (by rw [hf])
              rw [e1] at hs1; cases hs1; exact e3
            · rename_i hcc
              have hcc' : P1.checkIsEqual = true := by simpa using hcc
              obtain ⟨s', e1, e2⟩ := trimCheck_fold (Or.inr g2.pre) hf hcc' hL keep P1.evaluationPositions.length (by rw [hL.len hcc'])
              rw [e1] at hs1; cases hs1; exact e2.tok
          unfold TrimTok at htt
          rw [if_neg hn, hh1, hh2] at htt
          simp at htt
      have hU' : Us' = [] := by rw [c5] at this; exact List.length_eq_zero_iff.mp (by simpa using this.symm)
      rw [c5, hU']; rfl
    · exact c5
  obtain ⟨cs2, d1, d2⟩ := listing_evaluate hl (fun U hU => a6 U (c6 U hU)) (c7.trans (g5.trans a7)) hpre2 c4 (Or.inl c3) hv
  have hcl : cs.length = es.length := by have := congrArg List.length b2; simp only [List.length_map] at this; rw [this, a5]
  rw [a5] at c1
  refine ⟨P, P1, cs, P2, cs2, a1, g1, b1, hcl, c1, d1, ?_⟩
  have := kept_values c2 b2 d2
  rw [hcl] at this
  exact this

/-- **C64 (trim, later).** After `precompute_tokens(true)` with any current prime, and every further history of changes of the prime, the
trimmed parser returns for the kept elements what the parser without `trim` returns. -/
theorem C64_trim_forced {p q : ℕ} (hpq : CheckPrime p q) (hvars : ∀ v ∈ vars, IsName v) {r1 r2 : List ℕ} (h1 : Canonical q vars r1) (h2 : Canonical p vars r2)
    (check : Bool) {es : List Expr} (hes : ∀ e ∈ es, e.Accepted vars) {qs : List ℕ} (hqs : ∀ q ∈ qs, q ∈ primes63) (keep : ℕ → Bool)
    {p' : ℕ} (hp' : p' ∈ primes63) {qs' : List ℕ} (hqs' : ∀ q ∈ qs', q ∈ primes63)
    {values : List ℕ} (hv : Canonical (lastPrime p' qs') vars values) :
    ∃ P P1 P1' P1'' cs P2 P2' P2'' cs2, SyParser.construct p r1 r2 vars check true (es.map Expr.render) = some P ∧ P.history qs = some P1 ∧
      P1.precomputeTokens p' true = some P1' ∧ P1'.history qs' = some P1'' ∧ P1''.evaluatePreAll (lastPrime p' qs') values = some cs ∧
      cs.length = es.length ∧ P1.trim keep = some (P2, ((List.range es.length).filter keep).zipIdx) ∧
      P2.precomputeTokens p' true = some P2' ∧ P2'.history qs' = some P2'' ∧ P2''.evaluatePreAll (lastPrime p' qs') values = some cs2 ∧
      cs2.map some = ((List.range es.length).filter keep).map fun i => cs[i]? := by
  obtain ⟨P, Us, Vs, a1, a2, a3, a4, a5, a6, a7, a8, a9⟩ := construct_any hpq hvars h1 h2 check true hes
  obtain ⟨hp, -⟩ := checkPrime_mem hpq
  obtain ⟨P1, g1, g2, g3, g4, g5, g6, g7⟩ := ready_history qs hp hqs (P := P) (by rw [a7]; exact hvars) (Us := Us) (by rw [a7]; exact a6) a2
  have hf : P1.functions = Us := by rw [g3, a3, if_pos rfl]
  have hL := listing_congr a4 g4 g6
  obtain ⟨P2, Us', Vs', c1, c2, c3, c4, -, c6, c7, c8, c9⟩ := trim_spec (tok := fun T => (precompute (lastPrime p qs) P1.vars T).map Prod.fst) (Or.inr g2.pre) hf hL keep
  have later : ∀ {Q : SyParser} {Ws Xs : List (List Str)}, Q.functions = Ws → (∀ U ∈ Ws, RpnOK vars U) → Q.vars = vars → Q.keepRpn = true → Listing Q Ws Xs →
      ∃ Q' Q'' ds, Q.precomputeTokens p' true = some Q' ∧ Q'.history qs' = some Q'' ∧ Q''.evaluatePreAll (lastPrime p' qs') values = some ds ∧
        ds.map some = Xs.map (evaluateRpn opTokens (lastPrime p' qs') vars values) := by
    intro Q Ws Xs e1 e2 e3 e4 e5
    obtain ⟨Q', f1, f2, f3, f4, f5, f6, f7, -⟩ := precompute_force hp' (P := Q) true (Or.inr rfl) (Or.inr rfl) (by rw [e1, e3]; exact e2)
    rw [e4, if_pos rfl] at f3
    have hv' : Q'.vars = vars := f5.trans e3
    rw [e1] at f2 f3
    obtain ⟨Q'', k1, k2, k3, k4, k5, k6, k7⟩ := ready_history qs' hp' hqs' (P := Q') (by rw [hv']; exact hvars) (Us := Ws) (by rw [hv']; exact e2) f2
    obtain ⟨ds, m1, m2⟩ := listing_evaluate (lastPrime_mem hp' hqs') e2 (k5.trans hv') k2.pre (listing_congr e5 (k4.trans f4) (k6.trans f6)) (Or.inl (k3.trans f3)) hv
    exact ⟨Q', Q'', ds, f1, k1, m1, m2⟩
  obtain ⟨P1', P1'', cs, b1, b2, b3, b4⟩ := later hf a6 (g5.trans a7) (g7.trans a9) hL
  obtain ⟨P2', P2'', cs2, d1, d2, d3, d4⟩ := later c3 (fun U hU => a6 U (c6 U hU)) (c7.trans (g5.trans a7)) (c9.trans (g7.trans a9)) c4
  have hcl : cs.length = es.length := by have := congrArg List.length b4; simp only [List.length_map] at this; rw [this, a5]
  rw [a5] at c1
  refine ⟨P, P1, P1', P1'', cs, P2, P2', P2'', cs2, a1, g1, b1, b2, b3, hcl, c1, d1, d2, d3, ?_⟩
  have := kept_values c2 b4 d4
  rw [hcl] at this
  exact this

/-- **C64 (trim of added functions).** Functions that were added by `add_otf` to a parser without the search for equal functions (constructed
for an empty list) can be trimmed before the tokens are precomputed: after `precompute_tokens(true)` and every history of changes of the
prime, `evaluate_pre` returns the values of the kept functions in order. -/
theorem C64_trim_otf (hvars : ∀ v ∈ vars, IsName v) {p : ℕ} (hp : p ∈ primes63) (r1 r2 : List ℕ) (keepRpn : Bool) {fs : List Expr}
    (hfs : ∀ e ∈ fs, e.Accepted vars) (keep : ℕ → Bool) {p' : ℕ} (hp' : p' ∈ primes63) {qs : List ℕ} (hqs : ∀ q ∈ qs, q ∈ primes63)
    [Fact (lastPrime p' qs).Prime] {values : List ℕ} (hv : Canonical (lastPrime p' qs) vars values) :
    ∃ P P1 P2 P3 P4 cs, SyParser.construct p r1 r2 vars false keepRpn [] = some P ∧
      P.addOtfs p' (fs.map Expr.render) = some (P1, List.range fs.length, p') ∧
      P1.trim keep = some (P2, ((List.range fs.length).filter keep).zipIdx) ∧ P2.precomputeTokens p' true = some P3 ∧ P3.history qs = some P4 ∧
      P4.evaluatePreAll (lastPrime p' qs) values = some cs ∧ cs.length = ((List.range fs.length).filter keep).length ∧
      ∀ (j i c : ℕ) (f : Expr), ((List.range fs.length).filter keep)[j]? = some i → fs[i]? = some f → cs[j]? = some c → IsValue (lastPrime p' qs) vars values f c := by
  obtain ⟨Fs, hFs⟩ := accepted_all hvars hfs
  obtain ⟨P, h1, h2, h3, h4, h5, h6⟩ := construct_plain hp (r1 := r1) (r2 := r2) (keep := keepRpn) (vars := vars) (es := []) .nil
  have hfun : P.functions = [] := by rw [h3]; simp
  have hadd := addOtfs_plain (p := p') hFs h5
  rw [hfun] at hadd
  have hok := forall₂_rpnOK hFs
  have hpre : P.precompTokens = [] := by have := h2.pre; simpa using this
  obtain ⟨P2, Us', Vs', c1, c2, c3, c4, c5, c6, c7, c8, c9⟩ := trim_spec (P := { P with functions := [] ++ Fs }) (Us := Fs) (Vs := Fs) (tok := fun T => (precompute p P.vars T).map Prod.fst)
    (Or.inl hpre) (by simp) ⟨fun _ => rfl, fun h => absurd h (by simp [h5]), fun h => absurd h (by simp [h5]), fun h => absurd h (by simp [h5]), fun h => absurd h (by simp [h5])⟩ keep
  have hU' : ∀ U ∈ Us', RpnOK vars U := fun U hU => hok U (c6 U hU)
  have hv2 : P2.vars = vars := c7.trans h4
  obtain ⟨P3, f1, f2, f3, f4, f5, f6, f7, -⟩ := precompute_force hp' (P := P2) true (Or.inr rfl) (Or.inr rfl) (by rw [c3, hv2]; exact hU')
  rw [c3] at f2 f3
  have hv3 : P3.vars = vars := f5.trans hv2
  obtain ⟨P4, k1, k2, k3, k4, k5, k6, k7⟩ := ready_history qs hp' hqs (P := P3) (by rw [hv3]; exact hvars) (Us := Us') (by rw [hv3]; exact hU') f2
  have hl := lastPrime_mem hp' hqs
  obtain ⟨cs, m1, m2⟩ := listing_evaluate hl hU' (k5.trans hv3) k2.pre (listing_congr c4 (k4.trans f4) (k6.trans f6))
    (by rw [k3, f3]; cases P2.keepRpn; exact Or.inr rfl; exact Or.inl rfl) hv
  have hlen : Fs.length = fs.length := hFs.length_eq.symm
  rw [hlen] at c1 c2
  refine ⟨P, _, P2, P3, P4, cs, h1, by rw [hadd]; simp [List.range_eq_range'], c1, f1, k1, m1, ?_, ?_⟩
  · have a := congrArg List.length m2
    have b := congrArg List.length c2
    simp only [List.length_map] at a b
    rw [a, b]; rfl
  · intro j i c f hj hi hc
    obtain ⟨V, e1, e2⟩ := map_some_get c2 hj
    obtain ⟨c', e3, e4⟩ := map_some_get m2 e1
    rw [hc] at e3; cases e3
    obtain ⟨T, e5, e6⟩ := (forall₂_get hFs).1 i f hi
    rw [e2] at e5; cases e5
    obtain ⟨c'', e7, e8⟩ := e6.2.2 _ hl values hv
    rw [e4] at e7; cases e7
    exact e8

/-! ### the public evaluation -/

lemma evaluateRpn_public {p : ℕ} {values : List ℕ} {T : List Str} (h1 : ['~'] ∉ T) (h2 : [';'] ∉ T) :
    evaluateRpn opTokensPublic p vars values T = evaluateRpn opTokens p vars values T := by
  unfold evaluateRpn
  congr 1
  have : ∀ (T : List Str), ['~'] ∉ T → [';'] ∉ T → ∀ S, T.foldlM (evalStep opTokensPublic p vars values) S = T.foldlM (evalStep opTokens p vars values) S := by
    intro T
    induction T with
    | nil => intros; rfl
    | cons t T ih =>
      intro g1 g2 S
      simp only [List.mem_cons, not_or] at g1 g2
      rw [List.foldlM_cons, List.foldlM_cons]
      have : evalStep opTokensPublic p vars values S t = evalStep opTokens p vars values S t := by
        have hiff : t ∈ opTokensPublic ↔ t ∈ opTokens := by
          unfold opTokensPublic opTokens
          simp only [List.mem_cons, List.not_mem_nil, or_false]
          have a1 := g1.1; have a2 := g2.1
          constructor
          · tauto
          · rintro (h | h | h | h | h | h | h | h)
            all_goals first | tauto | (exact absurd h.symm (by assumption))
        unfold evalStep
        by_cases ht : t ∈ opTokens
        · rw [if_pos ht, if_pos (hiff.mpr ht)]
        · rw [if_neg ht, if_neg (fun h => ht (hiff.mp h))]
      rw [this]
      congr 1
      funext S'
      exact ih g1.2 g2.2 S'
  exact this T h1 h2 []

/-- **C64 (evaluate).** A parser that keeps the reverse Polish notation, none of whose functions has a negative exponent (the operators `~`
and `;` do not occur in the functions that `get_rp_functions` returns), returns with `evaluate` what it returns with `evaluate_pre`. -/
theorem C64_evaluate {p q : ℕ} (hpq : CheckPrime p q) (hvars : ∀ v ∈ vars, IsName v) {r1 r2 : List ℕ} (h1 : Canonical q vars r1) (h2 : Canonical p vars r2)
    (check : Bool) {es : List Expr} (hes : ∀ e ∈ es, e.Accepted vars) {qs : List ℕ} (hqs : ∀ q ∈ qs, q ∈ primes63)
    {values : List ℕ} (hv : Canonical (lastPrime p qs) vars values) :
    ∃ P P1 cs, SyParser.construct p r1 r2 vars check true (es.map Expr.render) = some P ∧ P.history qs = some P1 ∧
      P1.evaluatePreAll (lastPrime p qs) values = some cs ∧ cs.length = es.length ∧
      ((∀ T ∈ P1.functions, ['~'] ∉ T ∧ [';'] ∉ T) → P1.evaluate (lastPrime p qs) values = some cs) := by
  obtain ⟨P, Us, Vs, a1, a2, a3, a4, a5, a6, a7, a8, a9⟩ := construct_any hpq hvars h1 h2 check true hes
  obtain ⟨hp, -⟩ := checkPrime_mem hpq
  obtain ⟨P1, g1, g2, g3, g4, g5, g6, g7⟩ := ready_history qs hp hqs (P := P) (by rw [a7]; exact hvars) (Us := Us) (by rw [a7]; exact a6) a2
  have hl := lastPrime_mem hp hqs
  have hf : P1.functions = Us := by rw [g3, a3, if_pos rfl]
  have hL := listing_congr a4 g4 g6
  obtain ⟨cs, b1, b2⟩ := listing_evaluate hl a6 (g5.trans a7) g2.pre hL (Or.inl hf) hv
  have hcl : cs.length = es.length := by have := congrArg List.length b2; simp only [List.length_map] at this; rw [this, a5]
  refine ⟨P, P1, cs, a1, g1, b1, hcl, ?_⟩
  intro hno
  rw [hf] at hno
  have hv1 : P1.vars = vars := g5.trans a7
  unfold SyParser.evaluate
  rw [hf, hv1]
  have heq : ∀ T ∈ Us, evaluateRpn opTokensPublic (lastPrime p qs) vars values T = evaluateRpn opTokens (lastPrime p qs) vars values T :=
    fun T hT => evaluateRpn_public (hno T hT).1 (hno T hT).2
  obtain ⟨res, k1, k2⟩ := mapM_of_all (f := evaluateRpn opTokensPublic (lastPrime p qs) vars values) (l := Us) (by
    intro T hT
    obtain ⟨c, hc, -⟩ := (a6 T hT).eval _ hl values hv.1 hv.2
    exact ⟨c, by rw [heq T hT]; exact hc⟩)
  rw [k1, Option.bind_some]
  obtain ⟨cs', m1, m2⟩ := listing_positions hL (Or.inl hf) (g := evaluateRpn opTokens (lastPrime p qs) vars values) (res := res) (by
    rw [k2]; exact List.map_congr_left heq)
  rw [m1]
  have := b2.trans m2.symm
  rw [map_some_inj this]

/-- **C64 (evaluate), violated.** A parser that does not keep the reverse Polish notation (the default) has no functions left for `evaluate`:
`get_size` is 0, `evaluate` returns an empty vector without the search for equal functions, and reads outside of a vector with it. -/
theorem C64_evaluate_violated {p q : ℕ} (hpq : CheckPrime p q) (hvars : ∀ v ∈ vars, IsName v) {r1 r2 : List ℕ} (h1 : Canonical q vars r1) (h2 : Canonical p vars r2)
    (check : Bool) {es : List Expr} (hne : es ≠ []) (hes : ∀ e ∈ es, e.Accepted vars) (values : List ℕ) :
    ∃ P, SyParser.construct p r1 r2 vars check false (es.map Expr.render) = some P ∧ P.getSize = 0 ∧
      P.evaluate p values = if check then none else some [] := by
  obtain ⟨P, Us, Vs, a1, a2, a3, a4, a5, a6, a7, a8, a9⟩ := construct_any hpq hvars h1 h2 check false hes
  have hf : P.functions = [] := by rw [a3]; simp
  refine ⟨P, a1, by unfold SyParser.getSize; rw [hf]; rfl, ?_⟩
  unfold SyParser.evaluate
  rw [hf]
  show P.positions [] = _
  unfold SyParser.positions
  cases check with
  | false => rw [if_pos a8]; rfl
  | true =>
    rw [if_neg (by rw [a8]; simp), hf]
    have hlen := a4.len a8
    rw [a5] at hlen
    have hpos : 0 < es.length := List.length_pos_iff.mpr hne
    rw [if_pos (by rw [hlen]; simp only [List.length_nil]; omega)]
    cases hpp : P.evaluationPositions with
    | nil => rw [hpp] at hlen; simp at hlen; omega
    | cons k l => rw [List.mapM_cons]; rfl

/-- **C64 (trim), violated.** A parser that does not keep the reverse Polish notation (the default) loses all its functions, those to keep
as well, without the search for equal functions; with it, `trim` reads outside of a vector if an element is to be kept. -/
theorem C64_trim_violated {p q : ℕ} (hpq : CheckPrime p q) (hvars : ∀ v ∈ vars, IsName v) {r1 r2 : List ℕ} (h1 : Canonical q vars r1) (h2 : Canonical p vars r2)
    (check : Bool) {es : List Expr} (hes : ∀ e ∈ es, e.Accepted vars) (keep : ℕ → Bool) {i : ℕ} (hi : i < es.length) (hk : keep i = true) (values : List ℕ) :
    ∃ P, SyParser.construct p r1 r2 vars check false (es.map Expr.render) = some P ∧
      (check = false → ∃ P1, P.trim keep = some (P1, []) ∧ P1.evaluatePreAll p values = some []) ∧ (check = true → P.trim keep = none) := by
  obtain ⟨P, Us, Vs, a1, a2, a3, a4, a5, a6, a7, a8, a9⟩ := construct_any hpq hvars h1 h2 check false hes
  have hf : P.functions = [] := by rw [a3]; simp
  refine ⟨P, a1, ?_, ?_⟩
  · rintro rfl
    unfold SyParser.trim
    rw [if_pos a8, hf]
    refine ⟨_, rfl, ?_⟩
    unfold SyParser.evaluatePreAll SyParser.positions
    simp [a8]
  · rintro rfl
    unfold SyParser.trim
    rw [if_neg (by rw [a8]; simp), a4.len a8, a5]
    have hnone : ∀ (l : List ℕ) (s : TrimState), (∃ i ∈ l, keep i = true) → s.copied = [] → l.foldlM (P.trimCheck keep) s = none := by
      intro l
      induction l with
      | nil => intro s h; simp at h
      | cons a l ih =>
        intro s h hs
        rw [List.foldlM_cons]
        unfold SyParser.trimCheck
        cases hka : keep a with
        | true =>
          rw [if_pos rfl]
          cases P.evaluationPositions[a]? with
          | none => rfl
          | some k =>
            simp only [Option.bind_some, hs, List.lookup_nil]
            have : P.trimCopy k s = none := by unfold SyParser.trimCopy; rw [hf]; rfl
            rw [this]; rfl
        | false =>
          rw [if_neg (by simp)]
          obtain ⟨i, hi, hki⟩ := h
          rcases List.mem_cons.mp hi with rfl | hi
          · rw [hka] at hki; cases hki
          · exact ih s ⟨i, hi, hki⟩ hs
    rw [hnone _ _ ⟨i, by simpa using hi, hk⟩ rfl]; rfl

end

end FireFly
