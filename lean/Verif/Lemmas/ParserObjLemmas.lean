import Verif.Model.ParserObj
import Verif.Props.HistoryProps
import Verif.Props.PrimeProps
/-!
# Lemmas for C64: the parser object
-/
set_option linter.all false
namespace FireFly

/-! ### the primes of the table -/

lemma syp_primes_large : primes63.all (fun p => Nat.ble (2 ^ 62 + 2) p) = true := by decide +kernel

lemma syp_prime {q : ℕ} (h : q ∈ primes63) : q.Prime ∧ q < 2 ^ 63 ∧ 2 ^ 62 + 2 ≤ q := by
  refine ⟨(C07_primes63.2.1 q h).1, (C07_primes63.2.1 q h).2, ?_⟩
  have := List.all_eq_true.mp syp_primes_large q h
  exact Nat.le_of_ble_eq_true this

/-! ### well-formed expressions with larger bounds -/

lemma exponent_wf_mono {a b a' b' : ℕ} (ha : a ≤ a') (hb : b ≤ b') : ∀ x : Exponent, x.WF a b → x.WF a' b'
  | .plain ds, h => ⟨h.1, lt_of_lt_of_le h.2 ha⟩
  | .paren ds, h => ⟨h.1, lt_of_lt_of_le h.2 ha⟩
  | .neg ds, h => ⟨h.1, lt_of_lt_of_le h.2 hb⟩

lemma expr_wf_mono {vars : List Str} {a b a' b' : ℕ} (ha : a ≤ a') (hb : b ≤ b') : ∀ e : Expr, e.WF vars a b → e.WF vars a' b'
  | .num ds, h => h
  | .var n, h => h
  | .paren e, h => expr_wf_mono ha hb e h
  | .pow e x, h => ⟨expr_wf_mono ha hb e h.1, h.2.1, exponent_wf_mono ha hb x h.2.2⟩
  | .mul e f, h => ⟨expr_wf_mono ha hb e h.1, h.2.1, expr_wf_mono ha hb f h.2.2.1, h.2.2.2⟩
  | .div e f, h => ⟨expr_wf_mono ha hb e h.1, h.2.1, expr_wf_mono ha hb f h.2.2.1, h.2.2.2⟩
  | .add e f, h => ⟨expr_wf_mono ha hb e h.1, expr_wf_mono ha hb f h.2.1, h.2.2⟩
  | .sub k e f, h => ⟨expr_wf_mono ha hb e h.1, expr_wf_mono ha hb f h.2.1, h.2.2⟩
  | .neg k e, h => ⟨expr_wf_mono ha hb e h.1, h.2⟩
  | .pos e, h => ⟨expr_wf_mono ha hb e h.1, h.2⟩

/-! ### positions of the numbers -/

section
variable [LongDouble] {vars : List Str}

/-- the positions of the partial reverse Polish notations are increasing and inside of the tokens -/
def PosOK (s : PreState) : Prop := (s.2.map Prod.fst).Pairwise (· < ·) ∧ ∀ e ∈ s.2, e.1 < s.1.length

lemma posOK_snoc {s : PreState} (h : PosOK s) (t : PTok) (v : List Str) : PosOK (s.1 ++ [t], s.2 ++ [(s.1.length, v)]) := by
  refine ⟨?_, ?_⟩
  · simp only [List.map_append, List.map_cons, List.map_nil, List.pairwise_append]
    refine ⟨h.1, by simp, ?_⟩
    intro a ha b hb
    obtain ⟨e, he, rfl⟩ := List.mem_map.mp ha
    simp only [List.mem_singleton] at hb
    subst hb
    exact h.2 e he
  · intro e he
    simp only [List.mem_append, List.mem_singleton] at he
    simp only [List.length_append, List.length_singleton]
    rcases he with he | rfl
    · have := h.2 e he; omega
    · simp

lemma posOK_tok {s : PreState} (h : PosOK s) (t : PTok) : PosOK (s.1 ++ [t], s.2) :=
  ⟨h.1, fun e he => by have := h.2 e he; simp only [List.length_append, List.length_singleton]; omega⟩

lemma preOperand_pos {p : ℕ} {token : Str} {s s' : PreState} (h : PosOK s) (hs : preOperand p vars token s = some s') : PosOK s' := by
  unfold preOperand at hs
  split at hs
  · cases hs
  · cases hs; exact posOK_tok h _
  · cases hs; exact posOK_tok h _
  · obtain ⟨w, -, rfl⟩ := Option.map_eq_some_iff.mp hs
    exact posOK_snoc h _ _
  · cases hs; exact posOK_snoc h _ _
  · cases hs; exact posOK_snoc h _ _

lemma preDiv_pos {p : ℕ} {s s' : PreState} (h : PosOK s) (hs : preDiv p s = some s') : PosOK s' := by
  unfold preDiv at hs
  split at hs
  · rename_i t1 t2 rest hr
    have hr' : s.1 = rest.reverse ++ [t2, t1] := by
      have := congrArg List.reverse hr; simpa using this
    have hlen : s.1.length = rest.length + 2 := by rw [hr']; simp
    have hvar : ∀ (t : PTok) (inv : ℕ) (k : ℕ) (v w : List Str) (prest : List (ℕ × List Str)), s.2.reverse = (k, v) :: prest →
        PosOK (rest.reverse ++ [t, .num inv, .mult], prest.reverse ++ [(k, w)]) := by
      intro t inv k v w prest hp
      have hp' : s.2 = prest.reverse ++ [(k, v)] := by
        have := congrArg List.reverse hp; simpa using this
      refine ⟨?_, ?_⟩
      · have := h.1; rw [hp'] at this; simpa using this
      · intro e he
        simp only [List.mem_append, List.mem_singleton] at he
        have hl : (rest.reverse ++ [t, .num inv, .mult]).length = s.1.length + 1 := by rw [hlen]; simp
        rw [hl]
        rcases he with he | rfl
        · have := h.2 e (by rw [hp']; simp only [List.mem_append]; exact Or.inl he); omega
        · have := h.2 (k, v) (by rw [hp']; simp); simp only at this ⊢; omega
    split at hs
    · obtain ⟨q, -, hs⟩ := Option.bind_eq_some_iff.mp hs
      split at hs
      · rename_i k1 v1 k2 v2 prest hp
        cases hs
        have hp' : s.2 = prest.reverse ++ [(k2, v2), (k1, v1)] := by
          have := congrArg List.reverse hp; simpa using this
        have h1 := h.1
        rw [hp'] at h1
        simp only [List.map_append, List.map_cons, List.map_nil, List.pairwise_append] at h1
        have hk1 : k1 < s.1.length := h.2 (k1, v1) (by rw [hp']; simp)
        have hk : k2 < k1 := by have := h1.2.1; simpa using this
        have hpre : ∀ e ∈ prest.reverse, e.1 < rest.length := by
          intro e he
          have := h1.2.2 e.1 (List.mem_map.mpr ⟨e, he, rfl⟩) k2 (by simp)
          omega
        refine ⟨?_, ?_⟩
        · simp only [List.map_append, List.map_cons, List.map_nil, List.pairwise_append]
          refine ⟨h1.1, by simp, ?_⟩
          intro a ha b hb
          obtain ⟨e, he, rfl⟩ := List.mem_map.mp ha
          simp only [List.mem_singleton] at hb
          subst hb
          exact hpre e he
        · intro e he
          simp only [List.mem_append, List.mem_singleton] at he
          simp only [List.length_append, List.length_reverse, List.length_singleton]
          rcases he with he | rfl
          · have := hpre e he; omega
          · simp
      · cases hs
    · obtain ⟨q, -, hs⟩ := Option.bind_eq_some_iff.mp hs
      split at hs
      · rename_i k v prest hp
        cases hs
        exact hvar _ _ _ _ _ _ hp
      · cases hs
    · obtain ⟨q, -, hs⟩ := Option.bind_eq_some_iff.mp hs
      split at hs
      · rename_i k v prest hp
        cases hs
        exact hvar _ _ _ _ _ _ hp
      · cases hs
    · cases hs; exact posOK_tok h _
  · cases hs

lemma precompute_pos {p : ℕ} (T : List Str) : ∀ {s s' : PreState}, PosOK s → T.foldlM (preStep p vars) s = some s' → PosOK s' := by
  induction T with
  | nil => intro s s' h hs; cases hs; exact h
  | cons t T ih =>
    intro s s' h hs
    rw [List.foldlM_cons] at hs
    obtain ⟨s1, h1, h2⟩ := Option.bind_eq_some_iff.mp hs
    refine ih ?_ h2
    unfold preStep at h1
    split at h1
    · split at h1
      · exact preDiv_pos h h1
      · cases h1; exact posOK_tok h _
    · exact preOperand_pos h h1

/-! ### functions in reverse Polish notation -/

/-- A function that can be evaluated in all fields of the table, no divisor of which is a quotient. -/
structure RpnOK (vars : List Str) (T : List Str) : Prop where
  noQuot : ∀ A B, T ≠ A ++ [['/'], ['/']] ++ B
  oct : OctFree T
  eval : ∀ q ∈ primes63, ∀ values : List ℕ, vars.length ≤ values.length → (∀ x ∈ values, x < q) →
    ∃ c, evaluateRpn opTokens q vars values T = some c ∧ c < q

lemma rpn_precompute {p : ℕ} (hp : p ∈ primes63) {T : List Str} (h : RpnOK vars T) : ∃ s, precompute p vars T = some s := by
  obtain ⟨h1, h2, h3⟩ := syp_prime hp
  have hv : ∀ x ∈ List.replicate vars.length 0, x < p := by
    intro x hx; rw [List.eq_of_mem_replicate hx]; omega
  obtain ⟨c, hc, -⟩ := h.eval p hp (List.replicate vars.length 0) (by simp) hv
  obtain ⟨s, hs, -⟩ := C25_evaluate_pre h1 h2 hv hc
  exact ⟨s, hs⟩

lemma rpn_evaluatePre {p : ℕ} (hp : p ∈ primes63) {T : List Str} {s : PreState} (hs : precompute p vars T = some s)
    {values : List ℕ} (hv : ∀ x ∈ values, x < p) {c : ℕ} (hc : evaluateRpn opTokens p vars values T = some c) :
    evaluatePre p values s.1 = some c := by
  obtain ⟨h1, h2, h3⟩ := syp_prime hp
  obtain ⟨s', hs', h⟩ := C25_evaluate_pre h1 h2 hv hc
  rw [hs] at hs'; cases hs'; exact h

lemma rpn_refresh (hvars : ∀ v ∈ vars, IsName v) {p q : ℕ} (hq : q ∈ primes63) {T : List Str} (h : RpnOK vars T) {s : PreState}
    (hs : precompute p vars T = some s) :
    ∃ s', precompute q vars T = some s' ∧ refreshTokens q vars s = some s'.1 ∧ s'.2 = s.2 := by
  obtain ⟨h1, h2, h3⟩ := syp_prime hq
  obtain ⟨s', hs', hr⟩ := C25_refresh h1 h2 hvars h.noQuot h.oct hs
  refine ⟨s', hs', ?_, ?_⟩
  · unfold refreshTokens
    have hpos : PosOK s := precompute_pos T (s := ([], [])) ⟨by simp, by simp⟩ hs
    rw [if_pos, hr]; · rfl
    simp only [List.all_eq_true, decide_eq_true_eq]
    exact hpos.2
  · unfold refresh at hr
    obtain ⟨a, -, rfl⟩ := Option.map_eq_some_iff.mp hr
    rfl

/-! ### states with precomputed tokens -/

/-- The precomputed tokens of the parser are those of the functions `Us` with the prime `p`. -/
structure SypReady (P : SyParser) (p : ℕ) (Us : List (List Str)) : Prop where
  pre : P.precompTokens.map some = Us.map fun T => (precompute p P.vars T).map Prod.fst
  part : P.partialRpn.map some = Us.map fun T => (precompute p P.vars T).map Prod.snd
  done : P.precomputed = true
  prime : P.primeInternal = p

lemma map_some_inj {α : Type} {a b : List α} (h : a.map some = b.map some) : a = b :=
  List.map_injective_iff.mpr (Option.some_injective α) h

lemma mapM_precompute {p : ℕ} (hp : p ∈ primes63) : ∀ {Us : List (List Str)}, (∀ T ∈ Us, RpnOK vars T) →
    ∃ ss, Us.mapM (precompute p vars) = some ss ∧ (ss.map Prod.fst).map some = Us.map (fun T => (precompute p vars T).map Prod.fst) ∧
      (ss.map Prod.snd).map some = Us.map (fun T => (precompute p vars T).map Prod.snd)
  | [], _ => ⟨[], rfl, rfl, rfl⟩
  | T :: Us, h => by
    obtain ⟨s, hs⟩ := rpn_precompute hp (h T (by simp))
    obtain ⟨ss, h1, h2, h3⟩ := mapM_precompute hp (Us := Us) (fun T hT => h T (by simp [hT]))
    refine ⟨s :: ss, ?_, ?_, ?_⟩
    · rw [List.mapM_cons, hs, h1]; rfl
    · simp only [List.map_cons, hs, Option.map_some]; rw [h2]
    · simp only [List.map_cons, hs, Option.map_some]; rw [h3]

/-- the result of a precomputation of all functions -/
lemma precompute_force {p : ℕ} (hp : p ∈ primes63) {P : SyParser} (force : Bool) (h : P.precomputed = false ∨ force = true) (hf : p ≠ P.primeInternal ∨ force = true)
    (hU : ∀ T ∈ P.functions, RpnOK P.vars T) :
    ∃ P', P.precomputeTokens p force = some P' ∧ SypReady P' p P.functions ∧ P'.functions = (if P.keepRpn then P.functions else []) ∧
      P'.evaluationPositions = P.evaluationPositions ∧ P'.vars = P.vars ∧ P'.checkIsEqual = P.checkIsEqual ∧ P'.keepRpn = P.keepRpn ∧
      P'.checkVars1 = [] ∧ P'.checkVars2 = [] ∧ P'.checkMap = [] ∧ P'.primeCounter = P.primeCounter := by
  obtain ⟨ss, h1, h2, h3⟩ := mapM_precompute (vars := P.vars) hp hU
  unfold SyParser.precomputeTokens
  rw [if_neg (by rintro ⟨g1, g2⟩; rcases hf with hf | hf; exact hf g1; rw [g2] at hf; cases hf)]
  simp only
  rw [if_pos h, h1]
  exact ⟨_, rfl, ⟨h2, h3, rfl, rfl⟩, rfl, rfl, rfl, rfl, rfl, rfl, rfl, rfl, rfl⟩

lemma refreshAll_ready (hvars : ∀ v ∈ vars, IsName v) {p q : ℕ} (hp : p ∈ primes63) (hq : q ∈ primes63) :
    ∀ {Us : List (List Str)} {tss : List (List PTok)} {prs : List (List (ℕ × List Str))}, (∀ T ∈ Us, RpnOK vars T) →
      tss.map some = Us.map (fun T => (precompute p vars T).map Prod.fst) →
      prs.map some = Us.map (fun T => (precompute p vars T).map Prod.snd) →
      ∃ tss', refreshAll q vars tss prs = some tss' ∧ tss'.map some = Us.map (fun T => (precompute q vars T).map Prod.fst) ∧
        prs.map some = Us.map (fun T => (precompute q vars T).map Prod.snd)
  | [], [], prs, _, _, h2 => ⟨[], rfl, rfl, h2⟩
  | [], _ :: _, _, _, h1, _ => by simp at h1
  | _ :: _, [], _, _, h1, _ => by simp at h1
  | _ :: _, _, [], _, _, h2 => by simp at h2
  | T :: Us, ts :: tss, pr :: prs, hU, h1, h2 => by
    obtain ⟨s, hs⟩ := rpn_precompute hp (hU T (by simp))
    simp only [List.map_cons, List.cons.injEq, hs, Option.map_some, Option.some.injEq] at h1 h2
    obtain ⟨s', g1, g2, g3⟩ := rpn_refresh hvars hq (hU T (by simp)) hs
    obtain ⟨tss', k1, k2, k3⟩ := refreshAll_ready hvars hp hq (Us := Us) (fun T hT => hU T (by simp [hT])) h1.2 h2.2
    refine ⟨s'.1 :: tss', ?_, ?_, ?_⟩
    · rw [refreshAll, h1.1, h2.1, g2, k1]; rfl
    · simp only [List.map_cons, g1, Option.map_some, k2]
    · simp only [List.map_cons, g1, Option.map_some, k3, h2.1, g3]

/-- a change of the prime -/
lemma ready_step {p q : ℕ} (hp : p ∈ primes63) (hq : q ∈ primes63) {P : SyParser} (hvars : ∀ v ∈ P.vars, IsName v) {Us : List (List Str)}
    (hU : ∀ T ∈ Us, RpnOK P.vars T) (h : SypReady P p Us) :
    ∃ P', P.precomputeTokens q false = some P' ∧ SypReady P' q Us ∧ P'.functions = P.functions ∧
      P'.evaluationPositions = P.evaluationPositions ∧ P'.vars = P.vars ∧ P'.checkIsEqual = P.checkIsEqual ∧ P'.keepRpn = P.keepRpn := by
  unfold SyParser.precomputeTokens
  by_cases hpq : q = p
  · subst hpq
    rw [if_pos ⟨h.prime.symm, rfl⟩]
    exact ⟨_, rfl, ⟨h.pre, h.part, rfl, h.prime⟩, rfl, rfl, rfl, rfl, rfl⟩
  · rw [if_neg (by rw [h.prime]; tauto)]
    simp only
    rw [if_neg (by rw [h.done]; simp)]
    obtain ⟨tss', k1, k2, k3⟩ := refreshAll_ready hvars hp hq hU h.pre h.part
    rw [k1]
    exact ⟨_, rfl, ⟨k2, k3, h.done, rfl⟩, rfl, rfl, rfl, rfl, rfl⟩

/-- The changes of the prime to the elements of `qs` in turn, with `precompute_tokens()` after every change. -/
def SyParser.history (P : SyParser) (qs : List ℕ) : Option SyParser := qs.foldlM (fun P q => P.precomputeTokens q false) P

lemma ready_history : ∀ (qs : List ℕ) {p : ℕ} (hp : p ∈ primes63) (hqs : ∀ q ∈ qs, q ∈ primes63) {P : SyParser} (hvars : ∀ v ∈ P.vars, IsName v)
    {Us : List (List Str)} (hU : ∀ T ∈ Us, RpnOK P.vars T) (h : SypReady P p Us),
    ∃ P', P.history qs = some P' ∧ SypReady P' (lastPrime p qs) Us ∧ P'.functions = P.functions ∧
      P'.evaluationPositions = P.evaluationPositions ∧ P'.vars = P.vars ∧ P'.checkIsEqual = P.checkIsEqual ∧ P'.keepRpn = P.keepRpn
  | [], p, _, _, P, _, Us, _, h => ⟨P, rfl, h, rfl, rfl, rfl, rfl, rfl⟩
  | q :: qs, p, hp, hqs, P, hvars, Us, hU, h => by
    obtain ⟨P1, h1, h2, h3, h4, h5, h6, h7⟩ := ready_step hp (hqs q (by simp)) hvars hU h
    obtain ⟨P', g1, g2, g3, g4, g5, g6, g7⟩ := ready_history qs (hqs q (by simp)) (fun q' hq' => hqs q' (by simp [hq'])) (P := P1) (by rw [h5]; exact hvars)
      (Us := Us) (by rw [h5]; exact hU) h2
    refine ⟨P', ?_, ?_, g3.trans h3, g4.trans h4, g5.trans h5, g6.trans h6, g7.trans h7⟩
    · unfold SyParser.history at g1 ⊢
      rw [List.foldlM_cons, h1]; exact g1
    · have : lastPrime p (q :: qs) = lastPrime q qs := by
        unfold lastPrime
        exact List.getLastD_cons
      rw [this]; exact g2

lemma lastPrime_mem {p : ℕ} (hp : p ∈ primes63) {qs : List ℕ} (hqs : ∀ q ∈ qs, q ∈ primes63) : lastPrime p qs ∈ primes63 := by
  unfold lastPrime
  rcases List.eq_nil_or_concat qs with rfl | ⟨A, a, rfl⟩
  · simpa using hp
  · have : a ∈ A.concat a := by simp
    simpa using hqs a this

/-- the values of the stored functions -/
lemma ready_values {p : ℕ} (hp : p ∈ primes63) {values : List ℕ} (hv : ∀ x ∈ values, x < p) (hlen : vars.length ≤ values.length) :
    ∀ {Us : List (List Str)} {tss : List (List PTok)}, (∀ T ∈ Us, RpnOK vars T) →
      tss.map some = Us.map (fun T => (precompute p vars T).map Prod.fst) →
      ∃ cs, tss.mapM (evaluatePre p values) = some cs ∧ cs.map some = Us.map (evaluateRpn opTokens p vars values)
  | [], [], _, _ => ⟨[], rfl, rfl⟩
  | [], _ :: _, _, h => by simp at h
  | _ :: _, [], _, h => by simp at h
  | T :: Us, ts :: tss, hU, h => by
    obtain ⟨s, hs⟩ := rpn_precompute hp (hU T (by simp))
    simp only [List.map_cons, List.cons.injEq, hs, Option.map_some, Option.some.injEq] at h
    obtain ⟨c, hc, -⟩ := (hU T (by simp)).eval p hp values hlen hv
    obtain ⟨cs, h1, h2⟩ := ready_values hp hv hlen (Us := Us) (fun T hT => hU T (by simp [hT])) h.2
    refine ⟨c :: cs, ?_, ?_⟩
    · rw [List.mapM_cons, h.1, rpn_evaluatePre hp hs hv hc, h1]; rfl
    · simp only [List.map_cons, hc, h2]

/-! ### equal functions -/

/-- `Us` are the first ones of the functions `Ts` with equal keys, `pos` the positions of the functions `Ts` in `Us`. -/
structure Dedup {α κ : Type} (key : α → κ) (Ts Us : List α) (pos : List ℕ) : Prop where
  len : pos.length = Ts.length
  get : ∀ (i k : ℕ), pos[i]? = some k → ∃ T U, Ts[i]? = some T ∧ Us[k]? = some U ∧ key U = key T
  src : ∀ (k : ℕ) (U : α), Us[k]? = some U → ∃ j : ℕ, Ts[j]? = some U ∧ ∀ j' < j, ∀ T, Ts[j']? = some T → key T ≠ key U
  nodup : (Us.map key).Nodup
  le : Us.length ≤ pos.length
  ident : Us.length = pos.length → pos = List.range pos.length

lemma dedup_nil {α κ : Type} (key : α → κ) : Dedup key [] [] [] := ⟨rfl, by simp, by simp, by simp, by simp, by simp⟩

lemma dedup_cover {α κ : Type} {key : α → κ} {Ts Us : List α} {pos : List ℕ} (h : Dedup key Ts Us pos) {T : α} (hT : T ∈ Ts) : key T ∈ Us.map key := by
  obtain ⟨i, hi, rfl⟩ := List.mem_iff_getElem.mp hT
  have hp : i < pos.length := by rw [h.len]; exact hi
  obtain ⟨T', U, h1, h2, h3⟩ := h.get i pos[i] (List.getElem?_eq_getElem hp)
  rw [List.getElem?_eq_getElem hi] at h1
  cases h1
  exact List.mem_map.mpr ⟨U, List.mem_of_getElem? h2, h3⟩

lemma getElem?_snoc_some {α : Type} {l : List α} {a : α} {i : ℕ} {x : α} (h : (l ++ [a])[i]? = some x) : l[i]? = some x ∨ (i = l.length ∧ x = a) := by
  rcases Nat.lt_trichotomy i l.length with hi | hi | hi
  · left; rwa [List.getElem?_append_left hi] at h
  · right; subst hi; simp at h; exact ⟨rfl, h.symm⟩
  · rw [List.getElem?_eq_none (by simp; omega)] at h; cases h

lemma getElem?_snoc_left {α : Type} {l : List α} {a : α} {i : ℕ} {x : α} (h : l[i]? = some x) : (l ++ [a])[i]? = some x := by
  rw [List.getElem?_append_left (List.getElem?_eq_some_iff.mp h).1]; exact h

lemma dedup_old {α κ : Type} {key : α → κ} {Ts Us : List α} {pos : List ℕ} (h : Dedup key Ts Us pos) {T U : α} {k : ℕ} (hU : Us[k]? = some U) (hk : key U = key T) :
    Dedup key (Ts ++ [T]) Us (pos ++ [k]) := by
  refine ⟨by simp [h.len], ?_, ?_, h.nodup, by have := h.le; simp; omega, ?_⟩
  · intro i k' hi
    rcases getElem?_snoc_some hi with hi | ⟨rfl, rfl⟩
    · obtain ⟨T', U', h1, h2, h3⟩ := h.get i k' hi
      exact ⟨T', U', getElem?_snoc_left h1, h2, h3⟩
    · refine ⟨T, U, by rw [h.len]; simp, hU, hk⟩
  · intro k' U' hk'
    obtain ⟨j, h1, h2⟩ := h.src k' U' hk'
    refine ⟨j, getElem?_snoc_left h1, ?_⟩
    intro j' hj' T' hT'
    rcases getElem?_snoc_some hT' with hT' | ⟨rfl, rfl⟩
    · exact h2 j' hj' T' hT'
    · have := (List.getElem?_eq_some_iff.mp h1).1; omega
  · intro he
    have := h.le; simp at he; omega

lemma dedup_new {α κ : Type} {key : α → κ} {Ts Us : List α} {pos : List ℕ} (h : Dedup key Ts Us pos) {T : α} (hT : key T ∉ Us.map key) :
    Dedup key (Ts ++ [T]) (Us ++ [T]) (pos ++ [Us.length]) := by
  refine ⟨by simp [h.len], ?_, ?_, ?_, by have := h.le; simp; omega, ?_⟩
  · intro i k' hi
    rcases getElem?_snoc_some hi with hi | ⟨rfl, rfl⟩
    · obtain ⟨T', U', h1, h2, h3⟩ := h.get i k' hi
      exact ⟨T', U', getElem?_snoc_left h1, getElem?_snoc_left h2, h3⟩
    · refine ⟨T, T, by rw [h.len]; simp, by simp, rfl⟩
  · intro k' U' hk'
    rcases getElem?_snoc_some hk' with hk' | ⟨rfl, rfl⟩
    · obtain ⟨j, h1, h2⟩ := h.src k' U' hk'
      refine ⟨j, getElem?_snoc_left h1, ?_⟩
      intro j' hj' T' hT'
      rcases getElem?_snoc_some hT' with hT' | ⟨rfl, rfl⟩
      · exact h2 j' hj' T' hT'
      · have := (List.getElem?_eq_some_iff.mp h1).1; omega
    · refine ⟨Ts.length, by simp, ?_⟩
      intro j' hj' T' hT'
      rcases getElem?_snoc_some hT' with hT' | ⟨rfl, rfl⟩
      · intro he; exact hT (he ▸ dedup_cover h (List.mem_of_getElem? hT'))
      · omega
  · rw [List.map_append, List.nodup_append]
    refine ⟨h.nodup, by simp, ?_⟩
    intro a ha b hb
    simp only [List.map_cons, List.map_nil, List.mem_singleton] at hb
    subst hb
    rintro rfl; exact hT ha
  · intro he
    simp only [List.length_append, List.length_singleton] at he ⊢
    have := h.ident (by omega)
    rw [List.range_succ, ← this]
    congr 2; omega

/-- the map from the keys to the positions -/
def mapOf {α κ : Type} (key : α → κ) (Us : List α) : List (κ × ℕ) := Us.zipIdx.map fun e => (key e.1, e.2)

lemma mapOf_snoc {α κ : Type} (key : α → κ) (Us : List α) (T : α) : mapOf key (Us ++ [T]) = mapOf key Us ++ [(key T, Us.length)] := by
  simp [mapOf, List.zipIdx_append]

lemma lookup_mapOf {α κ : Type} [BEq κ] [LawfulBEq κ] (key : α → κ) (v : κ) (Us : List α) :
    (∀ k, (mapOf key Us).lookup v = some k → ∃ U, Us[k]? = some U ∧ key U = v) ∧ ((mapOf key Us).lookup v = none → v ∉ Us.map key) := by
  have : ∀ (Us : List α) (n : ℕ), (∀ k, ((Us.zipIdx n).map fun e => (key e.1, e.2)).lookup v = some k → ∃ U, n ≤ k ∧ Us[k - n]? = some U ∧ key U = v) ∧
      (((Us.zipIdx n).map fun e => (key e.1, e.2)).lookup v = none → v ∉ Us.map key) := by
    intro Us
    induction Us with
    | nil => intro n; simp
    | cons U Us ih =>
      intro n
      obtain ⟨h1, h2⟩ := ih (n + 1)
      simp only [List.zipIdx_cons, List.map_cons, List.lookup_cons]
      by_cases hv : v = key U
      · subst hv
        simp
      · have hb : (v == key U) = false := by simpa using hv
        rw [hb]
        refine ⟨?_, ?_⟩
        · intro k hk
          obtain ⟨U', g1, g2, g3⟩ := h1 k hk
          refine ⟨U', by omega, ?_, g3⟩
          have : k - n = (k - (n + 1)) + 1 := by omega
          rw [this, List.getElem?_cons_succ]; exact g2
        · intro hk
          simp only [List.mem_cons, not_or]
          exact ⟨hv, h2 hk⟩
  have := this Us 0
  refine ⟨fun k hk => ?_, this.2⟩
  obtain ⟨U, -, h1, h2⟩ := this.1 k hk
  exact ⟨U, by simpa using h1, h2⟩

end

end FireFly
