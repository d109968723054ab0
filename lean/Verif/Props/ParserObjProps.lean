import Verif.Lemmas.ParserObjLemmas
/-!
# C64: collections of functions in a parser object
-/
set_option linter.all false
namespace FireFly

/-! ### specification -/

/-- the values of the variables in the field of `p` elements -/
def varEnv (p : ℕ) (vars : List Str) (values : List ℕ) : Str → ZMod p := fun name => ((values.getD (vars.idxOf name) 0 : ℕ) : ZMod p)

/-- the functions the theorems are about: well-formed expressions of the documented format with positive exponents below `2^62` and
negative ones below `2^31`, no divisor of which is a quotient -/
def Expr.Accepted (vars : List Str) (e : Expr) : Prop := e.WF vars (2 ^ 62) (2 ^ 31) ∧ e.NoQuot

/-- canonical values of the variables -/
def Canonical (p : ℕ) (vars : List Str) (values : List ℕ) : Prop := vars.length ≤ values.length ∧ ∀ x ∈ values, x < p

/-- the word is the canonical one of the value of the expression -/
def IsValue (p : ℕ) [Fact p.Prime] (vars : List Str) (values : List ℕ) (e : Expr) (c : ℕ) : Prop :=
  c < p ∧ (c : ZMod p) = e.denote (varEnv p vars values)

/-- two functions have the same values at the check points `r1` in the field of `q` elements and `r2` in the field of `p` elements -/
def SameCheck (q p : ℕ) [Fact q.Prime] [Fact p.Prime] (vars : List Str) (r1 r2 : List ℕ) (e e' : Expr) : Prop :=
  e.denote (varEnv q vars r1) = e'.denote (varEnv q vars r1) ∧ e.denote (varEnv p vars r2) = e'.denote (varEnv p vars r2)

/-- `q` is the prime after `p` in the table of 300 primes, for the last one the prime before it -/
def CheckPrime (p q : ℕ) : Prop :=
  ∃ i, primes63[i]? = some p ∧ primes63[if i = 299 then 298 else i + 1]? = some q

/-! ### proofs -/

section
variable [LongDouble] {vars : List Str}

/-- the reverse Polish notation of an accepted function -/
lemma accepted_rpn (hvars : ∀ v ∈ vars, IsName v) {e : Expr} (he : e.Accepted vars) :
    ∃ f T, validate e.render = some f ∧ parse f = some T ∧ RpnOK vars T ∧
      ∀ q ∈ primes63, ∀ [Fact q.Prime], ∀ values, Canonical q vars values →
        ∃ c, evaluateRpn opTokens q vars values T = some c ∧ IsValue q vars values e c := by
  have hmono : ∀ q ∈ primes63, e.WF vars (q - 1) (min q (2 ^ 31)) := by
    intro q hq
    obtain ⟨-, h2, h3⟩ := syp_prime hq
    refine expr_wf_mono (a := 2 ^ 62) (b := 2 ^ 31) ?_ ?_ e he.1
    · exact Nat.le_sub_of_add_le (le_trans (Nat.le_succ _) h3)
    · refine le_min (le_trans ?_ h3) le_rfl; decide
  have hval := validate_render hvars he.1
  have hp0 : 9223372036854775783 ∈ primes63 := by unfold primes63; exact List.mem_cons_self
  have hbase : ∃ T, parse (e.strip false false).render = some T := by
    haveI : Fact (Nat.Prime 9223372036854775783) := ⟨(syp_prime hp0).1⟩
    obtain ⟨f, T, c, h1, h2, -⟩ := C24_evaluate (values := List.replicate vars.length 0) (syp_prime hp0).2.1 (by decide) hvars (by simp)
      (by intro x hx; rw [List.eq_of_mem_replicate hx]; decide) (hmono _ hp0)
    rw [hval] at h1; cases h1
    exact ⟨T, h2⟩
  obtain ⟨T, hT⟩ := hbase
  have hev : ∀ q ∈ primes63, ∀ [Fact q.Prime], ∀ values, Canonical q vars values →
        ∃ c, evaluateRpn opTokens q vars values T = some c ∧ IsValue q vars values e c := by
    intro q hq _ values hv
    have h3 : 3 < q := lt_of_lt_of_le (by decide) (syp_prime hq).2.2
    obtain ⟨f, T', c, h1, h2, h4, h5, h6⟩ := C24_evaluate (values := values) (syp_prime hq).2.1 h3 hvars hv.1 hv.2 (hmono _ hq)
    rw [hval] at h1; cases h1
    rw [hT] at h2; cases h2
    exact ⟨c, h4, h5, h6⟩
  obtain ⟨g1, g2⟩ := parse_good hvars (strip_wf e false false he.1) (strip_norm e false false) (strip_noQuot e false false he.2) hT
  refine ⟨_, T, hval, hT, ⟨g1, g2, ?_⟩, hev⟩
  intro q hq values hl hv
  haveI : Fact q.Prime := ⟨(syp_prime hq).1⟩
  obtain ⟨c, h1, h2⟩ := hev q hq values ⟨hl, hv⟩
  exact ⟨c, h1, h2.1⟩

/-- `T` is the reverse Polish notation of the function `e` -/
def IsRpn (vars : List Str) (e : Expr) (T : List Str) : Prop :=
  (∃ f, validate e.render = some f ∧ parse f = some T) ∧ RpnOK vars T ∧
    ∀ q ∈ primes63, ∀ [Fact q.Prime], ∀ values, Canonical q vars values →
      ∃ c, evaluateRpn opTokens q vars values T = some c ∧ IsValue q vars values e c

lemma accepted_all (hvars : ∀ v ∈ vars, IsName v) : ∀ {es : List Expr}, (∀ e ∈ es, e.Accepted vars) → ∃ Ts, List.Forall₂ (IsRpn vars) es Ts
  | [], _ => ⟨[], .nil⟩
  | e :: es, h => by
    obtain ⟨f, T, h1, h2, h3, h4⟩ := accepted_rpn hvars (h e (by simp))
    obtain ⟨Ts, hTs⟩ := accepted_all hvars (es := es) (fun e he => h e (by simp [he]))
    exact ⟨T :: Ts, .cons ⟨⟨f, h1, h2⟩, h3, fun q hq inst values hv => h4 q hq values hv⟩ hTs⟩

lemma forall₂_rpnOK : ∀ {es : List Expr} {Ts : List (List Str)}, List.Forall₂ (IsRpn vars) es Ts → ∀ T ∈ Ts, RpnOK vars T
  | [], [], _ => by simp
  | _ :: _, _ :: _, .cons h hs => by
    intro T hT
    rcases List.mem_cons.mp hT with rfl | hT
    · exact h.2.1
    · exact forall₂_rpnOK hs T hT

lemma parseOne_insert {P : SyParser} {e : Expr} {T : List Str} (h : IsRpn vars e T) : P.parseOne e.render = P.insertRpn T := by
  obtain ⟨⟨f, h1, h2⟩, -⟩ := h
  unfold SyParser.parseOne
  rw [h1, Option.bind_some, h2, Option.bind_some]

/-! #### without the search for equal functions -/

lemma fold_plain : ∀ {es : List Expr} {Ts : List (List Str)}, List.Forall₂ (IsRpn vars) es Ts → ∀ {P : SyParser}, P.checkIsEqual = false →
    (es.map Expr.render).foldlM SyParser.parseOne P = some { P with functions := P.functions ++ Ts }
  | [], [], _, P, _ => by simp
  | e :: es, T :: Ts, .cons h hs, P, hP => by
    rw [List.map_cons, List.foldlM_cons, parseOne_insert h]
    unfold SyParser.insertRpn
    simp only [hP, Bool.false_eq_true, if_false]
    have := fold_plain hs (P := { P with functions := P.functions ++ [T] }) hP
    simp only [hP, List.append_assoc, List.singleton_append] at this
    exact this

lemma construct_plain {p : ℕ} (hp : p ∈ primes63) {r1 r2 : List ℕ} {keep : Bool} {es : List Expr} {Ts : List (List Str)} (h : List.Forall₂ (IsRpn vars) es Ts) :
    ∃ P, SyParser.construct p r1 r2 vars false keep (es.map Expr.render) = some P ∧ SypReady P p Ts ∧ P.functions = (if keep then Ts else []) ∧
      P.vars = vars ∧ P.checkIsEqual = false ∧ P.keepRpn = keep := by
  unfold SyParser.construct SyParser.parseCollection
  simp only [Bool.false_eq_true, if_false]
  rw [fold_plain h rfl, Option.bind_some]
  obtain ⟨P', h1, h2, h3, h4, h5, h6, h7, -⟩ := precompute_force hp (P := { vars := vars, checkIsEqual := false, keepRpn := keep, functions := [] ++ Ts, primeCounter := 0 + sypPrimeIndex p })
    false (Or.inl rfl) (Or.inl (by have := (syp_prime hp).2.2; show p ≠ 0; omega)) (by simpa using forall₂_rpnOK h)
  exact ⟨P', h1, by simpa using h2, by simpa using h3, h5, h6, h7⟩

/-- the values of the functions -/
lemma values_forall₂ {l : ℕ} (hl : l ∈ primes63) [Fact l.Prime] {values : List ℕ} (hv : Canonical l vars values) :
    ∀ {es : List Expr} {Ts : List (List Str)} {cs : List ℕ}, List.Forall₂ (IsRpn vars) es Ts →
      cs.map some = Ts.map (evaluateRpn opTokens l vars values) → List.Forall₂ (IsValue l vars values) es cs
  | [], [], [], _, _ => .nil
  | [], [], _ :: _, _, h => by simp at h
  | _ :: _, _ :: _, [], _, h => by simp at h
  | e :: es, T :: Ts, c :: cs, .cons g gs, h => by
    simp only [List.map_cons, List.cons.injEq] at h
    obtain ⟨c', h1, h2⟩ := g.2.2 l hl values hv
    rw [h1] at h
    obtain rfl : c = c' := by simpa using h.1
    exact .cons h2 (values_forall₂ hl hv gs h.2)

/-- **C64 (collections).** For every list of accepted functions, every prime of the table at the construction, every history of changes
of the prime (to primes of the table, `precompute_tokens()` after each) and all values of the variables, a parser that is constructed
without the search for equal functions, whether it keeps the reverse Polish notation or not, returns with `evaluate_pre` the values of
the functions in the current field, in the order of the list. -/
theorem C64_collection (hvars : ∀ v ∈ vars, IsName v) {p : ℕ} (hp : p ∈ primes63) (r1 r2 : List ℕ) (keep : Bool) {es : List Expr}
    (hes : ∀ e ∈ es, e.Accepted vars) {qs : List ℕ} (hqs : ∀ q ∈ qs, q ∈ primes63) [Fact (lastPrime p qs).Prime] {values : List ℕ}
    (hv : Canonical (lastPrime p qs) vars values) :
    ∃ P P' cs, SyParser.construct p r1 r2 vars false keep (es.map Expr.render) = some P ∧ P.history qs = some P' ∧
      P'.evaluatePreAll (lastPrime p qs) values = some cs ∧ List.Forall₂ (IsValue (lastPrime p qs) vars values) es cs := by
  obtain ⟨Ts, hTs⟩ := accepted_all hvars hes
  obtain ⟨P, h1, h2, h3, h4, h5, h6⟩ := construct_plain hp (r1 := r1) (r2 := r2) (keep := keep) hTs
  have hU := forall₂_rpnOK hTs
  obtain ⟨P', g1, g2, g3, g4, g5, g6, g7⟩ := ready_history qs hp hqs (P := P) (by rw [h4]; exact hvars) (Us := Ts) (by rw [h4]; exact hU) h2
  have hl := lastPrime_mem hp hqs
  have hpre := g2.pre
  rw [g5, h4] at hpre
  obtain ⟨cs, k1, k2⟩ := ready_values hl hv.2 hv.1 hU hpre
  refine ⟨P, P', cs, h1, g1, ?_, values_forall₂ hl hv hTs k2⟩
  unfold SyParser.evaluatePreAll
  rw [k1, Option.bind_some]
  unfold SyParser.positions
  rw [if_pos (by rw [g6, h5])]

/-! #### with the search for equal functions -/

/-- the words by which functions are compared -/
def sypKey (q p : ℕ) (vars : List Str) (r1 r2 : List ℕ) (T : List Str) : ℕ × ℕ :=
  ((evaluateRpn opTokens q vars r1 T).getD 0, (evaluateRpn opTokens p vars r2 T).getD 0)

lemma fold_check {p q : ℕ} (hp : p ∈ primes63) (hq : q ∈ primes63) {r1 r2 : List ℕ} (h1 : Canonical q vars r1) (h2 : Canonical p vars r2) :
    ∀ {es : List Expr} {Ts : List (List Str)}, List.Forall₂ (IsRpn vars) es Ts → ∀ {P : SyParser} {Ss : List (List Str)}, P.checkIsEqual = true →
      P.vars = vars → P.checkVars1 = r1 → P.checkVars2 = r2 → sypCheckPrime P.primeCounter = some q → primes63[P.primeCounter]? = some p →
      Dedup (sypKey q p vars r1 r2) Ss P.functions P.evaluationPositions → P.checkMap = mapOf (sypKey q p vars r1 r2) P.functions →
      ∃ P', (es.map Expr.render).foldlM SyParser.parseOne P = some P' ∧ Dedup (sypKey q p vars r1 r2) (Ss ++ Ts) P'.functions P'.evaluationPositions ∧
        (∀ U ∈ P'.functions, U ∈ P.functions ∨ U ∈ Ts) ∧
        P'.vars = vars ∧ P'.checkIsEqual = true ∧ P'.keepRpn = P.keepRpn ∧ P'.precomputed = P.precomputed ∧ P'.primeInternal = P.primeInternal
  | [], [], _, P, Ss, c1, c2, c3, c4, c5, c6, hd, hm => ⟨P, by simp, by simpa using hd, by simp, c2, c1, rfl, rfl, rfl⟩
  | e :: es, T :: Ts, .cons h hs, P, Ss, c1, c2, c3, c4, c5, c6, hd, hm => by
    rw [List.map_cons, List.foldlM_cons, parseOne_insert h]
    obtain ⟨v1, e1, -⟩ := h.2.1.eval q hq r1 h1.1 h1.2
    obtain ⟨v2, e2, -⟩ := h.2.1.eval p hp r2 h2.1 h2.2
    have hkey : sypKey q p vars r1 r2 T = (v1, v2) := by unfold sypKey; rw [e1, e2]; rfl
    have hcv : ({ P with functions := P.functions ++ [T] } : SyParser).checkValues T = some (v1, v2) := by
      unfold SyParser.checkValues
      simp only [c2, c3, c4, c5, c6, Option.bind_some, e1, e2, Option.map_some]
    obtain ⟨l1, l2⟩ := lookup_mapOf (sypKey q p vars r1 r2) (v1, v2) P.functions
    cases hlk : (mapOf (sypKey q p vars r1 r2) P.functions).lookup (v1, v2) with
    | some k =>
      obtain ⟨U, hU1, hU2⟩ := l1 k hlk
      have hins : P.insertRpn T = some { P with evaluationPositions := P.evaluationPositions ++ [k] } := by
        unfold SyParser.insertRpn
        simp only
        rw [if_pos c1, hcv, Option.map_some, hm, hlk]
        simp only [List.dropLast_concat]
      rw [hins]
      obtain ⟨P', g1, g2, g3, g4⟩ := fold_check hp hq h1 h2 hs (P := { P with evaluationPositions := P.evaluationPositions ++ [k] }) (Ss := Ss ++ [T])
        c1 c2 c3 c4 c5 c6 (dedup_old hd hU1 (hU2.trans hkey.symm)) hm
      refine ⟨P', g1, by simpa using g2, ?_, g4⟩
      intro U hU
      rcases g3 U hU with hU | hU
      · exact Or.inl hU
      · exact Or.inr (by simp [hU])
    | none =>
      have hn := l2 hlk
      have hins : P.insertRpn T = some { P with functions := P.functions ++ [T], checkMap := P.checkMap ++ [((v1, v2), P.functions.length)], evaluationPositions := P.evaluationPositions ++ [P.functions.length] } := by
        unfold SyParser.insertRpn
        simp only
        rw [if_pos c1, hcv, Option.map_some, hm, hlk]
        simp only [List.length_append, List.length_singleton, Nat.add_sub_cancel]
      rw [hins]
      obtain ⟨P', g1, g2, g3, g4⟩ := fold_check hp hq h1 h2 hs
        (P := { P with functions := P.functions ++ [T], checkMap := P.checkMap ++ [((v1, v2), P.functions.length)], evaluationPositions := P.evaluationPositions ++ [P.functions.length] }) (Ss := Ss ++ [T])
        c1 c2 c3 c4 c5 c6 (dedup_new hd (by rw [hkey]; exact hn)) (by rw [mapOf_snoc, hkey, hm])
      refine ⟨P', g1, by simpa using g2, ?_, g4⟩
      intro U hU
      rcases g3 U hU with hU | hU
      · rcases List.mem_append.mp hU with hU | hU
        · exact Or.inl hU
        · right; simp only [List.mem_singleton] at hU; subst hU; simp
      · exact Or.inr (by simp [hU])

lemma primeIndex_of {p i : ℕ} (h : primes63[i]? = some p) : sypPrimeIndex p = i := by
  obtain ⟨hi, rfl⟩ := List.getElem?_eq_some_iff.mp h
  unfold sypPrimeIndex
  have hnd : primes63.Nodup := by
    have := C07_primes63.2.2.1
    exact this.imp (fun h => ne_of_gt h)
  rw [List.findIdx_eq hi]
  refine ⟨by simp, ?_⟩
  intro j hj
  simp only [beq_eq_false_iff_ne, ne_eq]
  intro he
  have := (List.Nodup.getElem_inj_iff hnd (hi := by omega) (hj := hi)).mp he
  omega

/-- the positions of the values -/
lemma positions_dedup {P : SyParser} {κ : Type} {key : List Str → κ} {Ts Us : List (List Str)} (hc : P.checkIsEqual = true)
    (hd : Dedup key Ts Us P.evaluationPositions) (hf : P.functions = Us ∨ P.functions = []) {res : List ℕ} (hres : res.length = Us.length) :
    ∃ cs, P.positions res = some cs ∧ cs.map some = P.evaluationPositions.map (fun k => res[k]?) := by
  have hall : ∀ k ∈ P.evaluationPositions, ∃ c, res[k]? = some c := by
    intro k hk
    obtain ⟨i, hi, rfl⟩ := List.mem_iff_getElem.mp hk
    obtain ⟨T, U, -, h2, -⟩ := hd.get i _ (List.getElem?_eq_getElem hi)
    have := (List.getElem?_eq_some_iff.mp h2).1
    exact ⟨_, List.getElem?_eq_getElem (by rw [hres]; exact this)⟩
  have hm : ∀ {pos : List ℕ}, (∀ k ∈ pos, ∃ c, res[k]? = some c) → ∃ cs, pos.mapM (fun k => res[k]?) = some cs ∧ cs.map some = pos.map (fun k => res[k]?) := by
    intro pos
    induction pos with
    | nil => intro _; exact ⟨[], rfl, rfl⟩
    | cons k pos ih =>
      intro h
      obtain ⟨c, hk⟩ := h k (by simp)
      obtain ⟨cs, g1, g2⟩ := ih (fun k hk => h k (by simp [hk]))
      exact ⟨c :: cs, by rw [List.mapM_cons, hk, g1]; rfl, by simp only [List.map_cons, hk, g2]⟩
  unfold SyParser.positions
  rw [if_neg (by rw [hc]; simp)]
  by_cases hlen : P.functions.length = P.evaluationPositions.length
  · rw [if_neg (by rw [hlen]; simp)]
    refine ⟨res, rfl, ?_⟩
    have hU : Us.length = P.evaluationPositions.length := by
      rcases hf with hf | hf
      · rw [← hf]; exact hlen
      · have := hd.le; rw [hf] at hlen; simp at hlen; omega
    rw [hd.ident hU, ← hU, ← hres]
    apply List.ext_getElem?
    intro i
    rw [List.getElem?_map, List.getElem?_map]
    by_cases hi : i < res.length
    · rw [List.getElem?_range hi, List.getElem?_eq_getElem hi]; simp
    · rw [List.getElem?_eq_none (by omega), List.getElem?_eq_none (by simp; omega)]; rfl
  · rw [if_pos hlen]
    exact hm hall

lemma isValue_inj {p : ℕ} [Fact p.Prime] {values : List ℕ} {e e' : Expr} {c c' : ℕ} (h : IsValue p vars values e c) (h' : IsValue p vars values e' c') :
    c = c' ↔ e.denote (varEnv p vars values) = e'.denote (varEnv p vars values) := by
  rw [← h.2, ← h'.2]
  constructor
  · rintro rfl; rfl
  · intro he
    rw [ZMod.natCast_eq_natCast_iff'] at he
    rwa [Nat.mod_eq_of_lt h.1, Nat.mod_eq_of_lt h'.1] at he

lemma forall₂_get : ∀ {es : List Expr} {Ts : List (List Str)}, List.Forall₂ (IsRpn vars) es Ts →
    (∀ (i : ℕ) e, es[i]? = some e → ∃ T, Ts[i]? = some T ∧ IsRpn vars e T) ∧ (∀ (i : ℕ) T, Ts[i]? = some T → ∃ e, es[i]? = some e ∧ IsRpn vars e T)
  | [], [], _ => by simp
  | e :: es, T :: Ts, .cons h hs => by
    obtain ⟨h1, h2⟩ := forall₂_get hs
    refine ⟨?_, ?_⟩
    · intro i e' hi
      cases i with
      | zero => simp at hi; subst hi; exact ⟨T, by simp, h⟩
      | succ i => simp at hi; obtain ⟨T', g1, g2⟩ := h1 i e' hi; exact ⟨T', by simpa using g1, g2⟩
    · intro i T' hi
      cases i with
      | zero => simp at hi; subst hi; exact ⟨e, by simp, h⟩
      | succ i => simp at hi; obtain ⟨e', g1, g2⟩ := h2 i T' hi; exact ⟨e', by simpa using g1, g2⟩

lemma sypKey_eq {p q : ℕ} (hp : p ∈ primes63) (hq : q ∈ primes63) [Fact q.Prime] [Fact p.Prime] {r1 r2 : List ℕ} (h1 : Canonical q vars r1) (h2 : Canonical p vars r2)
    {e e' : Expr} {T T' : List Str} (h : IsRpn vars e T) (h' : IsRpn vars e' T') :
    sypKey q p vars r1 r2 T = sypKey q p vars r1 r2 T' ↔ SameCheck q p vars r1 r2 e e' := by
  obtain ⟨c1, a1, b1⟩ := h.2.2 q hq r1 h1
  obtain ⟨c2, a2, b2⟩ := h.2.2 p hp r2 h2
  obtain ⟨c1', a1', b1'⟩ := h'.2.2 q hq r1 h1
  obtain ⟨c2', a2', b2'⟩ := h'.2.2 p hp r2 h2
  unfold sypKey SameCheck
  rw [a1, a2, a1', a2', ← isValue_inj b1 b1', ← isValue_inj b2 b2']
  simp

lemma checkPrime_mem {p q : ℕ} (h : CheckPrime p q) : p ∈ primes63 ∧ q ∈ primes63 := by
  obtain ⟨i, h1, h2⟩ := h
  exact ⟨List.mem_of_getElem? h1, List.mem_of_getElem? h2⟩

/-- a parser that is constructed with the search for equal functions -/
lemma construct_check {p q : ℕ} (hpq : CheckPrime p q) {r1 r2 : List ℕ} (h1 : Canonical q vars r1) (h2 : Canonical p vars r2) {keep : Bool}
    {es : List Expr} {Ts : List (List Str)} (h : List.Forall₂ (IsRpn vars) es Ts) :
    ∃ P Us, SyParser.construct p r1 r2 vars true keep (es.map Expr.render) = some P ∧ SypReady P p Us ∧ P.functions = (if keep then Us else []) ∧
      Dedup (sypKey q p vars r1 r2) Ts Us P.evaluationPositions ∧ (∀ U ∈ Us, U ∈ Ts) ∧
      P.vars = vars ∧ P.checkIsEqual = true ∧ P.keepRpn = keep ∧ P.checkVars1 = [] ∧ P.checkVars2 = [] := by
  obtain ⟨hp, hq⟩ := checkPrime_mem hpq
  obtain ⟨i, hi1, hi2⟩ := hpq
  have hidx := primeIndex_of hi1
  have hcp : sypCheckPrime (0 + sypPrimeIndex p) = some q := by
    unfold sypCheckPrime
    rw [hidx, ← hi2, Nat.zero_add]
    by_cases h299 : i = 299
    · subst h299; rfl
    · rw [if_pos h299, if_neg h299]
  unfold SyParser.construct SyParser.parseCollection
  simp only [if_true]
  obtain ⟨P, g1, g2, g3, g4, g5, g6, g7, g8⟩ := fold_check hp hq h1 h2 h
    (P := { vars := vars, checkIsEqual := true, keepRpn := keep, primeCounter := 0 + sypPrimeIndex p, checkVars1 := r1, checkVars2 := r2 }) (Ss := [])
    rfl rfl rfl rfl hcp (by simp only; rw [Nat.zero_add, hidx]; exact hi1) (dedup_nil _) rfl
  rw [g1, Option.bind_some]
  have hmem : ∀ U ∈ P.functions, U ∈ Ts := by
    intro U hU
    rcases g3 U hU with hU | hU
    · simp at hU
    · exact hU
  have hok := forall₂_rpnOK h
  obtain ⟨P', k1, k2, k3, k4, k5, k6, k7, k8, k9, -⟩ := precompute_force hp (P := P) false (Or.inl g7)
    (Or.inl (by rw [g8]; have := (syp_prime hp).2.2; show p ≠ 0; omega)) (by rw [g4]; exact fun T hT => hok T (hmem T hT))
  refine ⟨P', P.functions, k1, k2, ?_, ?_, hmem, k5.trans g4, k6.trans g5, k7.trans g6, k8, k9⟩
  · rw [k3, g6]
  · rw [k4]; simpa using g2

/-- **C64 (equal functions).** For every list of accepted functions, every prime of the table at the construction, all check points, every
history of changes of the prime and all values of the variables, a parser that is constructed with the search for equal functions returns
with `evaluate_pre` one value for each function of the list: the value in the current field of the first function of the list that has the
same values at the check points. -/
theorem C64_equal {p q : ℕ} [Fact p.Prime] [Fact q.Prime] (hpq : CheckPrime p q) (hvars : ∀ v ∈ vars, IsName v) {r1 r2 : List ℕ}
    (h1 : Canonical q vars r1) (h2 : Canonical p vars r2) (keep : Bool) {es : List Expr} (hes : ∀ e ∈ es, e.Accepted vars)
    {qs : List ℕ} (hqs : ∀ q ∈ qs, q ∈ primes63) [Fact (lastPrime p qs).Prime] {values : List ℕ} (hv : Canonical (lastPrime p qs) vars values) :
    ∃ P P' cs, SyParser.construct p r1 r2 vars true keep (es.map Expr.render) = some P ∧ P.history qs = some P' ∧
      P'.evaluatePreAll (lastPrime p qs) values = some cs ∧ cs.length = es.length ∧
      ∀ (i : ℕ) e c, es[i]? = some e → cs[i]? = some c →
        ∃ (j : ℕ) (e' : Expr), j ≤ i ∧ es[j]? = some e' ∧ SameCheck q p vars r1 r2 e' e ∧
          (∀ j' < j, ∀ e'' : Expr, es[j']? = some e'' → ¬ SameCheck q p vars r1 r2 e'' e) ∧ IsValue (lastPrime p qs) vars values e' c := by
  obtain ⟨Ts, hTs⟩ := accepted_all hvars hes
  obtain ⟨hp, hq⟩ := checkPrime_mem hpq
  obtain ⟨P, Us, c1, c2, c3, c4, c5, c6, c7, c8, -⟩ := construct_check hpq h1 h2 (keep := keep) hTs
  have hok := forall₂_rpnOK hTs
  have hU : ∀ T ∈ Us, RpnOK vars T := fun T hT => hok T (c5 T hT)
  obtain ⟨P', g1, g2, g3, g4, g5, g6, g7⟩ := ready_history qs hp hqs (P := P) (by rw [c6]; exact hvars) (Us := Us) (by rw [c6]; exact hU) c2
  have hl := lastPrime_mem hp hqs
  have hpre := g2.pre
  rw [g5, c6] at hpre
  obtain ⟨res, k1, k2⟩ := ready_values hl hv.2 hv.1 hU hpre
  have hreslen : res.length = Us.length := by have := congrArg List.length k2; simpa using this
  obtain ⟨cs, m1, m2⟩ := positions_dedup (P := P') (g6.trans c7) (by rw [g4]; exact c4)
    (by rw [g3, c3]; cases keep; exact Or.inr rfl; exact Or.inl rfl) hreslen
  obtain ⟨t1, t2⟩ := forall₂_get hTs
  refine ⟨P, P', cs, c1, g1, ?_, ?_, ?_⟩
  · unfold SyParser.evaluatePreAll
    rw [k1, Option.bind_some]; exact m1
  · have := congrArg List.length m2
    simp only [List.length_map] at this
    rw [this, g4, c4.len, hTs.length_eq]
  · intro i e c hi hc
    obtain ⟨T, hT, hTr⟩ := t1 i e hi
    have hm := congrArg (fun l => l[i]?) m2
    simp only [List.getElem?_map, hc, Option.map_some] at hm
    rw [g4] at hm
    obtain ⟨k, hk1, hk2⟩ : ∃ k, P.evaluationPositions[i]? = some k ∧ res[k]? = some c := by
      cases hk : P.evaluationPositions[i]? with
      | none => rw [hk] at hm; simp at hm
      | some k => rw [hk] at hm; simp only [Option.map_some, Option.some.injEq] at hm; exact ⟨k, rfl, hm.symm⟩
    obtain ⟨T', U, e1, e2, e3⟩ := c4.get i k hk1
    rw [hT] at e1; cases e1
    obtain ⟨j, f1, f2⟩ := c4.src k U e2
    obtain ⟨e', hj, hjr⟩ := t2 j U f1
    refine ⟨j, e', ?_, hj, (sypKey_eq hp hq h1 h2 hjr hTr).mp e3, ?_, ?_⟩
    · by_contra hlt
      exact f2 i (by omega) T hT e3.symm
    · intro j' hj' e'' he'' hs
      obtain ⟨T'', hT'', hTr''⟩ := t1 j' e'' he''
      exact f2 j' hj' T'' hT'' (((sypKey_eq hp hq h1 h2 hTr'' hTr).mpr hs).trans e3.symm)
    · have hr := congrArg (fun l => l[k]?) k2
      simp only [List.getElem?_map, hk2, e2, Option.map_some, Option.some.injEq] at hr
      obtain ⟨c', d1, d2⟩ := hjr.2.2 _ hl values hv
      rw [d1] at hr; cases hr
      exact d2

/-- **C64 (equal functions, exactness).** If functions of the list with the same values at the check points have the same value at the
point of the evaluation, for instance since they are equal, then the parser with the search for equal functions returns the values of all
functions of the list in order. -/
theorem C64_equal_exact {p q : ℕ} [Fact p.Prime] [Fact q.Prime] (hpq : CheckPrime p q) (hvars : ∀ v ∈ vars, IsName v) {r1 r2 : List ℕ}
    (h1 : Canonical q vars r1) (h2 : Canonical p vars r2) (keep : Bool) {es : List Expr} (hes : ∀ e ∈ es, e.Accepted vars)
    {qs : List ℕ} (hqs : ∀ q ∈ qs, q ∈ primes63) [Fact (lastPrime p qs).Prime] {values : List ℕ} (hv : Canonical (lastPrime p qs) vars values)
    (hsep : ∀ e ∈ es, ∀ e' ∈ es, SameCheck q p vars r1 r2 e e' →
      e.denote (varEnv (lastPrime p qs) vars values) = e'.denote (varEnv (lastPrime p qs) vars values)) :
    ∃ P P' cs, SyParser.construct p r1 r2 vars true keep (es.map Expr.render) = some P ∧ P.history qs = some P' ∧
      P'.evaluatePreAll (lastPrime p qs) values = some cs ∧ List.Forall₂ (IsValue (lastPrime p qs) vars values) es cs := by
  obtain ⟨P, P', cs, g1, g2, g3, g4, g5⟩ := C64_equal hpq hvars h1 h2 keep hes hqs hv
  refine ⟨P, P', cs, g1, g2, g3, ?_⟩
  rw [List.forall₂_iff_get]
  refine ⟨g4.symm, ?_⟩
  intro i hi1 hi2
  obtain ⟨j, e', a1, a2, a3, a4, a5⟩ := g5 i es[i] cs[i] (List.getElem?_eq_getElem hi1) (List.getElem?_eq_getElem hi2)
  simp only [List.get_eq_getElem]
  refine ⟨a5.1, a5.2.trans (hsep e' (List.mem_of_getElem? a2) _ (List.getElem_mem hi1) a3)⟩

end

end FireFly
