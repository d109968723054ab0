import Verif.Props.ParserObjProps
import Mathlib.Data.List.SplitOn
/-!
# C64: files, functions that are added later, trimming, the public evaluations
-/
set_option linter.all false
namespace FireFly

/-! ### files -/

section
variable [LongDouble] {vars : List Str}

lemma fileFunctions_pieces {ls : List Str} (hls : ls ≠ []) (h : ∀ l ∈ ls, ';' ∉ l) :
    sypFileFunctions (List.intercalate [';'] ls) = (ls.map fun l => l.filter fun c => !sypBlank c).filter fun l => decide (l.length > 0) := by
  unfold sypFileFunctions
  rw [List.splitOn_intercalate _ h hls]

lemma render_ne_nil {e : Expr} {P N : ℕ} (hvars : ∀ v ∈ vars, IsName v) (h : e.WF vars P N) : e.render ≠ [] := by
  cases e with
  | num ds => exact h.1
  | var n =>
    obtain ⟨c, hc, -⟩ := (hvars n h).2.2
    intro hn
    rw [Expr.render] at hn
    rw [hn] at hc; simp at hc
  | paren e => simp [Expr.render]
  | pow a x => simp [Expr.render]
  | mul a b => simp [Expr.render]
  | div a b => simp [Expr.render]
  | add a b => simp [Expr.render]
  | sub k a b => cases k <;> simp [Expr.render, Minus.render]
  | neg k a => cases k <;> simp [Expr.render, Minus.render]
  | pos a => simp [Expr.render]

lemma pieces_functions (hvars : ∀ v ∈ vars, IsName v) : ∀ {ls : List Str} {es : List Expr}, (∀ e ∈ es, e.Accepted vars) →
    List.Forall₂ (fun l e => l.filter (fun c => !sypBlank c) = Expr.render e) ls es →
    ((ls.map fun l => l.filter fun c => !sypBlank c).filter fun l => decide (l.length > 0)) = es.map Expr.render
  | [], [], _, _ => rfl
  | l :: ls, e :: es, hes, .cons h hs => by
    have hne := render_ne_nil hvars (hes e (by simp)).1
    have := pieces_functions hvars (fun e he => hes e (by simp [he])) hs
    rw [List.map_cons, h, List.filter_cons_of_pos (by simpa using List.length_pos_iff.mpr hne), this]
    rfl

/-- **C64 (files).** A file with functions that are separated by semicolons, with any blanks, tabulators and line breaks in them and after
the last semicolon, gives the same parser as the list of the functions. -/
theorem C64_file (hvars : ∀ v ∈ vars, IsName v) (p : ℕ) (r1 r2 : List ℕ) (check keep : Bool) {es : List Expr} (hes : ∀ e ∈ es, e.Accepted vars)
    {ls : List Str} (hsemi : ∀ l ∈ ls, ';' ∉ l)
    (h : List.Forall₂ (fun l e => l.filter (fun c => !(c == ' ' || c == '\t' || c == '\n')) = Expr.render e) ls es)
    {tail : Str} (htail : ∀ c ∈ tail, c = ' ' ∨ c = '\t' ∨ c = '\n') :
    SyParser.constructFile p r1 r2 vars check keep (List.intercalate [';'] (ls ++ [tail])) =
      SyParser.construct p r1 r2 vars check keep (es.map Expr.render) := by
  unfold SyParser.constructFile
  have ht : tail.filter (fun c => !sypBlank c) = [] := by
    rw [List.filter_eq_nil_iff]
    intro c hc
    rcases htail c hc with rfl | rfl | rfl <;> simp [sypBlank]
  rw [fileFunctions_pieces (by simp), List.map_append, List.filter_append, pieces_functions hvars hes h]
  · simp [ht]
  · intro l hl
    rcases List.mem_append.mp hl with hl | hl
    · exact hsemi l hl
    · simp only [List.mem_singleton] at hl; subst hl
      intro hc
      rcases htail _ hc with h | h | h <;> exact absurd h (by decide)

/-- the same without a semicolon after the last function -/
theorem C64_file_unterminated (hvars : ∀ v ∈ vars, IsName v) (p : ℕ) (r1 r2 : List ℕ) (check keep : Bool) {es : List Expr} (hes : ∀ e ∈ es, e.Accepted vars)
    {ls : List Str} (hls : ls ≠ []) (hsemi : ∀ l ∈ ls, ';' ∉ l)
    (h : List.Forall₂ (fun l e => l.filter (fun c => !(c == ' ' || c == '\t' || c == '\n')) = Expr.render e) ls es) :
    SyParser.constructFile p r1 r2 vars check keep (List.intercalate [';'] ls) =
      SyParser.construct p r1 r2 vars check keep (es.map Expr.render) := by
  unfold SyParser.constructFile
  rw [fileFunctions_pieces hls hsemi, pieces_functions hvars hes h]

/-! ### functions that are added later -/

/-- `add_otf` for a list of functions: the parser, the returned positions and the prime afterwards -/
def SyParser.addOtfs (p : ℕ) (P : SyParser) : List Str → Option (SyParser × List ℕ × ℕ)
  | [] => some (P, [], p)
  | f :: fs => (P.addOtf p f false).bind fun r => (SyParser.addOtfs r.2.2 r.1 fs).map fun r' => (r'.1, r.2.1 :: r'.2.1, r'.2.2)

lemma addOtf_plain {p : ℕ} {e : Expr} {T : List Str} (h : IsRpn vars e T) {nd : Bool} {P : SyParser} (hP : P.checkIsEqual = false) :
    P.addOtf p e.render nd = some ({ P with functions := P.functions ++ [T] }, P.functions.length, p) := by
  obtain ⟨⟨f, h1, h2⟩, -⟩ := h
  unfold SyParser.addOtf
  rw [h1, Option.bind_some, h2, Option.bind_some, if_pos hP]

lemma addOtfs_plain {p : ℕ} : ∀ {es : List Expr} {Ts : List (List Str)}, List.Forall₂ (IsRpn vars) es Ts → ∀ {P : SyParser}, P.checkIsEqual = false →
    P.addOtfs p (es.map Expr.render) = some ({ P with functions := P.functions ++ Ts }, List.range' P.functions.length es.length, p)
  | [], [], _, P, _ => by simp [SyParser.addOtfs]
  | e :: es, T :: Ts, .cons h hs, P, hP => by
    rw [List.map_cons, SyParser.addOtfs, addOtf_plain h hP, Option.bind_some]
    simp only
    rw [addOtfs_plain hs (P := { P with functions := P.functions ++ [T] }) hP]
    simp [List.range'_succ]

/-- a parser without the search for equal functions with precomputed tokens -/
lemma ready_evaluate {P : SyParser} {l : ℕ} (hl : l ∈ primes63) [Fact l.Prime] {es : List Expr} {Ts : List (List Str)} (hTs : List.Forall₂ (IsRpn vars) es Ts)
    (hP : SypReady P l Ts) (hvar : P.vars = vars) (hc : P.checkIsEqual = false) {values : List ℕ} (hv : Canonical l vars values) :
    ∃ cs, P.evaluatePreAll l values = some cs ∧ List.Forall₂ (IsValue l vars values) es cs := by
  have hpre := hP.pre
  rw [hvar] at hpre
  obtain ⟨cs, k1, k2⟩ := ready_values hl hv.2 hv.1 (forall₂_rpnOK hTs) hpre
  refine ⟨cs, ?_, values_forall₂ hl hv hTs k2⟩
  unfold SyParser.evaluatePreAll
  rw [k1, Option.bind_some]
  unfold SyParser.positions
  rw [if_pos hc]

/-- **C64 (add_otf).** In a parser without the search for equal functions that keeps the reverse Polish notation, or that was constructed
for an empty list, every function added by `add_otf` gets the next position; after `precompute_tokens(true)` with any current prime of the
table and after every history of changes of the prime, `evaluate_pre` returns the values of all functions of the list and all added ones,
at the positions returned. -/
theorem C64_add_otf (hvars : ∀ v ∈ vars, IsName v) {p : ℕ} (hp : p ∈ primes63) (r1 r2 : List ℕ) {keep : Bool} {es fs : List Expr}
    (hk : keep = true ∨ es = []) (hes : ∀ e ∈ es, e.Accepted vars) (hfs : ∀ e ∈ fs, e.Accepted vars)
    {p' : ℕ} (hp' : p' ∈ primes63) {qs : List ℕ} (hqs : ∀ q ∈ qs, q ∈ primes63) [Fact (lastPrime p' qs).Prime] {values : List ℕ}
    (hv : Canonical (lastPrime p' qs) vars values) :
    ∃ P P1 P2 P3 cs, SyParser.construct p r1 r2 vars false keep (es.map Expr.render) = some P ∧
      P.addOtfs p' (fs.map Expr.render) = some (P1, List.range' es.length fs.length, p') ∧
      P1.precomputeTokens p' true = some P2 ∧ P2.history qs = some P3 ∧
      P3.evaluatePreAll (lastPrime p' qs) values = some cs ∧ List.Forall₂ (IsValue (lastPrime p' qs) vars values) (es ++ fs) cs := by
  obtain ⟨Ts, hTs⟩ := accepted_all hvars hes
  obtain ⟨Fs, hFs⟩ := accepted_all hvars hfs
  obtain ⟨P, h1, h2, h3, h4, h5, h6⟩ := construct_plain hp (r1 := r1) (r2 := r2) (keep := keep) hTs
  have hfun : P.functions = Ts := by
    rw [h3]
    rcases hk with rfl | rfl
    · rfl
    · cases hTs; simp
  have hadd := addOtfs_plain (p := p') hFs h5
  rw [hfun, ← hTs.length_eq] at hadd
  have hall : List.Forall₂ (IsRpn vars) (es ++ fs) (Ts ++ Fs) := List.rel_append hTs hFs
  have hU := forall₂_rpnOK hall
  obtain ⟨P2, g1, g2, g3, g4, g5, g6, g7, -⟩ := precompute_force hp' (P := { P with functions := Ts ++ Fs }) true (Or.inr rfl) (Or.inr rfl)
    (by rw [h4]; exact hU)
  have hv2 : P2.vars = vars := g5.trans h4
  obtain ⟨P3, k1, k2, k3, k4, k5, k6, k7⟩ := ready_history qs hp' hqs (P := P2) (by rw [hv2]; exact hvars) (Us := Ts ++ Fs) (by rw [hv2]; exact hU) g2
  obtain ⟨cs, m1, m2⟩ := ready_evaluate (lastPrime_mem hp' hqs) hall k2 (k5.trans hv2) (k6.trans (g6.trans h5)) hv
  exact ⟨P, _, P2, P3, cs, h1, hadd, g1, k1, m1, m2⟩

/-- **C64 (add_otf), violated.** If the parser does not keep the reverse Polish notation (the default) and was constructed for a nonempty
list, the position returned by `add_otf` is 0, that of the first function of the list, and `precompute_tokens(true)` replaces all functions
of the list by the added one. -/
theorem C64_add_otf_violated (hvars : ∀ v ∈ vars, IsName v) {p : ℕ} (hp : p ∈ primes63) (r1 r2 : List ℕ) {es : List Expr} {f : Expr}
    (hne : es ≠ []) (hes : ∀ e ∈ es, e.Accepted vars) (hf : f.Accepted vars) [Fact p.Prime] {values : List ℕ} (hv : Canonical p vars values) :
    ∃ P P1 P2 c, SyParser.construct p r1 r2 vars false false (es.map Expr.render) = some P ∧
      P.addOtf p f.render false = some (P1, 0, p) ∧ P1.precomputeTokens p true = some P2 ∧
      P2.evaluatePreAll p values = some [c] ∧ IsValue p vars values f c := by
  obtain ⟨Ts, hTs⟩ := accepted_all hvars hes
  obtain ⟨Fs, hFs⟩ := accepted_all hvars (es := [f]) (by simpa using hf)
  obtain ⟨T, u1, hT, hnil, rfl⟩ := List.forall₂_cons_left_iff.mp hFs
  cases hnil
  obtain ⟨P, h1, h2, h3, h4, h5, h6⟩ := construct_plain hp (r1 := r1) (r2 := r2) (keep := false) hTs
  have hfun : P.functions = [] := by rw [h3]; simp
  have hadd := addOtf_plain (p := p) (nd := false) hT h5
  rw [hfun] at hadd
  obtain ⟨P2, g1, g2, g3, g4, g5, g6, g7, -⟩ := precompute_force hp (P := { P with functions := [] ++ [T] }) true (Or.inr rfl) (Or.inr rfl)
    (by rw [h4]; exact forall₂_rpnOK hFs)
  have hv2 : P2.vars = vars := g5.trans h4
  obtain ⟨cs, m1, m2⟩ := ready_evaluate hp hFs g2 hv2 (g6.trans h5) hv
  obtain ⟨c, u2, hc, hnil', rfl⟩ := List.forall₂_cons_left_iff.mp m2
  cases hnil'
  exact ⟨P, _, P2, c, h1, hadd, g1, m1, hc⟩

lemma evalFold_novar {p : ℕ} {T : List Str} {t : Str} (ht : t ∈ T) (hop : t ∉ opTokens) {i : ℕ}
    (hc : classify vars t = some (.var i) ∨ classify vars t = some (.negVar i)) : ∀ S, T.foldlM (evalStep opTokens p vars []) S = none := by
  induction T with
  | nil => simp at ht
  | cons a T ih =>
    intro S
    rw [List.foldlM_cons]
    by_cases ha : t = a
    · subst ha
      have : evalStep opTokens p vars [] S t = none := by
        unfold evalStep
        rw [if_neg hop]
        rcases hc with hc | hc <;> rw [hc] <;> simp [Operand.word]
      rw [this]; rfl
    · have hT : t ∈ T := by
        rcases List.mem_cons.mp ht with h | h
        · exact absurd h ha
        · exact h
      cases evalStep opTokens p vars [] S a with
      | none => rfl
      | some S' => exact ih hT S'

/-- **C64 (add_otf with the search for equal functions), violated.** The constructor erases the check points, so that adding any function
with a variable to a parser with the search for equal functions reads outside of a vector. -/
theorem C64_add_otf_equal_violated {p q : ℕ} (hpq : CheckPrime p q) (hvars : ∀ v ∈ vars, IsName v) {r1 r2 : List ℕ}
    (h1 : Canonical q vars r1) (h2 : Canonical p vars r2) (keep : Bool) {es : List Expr} (hes : ∀ e ∈ es, e.Accepted vars)
    {f g : Str} {T : List Str} (hf : validate f = some g) (hg : parse g = some T) {t : Str} (ht : t ∈ T) (hop : t ∉ opTokens) {i : ℕ}
    (hc : classify vars t = some (.var i) ∨ classify vars t = some (.negVar i)) (p' : ℕ) (nd : Bool) :
    ∃ P, SyParser.construct p r1 r2 vars true keep (es.map Expr.render) = some P ∧ P.addOtf p' f nd = none := by
  obtain ⟨Ts, hTs⟩ := accepted_all hvars hes
  obtain ⟨P, Us, c1, c2, c3, c4, c5, c6, c7, c8, c9, c10⟩ := construct_check hpq h1 h2 (keep := keep) hTs
  refine ⟨P, c1, ?_⟩
  unfold SyParser.addOtf
  rw [hf, Option.bind_some, hg, Option.bind_some, if_neg (by rw [c7]; simp)]
  have : P.checkValues T = none := by
    unfold SyParser.checkValues
    rw [c6, c9, c10]
    cases sypCheckPrime P.primeCounter with
    | none => rfl
    | some q' =>
      cases primes63[P.primeCounter]? with
      | none => rfl
      | some p'' =>
        simp only [Option.bind_some]
        have : evaluateRpn opTokens q' vars [] T = none := by
          unfold evaluateRpn
          rw [evalFold_novar ht hop hc]; rfl
        rw [this]; rfl
  rw [this]; rfl

/-- `add_otf_precompute` for a list of functions -/
def SyParser.addOtfPrecomputes (p : ℕ) (P : SyParser) : List (List Str) → Option (SyParser × List ℕ)
  | [] => some (P, [])
  | T :: Ts => (P.addOtfPrecompute p T).bind fun r => (SyParser.addOtfPrecomputes p r.1 Ts).map fun r' => (r'.1, r.2 :: r'.2)

lemma ready_addOtfPrecompute {p : ℕ} (hp : p ∈ primes63) {P : SyParser} {Us : List (List Str)} (h : SypReady P p Us) {T : List Str} (hT : RpnOK P.vars T) :
    ∃ P', P.addOtfPrecompute p T = some (P', Us.length) ∧ SypReady P' p (Us ++ [T]) ∧ P'.vars = P.vars ∧ P'.checkIsEqual = P.checkIsEqual := by
  obtain ⟨s, hs⟩ := rpn_precompute hp hT
  have hl1 : P.precompTokens.length = Us.length := by have := congrArg List.length h.pre; simpa using this
  have hl2 : P.partialRpn.length = Us.length := by have := congrArg List.length h.part; simpa using this
  unfold SyParser.addOtfPrecompute
  simp only
  have hpr : (P.partialRpn ++ [[]])[P.precompTokens.length]? = some [] := by rw [hl1, ← hl2]; simp
  have hs' : T.foldlM (preStep p P.vars) ([], []) = some s := hs
  rw [hpr, Option.bind_some, hs', Option.map_some, hl1]
  refine ⟨_, rfl, ⟨?_, ?_, h.done, rfl⟩, rfl, rfl⟩
  · simp only [List.map_append, List.map_cons, List.map_nil, h.pre, hs, Option.map_some]
  · simp only [List.map_append, List.map_cons, List.map_nil]
    rw [← hl2, List.set_append_right _ _ le_rfl]
    simp only [Nat.sub_self, List.set_cons_zero, List.map_append, List.map_cons, List.map_nil, h.part, hs, Option.map_some]

/-- **C64 (add_otf_precompute).** Functions in reverse Polish notation (as another parser returns them) that are added by
`add_otf_precompute` to a parser without the search for equal functions, after any history of changes of the prime with
`precompute_tokens()` after each, get the next positions, and `evaluate_pre` returns the values of all functions at their positions,
also after every further history of changes of the prime. -/
theorem C64_add_otf_precompute (hvars : ∀ v ∈ vars, IsName v) {p : ℕ} (hp : p ∈ primes63) (r1 r2 : List ℕ) (keep : Bool) {es fs : List Expr}
    (hes : ∀ e ∈ es, e.Accepted vars) (hfs : ∀ e ∈ fs, e.Accepted vars) {qs : List ℕ} (hqs : ∀ q ∈ qs, q ∈ primes63)
    {qs' : List ℕ} (hqs' : ∀ q ∈ qs', q ∈ primes63) [Fact (lastPrime (lastPrime p qs) qs').Prime] {values : List ℕ}
    (hv : Canonical (lastPrime (lastPrime p qs) qs') vars values) :
    ∃ P0 P P1 P2 P3 cs, SyParser.construct p r1 r2 vars false true (fs.map Expr.render) = some P0 ∧
      SyParser.construct p r1 r2 vars false keep (es.map Expr.render) = some P ∧ P.history qs = some P1 ∧
      P1.addOtfPrecomputes (lastPrime p qs) P0.functions = some (P2, List.range' es.length fs.length) ∧ P2.history qs' = some P3 ∧
      P3.evaluatePreAll (lastPrime (lastPrime p qs) qs') values = some cs ∧
      List.Forall₂ (IsValue (lastPrime (lastPrime p qs) qs') vars values) (es ++ fs) cs := by
  obtain ⟨Ts, hTs⟩ := accepted_all hvars hes
  obtain ⟨Fs, hFs⟩ := accepted_all hvars hfs
  obtain ⟨P0, a1, -, a3, -⟩ := construct_plain hp (r1 := r1) (r2 := r2) (keep := true) hFs
  rw [if_pos rfl] at a3
  obtain ⟨P, h1, h2, h3, h4, h5, h6⟩ := construct_plain hp (r1 := r1) (r2 := r2) (keep := keep) hTs
  have hU := forall₂_rpnOK hTs
  obtain ⟨P1, g1, g2, g3, g4, g5, g6, g7⟩ := ready_history qs hp hqs (P := P) (by rw [h4]; exact hvars) (Us := Ts) (by rw [h4]; exact hU) h2
  have hl := lastPrime_mem hp hqs
  have hadd : ∀ {Fs : List (List Str)} {Us : List (List Str)} {P1 : SyParser}, (∀ T ∈ Fs, RpnOK vars T) → SypReady P1 (lastPrime p qs) Us → P1.vars = vars → P1.checkIsEqual = false →
      ∃ P2, P1.addOtfPrecomputes (lastPrime p qs) Fs = some (P2, List.range' Us.length Fs.length) ∧ SypReady P2 (lastPrime p qs) (Us ++ Fs) ∧ P2.vars = vars ∧ P2.checkIsEqual = false := by
    intro Fs
    induction Fs with
    | nil => intro Us P1 _ hr hvv hcc; exact ⟨P1, by simp [SyParser.addOtfPrecomputes], by simpa using hr, hvv, hcc⟩
    | cons T Fs ih =>
      intro Us P1 hF hr hvv hcc
      obtain ⟨P', b1, b2, b3, b4⟩ := ready_addOtfPrecompute hl hr (T := T) (by rw [hvv]; exact hF T (by simp))
      obtain ⟨P2, d1, d2, d3, d4⟩ := ih (Us := Us ++ [T]) (fun T hT => hF T (by simp [hT])) b2 (b3.trans hvv) (b4.trans hcc)
      refine ⟨P2, ?_, by simpa using d2, d3, d4⟩
      rw [SyParser.addOtfPrecomputes, b1, Option.bind_some]
      simp only
      rw [d1]
      simp [List.range'_succ]
  obtain ⟨P2, d1, d2, d3, d4⟩ := hadd (forall₂_rpnOK hFs) g2 (g5.trans h4) (g6.trans h5)
  have hall : List.Forall₂ (IsRpn vars) (es ++ fs) (Ts ++ Fs) := List.rel_append hTs hFs
  obtain ⟨P3, k1, k2, k3, k4, k5, k6, k7⟩ := ready_history qs' hl hqs' (P := P2) (by rw [d3]; exact hvars) (Us := Ts ++ Fs)
    (by rw [d3]; exact forall₂_rpnOK hall) d2
  obtain ⟨cs, m1, m2⟩ := ready_evaluate (lastPrime_mem hl hqs') hall k2 (k5.trans d3) (k6.trans d4) hv
  refine ⟨P0, P, P1, P2, P3, cs, a1, h1, g1, ?_, k1, m1, m2⟩
  rw [a3, hTs.length_eq, hFs.length_eq]
  exact d1

end

end FireFly
