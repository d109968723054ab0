import Verif.Props.SaveProps
/-!
# C39: the files before the first complete prime field, incomplete files, and defects
-/
set_option linter.all false
namespace FireFly
variable {F : Type} [Field F] [DecidableEq F]

/-! ## the initial file and the file of a vanishing function -/

lemma bind_ok {ε α β : Type} (a : α) (f : α → Except ε β) : (Except.ok a >>= f) = f a := rfl

lemma stoi_one : stoi ['1'] = some 1 := by decide +kernel

lemma load_initial (rand : ℕ → F) (o0 : RatObj F) {fileName content : Str} {k : ℕ} (hk : parsePrimeNumber fileName = some k) {ls : List Str}
    (hl : linesOf content = Kw.tagName.str :: ls) :
    load rand o0 fileName content = loadInitial (content.getLast? == some '\n') { o0 with primeNumber := (k + 1) % 2 ^ 32, checkInterpolation := true } ls := by
  have n1 : ¬ Kw.tagName.str = "ZERO".toList := by decide +kernel
  unfold load
  rw [hk, hl]
  simp only [orThrow, n1, if_false, if_true]
  rfl

/-- **C39 (no prime field completed).** The file written when an object gets its name makes a new object start in the first prime field with the
name and the degree bounds of the old one. -/
theorem C39_initial (rand : ℕ → F) (tag : Str) {o o0 : RatObj F} (htag : '\n' ∉ o.tagName) (hb : o.degBounds = [] ∨ o.degBounds.length = o.n)
    (hlt : ∀ b ∈ o.degBounds, b.1 < 2 ^ 31 ∧ b.2 < 2 ^ 31) (hn : o0.n = o.n) (h0 : o0.degBounds = [] ∧ o0.isSetDegBounds = false) :
    load rand o0 (stateName tag 0) (unlines o.initialLines) =
      .ok ({ o0 with tagName := o.tagName, normalizeToDen := true, primeNumber := 0, checkInterpolation := false, degBounds := o.degBounds,
                     isSetDegBounds := decide (o.degBounds ≠ []) }, true) := by
  have hbl : ∀ (xs : List ℕ) (l : Str), l ∈ boundsLine xs → '\n' ∉ l := by
    intro xs l hl
    unfold boundsLine at hl
    split at hl
    · simp at hl
    · rw [List.mem_singleton] at hl; rw [hl]; exact nl_vecStr xs
  have hl : linesOf (unlines o.initialLines) = o.initialLines := by
    apply linesOf_unlines
    intro l hl
    unfold RatObj.initialLines entry at hl
    simp only [List.mem_append, List.mem_cons, List.not_mem_nil, or_false] at hl
    rcases hl with (((rfl | rfl) | (rfl | rfl)) | (rfl | hl)) | (rfl | hl)
    · exact nl_kw _
    · exact htag
    · exact nl_kw _
    · decide
    · exact nl_kw _
    · exact hbl _ _ hl
    · exact nl_kw _
    · exact hbl _ _ hl
  have hkw : ∀ xs : List ℕ, vecStr xs ≠ Kw.individualDegreesDen.str := by
    intro xs e
    have := kwOf_vecStr xs
    rw [e, kwOf_str _ (by decide)] at this
    cases this
  by_cases hne : o.degBounds = []
  · have e1 : o.initialLines = [Kw.tagName.str, o.tagName, Kw.normalizeToDen.str, ['1'], Kw.individualDegreesNum.str, Kw.individualDegreesDen.str] := by
      unfold RatObj.initialLines; rw [hne]; rfl
    rw [load_initial rand o0 (C39_prime_number tag (by norm_num)) (hl.trans e1), hne]
    unfold loadInitial
    simp only [getLine, stoi_one, orThrow]
    rw [bind_ok]
    simp only [ne_eq, not_true_eq_false, if_false]
    obtain ⟨h1, h2⟩ := h0
    obtain ⟨a1, a2, a3, a4, a5, a6, a7, a8, a9, a10, a11, a12, a13, a14, a15, a16, a17, a18, a19, a20, a21, a22, a23, a24, a25, a26, a27, a28, a29⟩ := o0
    simp only at h1 h2
    rw [h1, h2]
    rfl
  · have m1 : o.degBounds.map Prod.fst ≠ [] := by simpa using hne
    have m2 : o.degBounds.map Prod.snd ≠ [] := by simpa using hne
    have hb' : o.degBounds.length = o.n := by rcases hb with hb | hb; · exact absurd hb hne
                                              · exact hb
    have e1 : o.initialLines = [Kw.tagName.str, o.tagName, Kw.normalizeToDen.str, ['1'], Kw.individualDegreesNum.str, vecStr (o.degBounds.map Prod.fst),
        Kw.individualDegreesDen.str, vecStr (o.degBounds.map Prod.snd)] := by
      unfold RatObj.initialLines boundsLine; rw [if_neg m1, if_neg m2]; rfl
    rw [load_initial rand o0 (C39_prime_number tag (by norm_num)) (hl.trans e1)]
    unfold loadInitial
    simp only [getLine, stoi_one, orThrow]
    rw [bind_ok]
    simp only [ne_eq, hkw, not_false_eq_true, if_true]
    rw [parseVec32_all _ (by
      intro x hx; obtain ⟨b, hb', rfl⟩ := List.mem_map.mp hx; exact (hlt b hb').1)]
    simp only
    rw [bind_ok, parseVec32_all _ (by
      intro x hx; obtain ⟨b, hb', rfl⟩ := List.mem_map.mp hx; exact (hlt b hb').2)]
    simp only
    rw [bind_ok, decide_eq_true hne, hn, zipBounds_all _ _ hb', bind_ok]
    rfl

/-- **C39 (vanishing so far).** The function was zero in the prime fields 0, ..., k: the new object continues with the field `k + 1`, the
number of zeros is known, or it is done with the result 0 after three fields. -/
theorem C39_zero (rand : ℕ → F) (tag : Str) {k : ℕ} (hk : k + 1 < 2 ^ 31) {o o0 : RatObj F} (htag : '\n' ∉ o.tagName) :
    load rand o0 (stateName tag k) (unlines o.zeroLines) = .ok (
      (if k + 1 > 2 then { o0 with primeNumber := k + 1, checkInterpolation := true, newPrime := false, done := true, tagName := o.tagName
                                   coefs := { o0.coefs with gNi := o0.coefs.gNi.set (List.replicate o0.n 0) ⟨0, 1⟩, gDi := o0.coefs.gDi.set (List.replicate o0.n 0) ⟨1, 1⟩ } }
       else { o0 with primeNumber := k + 1, checkInterpolation := false, newPrime := true, tagName := o.tagName, zeroCounter := k + 1
                      interpolations := if o.interpolations > 1 then 300 else o0.interpolations }), false) := by
  have hl : linesOf (unlines o.zeroLines) = o.zeroLines := by
    apply linesOf_unlines
    intro l hl
    unfold RatObj.zeroLines at hl
    simp only [List.mem_cons, List.not_mem_nil, or_false] at hl
    rcases hl with rfl | rfl | rfl
    · decide
    · split <;> decide
    · exact htag
  unfold load
  rw [C39_prime_number tag (by omega), hl]
  have hk' : (k + 1) % 2 ^ 32 = k + 1 := by omega
  simp only [orThrow, RatObj.zeroLines]
  show Except.ok (loadZero _ _ _ _) = _
  unfold loadZero
  simp only [getLine, hk']
  congr 2
  by_cases hk2 : k + 1 > 2
  · rw [if_pos hk2, if_pos hk2]
  · rw [if_neg hk2, if_neg hk2]
    by_cases hi : o.interpolations > 1
    · rw [if_pos hi, if_pos hi]; rfl
    · rw [if_neg hi, if_neg hi]; rfl

/-! ## incomplete files -/

lemma loadLine_seen {rand : ℕ → F} {st st' : LoadSt F} {line : Str} (h : loadLine rand st line = .ok st') :
    ∀ k ∈ st'.seen, k ∈ st.seen ∨ line = k.str := by
  unfold loadLine at h
  cases hk : kwOf line with
  | some k =>
    rw [hk] at h
    simp only at h
    split at h
    · cases h; intro k' hk'; exact Or.inl hk'
    · cases h
      intro k' hk'
      rcases List.mem_cons.mp hk' with rfl | hk'
      · exact Or.inr (kwOf_eq hk)
      · exact Or.inl hk'
  | none =>
    rw [hk] at h
    simp only at h
    have : st'.seen = st.seen := by
      unfold readData at h
      revert h
      cases st.cur <;> intro h <;> simp only [bind, Except.bind] at h <;> (repeat' split at h) <;> first | (cases h; rfl) | (cases h)
    rw [this]
    intro k hk
    exact Or.inl hk

lemma foldlM_seen {rand : ℕ → F} (ls : List Str) : ∀ {st st' : LoadSt F}, ls.foldlM (loadLine rand) st = .ok st' →
    ∀ k ∈ st'.seen, k ∈ st.seen ∨ k.str ∈ ls := by
  induction ls with
  | nil => intro st st' h k hk; cases h; exact Or.inl hk
  | cons l ls ih =>
    intro st st' h k hk
    rw [List.foldlM_cons] at h
    cases hl : loadLine rand st l with
    | error e => rw [hl] at h; cases h
    | ok s =>
      rw [hl] at h
      rcases ih (st := s) h k hk with hs | hs
      · rcases loadLine_seen hl k hs with h1 | h1
        · exact Or.inl h1
        · exact Or.inr (by rw [h1]; simp)
      · exact Or.inr (List.mem_cons_of_mem _ hs)

lemma required_in (rand : ℕ → F) (o0 : RatObj F) (fileName content : Str) {r : RatObj F × Bool} (h : load rand o0 fileName content = .ok r)
    (hfirst : (linesOf content).head? = some Kw.combinedPrime.str) : ∀ k ∈ requiredKws, k.str ∈ linesOf content := by
  unfold load at h
  have n1 : ¬ Kw.combinedPrime.str = "ZERO".toList := by decide +kernel
  have n2 : ¬ Kw.combinedPrime.str = Kw.tagName.str := by decide +kernel
  cases hp : parsePrimeNumber fileName with
  | none => rw [hp] at h; cases h
  | some kk =>
    rw [hp] at h
    cases hl : linesOf content with
    | nil => rw [hl] at hfirst; cases hfirst
    | cons first ls =>
      rw [hl] at h hfirst
      simp only [List.head?_cons, Option.some.injEq] at hfirst
      subst hfirst
      simp only [orThrow, n1, n2, if_false, ne_eq, not_true_eq_false] at h
      change (List.foldlM (loadLine rand) _ ls >>= loadEnd) = _ at h
      intro k hk
      cases hf : List.foldlM (loadLine rand) { obj := { o0 with primeNumber := (kk + 1) % 2 ^ 32, checkInterpolation := true }, cur := .combinedPrime, seen := [.combinedPrime] } ls with
      | error e => rw [hf] at h; cases h
      | ok st =>
        rw [hf] at h
        change loadEnd st = _ at h
        unfold loadEnd at h
        by_cases ha : requiredKws.all (fun k => st.seen.contains k) = true
        · rw [List.all_eq_true] at ha
          have := ha k hk
          rw [List.contains_iff_mem] at this
          rcases foldlM_seen ls hf k this with h1 | h1
          · simp only [List.mem_singleton] at h1
            rw [h1]; simp
          · exact List.mem_cons_of_mem _ h1
        · rw [Bool.not_eq_true] at ha
          rw [ha] at h
          cases h

/-- **C39 (incomplete file).** A file of the state of a prime field is accepted only if each of the 22 entries occurs in it, whatever its content
and the object are. -/
theorem C39_incomplete (rand : ℕ → F) (o0 : RatObj F) (fileName content : Str) {r : RatObj F × Bool} (h : load rand o0 fileName content = .ok r)
    (hfirst : (linesOf content).head? = some "combined_prime".toList) :
    ∀ w ∈ ["combined_prime", "tag_name", "is_done", "max_deg_num", "max_deg_den", "need_prime_shift", "normalizer_deg", "normalize_to_den",
      "normalizer_den_num", "shifted_max_num_eqn", "shift", "sub_num", "sub_den", "zero_degs_num", "zero_degs_den", "g_ni", "g_di", "combined_ni",
      "combined_di", "combined_primes_ni", "combined_primes_di", "interpolations"], w.toList ∈ linesOf content := by
  have hr := required_in rand o0 fileName content h hfirst
  intro w hw
  have e : ∀ w ∈ ["combined_prime", "tag_name", "is_done", "max_deg_num", "max_deg_den", "need_prime_shift", "normalizer_deg", "normalize_to_den",
      "normalizer_den_num", "shifted_max_num_eqn", "shift", "sub_num", "sub_den", "zero_degs_num", "zero_degs_den", "g_ni", "g_di", "combined_ni",
      "combined_di", "combined_primes_ni", "combined_primes_di", "interpolations"], w.toList ∈ requiredKws.map Kw.str := by decide +kernel
  obtain ⟨k, hk, e1⟩ := List.mem_map.mp (e w hw)
  rw [← e1]
  exact hr k hk

/-! ## finished objects -/

/-- **C39 (finished).** A finished reconstruction is finished after loading, with the same result. -/
theorem C39_done (rand : ℕ → F) (tag : Str) {k : ℕ} (hk : k + 1 < 2 ^ 31) {o o0 : RatObj F} (h : o.Savable) (h0 : o0.IsNew) (hsh : o0.shift.length = o.n)
    (hd : o.done = true) :
    ∃ o' b, load rand o0 (stateName tag k) (unlines o.stateLines) = .ok (o', b) ∧ o'.done = true ∧ o'.coefs.gNi = o.coefs.gNi ∧ o'.coefs.gDi = o.coefs.gDi ∧
      o'.tagName = o.tagName := by
  obtain ⟨o', e, hr, -⟩ := C39_round_trip rand tag hk h h0 hsh
  exact ⟨o', _, e, hr.done.trans hd, hr.gNi, hr.gDi, hr.tag⟩

/-! ## defects -/

lemma L_tagKw (rand : ℕ → F) (st : LoadSt F) (rest : List Str) {k : Kw} (hk : k ≠ .combinedPrime) :
    (entry .tagName [k.str] ++ rest).foldlM (loadLine rand) st = rest.foldlM (loadLine rand) ((st.enter .tagName).enter k) := by
  have h1 : ∀ (s : LoadSt F) (q : Kw), q ≠ .combinedPrime → loadLine rand s q.str = .ok (s.enter q) := by
    intro s q hq
    unfold loadLine LoadSt.enter
    rw [kwOf_str q hq]
    simp only
    split <;> rfl
  unfold entry
  rw [List.cons_append, List.foldlM_cons, h1 _ _ (by decide), List.singleton_append]
  show List.foldlM (loadLine rand) (st.enter .tagName) (k.str :: rest) = _
  rw [List.foldlM_cons, h1 _ _ hk]
  rfl

lemma enter_enter (st : LoadSt F) (k : Kw) : ((st.enter .tagName).enter k).obj = st.obj ∧ ((st.enter .tagName).enter k).degNum = st.degNum ∧
    ((st.enter .tagName).enter k).degDen = st.degDen ∧ ∀ q ∈ Kw.tagName :: st.seen, q ∈ ((st.enter .tagName).enter k).seen := by
  unfold LoadSt.enter
  simp only [reduceCtorEq, or_self, if_false]
  split
  · exact ⟨rfl, rfl, rfl, fun q hq => hq⟩
  · exact ⟨rfl, rfl, rfl, fun q hq => List.mem_cons_of_mem _ hq⟩

lemma loadEnd_tag {st : LoadSt F} {r : RatObj F × Bool} (h : loadEnd st = .ok r) : r.1.tagName = st.obj.tagName := by
  unfold loadEnd at h
  simp only [bind, Except.bind] at h
  repeat' split at h
  all_goals first | (cases h; rfl) | (cases h)

/-- The round trip fails for a function whose name is one of the words that introduce an entry of the file (for example `shift`):
the name is taken for the word; a new object is left without it, and no error is reported. -/
theorem C39_tag_violated (rand : ℕ → F) (tag : Str) {k : ℕ} (hk : k + 1 < 2 ^ 31) {o o0 : RatObj F} (h : o.Savable) (h0 : o0.IsNew) (hsh : o0.shift.length = o.n)
    {w : Kw} (hw : w ≠ .combinedPrime) :
    ∃ o' b, load rand o0 (stateName tag k) (unlines ({ o with tagName := w.str } : RatObj F).stateLines) = .ok (o', b) ∧ o'.tagName = o0.tagName := by
  have hnl : ∀ l ∈ ({ o with tagName := w.str } : RatObj F).stateLines, '\n' ∉ l := by
    intro l hl
    by_cases hlw : l = w.str
    · rw [hlw]; exact nl_kw w
    · refine stateLines_no_newline h l ?_
      rw [stateLines_eq] at hl ⊢
      change l ∈ Kw.combinedPrime.str :: intStr o.coefs.combPrime :: Kw.tagName.str :: w.str :: o.stateRest at hl
      change l ∈ Kw.combinedPrime.str :: intStr o.coefs.combPrime :: Kw.tagName.str :: o.tagName :: o.stateRest
      simp only [List.mem_cons, hlw, false_or] at hl ⊢
      tauto
  have hl := linesOf_unlines _ hnl
  rw [stateLines_eq] at hl
  rw [stateLines_eq, load_state rand o0 (C39_prime_number tag (by omega)) hl]
  show ∃ o' b, (List.foldlM (loadLine rand) (loadStart o0 k o.coefs.combPrime) (entry .tagName [w.str] ++ o.stateRest) >>= loadEnd) = _ ∧ _
  rw [L_tagKw rand _ _ hw]
  obtain ⟨q1, q2, q3, q4⟩ := enter_enter (loadStart o0 k o.coefs.combPrime) w
  obtain ⟨s', e, ho, e1, e2, e3, e4⟩ := parsed_rest rand h (((loadStart o0 k o.coefs.combPrime).enter .tagName).enter w)
    (by rw [q1]; exact ⟨h0.coefs, h0.primes, h0.sub, h0.zeroDegs, h0.nonSolved, h0.bounds⟩) (by rw [q1]; exact hsh) ⟨q2, q3⟩ (by rw [q1]; rfl)
    ⟨q4 _ (by simp [loadStart]), q4 _ (by simp)⟩
  rw [e]
  show ∃ o' b, loadEnd s' = _ ∧ _
  have ht : s'.obj.tagName = o0.tagName := by rw [ho]; show (((loadStart o0 k o.coefs.combPrime).enter .tagName).enter w).obj.tagName = _; rw [q1]; rfl
  have hb : ∃ b, (if s'.degNum.length ≠ 0 then (zipBounds s'.obj.n s'.degNum s'.degDen).map (fun b => (true, b)) else .ok (s'.obj.isSetDegBounds, s'.obj.degBounds)) =
      Except.ok b := by
    rw [e1, e2, ho]
    rw [List.length_map]
    rcases h.bounds with hb | hb
    · rw [hb]; exact ⟨_, rfl⟩
    · have : o.degBounds.length ≠ 0 := by rw [hb]; exact h.n_pos.ne'
      rw [if_pos this]
      show ∃ b, (zipBounds o.n _ _).map _ = _
      rw [zipBounds_all _ _ hb]
      exact ⟨_, rfl⟩
  obtain ⟨b, hb⟩ := hb
  have hok : ∃ r, loadEnd s' = .ok r := by
    unfold loadEnd
    rw [e4]
    dsimp only
    rw [hb]
    exact ⟨_, rfl⟩
  obtain ⟨⟨o', b'⟩, hr⟩ := hok
  exact ⟨o', b', hr, (loadEnd_tag hr).trans ht⟩

/-- The initial file is written in place. If the process ends while it is written, the file may end behind the line `individual_degrees_num`.
Loading such a file is not rejected, elements beyond the end of an empty vector are read. -/
theorem C39_initial_truncated_violated (rand : ℕ → F) (tag : Str) {o o0 : RatObj F} (htag : '\n' ∉ o.tagName) (hn : 0 < o0.n) :
    (∃ rest, unlines [Kw.tagName.str, o.tagName, Kw.normalizeToDen.str, ['1'], Kw.individualDegreesNum.str] ++ rest = unlines o.initialLines) ∧
    load rand o0 (stateName tag 0) (unlines [Kw.tagName.str, o.tagName, Kw.normalizeToDen.str, ['1'], Kw.individualDegreesNum.str]) = .error .ub := by
  constructor
  · have : o.initialLines = [Kw.tagName.str, o.tagName, Kw.normalizeToDen.str, ['1'], Kw.individualDegreesNum.str] ++
      (boundsLine (o.degBounds.map Prod.fst) ++ entry .individualDegreesDen (boundsLine (o.degBounds.map Prod.snd))) := by
      unfold RatObj.initialLines entry
      simp
    rw [this]
    unfold unlines
    rw [List.map_append, List.flatten_append]
    exact ⟨_, rfl⟩
  · have hl : linesOf (unlines [Kw.tagName.str, o.tagName, Kw.normalizeToDen.str, ['1'], Kw.individualDegreesNum.str]) =
        Kw.tagName.str :: [o.tagName, Kw.normalizeToDen.str, ['1'], Kw.individualDegreesNum.str] := by
      apply linesOf_unlines
      intro l hl
      simp only [List.mem_cons, List.not_mem_nil, or_false] at hl
      rcases hl with rfl | rfl | rfl | rfl | rfl
      · exact nl_kw _
      · exact htag
      · exact nl_kw _
      · decide
      · exact nl_kw _
    rw [load_initial rand o0 (C39_prime_number tag (by norm_num)) hl]
    have ht : ((unlines [Kw.tagName.str, o.tagName, Kw.normalizeToDen.str, ['1'], Kw.individualDegreesNum.str]).getLast? == some '\n') = true := by
      have e : unlines [Kw.tagName.str, o.tagName, Kw.normalizeToDen.str, ['1'], Kw.individualDegreesNum.str] =
          (unlines [Kw.tagName.str, o.tagName, Kw.normalizeToDen.str, ['1']] ++ Kw.individualDegreesNum.str) ++ ['\n'] := by simp [unlines]
      rw [e, List.getLast?_concat]
      rfl
    rw [ht]
    unfold loadInitial
    simp only [getLine, stoi_one, orThrow, if_true]
    have hv : parseVec32 [] 0 = some ([], []) := parseVecLoop_nil 0 0
    rw [bind_ok]
    simp only [ne_eq, (by decide +kernel : ¬ ([] : Str) = Kw.individualDegreesDen.str), not_false_eq_true, if_true]
    rw [hv]
    simp only
    rw [bind_ok, bind_ok]
    have hz : zipBounds o0.n [] [] = .error .ub := by
      unfold zipBounds
      rw [if_neg (by simp; omega)]
    rw [hz]
    rfl

/-! ## a concrete object -/

/-- (2 x^3 + 5 y) / (1 + 3 x y) with some coefficients known -/
def exampleObj : RatObj (ZMod 7) :=
  { n := 2, coefs := { gNi := [([3, 0], ⟨2, 1⟩)], gDi := [([0, 0], ⟨1, 1⟩)], combNi := [([0, 1], 5)], combDi := [([1, 1], 3)], combPrime := 7 }
    tagName := "f".toList, maxDegNum := 3, maxDegDen := 2, degBounds := [(3, 1), (1, 1)], normalizerDeg := [0, 0], normalizerDenNum := true
    shiftedMaxNumEqn := 12, shift := [0, 3], subNum := [(2, [([2, 0], 4), ([1, 0], 0)])], zeroDegsNum := [2], interpolations := 1 }

example : exampleObj.Savable := by
  refine ⟨by decide, ⟨by decide +kernel, ?_⟩, by decide, by decide, by decide, by decide, ⟨by decide, by decide⟩, by decide, ?_, ?_, ⟨by decide, by decide⟩,
    ⟨by decide, by decide⟩, ⟨⟨by decide, by decide⟩, ?_⟩, ⟨⟨by decide, by decide⟩, ?_⟩, ⟨by decide, by decide⟩, ⟨by decide, by decide⟩, ⟨by decide, by decide⟩, ⟨by decide, by decide⟩⟩
  · intro k; cases k <;> decide +kernel
  · unfold SavableSub SavableMap
    simp only [exampleObj, List.mem_cons, List.not_mem_nil, or_false, List.map_cons, List.map_nil]
    refine ⟨by simp, ?_⟩
    rintro el rfl
    refine ⟨by norm_num, by simp, ?_⟩
    rintro t ht
    simp only [List.mem_cons, List.not_mem_nil, or_false] at ht
    rcases ht with rfl | rfl <;> refine ⟨rfl, ?_⟩ <;> decide
  · unfold SavableSub; simp [exampleObj]
  · intro t ht
    have : t = ([3, 0], ⟨2, 1⟩) := by simpa [exampleObj] using ht
    rw [this]; exact ⟨by norm_num, by norm_num⟩
  · intro t ht
    have : t = ([0, 0], ⟨1, 1⟩) := by simpa [exampleObj] using ht
    rw [this]; exact ⟨by norm_num, by norm_num⟩

example : ({ n := 2, coefs := { combPrime := 7 }, shift := [0, 0] } : RatObj (ZMod 7)).IsNew := by
  refine ⟨⟨rfl, rfl, rfl, rfl⟩, ⟨rfl, rfl⟩, ⟨rfl, rfl⟩, ⟨rfl, rfl⟩, ⟨rfl, rfl⟩, ⟨rfl, rfl⟩⟩

end FireFly
