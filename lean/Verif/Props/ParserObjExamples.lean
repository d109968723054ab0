import Verif.Props.ParserObjMain
/-!
# C64: defects and non-vacuity
-/
set_option linter.all false
namespace FireFly

/-- the first two primes of the table -/
def syp0 : ℕ := 9223372036854775783
def syp1 : ℕ := 9223372036854775643

lemma syp0_mem : syp0 ∈ primes63 := by decide +kernel
lemma syp1_mem : syp1 ∈ primes63 := by decide +kernel

lemma syp0_check : CheckPrime syp0 syp1 := ⟨0, by decide +kernel, by decide +kernel⟩

instance : Fact syp0.Prime := ⟨(C07_primes63.2.1 _ syp0_mem).1⟩
instance : Fact syp1.Prime := ⟨(C07_primes63.2.1 _ syp1_mem).1⟩

/-! ### defects -/

/-- **C64 (trim), violated.** `trim` does not trim the stored numbers: the parser for `2*x` and `3*x` of which only the second one is kept
returns the value of `3*x`, but after a change of the prime and `precompute_tokens()` that of `2*x`. -/
theorem C64_trim_refresh_violated : letI := x87
    ∃ P P1 P2, SyParser.construct syp0 [] [] [['x']] false true ["2*x".toList, "3*x".toList] = some P ∧ P.trim (fun i => i == 1) = some (P1, [(1, 0)]) ∧
      P1.evaluatePreAll syp0 [1] = some [3] ∧ P1.precomputeTokens syp1 false = some P2 ∧ P2.evaluatePreAll syp1 [1] = some [2] := by
  letI := x87
  have hP : ∃ P, SyParser.construct syp0 [] [] [['x']] false true ["2*x".toList, "3*x".toList] = some P := Option.isSome_iff_exists.mp (by decide +kernel)
  obtain ⟨P, hP⟩ := hP
  have h1 : ((SyParser.construct syp0 [] [] [['x']] false true ["2*x".toList, "3*x".toList]).bind fun P => (P.trim (fun i => i == 1)).map fun r => r.2) = some [(1, 0)] := by decide +kernel
  rw [hP, Option.bind_some] at h1
  obtain ⟨⟨P1, np⟩, hP1, hnp⟩ := Option.map_eq_some_iff.mp h1
  simp only at hnp
  subst hnp
  have h2 : ((SyParser.construct syp0 [] [] [['x']] false true ["2*x".toList, "3*x".toList]).bind fun P => (P.trim (fun i => i == 1)).bind fun r => r.1.evaluatePreAll syp0 [1]) = some [3] := by decide +kernel
  have h3 : ((SyParser.construct syp0 [] [] [['x']] false true ["2*x".toList, "3*x".toList]).bind fun P => (P.trim (fun i => i == 1)).bind fun r => (r.1.precomputeTokens syp1 false).bind fun P2 => P2.evaluatePreAll syp1 [1]) = some [2] := by decide +kernel
  rw [hP, Option.bind_some, hP1, Option.bind_some] at h2 h3
  obtain ⟨P2, h4, h5⟩ := Option.bind_eq_some_iff.mp h3
  exact ⟨P, P1, P2, hP, hP1, h2, h4, h5⟩

/-- **C64 (add_otf_precompute), violated.** A function that is added after a change of the prime and before `precompute_tokens()` makes the
parser believe that all functions were precomputed with the new prime: `x/2` has at 4 the value 282 instead of 2. -/
theorem C64_add_otf_precompute_violated : letI := x87
    ∃ P P1 P2, SyParser.construct syp0 [] [] [['x']] false false ["x/2".toList] = some P ∧ P.addOtfPrecompute syp1 [['x']] = some (P1, 1) ∧
      P1.precomputeTokens syp1 false = some P2 ∧ P2.evaluatePreAll syp1 [4] = some [282, 4] := by
  letI := x87
  have h3 : ((SyParser.construct syp0 [] [] [['x']] false false ["x/2".toList]).bind fun P => (P.addOtfPrecompute syp1 [['x']]).bind fun r => if r.2 = 1 then (r.1.precomputeTokens syp1 false).bind fun P2 => P2.evaluatePreAll syp1 [4] else none) = some [282, 4] := by decide +kernel
  obtain ⟨P, hP, h4⟩ := Option.bind_eq_some_iff.mp h3
  obtain ⟨⟨P1, k⟩, hP1, h5⟩ := Option.bind_eq_some_iff.mp h4
  simp only at h5
  split at h5
  · rename_i hk
    subst hk
    obtain ⟨P2, h6, h7⟩ := Option.bind_eq_some_iff.mp h5
    exact ⟨P, P1, P2, hP, hP1, h6, h7⟩
  · cases h5

/-- **C64 (add_otf), violated.** With the search for equal functions the returned positions count the different functions only, not the
values `evaluate_pre` returns: after adding `1`, `1` and `2`, the position returned for `2` is that of the second `1`. Moreover, the current
prime (`syp1`) is replaced by the one of the construction. -/
theorem C64_add_otf_position_violated : letI := x87
    ∃ P P1 P2, SyParser.construct syp0 [3] [5] [['x']] true false [] = some P ∧ P.addOtfs syp1 [['1'], ['1'], ['2']] = some (P1, [0, 0, 1], syp0) ∧
      P1.precomputeTokens syp0 true = some P2 ∧ P2.evaluatePreAll syp0 [7] = some [1, 1, 2] := by
  letI := x87
  have h3 : ((SyParser.construct syp0 [3] [5] [['x']] true false []).bind fun P => (P.addOtfs syp1 [['1'], ['1'], ['2']]).bind fun r => if r.2 = ([0, 0, 1], syp0) then (r.1.precomputeTokens syp0 true).bind fun P2 => P2.evaluatePreAll syp0 [7] else none) = some [1, 1, 2] := by decide +kernel
  obtain ⟨P, hP, h4⟩ := Option.bind_eq_some_iff.mp h3
  obtain ⟨⟨P1, k⟩, hP1, h5⟩ := Option.bind_eq_some_iff.mp h4
  simp only at h5
  split at h5
  · rename_i hk
    subst hk
    obtain ⟨P2, h6, h7⟩ := Option.bind_eq_some_iff.mp h5
    exact ⟨P, P1, P2, hP, hP1, h6, h7⟩
  · cases h5

/-- **C64 (equal functions), violated.** Functions that are not equal but have the same values at the check points are taken for equal: if
the check points are 5 in both fields, `x-5` and `0` have at 7 the values 2 and 2. -/
theorem C64_equal_violated : letI := x87
    ∃ P, SyParser.construct syp0 [5] [5] [['x']] true false ["x-5".toList, "0".toList] = some P ∧ P.evaluatePreAll syp0 [7] = some [2, 2] := by
  letI := x87
  have h3 : ((SyParser.construct syp0 [5] [5] [['x']] true false ["x-5".toList, "0".toList]).bind fun P => P.evaluatePreAll syp0 [7]) = some [2, 2] := by decide +kernel
  obtain ⟨P, hP, h4⟩ := Option.bind_eq_some_iff.mp h3
  exact ⟨P, hP, h4⟩

/-! ### non-vacuity -/

/-- `x+y`, `y+x`, `2/3*x` -/
def sypExprs : List Expr :=
  [.add (.var ['x']) (.var ['y']), .add (.var ['y']) (.var ['x']), .mul (.div (.num ['2']) (.num ['3'])) (.var ['x'])]

lemma sypVars_name : ∀ v ∈ [['x'], ['y']], IsName v := by
  intro v hv
  simp only [List.mem_cons, List.not_mem_nil, or_false] at hv
  rcases hv with rfl | rfl
  · exact ⟨by decide, by decide, 'x', by decide, by decide⟩
  · exact ⟨by decide, by decide, 'y', by decide, by decide⟩

lemma sypExprs_accepted : ∀ e ∈ sypExprs, e.Accepted [['x'], ['y']] := by
  intro e he
  simp only [sypExprs, List.mem_cons, List.not_mem_nil, or_false] at he
  have hn : ∀ c : Char, isDigitC c = true → IsNum [c] := fun c hc => ⟨by simp, by simpa using hc, by simp⟩
  rcases he with rfl | rfl | rfl
  · exact ⟨⟨by simp [Expr.WF], by simp [Expr.WF], by decide⟩, trivial, trivial⟩
  · exact ⟨⟨by simp [Expr.WF], by simp [Expr.WF], by decide⟩, trivial, trivial⟩
  · exact ⟨⟨⟨hn _ (by decide), by decide, hn _ (by decide), by decide⟩, by decide, by simp [Expr.WF], by decide⟩, ⟨trivial, trivial, rfl⟩, trivial⟩

lemma canon {p : ℕ} {vars : List Str} {values : List ℕ} (h : (decide (vars.length ≤ values.length) && values.all fun x => decide (x < p)) = true) : Canonical p vars values := by
  simp only [Bool.and_eq_true, decide_eq_true_eq, List.all_eq_true] at h
  exact h

/-- the theorems apply to these functions: `x+y` and `y+x` are stored once -/
example [LongDouble] : ∃ P P' cs, SyParser.construct syp0 [7, 11] [3, 5] [['x'], ['y']] true false (sypExprs.map Expr.render) = some P ∧
    P.history [syp1] = some P' ∧ P'.evaluatePreAll syp1 [12, 5] = some cs ∧ cs.length = 3 := by
  haveI : Fact (lastPrime syp0 [syp1]).Prime := inferInstanceAs (Fact syp1.Prime)
  obtain ⟨P, P', cs, h1, h2, h3, h4, -⟩ := C64_equal syp0_check sypVars_name (r1 := [7, 11]) (r2 := [3, 5]) (canon (by decide +kernel)) (canon (by decide +kernel)) false
    sypExprs_accepted (qs := [syp1]) (by intro q hq; simp only [List.mem_singleton] at hq; subst hq; exact syp1_mem) (values := [12, 5])
    (canon (by decide +kernel))
  exact ⟨P, P', cs, h1, h2, h3, h4⟩

example : letI := x87
    ((SyParser.construct syp0 [7, 11] [3, 5] [['x'], ['y']] true true (sypExprs.map Expr.render)).bind fun P =>
      (P.history [syp1]).bind fun P' => (P'.evaluatePreAll syp1 [12, 5]).map fun cs => (P'.functions.length, P'.evaluationPositions, cs)) =
      some (2, [0, 0, 1], [17, 17, 8]) := by decide +kernel

/-- the separation hypothesis of `C64_equal_exact` holds for `x+y` and `y+x`, which are equal, and `2/3*x`, which differs from them at the
check points -/
example : ∀ e ∈ [Expr.add (.var ['x']) (.var ['y']), .add (.var ['y']) (.var ['x'])], ∀ e' ∈ [Expr.add (.var ['x']) (.var ['y']), .add (.var ['y']) (.var ['x'])],
    SameCheck syp1 syp0 [['x'], ['y']] [7, 11] [3, 5] e e' →
      e.denote (varEnv syp0 [['x'], ['y']] [12, 5]) = e'.denote (varEnv syp0 [['x'], ['y']] [12, 5]) := by
  intro e he e' he' _
  simp only [List.mem_cons, List.not_mem_nil, or_false] at he he'
  rcases he with rfl | rfl <;> rcases he' with rfl | rfl <;> simp [Expr.denote, add_comm]

/-- trimming to the last function, with the search for equal functions -/
example : letI := x87
    ((SyParser.construct syp0 [7, 11] [3, 5] [['x'], ['y']] true true (sypExprs.map Expr.render)).bind fun P =>
      (P.trim (fun i => i == 1 || i == 2)).bind fun r => (r.1.evaluatePreAll syp0 [12, 5]).map fun cs => (r.2, cs)) =
      some ([(1, 0), (2, 1)], [17, 8]) := by decide +kernel

/-- a file -/
example : sypFileFunctions " x +y ;\n y+x;\t\n2/3*x\n;\n".toList = ["x+y".toList, "y+x".toList, "2/3*x".toList] := by decide +kernel

/-- adding `x+1` with the search for equal functions has the token `x` -/
example : (validate "x+1".toList).bind parse = some [['x'], ['1'], ['+']] ∧ ['x'] ∉ opTokens ∧ classify [['x'], ['y']] ['x'] = some (.var 0) := by
  refine ⟨by decide +kernel, by decide, by decide⟩

end FireFly
