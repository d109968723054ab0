import Verif.Lemmas.PolyClassLive
import Mathlib.Tactic.NormNum.Prime
import Mathlib.NumberTheory.LegendreSymbol.Basic
set_option linter.all false
/-!
# C59, C60: the class `Poly`

C59: the operators of `Poly` compute sums, differences, products, quotients, remainders and greatest
common divisors of polynomials over the prime field, and print them.
C60: `Poly::roots` returns exactly the roots with their multiplicities whenever it returns, and for
a product of linear factors it can always return.
-/

open Polynomial

namespace FireFly

open PolyC

section
variable {F : Type*} [Field F] [DecidableEq F]

/-- C59: `get_deg` returns the degree, whatever zeros the vector ends with. -/
theorem C59_degree (c : List F) (hc : c ≠ []) : getDeg c = .ok (polyOf c).natDegree := by
  rw [getDeg, if_neg hc, degC_eq]

/-- C59: sum, difference, product, and product and quotient with a number are those of the
polynomials (for all vectors that are not empty, with any zeros at their ends). -/
theorem C59_arithmetic (a b : List F) (ha : a ≠ []) (hb : b ≠ []) (x : F) :
    (∃ r, add a b = .ok r ∧ r ≠ [] ∧ polyOf r = polyOf a + polyOf b) ∧
    (∃ r, sub a b = .ok r ∧ r ≠ [] ∧ polyOf r = polyOf a - polyOf b) ∧
    (∃ r, mul a b = .ok r ∧ r ≠ [] ∧ polyOf r = polyOf a * polyOf b) ∧
    (∃ r, smul a x = .ok r ∧ r ≠ [] ∧ polyOf r = C x * polyOf a) ∧
    (∃ r, sdiv a x = .ok r ∧ r ≠ [] ∧ ∀ n, (polyOf r).coeff n = (polyOf a).coeff n / x) := by
  refine ⟨⟨_, ?_, (addC_spec a b ha).2, (addC_spec a b ha).1⟩,
    ⟨_, ?_, (subC_spec a b ha).2, (subC_spec a b ha).1⟩,
    ⟨_, ?_, (mulC_spec a b).2, (mulC_spec a b).1⟩,
    ⟨_, ?_, (smulC_spec a x ha).2.1, (smulC_spec a x ha).1⟩,
    ⟨sdivC a x, ?_, ?_, ?_⟩⟩
  · rw [add, binop, if_neg (by simp [ha, hb])]
  · rw [sub, binop, if_neg (by simp [ha, hb])]
  · rw [mul, binop, if_neg (by simp [ha, hb])]
  · rw [smul, if_neg ha]
  · rw [sdiv, if_neg ha]
  · rw [sdivC_eq]; exact (smulC_spec a _ ha).2.1
  · intro n; rw [sdivC_eq, (smulC_spec a _ ha).1, coeff_C_mul, div_eq_mul_inv, mul_comm]

/-- C59: `shrink_to_fit` and `rev` of a polynomial that is not zero: the same polynomial without
zeros at the end, and the polynomial `x^deg * P(1/x)`. -/
theorem C59_shrink_rev (c : List F) (hc : polyOf c ≠ 0) :
    (∃ r, shrink c = .ok r ∧ polyOf r = polyOf c ∧ r.length = (polyOf c).natDegree + 1) ∧
    (∃ r, rev c = .ok r ∧ polyOf r = (polyOf c).reverse) := by
  obtain ⟨r, h1, h2, h3, h4, h5⟩ := shrink_ok hc
  obtain ⟨r', h6, h7, -⟩ := rev_ok hc
  exact ⟨⟨r, h1, h2, h5⟩, ⟨r', h6, h7⟩⟩

/-- C59: the fast Euclidean division (and with it `operator/` and `operator%`) returns quotient and
remainder. -/
theorem C59_division (a z : List F) (ha : a ≠ []) (hz : polyOf z ≠ 0)
    (h : polyOf a ≠ 0 ∨ 0 < (polyOf z).natDegree) :
    ∃ q r, divC a z = .ok (q, r) ∧ div a z = .ok q ∧ mod a z = .ok r ∧
      polyOf a = polyOf z * polyOf q + polyOf r ∧ (polyOf r).degree < (polyOf z).degree := by
  obtain ⟨q, r, h1, h2, h3, -, -⟩ := divC_ok a z ha hz h
  exact ⟨q, r, h1, by rw [PolyC.div, h1]; rfl, by rw [PolyC.mod, h1]; rfl, h2, h3⟩

/-- C59: `gcd` ends and returns a greatest common divisor. -/
theorem C59_gcd (c d : List F) (hc : c ≠ []) (hd : d ≠ [])
    (h : polyOf c ≠ 0 ∨ polyOf d = 0 ∨ 0 < (polyOf d).natDegree) :
    ∃ g, gcd c d = .ok g ∧ IsGCD (polyOf g) (polyOf c) (polyOf d) := by
  obtain ⟨g, h1, h2, -⟩ := gcd_ok c d hc hd h
  exact ⟨g, h1, h2⟩

/-- C59, violated: a division with a zero polynomial reads beyond the vector. It happens not only
for the divisor zero: *zero divided by a constant* is 0 with the remainder 0, but the code
reverses the dividend and reads the last element of an empty vector; likewise `gcd` of zero and a
constant that is not zero. -/
theorem C59_zero_violated (a z : List F) (ha : a ≠ []) (ha0 : polyOf a = 0) (hz : polyOf z ≠ 0)
    (hc : (polyOf z).natDegree = 0) :
    divC a z = .error .undefined ∧ gcd a z = .error .undefined ∧
    shrink a = .error .undefined ∧ rev a = .error .undefined :=
  ⟨divC_zero_by_constant a z ha ha0 hz hc, gcd_undefined a z ha ha0 hz hc, shrink_zero ha0, rev_zero ha0⟩

/-- C59, violated: the polynomial of the default constructor is printed as 0, but it is no zero: every
operation with it throws. -/
theorem C59_default_violated (a : List F) (x : F) (shw : F → String) :
    PolyC.print shw ([] : List F) = "0" ∧ getDeg ([] : List F) = .error .outOfRange ∧
    add a [] = .error .outOfRange ∧ add [] a = .error .outOfRange ∧
    mul a [] = .error .outOfRange ∧ mul [] a = .error .outOfRange ∧
    smul [] x = .error .outOfRange ∧ divC [] a = .error .outOfRange := by
  refine ⟨rfl, rfl, ?_, ?_, ?_, ?_, rfl, ?_⟩ <;>
    simp [add, mul, binop, divC]

theorem joinPlus_cons (t : String) (l : List String) :
    joinPlus (t :: l) = l.foldl (fun out s => out ++ "+" ++ s) t := by
  induction l generalizing t with
  | nil => rfl
  | cons a l ih =>
    rw [List.foldl_cons, ← ih]
    cases l with
    | nil => rfl
    | cons b l =>
      rw [joinPlus, ih, ih, ← ih, ← ih (t ++ "+" ++ a), joinPlus, joinPlus]
      simp [String.append_assoc]

theorem range_split (d : ℕ) (hd : 2 ≤ d) :
    (List.range (d + 1)).reverse = d :: ((List.range (d - 2)).reverse.map (· + 2) ++ [1, 0]) := by
  obtain ⟨e, rfl⟩ : ∃ e, d = e + 2 := ⟨d - 2, by omega⟩
  rw [List.range_succ, List.reverse_append]
  have h : List.range (e + 2) = [0, 1] ++ (List.range e).map (· + 2) := by
    rw [Nat.add_comm, List.range_add]
    have : (fun x => x + 2) = (fun x => 2 + x) := by funext x; omega
    rw [this]; rfl
  rw [h]
  simp

/-- C59: what is printed. -/
theorem C59_print (shw : F → String) (c : List F) (hc : c ≠ []) :
    PolyC.print shw c = polyText shw (polyOf c) := by
  unfold PolyC.print polyText
  rw [if_neg hc, degC_eq]
  by_cases h0 : (polyOf c).natDegree = 0
  · rw [if_pos h0, if_pos h0, polyOf_coeff]
  rw [if_neg h0, if_neg h0]
  have hl : c.getD (polyOf c).natDegree 0 ≠ 0 := by
    rw [← degC_eq]; exact degC_ne c (by rw [degC_eq]; exact h0)
  simp only [polyOf_coeff]
  by_cases h1 : (polyOf c).natDegree = 1
  · rw [h1] at hl
    have e : (List.range (1 + 1)).reverse = [1, 0] := rfl
    rw [h1, e]
    by_cases hz : c.getD 0 0 = 0
    · rw [if_neg (fun h => h.2 hz), if_pos ⟨rfl, hz⟩]
      rw [List.filter_cons_of_pos (by simpa using hl), List.filter_cons_of_neg (by simp only [ne_eq, hz, not_true_eq_false, decide_false, Bool.false_eq_true, not_false_eq_true])]
      rfl
    · rw [if_pos ⟨rfl, hz⟩]
      rw [List.filter_cons_of_pos (by simpa using hl), List.filter_cons_of_pos (by simp only [ne_eq, hz, not_false_eq_true, decide_true])]
      simp only [List.filter_nil, List.map_cons, List.map_nil, joinPlus, termText, String.append_assoc]; rfl
  · rw [if_neg (by omega), if_neg (by omega), range_split _ (by omega),
      List.filter_cons_of_pos (by simpa using hl), List.map_cons, joinPlus_cons,
      List.filter_append, List.map_append, List.foldl_append]
    have hmid : ∀ (l : List ℕ) (out : String), (l.map (· + 2)).foldl
        (fun out i => if c.getD i 0 ≠ 0 then out ++ "+" ++ shw (c.getD i 0) ++ "x^" ++ toString i
          else out) out =
        (((l.map (· + 2)).filter (fun i => c.getD i 0 ≠ 0)).map
          (fun i => termText shw (c.getD i 0) i)).foldl (fun out s => out ++ "+" ++ s) out := by
      intro l
      induction l with
      | nil => intro out; rfl
      | cons i l ih =>
        intro out
        rw [List.map_cons, List.foldl_cons, ih]
        by_cases hi : c.getD (i + 2) 0 = 0
        · rw [if_neg (by simpa using hi), List.filter_cons_of_neg (by simpa using hi)]
        · rw [if_pos hi, List.filter_cons_of_pos (by simpa using hi), List.map_cons, List.foldl_cons]
          simp [termText, String.append_assoc]
    have hd : ∀ n, 2 ≤ n → ∀ x : F, termText shw x n = shw x ++ "x^" ++ toString n := by
      intro n hn x
      obtain ⟨m, rfl⟩ : ∃ m, n = m + 2 := ⟨n - 2, by omega⟩
      rfl
    rw [hd _ (by omega)]
    rw [hmid]
    obtain ⟨out, ho⟩ : ∃ out, (List.filter (fun i => decide (c.getD i 0 ≠ 0))
      ((List.range ((polyOf c).natDegree - 2)).reverse.map (· + 2))).map
        (fun i => termText shw (c.getD i 0) i) = out := ⟨_, rfl⟩
    rw [ho]
    by_cases ha : c.getD 1 0 = 0 <;> by_cases hb : c.getD 0 0 = 0 <;>
      simp only [List.filter, ha, hb, termText, String.append_assoc, ne_eq, not_true_eq_false,
        not_false_eq_true, decide_true, decide_false, List.map_cons, List.map_nil, List.foldl_cons,
        List.foldl_nil, if_true, if_false]

/-! ### C60: the roots -/

/-- C60: for a polynomial that is not zero `roots` never fails, and when it returns, it returns the
roots with their multiplicities: the polynomial is a constant times the product of the `x - r`. This
holds for all random numbers. -/
theorem C60_roots (s : ℕ) (c draws : List F) (hc : polyOf c ≠ 0) :
    ∃ o, PolyC.roots s c draws = .ok o ∧ ∀ out, o = some out → HasRoots (polyOf c) out := by
  obtain ⟨a, rs, h1, h2, h3⟩ := roots_start s c hc
  obtain ⟨o, h4, h5⟩ := rootsLoop_spec s draws [a] rs (by intro q hq; simp at hq; rw [hq]; exact h2)
  refine ⟨o, by rw [h1]; exact h4, fun out ho => ?_⟩
  obtain ⟨u, hu, hu2⟩ := h5 out ho
  refine ⟨(polyOf c).leadingCoeff * u, mul_ne_zero (leadingCoeff_ne_zero.2 hc) hu, ?_⟩
  conv_lhs => rw [h3, hu2]
  rw [C_mul, mul_assoc]; simp [val]

/-- C60: the returned list is the multiset of the roots. -/
theorem C60_multiset (s : ℕ) (c draws out : List F) (hc : polyOf c ≠ 0)
    (h : PolyC.roots s c draws = .ok (some out)) : (polyOf c).roots = (out : Multiset F) := by
  obtain ⟨o, h1, h2⟩ := C60_roots s c draws hc
  rw [h] at h1
  obtain ⟨u, hu, e⟩ := h2 out (by simpa using h1.symm)
  rw [e, roots_C_mul _ hu]
  have : (out.map (fun r => X - C r)).prod = ((out : Multiset F).map (fun r => X - C r)).prod := by
    simp
  rw [this, roots_multiset_prod_X_sub_C]

/-- C60: for a polynomial that is no product of linear factors `roots` never returns, whatever is
drawn (the documentation asks for a product of linear factors; there is no check). -/
theorem C60_never_returns (s : ℕ) (c draws : List F) (hc : polyOf c ≠ 0)
    (h : ∀ rs, ¬ HasRoots (polyOf c) rs) : PolyC.roots s c draws = .ok none := by
  obtain ⟨o, h1, h2⟩ := C60_roots s c draws hc
  rw [h1]
  cases o with
  | none => rfl
  | some out => exact absurd (h2 out rfl) (h out)

/-- C60, violated for the zero polynomial: undefined behaviour. -/
theorem C60_zero_violated (s : ℕ) (c draws : List F) (hc : polyOf c = 0) :
    PolyC.roots s c draws = .error .undefined := roots_undefined s c draws hc

end

/-- C60: for a product of linear factors over an odd prime field, with any multiplicities and after
any random numbers drawn so far, there are further random numbers with which `roots` returns all
roots: no sequence of draws leads it into a dead end. -/
theorem C60_can_return {p : ℕ} [hp : Fact p.Prime] (hp2 : p ≠ 2) (c rs draws : List (ZMod p))
    (h : HasRoots (polyOf c) rs) :
    ∃ more out, PolyC.roots ((p - 1) / 2) c (draws ++ more) = .ok (some out) ∧ out.Perm rs := by
  have hlin : ProdLin (polyOf c) := by
    obtain ⟨u, hu, e⟩ := h; exact ⟨u, rs, hu, e⟩
  have hc := prodLin_ne_zero hlin
  obtain ⟨a, zs, h1, h2, h3⟩ := roots_start ((p - 1) / 2) c hc
  have ha : ProdLin (polyOf a) := by
    apply prodLin_of_dvd hlin
    rw [h3]
    exact Dvd.dvd.mul_left ⟨(zs.map (fun r => X - C r)).prod, by simp [val]⟩ _
  obtain ⟨more, out, ho⟩ := rootsLoop_always hp2 draws [a] zs
    (by intro q hq; simp at hq; rw [hq]; exact ha)
  have hret : PolyC.roots ((p - 1) / 2) c (draws ++ more) = .ok (some out) := by rw [h1, ho]
  refine ⟨more, out, hret, ?_⟩
  obtain ⟨u, hu, e⟩ := h
  have h5 := C60_multiset _ _ _ _ hc hret
  have h6 : (polyOf c).roots = (rs : Multiset (ZMod p)) := by
    rw [e, roots_C_mul _ hu]
    have : (rs.map (fun r => X - C r)).prod = ((rs : Multiset (ZMod p)).map (fun r => X - C r)).prod := by
      simp
    rw [this, roots_multiset_prod_X_sub_C]
  rw [h5] at h6
  exact Multiset.coe_eq_coe.1 h6

/-! ### Examples -/

/-- `(5x^4 + 4x^3 + 3x^2 + 2x + 1) / (2x^2 + 3)`, with a zero at the end of the divisor. -/
example : divC ([1, 2, 3, 4, 5] : List ℚ) [3, 0, 2, 0] =
    .ok ([-9/4, 2, 5/2], [31/4, -4, 0, 0, 0]) := by decide +kernel

example : gcd ([-1, 0, 1] : List ℚ) [2, 3, 1] = .ok ([-3, -3, 0]) := by decide +kernel

/-- The subtraction that *inserts* coefficients, and a cancellation of the leading terms. -/
example : sub ([1, 0, 0] : List ℚ) [0, 2, 0, 5] = .ok [1, -2, 0, -5, 0, 0, 0] ∧
    sub ([1, 2, 3] : List ℚ) [0, 2, 3] = .ok [1, 0, 0] := by decide +kernel

example : PolyC.print (fun x : ℚ => toString x) [3, 0, 2, 5, 0] = "5x^3+2x^2+3" := by decide +kernel

local instance fact_prime_seven : Fact (Nat.Prime 7) := ⟨by norm_num⟩

/-- The hypotheses of `C59_division` and `C59_gcd`. -/
example : polyOf ([3, 0, 2, 0] : List (ZMod 7)) ≠ 0 := by
  intro h
  have := polyOf_coeff ([3, 0, 2, 0] : List (ZMod 7)) 0
  rw [h] at this
  exact absurd this (by decide)

/-- The hypotheses of `C59_zero_violated`: `0 / 1`. -/
example : divC ([0, 0] : List ℚ) [1] = .error .undefined ∧ gcd ([0] : List ℚ) [1] = .error .undefined := by
  decide +kernel

theorem polyOf_six_four_six_one : polyOf ([6, 4, 6, 1, 0] : List (ZMod 7)) =
    C 1 * (([4, 5, 6] : List (ZMod 7)).map (fun r => X - C r)).prod := by
  have e : C 1 * (([4, 5, 6] : List (ZMod 7)).map (fun r => X - C r)).prod =
      X ^ 3 - C (4 + 5 + 6 : ZMod 7) * X ^ 2 + C (4 * 5 + 4 * 6 + 5 * 6 : ZMod 7) * X - C (4 * 5 * 6 : ZMod 7) := by
    simp only [List.map_cons, List.map_nil, List.prod_cons, List.prod_nil, C_add, C_mul, C_1]
    ring
  rw [e, polyOf_eq_iff]
  intro n
  simp only [coeff_add, coeff_sub, coeff_C_mul, coeff_X_pow, coeff_X, coeff_C]
  match n with
  | 0 => decide
  | 1 => decide
  | 2 => decide
  | 3 => decide
  | 4 => decide
  | n + 5 => simp

/-- The hypotheses of `C60_can_return` and `C60_roots`: `(x - 4)(x - 5)(x - 6)` modulo 7. -/
example : HasRoots (polyOf ([6, 4, 6, 1, 0] : List (ZMod 7))) [4, 5, 6] :=
  ⟨1, one_ne_zero, polyOf_six_four_six_one⟩

/-- The hypotheses of `C60_never_returns`: `x^2 + 1` has no root modulo 7. -/
example (rs : List (ZMod 7)) : ¬ HasRoots (polyOf ([1, 0, 1] : List (ZMod 7))) rs := by
  rintro ⟨u, hu, e⟩
  have h1 : polyOf ([1, 0, 1] : List (ZMod 7)) = X ^ 2 + 1 := by
    rw [polyOf_eq_iff]; intro n
    simp only [coeff_add, coeff_X_pow, coeff_one]
    match n with
    | 0 => decide
    | 1 => decide
    | 2 => decide
    | n + 3 => simp
  rw [h1] at e
  cases rs with
  | nil =>
    have := congrArg natDegree e
    simp only [List.map_nil, List.prod_nil, mul_one, natDegree_C] at this
    rw [show (X ^ 2 + 1 : (ZMod 7)[X]) = X ^ 2 + C 1 by simp, natDegree_X_pow_add_C] at this
    omega
  | cons r rs =>
    have := congrArg (fun P => eval r P) e
    simp at this
    revert this
    clear e
    revert r
    decide

end FireFly
