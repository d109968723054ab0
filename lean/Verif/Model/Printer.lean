import Verif.Model.Parser
import Verif.Model.PolyFF
import Verif.Model.Rational
/-!
# Printing: `to_string` and the Horner generators

source/Polynomial.cpp, source/PolynomialFF.cpp, source/RationalFunction.cpp,
source/RationalFunctionFF.cpp, source/RationalNumber.cpp (`string`), source/HornerGenerator.cpp.

The coefficients of a `PolynomialFF` are the stored words (`ℕ`). Maps are association lists (see
`Verif.Model.PolyFF`). Simplifications: `vars[i]` beyond the end of `vars` is the empty string (undefined
behaviour in C++); `uint32_t` degrees are natural numbers (a total degree that wraps around to zero only
makes `to_string` print a coefficient one).
-/
namespace FireFly

/-- the digit of a number below ten -/
def digitChar (d : ℕ) : Char := Char.ofNat ('0'.toNat + d)

/-- `std::to_string` of an unsigned integer, `mpz_class::get_str` of a non-negative one. -/
def natStr (n : ℕ) : Str := if n < 10 then [digitChar n] else natStr (n / 10) ++ [digitChar (n % 10)]
termination_by n

/-- `mpz_class::get_str()`. -/
def intStr (z : ℤ) : Str := if z < 0 then '-' :: natStr z.natAbs else natStr z.natAbs

/-- `RationalNumber::string` (source/RationalNumber.cpp 103-121). -/
def RationalNumber.str (r : RationalNumber) : Str :=
  if r.den = 1 then
    if r.num < 1 then '(' :: intStr r.num ++ [')'] else intStr r.num
  else
    if r.num < 1 then '(' :: (intStr r.num ++ '/' :: intStr r.den) ++ [')'] else intStr r.num ++ '/' :: intStr r.den

/-- The coefficient is one: `.n != 1` (source/PolynomialFF.cpp 560), `numerator != 1 || denominator != 1`
(source/HornerGenerator.cpp 210). -/
def RationalNumber.isOne (r : RationalNumber) : Bool := r.num == 1 && r.den == 1

/-! ## `to_string` -/

section
variable {C : Type} (str : C → Str) (isOne : C → Bool)

/-- The variables of a monomial (source/PolynomialFF.cpp 629-635, source/Polynomial.cpp 78-84). -/
def monoVars (vars : List Str) (e : List ℕ) : Str :=
  ((List.range e.length).map fun i =>
    if e.getD i 0 > 1 then vars.getD i [] ++ '^' :: natStr (e.getD i 0) ++ ['*']
    else if e.getD i 0 = 1 then vars.getD i [] ++ ['*'] else []).flatten

/-- One monomial with its last character erased (source/PolynomialFF.cpp 619-637,
source/Polynomial.cpp 68-86). -/
def monoStr (vars : List Str) (t : List ℕ × C) : Str :=
  let deg := t.1.foldl (· + ·) 0
  let c := if deg ≠ 0 ∧ isOne t.2 = false then str t.2 ++ ['*'] else if deg = 0 then str t.2 ++ ['*'] else []
  (c ++ monoVars vars t.1).dropLast

/-- The loop over the monomials (source/PolynomialFF.cpp 618-642, source/Polynomial.cpp 67-91). -/
def polyStrLoop (vars : List Str) (m : List (List ℕ × C)) : Str :=
  (m.foldl (fun s t => s ++ monoStr str isOne vars t ++ ['+']) []).dropLast

end

/-- `PolynomialFF::to_string` (source/PolynomialFF.cpp 607-646); `none` is the exit. -/
def PolyFF.toStr (n : ℕ) (coefs : FFMap ℕ) (vars : List Str) : Option Str :=
  if coefs = [] then some ['0']
  else if vars.length ≠ n then none
  else some (polyStrLoop natStr (fun c => c == 1) vars coefs)

/-- `Polynomial` (source/include/firefly/Polynomial.hpp 35-90): number of variables, monomials and the
position of the variable of a univariate factor (`-1` is `none`). -/
structure Polynomial where
  n : ℕ
  coefs : List (List ℕ × RationalNumber)
  varPos : Option ℕ := none

/-- The variables used for printing (source/Polynomial.cpp 62-65, 151-155). -/
def Polynomial.vars (a : Polynomial) (vars : List Str) : List Str :=
  match a.varPos with
  | none => vars
  | some i => vars.set 0 (vars.getD i [])

/-- `Polynomial::to_string` (source/Polynomial.cpp 51-95); `none` is the exit. -/
def Polynomial.toStr (a : Polynomial) (vars : List Str) : Option Str :=
  if a.coefs = [] then some ['0']
  else if vars.length ≠ a.n ∧ a.varPos = none then none
  else some (polyStrLoop RationalNumber.str RationalNumber.isOne (a.vars vars) a.coefs)

/-- `RationalFunctionFF::to_string` (source/RationalFunctionFF.cpp 27-34). -/
def ratFFStr (n : ℕ) (num den : FFMap ℕ) (vars : List Str) : Option Str :=
  (PolyFF.toStr n num vars).bind fun a =>
    if den ≠ [] then (PolyFF.toStr n den vars).map fun b => '(' :: a ++ [')', '/', '('] ++ b ++ [')']
    else some ('(' :: a ++ [')', '/', '('] ++ ['1', ')'])

/-- `RationalFunction` (source/include/firefly/RationalFunction.hpp); the factors are rational functions
whose own factors are not used. `order` is the map `order_map`. -/
structure RationalFunction where
  num : Polynomial
  den : Polynomial
  factors : List (Polynomial × Polynomial) := []
  order : List (ℕ × ℕ) := []

/-- `vars_ordered` (source/RationalFunction.cpp 31-39, 74-82). -/
def RationalFunction.varsOrdered (f : RationalFunction) (vars : List Str) : List Str :=
  if f.order ≠ [] then f.order.foldl (fun v el => v.set el.1 (vars.getD el.2 [])) (List.replicate vars.length [])
  else vars

/-- One factor in the loop (source/RationalFunction.cpp 45-51, 88-94) for the numerators (or the
denominators), printed with `pr`. -/
def factorStr (pr : Polynomial → List Str → Option Str) (vars : List Str) (s : Str) (a : Polynomial) : Option Str :=
  if a.coefs ≠ [] then (pr a vars).map fun t => s ++ '(' :: t ++ [')', '*'] else some s

/-- `RationalFunction::to_string` and `generate_horner` (source/RationalFunction.cpp 28-66, 72-110), which
only differ in the way the polynomials are printed (`pr`). -/
def RationalFunction.print (pr : Polynomial → List Str → Option Str) (f : RationalFunction) (vars : List Str) : Option Str :=
  let vo := f.varsOrdered vars
  if f.factors ≠ [] then
    ((f.factors.map Prod.fst).foldlM (factorStr pr vars) ['(']).bind fun ns =>
    ((f.factors.map Prod.snd).foldlM (factorStr pr vars) ['(']).bind fun ds =>
    (pr f.num vo).bind fun a =>
      if f.den.coefs ≠ [] then
        (pr f.den vo).map fun b => (ns ++ '(' :: a ++ [')', ')', '/']) ++ (ds ++ '(' :: b ++ [')', ')'])
      else some ((ns ++ '(' :: a ++ [')', ')', '/']) ++ (ds ++ ['(', '1', ')', ')']))
  else
    (pr f.num vo).bind fun a =>
      if f.den.coefs ≠ [] then (pr f.den vo).map fun b => '(' :: a ++ [')', '/', '('] ++ b ++ [')']
      else some ('(' :: a ++ [')', '/', '('] ++ ['1', ')'])

/-- `RationalFunction::to_string` (source/RationalFunction.cpp 28-66). -/
def RationalFunction.toStr (f : RationalFunction) (vars : List Str) : Option Str := f.print Polynomial.toStr vars

/-! ## Horner forms -/

section
variable {C : Type}

/-- `tmp_coefs[d]` (source/HornerGenerator.cpp 31-41, source/PolynomialFF.cpp 478-488): the monomials of
degree `d` in the first variable, without this variable. -/
def hornerGroup (m : List (List ℕ × C)) (d : ℕ) : List (List ℕ × C) :=
  (m.filter fun t => t.1.getD 0 0 = d).map fun t => (t.1.tail, t.2)

/-- the largest degree in the first variable (source/HornerGenerator.cpp 49, 77-84) -/
def hornerMax (m : List (List ℕ × C)) : ℕ := m.foldl (fun d t => max d (t.1.getD 0 0)) 0

/-- `h_deg != 1 ? "^" + std::to_string(h_deg) : ""` (e.g. source/PolynomialFF.cpp 519). -/
def powStr (h : ℕ) : Str := if h ≠ 1 then '^' :: natStr h else []

/-- The iterations of the second loop after the first one (source/PolynomialFF.cpp 513-535, 566-588): the
remaining degrees and the strings of their coefficients. -/
def sparseTail (var : Str) (coef : ℕ → Str) : List ℕ → Str
  | [] => []
  | [d] => '+' :: coef d ++ [')', '*'] ++ var ++ powStr d
  | d :: d' :: ds => '+' :: coef d ++ [')', '*'] ++ var ++ powStr (d - d') ++ sparseTail var coef (d' :: ds)

/-- The nonzero degrees of a variable, from the largest one (source/PolynomialFF.cpp 504-511, 557-564). -/
def nonZeroDegrees (present : ℕ → Bool) (maxDeg : ℕ) : List ℕ := ((List.range maxDeg).map (· + 1)).reverse.filter present

/-- The string for one variable (source/PolynomialFF.cpp 496-541, 548-596; the same in
source/HornerGenerator.cpp 145-183, 198-236): `lead` is what stands before the variable in the first
iteration. -/
def sparseStr (var : Str) (lead : Str) (present : ℕ → Bool) (coef : ℕ → Str) (maxDeg : ℕ) : Str :=
  if maxDeg > 0 then
    let ds := nonZeroDegrees present maxDeg
    List.replicate (ds.length - 1) '(' ++
      (match ds with
        | [] => []
        | [d] => lead ++ var ++ powStr d
        | d :: d' :: ds => lead ++ var ++ powStr (d - d') ++ sparseTail var coef (d' :: ds)) ++
      (if present 0 then '+' :: coef 0 else [])
  else if present 0 then coef 0 else []

/-- `generate_horner_coefs` (source/PolynomialFF.cpp 474-605) and the nonempty case of
`generate_horner_rn` (source/HornerGenerator.cpp 121-240): `k` is the number of variables of the first
monomial. -/
def hornerSparse (str : C → Str) (isOne : C → Bool) (vars : List Str) : ℕ → ℕ → List (List ℕ × C) → Str
  | 0, _, m => match m with | [] => [] | t :: _ => str t.2
  | 1, index, m =>
    let coef := fun d => match m.lookup [d] with | some c => str c | none => []
    let maxDeg := hornerMax m
    let lead := match m.lookup [maxDeg] with | some c => if isOne c then [] else str c ++ ['*'] | none => []
    sparseStr (vars.getD index []) lead (fun d => (m.lookup [d]).isSome) coef maxDeg
  | k + 2, index, m =>
    let coef := fun d => hornerSparse str isOne vars (k + 1) (index + 1) (hornerGroup m d)
    let maxDeg := hornerMax m
    sparseStr (vars.getD index []) ('(' :: coef maxDeg ++ [')', '*']) (fun d => decide (hornerGroup m d ≠ [])) coef maxDeg

/-- The loop of `generate_horner_ff` from degree `i` down to one (source/HornerGenerator.cpp 62-67,
97-102). -/
def denseTail (var : Str) (present : ℕ → Bool) (coef : ℕ → Str) : ℕ → Str
  | 0 => []
  | i + 1 => (if present (i + 1) then '+' :: coef (i + 1) else []) ++ [')', '*'] ++ var ++ denseTail var present coef i

/-- The string for one variable in `generate_horner_ff` (source/HornerGenerator.cpp 50-74, 86-109): `lead`
is what stands after the variable of highest degree. -/
def denseStr (var lead : Str) (present : ℕ → Bool) (coef : ℕ → Str) (maxDeg : ℕ) : Str :=
  if maxDeg > 0 then
    List.replicate (maxDeg - 1) '(' ++ var ++ lead ++ denseTail var present coef (maxDeg - 1) ++
      (if present 0 then '+' :: coef 0 else [])
  else if present 0 then coef 0 else []

/-- The nonempty case of `generate_horner_ff` (source/HornerGenerator.cpp 26-116). -/
def hornerDense (str : C → Str) (isOne : C → Bool) (vars : List Str) : ℕ → ℕ → List (List ℕ × C) → Str
  | 0, _, m => match m with | [] => [] | t :: _ => str t.2
  | 1, index, m =>
    let coef := fun d => match m.lookup [d] with | some c => str c | none => []
    let maxDeg := hornerMax m
    let lead := match m.lookup [maxDeg] with | some c => if isOne c then [] else '*' :: str c | none => []
    denseStr (vars.getD index []) lead (fun d => (m.lookup [d]).isSome) coef maxDeg
  | k + 2, index, m =>
    let coef := fun d => hornerDense str isOne vars (k + 1) (index + 1) (hornerGroup m d)
    let maxDeg := hornerMax m
    denseStr (vars.getD index []) ('*' :: '(' :: coef maxDeg ++ [')']) (fun d => decide (hornerGroup m d ≠ [])) coef maxDeg

end

/-- the number of variables of the first monomial, `monomials.begin()->first.size()` -/
def firstSize {C : Type} (m : List (List ℕ × C)) : ℕ := match m with | [] => 0 | t :: _ => t.1.length

/-- `generate_horner_ff` (source/HornerGenerator.cpp 26-120). -/
def generateHornerFF (m : FFMap ℕ) (vars : List Str) (index : ℕ) : Str :=
  if m = [] then ['0'] else hornerDense natStr (fun c => c == 1) vars (firstSize m) index m

/-- `generate_horner_rn` (source/HornerGenerator.cpp 122-244). -/
def generateHornerRN (m : List (List ℕ × RationalNumber)) (vars : List Str) (index : ℕ) : Str :=
  if m = [] then ['0'] else hornerSparse RationalNumber.str RationalNumber.isOne vars (firstSize m) index m

/-- `generate_horner_mon` (source/HornerGenerator.cpp 246-259): `emplace` keeps the first of equal keys. -/
def generateHornerMon (m : List (List ℕ × RationalNumber)) (vars : List Str) (index : ℕ) : Str :=
  if m = [] then ['0'] else generateHornerRN (m.foldl (fun (a : List (List ℕ × RationalNumber)) t => FFMap.emplace a t.1 t.2) []) vars index

/-- `Polynomial::generate_horner` (source/Polynomial.cpp 148-156). -/
def Polynomial.generateHorner (a : Polynomial) (vars : List Str) : Option Str :=
  some (generateHornerMon a.coefs (a.vars vars) 0)

/-- `RationalFunction::generate_horner` (source/RationalFunction.cpp 72-110). -/
def RationalFunction.generateHorner (f : RationalFunction) (vars : List Str) : Option Str := f.print Polynomial.generateHorner vars

/-- The names of the variables in `generate_hornerff` (source/PolynomialFF.cpp 446-450). -/
def hornerVars (n : ℕ) : List Str := (List.range (n - 1)).map fun i => 'a' :: natStr i

/-- Setting the first variable to one in `generate_hornerff` (source/PolynomialFF.cpp 452-462), with the
sums of the words modulo `p`. -/
def dropFirst (p : ℕ) (m : FFMap ℕ) : FFMap ℕ :=
  m.foldl (fun (acc : FFMap ℕ) t =>
    match acc.find? t.1.tail with
    | none => acc.emplace t.1.tail t.2
    | some v => acc.set t.1.tail (ffAddAssign p v t.2)) []

/-- `generate_hornerff` (source/PolynomialFF.cpp 443-470) and the evaluation of the result at `x`
(`s_y_fun.evaluate_pre(x)[0]`, 54-57): the Horner string is parsed without validation, precomputed and
evaluated. -/
def hornerFFEval [LongDouble] (p n : ℕ) (m : FFMap ℕ) (x : List ℕ) : Option ℕ :=
  let c := dropFirst p m
  (parse (hornerSparse natStr (fun c => c == 1) (hornerVars n) (firstSize c) 0 c)).bind fun T =>
    (precompute p (hornerVars n) T).bind fun s => evaluatePre p x s.1

end FireFly
