import Verif.Model.Rational
import Verif.Spec.Expr
import Verif.Spec.Poly
/-!
# Specification: the value of a list of monomials at named variables

`monoVal env names e` is the product of the powers `env(names_i)^(e_i)`; `polyVal env names val m` is the
sum of `val(c) * monoVal e` over the pairs `(e, c)` of `m`.
-/
namespace FireFly
variable {K : Type} [Field K]

/-- the value of a monomial -/
def monoVal (env : Str → K) (names : List Str) (e : List ℕ) : K := (List.zipWith (fun name k => env name ^ k) names e).prod

/-- the value of a polynomial -/
def polyVal {C : Type} (env : Str → K) (names : List Str) (val : C → K) (m : List (List ℕ × C)) : K :=
  (m.map fun t => val t.2 * monoVal env names t.1).sum

/-- the value of a rational number in a field -/
def ratVal (r : RationalNumber) : K := (r.num : K) / (r.den : K)

/-- The text `s` is a well-formed expression of the documented format in the variables `vars` (exponents
below `maxPos`) and has the value `v` in every field, for all values of the variables. -/
def Denotes (vars : List Str) (maxPos maxNeg : ℕ) (s : Str) (v : ∀ (K : Type) [Field K], (Str → K) → K) : Prop :=
  ∃ e : Expr, e.render = s ∧ e.WF vars maxPos maxNeg ∧ ∀ (K : Type) [Field K] (env : Str → K), e.denote env = v K env

end FireFly
