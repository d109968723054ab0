import Verif.Tac
import Mathlib.Data.List.ToFinsupp
import Mathlib.Algebra.MvPolynomial.Eval
import Mathlib.Algebra.MvPolynomial.CommRing
/-!
# Specification: what a sparse map of monomials means

A map from exponent vectors to coefficients denotes the multivariate polynomial
`Σ c · X_0^{e_0} X_1^{e_1} ...` of Mathlib.
-/
namespace FireFly
variable {F : Type} [CommRing F]

/-- The polynomial denoted by a list of (exponent vector, coefficient) pairs. -/
noncomputable def denote (m : List (List ℕ × F)) : MvPolynomial ℕ F :=
  (m.map fun t => MvPolynomial.monomial t.1.toFinsupp t.2).sum

/-- A well-formed map for `n` variables: no repeated key, all keys of length `n`. -/
def WFMap {α : Type} (n : ℕ) (m : List (List ℕ × α)) : Prop :=
  (m.map Prod.fst).Nodup ∧ ∀ t ∈ m, t.1.length = n

end FireFly
