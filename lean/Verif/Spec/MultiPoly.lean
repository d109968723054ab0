import Verif.Spec.Poly
import Mathlib.Algebra.Polynomial.Eval.Defs
import Mathlib.Algebra.Polynomial.BigOperators
import Mathlib.Data.List.GetD
/-!
# Specification: when the values of a multivariate polynomial determine it

The interpolation of a polynomial `f` in `n` variables from values at powers of an anchor point `a` is a probabilistic method. `Generic` states, without
reference to the algorithm, what the anchor point must satisfy: no coefficient that is looked at vanishes by accident, and the values do not look like
those of a simpler polynomial.
-/
namespace FireFly.MPoly
open Polynomial
variable {F : Type} [Field F] [DecidableEq F]

/-- The value of `f` at the point whose coordinates are the powers `ord` of the coordinates of the anchor point `a`. -/
noncomputable def valueAt (a : List F) (f : List (List ℕ × F)) (ord : List ℕ) : F :=
  MvPolynomial.eval (fun j => a.getD j 0 ^ ord.getD j 0) (denote f)

/-- The terms of `f` whose first `s` exponents are `k`, as a polynomial in variable number `s` (counted from 0); the first `s` variables are removed, the later ones are set
to the anchor point. -/
noncomputable def slice (n : ℕ) (a : List F) (f : List (List ℕ × F)) (s : ℕ) (k : List ℕ) : F[X] :=
  ((f.filter (fun t => t.1.take s = k)).map
    (fun t => C (t.2 * ∏ j ∈ Finset.Ico (s + 1) n, a.getD j 0 ^ t.1.getD j 0) * X ^ t.1.getD s 0)).sum

/-- The value of the first `s` variables of a monomial at the anchor point. -/
def node (a : List F) (s : ℕ) (m : List ℕ) : F := ∏ j ∈ Finset.range s, a.getD j 0 ^ m.getD j 0

/-- As long as at most `deg g + 1` values of `g` at `y, y^2, …` are known, they are not those of a polynomial whose degree is lower than their number minus one. -/
def NoLowerDegree (y : F) (g : F[X]) : Prop :=
  ∀ i ≤ g.natDegree, ∀ P : F[X], P.degree < i → ∃ j ≤ i, P.eval (y ^ (j + 1)) ≠ g.eval (y ^ (j + 1))

/-- The first `2 r + 1` values of `g` at `y, y^2, …` do not satisfy a linear recurrence of order `r` smaller than the number of terms of `g`. -/
def NoShortRecurrence (y : F) (g : F[X]) : Prop :=
  ∀ r < g.support.card, ∀ l : ℕ → F, ∃ j, r ≤ j ∧ j ≤ 2 * r ∧
    g.eval (y ^ (j + 1)) + ∑ i ∈ Finset.Icc 1 r, l i * g.eval (y ^ (j + 1 - i)) ≠ 0

/-- The anchor point `a` is generic for `f`, for Newton interpolation (`newton`) or the method of Ben-Or and Tiwari (`bt`) in each variable. -/
structure Generic (n : ℕ) (a : List F) (f : List (List ℕ × F)) (newton bt : Bool) : Prop where
  /-- the coordinates do not vanish -/
  nonzero : ∀ s < n, a.getD s 0 ≠ 0
  /-- different monomials in the first variables have different values -/
  nodes : ∀ s < n, ∀ t ∈ f, ∀ t' ∈ f, node a s t.1 = node a s t'.1 → t.1.take s = t'.1.take s
  /-- the powers of a coordinate that are needed are different -/
  order : ∀ s < n, ∀ t ∈ f, ∀ j, 0 < j → j ≤ t.1.getD s 0 + 1 → a.getD s 0 ^ j ≠ 1
  /-- monomials do not disappear when later variables are set to the anchor point -/
  keeps : ∀ s < n, ∀ t ∈ f, (slice n a f s (t.1.take s)).coeff (t.1.getD s 0) ≠ 0
  newton : newton = true → ∀ s < n, ∀ t ∈ f, NoLowerDegree (a.getD s 0) (slice n a f s (t.1.take s))
  bt : bt = true → ∀ s < n, ∀ t ∈ f, NoShortRecurrence (a.getD s 0) (slice n a f s (t.1.take s))

end FireFly.MPoly
