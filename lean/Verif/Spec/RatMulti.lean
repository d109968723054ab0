import Verif.Spec.Poly
import Mathlib.RingTheory.MvPolynomial.Homogeneous
/-!
# Specification: probes of a rational function in several variables

The black box is evaluated on lines through the shift `s`: `z_1 = t + s_1`, `z_{i+1} = t · a_i^{o_i} + s_{i+1}` with the anchor point `a` and the orders `o`.
-/
namespace FireFly.RMulti
open MvPolynomial
variable {F : Type} [Field F]

/-- The direction of the line: `1` and the powers `ord` of the anchor point. -/
def dir (a : List F) (ord : List ℕ) : ℕ → F
  | 0 => 1
  | j + 1 => a.getD j 0 ^ ord.getD j 0

/-- The point `t` of the line. -/
def pt (s a : List F) (t : F) (ord : List ℕ) : ℕ → F := fun j => t * dir a ord j + s.getD j 0

/-- The value of the rational function `N/D`. -/
noncomputable def valueOf (s a : List F) (N D : MvPolynomial ℕ F) (t : F) (ord : List ℕ) : F := eval (pt s a t ord) N / eval (pt s a t ord) D

/-- The homogeneous part of degree `k` of `Q(x + s)`. -/
noncomputable def part (s : List F) (Q : MvPolynomial ℕ F) (k : ℕ) : MvPolynomial ℕ F :=
  homogeneousComponent k (aeval (fun i : ℕ => (X i + C (s.getD i 0) : MvPolynomial ℕ F)) Q)

/-- The polynomial on the line, with the variable `t`. -/
noncomputable def line (s a : List F) (ord : List ℕ) (Q : MvPolynomial ℕ F) : Polynomial F :=
  aeval (fun j => (Polynomial.X * Polynomial.C (dir a ord j) + Polynomial.C (s.getD j 0) : Polynomial F)) Q

end FireFly.RMulti
