import Mathlib.Algebra.Polynomial.Degree.Defs
/-!
# Specification: the polynomial a coefficient vector stands for
-/

open Polynomial

namespace FireFly

namespace PolyC

/-- The polynomial with the coefficients `c`, the constant term first (`Poly.hpp` 54). -/
noncomputable def polyOf {F : Type*} [Field F] (c : List F) : F[X] :=
  ∑ i ∈ Finset.range c.length, C (c.getD i 0) * X ^ i

/-- `g` is a greatest common divisor of `A` and `B`. -/
def IsGCD {F : Type*} [Field F] (g A B : F[X]) : Prop :=
  g ∣ A ∧ g ∣ B ∧ ∀ d, d ∣ A → d ∣ B → d ∣ g

/-- The text of one term `a x^i`; `shw` prints a coefficient. -/
def termText {F : Type*} (shw : F → String) (a : F) : ℕ → String
  | 0 => shw a
  | 1 => shw a ++ "x"
  | i + 2 => shw a ++ "x^" ++ toString (i + 2)

/-- Texts joined by `+`. -/
def joinPlus : List String → String
  | [] => ""
  | [a] => a
  | a :: b :: l => a ++ "+" ++ joinPlus (b :: l)

/-- The text of a polynomial: the terms with a coefficient that is not zero, with falling exponents
and joined by `+`; a constant is printed as it is (also 0). -/
noncomputable def polyText {F : Type*} [Field F] [DecidableEq F] (shw : F → String) (P : F[X]) : String :=
  if P.natDegree = 0 then shw (P.coeff 0)
  else joinPlus (((List.range (P.natDegree + 1)).reverse.filter (fun i => P.coeff i ≠ 0)).map
    (fun i => termText shw (P.coeff i) i))

/-- `P` is a constant times a product of linear factors, with the roots `rs` (each one as often as
its multiplicity). -/
def HasRoots {F : Type*} [Field F] (P : F[X]) (rs : List F) : Prop :=
  ∃ u : F, u ≠ 0 ∧ P = C u * (rs.map (fun r => X - C r)).prod

end PolyC

end FireFly
