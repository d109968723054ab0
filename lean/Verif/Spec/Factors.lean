import Verif.Model.Factors
import Verif.Spec.PolyText
/-!
# Specification for C51: the values of factors and results
-/
namespace FireFly

/-- the value of a polynomial in one variable -/
def uniVal {K : Type} [Field K] (m : List (List ℕ × RationalNumber)) (x : K) : K := (m.map fun t => ratVal t.2 * x ^ t.1.getD 0 0).sum

/-- what the scan accepts: a polynomial in one variable of degree at least one with leading coefficient one -/
structure FacUniOK (m : List (List ℕ × RationalNumber)) (P : ℕ) : Prop where
  len : ∀ t ∈ m, t.1.length = 1
  deg : ∀ t ∈ m, t.1.getD 0 0 < P
  den : ∀ t ∈ m, 0 < t.2.den
  monic : ∃ t ∈ m, t.1.getD 0 0 ≠ 0 ∧ t.2 = ⟨1, 1⟩

/-- what is assumed of a factor: the variable exists, and numerator and denominator are monic polynomials of degree at least one (or absent) -/
structure Factor.OK (f : Factor) (n P : ℕ) : Prop where
  pos : f.pos < n
  num : f.num = [] ∨ FacUniOK f.num P
  den : f.den = [] ∨ FacUniOK f.den P

/-- the value of the factors in one variable at the point `x`; a missing numerator or denominator is one -/
def Factor.value {K : Type} [Field K] (x : ℕ → K) (f : Factor) : K :=
  (if f.num = [] then 1 else uniVal f.num (x f.pos)) / (if f.den = [] then 1 else uniVal f.den (x f.pos))

/-- the value of all factors of a function -/
def facValue {K : Type} [Field K] (fs : List Factor) (x : ℕ → K) : K := (fs.map (Factor.value x)).prod

/-- the value of a polynomial with rational coefficients whose variable `i` has the value `y i` -/
def polyAt {K : Type} [Field K] (m : List (List ℕ × RationalNumber)) (y : ℕ → K) : K :=
  (m.map fun t => ratVal t.2 * ((List.range t.1.length).map fun i => y i ^ t.1.getD i 0).prod).sum

/-- the value of a rational function; an empty denominator is one -/
def ratAt {K : Type} [Field K] (num den : Polynomial) (y : ℕ → K) : K := polyAt num.coefs y / (if den.coefs = [] then 1 else polyAt den.coefs y)

end FireFly
