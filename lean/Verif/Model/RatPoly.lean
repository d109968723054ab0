import Verif.Model.Printer
import Verif.Model.Rational
import Verif.Model.Utils
import Mathlib.Data.ZMod.Basic
import Mathlib.Algebra.Field.ZMod
/-!
# `Monomial` and `Polynomial`: polynomials with rational coefficients

source/Monomial.cpp, source/Polynomial.cpp and the one-line members of
source/RationalFunction.cpp that only look at a `Polynomial`. The structure `Polynomial` is that of
the printing model. `none` stands for undefined behaviour (a read beyond the end of a vector) or for
the division by zero inside of `RationalNumber`.
-/
namespace FireFly.RatPoly

/-- `Monomial` (source/include/firefly/Monomial.hpp 26-46): exponents and coefficient. The constructor
(source/Monomial.cpp 23) copies both. -/
abbrev Mono := List ℕ × RationalNumber

/-- The lexicographic `operator<` of `std::vector<uint32_t>`, used in `powers > m2.powers` and
`powers < m2.powers` (source/Monomial.cpp 38, 55): the first differing entry decides, a proper prefix
is smaller. -/
def lexLt : List ℕ → List ℕ → Bool
  | _, [] => false
  | [], _ :: _ => true
  | a :: as, b :: bs => if a < b then true else if b < a then false else lexLt as bs

/-- The two degree sums of the loop common to both comparisons (source/Monomial.cpp 26-32, 43-49), in
`uint32_t`; the loop runs over the length of the left operand, and reads beyond the end when the right
one is shorter. -/
def degs2 (a b : List ℕ) : Option (ℕ × ℕ) :=
  if b.length < a.length then none else some (degSum a, degSum (b.take a.length))

/-- `Monomial::operator<` (source/Monomial.cpp 25-40). -/
def lt (a b : Mono) : Option Bool :=
  (degs2 a.1 b.1).map fun d =>
    if d.1 < d.2 then true else d.1 == d.2 && lexLt b.1 a.1

/-- `Monomial::operator>` (source/Monomial.cpp 42-57). -/
def gt (a b : Mono) : Option Bool :=
  (degs2 a.1 b.1).map fun d =>
    if d.1 > d.2 then true else d.1 == d.2 && lexLt a.1 b.1

/-- `Monomial::operator*` (source/Monomial.cpp 59-68): the product of the coefficients (computed in the
copy `a`, whose `operator*` stores the result in `a.coef`), the exponents added in `uint32_t` for the
length of the left operand. -/
def mul (a b : Mono) : Option Mono :=
  if b.1.length < a.1.length then none
  else (a.2.mulAssign b.2).map fun c =>
    ((List.range a.1.length).map (fun i => (a.1.getD i 0 + b.1.getD i 0) % 2 ^ 32), c)

/-- `Monomial::operator-` (source/Monomial.cpp 70-72). -/
def neg (a : Mono) : Option Mono := a.2.neg.map fun c => (a.1, c)

/-- `Polynomial(const rn_map&)` (source/Polynomial.cpp 26-35); the list is the map in the order of its
iteration. -/
def ofMap (m : List (List ℕ × RationalNumber)) : Polynomial := ⟨firstSize m, m, none⟩

/-- `Polynomial(const Monomial&)` (source/Polynomial.cpp 37-40). -/
def ofMono (a : Mono) : Polynomial := ⟨a.1.length, [a], none⟩

/-- `Polynomial::sort` (source/Polynomial.cpp 44-49): sorted by `a_grt_b(b.powers, a.powers)`.
`std::sort` as in `stdSort`. -/
def sort (f : Polynomial) : Polynomial :=
  { f with coefs := stdSort (fun a b => aGrtB b.1 a.1) f.coefs }

/-- `Polynomial::clear` (source/Polynomial.cpp 51-53); the number of variables stays. -/
def clear (f : Polynomial) : Polynomial := { f with coefs := [] }

/-- `Polynomial::convert_to_PolynomialFF` (source/Polynomial.cpp 133-145): the number of variables is
that of the first monomial (a read beyond the end for an empty polynomial), every coefficient is
`FFInt(numerator) / FFInt(denominator)`, zeros are left out, and a second monomial with the same
exponents is ignored (`emplace`). The field is `ZMod p` with `x / 0 = 0` (C01, C03, C05, C06). -/
def toFF (p : ℕ) [Fact p.Prime] (f : Polynomial) : Option (ℕ × FFMap (ZMod p)) :=
  match f.coefs with
  | [] => none
  | t :: _ => some (t.1.length, f.coefs.foldl (fun m c =>
      let v : ZMod p := (c.2.num : ZMod p) / (c.2.den : ZMod p)
      if v ≠ 0 then m.emplace c.1 v else m) [])

/-- `Polynomial::operator*=` (source/Polynomial.cpp 147-153). -/
def scale (f : Polynomial) (r : RationalNumber) : Option Polynomial :=
  (f.coefs.mapM fun t : Mono => (t.2.mulAssign r).map fun c => (t.1, c)).map fun l => { f with coefs := l }

/-- `Polynomial::zero` (source/Polynomial.cpp 173-178), which is also `RationalFunction::zero` of the
numerator (source/RationalFunction.cpp 138-140). -/
def zero (f : Polynomial) : Bool :=
  match f.coefs with
  | [] => true
  | [t] => t.2.num == 0
  | _ => false

/-- `Polynomial::set_var_pos` and `get_var_pos` (source/Polynomial.cpp 165-171): the position is only
stored; `-1` is `none`. -/
def setVarPos (f : Polynomial) (v : Option ℕ) : Polynomial := { f with varPos := v }

end FireFly.RatPoly
