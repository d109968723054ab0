import Verif.Spec.RatMulti
import Verif.Model.RatLater
/-! # Specification: the interpolation in a further prime field -/
set_option linter.all false
namespace FireFly.RLater
open MvPolynomial
variable {F : Type} [Field F]

/-- The point of a probe without shift: `z_1 = t`, `z_{i+1} = t · a_i^{o_i}`. -/
def at_ (a : List F) (t : F) (ord : List ℕ) : ℕ → F := fun j => t * RMulti.dir a ord j

/-- The value of the rational function `N/D`. -/
noncomputable def value (a : List F) (N D : MvPolynomial ℕ F) (t : F) (ord : List ℕ) : F := eval (at_ a t ord) N / eval (at_ a t ord) D

/-- The terms of `N` with the exponents `es`. -/
noncomputable def terms (N : MvPolynomial ℕ F) (es : List (List ℕ)) : FFMap F := es.map (fun e => (e, coeff e.toFinsupp N))

/-- What is known and what is asked: `N` consists of the known terms `k` and of the terms with the exponents in `U`, which are sorted by their degrees; the powers of the anchor point
distinguish the monomials of one degree. -/
structure Split (n : ℕ) (a : List F) (N : MvPolynomial ℕ F) (k : FFMap F) (U : FFMap (List (List ℕ))) : Prop where
  wf : WFMap n k
  nodup : (U.map Prod.fst).Nodup
  form : ∀ u ∈ U, ∃ d, u.1 = [d] ∧ u.2 ≠ [] ∧ u.2.Nodup ∧ ∀ e ∈ u.2, e.length = n ∧ e.sum = d
  total : N = denote k + (U.map (fun u => denote (terms N u.2))).sum
  distinct : ∀ u ∈ U, ∀ e ∈ u.2, ∀ e' ∈ u.2, eval (RMulti.dir a (List.replicate (n - 1) 1)) (monomial e.toFinsupp (1 : F)) = eval (RMulti.dir a (List.replicate (n - 1) 1)) (monomial e'.toFinsupp 1) → e = e'
  anchor : ∀ x ∈ a, x ≠ 0

/-- The probes that are allowed, `G t ord`: there is an order vector; the denominator does not vanish; the linear systems for the values of some of the parts that are asked, with as many probes as unknowns, have
one solution at most. -/
structure GoodPts (a : List F) (N D : MvPolynomial ℕ F) (UN UD : FFMap (List (List ℕ))) (G : F → List ℕ → Prop) : Prop where
  ord : ∀ t ord, G t ord → ord ≠ []
  den : ∀ t ord, G t ord → eval (at_ a t ord) D ≠ 0
  det : ∀ (ord : List ℕ) (A B : Finset ℕ) (ts : List F), (∀ k ∈ A, [k] ∈ UN.map Prod.fst) → (∀ k ∈ B, [k] ∈ UD.map Prod.fst) → ts.Nodup → (∀ t ∈ ts, G t ord) →
    ts.length = A.card + B.card → ∀ x y : ℕ → F,
    (∀ t ∈ ts, ∑ k ∈ A, x k * t ^ k = value a N D t ord * ∑ k ∈ B, y k * t ^ k) → (∀ k ∈ A, x k = 0) ∧ ∀ k ∈ B, y k = 0

/-- the number of coefficients that are asked -/
def unknowns (U : FFMap (List (List ℕ))) : ℕ := (U.map (fun u => u.2.length)).sum

/-- The probes with their values. -/
noncomputable def withValues (a : List F) (N D : MvPolynomial ℕ F) (probes : List (F × List ℕ)) : List (F × F × List ℕ) :=
  probes.map (fun q => (q.1, value a N D q.1 q.2, q.2))

variable [DecidableEq F]

/-- The number of probes in the list that have the order vector the object wants at this moment, until it is finished with this prime field. -/
def hits (c : Cfg F) : St F → List (F × F × List ℕ) → ℕ
  | _, [] => 0
  | s, q :: rest => (if q.2.2 = s.ord ∧ s.out.isSome = false then 1 else 0) + match c.feed s q with
    | none => 0
    | some s' => hits c s' rest

/-- the order vector `(o, …, o)` -/
def uni (c : Cfg F) (o : ℕ) : List ℕ := List.replicate (c.n - 1) o

/-- the guesses are polynomials in the right number of variables -/
def GuessOK (c : Cfg F) : Prop := ∀ g, c.guess = some g → WFMap c.n g.1 ∧ WFMap c.n g.2

/-- the guess passes the test with this probe -/
def Passes (c : Cfg F) (N D : MvPolynomial ℕ F) (t : F) (ord : List ℕ) : Prop := ∃ g, c.guess = some g ∧ value c.anchor (denote g.1) (denote g.2) t ord = value c.anchor N D t ord

/-- the probe the guess is tested with -/
def firstProbe (c : Cfg F) (past : List (F × List ℕ)) : Option (F × List ℕ) := past.find? (fun q => decide (q.2 = uni c 1))

end FireFly.RLater
