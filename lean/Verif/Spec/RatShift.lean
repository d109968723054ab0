import Verif.Spec.RatMulti
import Verif.Model.RatShift
/-! # Specification: the interpolation in a further prime field with a shift -/
set_option linter.all false
namespace FireFly.RShift
open MvPolynomial
variable {F : Type} [Field F]

/-- The exponents of the polynomial that are known from the previous prime fields: those of coefficients that are not known and of known ones. -/
def exps (p : Prior) : List (List ℕ) := p.unknown.flatMap Prod.snd ++ p.known

/-- The degrees of the parts of the shifted polynomial that are asked: those of the monomials of the polynomial and of the monomials which the shift produces. `const` is set for the polynomial whose
constant (with shift) is normalized to one: degree zero is not asked. -/
def asked (n : ℕ) (const : Bool) (p : Prior) : Finset ℕ :=
  (Finset.range (p.maxDeg + 1)).filter (fun k => (k ∈ (exps p).map List.sum ∨ p.shifts k ≠ []) ∧ ¬ (const = true ∧ k = 0))

/-- The information from the previous prime fields fits to the polynomial `Q`. `part s Q k - homogeneousComponent k Q` is what the shift contributes to degree `k`. -/
structure PriorOK (n : ℕ) (s a : List F) (Q : MvPolynomial ℕ F) (const : Bool) (p : Prior) : Prop where
  unknownForm : ∀ u ∈ p.unknown, ∃ d, u.1 = [d] ∧ u.2 ≠ [] ∧ ∀ e ∈ u.2, e.sum = d
  unknownKeys : (p.unknown.map Prod.fst).Nodup
  length : ∀ e ∈ exps p, e.length = n
  nodup : (exps p).Nodup
  le : ∀ e ∈ exps p, e.sum ≤ p.maxDeg
  lead : p.maxDeg ∈ (exps p).map List.sum
  shiftForm : ∀ k, (p.shifts k).Nodup ∧ ∀ e ∈ p.shifts k, e.length = n ∧ e.sum = k
  top : p.shifts p.maxDeg = []
  const : const = true → ∀ e ∈ p.unknown.flatMap Prod.snd, e.sum ≠ 0
  /-- the monomials of `Q` are known -/
  support : ∀ d, coeff d Q ≠ 0 → ∃ e ∈ exps p, e.toFinsupp = d
  /-- the monomials which the shift produces are known -/
  shifts : ∀ k ≤ p.maxDeg, ∀ d, coeff d (RMulti.part s Q k - homogeneousComponent k Q) ≠ 0 → ∃ e ∈ p.shifts k, e.toFinsupp = d
  /-- a part in which only the shift produces monomials is marked -/
  zeros : ∀ k ≤ p.maxDeg, k ∉ (exps p).map List.sum → p.shifts k ≠ [] → k ∈ p.zeros
  /-- a part that is marked vanishes -/
  zero : ∀ k ∈ p.zeros, homogeneousComponent k Q = 0
  /-- the powers of the anchor point distinguish the monomials of one degree -/
  distinct : ∀ k, ∀ e ∈ exps p ++ p.shifts k, ∀ e' ∈ exps p ++ p.shifts k, e.sum = k → e'.sum = k →
    eval (RMulti.dir a (List.replicate (n - 1) 1)) (monomial e.toFinsupp (1 : F)) = eval (RMulti.dir a (List.replicate (n - 1) 1)) (monomial e'.toFinsupp 1) → e = e'
  anchor : ∀ x ∈ a, x ≠ 0
  char : ∀ i, 0 < i → i ≤ p.maxDeg → (i : F) ≠ 0

/-- The problem: `N/D`, normalized with the shift, and what is known from the previous prime fields. If the numerator is normalized (`normDen` is false, the denominator vanishes at the shift), the constant of the
denominator is not asked. The number of equations is the number of degrees that are asked. -/
structure Prob (c : Cfg F) (N D : MvPolynomial ℕ F) : Prop where
  two : 2 ≤ c.n
  lenShift : c.shift.length = c.n
  lenAnchor : c.anchor.length + 1 = c.n
  num : PriorOK c.n c.shift c.anchor N (!c.normDen) c.num
  den : PriorOK c.n c.shift c.anchor D c.normDen c.den
  den0 : 0 ∉ asked c.n c.normDen c.den
  norm : eval (fun i => c.shift.getD i 0) (if c.normDen then D else N) = 1
  eqn : c.maxEqn = (asked c.n (!c.normDen) c.num).card + (asked c.n c.normDen c.den).card
  pos : 1 ≤ c.maxEqn
  normalizerLen : c.normalizerDeg.length = c.n
  normalizer : coeff c.normalizerDeg.toFinsupp (if c.normalizerDen then D else N) ≠ 0

/-- The probes that are allowed, `G t ord`: there is an order vector; the denominator does not vanish; the linear systems for the values of some of the parts that are asked, with as many probes as unknowns, have
one solution at most. -/
structure GoodPts (c : Cfg F) (N D : MvPolynomial ℕ F) (G : F → List ℕ → Prop) : Prop where
  ord : ∀ t ord, G t ord → ord ≠ []
  den : ∀ t ord, G t ord → eval (RMulti.pt c.shift c.anchor t ord) D ≠ 0
  det : ∀ (ord : List ℕ) (A B : Finset ℕ) (ts : List F), A ⊆ asked c.n (!c.normDen) c.num → B ⊆ asked c.n c.normDen c.den → ts.Nodup → (∀ t ∈ ts, G t ord) →
    ts.length = A.card + B.card → ∀ x y : ℕ → F,
    (∀ t ∈ ts, ∑ k ∈ A, x k * t ^ k = RMulti.valueOf c.shift c.anchor N D t ord * ∑ k ∈ B, y k * t ^ k) → (∀ k ∈ A, x k = 0) ∧ ∀ k ∈ B, y k = 0

/-- The coefficients of `τ Q` that are not known. -/
structure Unknowns (n : ℕ) (p : Prior) (Q : MvPolynomial ℕ F) (τ : F) (r : FFMap F) : Prop where
  wf : WFMap n r
  known : ∀ e ∈ p.known, r.find? e = none
  other : ∀ e, e.length = n → e ∉ p.known → (r.find? e).getD 0 = τ * coeff e.toFinsupp Q

/-- What is handed to `combine_primes`: the unknown coefficients of the function, normalized to the chosen coefficient. -/
def Right (c : Cfg F) (N D : MvPolynomial ℕ F) (num den : FFMap F) : Prop :=
  ∃ τ : F, τ * coeff c.normalizerDeg.toFinsupp (if c.normalizerDen then D else N) = 1 ∧ Unknowns c.n c.num N τ num ∧ Unknowns c.n c.den D τ den

/-- The number of monomials of `Q` in the degree with most of them (the constant is not counted if it is normalized). -/
def width (const : Bool) (p : Prior) : ℕ := (Finset.range (p.maxDeg + 1)).sup (fun k => ((exps p).filter (fun e => decide (e.sum = k ∧ ¬ (const = true ∧ k = 0)))).length)

/-- The probes with their values. -/
noncomputable def withValues (c : Cfg F) (N D : MvPolynomial ℕ F) (probes : List (F × List ℕ)) : List (F × F × List ℕ) :=
  probes.map (fun q => (q.1, RMulti.valueOf c.shift c.anchor N D q.1 q.2, q.2))

variable [DecidableEq F]

/-- The number of probes in the list that have the order vector the object wants at this moment, until it is finished with this prime field. -/
def hits (c : Cfg F) : St F → List (F × F × List ℕ) → ℕ
  | _, [] => 0
  | s, q :: rest => (if q.2.2 = s.ord ∧ s.out.isSome = false then 1 else 0) + match c.feed s q with
    | none => 0
    | some s' => hits c s' rest

/-- the order vector `(o, …, o)` -/
def uni (c : Cfg F) (o : ℕ) : List ℕ := List.replicate (c.n - 1) o

/-- the guesses are polynomials in the right number of variables -/
def GuessOK (c : Cfg F) : Prop := ∀ g, c.guess = some g → WFMap c.n g.1 ∧ WFMap c.n g.2

/-- the guess passes the test with this probe -/
def Passes (c : Cfg F) (N D : MvPolynomial ℕ F) (t : F) (ord : List ℕ) : Prop :=
  ∃ g, c.guess = some g ∧ RMulti.valueOf c.shift c.anchor (denote g.1) (denote g.2) t ord = RMulti.valueOf c.shift c.anchor N D t ord

/-- the probe the guess is tested with -/
def firstProbe (c : Cfg F) (past : List (F × List ℕ)) : Option (F × List ℕ) := past.find? (fun q => decide (q.2 = uni c 1))

end FireFly.RShift
