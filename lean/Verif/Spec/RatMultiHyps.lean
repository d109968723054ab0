import Verif.Spec.RatMulti
import Verif.Model.RatMulti
import Verif.Props.MultiPolyProps
import Verif.Props.ThieleProps
/-! # Specification: what the interpolation of a rational function in several variables needs and gives -/
set_option linter.all false
namespace FireFly.RMulti
open MvPolynomial
variable {F : Type} [Field F] [DecidableEq F]

/-- the first order vector -/
def ones (c : Cfg F) : List ℕ := List.replicate (c.n - 1) 1

/-- `p`, homogeneous in `n` variables, can be interpolated by the object with the settings `pc` (C43) when the first variable is set to one: it fits to them and the anchor point is generic for it (or `p` vanishes). -/
def Target (pc : MPoly.Cfg F) (p : MvPolynomial ℕ F) : Prop := ∃ f : FFMap F, denote f = dehomogenize p ∧ (f = [] ∨ MPoly.Fits pc f)

/-- The number of values that are needed for the homogeneous polynomial `p` of degree `k`, at most (C43). -/
noncomputable def bnd (c : Cfg F) (k : ℕ) (p : MvPolynomial ℕ F) : ℕ := (c.n - 1) * ((2 * (k + 1) + c.thr + 1) * (dehomogenize p).support.card)

/-- What the interpolation of the numerator or the denominator `Q` needs: `m` is its degree; a part of the shifted polynomial that vanishes belongs to a part of `Q` that
vanishes; parts that do not vanish are seen at the first order vector; the parts, with and without shift, can be interpolated with the anchor
point. `char` holds if the prime number is larger than `m`. `fuel` concerns the model only: the loops of `feed_poly` are not cut off. -/
structure SideOK (c : Cfg F) (bounds : Option (List ℕ)) (Q : MvPolynomial ℕ F) (m : ℕ) : Prop where
  top : ∀ k, m < k → part c.shift Q k = 0
  lead : part c.shift Q m ≠ 0
  keep : ∀ k, part c.shift Q k = 0 → homogeneousComponent k Q = 0
  seen : ∀ k, part c.shift Q k ≠ 0 → eval (dir c.anchor (List.replicate (c.n - 1) 1)) (part c.shift Q k) ≠ 0
  target : ∀ k, 1 ≤ k → part c.shift Q k ≠ 0 → Target (c.poly bounds k) (part c.shift Q k) ∧ Target (c.poly bounds k) (homogeneousComponent k Q)
  small : m < 2 ^ 31
  char : ∀ i, 0 < i → i ≤ m → (i : F) ≠ 0
  fuel : ∀ k ≤ m, bnd c k (part c.shift Q k) + 2 ≤ c.fuel ∧ bnd c k (homogeneousComponent k Q) + 2 ≤ c.fuel

/-- The problem: the rational function `N/D` with degrees `mN`, `mD`, normalized at the shift. -/
structure Prob (c : Cfg F) (N D : MvPolynomial ℕ F) (mN mD : ℕ) : Prop where
  len : c.shift.length = c.n
  two : 2 ≤ c.n
  okN : SideOK c c.boundsNum N mN
  okD : SideOK c c.boundsDen D mD
  norm : eval (fun i => c.shift.getD i 0) (if c.normDen then D else N) = 1

/-- The probes that are allowed, `G t ord`: the denominator does not vanish; the linear systems for the coefficients of some powers of `t` in the numerator and the denominator, with as many
probes as unknowns, have one solution at most. -/
structure GoodPts (c : Cfg F) (N D : MvPolynomial ℕ F) (G : F → List ℕ → Prop) : Prop where
  den : ∀ t ord, G t ord → eval (pt c.shift c.anchor t ord) D ≠ 0
  det : ∀ (ord : List ℕ) (A B : Finset ℕ) (ts : List F), (∀ k ∈ A, 1 ≤ k ∧ part c.shift N k ≠ 0) → (∀ k ∈ B, 1 ≤ k ∧ part c.shift D k ≠ 0) → ts.Nodup → (∀ t ∈ ts, G t ord) →
    ts.length = A.card + B.card → ∀ a b : ℕ → F,
    (∀ t ∈ ts, ∑ k ∈ A, a k * t ^ k = valueOf c.shift c.anchor N D t ord * ∑ k ∈ B, b k * t ^ k) → (∀ k ∈ A, a k = 0) ∧ ∀ k ∈ B, b k = 0

/-- What the result is: the rational function `N/D` with a common factor, the chosen coefficient is one. Unless `singular` is set, its monomial is the only one of its degree; if `singular` is set, there is no
such monomial in the numerator and the denominator. -/
structure Good (c : Cfg F) (N D : MvPolynomial ℕ F) (r : Result F) : Prop where
  wfNum : WFMap c.n r.num
  wfDen : WFMap c.n r.den
  nzNum : ∀ t ∈ r.num, t.2 ≠ 0
  nzDen : ∀ t ∈ r.den, t.2 ≠ 0
  value : ∃ τ : F, τ ≠ 0 ∧ denote r.num = C τ * N ∧ denote r.den = C τ * D
  one : (if r.normDen then r.den else r.num).find? r.normDeg = some 1
  lone : r.singular = false → ∀ t ∈ (if r.normDen then r.den else r.num), t.1.sum = r.normDeg.sum → t.1 = r.normDeg
  many : r.singular = true → ∀ m ∈ [r.num, r.den], ∀ t ∈ m, ∃ u ∈ m, u.1 ≠ t.1 ∧ u.1.sum = t.1.sum

/-- the probes for the first order vector, with their values -/
noncomputable def first (c : Cfg F) (N D : MvPolynomial ℕ F) (probes : List (F × List ℕ)) : List (F × F) :=
  (probes.filter (fun q => decide (q.2 = ones c))).map (fun q => (valueOf c.shift c.anchor N D q.1 (ones c), q.1))

/-- Thiele's method works on these probes `(value, t)` of the first order vector: no division by zero, no end before the degrees are seen, the first value does not vanish; no common factor
disappears on this line. -/
structure ThieleOK (c : Cfg F) (N D : MvPolynomial ℕ F) (mN mD : ℕ) (pts : List (F × F)) : Prop where
  run : ∃ r, ({} : Thiele F).runChecked pts = some r ∧ (r.2 = true → 2 * mD ≤ r.1.ti.length ∧ 2 * mN ≤ r.1.ti.length + 1)
  head : ∀ q, pts.head? = some q → q.1 ≠ 0
  nonzero : ∀ q ∈ pts, q.2 ≠ 0
  short : pts.length < 2 ^ 32
  coprime : IsCoprime (line c.shift c.anchor (ones c) N) (line c.shift c.anchor (ones c) D)

/-- the number of probes Thiele's method needs at most -/
def thieleMax (mN mD : ℕ) : ℕ := max (max (2 * mD + 2) (2 * mN + 1)) 2

/-- The number of values for all degrees of `Q`, at most: each degree is interpolated twice, with and without shift. -/
noncomputable def needs (c : Cfg F) (Q : MvPolynomial ℕ F) (m : ℕ) : ℕ := ∑ k ∈ Finset.range (m + 1), (bnd c k (part c.shift Q k) + bnd c k (homogeneousComponent k Q) + 2)

/-- The number of probes that the object has asked for at most (`t` new, the order vector that is wanted): Thiele's method, and a system of at most `mN + mD + 2` probes for each value. -/
noncomputable def maxProbes (c : Cfg F) (N D : MvPolynomial ℕ F) (mN mD : ℕ) : ℕ := (needs c N mN + needs c D mD) * (mN + mD + 3) + (mN + mD + 2) + thieleMax mN mD

/-- The probes with their values. -/
noncomputable def withValues (c : Cfg F) (N D : MvPolynomial ℕ F) (probes : List (F × List ℕ)) : List (F × F × List ℕ) :=
  probes.map (fun q => (q.1, valueOf c.shift c.anchor N D q.1 q.2, q.2))

/-- The number of probes in the list that have the order vector the object wants at this moment, until it has its result. -/
def hits (c : Cfg F) : St F → List (F × F × List ℕ) → ℕ
  | _, [] => 0
  | s, q :: rest => (if q.2.2 = s.ord ∧ s.result.isSome = false then 1 else 0) + match c.feed s q with
    | none => 0
    | some s' => hits c s' rest

end FireFly.RMulti
