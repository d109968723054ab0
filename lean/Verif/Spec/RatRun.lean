import Verif.Spec.RatMultiHyps
import Verif.Spec.RatLater
import Verif.Model.RatRun
import Verif.Props.CombineProps
import Verif.Props.RatMultiProps
import Verif.Props.RatLaterProps
/-!
# Specification: rational functions in several variables over the rational numbers, reconstructed in several prime fields
-/
set_option linter.all false
namespace FireFly.RRun
open MvPolynomial

/-- The polynomial modulo `p`, coefficient by coefficient. -/
noncomputable def red (p : ℕ) [Fact p.Prime] (f : MvPolynomial ℕ ℚ) : MvPolynomial ℕ (ZMod p) := ∑ m ∈ f.support, monomial m ((coeff m f : ℚ) : ZMod p)

/-- The polynomial a map of fractions denotes. -/
noncomputable def rnPoly (g : RnMap) : MvPolynomial ℕ ℚ := denote (g.map (fun t => (t.1, t.2.val)))

/-- the exponents of a monomial in `k` variables -/
def exps (k : ℕ) (m : ℕ →₀ ℕ) : List ℕ := (List.range k).map m

/-- the monomials of a polynomial as exponent vectors -/
noncomputable def monos (k : ℕ) (f : MvPolynomial ℕ ℚ) : List (List ℕ) := f.support.toList.map (exps k)

/-- the coefficient of a monomial -/
noncomputable def coefOf (f : MvPolynomial ℕ ℚ) (e : List ℕ) : ℚ := coeff e.toFinsupp f

/-- the polynomial has only the variables `0, …, k - 1` -/
def InVars (k : ℕ) (f : MvPolynomial ℕ ℚ) : Prop := ∀ m ∈ f.support, ∀ i, k ≤ i → m i = 0

/-- `n/d` is normalized to the monomial `e` of the denominator (`b`) or the numerator: its coefficient is one, and there is no other monomial of its degree. -/
structure Normalized (k : ℕ) (n d : MvPolynomial ℕ ℚ) (b : Bool) (e : List ℕ) : Prop where
  len : e.length = k
  one : coeff e.toFinsupp (if b then d else n) = 1
  lone : ∀ m ∈ (if b then d else n).support, m.degree = e.sum → m = e.toFinsupp

/-- A prime field whose first probe is zero: it is skipped. -/
def Prime.Skipped (r : Prime) : Prop := ∃ q rest, r.probes = q :: rest ∧ q.2.1 = 0

/-- What is assumed about a further prime field: `p` divides no denominator of a coefficient; the anchor point distinguishes the monomials of one degree; the probes, different from each other, are values of `n/d` modulo `p` without
shift; the linear systems for the values of some homogeneous parts, with as many probes as unknowns, have one solution at most. The normalized monomial is not among the unknowns. -/
structure LaterOK (k : ℕ) (n d : MvPolynomial ℕ ℚ) (b : Bool) (e : List ℕ) (r : Prime) : Prop where
  nvars : r.cfg.n = k
  anchorLen : r.cfg.anchor.length + 1 = k
  anchor : ∀ x ∈ r.cfg.anchor, x ≠ 0
  gt : haveI := r.fact; PivotOrder r.cfg.gt
  denN : ∀ m, ¬ (r.p : ℤ) ∣ (coeff m n).den
  denD : ∀ m, ¬ (r.p : ℤ) ∣ (coeff m d).den
  distinct : haveI := r.fact; ∀ f ∈ [n, d], ∀ m ∈ f.support, ∀ m' ∈ f.support, m.degree = m'.degree →
    eval (RMulti.dir r.cfg.anchor (List.replicate (k - 1) 1)) (monomial m (1 : ZMod r.p)) = eval (RMulti.dir r.cfg.anchor (List.replicate (k - 1) 1)) (monomial m' 1) → m = m'
  values : haveI := r.fact; ∀ q ∈ r.probes, q.2.2 ≠ [] ∧ eval (RLater.at_ r.cfg.anchor q.1 q.2.2) (red r.p d) ≠ 0 ∧ q.2.1 = RLater.value r.cfg.anchor (red r.p n) (red r.p d) q.1 q.2.2
  nodup : (r.probes.map (fun q => (q.1, q.2.2))).Nodup
  det : haveI := r.fact; ∀ (ord : List ℕ) (A B : Finset ℕ) (ts : List (ZMod r.p)), (∀ j ∈ A, ∃ m ∈ n.support, m.degree = j ∧ (b = false → m ≠ e.toFinsupp)) →
    (∀ j ∈ B, ∃ m ∈ d.support, m.degree = j ∧ (b = true → m ≠ e.toFinsupp)) → ts.Nodup → (∀ t ∈ ts, (t, ord) ∈ r.probes.map (fun q => (q.1, q.2.2))) → ts.length = A.card + B.card →
    ∀ x y : ℕ → ZMod r.p, (∀ t ∈ ts, ∑ j ∈ A, x j * t ^ j = RLater.value r.cfg.anchor (red r.p n) (red r.p d) t ord * ∑ j ∈ B, y j * t ^ j) → (∀ j ∈ A, x j = 0) ∧ ∀ j ∈ B, y j = 0

/-- the number of degrees in which `f` has at least `o` monomials -/
noncomputable def numDegs (f : MvPolynomial ℕ ℚ) (o : ℕ) : ℕ :=
  ((f.support.image Finsupp.degree).filter (fun j => o ≤ (f.support.filter (fun m => m.degree = j)).card)).card

/-- There are enough probes in this prime field: for each `o`, as many with the order vector `(o, …, o)` as there are degrees with at least `o` monomials. -/
def Enough (k : ℕ) (n d : MvPolynomial ℕ ℚ) (r : Prime) : Prop :=
  ∀ o, 1 ≤ o → numDegs n o + numDegs d o ≤ (r.probes.filter (fun q => decide (q.2.2 = List.replicate (k - 1) o))).length

/-- What is guaranteed about a result the object reports: its monomials are those of `n/d`, its coefficients agree with those of `n/d` modulo `M`, and it has the same value as `n/d` at the first probe with the order vector `(1, …, 1)` in the field of `p`. -/
structure Certified (k : ℕ) (n d : MvPolynomial ℕ ℚ) (M : ℤ) (r : Prime) (N D : RnMap) : Prop where
  num : GuessOK (coefOf n) (monos k n) M N
  den : GuessOK (coefOf d) (monos k d) M D
  probe : haveI := r.fact; ∃ q, r.probes.find? (fun q => decide (q.2.2 = List.replicate (k - 1) 1)) = some q ∧ RLater.value r.cfg.anchor (red r.p (rnPoly N)) (red r.p (rnPoly D)) q.1 q.2.2 = q.2.1

/-- `U` are the exponents `keys`, sorted by degree. -/
structure Grouped (keys : List (List ℕ)) (U : FFMap (List (List ℕ))) : Prop where
  nodup : (U.map Prod.fst).Nodup
  form : ∀ u ∈ U, ∃ j, u.1 = [j] ∧ u.2 ≠ [] ∧ ∀ e ∈ u.2, e.sum = j
  perm : (U.flatMap Prod.snd).Perm keys

/-- Between two prime fields every coefficient of `n/d` is known exactly or as residue modulo `M`. -/
structure OK (k : ℕ) (n d : MvPolynomial ℕ ℚ) (b : Bool) (e : List ℕ) (M : ℤ) (c : Cross) : Prop where
  prime : c.coefs.combPrime = M
  pos : 0 < M
  num : SideOK (coefOf n) (monos k n) M c.coefs.gNi c.coefs.combNi
  den : SideOK (coefOf d) (monos k d) M c.coefs.gDi c.coefs.combDi
  norm : (if b then c.coefs.combDi else c.coefs.combNi).find? e = none
  known : c.known = true
  check : c.checkInterpolation = true
  unNum : Grouped (c.coefs.combNi.map Prod.fst) c.unNum
  unDen : Grouped (c.coefs.combDi.map Prod.fst) c.unDen
  zeros : c.zeroCounter < c.primeNumber

/-- the coefficients are small compared with `M` -/
def AllSmall (n d : MvPolynomial ℕ ℚ) (M : ℤ) : Prop := ∀ m, Small (coeff m n) M ∧ Small (coeff m d) M

/-- What is assumed about the first prime field: `p` divides no denominator and no numerator of a coefficient; with a constant factor `u`, `n/d` modulo `p` satisfies the assumptions of C44. -/
structure FirstOK (k : ℕ) (n d : MvPolynomial ℕ ℚ) (r : Prime) (u : ZMod r.p) (mN mD : ℕ) : Prop where
  nvars : r.cfg.n = k
  gt : haveI := r.fact; PivotOrder r.cfg.gt
  denN : ∀ m, ¬ (r.p : ℤ) ∣ (coeff m n).den
  denD : ∀ m, ¬ (r.p : ℤ) ∣ (coeff m d).den
  numN : haveI := r.fact; ∀ m ∈ n.support, ((coeff m n : ℚ) : ZMod r.p) ≠ 0
  numD : haveI := r.fact; ∀ m ∈ d.support, ((coeff m d : ℚ) : ZMod r.p) ≠ 0
  values : haveI := r.fact; ∀ q ∈ r.probes, q.2.1 = RMulti.valueOf r.cfg.shift r.cfg.anchor (red r.p n) (red r.p d) q.1 q.2.2
  nodup : (r.probes.map (fun q => (q.1, q.2.2))).Nodup
  notSkipped : ¬ r.Skipped
  nonempty : r.probes ≠ []
  prob : haveI := r.fact; RMulti.Prob r.cfg (C u * red r.p n) (C u * red r.p d) mN mD
  good : haveI := r.fact; RMulti.GoodPts r.cfg (C u * red r.p n) (C u * red r.p d) (fun t ord => (t, ord) ∈ r.probes.map (fun q => (q.1, q.2.2)))
  thiele : haveI := r.fact; RMulti.ThieleOK r.cfg (C u * red r.p n) (C u * red r.p d) mN mD (RMulti.first r.cfg (C u * red r.p n) (C u * red r.p d) (r.probes.map (fun q => (q.1, q.2.2))))

/-- There are enough probes in the first prime field: not less than `maxProbes` (C44), with the order vectors the object asks for until it is finished. -/
def EnoughFirst (n d : MvPolynomial ℕ ℚ) (r : Prime) (u : ZMod r.p) (mN mD : ℕ) : Prop :=
  haveI := r.fact
  RMulti.Answers r.cfg r.cfg.init r.probes ∧ RMulti.maxProbes r.cfg (C u * red r.p n) (C u * red r.p d) mN mD ≤ r.probes.length

open Classical in
/-- the product of the primes whose fields are not skipped -/
noncomputable def primeProd (rs : List Prime) : ℤ := (rs.map (fun r => if r.Skipped then 1 else (r.p : ℤ))).prod

/-- All further prime fields of a run are skipped or satisfy the assumptions; `M` is the product of the primes before; no coefficient can be mistaken for another number. -/
def RunsOK (k : ℕ) (n d : MvPolynomial ℕ ℚ) (b : Bool) (e : List ℕ) : ℤ → List Prime → Prop
  | _, [] => True
  | M, r :: rs => (r.Skipped ∧ RunsOK k n d b e M rs) ∨ (¬ r.Skipped ∧ r.probes ≠ [] ∧ LaterOK k n d b e r ∧ ¬ (r.p : ℤ) ∣ M ∧
      (∀ m, ¬ Deceptive (coeff m n) M (M * r.p) ∧ ¬ Deceptive (coeff m d) M (M * r.p)) ∧ RunsOK k n d b e (M * r.p) rs)

/-- A result reported before the coefficients are small for the product of the primes; it agrees with the function modulo this product and at a probe. -/
def Premature (k : ℕ) (n d : MvPolynomial ℕ ℚ) (M : ℤ) (rs : List Prime) (N D : RnMap) : Prop :=
  ∃ (rs1 : List Prime) (r : Prime) (rs2 : List Prime), rs = rs1 ++ r :: rs2 ∧ ¬ r.Skipped ∧ Certified k n d (M * primeProd rs1) r N D ∧ ¬ AllSmall n d (M * primeProd rs1)

end FireFly.RRun
