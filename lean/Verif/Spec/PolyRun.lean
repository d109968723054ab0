import Verif.Spec.RatRun
import Verif.Model.PolyRun
import Verif.Props.MultiPolyProps
/-!
# Specification: polynomials over the rational numbers, reconstructed in several prime fields
-/
set_option linter.all false
namespace FireFly.PRun
open MvPolynomial RRun

/-- the order vector `(1, …, 1)` -/
def ones (k : ℕ) : List ℕ := List.replicate k 1

/-- The value of `f` modulo `p` at the powers `ord` of the anchor point. -/
noncomputable def valueMod (r : Field) (f : MvPolynomial ℕ ℚ) (ord : List ℕ) : ZMod r.p :=
  haveI := r.fact
  eval (fun j => r.cfg.anchor.getD j 0 ^ ord.getD j 0) (red r.p f)

/-- What is assumed about a prime field: `p` divides no denominator of a coefficient; `f` modulo `p` can be interpolated with the anchor point (C43), or it vanishes and Newton interpolation is
used; the values are those of `f`; the value for `(1, …, 1)` is fed once at most. -/
structure FieldOK (k : ℕ) (f : MvPolynomial ℕ ℚ) (r : Field) : Prop where
  vars : 0 < k
  nvars : r.cfg.n = k
  den : ∀ m, ¬ (r.p : ℤ) ∣ (coeff m f).den
  target : haveI := r.fact; ∃ g : FFMap (ZMod r.p), denote g = red r.p f ∧ ((g = [] ∧ r.cfg.newton = true) ∨ MPoly.Fits r.cfg g)
  values : ∀ q ∈ r.probes, q.1 = valueMod r f q.2
  once : (r.probes.filter (fun q => decide (q.2 = ones k))).length ≤ 1

/-- Each value is for the orders the object wants at this moment, until it has the polynomial modulo `p`. -/
def Answers {F : Type} [_root_.Field F] [DecidableEq F] (c : MPoly.Cfg F) : MPoly.St F → List (F × List ℕ) → Prop
  | _, [] => True
  | s, q :: rest => (s.result = none → q.2 = s.ord) ∧ ∀ s', c.interpolate s q.1 q.2 = some s' → Answers c s' rest

/-- There are enough values in this field: they are what the object asks for, and there are not less than the number of C43. -/
def Enough (f : MvPolynomial ℕ ℚ) (r : Field) : Prop :=
  haveI := r.fact
  Answers r.cfg r.cfg.init r.probes ∧ r.cfg.n * ((2 * (f.totalDegree + 1) + r.cfg.thr + 1) * f.support.card) + 1 ≤ r.probes.length

/-- Between two prime fields, the residues modulo `M` of all coefficients of `f` are stored; the monomials whose coefficients vanish modulo `M` may be missing. -/
structure OK (k : ℕ) (f : MvPolynomial ℕ ℚ) (M : ℤ) (c : Cross) : Prop where
  prime : c.prime = M
  pos : 0 < M
  wf : WFMap k c.ci
  res : ∀ e : List ℕ, e.length = k → Reduces (RRun.coefOf f e) ((c.ci.find? e).getD 0) M
  supp : ∀ t ∈ c.ci, RRun.coefOf f t.1 ≠ 0
  flag : c.newPrime = true

/-- What is guaranteed about a reported result: a polynomial with reduced fractions as coefficients; its monomials are among those of `f`; all coefficients agree with those of `f` modulo `M`; it has the value
of `f` at the anchor point of the field `r`. -/
structure Certified (k : ℕ) (f : MvPolynomial ℕ ℚ) (M : ℤ) (r : Field) (G : RnMap) : Prop where
  wf : WFMap k G
  valid : ∀ t ∈ G, t.2.Valid
  supp : ∀ t ∈ G, RRun.coefOf f t.1 ≠ 0
  agree : ∀ m, (coeff m (RRun.rnPoly G)).num * (coeff m f).den ≡ (coeff m f).num * (coeff m (RRun.rnPoly G)).den [ZMOD M]
  value : valueMod r (RRun.rnPoly G) (ones k) = valueMod r f (ones k)

/-- the coefficients are small compared with `M` -/
def AllSmall (f : MvPolynomial ℕ ℚ) (M : ℤ) : Prop := ∀ m, Small (coeff m f) M

/-- the product of the primes -/
def primeProd (rs : List Field) : ℤ := (rs.map (fun r => (r.p : ℤ))).prod

/-- All prime fields of a run satisfy the assumptions, and the primes are different. -/
structure RunsOK (k : ℕ) (f : MvPolynomial ℕ ℚ) (rs : List Field) : Prop where
  ok : ∀ r ∈ rs, FieldOK k f r
  distinct : (rs.map (fun r => r.p)).Nodup

/-- The possible results of a run in the fields `rs`:
* a result is reported in the field `r`: it is `f`, or the coefficients of `f` are not small for the product of the primes before, and the result agrees with `f` modulo this product and at one point of the field;
* in a field there are not enough values;
* the object requests a further field; the coefficients are not small for the product of all primes but the last. -/
def Outcome (k : ℕ) (f : MvPolynomial ℕ ℚ) (rs : List Field) : RunOut → Prop
  | .finished G => ∃ rs1 r rs2, rs = rs1 ++ r :: rs2 ∧ rs1 ≠ [] ∧ Certified k f (primeProd rs1) r G ∧ (AllSmall f (primeProd rs1) → RRun.rnPoly G = f)
  | .running => ∃ rs1 r rs2, rs = rs1 ++ r :: rs2 ∧ ¬ Enough f r ∧ (rs1 ≠ [] → AllSmall f (primeProd rs1) → ∀ q ∈ r.probes, q.2 ≠ ones k)
  | .waiting c => OK k f (primeProd rs) c ∧ ∀ rs1 r rs2, rs = rs1 ++ r :: rs2 → rs1 ≠ [] → ¬ AllSmall f (primeProd rs1)

end FireFly.PRun
