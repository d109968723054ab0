import Verif.Model.Whole
import Verif.Spec.RatRun
/-! # Specification: several rational functions, reconstructed in several prime fields by several threads -/
set_option linter.all false
namespace FireFly.Whole
open MvPolynomial RRun

/-- What is assumed about the first prime field, for the function `n/d` with the number `i`: `p` divides no denominator and no numerator of a coefficient; the values are those of `n/d` modulo `p`, with shift; with a constant factor `u`, `n/d`
modulo `p` satisfies the assumptions of C44 for the probes that may be chosen; the function does not vanish there. -/
structure FirstGood {ι : Type} (k : ℕ) (n d : MvPolynomial ℕ ℚ) (f : PField ι) (i : ι) (u : ZMod f.p) (mN mD : ℕ) : Prop where
  nvars : (f.cfg i).n = k
  gt : haveI := f.fact; PivotOrder (f.cfg i).gt
  denN : ∀ m, ¬ (f.p : ℤ) ∣ (coeff m n).den
  denD : ∀ m, ¬ (f.p : ℤ) ∣ (coeff m d).den
  numN : haveI := f.fact; ∀ m ∈ n.support, ((coeff m n : ℚ) : ZMod f.p) ≠ 0
  numD : haveI := f.fact; ∀ m ∈ d.support, ((coeff m d : ℚ) : ZMod f.p) ≠ 0
  values : haveI := f.fact; ∀ t o, f.value i t o = RMulti.valueOf (f.cfg i).shift (f.cfg i).anchor (red f.p n) (red f.p d) t o
  nonzero : ∀ q, f.good q → f.value i q.1 q.2 ≠ 0
  prob : haveI := f.fact; RMulti.Prob (f.cfg i) (C u * red f.p n) (C u * red f.p d) mN mD
  points : haveI := f.fact; RMulti.GoodPts (f.cfg i) (C u * red f.p n) (C u * red f.p d) (fun t ord => f.good (t, ord))
  thiele : haveI := f.fact; RMulti.ThieleGood (f.cfg i) (C u * red f.p n) (C u * red f.p d) mN mD (fun t ord => f.good (t, ord))

/-- What is assumed about a further prime field, for the function `n/d` with the number `i`, normalized to the monomial `e`: `p` divides no denominator of a coefficient; the anchor point distinguishes the monomials of one degree; the values are those
of `n/d` modulo `p` without shift; for the probes that may be chosen the denominator and the value do not vanish, and the linear systems for the values of some homogeneous parts, with as many probes as unknowns, have one solution at most.
The normalized monomial is not among the unknowns. -/
structure LaterGood {ι : Type} (k : ℕ) (n d : MvPolynomial ℕ ℚ) (b : Bool) (e : List ℕ) (f : PField ι) (i : ι) : Prop where
  nvars : (f.cfg i).n = k
  anchorLen : (f.cfg i).anchor.length + 1 = k
  anchor : ∀ x ∈ (f.cfg i).anchor, x ≠ 0
  gt : haveI := f.fact; PivotOrder (f.cfg i).gt
  denN : ∀ m, ¬ (f.p : ℤ) ∣ (coeff m n).den
  denD : ∀ m, ¬ (f.p : ℤ) ∣ (coeff m d).den
  distinct : haveI := f.fact; ∀ g ∈ [n, d], ∀ m ∈ g.support, ∀ m' ∈ g.support, m.degree = m'.degree →
    eval (RMulti.dir (f.cfg i).anchor (List.replicate (k - 1) 1)) (monomial m (1 : ZMod f.p)) = eval (RMulti.dir (f.cfg i).anchor (List.replicate (k - 1) 1)) (monomial m' 1) → m = m'
  values : haveI := f.fact; ∀ t o, f.value i t o = RLater.value (f.cfg i).anchor (red f.p n) (red f.p d) t o
  probes : haveI := f.fact; ∀ q, f.good q → q.2 ≠ [] ∧ eval (RLater.at_ (f.cfg i).anchor q.1 q.2) (red f.p d) ≠ 0 ∧ f.value i q.1 q.2 ≠ 0
  det : haveI := f.fact; ∀ (ord : List ℕ) (A B : Finset ℕ) (ts : List (ZMod f.p)), (∀ j ∈ A, ∃ m ∈ n.support, m.degree = j ∧ (b = false → m ≠ e.toFinsupp)) →
    (∀ j ∈ B, ∃ m ∈ d.support, m.degree = j ∧ (b = true → m ≠ e.toFinsupp)) → ts.Nodup → (∀ t ∈ ts, f.good (t, ord)) → ts.length = A.card + B.card →
    ∀ x y : ℕ → ZMod f.p, (∀ t ∈ ts, ∑ j ∈ A, x j * t ^ j = f.value i t ord * ∑ j ∈ B, y j * t ^ j) → (∀ j ∈ A, x j = 0) ∧ ∀ j ∈ B, y j = 0

/-- the product of the primes -/
def prod {ι : Type} (fs : List (PField ι)) : ℤ := (fs.map (fun f => (f.p : ℤ))).prod

/-- All further prime fields satisfy the assumptions for the function `n/d`; `M` is the product of the primes before; no coefficient can be mistaken for another number. -/
def AllGood {ι : Type} (k : ℕ) (n d : MvPolynomial ℕ ℚ) (b : Bool) (e : List ℕ) (i : ι) : ℤ → List (PField ι) → Prop
  | _, [] => True
  | M, f :: fs => LaterGood k n d b e f i ∧ ¬ (f.p : ℤ) ∣ M ∧ (∀ m, ¬ Deceptive (coeff m n) M (M * f.p) ∧ ¬ Deceptive (coeff m d) M (M * f.p)) ∧ AllGood k n d b e i (M * f.p) fs

/-- The assumptions about a run: `2 ≤ k` variables; each function `n/d` has a monomial that is the only one of its degree; the first prime field is good for it; in each normalization to such a monomial, so are the further ones. The limit of 300 prime
fields is not reached. -/
structure Hyp {ι : Type} (k : ℕ) (n d : ι → MvPolynomial ℕ ℚ) (f : PField ι) (fs : List (PField ι)) : Prop where
  two : 2 ≤ k
  varsN : ∀ i, InVars k (n i)
  varsD : ∀ i, InVars k (d i)
  lone : ∀ i, ∃ g ∈ [n i, d i], ∃ m ∈ g.support, ∀ m' ∈ g.support, m'.degree = m.degree → m' = m
  first : ∀ i, ∃ (u : ZMod f.p) (mN mD : ℕ), FirstGood k (n i) (d i) f i u mN mD
  later : ∀ i (l : ℚ) (b : Bool) (e : List ℕ), l ≠ 0 → Normalized k (C l * n i) (C l * d i) b e → AllGood k (C l * n i) (C l * d i) b e i f.p fs
  limit : fs.length + 1 < 300

/-- The result `N/D` is right: it is `n/d`; numerator and denominator may have a common factor `l`, with which one of the coefficients is one. -/
def Right (k : ℕ) (n d : MvPolynomial ℕ ℚ) (N D : RnMap) : Prop := ∃ (l : ℚ) (b : Bool) (e : List ℕ), l ≠ 0 ∧ Normalized k (C l * n) (C l * d) b e ∧ RRun.rnPoly N = C l * n ∧ RRun.rnPoly D = C l * d

/-- The result `N/D` was reported in a prime field `g` of the run before the coefficients were small for the product of the primes before `g`: its monomials are those of `n/d`, its coefficients agree with those of `n/d` modulo this product, and it has the same value as
`n/d` at a probe in the field `g`. -/
def Early {ι : Type} (k : ℕ) (n d : MvPolynomial ℕ ℚ) (i : ι) (f : PField ι) (fs : List (PField ι)) (N D : RnMap) : Prop :=
  ∃ (l : ℚ) (fs1 : List (PField ι)) (g : PField ι) (fs2 : List (PField ι)) (got : List (ZMod g.p × List ℕ)), l ≠ 0 ∧ (∃ b e, Normalized k (C l * n) (C l * d) b e) ∧ fs = fs1 ++ g :: fs2 ∧
    Certified k (C l * n) (C l * d) (f.p * prod fs1) (g.record i got) N D ∧ ¬ AllSmall (C l * n) (C l * d) (f.p * prod fs1)

/-- There are enough probes the random number generator may choose in a further prime field: for each `o`, as many with the order vector `(o, …, o)` as the function has degrees with at least `o` monomials. -/
def Supply {ι : Type} (k : ℕ) (n d : ι → MvPolynomial ℕ ℚ) (g : PField ι) : Prop :=
  ∀ i o, 1 ≤ o → ∃ ts : List (ZMod g.p), ts.Nodup ∧ numDegs (n i) o + numDegs (d i) o ≤ ts.length ∧ ∀ t ∈ ts, g.good (t, List.replicate (k - 1) o)

end FireFly.Whole
