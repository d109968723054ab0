import Verif.Spec.RatRun
import Verif.Spec.RatShift
import Verif.Model.RatShiftAll
import Verif.Lemmas.RatRunCore
/-!
# Specification: rational functions in several variables over the rational numbers, reconstructed in several prime fields with a shift
-/
set_option linter.all false
namespace FireFly.RRun.Shifted
open MvPolynomial

/-- the denominator (`b`) or the numerator -/
noncomputable def side (n d : MvPolynomial ℕ ℚ) (b : Bool) : MvPolynomial ℕ ℚ := if b then d else n

/-- The monomials which the shift of the field produces in the denominator (`b`) or the numerator, in addition to the homogeneous part of degree `j`, are the set `S b j`. -/
def SameShift (n d : MvPolynomial ℕ ℚ) (S : Bool → ℕ → Finset (ℕ →₀ ℕ)) (r : RRun.Prime) : Prop :=
  haveI := r.fact
  ∀ b j, (RMulti.part r.cfg.shift (red r.p (side n d b)) j - homogeneousComponent j (red r.p (side n d b))).support = S b j

/-- The shifted polynomial has a part of degree `j` that is asked for: all but the constant of the denominator (`nd`) or numerator, which is normalized. -/
def Asked (n d : MvPolynomial ℕ ℚ) (S : Bool → ℕ → Finset (ℕ →₀ ℕ)) (nd b : Bool) (j : ℕ) : Prop := ((∃ m ∈ (side n d b).support, m.degree = j) ∨ S b j ≠ ∅) ∧ ¬ (b = nd ∧ j = 0)

open Classical in
/-- the degrees that are asked for -/
noncomputable def askedDegs (n d : MvPolynomial ℕ ℚ) (S : Bool → ℕ → Finset (ℕ →₀ ℕ)) (nd b : Bool) : Finset ℕ := (Finset.range ((side n d b).totalDegree + 1)).filter (Asked n d S nd b)

/-- What is assumed about the first prime field: there is a shift, and the assumptions of C46 hold; the shift produces the monomials `S`; if the numerator is normalized, the denominator vanishes at the shift. -/
structure FirstOK (k : ℕ) (n d : MvPolynomial ℕ ℚ) (S : Bool → ℕ → Finset (ℕ →₀ ℕ)) (r : RRun.Prime) (u : ZMod r.p) (mN mD : ℕ) : Prop where
  base : RRun.FirstOK k n d r u mN mD
  shift : haveI := r.fact; r.cfg.hasShift = true
  same : SameShift n d S r
  den0 : haveI := r.fact; r.cfg.normDen = false → eval (fun i => r.cfg.shift.getD i 0) (red r.p d) = 0

/-- What is assumed about a further prime field with a shift: `p` divides no denominator of a coefficient; the polynomial that is normalized does not vanish at the shift; the shift produces the same monomials as in the first field; the
anchor point distinguishes the monomials of one degree; `p` is larger than the degrees; the probes, different from each other, are values of `n/d` modulo `p`; the linear systems for the values of some of the parts that are asked for, with
as many probes as unknowns, have one solution at most. -/
structure ShiftOK (k : ℕ) (n d : MvPolynomial ℕ ℚ) (S : Bool → ℕ → Finset (ℕ →₀ ℕ)) (nd : Bool) (r : RRun.Prime) : Prop where
  two : 2 ≤ k
  nvars : r.cfg.n = k
  lenShift : r.cfg.shift.length = k
  anchorLen : r.cfg.anchor.length + 1 = k
  anchor : ∀ x ∈ r.cfg.anchor, x ≠ 0
  gt : haveI := r.fact; PivotOrder r.cfg.gt
  denom : ∀ b m, ¬ (r.p : ℤ) ∣ (coeff m (side n d b)).den
  norm : haveI := r.fact; eval (fun i => r.cfg.shift.getD i 0) (red r.p (side n d nd)) ≠ 0
  same : SameShift n d S r
  distinct : haveI := r.fact; ∀ b j, ∀ m ∈ (side n d b).support ∪ S b j, ∀ m' ∈ (side n d b).support ∪ S b j, m.degree = j → m'.degree = j →
    eval (RMulti.dir r.cfg.anchor (List.replicate (k - 1) 1)) (monomial m (1 : ZMod r.p)) = eval (RMulti.dir r.cfg.anchor (List.replicate (k - 1) 1)) (monomial m' 1) → m = m'
  large : ∀ b, ∀ m ∈ (side n d b).support, m.degree < r.p
  values : haveI := r.fact; ∀ q ∈ r.probes, q.2.2 ≠ [] ∧ eval (RMulti.pt r.cfg.shift r.cfg.anchor q.1 q.2.2) (red r.p d) ≠ 0 ∧ q.2.1 = RMulti.valueOf r.cfg.shift r.cfg.anchor (red r.p n) (red r.p d) q.1 q.2.2
  nodup : (r.probes.map (fun q => (q.1, q.2.2))).Nodup
  det : haveI := r.fact; ∀ (ord : List ℕ) (A B : Finset ℕ) (ts : List (ZMod r.p)), (∀ j ∈ A, Asked n d S nd false j) → (∀ j ∈ B, Asked n d S nd true j) → ts.Nodup →
    (∀ t ∈ ts, (t, ord) ∈ r.probes.map (fun q => (q.1, q.2.2))) → ts.length = A.card + B.card →
    ∀ x y : ℕ → ZMod r.p, (∀ t ∈ ts, ∑ j ∈ A, x j * t ^ j = RMulti.valueOf r.cfg.shift r.cfg.anchor (red r.p n) (red r.p d) t ord * ∑ j ∈ B, y j * t ^ j) → (∀ j ∈ A, x j = 0) ∧ ∀ j ∈ B, y j = 0

/-- What is assumed about a further prime field without shift: as in C46; the linear systems for the values of the homogeneous parts of some degrees, but not of all degrees, have one solution at most. -/
structure PlainOK (k : ℕ) (n d : MvPolynomial ℕ ℚ) (r : RRun.Prime) : Prop where
  field : FieldOK k n d r
  det : haveI := r.fact; ∀ (ord : List ℕ) (A B : Finset ℕ) (ts : List (ZMod r.p)), (∀ j ∈ A, ∃ m ∈ n.support, m.degree = j) → (∀ j ∈ B, ∃ m ∈ d.support, m.degree = j) →
    ((∃ m ∈ n.support, m.degree ∉ A) ∨ ∃ m ∈ d.support, m.degree ∉ B) → ts.Nodup → (∀ t ∈ ts, (t, ord) ∈ r.probes.map (fun q => (q.1, q.2.2))) → ts.length = A.card + B.card →
    ∀ x y : ℕ → ZMod r.p, (∀ t ∈ ts, ∑ j ∈ A, x j * t ^ j = RLater.value r.cfg.anchor (red r.p n) (red r.p d) t ord * ∑ j ∈ B, y j * t ^ j) → (∀ j ∈ A, x j = 0) ∧ ∀ j ∈ B, y j = 0

/-- The caller is consistent: no function asks for the shift after it has been disabled; if the object needs the shift, it or another function has asked for it. -/
def Consistent (c : Cross) (f : Stage) : Prop := (f.others = true → c.on = true) ∧ (c.singular = true → c.asks = true ∨ f.others = true)

/-- What is assumed about a field, depending on whether it has a shift. -/
def FieldFits (k : ℕ) (n d : MvPolynomial ℕ ℚ) (S : Bool → ℕ → Finset (ℕ →₀ ℕ)) (nd : Bool) (f : Stage) : Bool → Prop
  | true => ShiftOK k n d S nd (f.at true)
  | false => PlainOK k n d (f.at false)

open Classical in
/-- There are enough probes in a field with shift: for each `o`, up to the largest number of monomials of one degree, as many with the order vector `(o, …, o)` as there are degrees that are asked for. -/
def EnoughShift (k : ℕ) (n d : MvPolynomial ℕ ℚ) (S : Bool → ℕ → Finset (ℕ →₀ ℕ)) (nd : Bool) (r : RRun.Prime) : Prop :=
  ∀ o, 1 ≤ o → (∃ b j, o ≤ ((side n d b).support.filter (fun m => m.degree = j)).card) →
    (askedDegs n d S nd false).card + (askedDegs n d S nd true).card ≤ (r.probes.filter (fun q => decide (q.2.2 = List.replicate (k - 1) o))).length

/-- There are enough probes in a field. -/
def EnoughIn (k : ℕ) (n d : MvPolynomial ℕ ℚ) (S : Bool → ℕ → Finset (ℕ →₀ ℕ)) (nd : Bool) (f : Stage) : Bool → Prop
  | true => EnoughShift k n d S nd (f.at true)
  | false => RRun.Enough k n d (f.at false)

/-- What is guaranteed about a result the object reports: its monomials are those of `n/d`, its coefficients agree with those of `n/d` modulo `M`, and it has the same value as `n/d` at the first probe with the order vector `(1, …, 1)` in
the field of `p`. -/
structure Certified (k : ℕ) (n d : MvPolynomial ℕ ℚ) (M : ℤ) (r : RRun.Prime) (N D : RnMap) : Prop where
  num : GuessOK (coefOf n) (monos k n) M N
  den : GuessOK (coefOf d) (monos k d) M D
  probe : haveI := r.fact; ∃ q, r.probes.find? (fun q => decide (q.2.2 = List.replicate (k - 1) 1)) = some q ∧
    RMulti.valueOf r.cfg.shift r.cfg.anchor (red r.p (rnPoly N)) (red r.p (rnPoly D)) q.1 q.2.2 = q.2.1

/-- What does not change in the data of one polynomial: `maxDeg` is its degree; the shift produces monomials only in lower degrees, and `zeros` are the degrees in which there are only these. -/
structure Shape (k : ℕ) (f : MvPolynomial ℕ ℚ) (S : ℕ → Finset (ℕ →₀ ℕ)) (x : Side) : Prop where
  lead : ∃ m ∈ f.support, m.degree = x.maxDeg
  le : ∀ m ∈ f.support, m.degree ≤ x.maxDeg
  top : ∀ j, x.maxDeg ≤ j → S j = ∅
  mem : ∀ j, ∀ m ∈ S j, m.degree = j ∧ ∀ i, k ≤ i → m i = 0
  zeros : ∀ j, j ∈ x.zeros ↔ S j ≠ ∅ ∧ ∀ m ∈ f.support, m.degree ≠ j

/-- The monomials that the shift produces are known; the degrees that are solved with their shift are the ones which will be chosen in the next field. -/
structure Shifts (k : ℕ) (const : Bool) (S : ℕ → Finset (ℕ →₀ ℕ)) (un : FFMap (List (List ℕ))) (g : RnMap) (x : Side) : Prop where
  nodup : ∀ j, (x.shifts j).Nodup
  mem : ∀ j e, e ∈ x.shifts j ↔ e.length = k ∧ e.toFinsupp ∈ S j
  dense : ∀ j ∈ x.dense, j ∈ (RShift.setSide (F := ℚ) k const (x.prior un g)).dense

/-- Between two prime fields: every coefficient of `n/d` is known exactly or as residue modulo `M`; one coefficient is one; what is known about the shift is right. Either all coefficients of some degree are known, or the shift is
needed (`singular`), because each degree has several monomials. -/
structure Ready (k : ℕ) (n d : MvPolynomial ℕ ℚ) (S : Bool → ℕ → Finset (ℕ →₀ ℕ)) (M : ℤ) (c : Cross) : Prop where
  base : Base k n d M c.base
  num : Shape k n (S false) c.num
  den : Shape k d (S true) c.den
  shN : c.on = true → Shifts k (!c.normDen) (S false) c.base.unNum c.base.coefs.gNi c.num
  shD : c.on = true → Shifts k c.normDen (S true) c.base.unDen c.base.coefs.gDi c.den
  len : c.normalizerDeg.length = k
  one : coeff c.normalizerDeg.toFinsupp (side n d c.normalizerDen) = 1
  const : (if c.normDen then c.base.coefs.combDi else c.base.coefs.combNi).find? (List.replicate k 0) = none
  den0 : c.normDen = false → 0 ∉ d.support ∧ S true 0 = ∅
  eqn : c.maxEqn = (askedDegs n d S c.normDen false).card + (askedDegs n d S c.normDen true).card
  asks : c.asks = true → c.singular = true
  on : c.singular = true → c.on = true
  progress : (∃ b, ∃ m ∈ (side n d b).support, ∀ m' ∈ (side n d b).support, m'.degree = m.degree → (if b then c.base.coefs.combDi else c.base.coefs.combNi).find? (exps k m') = none) ∨
    (c.singular = true ∧ ∀ b, ∀ m ∈ (side n d b).support, ∃ m' ∈ (side n d b).support, m' ≠ m ∧ m'.degree = m.degree)

/-- the product of the primes -/
def primeProd (fs : List Stage) : ℤ := (fs.map (fun f => (f.base.p : ℤ))).prod

/-- All further prime fields of a run satisfy the assumptions, with the shift and without it, and none is skipped; `M` is the product of the primes before; no coefficient can be mistaken for another number. -/
def RunsOK (k : ℕ) (n d : MvPolynomial ℕ ℚ) (S : Bool → ℕ → Finset (ℕ →₀ ℕ)) (nd : Bool) : ℤ → List Stage → Prop
  | _, [] => True
  | M, f :: fs => (∀ on, FieldFits k n d S nd f on ∧ (f.at on).probes ≠ [] ∧ ¬ (f.at on).Skipped) ∧ ¬ (f.base.p : ℤ) ∣ M ∧
      (∀ m, ¬ Deceptive (coeff m n) M (M * f.base.p) ∧ ¬ Deceptive (coeff m d) M (M * f.base.p)) ∧ RunsOK k n d S nd (M * f.base.p) fs

/-- No function asks for the shift of a field after it has been disabled. -/
def NoLateAsks (inv : ℤ → ℤ → ℤ) (ord : RRun.Order) (c : Cross) (fs : List Stage) : Prop :=
  ∀ fs1 f fs2 c', fs = fs1 ++ f :: fs2 → f.others = true → run inv ord c fs1 = some (.waiting c') → c'.on = true

/-- The outcome of a run after the first prime field. A field that is mentioned has been reached; it has the shift if `shiftOn`.
* the object requests a further prime field, and the coefficients are not small for the product of the primes before the last field; or
* a prime field has too few probes; or
* the object reports a result: this is `n/d`, or it was reported before the coefficients were small for the product of the primes, and agrees with `n/d` modulo this product and at the probe of the test. -/
def Outcome (inv : ℤ → ℤ → ℤ) (ord : RRun.Order) (k : ℕ) (n d : MvPolynomial ℕ ℚ) (S : Bool → ℕ → Finset (ℕ →₀ ℕ)) (nd : Bool) (M : ℤ) (c : Cross) (fs : List Stage) (out : RunOut) : Prop :=
  (∃ c', out = .waiting c' ∧ Ready k n d S (M * primeProd fs) c' ∧ ∀ fs1 f fs2, fs = fs1 ++ f :: fs2 → ¬ AllSmall n d (M * primeProd fs1)) ∨
  (out = .running ∧ ∃ fs1 f fs2 c', fs = fs1 ++ f :: fs2 ∧ run inv ord c fs1 = some (.waiting c') ∧ ¬ EnoughIn k n d S nd f (shiftOn c' f) ∧
    (AllSmall n d (M * primeProd fs1) → ∀ x ∈ (f.at (shiftOn c' f)).probes, x.2.2 ≠ List.replicate (k - 1) 1)) ∨
  ∃ N D, out = .finished N D ∧ ((rnPoly N = n ∧ rnPoly D = d) ∨
    ∃ fs1 f fs2 c', fs = fs1 ++ f :: fs2 ∧ run inv ord c fs1 = some (.waiting c') ∧ Certified k n d (M * primeProd fs1) (f.at (shiftOn c' f)) N D ∧ ¬ AllSmall n d (M * primeProd fs1))

end FireFly.RRun.Shifted
