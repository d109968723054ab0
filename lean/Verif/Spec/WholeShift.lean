import Verif.Model.WholeShift
import Verif.Spec.RatShiftAll
import Verif.Spec.Whole
/-! # Specification: several rational functions, reconstructed in several prime fields by several threads, with a shift -/
set_option linter.all false
namespace FireFly.WholeShift
open MvPolynomial RRun

/-- the shift of the field, for the function with the number `i` -/
def PField.shiftOf {ι : Type} (f : PField ι) (i : ι) : ℕ → ZMod f.p := haveI := f.fact; fun x => (f.cfg i).shift.getD x 0

/-- The monomials which the shift of the field produces in the denominator (`b`) or the numerator, in addition to the homogeneous part of degree `j`, are the set `S b j`. -/
def SameShift {ι : Type} (n d : MvPolynomial ℕ ℚ) (S : Bool → ℕ → Finset (ℕ →₀ ℕ)) (f : PField ι) (i : ι) : Prop :=
  haveI := f.fact
  ∀ b j, (RMulti.part (f.cfg i).shift (red f.p (Shifted.side n d b)) j - homogeneousComponent j (red f.p (Shifted.side n d b))).support = S b j

/-- What is assumed about the first prime field, for the function `n/d` with the number `i`: what is assumed in `Spec/Whole.lean`; there is a shift; the monomials it produces are `S`; if the numerator is normalized, the denominator vanishes at the shift. -/
structure FirstGood {ι : Type} (k : ℕ) (n d : MvPolynomial ℕ ℚ) (S : Bool → ℕ → Finset (ℕ →₀ ℕ)) (f : PField ι) (i : ι) (u : ZMod f.p) (mN mD : ℕ) : Prop where
  base : Whole.FirstGood k n d f.first i u mN mD
  shift : haveI := f.fact; (f.cfg i).hasShift = true
  same : SameShift n d S f i
  den0 : haveI := f.fact; (f.cfg i).normDen = false → eval (f.shiftOf i) (red f.p d) = 0

/-- What is assumed about a further prime field, if the shift is kept: `p` divides no denominator of a coefficient; the polynomial that is normalized (`nd`: the denominator) does not vanish at the shift; the shift produces the same monomials as in the first
field; the anchor point distinguishes the monomials of one degree; `p` is larger than the degrees; the values are those of `n/d` modulo `p`; for the probes that may be chosen the denominator and the value do not vanish, and the linear systems for the
values of some of the parts that are asked for, with as many probes as unknowns, have one solution at most. -/
structure ShiftGood {ι : Type} (k : ℕ) (n d : MvPolynomial ℕ ℚ) (S : Bool → ℕ → Finset (ℕ →₀ ℕ)) (nd : Bool) (f : PField ι) (i : ι) : Prop where
  nvars : (f.cfg i).n = k
  lenShift : (f.cfg i).shift.length = k
  anchorLen : (f.cfg i).anchor.length + 1 = k
  anchor : ∀ x ∈ (f.cfg i).anchor, x ≠ 0
  gt : haveI := f.fact; PivotOrder (f.cfg i).gt
  denom : ∀ b m, ¬ (f.p : ℤ) ∣ (coeff m (Shifted.side n d b)).den
  norm : haveI := f.fact; eval (f.shiftOf i) (red f.p (Shifted.side n d nd)) ≠ 0
  same : SameShift n d S f i
  distinct : haveI := f.fact; ∀ b j, ∀ m ∈ (Shifted.side n d b).support ∪ S b j, ∀ m' ∈ (Shifted.side n d b).support ∪ S b j, m.degree = j → m'.degree = j →
    eval (RMulti.dir (f.cfg i).anchor (List.replicate (k - 1) 1)) (monomial m (1 : ZMod f.p)) = eval (RMulti.dir (f.cfg i).anchor (List.replicate (k - 1) 1)) (monomial m' 1) → m = m'
  large : ∀ b, ∀ m ∈ (Shifted.side n d b).support, m.degree < f.p
  values : haveI := f.fact; ∀ t o, f.value true i t o = RMulti.valueOf (f.cfg i).shift (f.cfg i).anchor (red f.p n) (red f.p d) t o
  probes : haveI := f.fact; ∀ q, f.good true q → q.2 ≠ [] ∧ eval (RMulti.pt (f.cfg i).shift (f.cfg i).anchor q.1 q.2) (red f.p d) ≠ 0 ∧ f.value true i q.1 q.2 ≠ 0
  det : haveI := f.fact; ∀ (ord : List ℕ) (A B : Finset ℕ) (ts : List (ZMod f.p)), (∀ j ∈ A, Shifted.Asked n d S nd false j) → (∀ j ∈ B, Shifted.Asked n d S nd true j) → ts.Nodup →
    (∀ t ∈ ts, f.good true (t, ord)) → ts.length = A.card + B.card →
    ∀ x y : ℕ → ZMod f.p, (∀ t ∈ ts, ∑ j ∈ A, x j * t ^ j = f.value true i t ord * ∑ j ∈ B, y j * t ^ j) → (∀ j ∈ A, x j = 0) ∧ ∀ j ∈ B, y j = 0

/-- What is assumed about a further prime field, if the shift is disabled: as in `Spec/Whole.lean`, but the linear systems are those for the parts of some degrees, not of all degrees. -/
structure PlainGood {ι : Type} (k : ℕ) (n d : MvPolynomial ℕ ℚ) (f : PField ι) (i : ι) : Prop where
  nvars : (f.cfg i).n = k
  anchorLen : (f.cfg i).anchor.length + 1 = k
  anchor : ∀ x ∈ (f.cfg i).anchor, x ≠ 0
  gt : haveI := f.fact; PivotOrder (f.cfg i).gt
  denN : ∀ m, ¬ (f.p : ℤ) ∣ (coeff m n).den
  denD : ∀ m, ¬ (f.p : ℤ) ∣ (coeff m d).den
  distinct : haveI := f.fact; ∀ g ∈ [n, d], ∀ m ∈ g.support, ∀ m' ∈ g.support, m.degree = m'.degree →
    eval (RMulti.dir (f.cfg i).anchor (List.replicate (k - 1) 1)) (monomial m (1 : ZMod f.p)) = eval (RMulti.dir (f.cfg i).anchor (List.replicate (k - 1) 1)) (monomial m' 1) → m = m'
  values : haveI := f.fact; ∀ t o, f.value false i t o = RLater.value (f.cfg i).anchor (red f.p n) (red f.p d) t o
  probes : haveI := f.fact; ∀ q, f.good false q → q.2 ≠ [] ∧ eval (RLater.at_ (f.cfg i).anchor q.1 q.2) (red f.p d) ≠ 0 ∧ f.value false i q.1 q.2 ≠ 0
  det : haveI := f.fact; ∀ (ord : List ℕ) (A B : Finset ℕ) (ts : List (ZMod f.p)), (∀ j ∈ A, ∃ m ∈ n.support, m.degree = j) → (∀ j ∈ B, ∃ m ∈ d.support, m.degree = j) →
    ((∃ m ∈ n.support, m.degree ∉ A) ∨ ∃ m ∈ d.support, m.degree ∉ B) → ts.Nodup → (∀ t ∈ ts, f.good false (t, ord)) → ts.length = A.card + B.card →
    ∀ x y : ℕ → ZMod f.p, (∀ t ∈ ts, ∑ j ∈ A, x j * t ^ j = f.value false i t ord * ∑ j ∈ B, y j * t ^ j) → (∀ j ∈ A, x j = 0) ∧ ∀ j ∈ B, y j = 0

/-- the product of the primes -/
def prod {ι : Type} (fs : List (PField ι)) : ℤ := (fs.map (fun f => (f.p : ℤ))).prod

/-- All further prime fields satisfy the assumptions for the function `n/d`, with the shift and without it; `M` is the product of the primes before; no coefficient can be mistaken for another number. -/
def AllGood {ι : Type} (k : ℕ) (n d : MvPolynomial ℕ ℚ) (S : Bool → ℕ → Finset (ℕ →₀ ℕ)) (nd : Bool) (i : ι) : ℤ → List (PField ι) → Prop
  | _, [] => True
  | M, f :: fs => ShiftGood k n d S nd f i ∧ PlainGood k n d f i ∧ ¬ (f.p : ℤ) ∣ M ∧ (∀ m, ¬ Deceptive (coeff m n) M (M * f.p) ∧ ¬ Deceptive (coeff m d) M (M * f.p)) ∧ AllGood k n d S nd i (M * f.p) fs

/-- one of the coefficients is one -/
def HasOne (n d : MvPolynomial ℕ ℚ) : Prop := ∃ b m, coeff m (Shifted.side n d b) = 1

/-- The assumptions about a run: `2 ≤ k` variables; the first prime field is good for each function `n/d`; with each common factor of numerator and denominator that makes a coefficient one, so are the further ones. The limit of 300 prime fields is not
reached. Nothing is assumed about the monomials: a function may have several of each degree, or not. -/
structure Hyp {ι : Type} (k : ℕ) (n d : ι → MvPolynomial ℕ ℚ) (S : ι → Bool → ℕ → Finset (ℕ →₀ ℕ)) (f : PField ι) (fs : List (PField ι)) : Prop where
  two : 2 ≤ k
  varsN : ∀ i, InVars k (n i)
  varsD : ∀ i, InVars k (d i)
  first : ∀ i, ∃ (u : ZMod f.p) (mN mD : ℕ), FirstGood k (n i) (d i) (S i) f i u mN mD
  later : ∀ i (l : ℚ), l ≠ 0 → HasOne (C l * n i) (C l * d i) → AllGood k (C l * n i) (C l * d i) (S i) (f.cfg i).normDen i f.p fs
  limit : fs.length + 1 < 300

/-- The result `N/D` is right: it is `n/d`; numerator and denominator may have a common factor `l`, with which one of the coefficients is one. -/
def Right (n d : MvPolynomial ℕ ℚ) (N D : RnMap) : Prop := ∃ l : ℚ, l ≠ 0 ∧ HasOne (C l * n) (C l * d) ∧ RRun.rnPoly N = C l * n ∧ RRun.rnPoly D = C l * d

/-- The result `N/D` was reported in a prime field `g` of the run before the coefficients were small for the product of the primes before `g`: its monomials are those of `n/d`, its coefficients agree with those of `n/d` modulo this product, and it has
the same value as `n/d` at an allowed probe in the field `g`, with the shift or without it (`on`). -/
def Early {ι : Type} (k : ℕ) (n d : MvPolynomial ℕ ℚ) (i : ι) (f : PField ι) (fs : List (PField ι)) (N D : RnMap) : Prop :=
  ∃ (l : ℚ) (fs1 : List (PField ι)) (g : PField ι) (fs2 : List (PField ι)) (on others : Bool) (got : List (ZMod g.p × List ℕ)), l ≠ 0 ∧ HasOne (C l * n) (C l * d) ∧ fs = fs1 ++ g :: fs2 ∧ (∀ q ∈ got, g.good on q) ∧
    Shifted.Certified k (C l * n) (C l * d) (f.p * prod fs1) ((g.stage i others got).at on) N D ∧ ¬ AllSmall (C l * n) (C l * d) (f.p * prod fs1)

open Classical in
/-- There are enough probes the random number generator may choose in a further prime field. With the shift: for each `o`, up to the largest number of monomials of one degree, as many with the order vector `(o, …, o)` as there are degrees that are asked for.
Without it: for each `o`, as many as the function has degrees with at least `o` monomials. -/
def Supply {ι : Type} (k : ℕ) (n d : ι → MvPolynomial ℕ ℚ) (S : ι → Bool → ℕ → Finset (ℕ →₀ ℕ)) (nd : ι → Bool) (g : PField ι) : Prop :=
  ∀ i o, 1 ≤ o →
    ((∃ b j, o ≤ ((Shifted.side (n i) (d i) b).support.filter (fun m => m.degree = j)).card) →
      ∃ ts : List (ZMod g.p), ts.Nodup ∧ (Shifted.askedDegs (n i) (d i) (S i) (nd i) false).card + (Shifted.askedDegs (n i) (d i) (S i) (nd i) true).card ≤ ts.length ∧ ∀ t ∈ ts, g.good true (t, List.replicate (k - 1) o)) ∧
    ∃ ts : List (ZMod g.p), ts.Nodup ∧ numDegs (n i) o + numDegs (d i) o ≤ ts.length ∧ ∀ t ∈ ts, g.good false (t, List.replicate (k - 1) o)

end FireFly.WholeShift
