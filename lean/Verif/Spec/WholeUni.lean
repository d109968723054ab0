import Verif.Model.WholeUni
import Verif.Props.RatReconstProps
import Verif.Spec.RatMultiHyps
/-! # Specification: several rational functions of one variable, reconstructed in several prime fields by several threads -/
set_option linter.all false
namespace FireFly.WholeUni
open Polynomial

/-- What is assumed about the first prime field, for the function `n/d` with the number `i`: `p` divides no denominator and no numerator of a coefficient, no common factor appears modulo `p`; for the probes that may be chosen `t`, the
denominator and the value are not zero, and the value is that of `n/d`; Thiele's method works for these probes in any order: no division by zero, no end before the degrees are seen. -/
structure FirstGood {ι : Type} (n d : ℚ[X]) (f : PField ι) (i : ι) : Prop where
  denN : ∀ e, ¬ (f.p : ℤ) ∣ (n.coeff e).den
  denD : ∀ e, ¬ (f.p : ℤ) ∣ (d.coeff e).den
  numN : haveI := f.fact; ∀ e ∈ n.support, ((n.coeff e : ℚ) : ZMod f.p) ≠ 0
  numD : haveI := f.fact; ∀ e ∈ d.support, ((d.coeff e : ℚ) : ZMod f.p) ≠ 0
  coprime : haveI := f.fact; IsCoprime (redPoly f.p n) (redPoly f.p d)
  probes : haveI := f.fact; ∀ q, f.good q → q.2 = [] ∧ q.1 ≠ 0 ∧ (redPoly f.p d).eval q.1 ≠ 0 ∧ f.value i q.1 = (redPoly f.p n).eval q.1 / (redPoly f.p d).eval q.1 ∧ f.value i q.1 ≠ 0
  thiele : haveI := f.fact; ∀ ts : List (ZMod f.p), ts.Nodup → (∀ t ∈ ts, f.good (t, [])) → ts.length ≤ RMulti.thieleMax n.natDegree d.natDegree →
    ∃ r, ({} : Thiele (ZMod f.p)).runChecked (ts.map (fun t => (f.value i t, t))) = some r ∧ (r.2 = true → 2 * d.natDegree ≤ r.1.ti.length ∧ 2 * n.natDegree ≤ r.1.ti.length + 1)
  short : RMulti.thieleMax n.natDegree d.natDegree < 2 ^ 32

/-- What is assumed about a further prime field: `p` divides no denominator of a coefficient; for the probes that may be chosen the denominator and the value are not zero, and the value is that of `n/d`; these probes determine the
coefficients of any of the monomials (the normalized one is known). -/
structure LaterGood {ι : Type} (n d : ℚ[X]) (f : PField ι) (i : ι) : Prop where
  denN : ∀ e, ¬ (f.p : ℤ) ∣ (n.coeff e).den
  denD : ∀ e, ¬ (f.p : ℤ) ∣ (d.coeff e).den
  probes : haveI := f.fact; ∀ q, f.good q → q.2 = [] ∧ (redPoly f.p d).eval q.1 ≠ 0 ∧ f.value i q.1 = (redPoly f.p n).eval q.1 / (redPoly f.p d).eval q.1 ∧ f.value i q.1 ≠ 0
  regular : haveI := f.fact; ∀ (nn nd : List ℕ) (ts : List (ZMod f.p)), nn.Nodup → nd.Nodup → (∀ e ∈ nn, e ∈ n.support) → (∀ e ∈ nd, e ∈ d.support ∧ e ≠ d.natTrailingDegree) → ts.Nodup → (∀ t ∈ ts, f.good (t, [])) →
    ts.length = nn.length + nd.length → (probeMatrix nn nd (ts.map (fun t => (t, f.value i t)))).det ≠ 0

/-- the product of the primes -/
def prod {ι : Type} (fs : List (PField ι)) : ℤ := (fs.map (fun f => (f.p : ℤ))).prod

/-- All further prime fields satisfy the assumptions for the function `n/d`; `M` is the product of the primes before; no coefficient can be mistaken for another number. -/
def AllGood {ι : Type} (n d : ℚ[X]) (i : ι) : ℤ → List (PField ι) → Prop
  | _, [] => True
  | M, f :: fs => LaterGood n d f i ∧ ¬ (f.p : ℤ) ∣ M ∧ (∀ e, ¬ Deceptive (n.coeff e) M (M * f.p) ∧ ¬ Deceptive (d.coeff e) M (M * f.p)) ∧ AllGood n d i (M * f.p) fs

/-- All coefficients are small enough to be found from residues modulo `M`. -/
def AllSmall (n d : ℚ[X]) (M : ℤ) : Prop := ∀ e, Small (n.coeff e) M ∧ Small (d.coeff e) M

/-- The assumptions about a run: each function is `n/d` with the lowest coefficient of `d` equal to one; the first prime field is good for it, and so are the further ones. The limit of 300 prime fields is not reached. -/
structure Hyp {ι : Type} (n d : ι → ℚ[X]) (f : PField ι) (fs : List (PField ι)) : Prop where
  norm : ∀ i, (d i).trailingCoeff = 1
  first : ∀ i, FirstGood (n i) (d i) f i
  later : ∀ i, AllGood (n i) (d i) i f.p fs
  limit : fs.length + 1 < 300

/-- The result was reported too early: at the test in the prime field `g`, when not all coefficients were small for the product of the primes before; it agrees with `n/d` modulo this product and at the probe of the test. -/
def Early {ι : Type} (n d : ℚ[X]) (i : ι) (f : PField ι) (fs : List (PField ι)) (N D : RnMap) : Prop :=
  ∃ (fs1 : List (PField ι)) (g : PField ι) (fs2 : List (PField ι)) (t : ZMod g.p), fs = fs1 ++ g :: fs2 ∧ g.good (t, []) ∧ (haveI := g.fact; Certified n d (f.p * prod fs1) g.p (t, g.value i t) N D) ∧ ¬ AllSmall n d (f.p * prod fs1)

/-- There are enough probes in a prime field for the systems: as many as there are monomials. -/
def Supply {ι : Type} (n d : ι → ℚ[X]) (g : PField ι) : Prop := ∀ i, ∃ ts : List (ZMod g.p), ts.Nodup ∧ (n i).support.card + (d i).support.card ≤ ts.length ∧ ∀ t ∈ ts, g.good (t, [])

end FireFly.WholeUni
