import Verif.Model.RatReconst
import Mathlib.Algebra.Polynomial.Basic
import Mathlib.Algebra.Polynomial.Degree.Defs
/-!
# The scan for factors in one variable (source/include/firefly/Reconstructor.hpp 1371-1740, 1962-1986, source/RatReconst.cpp 1767-1840, 1880-1948)

In each prime field every function is reconstructed twice as a function of one variable, the others have random values. Its numerator and denominator are factorized by FLINT. The factors that occur in both factorizations are multiplied, their coefficients
are combined over the prime fields until the rational numbers guessed from them pass a test in the next prime field.

Simplifications: FLINT's `nmod_poly_t` is a polynomial over `ZMod p`, its factorization is a parameter (a list of polynomials and exponents). The strings `(f)^e` (source/RatReconst.cpp 1807-1810) that are compared are the pairs `(f, e)`.
The univariate reconstruction itself is in Verif/Model/RatReconst.lean. A power `e` of the variable is the key `[e]` in all maps, as it is in `tmp_gni` and `tmp_gdi`. Output is left out.
-/
namespace FireFly

/-! ### one prime field -/

section
open Polynomial
variable {p : ℕ}

/-- `factors` and `factors_flint` for the numerator or the denominator (source/RatReconst.cpp 1801-1831). -/
abbrev Factorization (p : ℕ) := List ((ZMod p)[X] × ℕ)

open Classical in
/-- `fac_nums_c`, `fac_dens_c` (source/include/firefly/Reconstructor.hpp 1477-1498): the positions of the factors that the first scan of this prime field has found, too. -/
noncomputable def commonPos (first second : Factorization p) : List ℕ :=
  (second.zipIdx.filter fun t => decide (t.1 ∈ first)).map Prod.snd

/-- `c_numerator`, `c_denominator` (source/RatReconst.cpp 1886-1922): the factors at the positions `pos`, each as often as its exponent says. -/
noncomputable def canonicalProduct (fac : Factorization p) (pos : List ℕ) : (ZMod p)[X] :=
  fac.zipIdx.foldl (fun c t => if t.2 ∈ pos then (List.range t.1.2).foldl (fun a _ => a * t.1.1) c else c) 1

open Classical in
/-- `c_numerator_map`, `c_denominator_map` (source/RatReconst.cpp 1924-1943): the coefficients other than zero. -/
noncomputable def canonicalMap (fac : Factorization p) (pos : List ℕ) : FFMap (ZMod p) :=
  if pos = [] then []
  else ((List.range ((canonicalProduct fac pos).natDegree + 1)).filter fun i => decide ((canonicalProduct fac pos).coeff i ≠ 0)).map fun i => ([i], (canonicalProduct fac pos).coeff i)

/-- The numerator (denominator) in the two scans of a prime field (source/include/firefly/Reconstructor.hpp 1384-1502). -/
noncomputable def commonFactor (first second : Factorization p) : FFMap (ZMod p) := canonicalMap second (commonPos first second)

/-- `max_deg_map[counter].first` after the first prime field (source/include/firefly/Reconstructor.hpp 1439, 1510-1523): the degree without the degree of the common factor. -/
def reducedDeg (deg : ℕ) (canon : FFMap (ZMod p)) : ℕ := deg - canon.foldl (fun m t => max m (t.1.getD 0 0)) 0
end

/-! ### the prime fields -/

/-- What the two scans of a prime field give: the canonical factors of the numerator and the denominator of each function (two empty maps: nothing in common), and the random numbers for the tests (source/include/firefly/Reconstructor.hpp 1502, 1564). -/
structure FacRound where
  p : ℕ
  prime : Fact p.Prime
  canon : ℕ → FFMap (ZMod p) × FFMap (ZMod p)
  rand : ℕ → ZMod p

/-- The local variables of the scan in one variable (source/include/firefly/Reconstructor.hpp 1371-1380): `possible_factors_bb_counter`, `combined_prime`, `combined_ni`, `combined_di`, and what has been appended to `factors_rf` (1634) with the number of the
function. -/
structure FacState where
  active : List ℕ
  M : ℤ
  comb : ℕ → MpzMap × MpzMap
  out : List (ℕ × RnMap × RnMap)

/-- The first prime field (source/include/firefly/Reconstructor.hpp 1375, 1500-1527) with `items` functions. -/
def facInit (items : ℕ) (r : FacRound) : FacState :=
  { active := (List.range items).filter fun i => r.canon i ≠ ([], [])
    M := r.p
    comb := fun i => (convertToMpz (r.canon i).1, convertToMpz (r.canon i).2)
    out := [] }

/-- The guesses for one side (source/include/firefly/Reconstructor.hpp 1536-1546, 1550-1560): `some none` if there is no guess for a coefficient. `none`: a division by zero. -/
def facGuess (M : ℤ) : MpzMap → Option (Option RnMap)
  | [] => some (some [])
  | t :: ts => do
    let w ← getRationalCoef t.2 M
    if w.1 then
      let g ← facGuess M ts
      some (g.map fun g => (t.1, w.2) :: g)
    else some none

/-- The test of one side (source/include/firefly/Reconstructor.hpp 1566-1581, 1583-1598): the guess and the canonical factor have the same value. -/
def facTest {p : ℕ} [Fact p.Prime] (g : RnMap) (canon : FFMap (ZMod p)) (x : ZMod p) : Option Bool :=
  if g = [] then some true
  else (PolyFF.calc 1 (convertToFF p g) [x]).map fun v => decide (v = canon.foldl (fun s t => s + t.2 * x ^ t.1.getD 0 0) 0)

/-- `combine_primes` (source/include/firefly/Reconstructor.hpp 1962-1986): the coefficients of the new prime field are combined with the old ones, a missing one counts as 0 (`operator[]`). -/
def facCombine (inv : ℤ → ℤ → ℤ) {p : ℕ} (canon : FFMap (ZMod p)) (comb : MpzMap) (M : ℤ) : MpzMap :=
  canon.foldl (fun m t => m.set t.1 (runChineseRemainder inv ((m.find? t.1).getD 0, M) ((t.2.val : ℤ), (p : ℤ))).1) comb

/-- The guess and its test for one function (source/include/firefly/Reconstructor.hpp 1529-1600): `some g` if it passes. The denominator is only guessed if there is a guess for the numerator, and only tested if the numerator passes. -/
def facDecide (r : FacRound) (M : ℤ) (comb : MpzMap × MpzMap) (i : ℕ) : Option (Option (RnMap × RnMap)) :=
  haveI := r.prime
  do
  match ← facGuess M comb.1 with
  | none => some none
  | some gn =>
    match ← facGuess M comb.2 with
    | none => some none
    | some gd =>
      if ← facTest gn (r.canon i).1 (r.rand i) then
        some (if ← facTest gd (r.canon i).2 (r.rand i) then some (gn, gd) else none)
      else some none

/-- One function in a further prime field (source/include/firefly/Reconstructor.hpp 1470-1637). `Mold` is `tmp_combined_prime`, the modulus at the beginning of this prime field (1383); `st.M` is `combined_prime`, which is overwritten as soon as a function is
combined (1606, 1611). -/
def facStep (inv : ℤ → ℤ → ℤ) (r : FacRound) (Mold : ℤ) (st : FacState) (i : ℕ) : Option FacState :=
  if i ∈ st.active then
    if r.canon i = ([], []) then some { st with active := st.active.erase i }
    else do
      match ← facDecide r st.M (st.comb i) i with
      | some g => some { st with active := st.active.erase i, comb := Function.update st.comb i ([], []), out := st.out ++ [(i, g.1, g.2)] }
      | none => some { st with
          M := Mold * r.p
          comb := Function.update st.comb i (facCombine inv (r.canon i).1 (st.comb i).1 Mold, facCombine inv (r.canon i).2 (st.comb i).2 Mold) }
  else some st

/-- A further prime field (source/include/firefly/Reconstructor.hpp 1382-1643). -/
def facRound (inv : ℤ → ℤ → ℤ) (items : ℕ) (st : FacState) (r : FacRound) : Option FacState :=
  (List.range items).foldlM (facStep inv r st.M) st

/-- The prime fields after the first (source/include/firefly/Reconstructor.hpp 1382, 1714-1723): the scan is over when `possible_factors_bb_counter` is empty. -/
def facLoop (inv : ℤ → ℤ → ℤ) (items : ℕ) : FacState → List FacRound → Option FacState
  | st, [] => some st
  | st, r :: rs => if st.active = [] then some st else (facRound inv items st r).bind fun st' => facLoop inv items st' rs

/-- The scan in one variable (source/include/firefly/Reconstructor.hpp 1371-1740), for the prime fields `rs`. -/
def facScan (inv : ℤ → ℤ → ℤ) (items : ℕ) : List FacRound → Option FacState
  | [] => none
  | r :: rs => facLoop inv items (facInit items r) rs

end FireFly
