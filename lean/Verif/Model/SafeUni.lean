import Verif.Model.RatSafe
/-!
# `RatReconst` in one variable with `set_safe_interpolation` (source/RatReconst.cpp 131-210, 298-346, 417-428, 472-499, 541-543, 1366-1684, 1711-1795, 1951-2006, 2066-2094, 3335-3383)

In this mode (`interpolations = 300`) the function is interpolated with Thiele's method from scratch in every prime field (`max_deg_num = -1`, 1716-1718); the coefficients are combined as in `Model/RatSafe.lean`. In contrast to more than one variable, the
interpolation of each field is normalized to the lowest degree that the denominator has in this field (472-486), and there is no `div_by_zero`.

Simplifications: as in `Model/RatReconst.lean`, `Model/RatSafe.lean`.
-/
namespace FireFly.RRun.Safe.Uni

/-- The normalization to the lowest degree of the denominator (source/RatReconst.cpp 472-486; `normalize_to_den` is true) and `combine_primes` (541-543, 1366-1684). In the first field that is used the normalizer is stored. -/
def combine (inv : ℤ → ℤ → ℤ) (ord : Order) {p : ℕ} [Fact p.Prime] (c : Cross) (r : FFMap (ZMod p) × FFMap (ZMod p)) : Option Cross :=
  let normalizer := (PolyFF.degs r.2).2
  let equalizer := 1 / ((r.2.find? normalizer).getD 0)
  match c.norm with
  | none => some { c with num := firstSide false normalizer (PolyFF.scale r.1 equalizer) c.num.g, den := firstSide true normalizer (PolyFF.scale r.2 equalizer) c.den.g, combPrime := p, norm := some (true, normalizer) }
  | some _ => combineNext inv ord c (PolyFF.scale r.1 equalizer) (PolyFF.scale r.2 equalizer)

/-- The interpolation in a prime field if the guess has not been accepted (source/RatReconst.cpp 347-350, 406-417, 541-543): the points are added until Thiele's method ends; the request for a new prime empties the queue (1782). -/
def interpolate (inv : ℤ → ℤ → ℤ) (ord : Order) (c : Cross) (r : PrimeRun) : Option Out :=
  haveI := r.fact
  let t := ({} : Thiele (ZMod r.p)).run (r.pts.map Prod.swap)
  if t.2 then (combine inv ord c t.1.getResult).bind endPrime else some .running

/-- All probes of a prime field: `feed` (source/RatReconst.cpp 131-210) followed by `interpolate()` (298-346); the first probe is used for the test of the guess (3340-3383). -/
def prime (inv : ℤ → ℤ → ℤ) (ord : Order) (c : Cross) (r : PrimeRun) : Option Out :=
  haveI := r.fact
  match r.pts with
  | [] => some .running
  | pt :: _ =>
    if pt.2 = 0 then feedZero 1 r.nextP c
    else if c.norm.isSome then do
      match ← c.recRatCoef with
      | some g => if ← testGuess g pt.2 pt.1 then some (.finished g.1 g.2) else interpolate inv ord c r
      | none => interpolate inv ord c r
    else interpolate inv ord c r

/-- The use of an object by its caller (source/include/firefly/Reconstructor.hpp 3116-3208, for a single function). -/
def run (inv : ℤ → ℤ → ℤ) (ord : Order) : Cross → List PrimeRun → Option RunOut
  | c, [] => some (.waiting c)
  | c, r :: rs => do
    match ← prime inv ord c r with
    | .finished N D => some (.finished N D)
    | .nextPrime c' => run inv ord c' rs
    | .running => some .running

end FireFly.RRun.Safe.Uni
