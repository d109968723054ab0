import Verif.Model.RatRun
import Verif.Model.RatShift
/-!
# `RatReconst` in several variables over several prime fields, with a shift that is kept as long as it is needed (source/RatReconst.cpp 131-210, 757-872, 1102-1207, 1366-1438, 1664-1695, 2334-2352, 2425-2436, 3158-3405,
source/include/firefly/Reconstructor.hpp 2501-2513)

`Model/RatRun.lean` covers a function whose shift is disabled after the first prime field. Here the shift stays as long as the function itself, or another function that is reconstructed at the same time, has asked for it: in the first prime
field no degree with one monomial has been found (`is_singular_system`), so the function cannot be normalized without shift. The object asks for the shift again (`singular_system_set`) at the end of each prime field until all
coefficients of some degree are known (`check_for_solved_degs`). The interpolation with a shift is the one of `Model/RatShift.lean`, without shift the one of `Model/RatLater.lean`.

Simplifications: as in these files. Of `sub_num`, `sub_den` between two fields only the monomials with nonvanishing coefficients are kept: nothing else is read (`set_singular_system_vars`). The case that all fields before have been skipped is
the one of `RRun.secondThiele`; the model stops there (`stopped`).
-/
namespace FireFly.RRun.Shifted

/-- `max_deg_num`, the monomials of `sub_num` by degree, `zero_degs_num`, `dense_solve_degs_num`, or the ones of the denominator. -/
structure Side where
  maxDeg : ℕ := 0
  shifts : ℕ → List (List ℕ) := fun _ => []
  zeros : List ℕ := []
  dense : List ℕ := []

/-- The members that survive a change of the prime field: those of `RRun.Cross`, `normalize_to_den`, `normalizer_den_num`, `normalizer_deg`, `shifted_max_num_eqn`, `is_singular_system`; `asks`: the object has put the
number of the next prime field into `singular_system_set`; `on`: the caller has not disabled the shift. -/
structure Cross where
  base : RRun.Cross
  normDen : Bool := false
  normalizerDen : Bool := false
  normalizerDeg : List ℕ := []
  maxEqn : ℕ := 0
  num : Side := {}
  den : Side := {}
  singular : Bool := false
  asks : Bool := false
  on : Bool := true

/-- A prime field: the settings and the probes if there is a shift, the probes if there is none, and whether another function has put the number of this field into `singular_system_set`. -/
structure Stage where
  base : RRun.Prime
  plain : List (ZMod base.p × ZMod base.p × List ℕ)
  others : Bool

/-- The field as the object sees it: with the shift, or after `disable_shift` (source/RatReconst.cpp 2095-2099). -/
def Stage.at (f : Stage) : Bool → RRun.Prime
  | true => f.base
  | false => { f.base with cfg := { f.base.cfg with shift := List.replicate f.base.cfg.n 0 }, probes := f.plain }

/-- What a prime field leads to. -/
inductive Out where
  /-- more probes are needed in this prime field -/
  | running
  /-- `done`; the result of `get_result` (source/RatReconst.cpp 1842-1868) -/
  | finished (num den : RnMap)
  /-- a new prime field is requested -/
  | nextPrime (c : Cross)
  /-- all fields before have been skipped: not modelled further -/
  | stopped

/-- The monomials of `sub_num[j]` with nonvanishing coefficients (source/RatReconst.cpp 3193-3255: `remove_zero_coefs`, `zero`). -/
def shiftExps {F : Type} [Field F] [DecidableEq F] (sub : FFMap (FFMap F)) (maxDeg j : ℕ) : List (List ℕ) :=
  if j ≤ maxDeg then ((RMulti.polyAt sub j).filter (fun t => decide (t.2 ≠ 0))).map Prod.fst else []

/-- `check_for_solved_degs` for the numerator and the denominator (source/RatReconst.cpp 1431-1436, 1673-1678, 2334-2352): the shift is needed as long as each degree has an unknown coefficient. -/
def stillSingular (c : Cross) (degsN degsD : List ℕ) (c' : RRun.Cross) : Bool :=
  c.singular && !(c.num.maxDeg == 0 || c.den.maxDeg == 0) && degsN.all (fun j => (c'.unNum.find? [j]).isSome) && degsD.all (fun j => (c'.unDen.find? [j]).isSome)

/-- The end of `combine_primes` (source/RatReconst.cpp 1366-1438, 1664-1695, 1730-1795); `degsN`, `degsD` are `tmp_deg_num`, `tmp_deg_den`. -/
def endPrime (ord : RRun.Order) (c : Cross) (degsN degsD : List ℕ) (k : RatCoefs) : Option Out :=
  if c.base.primeNumber + 1 = 300 then none
  else
    let c' := RRun.endCross ord c.base k
    let sing := stillSingular c degsN degsD c'
    some (.nextPrime { c with base := c', singular := sing, asks := sing })

/-- The degrees of the parts that vanish without shift (source/RatReconst.cpp 760-778): `zero_degs_num` -/
def zeroDegs {F : Type} [Field F] [DecidableEq F] (solved : FFMap (FFMap F)) : List ℕ :=
  (solved.filter (fun t => decide (t.2.length = 0 ∨ (t.2.length = 1 ∧ (t.2.getD 0 ([], 0)).2 = 0)))).map (fun t => t.1.getD 0 0)

/-- The data of the numerator or the denominator at the end of the first field (source/RatReconst.cpp 760-778, 848-851). -/
def firstSide {F : Type} [Field F] [DecidableEq F] (s : RMulti.Side F) : Side :=
  { maxDeg := s.maxDeg, shifts := shiftExps s.sub s.maxDeg, zeros := zeroDegs s.solved, dense := [] }

/-- The first prime field (`prime_number == 0`; source/RatReconst.cpp 757-872, 1366-1438): the interpolation of `Model/RatMulti.lean`, the choice of the normalization and `combine_primes`. -/
def firstPrime (ord : RRun.Order) (c : Cross) (r : RRun.Prime) : Option Out :=
  haveI := r.fact
  do
  let s ← r.cfg.feedAll r.cfg.init r.probes
  match s.result with
  | none => some .running
  | some res =>
    endPrime ord { c with normDen := r.cfg.normDen, normalizerDen := res.normDen, normalizerDeg := res.normDeg, maxEqn := s.num.solved.length + s.den.solved.length - 1
                          num := firstSide s.num, den := firstSide s.den, singular := res.singular }
      (res.num.map (fun t => t.1.sum)) (res.den.map (fun t => t.1.sum)) (c.base.coefs.combineFirst res.normDen res.normDeg res.num res.den)

/-- `non_solved_degs_num` after the last system of a field with shift (source/RatReconst.cpp 1107-1125): the degrees with a nonvanishing coefficient -/
def solvedDegs {F : Type} [Field F] [DecidableEq F] (zeros : List ℕ) (s : RShift.Side F) : List ℕ :=
  (s.solved.filter (fun el => !zeros.contains (el.1.getD 0 0) &&
    (if s.dense.contains (el.1.getD 0 0) then PolyFF.sub el.2 (RMulti.polyAt s.sub (el.1.getD 0 0)) else el.2).any (fun t => decide (t.2 ≠ 0)))).map (fun el => el.1.getD 0 0)

/-- The data of the numerator or the denominator for `set_singular_system_vars`: the unknown and the known monomials of the coefficients, and the ones of this file. -/
def Side.prior (s : Side) (un : FFMap (List (List ℕ))) (g : RnMap) : RShift.Prior :=
  { unknown := un, known := g.map Prod.fst, shifts := s.shifts, zeros := s.zeros, maxDeg := s.maxDeg }

/-- The settings of the interpolation with a shift in this field. -/
def shiftCfg (c : Cross) (r : RRun.Prime) (g : Option (RnMap × RnMap)) : RShift.Cfg (ZMod r.p) :=
  haveI := r.fact
  { n := r.cfg.n, shift := r.cfg.shift, anchor := r.cfg.anchor, gt := r.cfg.gt, normDen := c.normDen, normalizerDen := c.normalizerDen, normalizerDeg := c.normalizerDeg, maxEqn := c.maxEqn
    num := c.num.prior c.base.unNum c.base.coefs.gNi, den := c.den.prior c.base.unDen c.base.coefs.gDi
    guess := g.map (fun g => (convertToFF r.p g.1, convertToFF r.p g.2)) }

/-- `dense_solve_degs_num` is not cleared by `set_singular_system_vars`: the degrees of the previous field stay in the set. -/
def carry {F : Type} (s : RShift.Side F) (old : List ℕ) : RShift.Side F := { s with dense := s.dense ++ old.filter (fun j => decide (j ∉ s.dense)) }

/-- The state at the start of a field with shift. -/
def shiftInit (c : Cross) (r : RRun.Prime) (g : Option (RnMap × RnMap)) : RShift.St (ZMod r.p) :=
  haveI := r.fact
  let s := (shiftCfg c r g).init
  { s with num := carry s.num c.num.dense, den := carry s.den c.den.dense }

/-- The data of the numerator or the denominator after a field with shift. -/
def nextSide {F : Type} [Field F] [DecidableEq F] (old : Side) (s : RShift.Side F) : Side := { old with shifts := shiftExps s.sub old.maxDeg, dense := s.dense }

/-- A further prime field with a shift (source/RatReconst.cpp 914-1207, 3340-3405): the guess of `rec_rat_coef`, the interpolation of `Model/RatShift.lean` and `combine_primes`. -/
def laterShift (inv : ℤ → ℤ → ℤ) (ord : RRun.Order) (c : Cross) (r : RRun.Prime) : Option Out :=
  haveI := r.fact
  do
  let g ← c.base.coefs.recRatCoef
  let s ← (shiftCfg c r g).feedAll (shiftInit c r g) r.probes
  match s.out, g with
  | none, _ => some .running
  | some .accepted, some g => some (.finished g.1 g.2)
  | some .accepted, none => none
  | some (.solved num den), _ => do
    let k ← c.base.coefs.combineNext inv num den
    endPrime ord { c with singular := true, num := nextSide c.num s.num, den := nextSide c.den s.den } (solvedDegs c.num.zeros s.num) (solvedDegs c.den.zeros s.den) k

/-- A further prime field without shift (source/RatReconst.cpp 914-1207 for `is_singular_system == false`): as `RRun.laterPrime`; `check_if_done` (3355-3357, 3390-3398) makes the subtraction terms zero. -/
def laterPlain (inv : ℤ → ℤ → ℤ) (ord : RRun.Order) (c : Cross) (r : RRun.Prime) : Option Out :=
  (RRun.laterPrime inv ord c.base r).map (fun o => match o with
    | .running => .running
    | .finished N D => .finished N D
    | .nextPrime b => .nextPrime { c with base := b, singular := false, asks := false, num := { c.num with shifts := fun _ => [] }, den := { c.den with shifts := fun _ => [] } }
    | .singular => .stopped)

/-- A first probe that is zero (source/RatReconst.cpp 145-179): the field is skipped; `is_singular_system` stays, nothing is put into `singular_system_set`. -/
def feedZero (n nextP : ℕ) (c : Cross) : Option Out :=
  (RRun.feedZero n nextP c.base).map (fun o => match o with
    | .running => .running
    | .finished N D => .finished N D
    | .nextPrime b => .nextPrime { c with base := b, asks := false }
    | .singular => .stopped)

/-- The shift in the field `f`: before a further field the caller disables it if the number of the field is not in `singular_system_set` (source/include/firefly/Reconstructor.hpp 2501-2513, source/RatReconst.cpp 2425-2436).
Once disabled it stays disabled. -/
def shiftOn (c : Cross) (f : Stage) : Bool := if c.base.primeNumber = 0 then c.on else c.on && (c.asks || f.others)

/-- All probes of the prime field `r`: `feed` (source/RatReconst.cpp 131-210) followed by `interpolate()` (298-335); the choice between the two modes in a further field is the one of `check_if_done` (3340-3350). `others`: the number of
the field is in `singular_system_set` because of another function. -/
def field (inv : ℤ → ℤ → ℤ) (ord : RRun.Order) (c : Cross) (others : Bool) (r : RRun.Prime) : Option Out :=
  match r.probes with
  | [] => some .running
  | q :: _ =>
    if q.2.1 = 0 then feedZero r.cfg.n r.nextP c
    else if c.base.known then
      if c.singular || c.asks || others || decide (r.cfg.shift ≠ List.replicate r.cfg.n 0) then laterShift inv ord c r else laterPlain inv ord c r
    else if c.base.primeNumber = 0 then firstPrime ord c r
    else some .stopped

/-- A prime field: the caller keeps or disables the shift (`shiftOn`), then the probes are fed. -/
def prime (inv : ℤ → ℤ → ℤ) (ord : RRun.Order) (c : Cross) (f : Stage) : Option Out := field inv ord { c with on := shiftOn c f } f.others (f.at (shiftOn c f))

/-- The state after a number of prime fields. -/
inductive RunOut where
  | finished (num den : RnMap)
  | waiting (c : Cross)
  | running
  | stopped

/-- The use of an object by its caller (source/include/firefly/Reconstructor.hpp 3116-3208): the probes of each prime field are fed until the object requests the next one or is done. -/
def run (inv : ℤ → ℤ → ℤ) (ord : RRun.Order) : Cross → List Stage → Option RunOut
  | c, [] => some (.waiting c)
  | c, f :: fs => do
    match ← prime inv ord c f with
    | .finished N D => some (.finished N D)
    | .nextPrime c' => run inv ord c' fs
    | .running => some .running
    | .stopped => some .stopped

/-- The new object (source/RatReconst.cpp 42-83) for the first prime `p0`. -/
def Cross.initial (p0 : ℕ) : Cross := { base := RRun.Cross.initial p0 }

end FireFly.RRun.Shifted
