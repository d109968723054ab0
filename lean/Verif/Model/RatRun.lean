import Verif.Model.RatReconst
import Verif.Model.RatMulti
import Verif.Model.RatLater
/-!
# `RatReconst` in several variables over several prime fields (source/RatReconst.cpp 131-210, 298-543, 876-925, 1395-1438, 1439-1684, 1696-1795, 2330-2344, 3340-3457)

The interpolation in the first prime field (`Model/RatMulti.lean`), in the further ones (`Model/RatLater.lean`) and the combination of the coefficients (`Model/RatReconst.lean`) put together: the life of an
object with `n > 1` from the constructor to `done`.

Modelled mode: as in these files; in the further prime fields there is no shift (it is disabled by the caller, source/include/firefly/Reconstructor.hpp 2501-2510, if no
function needs it). If the normalization of the first prime field gives a singular system, the model stops (`singular`).
-/
namespace FireFly.RRun

/-- `add_non_solved_num`, `add_non_solved_den` (source/RatReconst.cpp 2330-2344) for a list of exponents, starting with an empty map. -/
def groupByDegree (keys : List (List ℕ)) : FFMap (List (List ℕ)) :=
  keys.foldl (fun (m : FFMap (List (List ℕ))) e => m.set [e.sum] ((m.find? [e.sum]).getD [] ++ [e])) []

/-- The members that survive a change of the prime field: the coefficients, whether the monomials are known (`max_deg_num != -1`), `non_solved_degs_num`, `non_solved_degs_den`, the number of the
prime, `zero_counter`, `check_interpolation`. -/
structure Cross where
  coefs : RatCoefs
  known : Bool := false
  unNum : FFMap (List (List ℕ)) := []
  unDen : FFMap (List (List ℕ)) := []
  primeNumber : ℕ := 0
  zeroCounter : ℕ := 0
  checkInterpolation : Bool := false

/-- The iteration order of the hash maps with exponents (`combined_ni`, `combined_di`) and with degrees (`non_solved_degs_num`, `non_solved_degs_den`) as keys. -/
structure Order where
  exps : List (List ℕ) → List (List ℕ)
  degs : FFMap (List (List ℕ)) → FFMap (List (List ℕ))

/-- A prime field: the prime, the settings of the object (number of variables, shift, anchor points, …), the probes `(t, value, order vector)` as they are fed, the next prime of the table. -/
structure Prime where
  p : ℕ
  fact : Fact p.Prime
  cfg : RMulti.Cfg (ZMod p)
  probes : List (ZMod p × ZMod p × List ℕ)
  nextP : ℕ

/-- What a prime field leads to. -/
inductive Out where
  /-- more probes are needed in this prime field -/
  | running
  /-- `done`; the result of `get_result` (source/RatReconst.cpp 1842-1868) -/
  | finished (num den : RnMap)
  /-- a new prime field is requested -/
  | nextPrime (c : Cross)
  /-- a singular system: not modelled further -/
  | singular

/-- The end of `combine_primes` (source/RatReconst.cpp 1398-1438, 1594-1597, 1680-1683, 1696-1795): the unsolved degrees, the next prime. -/
def endCross (ord : Order) (c : Cross) (k : RatCoefs) : Cross :=
  { c with coefs := k, known := true
           unNum := ord.degs (groupByDegree (ord.exps (k.combNi.map Prod.fst)))
           unDen := ord.degs (groupByDegree (ord.exps (k.combDi.map Prod.fst)))
           primeNumber := c.primeNumber + 1, checkInterpolation := true }

/-- `endCross` with the error for more than 300 primes (source/RatReconst.cpp 1789-1792). -/
def endPrime (ord : Order) (c : Cross) (k : RatCoefs) : Option Out :=
  if c.primeNumber + 1 = 300 then none else some (.nextPrime (endCross ord c k))

/-- A first probe that is zero (source/RatReconst.cpp 145-179): the prime field is skipped; after three zeros in the first three fields the result is 0. `none`: more than 300 primes. -/
def feedZero (n nextP : ℕ) (c : Cross) : Option Out :=
  let z := c.zeroCounter + 1
  let k := if z = c.primeNumber + 1 then { c.coefs with combPrime := (nextP : ℤ) } else c.coefs
  if c.primeNumber + 1 = 300 then none
  else if z = 3 ∧ c.primeNumber + 1 = 3 then
    some (.finished (c.coefs.gNi.set (List.replicate n 0) ⟨0, 1⟩) (c.coefs.gDi.set (List.replicate n 0) ⟨1, 1⟩))
  else some (.nextPrime { c with coefs := k, zeroCounter := z, primeNumber := c.primeNumber + 1 })

/-- The first prime field (`prime_number == 0`): the interpolation of `Model/RatMulti.lean` and `combine_primes`. -/
def firstPrime (ord : Order) (c : Cross) (r : Prime) : Option Out :=
  haveI := r.fact
  do
  let s ← r.cfg.feedAll r.cfg.init r.probes
  match s.result with
  | none => some .running
  | some res =>
    if res.singular then some .singular
    else endPrime ord c (c.coefs.combineFirst res.normDen res.normDeg res.num res.den)

/-- A prime field after the first one in which the degrees are not known (all fields before have been skipped): Thiele's method is used, but as `prime_number < interpolations` is
false (source/RatReconst.cpp 534) the branch with the Vandermonde systems (876-914) is taken, for which nothing has been prepared: `coef_mat_num`, `non_solved_degs_num`, … are empty maps. If there is no degree apart
from the constants the maps of the result are the constants (1102, 1176-1212). `pts`: the probes with the order vector `(1, …, 1)`; the others are saved. -/
def secondThiele (ord : Order) (c : Cross) (r : Prime) : Option Out :=
  haveI := r.fact
  do
  let pts := (r.probes.filter (fun q => decide (q.2.2 = List.replicate (r.cfg.n - 1) 1))).map (fun q => (q.2.1, q.1))
  let t := pts.foldl (fun (t : Thiele (ZMod r.p) × Bool) q => if t.2 then t else t.1.addPoint q.1 q.2) (({} : Thiele (ZMod r.p)), false)
  if t.2 then
    let res := t.1.getResult
    let equalizer := 1 / (if r.cfg.normDen then (res.2.find? (PolyFF.degs res.2).2).getD 0 else (res.1.find? (PolyFF.degs res.1).2).getD 0)
    let cn := PolyFF.scale res.1 equalizer
    let cd := PolyFF.scale res.2 equalizer
    let later : RLater.Cfg (ZMod r.p) := { n := r.cfg.n, anchor := r.cfg.anchor, gt := r.cfg.gt, known := ([], []), guess := none }
    let num ← later.absorb { solved := match cn.find? [0] with
      | some v => [([0], [(List.replicate r.cfg.n 0, v)])]
      | none => [] } (cn.erase [0])
    let den ← later.absorb { solved := match cd.find? [0] with
      | some v => [([0], [(List.replicate r.cfg.n 0, v)])]
      | none => [] } (cd.erase [0])
    endPrime ord c (c.coefs.combineFirst false [] (later.collect num) (later.collect den))
  else some .running

/-- A further prime field (`max_deg_num != -1`): the guess of `rec_rat_coef`, the interpolation of `Model/RatLater.lean` and `combine_primes`. The guess is computed at the start, not at the first probe
that is used. -/
def laterPrime (inv : ℤ → ℤ → ℤ) (ord : Order) (c : Cross) (r : Prime) : Option Out :=
  haveI := r.fact
  do
  let g ← c.coefs.recRatCoef
  let lc : RLater.Cfg (ZMod r.p) :=
    { n := r.cfg.n, anchor := r.cfg.anchor, gt := r.cfg.gt, known := (convertToFF r.p c.coefs.gNi, convertToFF r.p c.coefs.gDi)
      guess := g.map (fun g => (convertToFF r.p g.1, convertToFF r.p g.2)) }
  let s ← lc.feedAll (lc.init c.unNum c.unDen) r.probes
  match s.out, g with
  | none, _ => some .running
  | some .accepted, some g => some (.finished g.1 g.2)
  | some .accepted, none => none
  | some (.solved num den), _ => do
    let k ← c.coefs.combineNext inv num den
    endPrime ord c k

/-- All probes of a prime field: `feed` (source/RatReconst.cpp 131-210) followed by `interpolate()` (298-335). -/
def prime (inv : ℤ → ℤ → ℤ) (ord : Order) (c : Cross) (r : Prime) : Option Out :=
  match r.probes with
  | [] => some .running
  | q :: _ =>
    if q.2.1 = 0 then feedZero r.cfg.n r.nextP c
    else if c.known then laterPrime inv ord c r
    else if c.primeNumber = 0 then firstPrime ord c r
    else secondThiele ord c r

/-- The state after a number of prime fields. -/
inductive RunOut where
  | finished (num den : RnMap)
  | waiting (c : Cross)
  | running
  | singular

/-- The use of an object by its caller (`Reconstructor::interpolate_job`, source/include/firefly/Reconstructor.hpp 3116-3208, for a single function): the probes of each prime field are fed until the object
requests the next one or is done. -/
def run (inv : ℤ → ℤ → ℤ) (ord : Order) : Cross → List Prime → Option RunOut
  | c, [] => some (.waiting c)
  | c, r :: rs => do
    match ← prime inv ord c r with
    | .finished N D => some (.finished N D)
    | .nextPrime c' => run inv ord c' rs
    | .running => some .running
    | .singular => some .singular

/-- The new object (source/RatReconst.cpp 42-83) for the first prime `p0`. -/
def Cross.initial (p0 : ℕ) : Cross := { coefs := { combPrime := p0 } }

end FireFly.RRun
