import Verif.Model.RatRun
import Verif.Model.RatShift
/-!
# `RatReconst` in several variables with `set_safe_interpolation` (source/RatReconst.cpp 131-210, 337-346, 790-872, 1366-1595, 1605-1684, 1711-1795, 1951-2005, 2066-2094, 3340-3400, 3460-3463, source/include/firefly/RatReconst.hpp `set_safe_interpolation`)

In this mode (`interpolations = 300`) the function is interpolated from scratch in every prime field, as in the first one (`Model/RatMulti.lean`), so a coefficient may vanish in a prime field: a coefficient that is not seen in a field keeps its residue
and its modulus; each coefficient has its own modulus (`combined_primes_ni`, `combined_primes_di`). If the coefficient that is normalized to one vanishes in a prime field, the field is left out (`div_by_zero`).

Simplifications: as in `Model/RatMulti.lean`, `Model/RatRun.lean`. The guess is computed at the start of a prime field and not at the first probe that is used. The members that only matter when `prime_number >= interpolations`
(`non_solved_degs_num`, `num_eqn`, …) are left out: the program ends at 300 prime fields. `is_singular_system` is always reset (858-859).
-/
namespace FireFly.RRun.Safe

/-- `g_ni`, `combined_ni`, `combined_primes_ni`, or the ones of the denominator. -/
structure Side where
  g : RnMap := []
  comb : MpzMap := []
  primes : MpzMap := []

/-- The members that survive a change of the prime field. `norm` is `(normalizer_den_num, normalizer_deg)` as soon as a field has been used; then `check_interpolation` is set, too. -/
structure Cross where
  num : Side := {}
  den : Side := {}
  combPrime : ℤ
  norm : Option (Bool × List ℕ) := none
  primeNumber : ℕ := 0
  zeroCounter : ℕ := 0

/-- The iteration order of `combined_ni` and `combined_di`: hash maps. -/
structure Order where
  num : MpzMap → MpzMap
  den : MpzMap → MpzMap

/-- What a prime field leads to. -/
inductive Out where
  /-- more probes are needed in this prime field -/
  | running
  /-- `done`; the result of `get_result` (source/RatReconst.cpp 1842-1868) -/
  | finished (num den : RnMap)
  /-- a new prime field is requested -/
  | nextPrime (c : Cross)

/-- One side of the first combination (source/RatReconst.cpp 1405-1437): the normalizer is known, the other coefficients are residues modulo the prime. -/
def firstSide {p : ℕ} (isNorm : Bool) (normalizer : List ℕ) (res : FFMap (ZMod p)) (g : RnMap) : Side :=
  (convertToMpz res).foldl (fun (st : Side) t =>
    if isNorm && t.1 == normalizer then { st with g := st.g.set t.1 ⟨1, 1⟩, comb := st.comb.erase t.1 }
    else { st with primes := st.primes.set t.1 (p : ℤ) }) { g := g, comb := convertToMpz res }

/-- The coefficients that are seen for the first time (source/RatReconst.cpp 1450-1460) -/
def grow {p : ℕ} (s : Side) (res : FFMap (ZMod p)) : MpzMap :=
  res.foldl (fun (m : MpzMap) t => if (m.find? t.1).isNone ∧ (s.g.find? t.1).isNone then m ++ [(t.1, 0)] else m) s.comb

/-- The body of the loops over `combined_ni` (source/RatReconst.cpp 1472-1488, 1496-1512): the maps and `p3.second`. -/
def crtStep (inv : ℤ → ℤ → ℤ) {p : ℕ} (res : FFMap (ZMod p)) (st : Side × ℤ) (t : List ℕ × ℤ) : Side × ℤ :=
  match res.find? t.1 with
  | none => st
  | some v =>
    if (st.1.g.find? t.1).isSome then st
    else if t.2 = 0 then ({ st.1 with comb := st.1.comb.set t.1 (v.val : ℤ), primes := st.1.primes.set t.1 (p : ℤ) }, st.2)
    else
      let p3 := runChineseRemainder inv (t.2, (st.1.primes.find? t.1).getD 0) ((v.val : ℤ), (p : ℤ))
      ({ st.1 with comb := st.1.comb.set t.1 p3.1, primes := st.1.primes.set t.1 p3.2 }, p3.2)

/-- The loop over `combined_ni` or `combined_di` in the order `ord` (source/RatReconst.cpp 1466-1513); `m` is `p3.second` before. -/
def crtSide (inv : ℤ → ℤ → ℤ) {p : ℕ} (ord : MpzMap → MpzMap) (s : Side) (res : FFMap (ZMod p)) (m : ℤ) : Side × ℤ :=
  (ord (grow s res)).foldl (crtStep inv res) ({ s with comb := grow s res }, m)

/-- The decision whether a coefficient is known (source/RatReconst.cpp 1521-1593, 1607-1679): `r`, `M` are the residue and modulus before, `r'`, `M'` after the combination. The outer `none` is a division by zero. -/
def promoteOne (r M r' M' : ℤ) : Option (Option RationalNumber) := do
  let lw ← getRationalCoef r M
  let cw ← getRationalCoef r' M'
  let lm ← getRationalCoefMqrr r M
  let cm ← getRationalCoefMqrr r' M'
  if lw.1 && cw.1 && RationalNumber.eq lw.2 cw.2 then some (some cw.2)
  else if lm.1 && cm.1 && RationalNumber.eq lm.2 cm.2 then some (some cm.2)
  else some none

/-- One iteration of the loops source/RatReconst.cpp 1519-1598, 1605-1684 with `remove_ni`, `remove_di` (2086-2094); `back` is `combined_prime_ni_back`. -/
def promoteStep {p : ℕ} (res : FFMap (ZMod p)) (back : MpzMap) (st : Side) (t : List ℕ × ℤ) : Option Side :=
  if (st.g.find? t.1).isNone ∧ (res.find? t.1).isSome then
    (promoteOne t.2 ((back.find? t.1).getD 0) ((st.comb.find? t.1).getD 0) ((st.primes.find? t.1).getD 0)).map (fun o => match o with
      | some rn => { g := st.g.set t.1 rn, comb := st.comb.erase t.1, primes := st.primes.erase t.1 }
      | none => st)
  else some st

/-- The coefficients that are known now are moved (source/RatReconst.cpp 1519-1684); `s` is the side before, `s'` after the Chinese remainders. -/
def promoteSide {p : ℕ} (s s' : Side) (res : FFMap (ZMod p)) : Option Side := s.comb.foldlM (promoteStep res s.primes) s'

/-- `combine_primes` for a further prime field (source/RatReconst.cpp 1439-1684). If no residue has been combined `p3` has never been assigned and `combined_prime` becomes 0 (1516). -/
def combineNext (inv : ℤ → ℤ → ℤ) (ord : Order) {p : ℕ} (c : Cross) (num den : FFMap (ZMod p)) : Option Cross := do
  let a := crtSide inv ord.num c.num num 0
  let b := crtSide inv ord.den c.den den a.2
  let x ← promoteSide c.num a.1 num
  let y ← promoteSide c.den b.1 den
  some { c with num := x, den := y, combPrime := b.2 }

/-- `rec_rat_coef` (source/RatReconst.cpp 1951-2006): all residues are interpreted with the same modulus `combined_prime`. -/
def Cross.recRatCoef (c : Cross) : Option (Option (RnMap × RnMap)) :=
  RatCoefs.recRatCoef { gNi := c.num.g, gDi := c.den.g, combNi := c.num.comb, combDi := c.den.comb, combPrime := c.combPrime }

/-- The end of `combine_primes` (source/RatReconst.cpp 1721-1795): the error for more than 300 primes. -/
def endPrime (c : Cross) : Option Out := if c.primeNumber + 1 = 300 then none else some (.nextPrime { c with primeNumber := c.primeNumber + 1 })

/-- A first probe that is zero (source/RatReconst.cpp 145-179), as `RRun.feedZero`. -/
def feedZero (n nextP : ℕ) (c : Cross) : Option Out :=
  let z := c.zeroCounter + 1
  let M := if z = c.primeNumber + 1 then (nextP : ℤ) else c.combPrime
  if c.primeNumber + 1 = 300 then none
  else if z = 3 ∧ c.primeNumber + 1 = 3 then some (.finished (c.num.g.set (List.replicate n 0) ⟨0, 1⟩) (c.den.g.set (List.replicate n 0) ⟨1, 1⟩))
  else some (.nextPrime { c with combPrime := M, zeroCounter := z, primeNumber := c.primeNumber + 1 })

/-- The test of the guess with the first probe of the order vector `(1, …, 1)` (source/RatReconst.cpp 341-346, 2066-2084, 3362-3381); nothing if there is no such probe or the guess fails. -/
def guessTest (r : RRun.Prime) (g : RnMap × RnMap) : Option Bool :=
  haveI := r.fact
  match r.probes.find? (fun q => decide (q.2.2 = List.replicate (r.cfg.n - 1) 1)) with
  | none => some false
  | some q =>
    RShift.Cfg.testGuess { n := r.cfg.n, shift := r.cfg.shift, anchor := r.cfg.anchor, gt := r.cfg.gt, normDen := r.cfg.normDen, normalizerDen := false, normalizerDeg := [], maxEqn := 0, num := ⟨[], [], fun _ => [], [], 0⟩, den := ⟨[], [], fun _ => [], [], 0⟩, guess := none }
      (convertToFF r.p g.1, convertToFF r.p g.2) q.2.2 q.1 q.2.1

/-- `combine_primes` with the choice of the normalization (source/RatReconst.cpp 791-872, 1366-1795). In the first field that is used (`prime_number == zero_counter`) the choice of `Model/RatMulti.lean` is stored. In a further field the coefficient of
the stored monomial becomes one. `RMulti.Result` is normalized already, differently: this factor cancels. If the coefficient vanishes the field is left out. -/
def combine (inv : ℤ → ℤ → ℤ) (ord : Order) {p : ℕ} [Fact p.Prime] (c : Cross) (res : RMulti.Result (ZMod p)) : Option Cross :=
  match c.norm with
  | none => some { c with num := firstSide (!res.normDen) res.normDeg res.num c.num.g, den := firstSide res.normDen res.normDeg res.den c.den.g, combPrime := p, norm := some (res.normDen, res.normDeg) }
  | some (b, e) =>
    let t := ((if b then res.den else res.num).find? e).getD 0
    if 1 / t = 0 then some c else combineNext inv ord c (PolyFF.scale res.num (1 / t)) (PolyFF.scale res.den (1 / t))

/-- The interpolation in a prime field if the guess has not been accepted (source/RatReconst.cpp 337-898). -/
def interpolate (inv : ℤ → ℤ → ℤ) (ord : Order) (c : Cross) (r : RRun.Prime) : Option Out :=
  haveI := r.fact
  do
  let s ← r.cfg.feedAll r.cfg.init r.probes
  match s.result with
  | none => some .running
  | some res => do
    let c' ← combine inv ord c res
    endPrime c'

/-- All probes of a prime field: `feed` (source/RatReconst.cpp 131-210) followed by `interpolate()` (298-335). -/
def prime (inv : ℤ → ℤ → ℤ) (ord : Order) (c : Cross) (r : RRun.Prime) : Option Out :=
  match r.probes with
  | [] => some .running
  | q :: _ =>
    if q.2.1 = 0 then feedZero r.cfg.n r.nextP c
    else if c.norm.isSome then do
      match ← c.recRatCoef with
      | some g => if ← guessTest r g then some (.finished g.1 g.2) else interpolate inv ord c r
      | none => interpolate inv ord c r
    else interpolate inv ord c r

/-- The state after a number of prime fields. -/
inductive RunOut where
  | finished (num den : RnMap)
  | waiting (c : Cross)
  | running

/-- The use of an object by its caller (source/include/firefly/Reconstructor.hpp 3116-3208, for a single function). -/
def run (inv : ℤ → ℤ → ℤ) (ord : Order) : Cross → List RRun.Prime → Option RunOut
  | c, [] => some (.waiting c)
  | c, r :: rs => do
    match ← prime inv ord c r with
    | .finished N D => some (.finished N D)
    | .nextPrime c' => run inv ord c' rs
    | .running => some .running

/-- The new object (source/RatReconst.cpp 42-83) for the first prime `p0`, after `set_safe_interpolation`. -/
def Cross.initial (p0 : ℕ) : Cross := { combPrime := p0 }

end FireFly.RRun.Safe
