import Verif.Model.Rational
import Verif.Model.Thiele
import Verif.Model.DenseSolver
import Mathlib.Data.ZMod.Basic
import Mathlib.Algebra.Field.ZMod
/-!
# `RatReconst`: combining prime fields, and the univariate reconstruction (source/RatReconst.cpp)

First part: the data of a reconstruction that survive a change of the prime field, for any number of
variables (`combine_primes`, `rec_rat_coef`, `remove_ni`, `remove_di`). Second part: the complete
reconstruction for `n = 1` (`feed`, `interpolate`, `check_if_done`, `test_guess`, the linear systems).

Modelled mode: the default one (`interpolations = 1`, i.e. no `set_safe_interpolation`), no tag (nothing is
written to disk), no scan and no factor calculation, no singular system (for `n = 1` there is none, the
shift is zero). The object is used by one thread (see `RatQueue` for the protocol between threads).
-/
namespace FireFly

/-- `mpz_map` (source/include/firefly/BaseReconst.hpp 29). -/
abbrev MpzMap := FFMap ℤ

/-- `rn_map` (source/include/firefly/BaseReconst.hpp 32). -/
abbrev RnMap := FFMap RationalNumber

/-- The members that hold the coefficients (source/include/firefly/RatReconst.hpp 367-370): the guesses
`g_ni`, `g_di`, the combined residues `combined_ni`, `combined_di`, and `combined_prime`. -/
structure RatCoefs where
  gNi : RnMap := []
  gDi : RnMap := []
  combNi : MpzMap := []
  combDi : MpzMap := []
  combPrime : ℤ

/-- `convert_to_mpz` (source/BaseReconst.cpp 176-184). -/
def convertToMpz {p : ℕ} (m : FFMap (ZMod p)) : MpzMap := m.map (fun t => (t.1, (t.2.val : ℤ)))

/-- `convert_to_ffint` (source/BaseReconst.cpp 186-196): `FFInt(numerator) / FFInt(denominator)`. -/
def convertToFF (p : ℕ) [Fact p.Prime] (m : RnMap) : FFMap (ZMod p) :=
  m.map (fun t => (t.1, (t.2.num : ZMod p) / (t.2.den : ZMod p)))

/-- One side of the first combination (source/RatReconst.cpp 1405-1437): all coefficients are kept as
residues, except for the normalizer, which is set to one and removed (`remove_ni`, `remove_di`
2086-2094). `g` is the map of guesses before. -/
def combineFirstSide {p : ℕ} (isNorm : Bool) (normalizer : List ℕ) (res : FFMap (ZMod p)) (g : RnMap) : RnMap × MpzMap :=
  (convertToMpz res).foldl (fun st t =>
    if isNorm && t.1 == normalizer then (st.1.set t.1 ⟨1, 1⟩, st.2.erase t.1) else st) (g, convertToMpz res)

/-- `combine_primes` for the first prime field (source/RatReconst.cpp 1398-1438, without safe mode and
singular systems). `normDen` is `normalizer_den_num`. -/
def RatCoefs.combineFirst {p : ℕ} (s : RatCoefs) (normDen : Bool) (normalizer : List ℕ) (num den : FFMap (ZMod p)) : RatCoefs :=
  let a := combineFirstSide (!normDen) normalizer num s.gNi
  let b := combineFirstSide normDen normalizer den s.gDi
  { gNi := a.1, combNi := a.2, gDi := b.1, combDi := b.2, combPrime := p }

/-- The Chinese remainders of one side (source/RatReconst.cpp 1466-1471, 1489-1494). A missing coefficient
counts as 0 (`operator[]`). -/
def combineSide (inv : ℤ → ℤ → ℤ) {p : ℕ} (comb : MpzMap) (M : ℤ) (res : FFMap (ZMod p)) : MpzMap :=
  comb.map (fun t => (t.1, (runChineseRemainder inv (t.2, M) ((((res.find? t.1).getD 0).val : ℤ), (p : ℤ))).1))

/-- The decision whether a coefficient is known (source/RatReconst.cpp 1521-1593, 1607-1679): `r`, `M` are
the residue and modulus before, `r'`, `M'` after the combination. The outer `none` is a division by zero. -/
def promoteOne (r M r' M' : ℤ) : Option (Option RationalNumber) := do
  let lw ← getRationalCoef r M
  let cw ← getRationalCoef r' M'
  let lm ← getRationalCoefMqrr r M
  let cm ← getRationalCoefMqrr r' M'
  if lw.1 && cw.1 && RationalNumber.eq lw.2 cw.2 then some (some cw.2)
  else if lm.1 && cm.1 && RationalNumber.eq lm.2 cm.2 then some (some cm.2)
  else if r = r' then (RationalNumber.ctor r 1).map some
  else some none

/-- One iteration of the loops source/RatReconst.cpp 1519-1598, 1605-1684 with `remove_ni`, `remove_di`
(2086-2094). -/
def promoteStep (M M' : ℤ) (st : RnMap × MpzMap) (t : List ℕ × ℤ) : Option (RnMap × MpzMap) :=
  if (st.1.find? t.1).isSome then some st
  else (promoteOne t.2 M ((st.2.find? t.1).getD 0) M').map (fun o => match o with
    | some rn => (st.1.set t.1 rn, st.2.erase t.1)
    | none => st)

/-- `combine_primes` for a further prime field (source/RatReconst.cpp 1439-1684). If no coefficient is
left `p3` has never been assigned and `combined_prime` becomes 0 (1516). -/
def RatCoefs.combineNext (inv : ℤ → ℤ → ℤ) {p : ℕ} (s : RatCoefs) (num den : FFMap (ZMod p)) : Option RatCoefs := do
  let combNi := combineSide inv s.combNi s.combPrime num
  let combDi := combineSide inv s.combDi s.combPrime den
  let M' := if s.combNi ++ s.combDi = [] then 0 else s.combPrime * p
  let a ← s.combNi.foldlM (promoteStep s.combPrime M') (s.gNi, combNi)
  let b ← s.combDi.foldlM (promoteStep s.combPrime M') (s.gDi, combDi)
  some { gNi := a.1, combNi := a.2, gDi := b.1, combDi := b.2, combPrime := M' }

/-- The guess for one residue in `rec_rat_coef` (source/RatReconst.cpp 1956-1974): first Wang's algorithm,
then the maximal quotient. -/
def guessOne (r M : ℤ) : Option (Option RationalNumber) := do
  let w ← getRationalCoef r M
  if w.1 then some (some w.2)
  else
    let m ← getRationalCoefMqrr r M
    some (if m.1 then some m.2 else none)

/-- One of the loops of `rec_rat_coef` (source/RatReconst.cpp 1956-1997): the guesses are stored, `false` if
there is a residue without a guess. -/
def recSide (M : ℤ) : MpzMap → RnMap → Option (RnMap × Bool)
  | [], g => some (g, true)
  | t :: ts, g => do
    match ← guessOne t.2 M with
    | some rn => recSide M ts (g.set t.1 rn)
    | none => some (g, false)

/-- `rec_rat_coef` (source/RatReconst.cpp 1951-2006): the completed maps of guesses, or nothing, in which case
the stored guesses are removed again. -/
def RatCoefs.recRatCoef (s : RatCoefs) : Option (Option (RnMap × RnMap)) := do
  let a ← recSide s.combPrime s.combNi s.gNi
  if a.2 then
    let b ← recSide s.combPrime s.combDi s.gDi
    some (if b.2 then some (a.1, b.1) else none)
  else some none

/-! ## the univariate reconstruction -/

/-- The members of a univariate object that survive a change of the prime field
(source/include/firefly/RatReconst.hpp 340-470): the coefficients, whether the degrees are known
(`max_deg_num != -1`), the unsolved degrees in the iteration order of the hash maps, `num_eqn`, the number of
the prime, `zero_counter`, `check_interpolation`. -/
structure UniCross where
  coefs : RatCoefs
  known : Bool := false
  nonSolvedNum : List ℕ := []
  nonSolvedDen : List ℕ := []
  numEqn : ℕ := 0
  primeNumber : ℕ := 0
  zeroCounter : ℕ := 0
  checkInterpolation : Bool := false

/-- The members used within a prime field: the interpolator, the linear system (each row with its
right-hand side), `new_prime`. -/
structure UniState (p : ℕ) where
  cross : UniCross
  thiele : Thiele (ZMod p) := {}
  coefMat : List (List (ZMod p)) := []
  newPrime : Bool

/-- What the processing of a probe leads to. -/
inductive UniOut (p : ℕ) where
  /-- more probes are needed in this prime field -/
  | running (s : UniState p)
  /-- `done`; the result of `get_result` (source/RatReconst.cpp 1842-1868) -/
  | finished (num den : RnMap)
  /-- a new prime field is requested -/
  | nextPrime (c : UniCross)

section
variable {p : ℕ} [Fact p.Prime]

/-- the test in `test_guess` (source/RatReconst.cpp 2066-2084) for `n = 1` and shift 0 -/
def testGuess (g : RnMap × RnMap) (num ti : ZMod p) : Option Bool := do
  let a ← PolyFF.calc 1 (convertToFF p g.1) [ti]
  let b ← PolyFF.calc 1 (convertToFF p g.2) [ti]
  some (decide (a / b = num))

/-- `check_if_done` (source/RatReconst.cpp 3340-3383): `some g` if the reconstruction is done. The remaining
part of the function only prepares the data the further probes of this prime field need; for `n = 1` these are the known coefficients
modulo `p` (3417-3457), see `uniRow`. The guesses stored for the test are removed again (3375-3381). -/
def checkIfDone (c : UniCross) (num ti : ZMod p) : Option (Option (RnMap × RnMap)) := do
  match ← c.coefs.recRatCoef with
  | some g => some (if ← testGuess g num ti then some g else none)
  | none => some none

/-- A row of the linear system: `build_homogenized_multi_gauss` (source/RatReconst.cpp 2216-2282) for `n = 1`.
`num_sub_num[e]` is the known coefficient of `x^e` (`solved_degs_num`, 3417-3457). -/
def uniRow (c : UniCross) (ti num : ZMod p) : List (ZMod p) :=
  c.nonSolvedNum.map (fun e => ti ^ e) ++ c.nonSolvedDen.map (fun e => -num * ti ^ e) ++
    [(convertToFF p c.coefs.gDi).foldl (fun res t => res + t.2 * ti ^ (t.1.getD 0 0) * num)
      ((convertToFF p c.coefs.gNi).foldl (fun res t => res - t.2 * ti ^ (t.1.getD 0 0)) 0)]

/-- the rows as a matrix for `solve_gauss_system` -/
def rowsMat (rows : List (List (ZMod p))) : Mat (ZMod p) := fun i j => (rows.getD i []).getD j 0

/-- `solve_homogenized_multi_gauss` (source/RatReconst.cpp 2032-2055); `none`: the singular-system error -/
def solveUni (gt : ZMod p → ZMod p → Bool) (c : UniCross) (rows : List (List (ZMod p))) : Option (FFMap (ZMod p) × FFMap (ZMod p)) :=
  (solveGauss gt c.numEqn (rowsMat rows) false).map (fun x =>
    (c.nonSolvedNum.mapIdx (fun i e => ([e], x i)), c.nonSolvedDen.mapIdx (fun i e => ([e], x (c.nonSolvedNum.length + i)))))

/-- The end of `combine_primes` (source/RatReconst.cpp 1720-1795) for `n = 1`: the unsolved degrees
(`add_non_solved_num/den` 2330-2344), `num_eqn`, the next prime. `ord` is the iteration order of the hash maps. -/
def endCross (ord : List ℕ → List ℕ) (c : UniCross) (k : RatCoefs) : UniCross :=
  let nn := ord (k.combNi.map (fun t => t.1.getD 0 0))
  let nd := ord (k.combDi.map (fun t => t.1.getD 0 0))
  { c with coefs := k, known := true, nonSolvedNum := nn, nonSolvedDen := nd, numEqn := nn.length + nd.length
           primeNumber := c.primeNumber + 1, checkInterpolation := true }

/-- `endCross` with the error for more than 300 primes (source/RatReconst.cpp 1789-1792). -/
def endPrime (ord : List ℕ → List ℕ) (c : UniCross) (k : RatCoefs) : Option (UniOut p) :=
  if c.primeNumber + 1 = 300 then none else some (.nextPrime (endCross ord c k))

/-- The first interpolation (source/RatReconst.cpp 417-428, 482-499, 541-543) for `n = 1`: normalization to
the lowest degree of the denominator (`normalize_to_den` is true) and `combine_primes`. -/
def firstResult (c : UniCross) (r : FFMap (ZMod p) × FFMap (ZMod p)) : RatCoefs :=
  let normalizer := (PolyFF.degs r.2).2
  let equalizer := 1 / ((r.2.find? normalizer).getD 0)
  c.coefs.combineFirst true normalizer (PolyFF.scale r.1 equalizer) (PolyFF.scale r.2 equalizer)

/-- `interpolate(new_ti, num, fed_zi_ord)` (source/RatReconst.cpp 337-543) for `n = 1`. `none`: the program
ends with an error (singular system) or is undefined. `inv`: `mpz_invert`; `gt`: the comparison of the pivot search. -/
def uniProbe (inv : ℤ → ℤ → ℤ) (gt : ZMod p → ZMod p → Bool) (ord : List ℕ → List ℕ) (s : UniState p) (ti num : ZMod p) : Option (UniOut p) := do
  match ← (if s.newPrime then checkIfDone s.cross num ti else some none) with
  | some g => some (.finished g.1 g.2)
  | none =>
    if s.cross.known then
      let rows := s.coefMat ++ [uniRow s.cross ti num]
      if s.cross.numEqn = rows.length then
        let r ← solveUni gt s.cross rows
        let k ← s.cross.coefs.combineNext inv r.1 r.2
        endPrime ord s.cross k
      else some (.running { s with coefMat := rows, newPrime := false })
    else
      let t := s.thiele.addPoint num ti
      if t.2 then endPrime ord s.cross (firstResult s.cross t.1.getResult)
      else some (.running { s with thiele := t.1, newPrime := false })

/-- The loop of `interpolate()` (source/RatReconst.cpp 309-331) over the probes fed in this prime field; a
request for a new prime empties the queue (1782). -/
def uniLoop (inv : ℤ → ℤ → ℤ) (gt : ZMod p → ZMod p → Bool) (ord : List ℕ → List ℕ) : UniState p → List (ZMod p × ZMod p) → Option (UniOut p)
  | s, [] => some (.running s)
  | s, pt :: pts => do
    match ← uniProbe inv gt ord s pt.1 pt.2 with
    | .running s' => uniLoop inv gt ord s' pts
    | o => some o

/-- A first probe that is zero (source/RatReconst.cpp 145-179): the prime field is skipped; after three zeros in the first three fields
the result is 0. `nextP` is the next prime of the table. `none`: more than 300 primes. -/
def feedZero (nextP : ℕ) (c : UniCross) : Option (UniOut p) :=
  let z := c.zeroCounter + 1
  let k := if z = c.primeNumber + 1 then { c.coefs with combPrime := (nextP : ℤ) } else c.coefs
  if c.primeNumber + 1 = 300 then none
  else if z = 3 ∧ c.primeNumber + 1 = 3 then
    some (.finished (c.coefs.gNi.set [0] ⟨0, 1⟩) (c.coefs.gDi.set [0] ⟨1, 1⟩))
  else some (.nextPrime { c with coefs := k, zeroCounter := z, primeNumber := c.primeNumber + 1 })

/-- All probes of a prime field: `feed` (source/RatReconst.cpp 131-210) followed by `interpolate()`
(298-335). The first one decides whether the field is skipped; afterwards `new_prime` says whether the first probe is used for the test (180-182). -/
def uniPrime (inv : ℤ → ℤ → ℤ) (gt : ZMod p → ZMod p → Bool) (ord : List ℕ → List ℕ) (nextP : ℕ) (c : UniCross) (pts : List (ZMod p × ZMod p)) : Option (UniOut p) :=
  match pts with
  | [] => some (.running { cross := c, newPrime := c.checkInterpolation })
  | pt :: _ =>
    if pt.2 = 0 then feedZero nextP c
    else uniLoop inv gt ord { cross := c, newPrime := c.checkInterpolation } pts

end

/-- The probes of one prime field, as the caller feeds them. -/
structure PrimeRun where
  p : ℕ
  fact : Fact p.Prime
  pts : List (ZMod p × ZMod p)
  nextP : ℕ

/-- The state after a number of prime fields. -/
inductive RunOut where
  | finished (num den : RnMap)
  | waiting (c : UniCross)
  | running

/-- The use of an object by its caller (`Reconstructor::interpolate_job`, source/include/firefly/Reconstructor.hpp
3116-3208, for a single function): the probes of each prime field are fed until the object requests the next one or is done. -/
def uniRun (inv : ℤ → ℤ → ℤ) (gt : (p : ℕ) → ZMod p → ZMod p → Bool) (ord : List ℕ → List ℕ) : UniCross → List PrimeRun → Option RunOut
  | c, [] => some (.waiting c)
  | c, r :: rs => do
    match ← (haveI := r.fact; uniPrime inv (gt r.p) ord r.nextP c r.pts) with
    | .finished N D => some (.finished N D)
    | .nextPrime c' => uniRun inv gt ord c' rs
    | .running _ => some .running

/-- The new object (source/RatReconst.cpp 42-83) for the first prime `p0`. -/
def UniCross.initial (p0 : ℕ) : UniCross := { coefs := { combPrime := p0 } }

end FireFly
