import Verif.Model.RatMulti
/-!
# The scan for a sparse shift (source/include/firefly/Reconstructor.hpp 1197-1345, source/RatReconst.cpp 86-93, 118-131, 413-455, 2100-2165, 2375-2420)

Before the interpolation of rational functions in several variables starts, the Reconstructor can search for a set of variables, as small as possible, that are shifted. First all variables are
shifted and the degrees of the numerators and denominators on a line are determined. Then for one set of variables after the other
the functions are interpolated on a line again, until all functions have the same degrees as before.

An object that has taken part in the scan knows which powers of `t` occur. The first step of its interpolation is a linear system for these powers instead of Thiele's method.

Simplifications: threads are left out (see C37, C38): every object gets a list of probes `(t, value)` in each round. The output and the files are left out.
-/
namespace FireFly.RMulti
variable {F : Type} [Field F] [DecidableEq F]

/-- The members of an object the scan uses (source/include/firefly/RatReconst.hpp 405-450): `t_interpolator`, `done`, `factor_degs`, `all_shift_max_degs`, `shift_works`, `normalize_to_den`. -/
structure ScanObj (F : Type) where
  thiele : Thiele F := {}
  done : Bool := false
  degsNum : List ℕ := []
  degsDen : List ℕ := []
  allDegs : Option (ℕ × ℕ) := none
  works : Bool := false
  normDen : Bool := true

/-- `interpolate` while `scan` is set (source/RatReconst.cpp 340, 350-354, 398-455); `full`: `curr_shift == std::vector<uint32_t>(n, 1)`. `none`: `all_shift_max_degs` is read although it is
empty. -/
def ScanObj.probe (full : Bool) (o : ScanObj F) (q : F × F) : Option (ScanObj F) :=
  if o.done then some o
  else
    let r := o.thiele.addPoint q.2 q.1
    if r.2 then
      let num := r.1.getResult.1
      let den := r.1.getResult.2
      let maxNum := (PolyFF.degs num).1.getD 0 0
      let maxDen := (PolyFF.degs den).1.getD 0 0
      let o := { o with done := true, thiele := {}, degsNum := List.map (fun (t : List ℕ × F) => t.1.getD 0 0) num, degsDen := List.map (fun (t : List ℕ × F) => t.1.getD 0 0) den, works := false }
      if full then some { o with allDegs := some (maxNum, maxDen) }
      else
        match o.allDegs with
        | none => none
        | some a =>
          if maxNum = a.1 ∧ maxDen = a.2 then some { o with normDen := decide ((PolyFF.degs den).2.getD 0 0 = 0), works := true }
          else some o
    else some { o with thiele := r.1 }

/-- `run_until_done` in one round of the scan (source/include/firefly/Reconstructor.hpp 1240): each object gets its probes until it is done. `none`: an object is not done after its probes. -/
def scanRun (full : Bool) (food : ℕ → List (F × F)) (objs : List (ScanObj F)) : Option (List (ScanObj F)) :=
  objs.zipIdx.mapM (fun (t : ScanObj F × ℕ) => do
    let o ← (food t.2).foldlM (ScanObj.probe full) t.1
    if o.done then some o else none)

/-- The local variables of `scan_for_shift` (source/include/firefly/Reconstructor.hpp 1204-1207) and the objects. -/
structure ScanSt (F : Type) where
  objs : List (ScanObj F)
  cur : List ℕ
  first : Bool := true
  found : Bool := false
  counter : ℕ := 0

/-- The choice of the shift of this round (source/include/firefly/Reconstructor.hpp 1222-1238): the new `current_shift` and the variables that are shifted (all of them in the first round, see
source/RatReconst.cpp 53-60). `none`: the `break`. -/
def ScanSt.pick (n : ℕ) (s : ScanSt F) : Option (List ℕ × List ℕ) :=
  if s.first then some (s.cur, List.replicate n 1)
  else if s.counter ≠ 0 then
    let p := generateNextPermutation s.cur
    if p.1 then some (p.2, p.2) else none
  else some (s.cur, s.cur)

/-- The loop of `scan_for_shift` (source/include/firefly/Reconstructor.hpp 1221-1277) with `is_shift_working` (source/RatReconst.cpp 2375-2381). `food k p i` are the probes
of the object `i` in the round `k` when the variables `p` are shifted. The first argument limits the number of rounds: `none` if there are more. -/
def scanLoop (n : ℕ) (food : ℕ → List ℕ → ℕ → List (F × F)) : ℕ → ScanSt F → Option (ScanSt F)
  | 0, _ => none
  | fuel + 1, s =>
    if s.found then some s
    else
      match s.pick n with
      | none => some s
      | some (cur, shifted) => do
        let objs ← scanRun (decide (shifted = List.replicate n 1)) (food (if s.first then 0 else s.counter + 1) shifted) s.objs
        let found := objs.all (fun o => o.works)
        let objs := objs.map (fun o => { o with done := false })
        scanLoop n food fuel { objs := objs, cur := cur, first := false, found := found && !s.first, counter := if s.first then s.counter else s.counter + 1 }

/-- What the scan gives: the objects, whether a shift was found, the variables that are shifted from now on (source/include/firefly/Reconstructor.hpp 1279-1290). -/
structure ScanResult (F : Type) where
  objs : List (ScanObj F)
  found : Bool
  shifted : List ℕ

/-- `scan_for_shift` for `m` functions (source/include/firefly/Reconstructor.hpp 1197-1290). -/
def scanForShift (n m : ℕ) (food : ℕ → List ℕ → ℕ → List (F × F)) : Option (ScanResult F) :=
  (scanLoop n food (2 ^ n + 2) { objs := List.replicate m {}, cur := List.replicate n 0 }).map
    (fun s => { objs := s.objs, found := s.found, shifted := if s.found then s.cur else List.replicate n 1 })

/-! ### the system for the powers that are known -/

/-- A row of `build_factor_uni_gauss` (source/RatReconst.cpp 2100-2123), `scan` is not set: a power `0` of the polynomial that is normalized has the coefficient one and goes to the right-hand side. -/
def factorRow (normDen : Bool) (dN dD : List ℕ) (t v : F) : List F :=
  (dN.filter (fun k => !(!normDen && k == 0))).map (fun k => t ^ k) ++ (dD.filter (fun k => !(normDen && k == 0))).map (fun k => -v * t ^ k) ++
    [if normDen then (if dD.contains 0 then v else 0) else (if dN.contains 0 then -1 else 0)]

/-- One of the loops of `solve_factor_uni_gauss` (source/RatReconst.cpp 2141-2161); `one`: the constant is one. The second component is the counter. -/
def factorTake (one : Bool) (x : ℕ → F) : List ℕ → ℕ → FFMap F × ℕ
  | [], i => ([], i)
  | k :: l, i =>
    if one && k == 0 then
      let r := factorTake one x l i
      (([k], 1) :: r.1, r.2)
    else
      let r := factorTake one x l (i + 1)
      (if x i ≠ 0 then ([k], x i) :: r.1 else r.1, r.2)

/-- `solve_factor_uni_gauss` (source/RatReconst.cpp 2133-2165); `none`: the error of a singular system -/
def factorSolve (gt : F → F → Bool) (normDen : Bool) (dN dD : List ℕ) (rows : List (List F)) : Option (FFMap F × FFMap F) :=
  (solveGauss gt rows.length (fun i j => (rows.getD i []).getD j 0) false).map (fun x =>
    let a := factorTake (!normDen) x dN 0
    let b := factorTake normDen x dD a.2
    (a.1, b.1))

/-- `interpolate` of an object that took part in the scan (`skip_thiele`, source/RatReconst.cpp 340-356, 398-537); `dN`, `dD`: `factor_degs`. When the degrees of the numerator and the denominator are known,
`interpolate` does the same as without a scan. -/
def Cfg.probeScan (c : Cfg F) (dN dD : List ℕ) (s : St F) (t v : F) (ord : List ℕ) : Option (St F) :=
  if s.result.isSome = false ∧ ord = s.ord ∧ s.known = false then
    let rows := s.rows ++ [factorRow c.normDen dN dD t v]
    if rows.length = dN.length + dD.length - 1 then do
      let r ← factorSolve c.gt c.normDen dN dD rows
      c.start { s with rows := [] } r
    else some { s with rows := rows }
  else c.probe s t v ord

/-- The loop over saved probes of the new order vector (source/RatReconst.cpp 318-328), as `Cfg.drain`. -/
def Cfg.drainScan (c : Cfg F) (dN dD : List ℕ) : ℕ → St F → Option (St F)
  | k, s =>
    match s.savedTi.find? s.ord with
    | none => some s
    | some [] => none
    | some (q :: rest) =>
      match k with
      | 0 => none
      | k + 1 => do
        let s' ← c.probeScan dN dD { s with savedTi := s.savedTi.set s.ord rest } q.1 q.2 s.ord
        c.drainScan dN dD k s'

/-- One probe from the queue (source/RatReconst.cpp 309-331). -/
def Cfg.feedScan (c : Cfg F) (dN dD : List ℕ) (s : St F) (q : F × F × List ℕ) : Option (St F) := do
  let s ← c.probeScan dN dD s q.1 q.2.1 q.2.2
  c.drainScan dN dD s.savedTi.length s

/-- Any sequence of probes `(t, value, order vector)`. -/
def Cfg.feedAllScan (c : Cfg F) (dN dD : List ℕ) (s : St F) (probes : List (F × F × List ℕ)) : Option (St F) := probes.foldlM (c.feedScan dN dD) s

end FireFly.RMulti
