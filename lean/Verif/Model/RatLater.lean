import Verif.Model.RatMulti
import Verif.Model.Vandermonde
/-!
# The interpolation of a rational function in several variables in a further prime field (source/RatReconst.cpp 337-397, 526-529, 896-925, 1102, 1176-1236, 2032-2055, 2066-2084, 2216-2282, 3340-3457)

The monomials are known from the first prime field; the coefficients that are not yet known as rational numbers are determined again. Mode: `n > 1`, no shift, `is_singular_system` is
false, no safe interpolation. A probe consists of the value `t` of the homogenization variable, the value of the black box at `z_1 = t`, `z_i = t y_i` and the order vector, `y_i` being the power of the
anchor point given by the order vector. For the order vectors `(1, …, 1), (2, …, 2), …` a linear system gives the values of the homogeneous parts that are not known; the values of a part
for as many order vectors as it has unknown coefficients give these coefficients (`solve_vandermonde_system`).

Simplifications: as in `Model/RatMulti.lean`.
-/
namespace FireFly.RLater
variable {F : Type} [Field F] [DecidableEq F]

/-- What does not change in a prime field: the number of variables, `private_anchor_points`, the comparison of the pivot search, the known coefficients `g_ni`, `g_di` in this field (source/RatReconst.cpp
3407-3425), and the guesses of `rec_rat_coef` in this field, if there are any (2066-2070). -/
structure Cfg (F : Type) where
  n : ℕ
  anchor : List F
  gt : F → F → Bool
  known : FFMap F × FFMap F
  guess : Option (FFMap F × FFMap F)

/-- `non_solved_degs_num`, `coef_mat_num`, `solved_degs_num` (the same for the denominator); the keys are `[degree]`. -/
structure Side (F : Type) where
  unsolved : FFMap (List (List ℕ)) := []
  mat : FFMap (List F) := []
  solved : FFMap (FFMap F) := []

/-- How the work in this prime field ends. -/
inductive Out (F : Type) where
  /-- `done`: the guess passed the test -/
  | accepted
  /-- `combine_primes` is called -/
  | solved (num den : FFMap F)

/-- The members that change. -/
structure St (F : Type) where
  num : Side F
  den : Side F
  ord : List ℕ
  numEqn : ℕ
  newPrime : Bool := true
  rows : List (List F) := []
  subNum : FFMap F := []
  subDen : FFMap F := []
  savedTi : FFMap (List (F × F)) := []
  out : Option (Out F) := none

/-- The start in a new prime field: `coef_mat_num`, `num_eqn` (source/RatReconst.cpp 1696-1707), `curr_zi_order` (1194). -/
def Cfg.init (c : Cfg F) (num den : FFMap (List (List ℕ))) : St F :=
  { num := { unsolved := num, mat := num.map (fun t => (t.1, [])) }, den := { unsolved := den, mat := den.map (fun t => (t.1, [])) }
    ord := List.replicate (c.n - 1) 1, numEqn := num.length + den.length }

/-- `get_rand_zi_vec` (source/RatReconst.cpp 2360-2368) -/
def Cfg.point (c : Cfg F) (ord : List ℕ) : List F := (List.range (c.n - 1)).map (fun i => c.anchor.getD i 0 ^ ord.getD i 0)

/-- `test_guess` (source/RatReconst.cpp 2066-2084) without shift -/
def Cfg.testGuess (c : Cfg F) (g : FFMap F × FFMap F) (ord : List ℕ) (t v : F) : Option Bool := do
  let ys := t :: (c.point ord).map (fun y => t * y)
  let a ← PolyFF.calc c.n g.1 ys
  let b ← PolyFF.calc c.n g.2 ys
  some (decide (a / b = v))

/-- The known coefficients by degree, with the constant (source/RatReconst.cpp 3408-3456). -/
def Cfg.group (c : Cfg F) (g : FFMap F) : FFMap (FFMap F) :=
  let tmp := g.foldl (fun (m : FFMap F) el => m.set el.1 el.2) [(List.replicate c.n 0, 0)]
  tmp.foldl (fun (r : FFMap (FFMap F)) el =>
    if PolyFF.zero (RMulti.polyAt r el.1.sum) then r.set [el.1.sum] [el] else r.set [el.1.sum] ((RMulti.polyAt r el.1.sum).emplace el.1 el.2)) []

/-- `check_if_done` (source/RatReconst.cpp 3340-3457): the state, `out` is set if the guess passes the test. -/
def Cfg.checkIfDone (c : Cfg F) (s : St F) (t v : F) : Option (St F) := do
  let ok ← match c.guess with
    | some g => c.testGuess g s.ord t v
    | none => some false
  if ok then some { s with newPrime := false, ord := [], out := some .accepted }
  else some { s with newPrime := false, num := { s.num with solved := c.group c.known.1 }, den := { s.den with solved := c.group c.known.2 } }

/-- `num_sub_num` (source/RatReconst.cpp 2232-2239) -/
def Cfg.subVals (c : Cfg F) (s : Side F) (ys : List F) : Option (FFMap F) :=
  s.solved.mapM (fun t => do some (t.1, ← PolyFF.calcNM1 c.n t.2 ys))

/-- `build_homogenized_multi_gauss` (source/RatReconst.cpp 2216-2282) -/
def Cfg.addRow (c : Cfg F) (s : St F) (t v : F) : Option (St F) := do
  let s ← if s.rows = [] then do
      let a ← c.subVals s.num (c.point s.ord)
      let b ← c.subVals s.den (c.point s.ord)
      some { s with subNum := a, subDen := b }
    else some s
  let res := s.subDen.foldl (fun (res : F) el => res + el.2 * t ^ el.1.getD 0 0 * v) (s.subNum.foldl (fun (res : F) el => res - el.2 * t ^ el.1.getD 0 0) 0)
  some { s with rows := s.rows ++ [s.num.unsolved.map (fun el => t ^ el.1.getD 0 0) ++ s.den.unsolved.map (fun el => -v * t ^ el.1.getD 0 0) ++ [res]] }

/-- The loop over the probes of this order vector (source/RatReconst.cpp 371-397): the state and `check`. -/
def Cfg.addRows (c : Cfg F) : St F → List (F × F) → Option (St F × Bool)
  | s, [] => some (s, false)
  | s, q :: rest => do
    let s ← c.addRow s q.1 q.2
    if s.numEqn = s.rows.length then some (s, true) else c.addRows s rest

/-- `solve_homogenized_multi_gauss` (source/RatReconst.cpp 2032-2055); `none`: the error of a singular system -/
def Cfg.solve (c : Cfg F) (s : St F) : Option (FFMap F × FFMap F) :=
  (solveGauss c.gt s.numEqn (fun i j => (s.rows.getD i []).getD j 0) false).map (fun x =>
    (s.num.unsolved.mapIdx (fun i el => (el.1, x i)), s.den.unsolved.mapIdx (fun i el => (el.1, x (s.num.unsolved.length + i)))))

/-- The body of the loops over `canonical.first`, `canonical.second` (source/RatReconst.cpp 881-896, 898-913). -/
def Cfg.absorbOne (c : Cfg F) (s : Side F) (sol : List ℕ × F) : Option (Side F) := do
  let degs := (s.unsolved.find? sol.1).getD []
  let m := (s.mat.find? sol.1).getD []
  let m := if m.length < degs.length then m ++ [sol.2] else m
  if m.length = degs.length then
    let v ← solveVandermondeSystem degs m c.anchor
    let old := (s.solved.find? sol.1).getD []
    some { unsolved := s.unsolved.erase sol.1, mat := s.mat.erase sol.1
           solved := s.solved.set sol.1 (if PolyFF.zero old then v else PolyFF.addAssign old v) }
  else some { s with mat := s.mat.set sol.1 m }

/-- The loops over the solution of a system (source/RatReconst.cpp 878-914). -/
def Cfg.absorb (c : Cfg F) (s : Side F) (sols : FFMap F) : Option (Side F) := sols.foldlM c.absorbOne s

/-- The sum of the parts (source/RatReconst.cpp 1176-1194) for a vanishing `solved_num`: the constant is removed if it is zero. -/
def Cfg.collect (c : Cfg F) (s : Side F) : FFMap F :=
  let r := s.solved.foldl (fun (m : FFMap F) el => PolyFF.addAssign m el.2) [(List.replicate c.n 0, 0)]
  if r.find? (List.replicate c.n 0) = some 0 then r.erase (List.replicate c.n 0) else r

/-- A system has been solved (source/RatReconst.cpp 876-914, 1102, 1176-1219). -/
def Cfg.handle (c : Cfg F) (s : St F) (vals : FFMap F × FFMap F) : Option (St F) := do
  let num ← c.absorb s.num vals.1
  let den ← c.absorb s.den vals.2
  let s := { s with num := num, den := den }
  if num.mat = [] ∧ den.mat = [] then
    some { s with out := some (.solved (c.collect num) (c.collect den)), savedTi := [], ord := List.replicate (c.n - 1) 1 }
  else some { s with savedTi := s.savedTi.erase s.ord, ord := s.ord.map (· + 1), numEqn := num.unsolved.length + den.unsolved.length }

/-- The part of `interpolate(new_ti, num, fed_zi_ord)` after the check (source/RatReconst.cpp 355-397, 526-529, 876-1219). -/
def Cfg.work (c : Cfg F) (s : St F) (t v : F) : Option (St F) := do
  let food := (s.savedTi.find? s.ord).getD [] ++ [(t, v)]
  let r ← c.addRows { s with savedTi := s.savedTi.erase s.ord } food
  if r.2 then
    let x ← c.solve r.1
    c.handle { r.1 with rows := [], subNum := [], subDen := [] } x
  else some r.1

/-- `interpolate(new_ti, num, fed_zi_ord)` (source/RatReconst.cpp 337-1238). Probes after the end are ignored: the object is done, or the queue is emptied by `combine_primes` (1782). -/
def Cfg.probe (c : Cfg F) (s : St F) (t v : F) (ord : List ℕ) : Option (St F) := do
  if s.out.isSome then some s
  else if ord = s.ord then
    let s ← if s.newPrime then c.checkIfDone s t v else some s
    if s.out.isSome then some s else c.work s t v
  else some { s with savedTi := s.savedTi.set ord ((s.savedTi.find? ord).getD [] ++ [(t, v)]) }

/-- The loop over saved probes of the new order vector (source/RatReconst.cpp 318-328). `none`: `front()` of an empty queue, or more iterations than there are entries. -/
def Cfg.drain (c : Cfg F) : ℕ → St F → Option (St F)
  | k, s =>
    match s.savedTi.find? s.ord with
    | none => some s
    | some [] => none
    | some (q :: rest) =>
      match k with
      | 0 => none
      | k + 1 => do
        let s' ← c.probe { s with savedTi := s.savedTi.set s.ord rest } q.1 q.2 s.ord
        c.drain k s'

/-- One probe from the queue (source/RatReconst.cpp 309-331). -/
def Cfg.feed (c : Cfg F) (s : St F) (q : F × F × List ℕ) : Option (St F) := do
  let s ← c.probe s q.1 q.2.1 q.2.2
  c.drain s.savedTi.length s

/-- Any sequence of probes `(t, value, order vector)`. -/
def Cfg.feedAll (c : Cfg F) (s : St F) (probes : List (F × F × List ℕ)) : Option (St F) := probes.foldlM c.feed s

end FireFly.RLater
