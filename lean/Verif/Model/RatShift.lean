import Verif.Model.RatMulti
import Verif.Model.RatLater
import Verif.Model.Vandermonde
/-!
# The interpolation of a rational function in several variables in a further prime field, with a shift (source/RatReconst.cpp 337-397, 526-529, 914-1236, 2032-2055, 2066-2084, 2216-2282, 3158-3322, 3340-3405)

The counterpart of `Model/RatLater.lean` for `is_singular_system`: the probes are taken with a shift of the variables. All monomials are known from the first prime field, those of the numerator and the denominator
and those which the shift produces. All coefficients are determined again, also those which are known as rational numbers, because the function is normalized to the constant of the shifted numerator or denominator.
For the order vectors `(1, …, 1), (2, …, 2), …` a linear system gives the values of the homogeneous parts of the shifted polynomials. A part with few monomials is solved with its shift (`dense_solve_degs`); the other
parts are solved at once, from the highest degree on, when there are as many values as the part with most monomials has coefficients: then the contributions of the higher degrees are known and are subtracted.

Simplifications: as in `Model/RatMulti.lean`. Of the subtraction terms of the previous prime field (`sub_num` at the entry of `set_singular_system_vars`) only the monomials with a nonvanishing coefficient matter; they are an argument.
-/
namespace FireFly.RShift
variable {F : Type} [Field F] [DecidableEq F]

/-- What is known of the numerator or the denominator when `set_singular_system_vars` is called: `non_solved_degs_num`, the exponents of `g_ni`, the exponents of `sub_num` with nonvanishing coefficients by degree, `zero_degs_num`,
`max_deg_num`. -/
structure Prior where
  unknown : FFMap (List (List ℕ))
  known : List (List ℕ)
  shifts : ℕ → List (List ℕ)
  zeros : List ℕ
  maxDeg : ℕ

/-- What does not change in a prime field: the number of variables, `shift`, `private_anchor_points`, the comparison of the pivot search, `normalize_to_den`, `normalizer_den_num`, `normalizer_deg`, `shifted_max_num_eqn`, the data of
numerator and denominator, and the guesses of `rec_rat_coef` in this field, if there are any (2066-2070). -/
structure Cfg (F : Type) where
  n : ℕ
  shift : List F
  anchor : List F
  gt : F → F → Bool
  normDen : Bool
  normalizerDen : Bool
  normalizerDeg : List ℕ
  maxEqn : ℕ
  num : Prior
  den : Prior
  guess : Option (FFMap F × FFMap F)

/-- The settings for `calculate_shift_polynomials`. -/
def Cfg.multi (c : Cfg F) : RMulti.Cfg F := { n := c.n, shift := c.shift, anchor := c.anchor, normDen := c.normDen, gt := c.gt, fuel := 0 }

/-- `non_solved_degs_num`, `coef_mat_num`, `solved_degs_num`, `sub_num`, `dense_solve_degs_num`, `tmp_solved_coefs_num`, `max_num_coef_num` (the same for the denominator); the keys are `[degree]`. -/
structure Side (F : Type) where
  unsolved : FFMap (List (List ℕ)) := []
  mat : FFMap (List F) := []
  solved : FFMap (FFMap F) := []
  sub : FFMap (FFMap F) := []
  dense : List ℕ := []
  count : ℕ := 0
  most : ℕ × ℕ := (0, 0)

/-- How the work in this prime field ends. -/
inductive Out (F : Type) where
  /-- `done`: the guess passed the test -/
  | accepted
  /-- `combine_primes` is called -/
  | solved (num den : FFMap F)

/-- The members that change. -/
structure St (F : Type) where
  num : Side F
  den : Side F
  ord : List ℕ
  numEqn : ℕ
  newPrime : Bool := true
  rows : List (List F) := []
  subNum : FFMap F := []
  subDen : FFMap F := []
  savedTi : FFMap (List (F × F)) := []
  out : Option (Out F) := none

/-- `add_non_solved_num` for the known monomials (source/RatReconst.cpp 3163-3175, 2326-2332); `const` is set for the polynomial with the normalized constant: the constant is not asked. -/
def allTerms (n : ℕ) (const : Bool) (p : Prior) : FFMap (List (List ℕ)) :=
  p.known.foldl (fun (m : FFMap (List (List ℕ))) e => if const = true ∧ e = List.replicate n 0 then m else m.set [e.sum] ((m.find? [e.sum]).getD [] ++ [e])) p.unknown

/-- `max_num_coef_num` (source/RatReconst.cpp 3177-3191): the degree with most monomials, and their number -/
def mostTerms (m : FFMap (List (List ℕ))) : ℕ × ℕ :=
  m.foldl (fun (b : ℕ × ℕ) el => if b.2 < el.2.length ∨ (el.2.length = b.2 ∧ b.1 < el.1.getD 0 0) then (el.1.getD 0 0, el.2.length) else b) (0, 0)

/-- The body of the loop over `sub_num` (source/RatReconst.cpp 3207-3255): whether the part of degree `i` is solved with its shift. -/
def setDeg (n : ℕ) (const : Bool) (p : Prior) (s : Side F) (i : ℕ) : Side F :=
  if i = s.most.1 then s
  else
    match s.unsolved.find? [i] with
    | some l =>
      let tmp := l ++ (p.shifts i).filter (fun e => decide (e ∉ l ∧ e ≠ List.replicate n 0))
      if 0 < tmp.length ∧ tmp.length < s.most.2 then { s with dense := s.dense ++ [i], unsolved := s.unsolved.set [i] tmp } else s
    | none =>
      if (const = true ∧ i = 0) ∨ p.shifts i = [] then s
      else if (p.shifts i).length < s.most.2 then
        { s with dense := s.dense ++ [i], unsolved := s.unsolved.set [i] (if i ≠ 0 then (p.shifts i).filter (fun e => decide (e ≠ List.replicate n 0)) else p.shifts i), mat := s.mat.set [i] [] }
      else { s with unsolved := s.unsolved.set [i] [List.replicate n 0] }

/-- `sub_num` is set to zero (source/RatReconst.cpp 3310-3316, 3377-3387) -/
def zeroSub (n m : ℕ) : FFMap (FFMap F) := (List.range (m + 1)).map (fun i => ([i], [(List.replicate n 0, 0)]))

/-- `set_singular_system_vars` (source/RatReconst.cpp 3158-3322) for the numerator or the denominator -/
def setSide (n : ℕ) (const : Bool) (p : Prior) : Side F :=
  let all := allTerms n const p
  let s := (List.range (p.maxDeg + 1)).foldl (setDeg n const p) { unsolved := all, mat := all.map (fun t => (t.1, [])), most := mostTerms all }
  { s with sub := zeroSub n p.maxDeg }

/-- The start in a new prime field: `set_singular_system_vars`, `num_eqn` (source/RatReconst.cpp 1685-1695, 3318-3321), `curr_zi_order` (1207). -/
def Cfg.init (c : Cfg F) : St F :=
  { num := setSide c.n (!c.normDen) c.num, den := setSide c.n c.normDen c.den, ord := List.replicate (c.n - 1) 1, numEqn := c.maxEqn }

/-- `get_rand_zi_vec` (source/RatReconst.cpp 2360-2368) -/
def Cfg.point (c : Cfg F) (ord : List ℕ) : List F := c.multi.point ord

/-- `test_guess` (source/RatReconst.cpp 2066-2084) -/
def Cfg.testGuess (c : Cfg F) (g : FFMap F × FFMap F) (ord : List ℕ) (t v : F) : Option Bool := do
  let ys := (t + c.shift.getD 0 0) :: (c.point ord).mapIdx (fun i y => t * y + c.shift.getD (i + 1) 0)
  let a ← PolyFF.calc c.n g.1 ys
  let b ← PolyFF.calc c.n g.2 ys
  some (decide (a / b = v))

/-- `check_if_done` (source/RatReconst.cpp 3340-3405): the state, `out` is set if the guess passes the test. -/
def Cfg.checkIfDone (c : Cfg F) (s : St F) (t v : F) : Option (St F) := do
  let ok ← match c.guess with
    | some g => c.testGuess g s.ord t v
    | none => some false
  if ok then some { s with newPrime := false, ord := [], out := some .accepted }
  else some { s with newPrime := false, num := { s.num with solved := [], sub := zeroSub c.n c.num.maxDeg }, den := { s.den with solved := [], sub := zeroSub c.n c.den.maxDeg } }

/-- `num_sub_num` (source/RatReconst.cpp 2250-2268): the values of the solved parts, with their shift -/
def Cfg.subVals (c : Cfg F) (s : Side F) (ys : List F) : Option (FFMap F) :=
  s.solved.mapM (fun t => do
    let a ← PolyFF.calcNM1 c.n t.2 ys
    if s.dense.contains (t.1.getD 0 0) then some (t.1, a)
    else
      let b ← PolyFF.calcNM1 c.n (RMulti.polyAt s.sub (t.1.getD 0 0)) ys
      some (t.1, a + b))

/-- `build_homogenized_multi_gauss` (source/RatReconst.cpp 2216-2282) -/
def Cfg.addRow (c : Cfg F) (s : St F) (t v : F) : Option (St F) := do
  let s ← if s.rows = [] then do
      let a ← c.subVals s.num (c.point s.ord)
      let b ← c.subVals s.den (c.point s.ord)
      some { s with subNum := a, subDen := b }
    else some s
  let res := s.subDen.foldl (fun (res : F) el => res + el.2 * t ^ el.1.getD 0 0 * v)
    (s.subNum.foldl (fun (res : F) el => res - el.2 * t ^ el.1.getD 0 0) (if c.normDen then v else -1))
  some { s with rows := s.rows ++ [s.num.unsolved.map (fun el => t ^ el.1.getD 0 0) ++ s.den.unsolved.map (fun el => -v * t ^ el.1.getD 0 0) ++ [res]] }

/-- The loop over the probes of this order vector (source/RatReconst.cpp 371-397): the state and `check`. -/
def Cfg.addRows (c : Cfg F) : St F → List (F × F) → Option (St F × Bool)
  | s, [] => some (s, false)
  | s, q :: rest => do
    let s ← c.addRow s q.1 q.2
    if s.numEqn = s.rows.length then some (s, true) else c.addRows s rest

/-- `solve_homogenized_multi_gauss` (source/RatReconst.cpp 2032-2055); `none`: the error of a singular system -/
def Cfg.solve (c : Cfg F) (s : St F) : Option (FFMap F × FFMap F) :=
  (solveGauss c.gt s.numEqn (fun i j => (s.rows.getD i []).getD j 0) false).map (fun x =>
    (s.num.unsolved.mapIdx (fun i el => (el.1, x i)), s.den.unsolved.mapIdx (fun i el => (el.1, x (s.num.unsolved.length + i)))))

/-- The first loop over the solution (source/RatReconst.cpp 915-920, 1009-1014): the values are stored; `operator[]` creates an entry. -/
def store (s : Side F) (sol : List ℕ × F) : Side F :=
  let m := (s.mat.find? sol.1).getD []
  { s with mat := s.mat.set sol.1 (if m.length < ((s.unsolved.find? sol.1).getD []).length then m ++ [sol.2] else m) }

/-- A degree is finished. -/
def close (s : Side F) (i : ℕ) (p : FFMap F) : Side F :=
  { s with solved := s.solved.set [i] p, unsolved := s.unsolved.erase [i], mat := s.mat.erase [i], count := s.count + 1 }

/-- The contributions of the polynomial `p` of degree `i` to the lower degrees are added to the subtraction terms (source/RatReconst.cpp 959-962, 967-970). -/
def Cfg.addShift (c : Cfg F) (s : Side F) (p : FFMap F) (i : ℕ) : Option (Side F) := do
  let m ← c.multi.shiftPolys p i
  some { s with sub := RMulti.addShifts s.sub m }

/-- The values without the shift (source/RatReconst.cpp 944-949) -/
def Cfg.unshiftVals (c : Cfg F) (s : Side F) (i : ℕ) (vals : List F) : Option (List F) :=
  (vals.zipIdx).mapM (fun v => do some (v.1 - (← PolyFF.calcNM1 c.n (RMulti.polyAt s.sub i) (c.point (List.replicate (c.n - 1) (v.2 + 1))))))

/-- The body of the loop over the degrees `i > 0` (source/RatReconst.cpp 933-975, 1025-1063). -/
def Cfg.passDeg (c : Cfg F) (p : Prior) (s : Side F) (i : ℕ) : Option (Side F) :=
  match s.mat.find? [i] with
  | some vals =>
    if p.zeros.contains i then some (close s i [(List.replicate c.n 0, 0)])
    else do
      let vals ← if i < p.maxDeg then c.unshiftVals s i vals else some vals
      let v ← solveVandermondeSystem ((s.unsolved.find? [i]).getD []) vals c.anchor
      c.addShift (close s i v) v i
  | none =>
    if (s.solved.find? [i]).isSome ∧ ¬ p.zeros.contains i then
      c.addShift s (PolyFF.subAssign (RMulti.polyAt s.solved i) (RMulti.polyAt s.sub i)) i
    else if i ≠ p.maxDeg ∧ ¬ PolyFF.zero (RMulti.polyAt s.sub i) ∧ (s.solved.find? [i]).isNone then
      some { s with solved := s.solved.set [i] (RMulti.polyAt s.sub i), unsolved := s.unsolved.erase [i], count := s.count + 1 }
    else some s

/-- Degree zero (source/RatReconst.cpp 977-999, 1065-1087). -/
def Cfg.passZero (c : Cfg F) (p : Prior) (s : Side F) : Option (Side F) :=
  match s.mat.find? [0] with
  | some vals =>
    if p.zeros.contains 0 then some (close s 0 [(List.replicate c.n 0, 0)])
    else do
      let b ← if 0 < p.maxDeg then PolyFF.calcNM1 c.n (RMulti.polyAt s.sub 0) (List.replicate (c.n - 1) 0) else some 0
      let v ← solveVandermondeSystem ((s.unsolved.find? [0]).getD []) (vals.set 0 (vals.getD 0 0 - b)) c.anchor
      some (close s 0 v)
  | none => some s

/-- All degrees are solved, from the highest one on (source/RatReconst.cpp 931-1001 for the numerator, 1024-1091 for the denominator, where degree zero is handled inside the loop). -/
def Cfg.pass (c : Cfg F) (p : Prior) (isDen : Bool) (s : Side F) : Option (Side F) := do
  let degs := (List.range' 1 p.maxDeg).reverse
  if isDen then degs.foldlM (fun s i => do c.passZero p (← c.passDeg p s i)) s
  else c.passZero p (← degs.foldlM (c.passDeg p) s)

/-- The second loop over the solution (source/RatReconst.cpp 922-1007, 1016-1099). -/
def Cfg.solveLoop (c : Cfg F) (p : Prior) (isDen : Bool) : List (List ℕ × F) → Side F → Option (Side F)
  | [], s => some s
  | sol :: rest, s => do
    let key := sol.1.getD 0 0
    let m := (s.mat.find? sol.1).getD []
    let degs := (s.unsolved.find? sol.1).getD []
    if (s.dense.contains key ∨ key = s.most.1) ∧ m.length = degs.length then
      if key = s.most.1 then c.pass p isDen s
      else
        let v ← solveVandermondeSystem degs m c.anchor
        c.solveLoop p isDen rest (close s key v)
    else c.solveLoop p isDen rest s

/-- The loops over the solution of a system (source/RatReconst.cpp 914-1100). -/
def Cfg.absorb (c : Cfg F) (p : Prior) (isDen : Bool) (s : Side F) (sols : FFMap F) : Option (Side F) := c.solveLoop p isDen sols (sols.foldl store s)

/-- The sum of the parts without shift (source/RatReconst.cpp 1107-1153) -/
def Cfg.collect (c : Cfg F) (p : Prior) (s : Side F) : FFMap F :=
  s.solved.foldl (fun (m : FFMap F) el =>
    if p.zeros.contains (el.1.getD 0 0) then m
    else PolyFF.addAssign m (if s.dense.contains (el.1.getD 0 0) then PolyFF.sub el.2 (RMulti.polyAt s.sub (el.1.getD 0 0)) else el.2)) [(List.replicate c.n 0, 0)]

/-- The known coefficients are removed, the others are normalized, the constant is removed if it is zero (source/RatReconst.cpp 1175-1184, 1195-1204). -/
def Cfg.normalize (c : Cfg F) (p : Prior) (m : FFMap F) (equalizer : F) : FFMap F :=
  let r := PolyFF.scale (p.known.foldl (fun (m : FFMap F) e => m.erase e) m) equalizer
  if r.find? (List.replicate c.n 0) = some 0 then r.erase (List.replicate c.n 0) else r

/-- The coefficient that becomes one (source/RatReconst.cpp 1155-1173) -/
def Cfg.terminator (c : Cfg F) (s : St F) (num den : FFMap F) : F :=
  let z := List.replicate c.n 0
  let constDen := ((RMulti.polyAt (if c.normDen then s.den else s.num).sub 0).find? z).getD 0
  if c.normalizerDen = c.normDen ∧ c.normalizerDeg = z then (if constDen ≠ 1 then 1 - constDen else 1)
  else ((if c.normalizerDen then den else num).find? c.normalizerDeg).getD 0

/-- A system has been solved (source/RatReconst.cpp 914-1231). -/
def Cfg.handle (c : Cfg F) (s : St F) (vals : FFMap F × FFMap F) : Option (St F) := do
  let num ← c.absorb c.num false s.num vals.1
  let den ← c.absorb c.den true s.den vals.2
  let s := { s with num := num, den := den }
  if num.mat = [] ∧ den.mat = [] then
    let N := c.collect c.num num
    let D := c.collect c.den den
    let e := 1 / c.terminator s N D
    some { s with out := some (.solved (c.normalize c.num N e) (c.normalize c.den D e)), savedTi := [], ord := List.replicate (c.n - 1) 1 }
  else some { s with savedTi := s.savedTi.erase s.ord, ord := s.ord.map (· + 1), numEqn := c.maxEqn - num.count - den.count }

/-- The part of `interpolate(new_ti, num, fed_zi_ord)` after the check (source/RatReconst.cpp 355-397, 526-529, 914-1231). -/
def Cfg.work (c : Cfg F) (s : St F) (t v : F) : Option (St F) := do
  let food := (s.savedTi.find? s.ord).getD [] ++ [(t, v)]
  let r ← c.addRows { s with savedTi := s.savedTi.erase s.ord } food
  if r.2 then
    let x ← c.solve r.1
    c.handle { r.1 with rows := [], subNum := [], subDen := [] } x
  else some r.1

/-- `interpolate(new_ti, num, fed_zi_ord)` (source/RatReconst.cpp 337-1250). Probes after the end are ignored: the object is done, or the queue is emptied by `combine_primes` (1750). -/
def Cfg.probe (c : Cfg F) (s : St F) (t v : F) (ord : List ℕ) : Option (St F) := do
  if s.out.isSome then some s
  else if ord = s.ord then
    let s ← if s.newPrime then c.checkIfDone s t v else some s
    if s.out.isSome then some s else c.work s t v
  else some { s with savedTi := s.savedTi.set ord ((s.savedTi.find? ord).getD [] ++ [(t, v)]) }

/-- The loop over saved probes of the new order vector (source/RatReconst.cpp 318-328). `none`: `front()` of an empty queue, or more iterations than there are entries. -/
def Cfg.drain (c : Cfg F) : ℕ → St F → Option (St F)
  | k, s =>
    match s.savedTi.find? s.ord with
    | none => some s
    | some [] => none
    | some (q :: rest) =>
      match k with
      | 0 => none
      | k + 1 => do
        let s' ← c.probe { s with savedTi := s.savedTi.set s.ord rest } q.1 q.2 s.ord
        c.drain k s'

/-- One probe from the queue (source/RatReconst.cpp 309-331). -/
def Cfg.feed (c : Cfg F) (s : St F) (q : F × F × List ℕ) : Option (St F) := do
  let s ← c.probe s q.1 q.2.1 q.2.2
  c.drain s.savedTi.length s

/-- Any sequence of probes `(t, value, order vector)`. -/
def Cfg.feedAll (c : Cfg F) (s : St F) (probes : List (F × F × List ℕ)) : Option (St F) := probes.foldlM c.feed s

end FireFly.RShift
