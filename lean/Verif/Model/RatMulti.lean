import Verif.Model.MultiPoly
import Verif.Model.Thiele
import Verif.Model.DenseSolver
import Verif.Model.Utils
/-!
# The interpolation of a rational function in several variables (`RatReconst`, source/RatReconst.cpp 298-760, 1250-1365, 2007-2030, 2167-2214, 2444-2473)

One prime field, the first one (`prime_number == zero_counter`), `n > 1`, no scan of shifts and no factor scan (`scan`, `skip_thiele` are false): from the first probe to
the call of `combine_primes`. A probe consists of the value `t` of the homogenization variable, the order vector and the value of the black box at
`z_1 = t + s_1`, `z_i = t y_i + s_i` with `y_i` the power of the anchor point given by the order vector and the shift `s`.

The degrees of the univariate function in `t` are found by Thiele's method. Then for each order vector the coefficients of the powers of `t` are computed from a linear
system; for each power of `t` the coefficients at the different order vectors are interpolated by a `PolyReconst` object. The shift is removed degree by degree,
from the highest degree on.

Simplifications: mutexes and files are left out; `uint32_t` counters are natural numbers. Hash maps are association lists; those with a number as key have the key `[k]`. The Horner
form of `calc_n_m_1` for more than 50 terms is replaced by the direct evaluation. `vandermonde_size` only serves the scheduling of probes and is
left out.
-/
namespace FireFly.RMulti
variable {F : Type} [Field F] [DecidableEq F]

/-- What does not change (source/include/firefly/RatReconst.hpp 340-470): number of variables, `shift`, `private_anchor_points`, `PolyReconst::use_bt`, `bt_threshold`, the individual
degree bounds of the variables `2, …, n` in the numerator and the denominator, `normalize_to_den`, the comparison used in the search of the pivot. `fuel` limits
the model of the loop of `feed_poly`: `none` if the loop runs more often. -/
structure Cfg (F : Type) where
  n : ℕ
  shift : List F
  anchor : List F
  bt : Bool := true
  thr : ℕ := 1
  boundsNum : Option (List ℕ) := none
  boundsDen : Option (List ℕ) := none
  normDen : Bool := true
  gt : F → F → Bool
  fuel : ℕ

/-- The members that exist for the numerator and for the denominator: `coef_n`, `dense_solve_degs_num`, `solved_degs_num`, `sub_num`, `saved_num_num` (the key `(deg, zi)` is put in
front of the order vector), `restart_sparse_interpolation_num`, `tmp_solved_coefs_num`, `max_deg_num`. -/
structure Side (F : Type) where
  coefs : List (ℕ × MPoly.St F) := []
  dense : List ℕ := []
  solved : FFMap (FFMap F) := []
  sub : FFMap (FFMap F) := []
  saved : FFMap F := []
  restart : Bool := false
  count : ℕ := 0
  maxDeg : ℕ := 0

/-- The arguments of `combine_primes`, `normalizer_den_num`, `normalizer_deg`, `is_singular_system`. -/
structure Result (F : Type) where
  num : FFMap F
  den : FFMap F
  normDen : Bool
  normDeg : List ℕ
  singular : Bool

/-- The members that change. `known` is `max_deg_num != -1`. -/
structure St (F : Type) where
  thiele : Thiele F := {}
  known : Bool := false
  num : Side F := {}
  den : Side F := {}
  zi : ℕ := 1
  ord : List ℕ
  numEqn : ℕ := 1
  rows : List (List F) := []
  subNum : FFMap F := []
  subDen : FFMap F := []
  savedTi : FFMap (List (F × F)) := []
  result : Option (Result F) := none

/-- The constructor (source/RatReconst.cpp 41-84). -/
def Cfg.init (c : Cfg F) : St F := { ord := List.replicate (c.n - 1) 1 }

/-- `shift != std::vector<FFInt>(n)` -/
def Cfg.hasShift (c : Cfg F) : Bool := decide (c.shift ≠ List.replicate c.n 0)

/-- The constructor call `PolyReconst(n - 1, deg, true)` and `set_individual_degree_bounds` (source/RatReconst.cpp 554-559, 578-583); Newton's method is always
used (source/include/firefly/PolyReconst.hpp 221). -/
def Cfg.poly (c : Cfg F) (bounds : Option (List ℕ)) (deg : ℕ) : MPoly.Cfg F :=
  { n := c.n - 1, deg := some deg, bounds := bounds, anchor := c.anchor, newton := true, bt := c.bt, thr := c.thr }

/-- `get_rand_zi_vec` (source/RatReconst.cpp 2360-2368) -/
def Cfg.point (c : Cfg F) (ord : List ℕ) : List F := (List.range (c.n - 1)).map (fun i => c.anchor.getD i 0 ^ ord.getD i 0)

/-- access to a map of polynomials by `operator[]` -/
def polyAt (m : FFMap (FFMap F)) (k : ℕ) : FFMap F := (m.find? [k]).getD []

/-- The zero polynomial `PolynomialFF(n, {{std::vector<uint32_t>(n), 0}})`. -/
def Cfg.zeroPoly (c : Cfg F) : FFMap F := [(List.replicate c.n 0, 0)]

/-- `calculate_shift_polynomials` (source/RatReconst.cpp 2444-2473) -/
def Cfg.shiftPolys (c : Cfg F) (poly : FFMap F) (deg : ℕ) : Option (FFMap (FFMap F)) := do
  let p ← PolyFF.addShift c.n poly c.shift
  some (p.foldl (fun (res : FFMap (FFMap F)) el =>
    if el.1.sum < deg ∧ el.2 ≠ 0 then res.set [el.1.sum] (PolyFF.addAssign (polyAt res el.1.sum) [el]) else res)
    ((List.range deg).map (fun i => ([i], c.zeroPoly))))

/-- The loop `sub_num[tmp_shift.first] += tmp_shift.second` (source/RatReconst.cpp 1292-1294). -/
def addShifts (sub m : FFMap (FFMap F)) : FFMap (FFMap F) :=
  m.foldl (fun (sub : FFMap (FFMap F)) t => sub.set t.1 (PolyFF.addAssign ((sub.find? t.1).getD []) t.2)) sub

/-- The shift polynomials of a solved degree are added to the subtraction terms. -/
def Cfg.addSub (c : Cfg F) (s : Side F) (k : ℕ) : Option (Side F) := do
  let m ← c.shiftPolys (polyAt s.solved k) k
  some { s with sub := addShifts s.sub m }

/-- The subtraction terms are subtracted from a solved degree (`solved_degs_num[k] -= sub_num[k]`). -/
def subtract (s : Side F) (k : ℕ) : Side F :=
  { s with solved := s.solved.set [k] (PolyFF.subAssign (polyAt s.solved k) (polyAt s.sub k)) }

/-- The loop of `feed_poly` (source/RatReconst.cpp 1256-1286): saved values are fed until the polynomial is known or a value is missing. -/
def Cfg.feedLoop (c : Cfg F) (pc : MPoly.Cfg F) (s : Side F) (k : ℕ) (sparse : Bool) : ℕ → MPoly.St F → Option (MPoly.St F × Bool)
  | 0, _ => none
  | fuel + 1, st => do
    if st.result.isSome then some (st, true)
    else
      match s.saved.find? (k :: (st.zi + 1) :: st.ord) with
      | none => some (st, false)
      | some food =>
        let sub ← if sparse && c.hasShift then PolyFF.calcNM1 c.n (polyAt s.sub k) (c.point st.ord) else some 0
        let st' ← pc.interpolate st (food - sub) st.ord
        c.feedLoop pc s k sparse fuel st'

/-- The degrees between the one just solved and the next one that is open (source/RatReconst.cpp 1305-1317): those which are solved lose their shift. -/
def Cfg.between (c : Cfg F) (s : Side F) (degs : List ℕ) : Option (Side F) :=
  degs.foldlM (fun s d => if (s.solved.find? [d]).isSome then c.addSub { subtract s d with dense := s.dense.filter (· ≠ d) } d else some s) s

/-- The end of `feed_poly` (source/RatReconst.cpp 1288-1357) when the polynomial of degree `k` is known. -/
def Cfg.polyDone (c : Cfg F) (s : Side F) (k : ℕ) (pol : FFMap F) : Option (Side F) := do
  let s := { s with solved := s.solved.set [k] pol, count := s.count + 1 }
  if c.hasShift && (s.coefs.headD (0, { ord := [], ais := [] })).1 == k then
    let s ← c.addSub s k
    let s := { s with dense := s.dense.filter (· ≠ k) }
    match s.coefs with
    | _ :: (d, _) :: _ =>
      c.between { s with dense := s.dense.filter (· ≠ d), restart := true } ((List.range' (d + 1) (k - 1 - d)).reverse)
    | _ => some s
  else some s

/-- The loop over `coef_n` (source/RatReconst.cpp 615-637, 639-661); the list is `before` and the remaining elements. After the removal of the first element the iterator is decremented
beyond the beginning of the list (undefined); the model continues with the next element, as intended. -/
def Cfg.pass (c : Cfg F) (bounds : Option (List ℕ)) (ord : List ℕ) : List (ℕ × MPoly.St F) → List (ℕ × MPoly.St F) → Side F → Option (Side F)
  | _, [], s => some s
  | before, (k, st) :: rest, s => do
    if st.ord = ord ∨ s.restart = true then
      let st := if s.restart then (c.poly bounds k).init else st
      let s := { s with restart := false }
      let r ← c.feedLoop (c.poly bounds k) s k (!s.dense.contains k) c.fuel st
      if r.2 then
        let s ← c.polyDone s k (PolyFF.homogenize (r.1.result.getD []) k)
        c.pass bounds ord before rest { s with coefs := before ++ rest }
      else c.pass bounds ord (before ++ [(k, r.1)]) rest { s with coefs := before ++ (k, r.1) :: rest }
    else c.pass bounds ord (before ++ [(k, st)]) rest s

/-- The coefficients of this order vector are saved (source/RatReconst.cpp 594-608). -/
def saveValues (zi : ℕ) (ord : List ℕ) (vals : FFMap F) (s : Side F) : Side F :=
  { s with saved := vals.foldl (fun (m : FFMap F) el =>
      if ord.getD (zi - 2) 0 < el.1.getD 0 0 + 2 then m.set (el.1.getD 0 0 :: zi :: ord) el.2 else m) s.saved }

/-- The choice of the next order vector (source/RatReconst.cpp 663-716): `zi` and `curr_zi_order`. -/
def pickNext (l : List (ℕ × MPoly.St F)) (start : ℕ × List ℕ) : ℕ × List ℕ :=
  l.foldl (fun b t => if b.1 < t.2.zi + 1 then (t.2.zi + 1, t.2.ord) else if b.1 = t.2.zi + 1 ∧ aGrtB t.2.ord b.2 = true then (b.1, t.2.ord) else b) start

/-- The shift is removed from the degrees that were solved with it (source/RatReconst.cpp 728-754). -/
def Cfg.unshift (c : Cfg F) (s : Side F) : Option (Side F) :=
  ((List.range (s.maxDeg + 1)).reverse).foldlM (fun (s : Side F) i =>
    if s.dense.contains i then
      if i = 0 then some (subtract s i) else c.addSub (subtract s i) i
    else some s) s

/-- The sum of the solved degrees (source/RatReconst.cpp 769-789): degrees that vanish are left out. -/
def collect (s : Side F) : FFMap F :=
  s.solved.foldl (fun (m : FFMap F) el => if el.2.length = 0 ∨ (el.2.length = 1 ∧ (el.2.getD 0 ([], 0)).2 = 0) then m else PolyFF.addAssign m el.2) []

/-- A degree with one monomial only (source/RatReconst.cpp 829-836, 841-850); the first one in the order of the list stands for the first one in the order of
the hash map. -/
def lonely (m : FFMap F) : Option (List ℕ × F) := List.find? (fun t => List.all m (fun u => decide (u.1 = t.1 ∨ u.1.sum ≠ t.1.sum))) m

/-- The choice of the normalization (source/RatReconst.cpp 791-864) in the first prime field: the coefficient that becomes one, whether it belongs to the denominator, its
monomial, `is_singular_system`. `constDen` is the contribution of the higher degrees to the constant. -/
def Cfg.normalizer (c : Cfg F) (num den : FFMap F) (constDen : F) : F × Bool × List ℕ × Bool :=
  let z := List.replicate c.n 0
  if constDen ≠ 1 then (1 - constDen, c.normDen, z, false)
  else if c.normDen = false ∧ (num.find? z).isSome then ((num.find? z).getD 0, false, z, false)
  else if c.normDen = true ∧ (den.find? z).isSome then ((den.find? z).getD 0, true, z, false)
  else
    let low := (den.map Prod.fst).foldl (fun (l : List ℕ) k => if l = [] then k else if aGrtB l k then k else l) []
    match lonely den with
    | some t => (t.2, true, t.1, false)
    | none =>
      match lonely num with
      | some t => (t.2, false, t.1, false)
      | none => ((den.find? low).getD 0, true, low, true)

/-- The end of the interpolation (source/RatReconst.cpp 718-893). -/
def Cfg.finish (c : Cfg F) (s : St F) : Option (St F) := do
  let num ← if c.hasShift then c.unshift s.num else some s.num
  let den ← if c.hasShift then c.unshift s.den else some s.den
  let constDen := if c.hasShift then ((polyAt (if c.normDen then den else num).sub 0).find? (List.replicate c.n 0)).getD 0 else 0
  let N := collect num
  let D := collect den
  let t := c.normalizer N D constDen
  some { s with num := num, den := den, savedTi := [],
                result := some { num := PolyFF.scale N (1 / t.1), den := PolyFF.scale D (1 / t.1), normDen := t.2.1, normDeg := t.2.2.1, singular := t.2.2.2 } }

/-- The coefficients of the powers of `t` for the current order vector are known (source/RatReconst.cpp 594-898). -/
def Cfg.handle (c : Cfg F) (s : St F) (vals : FFMap F × FFMap F) : Option (St F) := do
  let num ← c.pass c.boundsNum s.ord [] s.num.coefs (saveValues s.zi s.ord vals.1 s.num)
  let den ← c.pass c.boundsDen s.ord [] s.den.coefs (saveValues s.zi s.ord vals.2 s.den)
  let nx := pickNext den.coefs (pickNext num.coefs (2, List.replicate (c.n - 1) 1))
  let s := { s with num := num, den := den, zi := nx.1, ord := nx.2, numEqn := num.maxDeg + den.maxDeg + 2 - num.count - den.count }
  if num.coefs = [] ∧ den.coefs = [] then c.finish s else some s

/-- The members for the numerator or the denominator after Thiele's method (source/RatReconst.cpp 469-480, 501-531, 545-585). `canon` are the normalized coefficients. -/
def Cfg.startSide (c : Cfg F) (bounds : Option (List ℕ)) (canon : FFMap F) (maxDeg : ℕ) : Side F :=
  let degs := stdSort (fun a b => decide (b < a)) (((canon.erase [0]).filter (fun t => t.2 ≠ 0)).map (fun t => t.1.getD 0 0))
  { coefs := degs.map (fun d => (d, (c.poly bounds d).init))
    dense := (List.range (maxDeg + 1)).filter (fun i => (canon.find? [i]).isSome)
    solved := match canon.find? [0] with
      | some v => [([0], [(List.replicate c.n 0, v)])]
      | none => []
    sub := if c.hasShift then (List.range (maxDeg + 1)).map (fun i => ([i], c.zeroPoly)) else []
    count := ((List.range (maxDeg + 1)).filter (fun i => i = 0 ∧ (canon.find? [i]).isSome ∨ canon.find? [i] = none)).length
    maxDeg := maxDeg }

/-- The end of Thiele's method (source/RatReconst.cpp 413-537, 545-588). The number of equations is computed before vanishing coefficients are removed
(they do not occur, see C19). -/
def Cfg.start (c : Cfg F) (s : St F) (r : FFMap F × FFMap F) : Option (St F) :=
  let equalizer := 1 / (if c.normDen then (r.2.find? (PolyFF.degs r.2).2).getD 0 else (r.1.find? (PolyFF.degs r.1).2).getD 0)
  let cn := PolyFF.scale r.1 equalizer
  let cd := PolyFF.scale r.2 equalizer
  let num := c.startSide c.boundsNum cn ((PolyFF.degs r.1).1.getD 0 0)
  let den := c.startSide c.boundsDen cd ((PolyFF.degs r.2).1.getD 0 0)
  c.handle { s with known := true, thiele := {}, num := num, den := den, zi := 2 }
    ((cn.erase [0]).filter (fun t => t.2 ≠ 0), (cd.erase [0]).filter (fun t => t.2 ≠ 0))

/-- `num_sub_num` (source/RatReconst.cpp 2185-2205): the values of the solved degrees for this order vector -/
def Cfg.subVals (c : Cfg F) (s : Side F) (ys : List F) : Option (FFMap F) :=
  s.solved.mapM (fun t => do
    let a ← PolyFF.calcNM1 c.n t.2 ys
    if s.dense.contains (t.1.getD 0 0) then some (t.1, a)
    else
      let b ← PolyFF.calcNM1 c.n (polyAt s.sub (t.1.getD 0 0)) ys
      some (t.1, a + b))

/-- `build_uni_gauss` (source/RatReconst.cpp 2167-2214) -/
def Cfg.addRow (c : Cfg F) (s : St F) (t v : F) : Option (St F) := do
  let s ← if s.rows = [] then do
      let a ← c.subVals s.num (c.point s.ord)
      let b ← c.subVals s.den (c.point s.ord)
      some { s with subNum := a, subDen := b }
    else some s
  let res := s.subDen.foldl (fun (res : F) el => res + el.2 * t ^ el.1.getD 0 0 * v) (s.subNum.foldl (fun (res : F) el => res - el.2 * t ^ el.1.getD 0 0) 0)
  some { s with rows := s.rows ++ [s.num.coefs.map (fun el => t ^ el.1) ++ s.den.coefs.map (fun el => -v * t ^ el.1) ++ [res]] }

/-- The loop over the probes of this order vector (source/RatReconst.cpp 371-397): the state and `check`. -/
def Cfg.addRows (c : Cfg F) : St F → List (F × F) → Option (St F × Bool)
  | s, [] => some (s, false)
  | s, q :: rest => do
    let s ← c.addRow s q.1 q.2
    if s.numEqn = s.rows.length then some (s, true) else c.addRows s rest

/-- `solve_gauss` (source/RatReconst.cpp 2007-2030); `none`: the error of a singular system -/
def Cfg.solve (c : Cfg F) (s : St F) : Option (FFMap F × FFMap F) :=
  (solveGauss c.gt s.numEqn (fun i j => (s.rows.getD i []).getD j 0) false).map (fun x =>
    (s.num.coefs.mapIdx (fun i el => ([el.1], x i)), s.den.coefs.mapIdx (fun i el => ([el.1], x (s.num.coefs.length + i)))))

/-- `interpolate(new_ti, num, fed_zi_ord)` (source/RatReconst.cpp 337-898, 1221-1238). Probes after the end are ignored here. -/
def Cfg.probe (c : Cfg F) (s : St F) (t v : F) (ord : List ℕ) : Option (St F) := do
  if s.result.isSome then some s
  else if ord = s.ord then
    if s.known then
      let food := (s.savedTi.find? ord).getD [] ++ [(t, v)]
      let r ← c.addRows { s with savedTi := s.savedTi.erase ord } food
      if r.2 then
        let x ← c.solve r.1
        c.handle { r.1 with rows := [], subNum := [], subDen := [] } x
      else some r.1
    else
      let r := s.thiele.addPoint v t
      if r.2 then c.start { s with thiele := r.1 } r.1.getResult else some { s with thiele := r.1 }
  else some { s with savedTi := s.savedTi.set ord ((s.savedTi.find? ord).getD [] ++ [(t, v)]) }

/-- The loop over saved probes of the new order vector (source/RatReconst.cpp 318-328). `none`: `front()` of an empty queue, or more iterations than there are entries. -/
def Cfg.drain (c : Cfg F) : ℕ → St F → Option (St F)
  | k, s =>
    match s.savedTi.find? s.ord with
    | none => some s
    | some [] => none
    | some (q :: rest) =>
      match k with
      | 0 => none
      | k + 1 => do
        let s' ← c.probe { s with savedTi := s.savedTi.set s.ord rest } q.1 q.2 s.ord
        c.drain k s'

/-- One probe from the queue (source/RatReconst.cpp 309-331). -/
def Cfg.feed (c : Cfg F) (s : St F) (q : F × F × List ℕ) : Option (St F) := do
  let s ← c.probe s q.1 q.2.1 q.2.2
  c.drain s.savedTi.length s

/-- Any sequence of probes `(t, value, order vector)`. -/
def Cfg.feedAll (c : Cfg F) (s : St F) (probes : List (F × F × List ℕ)) : Option (St F) := probes.foldlM c.feed s

end FireFly.RMulti
