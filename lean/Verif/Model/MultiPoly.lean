import Verif.Model.Newton
import Verif.Model.BenOrTiwari
/-!
# The multivariate interpolation of `PolyReconst` (source/PolyReconst.cpp 101-533)

One prime field: from the first value to the polynomial of this field. `PolyReconst` interpolates one variable after the other; the coefficients of the monomials found so far
are obtained from transposed Vandermonde systems, each of them is interpolated in the next variable by Newton's method and, at the same time, by the method of Ben-Or and
Tiwari, whichever ends first.

The branch for later prime fields (lines 104-157, 475-507) is not modelled here. Mutexes are left out: the function runs in one thread at a time (`is_interpolating`).
-/
namespace FireFly.MPoly
variable {F : Type} [Field F] [DecidableEq F]

/-- What does not change during the interpolation (source/include/firefly/PolyReconst.hpp 121, 198-223): number of variables, degree bound (`none` stands for `-1`),
individual degree bounds, `private_anchor_points`, `use_newton`, `use_bt`, `bt_threshold`. -/
structure Cfg (F : Type) where
  n : ℕ
  deg : Option ℕ := none
  bounds : Option (List ℕ) := none
  anchor : List F
  newton : Bool := true
  bt : Bool := true
  thr : ℕ := 1

/-- The members that change. `bms` collects `lambda`, `b`, `l`, `delta`, `bm_iteration`, `bt_terminator`, `nums_for_bt`, which
have the same keys. `result` is `tmp_pol_ff` of the end of the interpolation (source/PolyReconst.cpp 466-473), which sets `new_prime`. -/
structure St (F : Type) where
  zi : ℕ := 1
  ord : List ℕ
  ais : FFMap (List F)
  bms : FFMap (BMState F) := []
  nums : List F := []
  recDegs : List (List ℕ) := []
  solved : FFMap F := []
  tmpSolved : FFMap F := []
  result : Option (FFMap F) := none

/-- The constructor (source/PolyReconst.cpp 32-53). -/
def Cfg.init (c : Cfg F) : St F :=
  { ord := List.replicate c.n 1, ais := [(List.replicate c.n 0, [])] }

/-- `get_rand_zi` (source/PolyReconst.cpp 651-653) -/
def Cfg.point (c : Cfg F) (zi order : ℕ) : F := c.anchor.getD (zi - 1) 0 ^ order

/-- `construct_tmp_canonical` (source/PolyReconst.cpp 676-697) -/
def Cfg.tmpCanonical (c : Cfg F) (zi : ℕ) (key : List ℕ) (ai : List F) : FFMap F :=
  if ai.length = 1 ∧ zi = c.n then [(key, ai.getD 0 0)]
  else (constructCanonical c.n (c.point zi) ai).foldl (fun (tmp : FFMap F) el =>
    if el.2 ≠ 0 then
      tmp.emplace ((List.range c.n).map (fun j => if j + 1 = zi then el.1.getD 0 0 else if j + 1 < zi then key.getD j 0 else 0)) el.2
    else tmp) []

/-- The end of `check_for_tmp_solved_degs_for_newton/bt` (source/PolyReconst.cpp 905-908, 938-941); `none`: `erase(end())` -/
def dropKey (s : St F) (key : List ℕ) : Option (St F) :=
  if s.zi > 1 then (if key ∈ s.recDegs then some { s with recDegs := s.recDegs.erase key } else none) else some s

/-- `check_for_tmp_solved_degs_for_newton` (source/PolyReconst.cpp 890-909). The total degrees are exact (below `2^31`). -/
def Cfg.storeNewton (c : Cfg F) (s : St F) (key : List ℕ) (ai : List F) : Option (St F) :=
  dropKey ((c.tmpCanonical s.zi key ai).foldl (fun (s : St F) el =>
    if some el.1.sum = c.deg ∧ el.2 ≠ 0 then { s with solved := s.solved.emplace el.1 el.2 }
    else if el.2 ≠ 0 then { s with tmpSolved := s.tmpSolved.emplace el.1 el.2 } else s) s) key

/-- `check_for_tmp_solved_degs_for_bt` (source/PolyReconst.cpp 911-942). The exponents are below `2^32`. -/
def Cfg.storeBt (c : Cfg F) (s : St F) (key : List ℕ) (terms : List (ℕ × F)) : Option (St F) :=
  let tmp : FFMap F := terms.foldl (fun (tmp : FFMap F) t => tmp.emplace (key.set (s.zi - 1) t.1) t.2) []
  let tmp := if terms.length = 0 then tmp.emplace key 0 else tmp
  dropKey (tmp.foldl (fun (s : St F) el =>
    if some el.1.sum = c.deg ∧ el.2 ≠ 0 then { s with solved := s.solved.emplace el.1 el.2 }
    else if c.n = 1 then { s with solved := s.solved.emplace el.1 el.2 }
    else if el.2 ≠ 0 then { s with tmpSolved := s.tmpSolved.emplace el.1 el.2 } else s) s) key

/-- A step of Newton's method for one key: the next coefficient and whether the interpolation of this key ends
(source/PolyReconst.cpp 167-184, 284-304). `tmp_deg` is a `uint32_t`; in the first stage the key is zero. -/
def Cfg.newtonPart (c : Cfg F) (zi i : ℕ) (key : List ℕ) (v : F) (ai : List F) : List F × Bool :=
  let a := compAi (c.point zi) i v ai
  if a = 0 then (ai, true)
  else if c.deg.any (fun d => ((d : ℤ) - key.sum) % 2 ^ 32 == (i : ℤ)) then (ai ++ [a], true)
  else if c.bounds.any (fun b => b.getD (zi - 1) 0 == i) then (ai ++ [a], true)
  else (ai ++ [a], false)

/-- The bound `deg - sol_deg` of `rootsexponents` as a `size_t` (source/PolyReconst.cpp 780-782, 802). -/
def Cfg.rootBound (c : Cfg F) (key : List ℕ) : ℕ :=
  match c.deg with
  | some d => (((d : ℤ) - key.sum) % 2 ^ 64).toNat
  | none => 2 ^ 64 - 1 - key.sum

/-- A step of the Berlekamp/Massey algorithm for one key and, if it reports the end, the computation of exponents and coefficients
(source/PolyReconst.cpp 187-222, 319-356). The last component is empty if the interpolation goes on. `none`: undefined behaviour of the step (see
C21), or an access beyond the end in the Vandermonde solver. -/
def Cfg.btPart (c : Cfg F) (zi : ℕ) (key : List ℕ) (old : Option (BMState F)) (v : F) : Option (BMState F × Option (List (ℕ × F))) := do
  let r ← (old.getD BMState.init).step c.thr v
  if r.2 then
    let roots := rootsExponents r.1.lambda (c.point zi 1) (c.rootBound key)
    if roots.length = r.1.lambda.length - 1 then
      let co ← solveTransposedVandermonde (roots.map Prod.fst) r.1.nums
      some (r.1, some ((roots.map Prod.snd).zip co))
    else some ({ r.1 with terminator := 1 }, none)
  else some (r.1, none)

/-- The first stage (source/PolyReconst.cpp 160-234): the state and `combine_res`. -/
def Cfg.first (c : Cfg F) (s : St F) (v : F) : Option (St F × Bool) := do
  let z := List.replicate c.n 0
  let i := s.ord.getD 0 0 - 1
  let r := if c.newton then c.newtonPart 1 i z v ((s.ais.find? z).getD []) else ((s.ais.find? z).getD [], false)
  let s := if c.newton then { s with ais := s.ais.set z r.1 } else s
  let up := s.ord.set 0 (s.ord.getD 0 0 + 1)
  if r.2 then
    some ({ s with bms := if c.bt then s.bms.erase z else s.bms, ord := up }, true)
  else if c.bt then
    let old := if i = 0 then none else s.bms.find? z
    match ← c.btPart 1 z old v with
    | (_, some terms) =>
      let s ← c.storeBt s z terms
      some ({ s with ais := s.ais.erase z, bms := s.bms.erase z, ord := up }, true)
    | (bm, none) => some ({ s with bms := s.bms.set z bm, ord := up }, false)
  else some ({ s with ord := up }, false)

/-- The terms that are known already are subtracted from the value (source/PolyReconst.cpp 237-261). -/
def Cfg.subTerms (c : Cfg F) (zi : ℕ) (ord : List ℕ) (m : FFMap F) (res : F) : F :=
  m.foldl (fun res el => res - (List.range' 1 zi).foldl (fun p t => p * c.point t (ord.getD (t - 1) 0) ^ el.1.getD (t - 1) 0) el.2) res

/-- `build_and_solve_transposed_vandermonde` (source/PolyReconst.cpp 607-637). The map is a list of pairs in the order of `rec_degs`; the program
goes through it in the order of the hash map, and the steps for different keys do not influence each other. -/
def Cfg.solve (c : Cfg F) (s : St F) : Option (FFMap F) := do
  let vis := s.recDegs.map (fun el => (List.range' 1 (s.zi - 1)).foldl (fun p t => p * c.point t (el.getD (t - 1) 0)) 1)
  let res ← solveTransposedVandermonde vis s.nums
  some (s.recDegs.zip res)

/-- What happens to one key when the Vandermonde system has been solved (source/PolyReconst.cpp 279-357); the numbers are
`not_done_counter_newton` and `not_done_counter_bt`. -/
def Cfg.keyStep (c : Cfg F) (i : ℕ) (st : St F × ℕ × ℕ) (el : List ℕ × F) : Option (St F × ℕ × ℕ) := do
  let s := st.1
  let ai := (s.ais.find? el.1).getD []
  let r := if c.newton then c.newtonPart s.zi i el.1 el.2 ai else (ai, false)
  if r.2 then
    let s ← c.storeNewton s el.1 r.1
    some ({ s with ais := s.ais.erase el.1, bms := if c.bt then s.bms.erase el.1 else s.bms }, st.2)
  else
    let s := if c.newton then { s with ais := s.ais.set el.1 r.1 } else s
    let nn := if c.newton then st.2.1 + 1 else st.2.1
    if c.bt then
      match ← c.btPart s.zi el.1 (s.bms.find? el.1) el.2 with
      | (_, some terms) =>
        let s ← c.storeBt s el.1 terms
        some ({ s with ais := s.ais.erase el.1, bms := s.bms.erase el.1 }, nn, st.2.2)
      | (bm, none) => some ({ s with bms := s.bms.set el.1 bm }, nn, st.2.2 + 1)
    else some (s, nn, st.2.2)

/-- The later stages (source/PolyReconst.cpp 160, 235-373): the state and `combine_res`. -/
def Cfg.later (c : Cfg F) (s : St F) (v : F) : Option (St F × Bool) := do
  let i := s.ord.getD (s.zi - 1) 0 - 1
  let s := { s with nums := s.nums ++ [c.subTerms s.zi s.ord s.tmpSolved (c.subTerms s.zi s.ord s.solved v)] }
  if s.nums.length = s.recDegs.length then
    let sols ← c.solve s
    let s := { s with ord := (List.replicate c.n 1).set (s.zi - 1) (s.ord.getD (s.zi - 1) 0 + 1), nums := [] }
    let r ← sols.foldlM (c.keyStep i) (s, 0, 0)
    some (r.1, (r.2.1 == 0 && c.newton) || (r.2.2 == 0 && c.bt))
  else some ({ s with ord := s.ord.mapIdx (fun j o => if j + 1 < s.zi then o + 1 else o) }, false)

/-- The containers at the beginning of a stage (source/PolyReconst.cpp 410-429, 437-456). -/
def Cfg.startKeys (c : Cfg F) (s : St F) (pol : FFMap F) : Option (St F) := do
  let bms ← pol.mapM (fun t => ((BMState.init : BMState F).step c.thr t.2).map (fun r => (t.1, r.1)))
  some { s with ais := pol.map (fun t => (t.1, [t.2])), bms := bms }

/-- The polynomial at the end (source/PolyReconst.cpp 466-473): `insert` does not replace existing entries. -/
def Cfg.collect (c : Cfg F) (s : St F) : FFMap F :=
  let m := s.ais.foldl (fun (m : FFMap F) el => (c.tmpCanonical s.zi el.1 el.2).foldl (fun (m : FFMap F) t => m.emplace t.1 t.2) m) []
  s.solved.foldl (fun (m : FFMap F) t => m.emplace t.1 t.2) m

/-- The end of a stage (source/PolyReconst.cpp 377-473, 525-529): the next stage begins or the polynomial is complete. -/
def Cfg.combine (c : Cfg F) (s : St F) : Option (St F) := do
  if c.n > 1 then
    let s ← if s.zi = 1 ∧ c.newton then
        c.storeNewton s (List.replicate c.n 0) ((s.ais.find? (List.replicate c.n 0)).getD []) else some s
    let pol := s.tmpSolved
    let s := { s with recDegs := pol.map Prod.fst, tmpSolved := [] }
    let s := if s.recDegs.length = 0 ∧ s.zi ≠ c.n then { s with zi := c.n } else s
    if s.zi ≠ c.n then
      let s := { s with zi := s.zi + 1 }
      let s ← c.startKeys s pol
      some { s with ord := (List.replicate c.n 1).set (s.zi - 1) 2 }
    else
      let s ← c.startKeys s pol
      some { s with ord := List.replicate c.n 1, result := some (c.collect s) }
  else some { s with ord := List.replicate c.n 1, result := some (c.collect s) }

/-- `interpolate(num, feed_zi_ord)` (source/PolyReconst.cpp 101-533) within one prime field: `none` is undefined behaviour or an uncaught exception. A value for other orders than the
requested ones is ignored, and so are, here, values after the end. -/
def Cfg.interpolate (c : Cfg F) (s : St F) (num : F) (ord : List ℕ) : Option (St F) := do
  if ord = s.ord ∧ s.result = none then
    let r ← if s.zi = 1 then c.first s num else c.later s num
    if r.2 then c.combine r.1 else some r.1
  else some s

/-- Any sequence of values with their orders. -/
def Cfg.feedAll (c : Cfg F) (s : St F) (probes : List (F × List ℕ)) : Option (St F) :=
  probes.foldlM (fun s q => c.interpolate s q.1 q.2) s

end FireFly.MPoly
