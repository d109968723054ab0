import Verif.Model.PolyFF
/-!
# Newton interpolation in `PolyReconst` (source/PolyReconst.cpp)

`y k` is `get_rand_zi(zi, k)` = `anchor^k` (source/PolyReconst.cpp 651-653), the point of order `k`
of the variable being interpolated; orders start at 1.
-/
namespace FireFly
variable {F : Type} [Field F] [DecidableEq F]

/-- `comp_ai` (source/PolyReconst.cpp 552-565), for `i` at most the number of coefficients. -/
def compAi (y : ℕ → F) (i : ℕ) (num : F) (ai : List F) : F :=
  (List.range' 1 i).foldl (fun (res : F) (ip : ℕ) => (res - ai.getD (ip - 1) 0) / (y (i + 1) - y ip)) num

/-- The loop of `iterate_canonical` (source/PolyReconst.cpp 582-587), `i_tmp` running down to 1. -/
def newtonLoop (y : ℕ → F) (ai : List F) : ℕ → FFMap F → FFMap F
  | 0, res => res
  | i + 1, res =>
    let res := PolyFF.addAssign res [([0], ai.getD (i + 1) 0)]
    newtonLoop y ai i (PolyFF.add (PolyFF.scale res (-y (i + 1))) (PolyFF.mulVar res 1))

/-- `iterate_canonical` (source/PolyReconst.cpp 576-589), for at least two coefficients. -/
def iterateCanonical (y : ℕ → F) (ai : List F) : FFMap F :=
  let res : FFMap F := [([0], ai.getD (ai.length - 1) 0)]
  newtonLoop y ai (ai.length - 2)
    (PolyFF.add (PolyFF.scale res (-y (ai.length - 1))) (PolyFF.mulVar res 1))

/-- `construct_canonical` (source/PolyReconst.cpp 567-574). With no coefficient the result is the
zero monomial in all `n` variables. -/
def constructCanonical (n : ℕ) (y : ℕ → F) (ai : List F) : FFMap F :=
  if ai.length = 1 then [([0], ai.getD 0 0)]
  else if ai.length = 0 then [(List.replicate n 0, 0)]
  else PolyFF.add [([0], ai.getD 0 0)] (iterateCanonical y ai)

/-- The univariate stage of `interpolate` with Newton interpolation only (source/PolyReconst.cpp
161-183, `use_newton && !use_bt`): one fed value. `deg` is the degree bound, if any
(`deg != -1`, or an individual degree bound). The Boolean is `finished`. -/
def newtonFeed (y : ℕ → F) (deg : Option ℕ) (ai : List F) (num : F) : List F × Bool :=
  let i := ai.length
  let a := compAi y i num ai
  if a = 0 then (ai, true)
  else if deg = some i then (ai ++ [a], true)
  else (ai ++ [a], false)

/-- Feeding values until the stage is finished; the values not consumed are dropped. -/
def newtonRun (y : ℕ → F) (deg : Option ℕ) : List F → List F → List F × Bool
  | ai, [] => (ai, false)
  | ai, num :: rest =>
    let r := newtonFeed y deg ai num
    if r.2 then r else newtonRun y deg r.1 rest

end FireFly
