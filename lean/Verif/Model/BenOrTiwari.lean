import Verif.Model.Vandermonde
/-!
# The Berlekamp/Massey and Ben-Or/Tiwari steps of `PolyReconst` (source/PolyReconst.cpp)

The containers `lambda`, `b`, `l`, `delta`, `bm_iteration`, `bt_terminator`, `nums_for_bt` are maps
from degree keys; a step only touches the entry of one key, which is what is modelled.
-/
namespace FireFly
variable {F : Type} [Field F] [DecidableEq F]

/-- `while (v.back() == 0) v.pop_back();` (source/PolyReconst.cpp 714-716, 758-764). `none`: reading
`back()` of an empty vector, undefined behaviour, which is what happens for a vector of zeros. -/
def popZeros (v : List F) : Option (List F) :=
  if v.all (· = 0) then none else some ((v.reverse.dropWhile (· = 0)).reverse)

/-- The entry of one key (source/include/firefly/PolyReconst.hpp 151-158) and the vector of values fed. -/
structure BMState (F : Type) where
  lambda : List F
  b : List F
  l : ℕ
  delta : F
  iter : ℕ
  terminator : ℕ
  nums : List F

/-- Initialisation for a new key (source/PolyReconst.cpp 187-195, same for the other stages). -/
def BMState.init : BMState F :=
  { lambda := [1], b := [0], l := 0, delta := 1, iter := 1, terminator := 1, nums := [] }

/-- The loop for `delta_r` (source/PolyReconst.cpp 704-709). `none`: `at` throws. -/
def discrepancy (lambda nums : List F) (iter : ℕ) : Option F :=
  (List.range lambda.length).foldlM (fun (d : F) (i : ℕ) =>
    if i + 1 ≤ iter ∧ iter - i - 1 < nums.length then
      some (d + lambda.getD i 0 * nums.getD (iter - i - 1) 0)
    else none) 0

/-- The loop building the new `lambda` (source/PolyReconst.cpp 734-743): three cases according to
which of the vectors has an entry `j`. -/
def lambdaUpdate (lambda b : List F) (c : F) : List F :=
  (List.range (max lambda.length b.length)).map fun j =>
    if j < lambda.length ∧ j < b.length then lambda.getD j 0 - c * b.getD j 0
    else if j < lambda.length then lambda.getD j 0
    else -c * b.getD j 0

/-- `berlekamp_massey_step` (source/PolyReconst.cpp 703-772) after `nums_for_bt[key].emplace_back(num)`
(e.g. 197); the Boolean is the returned value. -/
def BMState.step (threshold : ℕ) (s : BMState F) (num : F) : Option (BMState F × Bool) := do
  let s := { s with nums := s.nums ++ [num] }
  let deltaR ← discrepancy s.lambda s.nums s.iter
  if deltaR = 0 then
    let b ← popZeros (0 :: s.b)
    let s' := { s with b := b, terminator := s.terminator + 1, iter := s.iter + 1 }
    some (s', decide (s.terminator + 1 ≥ threshold + 1 ∧ s.iter > 2 * s.l))
  else
    let b := 0 :: s.b
    let lambda' := lambdaUpdate s.lambda b (deltaR / s.delta)
    let grow := 2 * s.l < s.iter
    let lambda ← popZeros lambda'
    let b ← popZeros (if grow then s.lambda else b)
    some ({ s with lambda := lambda, b := b,
                   l := if grow then s.iter - s.l else s.l,
                   delta := if grow then deltaR else s.delta,
                   iter := s.iter + 1, terminator := 1 }, false)

/-- Feeding a sequence of values, whatever the returned Booleans are: the caller goes on after a step
that returned true if the number of roots is wrong (source/PolyReconst.cpp 202-221; it also resets
`bt_terminator` then, which has no effect on the other members). -/
def BMState.feed (threshold : ℕ) (s : BMState F) (nums : List F) : Option (BMState F) :=
  nums.foldlM (fun (s : BMState F) (num : F) => (s.step threshold num).map Prod.fst) s

/-- Value of the reversed `lambda` at `a` (source/PolyReconst.cpp 786-790). -/
def revEval (lambda : List F) (a : F) : F :=
  (List.range lambda.length).foldl (fun (r : F) (i : ℕ) =>
    r + lambda.getD (lambda.length - i - 1) 0 * a ^ i) 0

/-- The loop of `rootsexponents` (source/PolyReconst.cpp 784-804); `bound` is `deg - sol_deg` in
`size_t`. -/
def rootsLoop (lambda : List F) (base : F) (bound : ℕ) (count : ℕ) (a : F) (roots : List (F × ℕ)) :
    List (F × ℕ) :=
  if roots.length < lambda.length - 1 then
    let roots := if revEval lambda a = 0 then roots ++ [(a, count)] else roots
    let a := a * base
    if a = 1 then roots
    else if _h : count + 1 > bound then roots
    else rootsLoop lambda base bound (count + 1) a roots
  else roots
termination_by bound - count

/-- `rootsexponents` (source/PolyReconst.cpp 774-811): the pairs of root and exponent; the error
message for a wrong number of roots does not change the result. -/
def rootsExponents (lambda : List F) (base : F) (bound : ℕ) : List (F × ℕ) :=
  rootsLoop lambda base bound 0 1 []

/-- The end of the univariate Ben-Or/Tiwari stage (source/PolyReconst.cpp 199-207): `none` if the
number of roots is wrong (the interpolation goes on) or the Vandermonde solver reads out of bounds,
otherwise the pairs of exponent and coefficient. -/
def btFinish (s : BMState F) (base : F) (bound : ℕ) : Option (List (ℕ × F)) :=
  let roots := rootsExponents s.lambda base bound
  if roots.length = s.lambda.length - 1 then
    (solveTransposedVandermonde (roots.map Prod.fst) s.nums).map fun c => (roots.map Prod.snd).zip c
  else none

end FireFly
