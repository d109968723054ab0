import Verif.Model.Printer
import Verif.Model.FFInt
/-!
# What happens to the factors after the factor scan (source/include/firefly/Reconstructor.hpp 1098-1195, 1618-1635, 1740-1790, 1840-1876, 2930-2950, 3391-3399, source/include/firefly/MPIWorker.hpp 450-453, 485-488)

The factor scan gives, for each function, polynomials in one variable that divide its numerator or denominator. They are written as text, parsed, divided out of every probe and attached to the result again.
The variables are reordered by their degrees.

Simplifications: threads, output, files and messages of the scan are left out. `compute_probe<N>` (3449-3458) does the same in `N` lanes. Maps from the number of a function are association lists.
-/
namespace FireFly

/-- What the scan accepts for one function in one variable (source/include/firefly/Reconstructor.hpp 1614-1635): the position of the variable and the monomials `tmp_gni`, `tmp_gdi`; an empty list: no factor. -/
structure Factor where
  pos : ℕ
  num : List (List ℕ × RationalNumber)
  den : List (List ℕ × RationalNumber)

/-- `"x" + std::to_string(i + 1)` (source/include/firefly/Reconstructor.hpp 1376, 1761). -/
def facName (i : ℕ) : Str := 'x' :: natStr (i + 1)

/-- `vars` (source/include/firefly/Reconstructor.hpp 1748, 1761). -/
def facNames (n : ℕ) : List Str := (List.range n).map facName

/-- `Polynomial(tmp_gni)` with `set_var_pos(i)`, or `Polynomial()` (source/include/firefly/Reconstructor.hpp 1618-1632, source/Polynomial.cpp 24-38). -/
def facPoly (pos : ℕ) (m : List (List ℕ × RationalNumber)) : Polynomial :=
  if m = [] then { n := 0, coefs := [] } else { n := 1, coefs := m, varPos := some pos }

/-- `RationalFunction(tmp_numerator, tmp_denominator)`, which is appended to `factors_rf` (source/include/firefly/Reconstructor.hpp 1634). -/
def Factor.rf (f : Factor) : Polynomial × Polynomial := (facPoly f.pos f.num, facPoly f.pos f.den)

/-- `factors_str[counter].first.emplace(tmp_numerator.to_string({curr_var}))` (source/include/firefly/Reconstructor.hpp 1620-1623, 1626-1629): a set of strings. `none`: `to_string` ends the program. -/
def addString (i : ℕ) (m : List (List ℕ × RationalNumber)) (s : List Str) : Option (List Str) :=
  if m = [] then some s
  else (Polynomial.toStr { n := 1, coefs := m } [facName i]).map fun t => if t ∈ s then s else s ++ [t]

/-- `factors_str[counter]` at the end of the scan (source/include/firefly/Reconstructor.hpp 1618-1632): the factors are accepted variable by variable. -/
def factorStrings (fs : List Factor) : Option (List Str × List Str) :=
  fs.foldlM (fun s f => do
    let a ← addString f.pos f.num s.1
    let b ← addString f.pos f.den s.2
    some (a, b)) ([], [])

/-- `(a1)*(a2)*...` without the last character (source/include/firefly/Reconstructor.hpp 1846-1850, 1860-1864). -/
def productText (l : List Str) : Str := ((l.map fun a => '(' :: a ++ [')', '*']).flatten).dropLast

/-- `tmp_fac_s` (source/include/firefly/Reconstructor.hpp 1841-1868); the lists are the elements of the sets in the order of the iteration. -/
def factorText (nums dens : List Str) : Str :=
  (if nums ≠ [] then '(' :: productText nums ++ [')'] else []) ++
    if dens ≠ [] then (if nums ≠ [] then ['/', '('] else ['1', '/', '(']) ++ productText dens ++ [')'] else []

/-- The probe of the function `i` (source/include/firefly/Reconstructor.hpp 3392-3399, source/include/firefly/MPIWorker.hpp 485-488): the value of the black box divided by the value of the parsed factor. `none`: `evaluate_pre` reads
beyond its stack or the division has no result. -/
def divideProbe [LongDouble] (p : ℕ) (values : List ℕ) (factors : List (ℕ × List PTok)) (i v : ℕ) : Option ℕ :=
  match factors.lookup i with
  | none => some v
  | some ts => (evaluatePre p values ts).bind fun r => ffDivAssign p v r

/-! ### the order of the variables -/

/-- `indices` (source/include/firefly/Reconstructor.hpp 1751-1755): the variables sorted by their degrees, the largest degree first, variables with equal degrees in their old order. -/
def sortedIndices (maxDegs : List ℕ) : List ℕ :=
  (List.range maxDegs.length).mergeSort fun i j => decide (maxDegs.getD j 0 ≤ maxDegs.getD i 0)

/-- `optimal_var_order` (source/include/firefly/Reconstructor.hpp 1759-1760). -/
def varOrder (maxDegs : List ℕ) : List (ℕ × ℕ) := (sortedIndices maxDegs).zipIdx.map fun q => (q.2, q.1)

/-- `change_var_order` (source/include/firefly/Reconstructor.hpp 1774-1777). -/
def changeOrder (order : List (ℕ × ℕ)) : Bool := order.any fun q => q.2 != q.1

/-- `max_deg_map_complete` of one function (source/include/firefly/Reconstructor.hpp 1764-1770): the degrees in the new order. -/
def reorder {α : Type} (order : List (ℕ × ℕ)) (n : ℕ) (l : List α) (d : α) : List α := (List.range n).map fun i => l.getD ((order.lookup i).getD 0) d

/-- The point of a probe in `queue_probes` (source/include/firefly/Reconstructor.hpp 2936-2950): `coord i` is `rand_zi[i - 1] * t + shift[i]`, or `t + shift[0]`. -/
def queueValues {F : Type} [Zero F] (n : ℕ) (order : List (ℕ × ℕ)) (coord : ℕ → F) : List F :=
  if changeOrder order then order.foldl (fun v el => v.set el.2 (coord el.1)) (List.replicate n 0)
  else (List.range n).map coord

/-! ### the results -/

/-- The states of an entry of `reconst` that matter here (source/include/firefly/Reconstructor.hpp 222). -/
inductive RecState
  | reconstructing
  | done
  | delete
  deriving DecidableEq

/-- An entry of `reconst` (source/include/firefly/Reconstructor.hpp 218): its number, its state and, if it is done, the numerator and the denominator of the result. -/
structure RecEntry where
  id : ℕ
  state : RecState
  num : Polynomial
  den : Polynomial

/-- The result with the factors and the order of the variables (source/include/firefly/Reconstructor.hpp 1131-1141, 1179-1188). -/
def dressResult (order : List (ℕ × ℕ)) (factors : List (ℕ × List Factor)) (i : ℕ) (num den : Polynomial) : RationalFunction :=
  { num := num, den := den, order := if changeOrder order then order else [], factors := ((factors.lookup i).getD []).map Factor.rf }

/-- `get_result` (source/include/firefly/Reconstructor.hpp 1122-1147). -/
def getResult (order : List (ℕ × ℕ)) (factors : List (ℕ × List Factor)) (rs : List RecEntry) : List RationalFunction :=
  (rs.foldl (fun (s : List RationalFunction × ℕ) r => if r.state = .done then (s.1 ++ [dressResult order factors s.2 r.num r.den], s.2 + 1) else s) ([], 0)).1

/-- `get_early_results` (source/include/firefly/Reconstructor.hpp 1160-1195) without the tags: the numbers and the results; the entries are marked for deletion. -/
def getEarlyResults (order : List (ℕ × ℕ)) (factors : List (ℕ × List Factor)) (rs : List RecEntry) : List (ℕ × RationalFunction) × List RecEntry :=
  ((rs.filter fun r => r.state = .done).map fun r => (r.id, dressResult order factors r.id r.num r.den),
    rs.map fun r => if r.state = .done then { r with state := .delete } else r)

/-- `get_factors_string` (source/include/firefly/Reconstructor.hpp 1097-1120) for the functions `0, 1, …, items - 1`: the factors times one. -/
def getFactorsString (n : ℕ) (order : List (ℕ × ℕ)) (factors : List (ℕ × List Factor)) (items : ℕ) (vars : List Str) : Option (List Str) :=
  (List.range items).mapM fun i =>
    let one : Polynomial := { n := n, coefs := [(List.replicate n 0, { num := 1, den := 1 })] }
    (dressResult order factors i one one).toStr vars

end FireFly
