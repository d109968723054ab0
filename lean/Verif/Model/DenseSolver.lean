import Verif.Tac
import Mathlib.Algebra.Field.Basic
/-!
# The dense solvers (source/include/firefly/DenseSolver.hpp)

A matrix (`std::vector<std::vector<FFInt>>`) is a function of row and column index; only the entries
inside the matrix matter. `gt` is `operator>` of `FFInt`, the comparison of the stored words
(source/FFInt.cpp); the theorems assume only that nothing but a nonzero element is greater than
something, and that every nonzero element is greater than zero.

An inner loop over the columns `j` of one row that reads only other rows (or entries not yet changed
of the same row) is written as one simultaneous update of the row.
-/
namespace FireFly
variable {F : Type} [Field F] [DecidableEq F]

/-- a matrix -/
abbrev Mat (F : Type) := ℕ → ℕ → F

/-- One iteration of the search for the maximum in column `i`
(DenseSolver.hpp 55-60, 119-126, 270-274). -/
def pivotStep (gt : F → F → Bool) (a : Mat F) (i : ℕ) (s : F × ℕ) (k : ℕ) : F × ℕ :=
  if gt (a k i) s.1 then (a k i, k) else s

/-- The row of the maximum below the diagonal, starting with `a[i][i]` (DenseSolver.hpp 51-60,
115-126); for `n` rows. -/
def pivotRow (gt : F → F → Bool) (n : ℕ) (a : Mat F) (i : ℕ) : ℕ :=
  ((List.range' (i + 1) (n - (i + 1))).foldl (pivotStep gt a i) (a i i, i)).2

/-- Exchange of the rows `r` and `i` in the columns from `i` to `w - 1` (DenseSolver.hpp 62-67 with
`w = 2n`, 128-133 with `w = n + 1`). -/
def swapFrom (w : ℕ) (a : Mat F) (r i : ℕ) : Mat F := fun q k =>
  if i ≤ k ∧ k < w then (if q = r then a i k else if q = i then a r k else a q k) else a q k

/-- Row `k` of the elimination of column `i` (DenseSolver.hpp 71-78 with `w = 2n`, 137-142 with
`w = n + 1`). -/
def elimRow (w : ℕ) (i : ℕ) (a : Mat F) (k : ℕ) : Mat F :=
  let c := -a k i / a i i
  fun q j => if q = k ∧ i ≤ j ∧ j < w then (if i = j then 0 else a k j + c * a i j) else a q j

/-- One iteration of the forward elimination (DenseSolver.hpp 50-80, 114-144). -/
def forwardStep (gt : F → F → Bool) (n w : ℕ) (a : Mat F) (i : ℕ) : Mat F :=
  (List.range' (i + 1) (n - (i + 1))).foldl (elimRow w i) (swapFrom w a (pivotRow gt n a i) i)

/-- The forward elimination of an `n`-row matrix with `w` columns: the same loops in `calc_inverse`
(DenseSolver.hpp 50-80, `w = 2n`) and `solve_gauss_system` (114-144, `w = n + 1`). -/
def forward (gt : F → F → Bool) (n w : ℕ) (a : Mat F) : Mat F :=
  (List.range n).foldl (forwardStep gt n w) a

/-- The back substitution of `solve_gauss_system` (DenseSolver.hpp 150-156), `i` running down; the
state is the right-hand side `a[·][n]` and `results`. -/
def backSub (a : Mat F) : ℕ → (ℕ → F) → (ℕ → F) → (ℕ → F)
  | 0, _, x => x
  | i + 1, b, x =>
    let xi := b i / a i i
    backSub a i (fun k => if k < i then b k - a k i * xi else b k) (Function.update x i xi)

/-- `solve_gauss_system` (DenseSolver.hpp 112-171) for `n ≥ 1`; `none` is `std::exit` with the message
"Singular system of equations!". -/
def solveGauss (gt : F → F → Bool) (n : ℕ) (a : Mat F) (force : Bool) : Option (ℕ → F) :=
  let t := forward gt n (n + 1) a
  if force ∨ t (n - 1) (n - 1) ≠ 0 then some (backSub t n (fun k => t k n) (fun _ => 0)) else none

/-- Row `i` of the backward phase of `calc_inverse` (DenseSolver.hpp 86-94). -/
def backStepInv (n : ℕ) (a : Mat F) (i : ℕ) : Mat F := fun r c =>
  if n ≤ c ∧ c < 2 * n then
    (if r = i then a i c / a i i
     else if r < i then a r c - a i c / a i i * a r i
     else a r c)
  else a r c

/-- The backward phase of `calc_inverse` (DenseSolver.hpp 85-100), `i` running down. -/
def backInv (n : ℕ) : ℕ → Mat F → Mat F
  | 0, a => a
  | i + 1, a => backInv n i (backStepInv n a i)

/-- `calc_inverse` (DenseSolver.hpp 38-103): the matrix is augmented with the unit matrix; `res[i][k - n]`
is copied after row `i` has been divided, and row `i` is not changed any more after that. -/
def calcInverse (gt : F → F → Bool) (n : ℕ) (a : Mat F) : Mat F :=
  let aug : Mat F := fun i j => if j < n then a i j else if j - n = i then 1 else 0
  let t := backInv n n (forward gt n (2 * n) aug)
  fun i j => t i (j + n)

/-- State of `calc_lu_decomposition`: the matrix, the permutation `p[0..n-1]` and the count `p[n]`. -/
structure LU (F : Type) where
  a : Mat F
  p : ℕ → ℕ
  cnt : ℕ

/-- The pivot row (DenseSolver.hpp 267-274): the search starts with the value zero at row `i`. -/
def luPivot (gt : F → F → Bool) (n : ℕ) (a : Mat F) (i : ℕ) : ℕ :=
  ((List.range' i (n - i)).foldl (pivotStep gt a i) (0, i)).2

/-- The pivoting (DenseSolver.hpp 276-289). -/
def luSwap (s : LU F) (r i : ℕ) : LU F :=
  if r ≠ i then
    { a := fun q => if q = i then s.a r else if q = r then s.a i else s.a q
      p := fun q => if q = i then s.p r else if q = r then s.p i else s.p q
      cnt := s.cnt + 1 }
  else s

/-- Row `j` of the elimination (DenseSolver.hpp 291-301). A zero pivot only prints a message: the
`runtime_error` is constructed but not thrown. -/
def luElim (n i : ℕ) (a : Mat F) (j : ℕ) : Mat F := fun q k =>
  if q = j then
    (if k = i then a j i / a i i
     else if i < k ∧ k < n then a j k - a j i / a i i * a i k
     else a j k)
  else a q k

/-- One iteration of `calc_lu_decomposition` (DenseSolver.hpp 266-302). -/
def luStep (gt : F → F → Bool) (n : ℕ) (s : LU F) (i : ℕ) : LU F :=
  let s := luSwap s (luPivot gt n s.a i) i
  { s with a := (List.range' (i + 1) (n - (i + 1))).foldl (luElim n i) s.a }

/-- `calc_lu_decomposition` (DenseSolver.hpp 257-303). -/
def luDecomposition (gt : F → F → Bool) (n : ℕ) (a : Mat F) : LU F :=
  (List.range n).foldl (luStep gt n) { a := a, p := id, cnt := n }

/-- Forward substitution of `solve_lu` (DenseSolver.hpp 184-189): the entries `x[0..i-1]`. -/
def luForward (a : Mat F) (p : ℕ → ℕ) (b : ℕ → F) : ℕ → (ℕ → F)
  | 0 => fun _ => 0
  | i + 1 =>
    let x := luForward a p b i
    Function.update x i ((List.range i).foldl (fun (xi : F) (k : ℕ) => xi - a i k * x k) (b (p i)))

/-- Backward substitution of `solve_lu` (DenseSolver.hpp 191-196), `i` running down. -/
def luBackward (n : ℕ) (a : Mat F) : ℕ → (ℕ → F) → (ℕ → F)
  | 0, x => x
  | i + 1, x =>
    let xi := (List.range' (i + 1) (n - (i + 1))).foldl (fun (xi : F) (k : ℕ) => xi - a i k * x k) (x i)
    luBackward n a i (Function.update x i (xi / a i i))

/-- `solve_lu` (DenseSolver.hpp 181-199). -/
def solveLU (n : ℕ) (a : Mat F) (p : ℕ → ℕ) (b : ℕ → F) : ℕ → F :=
  luBackward n a n (luForward a p b n)

/-- `calc_inverse_lu` (DenseSolver.hpp 208-230): column `j` goes through the loops of `solve_lu` with
`b[p[i]]` replaced by `p[i] == j`. -/
def calcInverseLU (n : ℕ) (a : Mat F) (p : ℕ → ℕ) : Mat F := fun i j =>
  luBackward n a n (luForward a p (fun q => if q = j then 1 else 0) n) i

/-- `calc_determinant_lu` (DenseSolver.hpp 239-249), for `n ≥ 1`. -/
def calcDeterminantLU (n : ℕ) (a : Mat F) (cnt : ℕ) : F :=
  let det := (List.range' 1 (n - 1)).foldl (fun (d : F) (i : ℕ) => d * a i i) (a 0 0)
  if (cnt - n) % 2 = 0 then det else -det

end FireFly
