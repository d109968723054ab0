import Mathlib.Data.List.Basic
import Mathlib.Data.Nat.Log
import Mathlib.Algebra.Field.Defs
/-!
# The class `Poly`: dense univariate polynomials over the prime field

Models `source/Poly.cpp` and `source/include/firefly/Poly.hpp`: the coefficient vector, `get_deg`,
`shrink_to_fit`, `rev`, the arithmetic operators, `fast_euclidean_division`, `gcd` and `roots`.

Simplifications.
* A `FFInt` is an element of a field `F` (C01 proves that the arithmetic of `FFInt` is the one of
  `ZMod p`, including the quotient by zero, which is zero).
* `ceil(log2((double) m + 1))` is `Nat.clog 2 (m + 1)` and `exp2((double) i)` is `2 ^ i`: both are
  exact as long as a vector of `m` coefficients fits into the memory.
* `get_deg` throws for an empty vector; every operator calls it (or `coeff.at`) before anything
  else and no loop ever empties a vector, so that this is tested once at the start of an operation.
* The second operand of a compound operator is a different object (no aliasing).
* `reserve` and `shrink_to_fit` of `std::vector` have no observable effect.
-/

namespace FireFly

namespace PolyC

/-- What can go wrong in an operation of the class: the exception `std::out_of_range` of
`std::vector::at`, or undefined behaviour (`back()` and `pop_back()` of an empty vector). -/
inductive Err
  | outOfRange
  | undefined
  /-- A bound on the number of passes that the model puts on a loop has been reached (the theorems
  show that this does not happen). -/
  | bound
  deriving DecidableEq, Repr

variable {F : Type*} [Field F] [DecidableEq F]

/-- The loop of `get_deg` (Poly.cpp 43-47) from the index `i` downwards. -/
def degFrom (c : List F) : ℕ → ℕ
  | 0 => 0
  | i + 1 => if c.getD (i + 1) 0 ≠ 0 then i + 1 else degFrom c i

/-- `get_deg` of a vector that is not empty (Poly.cpp 42-50). -/
def degC (c : List F) : ℕ := degFrom c (c.length - 1)

/-- `get_deg` (Poly.cpp 42-50). For an empty vector `coeff.size() - 1` wraps around and
`coeff.at` throws. -/
def getDeg (c : List F) : Except Err ℕ :=
  if c = [] then .error .outOfRange else .ok (degC c)

/-- The loop of `Poly::shrink_to_fit` (Poly.cpp 52-58) on the reversed vector: zeros at the end are
removed, and `back()` of an empty vector is undefined. -/
def shrinkRev : List F → Except Err (List F)
  | [] => .error .undefined
  | x :: l => if x = 0 then shrinkRev l else .ok (x :: l)

/-- `Poly::shrink_to_fit` (Poly.cpp 52-58). -/
def shrink (c : List F) : Except Err (List F) := (shrinkRev c.reverse).map List.reverse

/-- `Poly::rev` (Poly.cpp 60-63). -/
def rev (c : List F) : Except Err (List F) := (shrink c).map List.reverse

/-- `std::vector::resize` with zeros. -/
def resize (c : List F) (n : ℕ) : List F := c.take n ++ List.replicate (n - c.length) 0

/-- One step of the loop of `operator-=` (Poly.cpp 71-77): the coefficient is subtracted or, beyond
the current degree, *inserted* into the vector. -/
def subStep (a : List F) (c : List F) (i : ℕ) : List F :=
  if i ≤ degC c then c.set i (c.getD i 0 - a.getD i 0) else c.insertIdx i (-a.getD i 0)

/-- `operator-=` on vectors that are not empty (Poly.cpp 65-80). -/
def subC (c a : List F) : List F :=
  let c := if degC a > degC c then resize c (degC a + 1) else c
  (List.range (degC a + 1)).foldl (subStep a) c

/-- One step of the loop of `operator+=` (Poly.cpp 88-94). -/
def addStep (a : List F) (c : List F) (i : ℕ) : List F :=
  if i ≤ degC c then c.set i (c.getD i 0 + a.getD i 0) else c.insertIdx i (a.getD i 0)

/-- `operator+=` on vectors that are not empty (Poly.cpp 82-97). -/
def addC (c a : List F) : List F :=
  let c := if degC a > degC c then resize c (degC a + 1) else c
  (List.range (degC a + 1)).foldl (addStep a) c

/-- The loop of `operator*=` and `operator/=` by a field element (Poly.cpp 99-113): the condition
`i <= get_deg()` is evaluated again in each pass; `n` bounds the number of passes by the size of
the vector, which the degree never reaches. -/
def scaleLoop (op : F → F) : ℕ → ℕ → List F → List F
  | 0, _, c => c
  | n + 1, i, c =>
    if i ≤ degC c then scaleLoop op n (i + 1) (c.set i (op (c.getD i 0))) else c

/-- `operator*=(const FFInt&)` (Poly.cpp 99-105). -/
def smulC (c : List F) (x : F) : List F := scaleLoop (· * x) c.length 0 c

/-- `operator/=(const FFInt&)` (Poly.cpp 107-113). -/
def sdivC (c : List F) (x : F) : List F := scaleLoop (· / x) c.length 0 c

/-- The inner loop of `operator*=(const Poly&)` (Poly.cpp 147-153): the sum over `j <= i` of those
products for which both indices are valid. -/
def convC (c a : List F) (i : ℕ) : F :=
  (List.range (i + 1)).foldl
    (fun s j => if c.length > j ∧ a.length > i - j then s + c.getD j 0 * a.getD (i - j) 0 else s) 0

/-- `operator*=(const Poly&)` (Poly.cpp 139-158). -/
def mulC (c a : List F) : List F :=
  (List.range ((degC c + 1) * (degC a + 1))).map (convC c a)

/-- The loops `while (x.get_deg() >= n) x.coeff.pop_back()` (Poly.cpp 190-192, 201-203), run on the
reversed vector. With `n ≥ 1` a vector that is not empty is never emptied. -/
def truncRev (n : ℕ) : List F → List F
  | [] => []
  | x :: l => if degC (x :: l).reverse ≥ n then truncRev n l else x :: l

/-- `while (x.get_deg() >= n) x.coeff.pop_back()` (Poly.cpp 190-192, 201-203). -/
def truncC (c : List F) (n : ℕ) : List F := (truncRev n c.reverse).reverse

/-- One pass of the Newton iteration for the inverse of `f` (Poly.cpp 182-193), the pass `i`. -/
def newtonStep (f : List F) (gi : List F) (i : ℕ) : List F :=
  let q := smulC gi 2
  let tmp := mulC (mulC gi gi) f
  truncC (subC q tmp) (2 ^ i)

/-- The Newton iteration (Poly.cpp 177-193): the passes `1, ..., k` starting with the constant 1. -/
def newtonC (f : List F) (k : ℕ) : List F :=
  (List.range k).foldl (fun gi i => newtonStep f gi (i + 1)) [1]

/-- `fast_euclidean_division` (Poly.cpp 166-219). -/
def divC (a z : List F) : Except Err (List F × List F) :=
  if a = [] ∨ z = [] then .error .outOfRange
  else if degC a < degC z then .ok ([0], a)
  else do
    let b ← shrink z
    let b := sdivC b (b.getLastD 0)
    let m := degC a - degC b
    let k := Nat.clog 2 (m + 1)
    let f ← rev b
    let gi := newtonC f k
    let s ← rev a
    let s := mulC s gi
    let s := truncC s (m + 1)
    let e := m - degC s
    let s ← rev s
    let s := List.replicate e 0 ++ s
    let r := subC a (mulC b s)
    let s := sdivC s (z.getD (degC z) 0)
    .ok (s, r)

/-- The public operators on polynomials throw for an empty vector (every one of them calls
`get_deg`). -/
def binop (op : List F → List F → List F) (a b : List F) : Except Err (List F) :=
  if a = [] ∨ b = [] then .error .outOfRange else .ok (op a b)

/-- `operator+` and `operator+=` (Poly.cpp 82-97, 127-131). -/
def add (a b : List F) : Except Err (List F) := binop addC a b
/-- `operator-` and `operator-=` (Poly.cpp 65-80, 133-137). -/
def sub (a b : List F) : Except Err (List F) := binop subC a b
/-- `operator*` and `operator*=` of two polynomials (Poly.cpp 139-164). -/
def mul (a b : List F) : Except Err (List F) := binop mulC a b
/-- `operator*` and `operator*=` by a field element (Poly.cpp 99-105, 115-119). -/
def smul (a : List F) (x : F) : Except Err (List F) :=
  if a = [] then .error .outOfRange else .ok (smulC a x)
/-- `operator/` and `operator/=` by a field element (Poly.cpp 107-113, 121-125). -/
def sdiv (a : List F) (x : F) : Except Err (List F) :=
  if a = [] then .error .outOfRange else .ok (sdivC a x)
/-- `operator/` of two polynomials (Poly.cpp 221-223). -/
def div (a b : List F) : Except Err (List F) := (divC a b).map Prod.fst
/-- `operator%` (Poly.cpp 225-227). -/
def mod (a b : List F) : Except Err (List F) := (divC a b).map Prod.snd

/-- The loop of `gcd` (Poly.cpp 233-238). `n` bounds the number of passes. -/
def gcdLoop : ℕ → List F → List F → Except Err (List F)
  | 0, _, _ => .error .bound
  | n + 1, a, b =>
    if b = [] then .error .outOfRange
    else if degC b ≠ 0 ∨ b.getD 0 0 ≠ 0 then
      match mod a b with
      | .error e => .error e
      | .ok h => gcdLoop n b h
    else .ok a

/-- `gcd` (Poly.cpp 229-241). -/
def gcd (c d : List F) : Except Err (List F) := gcdLoop (d.length + 1) c d

/-- The loop that computes a power of `x + Delta` modulo a polynomial (Poly.cpp 273-276). -/
def powLoop (multi q : List F) : ℕ → List F → Except Err (List F)
  | 0, master => .ok master
  | n + 1, master =>
    match mod (mulC master multi) q with
    | .error e => .error e
    | .ok r => powLoop multi q n r

/-- One pass of the inner loop of `roots` (Poly.cpp 258-295) with the random number `Delta`: the
polynomial at the end of the queue is replaced by a divisor and the quotient. `s` is
`(FFInt(0).p - 1) / 2`. -/
def split (s : ℕ) (q : List F) (delta : F) : Except Err (List F × List F) := do
  let master ← powLoop [delta, 1] q s (resize [1] (degC q + 2))
  let master := master.set 0 (master.getD 0 0 - 1)
  let h ← gcd q master
  let f ← div q h
  let h ← shrink h
  let f ← shrink f
  .ok (h, f)

/-- The parts of the outer loop of `roots` that draw no random number (Poly.cpp 257, 297-304): as
long as the polynomial at the end of the queue (here: the head of the list) is constant it is
removed, if it is linear its root is stored. The loops that the C++ code nests here (one `if`, one
`while`, the outer `while`) remove the elements in the same order. -/
def settle : List (List F) → List F → List (List F) × List F
  | [], rs => ([], rs)
  | q :: qs, rs =>
    if degC q = 0 then settle qs rs
    else if degC q = 1 then settle qs (rs ++ [-q.getD 0 0 / q.getD 1 0])
    else (q :: qs, rs)

/-- The outer loop of `roots` (Poly.cpp 257-305) with the random numbers `draws`. The result `none`
means that the loop asks for a further random number. -/
def rootsLoop (s : ℕ) : List F → List (List F) → List F → Except Err (Option (List F))
  | [], queue, rs =>
    match settle queue rs with
    | ([], rs) => .ok (some rs)
    | (_ :: _, _) => .ok none
  | d :: ds, queue, rs =>
    match settle queue rs with
    | ([], rs) => .ok (some rs)
    | (q :: qs, rs) =>
      match split s q d with
      | .error e => .error e
      | .ok (h, f) => rootsLoop s ds (f :: h :: qs) rs

/-- The loop of `roots` that removes the factors `x` (Poly.cpp 250-253). -/
def stripZeros : List F → List F → Except Err (List F × List F)
  | [], _ => .error .outOfRange
  | x :: l, rs => if x = 0 then stripZeros l (rs ++ [0]) else .ok (x :: l, rs)

/-- `Poly::roots` (Poly.cpp 243-308) with the random numbers `draws`; `s` is `(p - 1) / 2`. -/
def roots (s : ℕ) (c : List F) (draws : List F) : Except Err (Option (List F)) := do
  let a ← shrink c
  let a := sdivC a (a.getLastD 0)
  let (a, rs) ← stripZeros a []
  rootsLoop s draws [a] rs

/-- `operator<<` (Poly.cpp 310-343). `shw` is the output of a `FFInt` (its number in decimal,
FFInt.cpp 340-343). The loop over `i = deg - 1, ..., 2` runs over a list of indices. -/
def print (shw : F → String) (c : List F) : String :=
  if c = [] then "0"
  else if degC c = 0 then shw (c.getD 0 0)
  else if degC c = 1 ∧ c.getD 0 0 ≠ 0 then shw (c.getD 1 0) ++ "x+" ++ shw (c.getD 0 0)
  else if degC c = 1 ∧ c.getD 0 0 = 0 then shw (c.getD 1 0) ++ "x"
  else
    let out := shw (c.getD (degC c) 0) ++ "x^" ++ toString (degC c)
    let out := ((List.range (degC c - 2)).reverse.map (· + 2)).foldl
      (fun out i => if c.getD i 0 ≠ 0 then out ++ "+" ++ shw (c.getD i 0) ++ "x^" ++ toString i
        else out) out
    let out := if c.getD 1 0 ≠ 0 then out ++ "+" ++ shw (c.getD 1 0) ++ "x" else out
    if c.getD 0 0 ≠ 0 then out ++ "+" ++ shw (c.getD 0 0) else out

end PolyC

end FireFly
