import Mathlib.Data.List.Sort
import Verif.Model.Machine
/-!
# Small helpers of source/utils.cpp: comparisons, shift enumeration, bunch sizes

Exponent vectors are `List Nat` (entries are `uint32_t`).
-/
namespace FireFly

/-- Loop of `a_grt_b` (source/utils.cpp 131-142): `k` is `i + 1`, running down from `a.size()`.
`b[i]` beyond the end of `b` would be undefined behaviour; the theorems assume equal lengths. -/
def grtLoop (a b : List Nat) : Nat → Bool
  | 0 => false
  | i + 1 =>
    if a.getD i 0 = b.getD i 0 then grtLoop a b i
    else if a.getD i 0 > b.getD i 0 then true
    else false

/-- `a_grt_b` (source/utils.cpp 131-142). -/
def aGrtB (a b : List Nat) : Bool := grtLoop a b a.length

/-- Loop of `a_eq_b` (source/utils.cpp 144-153). -/
def eqLoop (a b : List Nat) : Nat → Bool
  | 0 => true
  | i + 1 => if a.getD i 0 = b.getD i 0 then eqLoop a b i else false

/-- `a_eq_b` (source/utils.cpp 144-153). -/
def aEqB (a b : List Nat) : Bool := eqLoop a b a.length

/-- Sum of the entries in `uint32_t` arithmetic (source/utils.cpp 156-161). -/
def degSum (a : List Nat) : Nat := a.foldl (fun s e => (s + e) % 2 ^ 32) 0

/-- `a_grt_b_s` (source/utils.cpp 155-169). -/
def aGrtBS (a b : List Nat) : Bool :=
  if degSum a < degSum b then false
  else if degSum a = degSum b then aGrtB b a
  else true

/-- `std::next_permutation`: `none` if the range is the last permutation. The standard algorithm:
find the longest non-increasing suffix, swap the element `x` before it with the last element of the
suffix that exceeds it, reverse the suffix. -/
def nextPerm : List Nat → Option (List Nat)
  | [] => none
  | x :: l =>
    match nextPerm l with
    | some l' => some (x :: l')
    | none =>
      -- `l` is non-increasing; split it after the last element greater than `x`
      let big := l.takeWhile (fun y => x < y)
      let small := l.dropWhile (fun y => x < y)
      match big.getLast? with
      | none => none
      | some y => some (y :: (big.dropLast ++ x :: small).reverse)

/-- `generate_next_permutation` (source/utils.cpp 171-199). The new vector has
`num_of_ones + 1` ones at the end; `new_per[i]` is written for `i = size-1 .. size-1-num_of_ones`. -/
def generateNextPermutation (cur : List Nat) : Bool × List Nat :=
  match nextPerm cur with
  | some l => (true, l)
  | none =>
    let ones := cur.count 1
    if ones = cur.length then (false, List.replicate cur.length 0)
    else (true, List.replicate (cur.length - (ones + 1)) 0 ++ List.replicate (ones + 1) 1)

/-- The fast exponentiation computing `size` in `generate_possible_shifts`
(source/utils.cpp 203-214), in 64-bit `size_t` arithmetic. -/
def shiftSizeLoop (size exp base : Nat) : Nat :=
  if h : exp = 0 then size
  else shiftSizeLoop (if exp % 2 = 1 then size * base % 2 ^ 64 else size) (exp / 2)
    (base * base % 2 ^ 64)
termination_by exp
decreasing_by exact Nat.div_lt_self (Nat.pos_of_ne_zero h) (by decide)

/-- The tuple of binary digits of `counter` (source/utils.cpp 221-229): digit `i` (of weight `2^i`)
is stored at position `r - i - 1`. -/
def shiftTuple : Nat → Nat → List Nat
  | 0, _ => []
  | r + 1, v => shiftTuple r (v / 2) ++ [v % 2]

/-- Insertion of one element in front of the first element that is not smaller. -/
def sortInsert {α : Type} (lt : α → α → Bool) (x : α) : List α → List α
  | [] => [x]
  | y :: ys => if lt y x then y :: sortInsert lt x ys else x :: y :: ys

/-- `std::sort(begin, end, lt)`. The standard does not fix the algorithm; it is modelled by an
insertion sort. Every use in FireFly sorts distinct elements by a strict total order, and then the
sorted sequence is unique, whatever the algorithm. -/
def stdSort {α : Type} (lt : α → α → Bool) (l : List α) : List α :=
  l.foldr (sortInsert lt) []

/-- `generate_possible_shifts` (source/utils.cpp 201-240). `std::sort` with the comparison
`a_grt_b_s(b, a)`, a strict total order on vectors of length `r` (C27). -/
def generatePossibleShifts (r : Nat) : List (List Nat) :=
  let size := shiftSizeLoop 1 r 2
  let result := List.replicate r 0 ::
    ((List.range (size - 1)).drop 1).map (fun counter => shiftTuple r counter)
  stdSort (fun a b => aGrtBS b a) result

/-- The bit smearing of `compute_bunch_size` (source/utils.cpp 313-319): floor power of two in
`uint32_t` arithmetic. -/
def floorPow2 (x : Nat) : Nat :=
  let t := x ||| (x >>> 1)
  let t := t ||| (t >>> 2)
  let t := t ||| (t >>> 4)
  let t := t ||| (t >>> 8)
  let t := t ||| (t >>> 16)
  ((t + 1) % 2 ^ 32) >>> 1

/-- `compute_bunch_size` (source/utils.cpp 305-330). `none`: integer division by zero. -/
def computeBunchSize (queue thr maxb : Nat) : Option Nat :=
  if maxb = 1 then some 1
  else if thr = 0 then none
  else
    let tmp := queue / thr
    if tmp ≠ 0 then
      let t := floorPow2 tmp
      let t := if (t * 2) % 2 ^ 32 < queue ∧ (t * thr) % 2 ^ 32 ≠ queue then (t * 2) % 2 ^ 32 else t
      some (min maxb t)
    else some 1

/-- Loop of `compute_job_number` (source/utils.cpp 332-344); the remaining queue length is a
`uint32_t` that wraps around. -/
def jobLoop (total maxb : Nat) : Nat → Nat → Option Nat
  | 0, q => some q
  | k + 1, q => do
    let b ← computeBunchSize q total maxb
    let q' := u32 ((q : Int) - b)
    if q' = 0 then some 0 else jobLoop total maxb k q'

/-- `compute_job_number` (source/utils.cpp 332-344). -/
def computeJobNumber (queue threads total maxb : Nat) : Option Nat := do
  let q ← jobLoop total maxb threads queue
  some (u32 ((queue : Int) - q))

end FireFly
