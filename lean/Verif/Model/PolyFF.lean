import Verif.Tac
/-!
# `PolynomialFF` (source/PolynomialFF.cpp, source/include/firefly/PolynomialFF.hpp)

The algorithms are modelled over an arbitrary field `F` with decidable equality and the convention
`x / 0 = 0`; `FFInt` with a prime modulus is such a field (C01, C04).

An `ff_map` (`std::unordered_map<std::vector<uint32_t>, FFInt, UintHasher>`, a typedef in
source/include/firefly/PolynomialFF.hpp 28) is an association list without repeated keys; the order
of the list stands for the (unspecified) iteration order and every theorem quantifies over all
orders.
-/
namespace FireFly

/-- `ff_map` (source/include/firefly/PolynomialFF.hpp 28). -/
abbrev FFMap (F : Type) := List (List ℕ × F)

namespace FFMap
variable {F : Type}

/-- `unordered_map::find`, as used throughout source/PolynomialFF.cpp (e.g. 76, 92, 113). -/
def find? (m : FFMap F) (k : List ℕ) : Option F := List.lookup k m

/-- `unordered_map::emplace` (e.g. source/PolynomialFF.cpp 79): does nothing if the key exists. -/
def emplace (m : FFMap F) (k : List ℕ) (v : F) : FFMap F :=
  if (m.find? k).isSome then m else m ++ [(k, v)]

/-- assignment through `operator[]` or through an iterator (e.g. source/PolynomialFF.cpp 81, 136). -/
def set (m : FFMap F) (k : List ℕ) (v : F) : FFMap F :=
  if (m.find? k).isSome then m.map (fun t => if t.1 = k then (k, v) else t) else m ++ [(k, v)]

/-- `unordered_map::erase(key)` (e.g. source/PolynomialFF.cpp 84). -/
def erase (m : FFMap F) (k : List ℕ) : FFMap F := m.filter (fun t => t.1 ≠ k)

end FFMap

variable {F : Type} [Field F] [DecidableEq F]

/-- The inner product loop of `calc` (source/PolynomialFF.cpp 36-40), for `n` variables.
`x[i].pow(term.first[i])` is the power (C04). Both vectors must have at least `n` entries, which
the callers check. -/
def termProduct (n : ℕ) (x : List F) (e : List ℕ) : F :=
  (List.range n).foldl (fun p i => p * x.getD i 0 ^ e.getD i 0) 1

/-- `PolynomialFF::calc` (source/PolynomialFF.cpp 30-45). `none` is the undefined behaviour of
reading beyond the end of `x` or of an exponent vector. -/
def PolyFF.calc (n : ℕ) (coefs : FFMap F) (x : List F) : Option F :=
  if coefs = [] ∨ (n ≤ x.length ∧ ∀ t ∈ coefs, n ≤ t.1.length) then
    some (coefs.foldl (fun res t => res + t.2 * termProduct n x t.1) 0)
  else none

/-- The loop of `PolynomialFF::calc_n_m_1` (source/PolynomialFF.cpp 59-69): the value with the first
variable set to one; `x` holds the remaining `n - 1` variables. Same treatment of undefined reads. -/
def PolyFF.calcNM1 (n : ℕ) (coefs : FFMap F) (x : List F) : Option F :=
  if coefs = [] ∨ (n - 1 ≤ x.length ∧ ∀ t ∈ coefs, n ≤ t.1.length) then
    some (coefs.foldl (fun res t => res + t.2 * termProduct (n - 1) x t.1.tail) 0)
  else none

/-- One step of the loops of `operator+` (source/PolynomialFF.cpp 75-86, 91-102). -/
def PolyFF.addStep (m : FFMap F) (el : List ℕ × F) : FFMap F :=
  match m.find? el.1 with
  | none => m.emplace el.1 el.2
  | some v => if v + el.2 = 0 then (m.set el.1 (v + el.2)).erase el.1 else m.set el.1 (v + el.2)

/-- `operator+` (source/PolynomialFF.cpp 71-106): the smaller operand is added into a copy of the
larger one. -/
def PolyFF.add (a b : FFMap F) : FFMap F :=
  if a.length < b.length then a.foldl PolyFF.addStep b else b.foldl PolyFF.addStep a

/-- One step of `operator-` (source/PolynomialFF.cpp 111-123). -/
def PolyFF.subStep (m : FFMap F) (el : List ℕ × F) : FFMap F :=
  match m.find? el.1 with
  | none => m.emplace el.1 (0 - el.2)
  | some v => if v - el.2 = 0 then (m.set el.1 (v - el.2)).erase el.1 else m.set el.1 (v - el.2)

/-- `operator-` (source/PolynomialFF.cpp 108-127). -/
def PolyFF.sub (a b : FFMap F) : FFMap F := b.foldl PolyFF.subStep a

/-- One step of `operator+=` (source/PolynomialFF.cpp 153-163): zero coefficients are skipped. -/
def PolyFF.addAssignStep (m : FFMap F) (el : List ℕ × F) : FFMap F :=
  if el.2 ≠ 0 then
    match m.find? el.1 with
    | none => m.set el.1 el.2
    | some v => if v + el.2 = 0 then (m.set el.1 (v + el.2)).erase el.1 else m.set el.1 (v + el.2)
  else m

/-- `operator+=` on the coefficients (source/PolynomialFF.cpp 151-171). -/
def PolyFF.addAssign (a b : FFMap F) : FFMap F := b.foldl PolyFF.addAssignStep a

/-- One step of `operator-=` (source/PolynomialFF.cpp 130-140). -/
def PolyFF.subAssignStep (m : FFMap F) (el : List ℕ × F) : FFMap F :=
  if el.2 ≠ 0 then
    match m.find? el.1 with
    | none => m.set el.1 (-el.2)
    | some v => if v - el.2 = 0 then (m.set el.1 (v - el.2)).erase el.1 else m.set el.1 (v - el.2)
  else m

/-- `operator-=` on the coefficients (source/PolynomialFF.cpp 129-149). -/
def PolyFF.subAssign (a b : FFMap F) : FFMap F := b.foldl PolyFF.subAssignStep a

/-- `operator*(PolynomialFF, FFInt)` and the coefficient part of `operator*=`
(source/PolynomialFF.cpp 173-181, 195-206). -/
def PolyFF.scale (a : FFMap F) (c : F) : FFMap F := a.map (fun t => (t.1, t.2 * c))

/-- `operator/(PolynomialFF, FFInt)` and the coefficient part of `operator/=`
(source/PolynomialFF.cpp 184-193, 208-221): multiplication with `1 / ffint`. -/
def PolyFF.divScalar (a : FFMap F) (c : F) : FFMap F := a.map (fun t => (t.1, t.2 * (1 / c)))

/-- Increment of entry `i` in `uint32_t` arithmetic (source/PolynomialFF.cpp 242). -/
def incrAt (e : List ℕ) (i : ℕ) : List ℕ := e.modify i (fun d => (d + 1) % 2 ^ 32)

/-- `PolynomialFF::mul(zi)` (source/PolynomialFF.cpp 236-247). -/
def PolyFF.mulVar (a : FFMap F) (zi : ℕ) : FFMap F :=
  a.foldl (fun m t => m.emplace (incrAt t.1 (zi - 1)) t.2) []

/-- `PolynomialFF::homogenize` (source/PolynomialFF.cpp 249-267), with `uint32_t` sums and
difference. -/
def PolyFF.homogenize (a : FFMap F) (degree : ℕ) : FFMap F :=
  a.foldl (fun m t =>
    let old := t.1.foldl (fun s p => (s + p) % 2 ^ 32) 0
    m.set (((degree + 2 ^ 32 - old) % 2 ^ 32) :: t.1) t.2) []

/-- `PolynomialFF::zero` (source/PolynomialFF.cpp 269-276). -/
def PolyFF.zero (a : FFMap F) : Bool :=
  match a with
  | [] => true
  | [t] => decide (t.2 = 0)
  | _ => false

/-- Total degree as summed up in `max_deg` (source/PolynomialFF.cpp 284-288); an `int` sum, exact
below `2^31`. -/
def totalDeg (e : List ℕ) : ℕ := e.foldl (· + ·) 0

/-- State of the loop of `max_deg` (source/PolynomialFF.cpp 279-300):
`tmp_max`, `tmp_min`, `max_degree`, `min_degree`. -/
structure DegState where
  tmpMax : ℕ
  tmpMin : ℕ
  maxDegree : List ℕ
  minDegree : List ℕ

/-- One iteration of `max_deg` (source/PolynomialFF.cpp 283-299). -/
def degStep (s : DegState) (c : List ℕ) : DegState :=
  let d := totalDeg c
  let s := if s.maxDegree = [] then { s with tmpMax := d, tmpMin := d } else s
  let mx := max d s.tmpMax
  let mn := min d s.tmpMin
  { tmpMax := mx, tmpMin := mn,
    maxDegree := if mx = d then c else s.maxDegree,
    minDegree := if mn = d then c else s.minDegree }

/-- `max_deg`/`min_deg` on a polynomial whose degrees are not cached yet
(source/PolynomialFF.cpp 278-308): the pair `(max_degree, min_degree)`. -/
def PolyFF.degs (a : FFMap F) : List ℕ × List ℕ :=
  let s := (a.map Prod.fst).foldl degStep ⟨0, 0, [], []⟩
  (s.maxDegree, s.minDegree)

/-- `operator*(PolynomialFF, PolynomialFF)` (source/PolynomialFF.cpp 310-333). The exponents are
added in `uint32_t`; a product monomial whose key is already present is *not* added (`emplace`). -/
def PolyFF.mul (a b : FFMap F) : FFMap F :=
  a.foldl (fun m ta => b.foldl (fun m tb =>
    if ta.2 * tb.2 ≠ 0 then
      m.emplace (List.zipWith (fun x y => (x + y) % 2 ^ 32) ta.1 tb.1) (ta.2 * tb.2)
    else m) m) []

/-- `PolynomialFF::mul_shift` (source/PolynomialFF.cpp 335-354). -/
def PolyFF.mulShift (a b : FFMap F) (cur : ℕ) : FFMap F :=
  a.foldl (fun m ta => b.foldl (fun m tb =>
    if ta.2 * tb.2 ≠ 0 then m.emplace (ta.1.set cur (tb.1.getD cur 0)) (ta.2 * tb.2) else m) m) []

/-- `PolynomialFF::bin_coef` (source/PolynomialFF.cpp 414-428). -/
def PolyFF.binCoef (n k : ℕ) : F :=
  let k := if k > n - k then n - k else k
  (List.range k).foldl (fun (res : F) (i : ℕ) => res * ((n : F) - (i : F)) / ((i : F) + 1)) 1

/-- The expansion of `(x_j + shift)^deg` (source/PolynomialFF.cpp 377-397); `FFInt > 0` means
nonzero. The vector of length `n` with entry `d` at position `j` is `(replicate n 0).set j d`. -/
def PolyFF.tmpPowPoly (n j deg : ℕ) (s : F) : FFMap F :=
  if s ≠ 0 then
    (List.range (deg + 1)).foldl (fun (m : FFMap F) k =>
      m.emplace ((List.replicate n 0).set j (deg - k))
        (if k = 0 then 1 else if k = deg then s ^ deg else PolyFF.binCoef deg k * s ^ k)) []
  else [((List.replicate n 0).set j deg, 1)]

/-- The loop over the variables for one monomial in `add_shift` (source/PolynomialFF.cpp 364-404). -/
def PolyFF.powPoly (n : ℕ) (shift : List F) (mon : List ℕ × F) : FFMap F :=
  (List.range n).foldl (fun (pow : FFMap F) j =>
    let deg := mon.1.getD j 0
    if 0 < deg then
      let tmp := PolyFF.tmpPowPoly n j deg (shift.getD j 0)
      if pow = [] then PolyFF.scale tmp mon.2 else PolyFF.mulShift pow tmp j
    else pow) []

/-- `PolynomialFF::add_shift` (source/PolynomialFF.cpp 356-412); `none` is the thrown exception. -/
def PolyFF.addShift (n : ℕ) (coefs : FFMap F) (shift : List F) : Option (FFMap F) :=
  if shift.length ≠ n then none
  else some (coefs.foldl (fun (res : FFMap F) mon =>
    let pow := PolyFF.powPoly n shift mon
    if pow = [] then res else if res = [] then pow else PolyFF.addAssign res pow) [])

/-- `remove_zero_coefs` (source/PolynomialFF.cpp 430-441). -/
def PolyFF.removeZeroCoefs (a : FFMap F) : FFMap F :=
  ((a.filter (fun t => t.2 = 0)).map Prod.fst).foldl (fun m k => m.erase k) a

end FireFly
