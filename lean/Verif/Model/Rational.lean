import Mathlib.Data.Int.GCD
/-!
# `RationalNumber`, Chinese remaindering and rational reconstruction

`mpz_class` is `Int`; `/` and `%` of GMP's C++ interface truncate (`Int.tdiv`, `Int.tmod`);
`gcd` is `Int.gcd` (non-negative). Division by zero (GMP aborts) is `none`.
-/
namespace FireFly

/-- `RationalNumber` (source/include/firefly/RationalNumber.hpp 32-52). -/
structure RationalNumber where
  num : Int
  den : Int
deriving DecidableEq, Repr

namespace RationalNumber

/-- `RationalNumber(numerator_, denominator_)` (source/RationalNumber.cpp 23-32). -/
def ctor (n d : Int) : Option RationalNumber :=
  let g : Int := Int.gcd n d
  if g = 0 then none else
  let num := Int.tdiv n g
  let den := Int.tdiv d g
  if den < 0 then some ⟨-num, -den⟩ else some ⟨num, den⟩

/-- Default constructor (source/RationalNumber.cpp 34): both `mpz_class` members are 0. -/
def dflt : RationalNumber := ⟨0, 0⟩

/-- `operator*=` and `operator*` (source/RationalNumber.cpp 36-49 and 80-93); both modify `*this`. -/
def mulAssign (a b : RationalNumber) : Option RationalNumber :=
  let num := a.num * b.num
  let den := a.den * b.den
  let num' := if den < 0 then -num else num
  let den' := if den < 0 then -den else den
  let g : Int := Int.gcd num' den'
  if g = 0 then none else some ⟨Int.tdiv num' g, Int.tdiv den' g⟩

/-- `operator-=` (source/RationalNumber.cpp 51-66). -/
def subAssign (a b : RationalNumber) : Option RationalNumber :=
  let num := if b.den ≠ a.den then a.num * b.den - b.num * a.den else a.num - b.num
  let den := if b.den ≠ a.den then a.den * b.den else a.den
  let num' := if den < 0 then -num else num
  let den' := if den < 0 then -den else den
  let g : Int := Int.gcd num' den'
  if g = 0 then none else some ⟨Int.tdiv num' g, Int.tdiv den' g⟩

/-- `operator+=` (source/RationalNumber.cpp 68-78). No sign normalisation here. -/
def addAssign (a b : RationalNumber) : Option RationalNumber :=
  let num := if b.den ≠ a.den then a.num * b.den + b.num * a.den else a.num + b.num
  let den := if b.den ≠ a.den then a.den * b.den else a.den
  let g : Int := Int.gcd num den
  if g = 0 then none else some ⟨Int.tdiv num g, Int.tdiv den g⟩

/-- unary `operator-` (source/RationalNumber.cpp 95-97). -/
def neg (a : RationalNumber) : Option RationalNumber := ctor (-a.num) a.den

/-- `operator==` (source/RationalNumber.cpp 99-101). -/
def eq (a b : RationalNumber) : Bool := a.num == b.num && a.den == b.den

/-- `gcd(RationalNumber, RationalNumber)` (source/RationalNumber.cpp 123-127). -/
def rgcd (a b : RationalNumber) : Option RationalNumber :=
  ctor (Int.gcd (a.num * b.den) (b.num * a.den)) (a.den * b.den)

end RationalNumber

/-- Contract of `mpz_invert(rop, x, m)` (GMP manual) for coprime `x`, `m`: a non-negative inverse.
(Nothing is assumed when the arguments are not coprime: `rop` is undefined then.) -/
def InvertSpec (inv : Int → Int → Int) : Prop :=
  ∀ x m : Int, 0 < m → Int.gcd x m = 1 → 0 ≤ inv x m ∧ m ∣ inv x m * x - 1

/-- A function meeting the contract of `mpz_invert`. -/
def mpzInvert (x m : Int) : Int := Int.gcdA x m % m

/-- `run_chinese_remainder` (source/utils.cpp 24-42), with `mpz_invert` a parameter. -/
def runChineseRemainder (inv : Int → Int → Int) (p1 p2 : Int × Int) : Int × Int :=
  let n := p1.2 * p2.2
  let tmp := inv p2.2 p1.2
  let m1 := tmp * p2.2
  let m2 := Int.tmod (1 - m1) n
  let m2 := if m2 < 0 then m2 + n else m2
  let a := Int.tmod (m1 * p1.1 + m2 * p2.1) n
  (a, n)

/-- Extended Euclid state of `get_rational_coef`: `t`, `newt`, `r`, `newr` (`mpz_class`). -/
structure EuState where
  t : Int
  newt : Int
  r : Int
  newr : Int
deriving DecidableEq, Repr

/-- Loop body (source/utils.cpp 55-61). -/
def EuState.step (s : EuState) : EuState :=
  let q := Int.tdiv s.r s.newr
  { t := s.newt, newt := s.t - q * s.newt, r := s.newr, newr := s.r - q * s.newr }

theorem EuState.step_natAbs_lt (s : EuState) (h : s.newr ≠ 0) :
    s.step.newr.natAbs < s.newr.natAbs := by
  have h1 : s.step.newr = Int.tmod s.r s.newr := by
    simp only [EuState.step]
    have := Int.mul_tdiv_add_tmod s.r s.newr
    rw [Int.mul_comm] at this; omega
  rw [h1, Int.natAbs_tmod]
  exact Nat.mod_lt _ (by omega)

/-- `while (2 * newr * newr > p)` (source/utils.cpp 54-62). `none`: division by zero. -/
def ratLoop (p : Int) (s : EuState) : Option EuState :=
  if 2 * s.newr * s.newr > p then
    if _h : s.newr = 0 then none else ratLoop p s.step
  else some s
termination_by s.newr.natAbs
decreasing_by exact s.step_natAbs_lt _h

/-- `get_rational_coef` (source/utils.cpp 44-74). -/
def getRationalCoef (a p : Int) : Option (Bool × RationalNumber) := do
  let s ← ratLoop p { t := 0, newt := 1, r := p, newr := a }
  let bad := 2 * s.newt * s.newt > p ∨ Int.gcd s.newr s.newt ≠ 1
  let newr := if bad then 1 else s.newr
  let newt := if bad then 1 else s.newt
  let rn ← if newt < 0 then RationalNumber.ctor (-newr) (Int.natAbs newt)
           else RationalNumber.ctor newr newt
  some (!decide bad, rn)

/-- Loop state of `get_rational_coef_mqrr`. -/
structure MqState where
  n : Int
  d : Int
  t0 : Int
  t1 : Int
  r0 : Int
  r1 : Int
  T : Int
deriving DecidableEq, Repr

/-- Loop body of MQRR (source/utils.cpp 103-116). -/
def MqState.step (s : MqState) : MqState :=
  let q := Int.tdiv s.r0 s.r1
  { n := if q > s.T then s.r1 else s.n
    d := if q > s.T then s.t1 else s.d
    T := if q > s.T then q else s.T
    t0 := s.t1, t1 := s.t0 - q * s.t1
    r0 := s.r1, r1 := s.r0 - q * s.r1 }

theorem MqState.step_natAbs_lt (s : MqState) (h : s.r1 ≠ 0) :
    s.step.r1.natAbs < s.r1.natAbs := by
  have h1 : s.step.r1 = Int.tmod s.r0 s.r1 := by
    simp only [MqState.step]
    have := Int.mul_tdiv_add_tmod s.r0 s.r1
    rw [Int.mul_comm] at this; omega
  rw [h1, Int.natAbs_tmod]
  exact Nat.mod_lt _ (by omega)

/-- `while (r1 != 0 && r0 > T)` (source/utils.cpp 102-117). -/
def mqLoop (s : MqState) : MqState :=
  if _h : s.r1 ≠ 0 ∧ s.r0 > s.T then mqLoop s.step else s
termination_by s.r1.natAbs
decreasing_by exact s.step_natAbs_lt _h.1

/-- `mpz_sizeinbase(p, 2)`: number of bits of `|p|` (1 for 0). -/
def sizeInBase2 (p : Int) : Nat := if p = 0 then 1 else Nat.log2 p.natAbs + 1

/-- `get_rational_coef_mqrr` (source/utils.cpp 80-129). -/
def getRationalCoefMqrr (u p : Int) : Option (Bool × RationalNumber) :=
  let T : Int := 1024 * sizeInBase2 p
  if u = 0 then (RationalNumber.ctor 0 1).map (fun rn => (decide (p > T), rn))
  else do
    let s := mqLoop { n := 0, d := 0, t0 := 0, t1 := 1, r0 := p, r1 := u, T := T }
    let bad := s.d = 0 ∨ Int.gcd s.n s.d ≠ 1
    let n := if bad then 1 else s.n
    let d := if bad then 1 else s.d
    let rn ← if d < 0 then RationalNumber.ctor (-n) (Int.natAbs d) else RationalNumber.ctor n d
    some (!decide bad, rn)

end FireFly
