import Verif.Model.Machine
/-!
# `FFInt` (DEFAULT build)

Layer A. An `FFInt` is its stored word `n : Nat`; the static prime `FFInt::p` is the parameter `p`.
-/
namespace FireFly

/-- Loop state of `mod_inv`: `t`, `newt` are `int64_t`, `r`, `newr` are `uint64_t`. -/
structure InvState where
  t : Int
  newt : Int
  r : Nat
  newr : Nat
deriving DecidableEq, Repr

/-- One iteration of the `while (newr)` loop of `mod_inv` (source/FFInt.cpp 395-403).
`q * newt` and the subtraction are carried out in `uint64_t` (usual arithmetic conversions: the
`int64_t` operands are converted), the result is converted back to `int64_t`. -/
def InvState.step (s : InvState) : InvState :=
  let q := s.r / s.newr
  { t := s.newt
    newt := i64 (u64 ((u64 s.t : Int) - u64 ((q : Int) * u64 s.newt)))
    r := s.newr
    newr := u64 ((s.r : Int) - u64 ((q : Int) * s.newr)) }

theorem InvState.step_newr_lt (s : InvState) (h : s.newr ≠ 0) : s.step.newr < s.newr := by
  have h1 : s.r % s.newr < s.newr := Nat.mod_lt _ (Nat.pos_of_ne_zero h)
  have h2 := Nat.div_add_mod s.r s.newr
  simp only [InvState.step, u64]
  have h3 : ((s.r / s.newr : ℕ) : Int) * s.newr = ((s.r / s.newr * s.newr : ℕ) : Int) := by push_cast; ring
  rw [h3]
  have h4 : s.r / s.newr * s.newr = s.newr * (s.r / s.newr) := Nat.mul_comm _ _
  rw [h4]
  generalize s.newr * (s.r / s.newr) = w at h2
  omega

/-- The `while (newr)` loop of `mod_inv` (source/FFInt.cpp 394-403). -/
def invLoop (s : InvState) : InvState :=
  if _h : s.newr = 0 then s else invLoop s.step
termination_by s.newr
decreasing_by exact s.step_newr_lt _h

/-- `mod_inv(a, m)` (source/FFInt.cpp 385-406): `return t < 0 ? t + m : t` (the sum is unsigned). -/
def modInv (a m : Nat) : Nat :=
  let s := invLoop { t := 0, newt := 1, r := m, newr := a }
  if s.t < 0 then u64 (s.t + m) else u64 s.t

/-- The loop of `mod_pow` (source/FFInt.cpp 371-383). -/
def modPowLoop [LongDouble] (res base exp m : Nat) : Option Nat :=
  if h : exp = 0 then some res else do
    let res ← if exp % 2 = 1 then modMul res base m else some res
    let base ← modMul base base m
    modPowLoop res base (exp / 2) m
termination_by exp
decreasing_by exact Nat.div_lt_self (Nat.pos_of_ne_zero h) (by decide)

/-- `mod_pow(base, exp, m)` (source/FFInt.cpp 371-383). -/
def modPow [LongDouble] (base exp m : Nat) : Option Nat := modPowLoop 1 base exp m

/-- The integral constructor applied to a `uint64_t` (source/include/firefly/FFInt.hpp 129-140,
branch `n_ >= 0`). -/
def ctorU (p n : Nat) : Nat := if n < p then n else n % p

/-- The integral constructor for a signed `T` with `bits` bits, as called on a value of that type
(source/include/firefly/FFInt.hpp 129-140). The negation `-n_` is carried out in the promoted type:
`int` (32 bits) for types narrower than `int`, else `T`; negating the minimum of that type is
undefined behaviour (`none`). -/
def ctorS (p bits : Nat) (n : Int) : Option Nat :=
  if n ≥ 0 then some (if u64 n < p then u64 n else u64 n % p)
  else if n = -2 ^ (max bits 32 - 1) then none
  else some (u64 ((p : Int) - ((u64 (-n) % p : Nat) : Int)))

/-- The `mpz_class` constructor (source/FFInt.cpp 30-36). `in % p` truncates; `stoull` throws
(`none`) outside `uint64_t`. -/
def ctorZ (p : Nat) (z : Int) : Option Nat :=
  let i := Int.tmod z p
  let i := if i < 0 then (p : Int) + i else i
  if 0 ≤ i ∧ i < 2 ^ 64 then some i.toNat else none

/-- `operator+=` (source/FFInt.cpp 131-134, DEFAULT). -/
def ffAddAssign (p a b : Nat) : Nat :=
  if u64 ((p : Int) - b) > a then u64 ((a : Int) + b) else u64 ((u64 ((a : Int) + b) : Int) - p)

/-- `operator-=` (source/FFInt.cpp 136-139). -/
def ffSubAssign (p a b : Nat) : Nat :=
  if b > a then u64 ((u64 ((a : Int) - b) : Int) + p) else u64 ((a : Int) - b)

/-- `operator*=` (source/FFInt.cpp 141-144). -/
def ffMulAssign [LongDouble] (p a b : Nat) : Option Nat := modMul a b p

/-- `operator/=` (source/FFInt.cpp 146-153). -/
def ffDivAssign [LongDouble] (p a b : Nat) : Option Nat :=
  if b = 0 then some 0 else modMul a (modInv b p) p

/-- `operator+` (source/FFInt.cpp 181-183): the sum passes through the integral constructor. -/
def ffAdd (p a b : Nat) : Nat := ctorU p (ffAddAssign p a b)

/-- `operator-` (binary) (source/FFInt.cpp 185-187). -/
def ffSub (p a b : Nat) : Nat := ctorU p (ffSubAssign p a b)

/-- `operator*` (source/FFInt.cpp 331-333). -/
def ffMul [LongDouble] (p a b : Nat) : Option Nat := (modMul a b p).map (ctorU p)

/-- `operator/` (source/FFInt.cpp 325-329). -/
def ffDiv [LongDouble] (p a b : Nat) : Option Nat :=
  if b = 0 then some (ctorU p 0) else (modMul a (modInv b p) p).map (ctorU p)

/-- unary `operator-` (source/FFInt.cpp 190-192): `FFInt(p - n)`. -/
def ffNeg (p a : Nat) : Nat := ctorU p (u64 ((p : Int) - a))

/-- `operator==` (source/FFInt.cpp 288-290). -/
def ffEq (a b : Nat) : Bool := a == b

/-- `operator++` and `operator--`, pre- and postfix (source/FFInt.cpp 198-220): they increment
a temporary and return it; `*this` keeps its value. Result: (new `*this`, returned value). -/
def ffIncr (p a : Nat) : Nat × Nat := (a, ffAddAssign p (ctorU p a) (ctorU p 1))
def ffDecr (p a : Nat) : Nat × Nat := (a, ffSubAssign p (ctorU p a) (ctorU p 1))

/-- `FFInt::pow(const FFInt&)` (source/FFInt.cpp 155-179). In the fast track the result passes
through the integral constructor (`res = mod_mul(...)`). -/
def ffPow [LongDouble] (p a e : Nat) : Option Nat :=
  if e = 2 then (modMul a a p).map (ctorU p)
  else if e < p / 2 then modPow a e p
  else modPow (modInv a p) (u64 ((u64 ((p : Int) - e) : Int) - 1)) p

/-- `FFInt::pow<T>` for an integral `T` of `bits` bits, signed if `e < 0` is possible
(source/include/firefly/FFInt.hpp 149-173). Negating the minimal value is undefined. -/
def ffPowInt [LongDouble] (p bits : Nat) (a : Nat) (e : Int) : Option Nat :=
  if e = 2 then (modMul a a p).map (ctorU p)
  else if e ≥ 0 then modPow a (u64 e) p
  else if e = -2 ^ (max bits 32 - 1) then none
  else modPow (modInv a p) (u64 (-e)) p

/-- `to_neg_int` (source/FFInt.cpp 226-228): `-static_cast<int>(n)`; the conversion keeps the low
32 bits, negating `INT_MIN` is undefined. -/
def toNegInt (n : Nat) : Option Int :=
  let k : Nat := n % 2 ^ 32
  let i : Int := if k < 2 ^ 31 then (k : Int) else (k : Int) - 2 ^ 32
  if i = -2 ^ 31 then none else some (-i)

end FireFly
