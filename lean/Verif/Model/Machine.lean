import Mathlib.Data.Rat.Floor
import Mathlib.Data.Int.Log
/-!
# Machine words and `long double`

Layer A of the model: 64-bit words with explicit wrap-around and a rounding model of the x87
`long double` used in `mod_mul` (source/FFInt.cpp 356-370).

A `uint64_t` is a `Nat` below `2^64`, an `int64_t` is an `Int` in `[-2^63, 2^63)`.
-/
namespace FireFly

/-- Reduction of a mathematical integer to a `uint64_t` (C++ unsigned arithmetic is modulo `2^64`). -/
def u64 (x : Int) : Nat := (x % 2 ^ 64).toNat

/-- Reduction of a mathematical integer to a `uint32_t`. -/
def u32 (x : Int) : Nat := (x % 2 ^ 32).toNat

/-- Conversion `uint64_t -> int64_t` (two's complement reinterpretation). -/
def i64 (x : Nat) : Int := if x < 2 ^ 63 then (x : Int) else (x : Int) - 2 ^ 64

/-- Non-negative values representable with a 64-bit significand. The exponent range of the
80-bit format is not modelled: all values occurring in `mod_mul` are `0` or in `[2^-63, 2^127)`,
far inside the normal range `[2^-16382, 2^16384)`. -/
def IsFloat (y : ℚ) : Prop := ∃ (k : ℕ) (e : ℤ), k < 2 ^ 64 ∧ y = k * (2 : ℚ) ^ e

/-- A `long double` arithmetic: results of `+,*,/` are the exact result mapped by `rnd`, which is
some round-to-nearest function (any rule for ties) into the 64-bit significand numbers. -/
class LongDouble where
  rnd : ℚ → ℚ
  isFloat_rnd : ∀ x, 0 ≤ x → IsFloat (rnd x)
  nearest : ∀ x y, 0 ≤ x → IsFloat y → |rnd x - x| ≤ |y - x|

export LongDouble (rnd)

/-- Conversion `long double -> uint64_t`: truncation; undefined behaviour (`none`) if the
truncated value does not fit. -/
def ldToU64 (x : ℚ) : Option Nat :=
  if 0 ≤ x ∧ x < 2 ^ 64 then some ⌊x⌋.toNat else none

/-- `mod_mul` (source/FFInt.cpp 356-370).
```
if (a >= m) a %= m;  if (b >= m) b %= m;
x = a;  c = x * b / m;  r = (int64_t)(a * b - c * m) % (int64_t)m;
return r < 0 ? r + m : r;
```
`none` is undefined behaviour: modulus 0, or an out-of-range float to integer conversion. -/
def modMul [LongDouble] (a b m : Nat) : Option Nat :=
  if m = 0 then none else
  let a := if a ≥ m then a % m else a
  let b := if b ≥ m then b % m else b
  let x : ℚ := rnd a                              -- x = a
  match ldToU64 (rnd (rnd (x * rnd b) / rnd m)) with   -- c = x * b / m
  | none => none
  | some c =>
    let d := u64 ((u64 ((a : Int) * b) : Int) - u64 ((c : Int) * m))  -- a*b - c*m, unsigned
    let r := Int.tmod (i64 d) (i64 m)
    some (if r < 0 then u64 (r + m) else u64 r)

/-- Round half to even at a 64-bit significand: the x87 default. Executable instance of
`LongDouble`. For `x > 0` let `e = ⌊log2 x⌋ - 63`, so that `2^63 ≤ x/2^e < 2^64`. -/
def rneInt (y : ℚ) : ℤ :=
  let f := ⌊y⌋
  let d := y - f
  if d < 1/2 then f else if 1/2 < d then f + 1 else if f % 2 = 0 then f else f + 1

def rne64 (x : ℚ) : ℚ :=
  if x ≤ 0 then 0 else
  let e : ℤ := Int.log 2 x - 63
  (rneInt (x / (2:ℚ) ^ e) : ℚ) * (2:ℚ) ^ e

end FireFly
