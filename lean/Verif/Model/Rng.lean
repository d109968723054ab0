import Verif.Tac
/-!
# The random number generators of `BaseReconst` (source/BaseReconst.cpp)

The static members `state`, `s[4]` and `splitmix64_state` are protected by `mutex_state`; a call of a
generator is one atomic step.
-/
namespace FireFly

/-- The static generator state (source/BaseReconst.cpp 22-27). -/
structure Rng where
  /-- `state` of pcg32 -/
  pcg : BitVec 64
  /-- `s[0] .. s[3]` of xoshiro256** -/
  s0 : BitVec 64
  s1 : BitVec 64
  s2 : BitVec 64
  s3 : BitVec 64
deriving DecidableEq

/-- `multiplier` and `increment` (source/BaseReconst.cpp 22-23). -/
def pcgMultiplier : BitVec 64 := 6364136223846793005#64
/-- see above -/
def pcgIncrement : BitVec 64 := 1442695040888963407#64

/-- The state of a program that has not called `set_seed` (source/BaseReconst.cpp 24-26: `s` has
static storage and is zero-initialised). -/
def Rng.initial : Rng := ⟨0x4d595df4d0f33173#64, 0, 0, 0, 0⟩

/-- `rotr32` (source/BaseReconst.cpp 198-200): `x >> r | x << (-r & 31)`, for `r < 32`. -/
def rotr32 (x : BitVec 32) (r : ℕ) : BitVec 32 := x >>> r ||| x <<< ((32 - r) % 32)

/-- `rol64` (source/BaseReconst.cpp 226-228), for `0 < k < 64`. -/
def rol64 (x : BitVec 64) (k : ℕ) : BitVec 64 := (x <<< k) ||| (x >>> (64 - k))

/-- `pcg32` (source/BaseReconst.cpp 210-224): the returned word and the new state. -/
def Rng.pcg32 (g : Rng) : BitVec 32 × Rng :=
  let x := g.pcg
  let count := (x >>> 59).toNat
  let x' := x ^^^ (x >>> 18)
  (rotr32 ((x' >>> 27).truncate 32) count, { g with pcg := x * pcgMultiplier + pcgIncrement })

/-- `xoshiro256ss` (source/BaseReconst.cpp 230-246): the returned word and the new state. -/
def Rng.xoshiro (g : Rng) : BitVec 64 × Rng :=
  let result := rol64 (g.s1 * 5#64) 7 * 9#64
  let t := g.s1 <<< 17
  let s2 := g.s2 ^^^ g.s0
  let s3 := g.s3 ^^^ g.s1
  let s1 := g.s1 ^^^ s2
  let s0 := g.s0 ^^^ s3
  let s2 := s2 ^^^ t
  let s3 := rol64 s3 45
  (result, { g with s0 := s0, s1 := s1, s2 := s2, s3 := s3 })

/-- `splitmix64` (source/BaseReconst.cpp 248-256): the returned word and the new splitmix state. -/
def splitmix64 (st : BitVec 64) : BitVec 64 × BitVec 64 :=
  let r := (st ^^^ (st >>> 30)) * 0xBF58476D1CE4E5B9#64
  let r := (r ^^^ (r >>> 27)) * 0x94D049BB133111EB#64
  (r ^^^ (r >>> 31), st + 0x9E3779B97f4A7C15#64)

/-- `pc32_init` (source/BaseReconst.cpp 202-208). -/
def Rng.pcgInit (g : Rng) (seed : BitVec 64) : Rng := ({ g with pcg := seed + pcgIncrement }.pcg32).2

/-- `xoshiro256ss_init` (source/BaseReconst.cpp 258-267). -/
def Rng.xoshiroInit (g : Rng) (seed : BitVec 64) : Rng :=
  let a := splitmix64 (seed + pcgIncrement)
  let b := splitmix64 a.2
  let c := splitmix64 b.2
  let d := splitmix64 c.2
  { g with s0 := a.1, s1 := b.1, s2 := c.1, s3 := d.1 }

/-- `set_seed` (source/BaseReconst.cpp 157-160). -/
def Rng.setSeed (g : Rng) (seed : BitVec 64) : Rng := (g.pcgInit seed).xoshiroInit seed

/-- `BaseReconst::reset` (source/BaseReconst.cpp 269-272): `s` keeps its value. -/
def Rng.reset (g : Rng) : Rng := { g with pcg := 0x4d595df4d0f33173#64 }

/-- The loop of `get_rand_64` (source/BaseReconst.cpp 143-155) with at most `fuel` draws; `none` if
the loop has not ended by then. `FFInt(uint64_t)` reduces modulo `p`. -/
def Rng.getRand64 (p : ℕ) : ℕ → Rng → Option (ℕ × Rng)
  | 0, _ => none
  | k + 1, g =>
    let d := g.xoshiro
    if d.1.toNat % p ≠ 0 then some (d.1.toNat % p, d.2) else Rng.getRand64 p k d.2

/-- The loop of `get_rand_32` (source/BaseReconst.cpp 125-137), likewise. -/
def Rng.getRand32 (p : ℕ) : ℕ → Rng → Option (ℕ × Rng)
  | 0, _ => none
  | k + 1, g =>
    let d := g.pcg32
    if d.1.toNat % p ≠ 0 then some (d.1.toNat % p, d.2) else Rng.getRand32 p k d.2

end FireFly
