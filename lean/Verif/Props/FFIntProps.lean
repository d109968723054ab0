import Verif.Lemmas.FFIntLemmas
import Verif.Lemmas.Rne
/-!
# C01–C05: word-level field arithmetic

`FFInt` values are their stored words; "canonical" means `n < p`. The specification is the field
`ZMod p` of Mathlib. All statements hold for every `long double` with a 64-bit significand and
round-to-nearest (class `LongDouble`), of which `x87` is a concrete instance.
-/
namespace FireFly
variable [LongDouble] {p : ℕ}

/-! ## C02 -/

/-- C02: `mod_mul(a,b,m) = a*b mod m` for all 64-bit `a`, `b` and every modulus `0 < m < 2^63`;
no undefined conversion occurs. (Holds for arbitrary `a`, `b`, in particular for 64-bit ones.) -/
theorem C02_mod_mul (a b m : ℕ) (hm0 : 0 < m) (hm : m < 2 ^ 63) :
    modMul a b m = some (a * b % m) := modMul_eq hm0 hm

/-- Non-vacuity: the largest prime below `2^63`, operands `p-1`, the concrete x87 rounding. -/
example : @modMul x87 9223372036854775782 9223372036854775782 9223372036854775783 = some 1 := by
  rw [@C02_mod_mul x87 _ _ _ (by norm_num) (by norm_num)]

/-! ## C03 -/

omit [LongDouble] in
/-- C03: `mod_inv` returns the unique inverse below `m` of an invertible residue. -/
theorem C03_mod_inv {a m : ℕ} (h1 : 1 < m) (hm : m < 2 ^ 63) (ha : a < m) (hg : Nat.gcd a m = 1) :
    modInv a m < m ∧ a * modInv a m % m = 1 ∧ ∀ r < m, a * r % m = 1 → r = modInv a m := by
  obtain ⟨h2, h3⟩ := modInv_spec h1 hm ha hg
  refine ⟨h2, h3, fun r hr hr1 => ?_⟩
  have h4 : a * r ≡ a * modInv a m [MOD m] := by unfold Nat.ModEq; rw [h3, hr1]
  have h5 : r ≡ modInv a m [MOD m] := Nat.ModEq.cancel_left_of_coprime (by rw [Nat.gcd_comm]; exact hg) h4
  exact Nat.ModEq.eq_of_lt_of_lt h5 hr h2

/-- The cofactor recurrence of the extended Euclidean algorithm over unbounded integers
(specification; no wrap-around). -/
def exactStep (s : InvState) : InvState :=
  { t := s.newt, newt := s.t - (s.r / s.newr : ℕ) * s.newt, r := s.newr, newr := s.r % s.newr }

omit [LongDouble] in
/-- C03: in every iteration that `mod_inv` executes the machine state is the state of the exact
integer recurrence, and the signed cofactors stay within `[-m, m]`, i.e. inside `int64_t`. -/
theorem C03_mod_inv_no_overflow {a m : ℕ} (hm : m < 2 ^ 63) (ha : a < m) (k : ℕ)
    (hrun : ∀ j < k, (InvState.step^[j] ⟨0, 1, m, a⟩).newr ≠ 0) :
    InvState.step^[k] ⟨0, 1, m, a⟩ = exactStep^[k] ⟨0, 1, m, a⟩ ∧
    |(exactStep^[k] ⟨0, 1, m, a⟩).t| ≤ m ∧ |(exactStep^[k] ⟨0, 1, m, a⟩).newt| ≤ m := by
  have h := iter_step_eq hm ha k hrun
  have he : InvState.stepZ = exactStep := rfl
  rw [he] at h
  refine ⟨h.1, ?_, ?_⟩
  · rw [← h.1, Int.abs_eq_natAbs]; exact_mod_cast h.2.1.tb
  · rw [← h.1, Int.abs_eq_natAbs]; exact_mod_cast h.2.1.newt_le

example : modInv 3 9223372036854775783 < 9223372036854775783 ∧ 3 * modInv 3 9223372036854775783 % 9223372036854775783 = 1 :=
  let h := C03_mod_inv (a := 3) (m := 9223372036854775783) (by norm_num) (by norm_num) (by norm_num) (by norm_num)
  ⟨h.1, h.2.1⟩

/-! ## C01 -/
section C01
variable (hp : p.Prime) (hlt : p < 2 ^ 63) {a b : ℕ} (ha : a < p) (hb : b < p)
include hp hlt ha hb

omit [LongDouble] in
/-- C01: sum. -/
theorem C01_add : ffAdd p a b < p ∧ (ffAdd p a b : ZMod p) = a + b := by
  unfold ffAdd
  rw [ffAddAssign_eq hlt ha hb, ctorU_eq, Nat.mod_mod]
  exact ⟨Nat.mod_lt _ hp.pos, by simp⟩

omit [LongDouble] in
/-- C01: difference. -/
theorem C01_sub : ffSub p a b < p ∧ (ffSub p a b : ZMod p) = a - b := by
  unfold ffSub
  rw [ffSubAssign_eq hlt ha hb, ctorU_eq, Nat.mod_mod]
  refine ⟨Nat.mod_lt _ hp.pos, ?_⟩
  rw [ZMod.natCast_mod, Nat.cast_add, Nat.cast_sub hb.le]; simp [sub_eq_add_neg]

omit ha hb in
/-- C01: product. -/
theorem C01_mul : ∃ c, ffMul p a b = some c ∧ c < p ∧ (c : ZMod p) = a * b := by
  refine ⟨a * b % p, ?_, Nat.mod_lt _ hp.pos, by simp⟩
  unfold ffMul; rw [modMul_eq hp.pos hlt]; simp [ctorU_eq]

omit ha in
/-- C01: quotient in the field `ZMod p`; dividing by zero gives 0 (which is also the value of
`x / 0` in Mathlib). -/
theorem C01_div : ∃ c, ffDiv p a b = some c ∧ c < p ∧
    (haveI := Fact.mk hp; (c : ZMod p) = (a : ZMod p) / b) ∧ (b = 0 → c = 0) := by
  have := Fact.mk hp
  unfold ffDiv
  by_cases h : b = 0
  · subst h; refine ⟨0, by simp [ctorU_eq], hp.pos, by simp, fun _ => rfl⟩
  · rw [if_neg h, modMul_eq hp.pos hlt]
    refine ⟨a * modInv b p % p, by simp [ctorU_eq], Nat.mod_lt _ hp.pos, ?_, fun h' => absurd h' h⟩
    rw [ZMod.natCast_mod, Nat.cast_mul, (modInv_prime hp hlt hb).2, div_eq_mul_inv]

omit [LongDouble] hb in
/-- C01: negative. -/
theorem C01_neg : ffNeg p a < p ∧ (ffNeg p a : ZMod p) = -a := by
  unfold ffNeg
  rw [ctorU_eq]
  refine ⟨Nat.mod_lt _ hp.pos, ?_⟩
  rw [u64_of_range (by omega) (by omega), ZMod.natCast_mod]
  have : ((p:ℤ) - a).toNat = p - a := by omega
  rw [this, Nat.cast_sub ha.le]; simp

/-- C01: the compound assignments agree with the binary operators. -/
theorem C01_assign : ffAddAssign p a b = ffAdd p a b ∧ ffSubAssign p a b = ffSub p a b ∧
    ffMulAssign p a b = ffMul p a b ∧ ffDivAssign p a b = ffDiv p a b := by
  refine ⟨?_, ?_, ?_, ?_⟩
  · unfold ffAdd; rw [ffAddAssign_eq hlt ha hb, ctorU_eq, Nat.mod_mod]
  · unfold ffSub; rw [ffSubAssign_eq hlt ha hb, ctorU_eq, Nat.mod_mod]
  · unfold ffMul ffMulAssign; rw [modMul_eq hp.pos hlt]; simp [ctorU_eq]
  · unfold ffDiv ffDivAssign; rw [modMul_eq hp.pos hlt]; simp [ctorU_eq]

omit [LongDouble] hp hlt in
/-- C01: `==` on canonical elements is equality in the field. -/
theorem C01_eq : ffEq a b = true ↔ (a : ZMod p) = b := by
  unfold ffEq
  rw [beq_iff_eq, ZMod.natCast_eq_natCast_iff]
  exact ⟨fun h => h ▸ rfl, fun h => Nat.ModEq.eq_of_lt_of_lt h ha hb⟩

end C01

/-- Non-vacuity of C01: the default prime is prime-sized and two large canonical elements exist;
here the same theorem at a small prime with the concrete rounding. -/
example : ∃ c, @ffDiv x87 7 3 5 = some c ∧ c < 7 ∧ (c : ZMod 7) * 5 = 3 := by
  obtain ⟨c, h1, h2, h3, _⟩ := @C01_div x87 7 (by norm_num) (by norm_num) 3 5 (by norm_num)
  refine ⟨c, h1, h2, ?_⟩
  have := Fact.mk (by norm_num : Nat.Prime 7)
  rw [h3]
  have h5 : ((5:ℕ) : ZMod 7) ≠ 0 := by
    rw [Ne, ZMod.natCast_eq_zero_iff]; norm_num
  simpa using div_mul_cancel₀ ((3:ℕ) : ZMod 7) h5

omit [LongDouble] in
/-- Defect recorded with C01: `++x`, `x++`, `--x`, `x--` return the neighbour but leave `x`
unchanged (for every canonical element). -/
theorem C01_incr_does_not_modify (hp : p.Prime) (hlt : p < 2 ^ 63) {a : ℕ} (ha : a < p) :
    (ffIncr p a).1 = a ∧ ((ffIncr p a).2 : ZMod p) = a + 1 ∧
    (ffDecr p a).1 = a ∧ ((ffDecr p a).2 : ZMod p) = a - 1 := by
  have h1 : ctorU p 1 = 1 := by rw [ctorU_eq, Nat.mod_eq_of_lt hp.one_lt]
  have h2 : ctorU p a = a := by rw [ctorU_eq, Nat.mod_eq_of_lt ha]
  unfold ffIncr ffDecr
  rw [h1, h2, ffAddAssign_eq hlt ha hp.one_lt, ffSubAssign_eq hlt ha hp.one_lt]
  refine ⟨rfl, by simp, rfl, ?_⟩
  rw [ZMod.natCast_mod, Nat.cast_add, Nat.cast_sub hp.one_lt.le]; simp [sub_eq_add_neg]

/-! ## C04 -/
section C04
variable (hp : p.Prime) (hlt : p < 2 ^ 63) {a : ℕ}
include hp hlt

/-- C04: `pow` with a non-negative machine integer (below `2^64`) is the power; `x.pow(0) = 1`
also for `x = 0` (Mathlib's `0 ^ 0 = 1`). -/
theorem C04_pow_int_nonneg (bits : ℕ) (e : ℕ) (he : e < 2 ^ 64) :
    ∃ c, ffPowInt p bits a e = some c ∧ c < p ∧ (c : ZMod p) = (a : ZMod p) ^ e := by
  unfold ffPowInt
  split_ifs with h1 h2 h3
  · have : e = 2 := by exact_mod_cast h1
    subst this
    refine ⟨a * a % p, ?_, Nat.mod_lt _ hp.pos, by simp [pow_two]⟩
    rw [modMul_eq hp.pos hlt]; simp [ctorU_eq]
  · rw [u64_nat he, modPow_eq hlt hp.one_lt]
    exact ⟨_, rfl, Nat.mod_lt _ hp.pos, by simp⟩
  · omega
  · omega

/-- C04: `pow` with a negative machine integer `-e` of a `bits`-bit signed type other than its
minimum is the power of the inverse (for `a ≠ 0`, i.e. the inverse of the power; the
formula also covers `a = 0`, where Mathlib's `0⁻¹ = 0`). -/
theorem C04_pow_int_neg (bits : ℕ) (hbits : bits ≤ 64) (e : ℕ) (he0 : 0 < e)
    (he : e < 2 ^ (bits - 1)) (ha : a < p) :
    ∃ c, ffPowInt p bits a (-(e : ℤ)) = some c ∧ c < p ∧
      (haveI := Fact.mk hp; (c : ZMod p) = ((a : ZMod p) ^ e)⁻¹) := by
  have := Fact.mk hp
  have hpow : 2 ^ (bits - 1) ≤ 2 ^ (max bits 32 - 1) := Nat.pow_le_pow_right (by norm_num) (by omega)
  have hpow2 : 2 ^ (bits - 1) ≤ 2 ^ 63 := Nat.pow_le_pow_right (by norm_num) (by omega)
  unfold ffPowInt
  rw [if_neg (by omega), if_neg (by omega), if_neg ?_]
  · have : u64 (- -(e:ℤ)) = e := by rw [neg_neg, u64_nat (by omega)]
    rw [this, modPow_eq hlt hp.one_lt]
    refine ⟨_, rfl, Nat.mod_lt _ hp.pos, ?_⟩
    rw [ZMod.natCast_mod, Nat.cast_pow, (modInv_prime hp hlt ha).2, inv_pow]
  · have : (e:ℤ) < ((2 ^ (max bits 32 - 1) : ℕ) : ℤ) := by exact_mod_cast lt_of_lt_of_le he hpow
    push_cast at this; omega

/-- C04: `pow` with a field element as exponent returns `a ^ (stored value)` for every nonzero
base, whichever branch is taken. -/
theorem C04_pow_ffint {e : ℕ} (ha : a < p) (ha0 : a ≠ 0) (he : e < p) :
    ∃ c, ffPow p a e = some c ∧ c < p ∧ (c : ZMod p) = (a : ZMod p) ^ e := by
  have := Fact.mk hp
  unfold ffPow
  split_ifs with h1 h2
  · subst h1
    refine ⟨a * a % p, ?_, Nat.mod_lt _ hp.pos, by simp [pow_two]⟩
    rw [modMul_eq hp.pos hlt]; simp [ctorU_eq]
  · rw [modPow_eq hlt hp.one_lt]
    exact ⟨_, rfl, Nat.mod_lt _ hp.pos, by simp⟩
  · have hu : u64 ((u64 ((p : ℤ) - e) : ℤ) - 1) = p - 1 - e := by
      unfold u64; omega
    rw [hu, modPow_eq hlt hp.one_lt]
    refine ⟨_, rfl, Nat.mod_lt _ hp.pos, ?_⟩
    have haz : (a : ZMod p) ≠ 0 := by
      intro h; rw [ZMod.natCast_eq_zero_iff] at h
      exact Nat.not_dvd_of_pos_of_lt (Nat.pos_of_ne_zero ha0) ha h
    have hf := ZMod.pow_card_sub_one_eq_one haz
    rw [ZMod.natCast_mod, Nat.cast_pow, (modInv_prime hp hlt ha).2, inv_pow]
    apply inv_eq_of_mul_eq_one_right
    rw [← pow_add]
    have : p - 1 - e + e = p - 1 := by omega
    rw [this, hf]

/-- C04, base zero: `0.pow(e)` is `0^e` except at the one stored exponent `p-1`, where the
"negative exponent" branch computes an empty product and returns 1 (a deviation from `0^(p-1)`). -/
theorem C04_pow_ffint_zero {e : ℕ} (he : e < p) (h3 : 3 < p) :
    ffPow p 0 e = some (if e = 0 ∨ e = p - 1 then 1 else 0) := by
  unfold ffPow
  split_ifs with h1 h2 h3 h4 h5
  · omega
  · subst h1; rw [modMul_eq hp.pos hlt]; simp [ctorU_eq]
  · rw [modPow_eq hlt hp.one_lt]
    have : e = 0 := by omega
    subst this; simp [Nat.mod_eq_of_lt hp.one_lt]
  · rw [modPow_eq hlt hp.one_lt]
    have : e ≠ 0 := by tauto
    simp [this]
  · have hu : u64 ((u64 ((p : ℤ) - e) : ℤ) - 1) = 0 := by
      unfold u64; omega
    rw [hu, modPow_eq hlt hp.one_lt]; simp [Nat.mod_eq_of_lt hp.one_lt]
  · have hu : u64 ((u64 ((p : ℤ) - e) : ℤ) - 1) = p - 1 - e := by
      unfold u64; omega
    rw [hu, modInv_zero, modPow_eq hlt hp.one_lt]
    have : p - 1 - e ≠ 0 := by omega
    simp [this]

omit hp hlt in
/-- C04, the excluded exponent: the minimum of a signed type of at least 32 bits cannot be negated
(undefined behaviour in the code). -/
theorem C04_int_min_undefined (bits : ℕ) (hb : 32 ≤ bits) :
    ffPowInt p bits a (-2 ^ (bits - 1)) = none := by
  have h1 : (0:ℤ) < 2 ^ (bits - 1) := by positivity
  unfold ffPowInt
  rw [if_neg (by omega), if_neg (by omega), if_pos]
  rw [max_eq_left hb]

end C04

example : ∃ c, @ffPow x87 7 3 5 = some c ∧ c < 7 ∧ (c : ZMod 7) = (3 : ZMod 7) ^ 5 := by
  simpa using @C04_pow_ffint x87 7 (by norm_num) (by norm_num) 3 5 (by norm_num) (by norm_num) (by norm_num)

/-! ## C05 -/

omit [LongDouble] in
/-- C05, unsigned and non-negative values: canonical residue. -/
theorem C05_ctor_nonneg (bits : ℕ) (hp : 0 < p) {n : ℤ} (h0 : 0 ≤ n) (h1 : n < 2 ^ 64) :
    ∃ c, ctorS p bits n = some c ∧ c < p ∧ (c : ℤ) = n % p := by
  unfold ctorS
  rw [if_pos h0]
  obtain ⟨k, rfl⟩ := Int.eq_ofNat_of_zero_le h0
  rw [u64_nat (by exact_mod_cast h1)]
  refine ⟨k % p, ?_, Nat.mod_lt _ hp, by simp⟩
  split_ifs with h
  · rw [Nat.mod_eq_of_lt h]
  · rfl

omit [LongDouble] in
/-- C05, arbitrary `mpz_class`: canonical residue (Euclidean remainder) of every integer. -/
theorem C05_ctor_mpz (hp : 0 < p) (hlt : p < 2 ^ 63) (z : ℤ) :
    ∃ c, ctorZ p z = some c ∧ c < p ∧ (c : ℤ) = z % p := by
  unfold ctorZ
  simp only
  have hpz : (0:ℤ) < p := by exact_mod_cast hp
  have key : (if Int.tmod z p < 0 then (p:ℤ) + Int.tmod z p else Int.tmod z p) = z % p := by
    have h1 := Int.emod_nonneg z hpz.ne'
    have h2 := Int.emod_lt_of_pos z hpz
    have h3 : Int.tmod z p = z - p * Int.tdiv z p := by
      have := Int.mul_tdiv_add_tmod z p; linarith
    rcases Int.le_total 0 z with h | h
    · rw [Int.tmod_eq_emod_of_nonneg h, if_neg (by omega)]
    · have h4 : Int.tmod z p ≤ 0 := by
        have := Int.tmod_nonneg (a := -z) (p:ℤ) (by omega)
        rw [Int.neg_tmod] at this; linarith
      have h5 : -(p:ℤ) < Int.tmod z p := by
        have := Int.tmod_lt_of_pos (-z) hpz
        rw [Int.neg_tmod] at this; linarith
      have hmod : (z % p) = (Int.tmod z p) % p := by
        rw [h3, Int.sub_mul_emod_self_left]
      split_ifs with hn
      · rw [hmod, ← Int.add_emod_left, Int.emod_eq_of_lt (by omega) (by omega)]
      · have : Int.tmod z p = 0 := by omega
        rw [hmod, this]; simp
  rw [key]
  have h1 := Int.emod_nonneg z hpz.ne'
  have h2 := Int.emod_lt_of_pos z hpz
  rw [if_pos ⟨h1, by omega⟩]
  refine ⟨_, rfl, by omega, by omega⟩

omit [LongDouble] in
/-- C05, negative machine integers: the value is represented, and the stored word is canonical
**unless** the argument is a multiple of `p`, in which case the word `p` is stored. Full statement
(false for the code): `c < p` always. -/
theorem C05_ctor_neg_partial (bits : ℕ) (hbits : bits ≤ 64) (hp : 0 < p) (hlt : p < 2 ^ 63) {n : ℤ}
    (h0 : n < 0) (h1 : -2 ^ (bits - 1) < n) :
    ∃ c, ctorS p bits n = some c ∧ (c : ZMod p) = (n : ZMod p) ∧
      (c = if (p : ℤ) ∣ n then p else (n % p).toNat) := by
  have hpz : (0:ℤ) < p := by exact_mod_cast hp
  have hpow : (2:ℤ) ^ (bits - 1) ≤ 2 ^ (max bits 32 - 1) :=
    pow_le_pow_right₀ (by norm_num) (by omega)
  have hpow2 : (2:ℤ) ^ (bits - 1) ≤ 2 ^ 63 := pow_le_pow_right₀ (by norm_num) (by omega)
  unfold ctorS
  rw [if_neg (by omega), if_neg (by omega)]
  obtain ⟨k, hk⟩ := Int.eq_ofNat_of_zero_le (by omega : 0 ≤ -n)
  have hn : n = -(k:ℤ) := by omega
  rw [hk, u64_nat (by omega)]
  have hml := Nat.mod_lt k hp
  have hu : u64 ((p:ℤ) - ((k % p : ℕ):ℤ)) = p - k % p := by unfold u64; omega
  rw [hu]
  refine ⟨_, rfl, ?_, ?_⟩
  · rw [Nat.cast_sub hml.le, ZMod.natCast_mod, hn]; simp
  · have hdvd : ((p:ℤ) ∣ n) ↔ k % p = 0 := by
      rw [hn, dvd_neg, Int.natCast_dvd_natCast, Nat.dvd_iff_mod_eq_zero]
    split_ifs with h
    · rw [hdvd.mp h]; rfl
    · have h2 : k % p ≠ 0 := fun h' => h (hdvd.mpr h')
      have hdm := Nat.div_add_mod k p
      have : n % p = (p:ℤ) - (k % p : ℕ) := by
        have e : n = ((p:ℤ) - (k % p : ℕ)) + p * (-(k / p : ℕ) - 1) := by
          rw [hn]
          have : (k:ℤ) = p * (k / p : ℕ) + (k % p : ℕ) := by exact_mod_cast hdm.symm
          linear_combination -this
        rw [e, Int.add_mul_emod_self_left, Int.emod_eq_of_lt (by omega) (by omega)]
      rw [this]; omega

omit [LongDouble] in
/-- C05 is violated by the code: `FFInt(-p)` for a 64-bit signed argument and the default prime
stores the non-canonical word `p`, which is not equal (`==`) to `FFInt(0)`. -/
theorem C05_violated : ∃ n : ℤ, -2 ^ 63 < n ∧ n < 0 ∧
    ctorS 9223372036854775783 64 n = some 9223372036854775783 ∧
    ¬ (9223372036854775783 < 9223372036854775783) ∧
    ffEq 9223372036854775783 (ctorU 9223372036854775783 0) = false := by
  refine ⟨-9223372036854775783, by norm_num, by norm_num, ?_, by norm_num, by decide⟩
  decide

example : ∃ c, ctorS 7 64 (-5) = some c ∧ c = 2 := by
  exact ⟨2, by decide, rfl⟩

end FireFly
