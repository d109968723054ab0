import Verif.Model.Rng
import Verif.Props.PrimeProps
/-! # C31: random numbers -/
set_option linter.all false
namespace FireFly
set_option maxRecDepth 100000

/-- xoshiro state zero -/
def Rng.XZero (g : Rng) : Prop := g.s0 = 0 ∧ g.s1 = 0 ∧ g.s2 = 0 ∧ g.s3 = 0

/-! ### splitmix64 and seeding -/

lemma xorshift_eq_zero {x : BitVec 64} {k : ℕ} (hk : 0 < k) (h : x ^^^ (x >>> k) = 0) : x = 0 := by
  have h1 : x = x >>> k := by
    have := congrArg (x ^^^ ·) h
    simpa [← BitVec.xor_assoc] using this.symm
  have h2 : x.toNat = x.toNat / 2 ^ k := by
    have := congrArg BitVec.toNat h1
    rwa [BitVec.toNat_ushiftRight, Nat.shiftRight_eq_div_pow] at this
  have h3 : x.toNat = 0 := by
    by_contra hne
    have := Nat.div_lt_self (Nat.pos_of_ne_zero hne) (Nat.one_lt_two_pow (by omega : k ≠ 0))
    omega
  exact BitVec.eq_of_toNat_eq (by simpa using h3)

lemma mul_const_eq_zero {x c d : BitVec 64} (hcd : c * d = 1) (h : x * c = 0) : x = 0 := by
  have : x * c * d = 0 := by rw [h]; simp
  rw [BitVec.mul_assoc, hcd] at this
  simpa using this

lemma splitmix64_eq_zero {x : BitVec 64} (h : (splitmix64 x).1 = 0) : x = 0 := by
  unfold splitmix64 at h
  simp only at h
  have h1 := xorshift_eq_zero (by norm_num) h
  have h2 := mul_const_eq_zero (d := 0x319642b2d24d8ec3#64) (by decide) h1
  have h3 := xorshift_eq_zero (by norm_num) h2
  have h4 := mul_const_eq_zero (d := 0x96de1b173f119089#64) (by decide) h3
  exact xorshift_eq_zero (by norm_num) h4

/-- C31: for every seed and whatever the generators did before, the 256-bit state is nonzero right
after `set_seed`. -/
theorem C31_seeded_nonzero (g : Rng) (seed : BitVec 64) : ¬ (g.setSeed seed).XZero := by
  rintro ⟨h0, h1, _, _⟩
  unfold Rng.setSeed Rng.xoshiroInit at h0 h1
  simp only at h0 h1
  have a := splitmix64_eq_zero h0
  have b := splitmix64_eq_zero h1
  unfold splitmix64 at b
  simp only at b
  rw [a] at b
  exact absurd b (by decide)

/-! ### xoshiro -/

lemma rol64_eq_zero {x : BitVec 64} {k : ℕ} (hk : k < 64) (h : rol64 x k = 0) : x = 0 := by
  apply BitVec.eq_of_getLsbD_eq
  intro i hi
  simp only [BitVec.ofNat_eq_ofNat, BitVec.getLsbD_zero]
  unfold rol64 at h
  by_cases h1 : i < 64 - k
  · have := congrArg (fun y => BitVec.getLsbD y (i + k)) h
    simp only [BitVec.getLsbD_or, BitVec.getLsbD_shiftLeft, BitVec.getLsbD_ushiftRight] at this
    have h2 : i + k < 64 := by omega
    simp [h2] at this
    exact this.1
  · have := congrArg (fun y => BitVec.getLsbD y (i - (64 - k))) h
    simp only [BitVec.getLsbD_or, BitVec.getLsbD_shiftLeft, BitVec.getLsbD_ushiftRight] at this
    have h2 : 64 - k + (i - (64 - k)) = i := by omega
    rw [h2] at this
    simp at this
    exact this.2

lemma xor_self_left (a b : BitVec 64) : a ^^^ (a ^^^ b) = b := by
  rw [← BitVec.xor_assoc]; simp

lemma shl17_eq {x : BitVec 64} (h : x ^^^ (x <<< 17) = 0) : x = 0 := by
  have h1 : x = x <<< 17 := by
    have := congrArg (x ^^^ ·) h
    simp only [xor_self_left] at this
    simpa using this.symm
  have key : ∀ n, ∀ i, i < n → x.getLsbD i = false := by
    intro n
    induction n with
    | zero => intro i hi; omega
    | succ n ih =>
      intro i hi
      have := congrArg (fun y => BitVec.getLsbD y i) h1
      simp only [BitVec.getLsbD_shiftLeft] at this
      rw [this]
      by_cases h17 : i < 17
      · simp [h17]
      · rw [ih (i - 17) (by omega)]; simp
  apply BitVec.eq_of_getLsbD_eq
  intro i hi
  rw [key 64 i hi]; simp

/-- C31: a nonzero xoshiro state stays nonzero. -/
theorem C31_nonzero_forever (g : Rng) (h : ¬ g.XZero) : ¬ (g.xoshiro.2).XZero := by
  rintro ⟨h0, h1, h2, h3⟩
  apply h
  unfold Rng.xoshiro at h0 h1 h2 h3
  simp only at h0 h1 h2 h3
  have e3 := rol64_eq_zero (by norm_num) h3
  rw [e3] at h0
  have e0 : g.s0 = 0 := by simpa using h0
  rw [e0] at h1 h2
  simp only [BitVec.ofNat_eq_ofNat, BitVec.xor_zero] at h1 h2
  have e12 : g.s1 = g.s2 := by
    have := congrArg (g.s1 ^^^ ·) h1
    simp only [xor_self_left] at this
    simpa using this.symm
  rw [e12] at h2
  have e2 := shl17_eq h2
  have e1 : g.s1 = 0 := by rw [e12]; exact e2
  have e3' : g.s3 = 0 := by
    rw [e1] at e3; simpa using e3
  exact ⟨e0, e1, e2, e3'⟩

lemma pcg32_snd (g : Rng) :
    g.pcg32.2 = ⟨g.pcg * pcgMultiplier + pcgIncrement, g.s0, g.s1, g.s2, g.s3⟩ := by
  delta Rng.pcg32; exact rfl

lemma xzero_pcg (g : Rng) (a) : Rng.XZero ⟨a, g.s0, g.s1, g.s2, g.s3⟩ ↔ g.XZero := Iff.rfl

/-- pcg and xoshiro do not interfere -/
lemma pcg32_keeps (g : Rng) : (g.pcg32.2).XZero ↔ g.XZero := by
  rw [pcg32_snd, xzero_pcg]

/-- one recurrence for the word from which the output is computed -/
def nextY (y0 y1 y2 y3 : BitVec 64) : BitVec 64 :=
  let a := y3 ^^^ (y1 <<< 17)
  (y2 <<< 17) ^^^ a ^^^ y1 ^^^ rol64 (a ^^^ y2 ^^^ (y0 <<< 17) ^^^ y0 ^^^ y1) 45

lemma y2_eq (g : Rng) : (g.xoshiro.2).xoshiro.2.s1 = (g.s1 <<< 17) ^^^ g.s0 ^^^ g.s3 := by
  unfold Rng.xoshiro
  simp only
  apply BitVec.eq_of_getLsbD_eq
  intro i _
  simp only [BitVec.getLsbD_xor]
  generalize g.s0.getLsbD i = a
  generalize g.s1.getLsbD i = b
  generalize g.s2.getLsbD i = c
  generalize g.s3.getLsbD i = d
  generalize (g.s1 <<< 17).getLsbD i = e
  revert a b c d e; decide

lemma y4_eq (g : Rng) : g.xoshiro.2.xoshiro.2.xoshiro.2.xoshiro.2.s1 =
    nextY g.s1 g.xoshiro.2.s1 g.xoshiro.2.xoshiro.2.s1 g.xoshiro.2.xoshiro.2.xoshiro.2.s1 := by
  have hB : ∀ g : Rng, g.xoshiro.2.s0 = g.s0 ^^^ (g.s3 ^^^ g.s1) := fun g => rfl
  have hC : ∀ g : Rng, g.xoshiro.2.s3 = rol64 (g.s3 ^^^ g.s1) 45 := fun g => rfl
  have e4 := y2_eq g.xoshiro.2.xoshiro.2
  have e3 := y2_eq g.xoshiro.2
  have e2 := y2_eq g
  rw [e4]
  unfold nextY
  simp only
  have hw1 : g.xoshiro.2.s3 ^^^ g.xoshiro.2.s1 = g.xoshiro.2.xoshiro.2.xoshiro.2.s1 ^^^
      (g.xoshiro.2.s1 <<< 17) ^^^ g.xoshiro.2.xoshiro.2.s1 ^^^ (g.s1 <<< 17) ^^^ g.s1 ^^^ g.xoshiro.2.s1 := by
    rw [e3, e2, hB g]
    generalize g.xoshiro.2.s3 = w1
    generalize g.xoshiro.2.s1 = y1
    apply BitVec.eq_of_getLsbD_eq
    intro i _
    simp only [BitVec.getLsbD_xor]
    generalize g.s0.getLsbD i = a
    generalize g.s1.getLsbD i = b
    generalize g.s3.getLsbD i = d
    generalize (g.s1 <<< 17).getLsbD i = e
    generalize (y1 <<< 17).getLsbD i = f
    generalize y1.getLsbD i = k
    generalize w1.getLsbD i = l
    revert a b d e f k l; decide
  rw [← hw1, ← hC g.xoshiro.2, hB g.xoshiro.2, e3]
  generalize g.xoshiro.2.xoshiro.2.s3 = w2
  generalize g.xoshiro.2.xoshiro.2.s1 = y2
  generalize g.xoshiro.2.s3 = w1
  generalize g.xoshiro.2.s1 = y1
  generalize g.xoshiro.2.s0 = x1
  apply BitVec.eq_of_getLsbD_eq
  intro i _
  simp only [BitVec.getLsbD_xor]
  generalize (y2 <<< 17).getLsbD i = a
  generalize (y1 <<< 17).getLsbD i = b
  generalize x1.getLsbD i = c
  generalize y1.getLsbD i = d
  generalize w1.getLsbD i = e
  generalize w2.getLsbD i = f
  revert a b c d e f; decide

/-- the output as a function of `s[1]`, and its inverse -/
def outOf (y : BitVec 64) : BitVec 64 := rol64 (y * 5#64) 7 * 9#64
/-- inverse of `outOf` -/
def yOf (o : BitVec 64) : BitVec 64 := rol64 (o * 10248191152060862009#64) 57 * 14757395258967641293#64

lemma rol64_rol64 (x : BitVec 64) : rol64 (rol64 x 7) 57 = x := by
  apply BitVec.eq_of_getLsbD_eq
  intro i hi
  unfold rol64
  simp only [BitVec.getLsbD_or, BitVec.getLsbD_shiftLeft, BitVec.getLsbD_ushiftRight]
  by_cases h : i < 57
  · have h1 : 64 - 57 + i < 64 := by omega
    have h2 : ¬ 64 - 57 + i < 7 := by omega
    have h3 : 64 - 57 + i - 7 = i := by omega
    have h4 : 64 ≤ 64 - 7 + (64 - 57 + i) := by omega
    simp [h, h1, h2, h3, BitVec.getLsbD_of_ge _ _ h4]
  · have h1 : i - 57 < 7 := by omega
    have h2 : 64 - 7 + (i - 57) = i := by omega
    have h4 : 64 ≤ 64 - 57 + i := by omega
    have h5 : ¬ 64 - 57 + i < 64 := by omega
    have h6 : 64 ≤ 64 - 7 + (64 - 57 + i) := by omega
    simp [h, hi, h1, h2, h5, BitVec.getLsbD_of_ge _ _ h6]

lemma yOf_outOf (y : BitVec 64) : yOf (outOf y) = y := by
  unfold yOf outOf
  rw [BitVec.mul_assoc, show (9#64 * 10248191152060862009#64 : BitVec 64) = 1#64 by decide, BitVec.mul_one,
    rol64_rol64, BitVec.mul_assoc, show (5#64 * 14757395258967641293#64 : BitVec 64) = 1#64 by decide,
    BitVec.mul_one]

/-- the words whose output is a multiple of `p`, for `2^62 < p` -/
def badY (p : ℕ) : List (BitVec 64) := [0#64, yOf (BitVec.ofNat 64 p), yOf (BitVec.ofNat 64 (2 * p))]

lemma mem_badY {p : ℕ} (hp1 : 2 ^ 64 ≤ 3 * p) {y : BitVec 64} (h : (outOf y).toNat % p = 0) :
    y ∈ badY p := by
  have hlt := (outOf y).isLt
  obtain ⟨k, hk⟩ := Nat.dvd_of_mod_eq_zero h
  have hk3 : k < 3 := by
    by_contra hcon
    have : p * 3 ≤ p * k := Nat.mul_le_mul_left p (by omega)
    omega
  have h1 : outOf y = BitVec.ofNat 64 (p * k) := by
    apply BitVec.eq_of_toNat_eq
    rw [BitVec.toNat_ofNat, Nat.mod_eq_of_lt (by omega), hk]
  have h2 := yOf_outOf y
  rw [h1] at h2
  unfold badY
  rcases (show k = 0 ∨ k = 1 ∨ k = 2 by omega) with rfl | rfl | rfl
  · rw [Nat.mul_zero, show yOf (BitVec.ofNat 64 0) = 0#64 by decide] at h2
    simp [← h2]
  · rw [Nat.mul_one] at h2
    simp [h2]
  · rw [Nat.mul_comm] at h2
    simp [h2]

/-- no six words in a row that give multiples of `p`, except from the zero state -/
def escapes (p : ℕ) : Bool :=
  let S := badY p
  S.all fun y0 => S.all fun y1 => S.all fun y2 => S.all fun y3 =>
    (y0 == 0 && y1 == 0 && y2 == 0 && y3 == 0) ||
    !(S.elem (nextY y0 y1 y2 y3)) || !(S.elem (nextY y1 y2 y3 (nextY y0 y1 y2 y3)))

lemma primes63_escape : primes63.all (fun p => Nat.ble (2 ^ 64) (3 * p) && escapes p) = true := by
  decide +kernel

lemma zero_of_four (g : Rng) (h0 : g.s1 = 0) (h1 : g.xoshiro.2.s1 = 0)
    (h2 : g.xoshiro.2.xoshiro.2.s1 = 0) (h3 : g.xoshiro.2.xoshiro.2.xoshiro.2.s1 = 0) : g.XZero := by
  have e2 := y2_eq g
  have e3 := y2_eq g.xoshiro.2
  rw [h2, h0] at e2
  rw [h3, h1] at e3
  have hB : g.xoshiro.2.s0 = g.s0 ^^^ (g.s3 ^^^ g.s1) := rfl
  have hC : g.xoshiro.2.s3 = rol64 (g.s3 ^^^ g.s1) 45 := rfl
  have hY : g.xoshiro.2.s1 = g.s1 ^^^ (g.s2 ^^^ g.s0) := rfl
  have e03 : g.s0 ^^^ g.s3 = 0 := by simpa using e2.symm
  have hx1 : g.xoshiro.2.s0 = 0 := by
    rw [hB, h0]
    simp only [BitVec.ofNat_eq_ofNat, BitVec.xor_zero]; exact e03
  rw [hx1, hC, h0] at e3
  simp only [BitVec.ofNat_eq_ofNat, BitVec.xor_zero, BitVec.zero_xor, BitVec.shiftLeft_zero] at e3
  have hr : rol64 g.s3 45 = 0 := by
    have : (0#64 <<< 17 : BitVec 64) = 0#64 := by decide
    rw [this] at e3
    simpa using e3.symm
  have h3' := rol64_eq_zero (by norm_num) hr
  have h0' : g.s0 = 0 := by rw [h3'] at e03; simpa using e03
  have h2' : g.s2 = 0 := by
    rw [h1, h0, h0'] at hY
    simpa using hY.symm
  exact ⟨h0', h0, h2', h3'⟩

/-- C31: for every prime of the table and every nonzero generator state (so for every history after
`set_seed`), `get_rand_64` ends after at most six draws, returns a nonzero canonical field element,
and leaves a nonzero state. -/
theorem C31_rand64_terminates (p : ℕ) (hp : p ∈ primes63) (g : Rng) (hg : ¬ g.XZero) :
    ∃ r g', g.getRand64 p 6 = some (r, g') ∧ 0 < r ∧ r < p ∧ ¬ g'.XZero := by
  have hck := List.all_eq_true.mp primes63_escape p hp
  rw [Bool.and_eq_true, Nat.ble_eq] at hck
  obtain ⟨h3p, hesc⟩ := hck
  have hp0 : 0 < p := by omega
  -- the six states
  set g1 := g.xoshiro.2 with hg1
  set g2 := g1.xoshiro.2 with hg2
  set g3 := g2.xoshiro.2 with hg3
  set g4 := g3.xoshiro.2 with hg4
  set g5 := g4.xoshiro.2 with hg5
  have n1 := C31_nonzero_forever g hg
  have n2 := C31_nonzero_forever g1 n1
  have n3 := C31_nonzero_forever g2 n2
  have n4 := C31_nonzero_forever g3 n3
  have n5 := C31_nonzero_forever g4 n4
  have n6 := C31_nonzero_forever g5 n5
  have hout : ∀ h : Rng, h.xoshiro.1 = outOf h.s1 := fun h => rfl
  have fin : ∀ h : Rng, ¬ h.xoshiro.2.XZero → h.xoshiro.1.toNat % p ≠ 0 → ∀ k, ∃ r g', Rng.getRand64 p (k + 1) h = some (r, g') ∧
      0 < r ∧ r < p ∧ ¬ g'.XZero := by
    intro h hn hne k
    refine ⟨h.xoshiro.1.toNat % p, h.xoshiro.2, ?_, Nat.pos_of_ne_zero hne, Nat.mod_lt _ hp0, hn⟩
    unfold Rng.getRand64
    simp only
    rw [if_pos hne]
  have skip : ∀ h : Rng, ¬ h.xoshiro.1.toNat % p ≠ 0 → ∀ k, Rng.getRand64 p (k + 1) h = Rng.getRand64 p k h.xoshiro.2 := by
    intro h hne k
    conv_lhs => unfold Rng.getRand64
    simp only
    rw [if_neg hne]
  by_cases c0 : g.xoshiro.1.toNat % p ≠ 0
  · exact fin g n1 c0 5
  rw [skip g c0]
  by_cases c1 : g1.xoshiro.1.toNat % p ≠ 0
  · exact fin g1 n2 c1 4
  rw [skip g1 c1]
  by_cases c2 : g2.xoshiro.1.toNat % p ≠ 0
  · exact fin g2 n3 c2 3
  rw [skip g2 c2]
  by_cases c3 : g3.xoshiro.1.toNat % p ≠ 0
  · exact fin g3 n4 c3 2
  rw [skip g3 c3]
  by_cases c4 : g4.xoshiro.1.toNat % p ≠ 0
  · exact fin g4 n5 c4 1
  rw [skip g4 c4]
  by_cases c5 : g5.xoshiro.1.toNat % p ≠ 0
  · exact fin g5 n6 c5 0
  exfalso
  rw [not_not, hout] at c0 c1 c2 c3 c4 c5
  have m0 := mem_badY h3p c0
  have m1 := mem_badY h3p c1
  have m2 := mem_badY h3p c2
  have m3 := mem_badY h3p c3
  have m4 := mem_badY h3p c4
  have m5 := mem_badY h3p c5
  have e4 : g4.s1 = nextY g.s1 g1.s1 g2.s1 g3.s1 := y4_eq g
  have e5 : g5.s1 = nextY g1.s1 g2.s1 g3.s1 g4.s1 := y4_eq g1
  unfold escapes at hesc
  simp only [List.all_eq_true] at hesc
  have := hesc _ m0 _ m1 _ m2 _ m3
  rw [← e4, ← e5] at this
  simp only [Bool.or_eq_true, Bool.and_eq_true, beq_iff_eq, Bool.not_eq_true', List.elem_eq_mem,
    decide_eq_false_iff_not] at this
  rcases this with (h | h) | h
  · exact hg (zero_of_four g h.1.1.1 h.1.1.2 h.1.2 h.2)
  · exact h m4
  · exact h m5

/-- C31, whole histories: after `set_seed` and any sequence of further draws (`true` = xoshiro,
`false` = pcg) and resets (`none`) the state is nonzero. -/
theorem C31_history (g : Rng) (seed : BitVec 64) (ops : List (Option Bool)) :
    ¬ (ops.foldl (fun g op => match op with
      | some true => g.xoshiro.2
      | some false => g.pcg32.2
      | none => g.reset) (g.setSeed seed)).XZero := by
  have key : ∀ (ops : List (Option Bool)) (g : Rng), ¬ g.XZero →
    ¬ (ops.foldl (fun g op => match op with
      | some true => g.xoshiro.2
      | some false => g.pcg32.2
      | none => g.reset) g).XZero := by
    intro ops
    induction ops with
    | nil => intro g h; exact h
    | cons op ops ih =>
      intro g h
      rw [List.foldl_cons]
      apply ih
      rcases op with _ | ⟨_ | _⟩
      · unfold Rng.reset; exact h
      · simp only; rw [pcg32_keeps]; exact h
      · exact C31_nonzero_forever g h
  exact key ops _ (C31_seeded_nonzero g seed)

/-- C31: all generator values after `set_seed` are a function of the seed only. -/
theorem C31_deterministic (g h : Rng) (seed : BitVec 64) : g.setSeed seed = h.setSeed seed := by
  unfold Rng.setSeed Rng.pcgInit Rng.xoshiroInit Rng.pcg32
  simp only

/-- C31 fails without seeding: the generator of a program that never called `set_seed` returns the
word 0 for ever, so `get_rand_64` does not return, however many draws are allowed. -/
theorem C31_unseeded_violated (p : ℕ) (fuel : ℕ) : Rng.initial.getRand64 p fuel = none := by
  have h1 : Rng.initial.xoshiro = (0#64, Rng.initial) := by decide +kernel
  induction fuel with
  | zero => rfl
  | succ k ih =>
    unfold Rng.getRand64
    rw [h1]
    simp only [BitVec.toNat_zero, Nat.zero_mod, ne_eq, not_true_eq_false, if_false, BitVec.toNat_ofNat]
    exact ih

/-! ### pcg32 -/

/-- `2^46` steps of the congruential generator as one affine map, by 46 squarings -/
def affPow : ℕ → BitVec 64 × BitVec 64
  | 0 => (pcgMultiplier, pcgIncrement)
  | k + 1 => ((affPow k).1 * (affPow k).1, (affPow k).2 * (affPow k).1 + (affPow k).2)

lemma affPow_spec : ∀ (k : ℕ) (x : BitVec 64),
    (fun x => x * pcgMultiplier + pcgIncrement)^[2 ^ k] x = x * (affPow k).1 + (affPow k).2
  | 0, x => by simp [affPow]
  | k + 1, x => by
    rw [pow_succ, Function.iterate_mul]
    simp only [Function.iterate_succ, Function.iterate_zero, Function.comp_apply, id_eq]
    rw [affPow_spec k, affPow_spec k]
    simp only [affPow]
    rw [BitVec.add_mul, BitVec.add_assoc, BitVec.mul_assoc]

/-- bit 46 flips every `2^46` steps -/
lemma pcg_bit46 (x : BitVec 64) :
    ((fun x => x * pcgMultiplier + pcgIncrement)^[2 ^ 46] x).getLsbD 46 = !(x.getLsbD 46) := by
  rw [affPow_spec]
  have hA : (affPow 46).1.toNat % 2 ^ 47 = 1 := by decide +kernel
  have hC : (affPow 46).2.toNat % 2 ^ 47 = 2 ^ 46 := by decide +kernel
  have h1 : (x * (affPow 46).1 + (affPow 46).2).toNat % 2 ^ 47 = (x.toNat + 2 ^ 46) % 2 ^ 47 := by
    rw [BitVec.toNat_add, BitVec.toNat_mul]
    have d : 2 ^ 47 ∣ 2 ^ 64 := ⟨2 ^ 17, by rw [← pow_add]⟩
    rw [Nat.mod_mod_of_dvd _ d, Nat.add_mod, Nat.mod_mod_of_dvd _ d, Nat.mul_mod, hA, hC, mul_one,
      Nat.mod_mod, Nat.mod_add_mod]
  have hbit : ∀ y : BitVec 64, y.getLsbD 46 = decide (2 ^ 46 ≤ y.toNat % 2 ^ 47) := by
    intro y
    rw [BitVec.getLsbD, Nat.testBit_eq_decide_div_mod_eq]
    generalize y.toNat = n
    rw [decide_eq_decide]
    constructor <;> intro h <;> omega
  rw [hbit, hbit, h1]
  by_cases h : 2 ^ 46 ≤ x.toNat % 2 ^ 47
  · simp only [h, decide_true, Bool.not_true, decide_eq_false_iff_not]; omega
  · simp only [h, decide_false, Bool.not_false, decide_eq_true_eq]; omega

lemma rotr32_eq_zero {x : BitVec 32} {r : ℕ} (hr : r < 32) (h : rotr32 x r = 0) : x = 0 := by
  unfold rotr32 at h
  apply BitVec.eq_of_getLsbD_eq
  intro i hi
  simp only [BitVec.ofNat_eq_ofNat, BitVec.getLsbD_zero]
  by_cases h1 : r ≤ i
  · have := congrArg (fun y => BitVec.getLsbD y (i - r)) h
    simp only [BitVec.getLsbD_or, BitVec.getLsbD_shiftLeft, BitVec.getLsbD_ushiftRight] at this
    have h2 : r + (i - r) = i := by omega
    rw [h2] at this
    simp at this
    exact this.1
  · have hs : (32 - r) % 32 = 32 - r := Nat.mod_eq_of_lt (by omega)
    have := congrArg (fun y => BitVec.getLsbD y (i + (32 - r))) h
    simp only [BitVec.getLsbD_or, BitVec.getLsbD_shiftLeft, BitVec.getLsbD_ushiftRight, hs] at this
    have h3 : i + (32 - r) < 32 := by omega
    simp [h3] at this
    exact this.2

/-- a zero pcg output forces bit 46 of the state to be zero -/
lemma pcg_zero_bit46 (g : Rng) (h : g.pcg32.1 = 0) : g.pcg.getLsbD 46 = false := by
  unfold Rng.pcg32 at h
  simp only at h
  have hc : (g.pcg >>> 59).toNat < 32 := by
    rw [BitVec.toNat_ushiftRight, Nat.shiftRight_eq_div_pow]
    have := g.pcg.isLt
    omega
  have h1 := rotr32_eq_zero hc h
  have h2 := congrArg (fun y => BitVec.getLsbD y 19) h1
  simp at h2
  simpa [BitVec.getLsbD_eq_getElem] using h2

/-- C31: for every modulus above `2^32` and every state, `get_rand_32` ends (after at most
`2^46 + 1` draws) and returns a nonzero canonical field element. -/
theorem C31_rand32_terminates (p : ℕ) (hp : 2 ^ 32 ≤ p) (g : Rng) :
    ∃ r g', g.getRand32 p (2 ^ 46 + 1) = some (r, g') ∧ 0 < r ∧ r < p := by
  have hp0 : 0 < p := by omega
  -- if the loop has not ended, all outputs so far are zero
  have key : ∀ (n : ℕ) (g : Rng), (∃ r g', g.getRand32 p n = some (r, g') ∧ 0 < r ∧ r < p) ∨
      ∀ m, m < n → ∃ h : Rng, h.pcg = (fun x => x * pcgMultiplier + pcgIncrement)^[m] g.pcg ∧ h.pcg32.1 = 0 := by
    intro n
    induction n with
    | zero => intro g; right; intro m hm; omega
    | succ n ih =>
      intro g
      by_cases hz : g.pcg32.1.toNat % p ≠ 0
      · left
        refine ⟨g.pcg32.1.toNat % p, g.pcg32.2, ?_, Nat.pos_of_ne_zero hz, Nat.mod_lt _ hp0⟩
        unfold Rng.getRand32
        simp only
        rw [if_pos hz]
      · have hz0 : g.pcg32.1 = 0 := by
          rw [not_not, Nat.mod_eq_of_lt (by have := g.pcg32.1.isLt; omega)] at hz
          exact BitVec.eq_of_toNat_eq (by simpa using hz)
        rcases ih g.pcg32.2 with ⟨r, g', h1, h2⟩ | h
        · left
          refine ⟨r, g', ?_, h2⟩
          unfold Rng.getRand32
          simp only
          rw [if_neg hz]; exact h1
        · right
          intro m hm
          cases m with
          | zero => exact ⟨g, rfl, hz0⟩
          | succ m =>
            obtain ⟨h', e1, e2⟩ := h m (by omega)
            refine ⟨h', ?_, e2⟩
            rw [e1, Function.iterate_succ_apply]; rfl
  rcases key (2 ^ 46 + 1) g with h | h
  · exact h
  · exfalso
    obtain ⟨a, a1, a2⟩ := h 0 (by norm_num)
    obtain ⟨b, b1, b2⟩ := h (2 ^ 46) (by norm_num)
    have ha := pcg_zero_bit46 a a2
    have hb := pcg_zero_bit46 b b2
    rw [a1] at ha
    rw [b1, pcg_bit46] at hb
    simp at ha hb
    rw [ha] at hb; simp at hb

/-- a seed: the state after seeding with 1 is one of those the theorems speak about -/
example : (Rng.initial.setSeed 1#64).s1 ≠ 0 ∧ 9223372036854775783 ∈ primes63 := by
  decide +kernel

end FireFly
