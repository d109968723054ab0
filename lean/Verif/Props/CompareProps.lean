import Verif.Model.Utils
import Verif.Tac
import Mathlib.Data.Nat.Log
/-! # C27, C28: comparisons of exponent vectors, bunch sizes -/
namespace FireFly

/-! ## C27 -/

/-- Specification: colexicographic order; the last position at which the vectors differ decides. -/
def ColexGt (a b : List ℕ) : Prop :=
  ∃ i < a.length, a.getD i 0 > b.getD i 0 ∧ ∀ j, i < j → j < a.length → a.getD j 0 = b.getD j 0

lemma grtLoop_iff (a b : List ℕ) (k : ℕ) : grtLoop a b k = true ↔
    ∃ i < k, a.getD i 0 > b.getD i 0 ∧ ∀ j, i < j → j < k → a.getD j 0 = b.getD j 0 := by
  induction k with
  | zero => simp [grtLoop]
  | succ k ih =>
    unfold grtLoop
    split_ifs with h1 h2
    · rw [ih]
      constructor
      · rintro ⟨i, hi, h3, h4⟩
        refine ⟨i, by omega, h3, fun j hj hk => ?_⟩
        rcases Nat.lt_or_ge j k with h | h
        · exact h4 j hj h
        · have : j = k := by omega
          rw [this]; exact h1
      · rintro ⟨i, hi, h3, h4⟩
        have : i ≠ k := by rintro rfl; omega
        exact ⟨i, by omega, h3, fun j hj hk => h4 j hj (by omega)⟩
    · simp only [true_iff]
      exact ⟨k, by omega, h2, fun j hj hk => by omega⟩
    · simp only [false_iff]
      rintro ⟨i, hi, h3, h4⟩
      rcases Nat.lt_or_ge i k with h | h
      · exact h1 (h4 k h (by omega))
      · have : i = k := by omega
        rw [this] at h3; exact h2 h3

/-- C27: `a_grt_b` is the colexicographic comparison. -/
theorem C27_a_grt_b_colex (a b : List ℕ) : aGrtB a b = true ↔ ColexGt a b := grtLoop_iff a b _

/-- C27: `a_eq_b` on equal lengths is equality. -/
theorem C27_a_eq_b (a b : List ℕ) (h : a.length = b.length) : aEqB a b = true ↔ a = b := by
  have key : ∀ k, eqLoop a b k = true ↔ ∀ j < k, a.getD j 0 = b.getD j 0 := by
    intro k
    induction k with
    | zero => simp [eqLoop]
    | succ k ih =>
      unfold eqLoop
      split_ifs with h1
      · rw [ih]
        constructor
        · intro h2 j hj
          rcases Nat.lt_or_ge j k with h3 | h3
          · exact h2 j h3
          · have : j = k := by omega
            rw [this]; exact h1
        · intro h2 j hj; exact h2 j (by omega)
      · simp only [false_iff]
        intro h2; exact h1 (h2 k (by omega))
  unfold aEqB
  rw [key]
  constructor
  · intro h1
    apply List.ext_getElem h
    intro i h2 h3
    have := h1 i h2
    simpa [List.getD_eq_getElem?_getD, h2, h3] using this
  · rintro rfl; simp

lemma colex_irrefl (a : List ℕ) : ¬ ColexGt a a := by
  rintro ⟨i, _, h, _⟩; omega

lemma colex_trans {a b c : List ℕ} (hab : a.length = b.length) (h1 : ColexGt a b)
    (h2 : ColexGt b c) : ColexGt a c := by
  obtain ⟨i, hi, g1, e1⟩ := h1
  obtain ⟨j, hj, g2, e2⟩ := h2
  rcases Nat.lt_trichotomy i j with h | h | h
  · refine ⟨j, by omega, ?_, fun k hk hl => ?_⟩
    · rw [e1 j h (by omega)]; exact g2
    · rw [e1 k (by omega) hl, e2 k hk (by omega)]
  · subst h
    exact ⟨i, hi, by omega, fun k hk hl => by rw [e1 k hk hl, e2 k hk (by omega)]⟩
  · refine ⟨i, hi, ?_, fun k hk hl => ?_⟩
    · rw [← e2 i h (by omega)]; exact g1
    · rw [e1 k hk hl, e2 k (by omega) (by omega)]

lemma colex_connected {a b : List ℕ} (h : a.length = b.length) (hne : a ≠ b) :
    ColexGt a b ∨ ColexGt b a := by
  by_contra hcon
  push Not at hcon
  apply hne
  rw [← C27_a_eq_b a b h]
  have h1 : ∀ k ≤ a.length, grtLoop a b k = false → grtLoop b a k = false → eqLoop a b k = true := by
    intro k
    induction k with
    | zero => intros; rfl
    | succ k ih =>
      intro hk g1 g2
      unfold grtLoop at g1 g2
      unfold eqLoop
      split_ifs with h0
      · rw [if_pos h0] at g1
        rw [if_pos h0.symm] at g2
        exact ih (by omega) g1 g2
      · exfalso
        rw [if_neg h0] at g1
        rw [if_neg (Ne.symm h0)] at g2
        split_ifs at g1 g2
        omega
  apply h1 _ (le_refl _)
  · rw [← Bool.not_eq_true, ← aGrtB, C27_a_grt_b_colex]; exact hcon.1
  · rw [h, ← Bool.not_eq_true, ← aGrtB, C27_a_grt_b_colex]; exact hcon.2

/-- Specification: a Boolean comparison is a strict total order on the vectors of length `n`. -/
structure StrictTotalOn (n : ℕ) (gt : List ℕ → List ℕ → Bool) : Prop where
  irrefl : ∀ a, a.length = n → gt a a = false
  trans : ∀ a b c, a.length = n → b.length = n → c.length = n →
    gt a b = true → gt b c = true → gt a c = true
  connected : ∀ a b, a.length = n → b.length = n → a ≠ b → gt a b = true ∨ gt b a = true

/-- C27: `a_grt_b` is a strict total order on vectors of equal length. -/
theorem C27_a_grt_b_strict_total (n : ℕ) : StrictTotalOn n aGrtB where
  irrefl a _ := by rw [← Bool.not_eq_true, C27_a_grt_b_colex]; exact colex_irrefl a
  trans a b c ha hb _ h1 h2 := by
    rw [C27_a_grt_b_colex] at *; exact colex_trans (by omega) h1 h2
  connected a b ha hb h := by
    rw [C27_a_grt_b_colex, C27_a_grt_b_colex]; exact colex_connected (by omega) h

/-- C27: `a_grt_b_s` is a strict total order on vectors of equal length, even if the degree sums
wrap around in 32 bits. -/
theorem C27_a_grt_b_s_strict_total (n : ℕ) : StrictTotalOn n aGrtBS where
  irrefl a ha := by unfold aGrtBS; simp [(C27_a_grt_b_strict_total n).irrefl a ha]
  trans a b c ha hb hc h1 h2 := by
    unfold aGrtBS at *
    split_ifs at h1 h2 ⊢ with g1 g2 g3 g4 g5 g6 <;> try omega
    · exact (C27_a_grt_b_strict_total n).trans c b a hc hb ha h2 h1
  connected a b ha hb h := by
    unfold aGrtBS
    rcases Nat.lt_trichotomy (degSum a) (degSum b) with h1 | h1 | h1
    · right; rw [if_neg (by omega), if_neg (by omega)]
    · simp only [h1, lt_irrefl, if_false, if_true]
      exact (C27_a_grt_b_strict_total n).connected b a hb ha (Ne.symm h)
    · left; rw [if_neg (by omega), if_neg (by omega)]

lemma degSum_eq {a : List ℕ} (h : a.sum < 2 ^ 32) : degSum a = a.sum := by
  unfold degSum
  have key : ∀ (l : List ℕ) (s : ℕ), s + l.sum < 2 ^ 32 →
      l.foldl (fun s e => (s + e) % 2 ^ 32) s = s + l.sum := by
    intro l
    induction l with
    | nil => intro s _; simp
    | cons x l ih =>
      intro s hs
      rw [List.sum_cons] at hs
      rw [List.foldl_cons, Nat.mod_eq_of_lt (by omega), ih _ (by omega), List.sum_cons]; omega
  rw [key a 0 (by omega)]; omega

/-- C27: without overflow `a_grt_b_s` orders by total degree first, and by the reversed
colexicographic order within one degree. -/
theorem C27_a_grt_b_s_graded (a b : List ℕ) (ha : a.sum < 2 ^ 32) (hb : b.sum < 2 ^ 32) :
    aGrtBS a b = true ↔ a.sum > b.sum ∨ (a.sum = b.sum ∧ ColexGt b a) := by
  unfold aGrtBS
  rw [degSum_eq ha, degSum_eq hb]
  split_ifs with h1 h2
  · simp; omega
  · rw [C27_a_grt_b_colex]; constructor
    · intro h; right; exact ⟨h2, h⟩
    · rintro (h | h)
      · omega
      · exact h.2
  · simp; omega

example : aGrtB [1, 0, 2] [5, 0, 1] = true ∧ aGrtBS [1, 0, 2] [5, 0, 1] = false := by decide

/-! ## C28 -/

lemma testBit_smear (x i : ℕ) :
    ((let t := x ||| (x >>> 1)
      let t := t ||| (t >>> 2)
      let t := t ||| (t >>> 4)
      let t := t ||| (t >>> 8)
      t ||| (t >>> 16)).testBit i = true) ↔ ∃ j < 32, x.testBit (i + j) = true := by
  simp only [Nat.testBit_or, Nat.testBit_shiftRight, Bool.or_eq_true]
  constructor
  · intro h
    have key : ∀ a : ℕ, ∀ j < 32, x.testBit a = true → a = i + j → ∃ j < 32, x.testBit (i + j) = true :=
      fun a j hj h1 h2 => ⟨j, hj, h2 ▸ h1⟩
    rcases h with h | h
    · rcases h with h | h
      · rcases h with h | h
        · rcases h with h | h
          · rcases h with h | h
            exacts [key _ 0 (by norm_num) h (by omega), key _ 1 (by norm_num) h (by omega)]
          · rcases h with h | h
            exacts [key _ 2 (by norm_num) h (by omega), key _ 3 (by norm_num) h (by omega)]
        · rcases h with (h | h) | (h | h)
          exacts [key _ 4 (by norm_num) h (by omega), key _ 5 (by norm_num) h (by omega),
            key _ 6 (by norm_num) h (by omega), key _ 7 (by norm_num) h (by omega)]
      · rcases h with ((h | h) | (h | h)) | ((h | h) | (h | h))
        exacts [key _ 8 (by norm_num) h (by omega), key _ 9 (by norm_num) h (by omega),
          key _ 10 (by norm_num) h (by omega), key _ 11 (by norm_num) h (by omega),
          key _ 12 (by norm_num) h (by omega), key _ 13 (by norm_num) h (by omega),
          key _ 14 (by norm_num) h (by omega), key _ 15 (by norm_num) h (by omega)]
    · rcases h with (((h | h) | (h | h)) | ((h | h) | (h | h))) | (((h | h) | (h | h)) | ((h | h) | (h | h)))
      exacts [key _ 16 (by norm_num) h (by omega), key _ 17 (by norm_num) h (by omega),
          key _ 18 (by norm_num) h (by omega), key _ 19 (by norm_num) h (by omega),
          key _ 20 (by norm_num) h (by omega), key _ 21 (by norm_num) h (by omega),
          key _ 22 (by norm_num) h (by omega), key _ 23 (by norm_num) h (by omega),
          key _ 24 (by norm_num) h (by omega), key _ 25 (by norm_num) h (by omega),
          key _ 26 (by norm_num) h (by omega), key _ 27 (by norm_num) h (by omega),
          key _ 28 (by norm_num) h (by omega), key _ 29 (by norm_num) h (by omega),
          key _ 30 (by norm_num) h (by omega), key _ 31 (by norm_num) h (by omega)]
  · rintro ⟨j, hj, h⟩
    have e : ∀ a b : ℕ, a = b → x.testBit b = true → x.testBit a = true := fun a b h h2 => h ▸ h2
    have hj' : j = 16 * (j / 16) + 8 * (j / 8 % 2) + 4 * (j / 4 % 2) + 2 * (j / 2 % 2) + j % 2 := by
      omega
    have b0 : j % 2 = 0 ∨ j % 2 = 1 := by omega
    have b1 : j / 2 % 2 = 0 ∨ j / 2 % 2 = 1 := by omega
    have b2 : j / 4 % 2 = 0 ∨ j / 4 % 2 = 1 := by omega
    have b3 : j / 8 % 2 = 0 ∨ j / 8 % 2 = 1 := by omega
    have b4 : j / 16 = 0 ∨ j / 16 = 1 := by omega
    generalize j % 2 = c0 at *
    generalize j / 2 % 2 = c1 at *
    generalize j / 4 % 2 = c2 at *
    generalize j / 8 % 2 = c3 at *
    generalize j / 16 = c4 at *
    subst hj'
    refine b4.imp ?_ ?_ <;> rintro rfl <;> refine b3.imp ?_ ?_ <;> rintro rfl <;>
      refine b2.imp ?_ ?_ <;> rintro rfl <;> refine b1.imp ?_ ?_ <;> rintro rfl <;>
      refine b0.imp ?_ ?_ <;> rintro rfl <;> exact e _ _ (by omega) h

lemma floorPow2_eq {x : ℕ} (h0 : x ≠ 0) (h : x < 2 ^ 31) : floorPow2 x = 2 ^ Nat.log 2 x := by
  have hL : Nat.log 2 x < 31 := Nat.log_lt_of_lt_pow h0 h
  unfold floorPow2
  set t := (let t := x ||| (x >>> 1)
      let t := t ||| (t >>> 2)
      let t := t ||| (t >>> 4)
      let t := t ||| (t >>> 8)
      t ||| (t >>> 16)) with ht
  have hlog : Nat.log2 x = Nat.log 2 x := Nat.log2_eq_log_two
  have hte : t = 2 ^ (Nat.log 2 x + 1) - 1 := by
    apply Nat.eq_of_testBit_eq
    intro i
    rw [Nat.testBit_two_pow_sub_one, Bool.eq_iff_iff, ht, testBit_smear]
    simp only [decide_eq_true_eq]
    constructor
    · rintro ⟨j, _, hj⟩
      have := Nat.ge_two_pow_of_testBit hj
      have h2 : 2 ^ (i + j) < 2 ^ (Nat.log 2 x + 1) :=
        lt_of_le_of_lt this (Nat.lt_pow_succ_log_self (by norm_num) x)
      have := (Nat.pow_lt_pow_iff_right (by norm_num : 1 < 2)).mp h2
      omega
    · intro hi
      refine ⟨Nat.log 2 x - i, by omega, ?_⟩
      have : i + (Nat.log 2 x - i) = Nat.log 2 x := by omega
      rw [this, ← hlog]
      exact Nat.testBit_log2 h0
  change ((t + 1) % 2 ^ 32) >>> 1 = _
  have hpos : 0 < 2 ^ (Nat.log 2 x + 1) := by positivity
  have hlt : 2 ^ (Nat.log 2 x + 1) < 2 ^ 32 := Nat.pow_lt_pow_right (by norm_num) (by omega)
  rw [hte, Nat.sub_add_cancel hpos, Nat.mod_eq_of_lt hlt, Nat.shiftRight_eq_div_pow, pow_succ]
  simp

/-- C28: the value of `compute_bunch_size` for a non-empty queue below `2^31` and at least one
thread: with `f` the largest power of two not above `queue/threads`, it is `min(max, f)` or
`min(max, 2f)` if `2f` is still below the queue length and `f` does not divide it evenly among the
threads; 1 if there are fewer probes than threads. -/
theorem C28_bunch_value (queue thr maxb : ℕ) (hq : queue < 2 ^ 31) (ht : 1 ≤ thr) :
    computeBunchSize queue thr maxb = some
      (if queue < thr then 1
       else let f := 2 ^ Nat.log 2 (queue / thr)
            min maxb (if 2 * f < queue ∧ f * thr ≠ queue then 2 * f else f)) := by
  have hdiv : queue / thr ≤ queue := Nat.div_le_self _ _
  unfold computeBunchSize
  by_cases h1 : maxb = 1
  · rw [if_pos h1, h1]
    congr 1
    split_ifs
    · rfl
    · have : 0 < 2 ^ Nat.log 2 (queue / thr) := by positivity
      simp only; split_ifs <;> omega
  · rw [if_neg h1, if_neg (by omega)]
    by_cases h2 : queue < thr
    · simp [h2]
    · have h3 : queue / thr ≠ 0 := by
        have := Nat.div_pos (by omega : thr ≤ queue) (by omega); omega
      have hf : 2 ^ Nat.log 2 (queue / thr) ≤ queue / thr := Nat.pow_log_le_self 2 h3
      have hft : 2 ^ Nat.log 2 (queue / thr) * thr ≤ queue :=
        (Nat.mul_le_mul_right _ hf).trans (Nat.div_mul_le_self _ _)
      simp only [if_pos h3, if_neg h2]
      rw [floorPow2_eq h3 (by omega)]
      set f := 2 ^ Nat.log 2 (queue / thr)
      rw [Nat.mod_eq_of_lt (by omega : f * 2 < 2 ^ 32), Nat.mod_eq_of_lt (by omega : f * thr < 2 ^ 32),
        mul_comm f 2]

/-- C28: range and shape of the bunch size. -/
theorem C28_bunch (queue thr maxb : ℕ) (h0 : 1 ≤ queue) (hq : queue < 2 ^ 31) (ht : 1 ≤ thr)
    (hm : 1 ≤ maxb) :
    ∃ b, computeBunchSize queue thr maxb = some b ∧ 1 ≤ b ∧ b ≤ maxb ∧ b ≤ queue ∧
      (b = maxb ∨ ∃ k, b = 2 ^ k) := by
  rw [C28_bunch_value queue thr maxb hq ht]
  refine ⟨_, rfl, ?_⟩
  split_ifs with h
  · exact ⟨le_refl _, hm, h0, Or.inr ⟨0, rfl⟩⟩
  · have h3 : queue / thr ≠ 0 := by
      have := Nat.div_pos (by omega : thr ≤ queue) (by omega); omega
    have hf : 2 ^ Nat.log 2 (queue / thr) ≤ queue / thr := Nat.pow_log_le_self 2 h3
    have hdiv : queue / thr ≤ queue := Nat.div_le_self _ _
    have hpos : 0 < 2 ^ Nat.log 2 (queue / thr) := by positivity
    simp only
    split_ifs with h4
    · refine ⟨by omega, by omega, by omega, ?_⟩
      rcases Nat.le_total maxb (2 * 2 ^ Nat.log 2 (queue / thr)) with h5 | h5
      · left; omega
      · right; exact ⟨Nat.log 2 (queue / thr) + 1, by rw [pow_succ]; omega⟩
    · refine ⟨by omega, by omega, by omega, ?_⟩
      rcases Nat.le_total maxb (2 ^ Nat.log 2 (queue / thr)) with h5 | h5
      · left; omega
      · right; exact ⟨Nat.log 2 (queue / thr), by omega⟩

lemma jobLoop_spec (total maxb : ℕ) (ht : 1 ≤ total) (hm : 1 ≤ maxb) : ∀ (k q : ℕ), 1 ≤ q →
    q < 2 ^ 31 → ∃ q', jobLoop total maxb k q = some q' ∧ q' ≤ q ∧ (1 ≤ k → q' < q) := by
  intro k
  induction k with
  | zero => intro q _ _; exact ⟨q, rfl, le_refl _, by omega⟩
  | succ k ih =>
    intro q h0 hq
    obtain ⟨b, e1, e2, e3, e4, _⟩ := C28_bunch q total maxb h0 hq ht hm
    unfold jobLoop
    rw [e1]
    simp only [Option.bind_eq_bind, Option.bind_some]
    have : u32 ((q : ℤ) - b) = q - b := by unfold u32; omega
    rw [this]
    split_ifs with h
    · exact ⟨0, rfl, by omega, by omega⟩
    · obtain ⟨q', f1, f2, _⟩ := ih (q - b) (by omega) (by omega)
      exact ⟨q', f1, by omega, by omega⟩

/-- C28: `compute_job_number` never exceeds the queue length, is at least one if there is a thread,
is zero without threads. -/
theorem C28_job_number (queue threads total maxb : ℕ) (h0 : 1 ≤ queue) (hq : queue < 2 ^ 31)
    (ht : 1 ≤ total) (hm : 1 ≤ maxb) :
    ∃ j, computeJobNumber queue threads total maxb = some j ∧ j ≤ queue ∧ (1 ≤ threads → 1 ≤ j) ∧
      (threads = 0 → j = 0) := by
  obtain ⟨q', e1, e2, e3⟩ := jobLoop_spec total maxb ht hm threads queue h0 hq
  unfold computeJobNumber
  rw [e1]
  have hu : u32 ((queue : ℤ) - q') = queue - q' := by unfold u32; omega
  refine ⟨queue - q', by simp [hu], by omega, by omega, ?_⟩
  rintro rfl
  simp only [jobLoop, Option.some.injEq] at e1
  omega

/-- Corners of C28 outside its range: an empty queue still yields one job (the remaining length
underflows), and a queue of `2^31` probes on one thread yields bunches of size 0. -/
theorem C28_corners :
    computeJobNumber 0 1 1 2 = some 1 ∧ computeBunchSize (2 ^ 31) 1 64 = some 0 ∧
    computeBunchSize 5 0 64 = none := by decide +kernel

example : computeBunchSize 100 8 64 = some 16 ∧ computeJobNumber 100 4 8 64 = some 56 := by
  decide +kernel

end FireFly
