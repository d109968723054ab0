import Verif.Props.RatShiftAllProps
import Verif.Props.RatRunExamples
import Verif.Lemmas.RatSafeField
/-!
# C63: examples
-/
set_option linter.all false
set_option maxRecDepth 20000
namespace FireFly.RRun.Shifted
open MvPolynomial

/-! ### the fields with a shift: `(a x + b y) / (c x + e y)` with the shift `(1, 0)` -/

section
variable {F : Type} [Field F] [DecidableEq F] {gt : F → F → Bool}
open RMulti

lemma val_lin {l b c t : F} (hl : l ≠ 0) (o : ℕ) : valueOf [1, 0] [2] (C l * X 0 + C (l * b) * X 1) (C l * X 0 + C (l * c) * X 1) t [o] = (1 + (1 + b * 2 ^ o) * t) / (1 + (1 + c * 2 ^ o) * t) := by
  unfold valueOf
  have h := fun a b => exShift_eval (gt := fun _ _ => true) (F := F) a b t [o]
  simp only [exShift] at h
  rw [h, h, ← mul_div_mul_left (1 + (1 + b * 2 ^ o) * t) _ hl]
  congr 1 <;> · simp only [List.getD_cons_zero]; ring

/-- The linear systems have one solution at most. -/
lemma sys_lin {v w : F} {A B : Finset ℕ} (hA : A ⊆ {0, 1}) (hB : B ⊆ {1}) {ts : List F} (hnd : ts.Nodup) (hlen : ts.length = A.card + B.card) (hvw : v ≠ w)
    (hts : ∀ t ∈ ts, t ≠ 0 ∧ 1 + v * t ≠ 0 ∧ 1 + w * t ≠ 0) (hpair : ∀ t ∈ ts, ∀ t' ∈ ts, t ≠ t' → 1 + w * (t + t') + w * v * t * t' ≠ 0) {x y : ℕ → F}
    (h : ∀ t ∈ ts, (∑ k ∈ A, x k * t ^ k) * (1 + v * t) = (1 + w * t) * ∑ k ∈ B, y k * t ^ k) : (∀ k ∈ A, x k = 0) ∧ ∀ k ∈ B, y k = 0 := by
  obtain ⟨x0, hx0⟩ : ∃ x0 : F, x0 = if 0 ∈ A then x 0 else 0 := ⟨_, rfl⟩
  obtain ⟨x1, hx1⟩ : ∃ x1 : F, x1 = if 1 ∈ A then x 1 else 0 := ⟨_, rfl⟩
  obtain ⟨y1, hy1⟩ : ∃ y1 : F, y1 = if 1 ∈ B then y 1 else 0 := ⟨_, rfl⟩
  have heq : ∀ t ∈ ts, t ≠ 0 ∧ 1 + v * t ≠ 0 ∧ 1 + w * t ≠ 0 ∧ (x0 + x1 * t) * (1 + v * t) = (1 + w * t) * (y1 * t) := by
    intro t ht
    obtain ⟨h1, h2, h3⟩ := hts t ht
    refine ⟨h1, h2, h3, ?_⟩
    have e := h t ht
    have hs : ∀ f : ℕ → F, ∑ k ∈ A, f k = (if 0 ∈ A then f 0 else 0) + if 1 ∈ A then f 1 else 0 := by
      intro f
      have : ∑ k ∈ A, f k = ∑ k ∈ ({0, 1} : Finset ℕ), if k ∈ A then f k else 0 := by
        rw [← Finset.sum_filter]
        apply Finset.sum_congr _ (fun _ _ => rfl)
        ext k
        rw [Finset.mem_filter]
        exact ⟨fun hk => ⟨hA hk, hk⟩, fun hk => hk.2⟩
      rw [this, Finset.sum_pair (by omega)]
    have hs2 : ∀ f : ℕ → F, ∑ k ∈ B, f k = if 1 ∈ B then f 1 else 0 := by
      intro f
      have : ∑ k ∈ B, f k = ∑ k ∈ ({1} : Finset ℕ), if k ∈ B then f k else 0 := by
        rw [← Finset.sum_filter]
        apply Finset.sum_congr _ (fun _ _ => rfl)
        ext k
        rw [Finset.mem_filter]
        exact ⟨fun hk => ⟨hB hk, hk⟩, fun hk => hk.2⟩
      rw [this, Finset.sum_singleton]
    rw [hs, hs2] at e
    have e1 : ((if 0 ∈ A then x 0 * t ^ 0 else 0) + if 1 ∈ A then x 1 * t ^ 1 else 0) = x0 + x1 * t := by
      rw [hx0, hx1]; split <;> split <;> simp
    have e2 : (if 1 ∈ B then y 1 * t ^ 1 else 0) = y1 * t := by rw [hy1]; split <;> simp
    rw [e1, e2] at e
    exact e
  have hA0 : 0 ∉ A → x0 = 0 := fun h => by rw [hx0, if_neg h]
  have hA1 : 1 ∉ A → x1 = 0 := fun h => by rw [hx1, if_neg h]
  have hB1 : 1 ∉ B → y1 = 0 := fun h => by rw [hy1, if_neg h]
  have hcA : A.card = (if 0 ∈ A then 1 else 0) + if 1 ∈ A then 1 else 0 := by
    have : A = ({0, 1} : Finset ℕ).filter (· ∈ A) := by
      ext k; rw [Finset.mem_filter]; exact ⟨fun hk => ⟨hA hk, hk⟩, fun hk => hk.2⟩
    conv_lhs => rw [this]
    rw [Finset.card_filter, Finset.sum_pair (by omega)]
  have hcB : B.card = if 1 ∈ B then 1 else 0 := by
    have : B = ({1} : Finset ℕ).filter (· ∈ B) := by
      ext k; rw [Finset.mem_filter]; exact ⟨fun hk => ⟨hB hk, hk⟩, fun hk => hk.2⟩
    conv_lhs => rw [this]
    rw [Finset.card_filter, Finset.sum_singleton]
  have hvw' : v - w ≠ 0 := sub_ne_zero.mpr hvw
  have key : x0 = 0 ∧ x1 = 0 ∧ y1 = 0 := by
    rw [hcA, hcB] at hlen
    clear hx0 hx1 hy1
    by_cases c0 : 0 ∈ A <;> by_cases c1 : 1 ∈ A <;> by_cases c2 : 1 ∈ B <;> simp only [c0, c1, c2, if_true, if_false] at hlen
    · match ts, hnd, hlen, heq with
      | [t, t', t''], hnd, _, heq =>
        simp only [List.nodup_cons, List.mem_cons, List.not_mem_nil, or_false, not_or, not_false_eq_true, and_true, List.nodup_nil] at hnd
        obtain ⟨a1, a2, a3, a5⟩ := heq t (by simp)
        obtain ⟨b1, b2, b3, b5⟩ := heq t' (by simp)
        obtain ⟨d1, d2, d3, d5⟩ := heq t'' (by simp)
        have s1 : t - t' ≠ 0 := sub_ne_zero.mpr hnd.1.1
        have s2 : t - t'' ≠ 0 := sub_ne_zero.mpr hnd.1.2
        have s3 : t' - t'' ≠ 0 := sub_ne_zero.mpr hnd.2
        have q1 : (x1 + v * x0 - y1) + (v * x1 - w * y1) * (t + t') = 0 := by
          apply mul_left_cancel₀ s1; linear_combination a5 - b5
        have q2 : (x1 + v * x0 - y1) + (v * x1 - w * y1) * (t + t'') = 0 := by
          apply mul_left_cancel₀ s2; linear_combination a5 - d5
        have q3 : v * x1 - w * y1 = 0 := by
          apply mul_left_cancel₀ s3; linear_combination q1 - q2
        have q4 : x1 + v * x0 - y1 = 0 := by linear_combination q1 - (t + t') * q3
        have q5 : x0 = 0 := by linear_combination a5 - t * q4 - t * t * q3
        have q6 : x1 = y1 := by rw [q5] at q4; linear_combination q4
        rw [q6] at q3
        have q7 : y1 = 0 := by
          apply mul_left_cancel₀ hvw'; linear_combination q3
        exact ⟨q5, q6.trans q7, q7⟩
    · have z := hB1 c2
      match ts, hnd, hlen, heq with
      | [t, t'], hnd, _, heq =>
        simp only [List.nodup_cons, List.mem_cons, List.not_mem_nil, or_false, not_false_eq_true, and_true, List.nodup_nil] at hnd
        obtain ⟨a1, a2, a3, a5⟩ := heq t (by simp)
        obtain ⟨b1, b2, b3, b5⟩ := heq t' (by simp)
        rw [z] at a5 b5
        have q1 : x0 + x1 * t = 0 := by apply mul_right_cancel₀ a2; linear_combination a5
        have q2 : x0 + x1 * t' = 0 := by apply mul_right_cancel₀ b2; linear_combination b5
        have q3 : x1 = 0 := by apply mul_right_cancel₀ (sub_ne_zero.mpr hnd); linear_combination q1 - q2
        exact ⟨by linear_combination q1 - t * q3, q3, z⟩
    · have z := hA1 c1
      match ts, hnd, hlen, heq, hpair with
      | [t, t'], hnd, _, heq, hpair =>
        simp only [List.nodup_cons, List.mem_cons, List.not_mem_nil, or_false, not_false_eq_true, and_true, List.nodup_nil] at hnd
        obtain ⟨a1, a2, a3, a5⟩ := heq t (by simp)
        obtain ⟨b1, b2, b3, b5⟩ := heq t' (by simp)
        have hpp := hpair t (by simp) t' (by simp) hnd
        rw [z] at a5 b5
        have q1 : y1 = 0 := by
          apply mul_left_cancel₀ (mul_ne_zero (sub_ne_zero.mpr hnd) hpp); linear_combination (1 + v * t) * b5 - (1 + v * t') * a5
        refine ⟨?_, z, q1⟩
        apply mul_right_cancel₀ a2
        rw [q1] at a5
        linear_combination a5
    · have z := hA1 c1
      have z2 := hB1 c2
      match ts, hnd, hlen, heq with
      | [t], hnd, _, heq =>
        obtain ⟨a1, a2, a3, a5⟩ := heq t (by simp)
        rw [z, z2] at a5
        exact ⟨by apply mul_right_cancel₀ a2; linear_combination a5, z, z2⟩
    · have z := hA0 c0
      match ts, hnd, hlen, heq with
      | [t, t'], hnd, _, heq =>
        simp only [List.nodup_cons, List.mem_cons, List.not_mem_nil, or_false, not_false_eq_true, and_true, List.nodup_nil] at hnd
        obtain ⟨a1, a2, a3, a5⟩ := heq t (by simp)
        obtain ⟨b1, b2, b3, b5⟩ := heq t' (by simp)
        rw [z] at a5 b5
        have q1 : x1 * (1 + v * t) = (1 + w * t) * y1 := by apply mul_left_cancel₀ a1; linear_combination a5
        have q2 : x1 * (1 + v * t') = (1 + w * t') * y1 := by apply mul_left_cancel₀ b1; linear_combination b5
        have q3 : v * x1 - w * y1 = 0 := by apply mul_left_cancel₀ (sub_ne_zero.mpr hnd); linear_combination q1 - q2
        have q4 : x1 = y1 := by linear_combination q1 - t * q3
        rw [q4] at q3
        have q6 : y1 = 0 := by
          apply mul_left_cancel₀ hvw'; linear_combination q3
        exact ⟨z, q4.trans q6, q6⟩
    · have z := hA0 c0
      have z2 := hB1 c2
      match ts, hnd, hlen, heq with
      | [t], hnd, _, heq =>
        obtain ⟨a1, a2, a3, a5⟩ := heq t (by simp)
        rw [z, z2] at a5
        exact ⟨z, by apply mul_right_cancel₀ (mul_ne_zero a1 a2); linear_combination a5, z2⟩
    · have z := hA0 c0
      have z2 := hA1 c1
      match ts, hnd, hlen, heq with
      | [t], hnd, _, heq =>
        obtain ⟨a1, a2, a3, a5⟩ := heq t (by simp)
        rw [z, z2] at a5
        exact ⟨z, z2, by apply mul_right_cancel₀ (mul_ne_zero a3 a1); linear_combination -a5⟩
    · exact ⟨hA0 c0, hA1 c1, hB1 c2⟩
  refine ⟨fun k hk => ?_, fun k hk => ?_⟩
  · have := hA hk
    simp only [Finset.mem_insert, Finset.mem_singleton] at this
    rcases this with rfl | rfl
    · have := key.1; rw [hx0, if_pos hk] at this; exact this
    · have := key.2.1; rw [hx1, if_pos hk] at this; exact this
  · have := hB hk
    simp only [Finset.mem_singleton] at this
    subst this
    have := key.2.2; rw [hy1, if_pos hk] at this; exact this

/-- what is asked of a probe `(t, (o))` -/
structure PtOK (b c : F) (t : F) (o : ℕ) : Prop where
  t0 : t ≠ 0
  num : 1 + (1 + b * 2 ^ o) * t ≠ 0
  den : 1 + (1 + c * 2 ^ o) * t ≠ 0
  ne : 1 + c * 2 ^ o ≠ 1 + b * 2 ^ o

/-- what is asked of two probes -/
def PairOK (b c : F) (t t' : F) (o : ℕ) : Prop := 1 + (1 + b * 2 ^ o) * (t + t') + (1 + b * 2 ^ o) * (1 + c * 2 ^ o) * t * t' ≠ 0

lemma sup_lin (a b : F) (ha : a ≠ 0) (j : ℕ) : (part [1, 0] (C a * X 0 + C b * X 1) j - homogeneousComponent j (C a * X 0 + C b * X 1)).support = if j = 0 then {0} else ∅ := by
  have h1 := exShift_part (gt := fun _ _ => true) a b j
  simp only [exShift] at h1
  rw [h1, homogeneousComponent_of_mem ((mem_homogeneousSubmodule _ _).mpr (hom_lin a b))]
  by_cases h : j = 0
  · subst h
    rw [if_neg (by omega), if_pos rfl, if_neg (by omega), sub_zero, if_pos rfl]
    ext m
    rw [mem_support_iff, coeff_C, Finset.mem_singleton]
    by_cases hm : m = 0
    · subst hm; simpa using ha
    · rw [if_neg (fun h => hm h.symm)]; simp [hm]
  · rw [if_neg h, if_neg h]
    by_cases h' : j = 1
    · rw [if_pos h', sub_self]; simp
    · rw [if_neg h', sub_zero]; simp
end

/-! ### `(x + 2 y) / (x + 40/3 y)` -/

/-- `x + 2 y` -/
noncomputable def shN : MvPolynomial ℕ ℚ := C 1 * X 0 + C 2 * X 1
/-- `x + 40/3 y` -/
noncomputable def shD : MvPolynomial ℕ ℚ := C 1 * X 0 + C (40 / 3) * X 1
/-- the shift produces a constant -/
def shS (b : Bool) (j : ℕ) : Finset (ℕ →₀ ℕ) := if j = 0 then {0} else ∅

lemma lin_support {a b : ℚ} (ha : a ≠ 0) (hb : b ≠ 0) : (C a * X 0 + C b * X 1 : MvPolynomial ℕ ℚ).support = {Finsupp.single 0 1, Finsupp.single 1 1} := by
  ext m
  rw [mem_support_iff, coeff_lin]
  by_cases h : m = Finsupp.single 0 1
  · simp [h, ha]
  · rw [if_neg h]
    by_cases h' : m = Finsupp.single 1 1
    · rw [if_pos h']; simp [h', hb]
    · simp [h, h']

lemma lin_vars {a b : ℚ} (ha : a ≠ 0) (hb : b ≠ 0) : InVars 2 (C a * X 0 + C b * X 1) := by
  intro m hm i hi
  rw [lin_support ha hb, Finset.mem_insert, Finset.mem_singleton] at hm
  rcases hm with rfl | rfl <;> · simp [Finsupp.single_apply]; omega

/-- the coefficient of `y` -/
def shc (b : Bool) : ℚ := if b then 40 / 3 else 2
lemma shc_ne (b : Bool) : shc b ≠ 0 := by cases b <;> norm_num [shc]
lemma shc_cast (p : ℕ) [Fact p.Prime] : ((shc false : ℚ) : ZMod p) = 2 ∧ ((shc true : ℚ) : ZMod p) = 40 / 3 := ⟨by simp [shc], by simp only [shc, if_true]; exact cast_40 p⟩
lemma sh_side (l : ℚ) (b : Bool) : side (C l * shN) (C l * shD) b = C l * X 0 + C (l * shc b) * X 1 := by
  cases b <;> simp [side, shN, shD, shc, C_mul] <;> ring

/-- The factors for which one coefficient is one. -/
lemma sh_scale {l : ℚ} (h : ∃ b m, coeff m (side (C l * shN) (C l * shD) b) = 1) : l = 1 ∨ l = 1 / 2 ∨ l = 3 / 40 := by
  obtain ⟨b, m, h⟩ := h
  rw [sh_side, coeff_lin] at h
  split_ifs at h
  · exact Or.inl h
  · cases b
    · right; left; simp [shc] at h; linarith
    · right; right; simp [shc] at h; linarith
  · norm_num at h

/-- What the numbers in `C l * shN`, `C l * shD` satisfy for the prime `p`. -/
structure ScaleOK (p : ℕ) [Fact p.Prime] (l : ℚ) : Prop where
  l0 : (l : ZMod p) ≠ 0
  den : ¬ (p : ℤ) ∣ l.den
  denY : ∀ b, ¬ (p : ℤ) ∣ (l * shc b).den
  castY : ∀ b, ((l * shc b : ℚ) : ZMod p) = l * shc b

lemma ScaleOK.red {p : ℕ} [Fact p.Prime] {l : ℚ} (h : ScaleOK p l) (b : Bool) : RRun.red p (side (C l * shN) (C l * shD) b) = C (l : ZMod p) * X 0 + C ((l : ZMod p) * (shc b : ZMod p)) * X 1 := by
  rw [sh_side, red_lin, h.castY]

lemma ScaleOK.dens {p : ℕ} [Fact p.Prime] {l : ℚ} (h : ScaleOK p l) (b : Bool) (m : ℕ →₀ ℕ) : ¬ (p : ℤ) ∣ (coeff m (side (C l * shN) (C l * shD) b)).den := by
  rw [sh_side, coeff_lin]
  split_ifs
  · exact h.den
  · exact h.denY b
  · intro hd
    have : (p : ℤ) ∣ ((1 : ℕ) : ℤ) := hd
    have := Nat.le_of_dvd one_pos (Int.natCast_dvd_natCast.mp this)
    have := (Fact.out : p.Prime).two_le
    omega

lemma sh_mem {l : ℚ} (hl : l ≠ 0) (b : Bool) {m : ℕ →₀ ℕ} : m ∈ (side (C l * shN) (C l * shD) b).support ↔ m = Finsupp.single 0 1 ∨ m = Finsupp.single 1 1 := by
  rw [sh_side, lin_support hl (mul_ne_zero hl (shc_ne b)), Finset.mem_insert, Finset.mem_singleton]

lemma sh_asked {l : ℚ} (hl : l ≠ 0) (b : Bool) {j : ℕ} (h : Asked (C l * shN) (C l * shD) shS true b j) : j = 1 ∨ (j = 0 ∧ b = false) := by
  obtain ⟨h1, h2⟩ := h
  rcases h1 with ⟨m, h3, rfl⟩ | h3
  · left
    rcases (sh_mem hl b).mp h3 with rfl | rfl <;> simp
  · right
    unfold shS at h3
    have : j = 0 := by by_contra hc; rw [if_neg hc] at h3; exact h3 rfl
    refine ⟨this, ?_⟩
    cases b
    · rfl
    · exact absurd ⟨rfl, this⟩ h2

/-- a further field with the shift `(1, 0)` -/
lemma sh_shift {l : ℚ} (hl : l ≠ 0) {r : RRun.Prime} (hs : haveI := r.fact; ScaleOK r.p l) (hn : r.cfg.n = 2) (hsh : haveI := r.fact; r.cfg.shift = [1, 0]) (ha : haveI := r.fact; r.cfg.anchor = [2])
    (hgt : haveI := r.fact; PivotOrder r.cfg.gt) (hp : haveI := r.fact; 2 < r.p)
    (hq : haveI := r.fact; ∀ q ∈ r.probes, ∃ o, q.2.2 = [o] ∧ PtOK (2 : ZMod r.p) (40 / 3 : ZMod r.p) q.1 o ∧ q.2.1 = (1 + (1 + (2 : ZMod r.p) * 2 ^ o) * q.1) / (1 + (1 + (40 / 3 : ZMod r.p) * 2 ^ o) * q.1))
    (hpair : haveI := r.fact; ∀ q ∈ r.probes, ∀ q' ∈ r.probes, q.2.2 = q'.2.2 → q.1 ≠ q'.1 → PairOK (2 : ZMod r.p) (40 / 3 : ZMod r.p) q.1 q'.1 (q.2.2.getD 0 0))
    (hnd : (r.probes.map (fun q => (q.1, q.2.2))).Nodup) : ShiftOK 2 (C l * shN) (C l * shD) shS true r := by
  haveI := r.fact
  have hq : ∀ q ∈ r.probes, ∃ o, q.2.2 = [o] ∧ PtOK (shc false : ZMod r.p) (shc true : ZMod r.p) q.1 o ∧ q.2.1 = (1 + (1 + (shc false : ZMod r.p) * 2 ^ o) * q.1) / (1 + (1 + (shc true : ZMod r.p) * 2 ^ o) * q.1) := by simp only [(shc_cast r.p).1, (shc_cast r.p).2]; exact hq
  have hpair : ∀ q ∈ r.probes, ∀ q' ∈ r.probes, q.2.2 = q'.2.2 → q.1 ≠ q'.1 → PairOK (shc false : ZMod r.p) (shc true : ZMod r.p) q.1 q'.1 (q.2.2.getD 0 0) := by simp only [(shc_cast r.p).1, (shc_cast r.p).2]; exact hpair
  have h2 : (2 : ZMod r.p) ≠ 0 := by
    intro h
    have : ((2 : ℕ) : ZMod r.p) = 0 := by exact_mod_cast h
    rw [ZMod.natCast_eq_zero_iff] at this
    have := Nat.le_of_dvd (by norm_num) this
    omega
  have h21 : (2 : ZMod r.p) ≠ 1 := by
    intro h
    exact one_ne_zero (α := ZMod r.p) (by linear_combination h)
  have eN : RRun.red r.p (C l * shN) = C (l : ZMod r.p) * X 0 + C ((l : ZMod r.p) * (shc false : ZMod r.p)) * X 1 := hs.red false
  have eD : RRun.red r.p (C l * shD) = C (l : ZMod r.p) * X 0 + C ((l : ZMod r.p) * (shc true : ZMod r.p)) * X 1 := hs.red true
  have hv : ∀ (t : ZMod r.p) (o : ℕ), RMulti.valueOf r.cfg.shift r.cfg.anchor (RRun.red r.p (C l * shN)) (RRun.red r.p (C l * shD)) t [o] =
      (1 + (1 + (shc false : ZMod r.p) * 2 ^ o) * t) / (1 + (1 + (shc true : ZMod r.p) * 2 ^ o) * t) := by
    intro t o
    rw [eN, eD, hsh, ha, val_lin hs.l0]
  refine ⟨le_rfl, hn, by rw [hsh]; rfl, by rw [ha]; rfl, by rw [ha]; simpa using h2, hgt, hs.dens, ?_, ?_, ?_, ?_, ?_, hnd, ?_⟩
  · rw [hs.red, hsh]
    simpa using hs.l0
  · intro b j
    rw [hs.red, hsh, sup_lin _ _ hs.l0]; rfl
  · intro b j m hm m' hm' e1 e2 h
    have e0 : eval (RMulti.dir r.cfg.anchor (List.replicate (2 - 1) 1)) (monomial (Finsupp.single 0 1) (1 : ZMod r.p)) = 1 := by
      rw [ha]; simp [RMulti.dir, eval_monomial]
    have e3 : eval (RMulti.dir r.cfg.anchor (List.replicate (2 - 1) 1)) (monomial (Finsupp.single 1 1) (1 : ZMod r.p)) = 2 := by
      rw [ha]; simp [RMulti.dir, eval_monomial]
    have key : ∀ m ∈ (side (C l * shN) (C l * shD) b).support ∪ shS b j, m.degree = j → (m = 0 ∧ j = 0) ∨ (j = 1 ∧ (m = Finsupp.single 0 1 ∨ m = Finsupp.single 1 1)) := by
      intro m hm hj
      rw [Finset.mem_union, sh_mem hl] at hm
      rcases hm with hm | hm
      · right
        refine ⟨?_, hm⟩
        rw [← hj]
        rcases hm with rfl | rfl <;> simp
      · left
        unfold shS at hm
        by_cases h0 : j = 0
        · rw [if_pos h0] at hm; exact ⟨Finset.mem_singleton.mp hm, h0⟩
        · rw [if_neg h0] at hm; simp at hm
    rcases key m hm e1 with ⟨rfl, rfl⟩ | ⟨rfl, k1⟩
    · rcases key m' hm' e2 with ⟨rfl, -⟩ | ⟨h0, -⟩
      · rfl
      · omega
    · rcases key m' hm' e2 with ⟨-, h0⟩ | ⟨-, k2⟩
      · omega
      · rcases k1 with rfl | rfl <;> rcases k2 with rfl | rfl
        · rfl
        · rw [e0, e3] at h; exact absurd h.symm h21
        · rw [e0, e3] at h; exact absurd h h21
        · rfl
  · intro b m hm
    rcases (sh_mem hl b).mp hm with rfl | rfl <;> · simp; omega
  · intro q hq'
    obtain ⟨o, h1, h3, h4⟩ := hq q hq'
    rw [h1, hv]
    refine ⟨by simp, ?_, h4⟩
    rw [eD, hsh, ha]
    have h := exShift_eval (gt := fun _ _ => true) (F := ZMod r.p) (l : ZMod r.p) ((l : ZMod r.p) * (shc true : ZMod r.p)) q.1 [o]
    simp only [exShift] at h
    rw [h]
    have := mul_ne_zero hs.l0 h3.den
    intro h0
    apply this
    rw [← h0]
    simp only [List.getD_cons_zero]; ring
  · intro ord A B ts hA hB hnd' hts hlen x y heq
    have hA' : A ⊆ {0, 1} := by
      intro j hj
      rcases sh_asked hl false (hA j hj) with h | h
      · rw [h]; simp
      · rw [h.1]; simp
    have hB' : B ⊆ {1} := by
      intro j hj
      rcases sh_asked hl true (hB j hj) with h | h
      · rw [h]; simp
      · exact absurd h.2 (by decide)
    have hmem : ∀ t ∈ ts, ∃ q ∈ r.probes, q.1 = t ∧ q.2.2 = ord := by
      intro t ht
      obtain ⟨q, hq1, hq2⟩ := List.mem_map.mp (hts t ht)
      obtain ⟨rfl, rfl⟩ := Prod.mk.inj hq2
      exact ⟨q, hq1, rfl, rfl⟩
    rcases hts0 : ts with _ | ⟨t0, ts'⟩
    · rw [hts0] at hlen
      have a1 : A = ∅ := Finset.card_eq_zero.mp (by simp at hlen; omega)
      have a2 : B = ∅ := Finset.card_eq_zero.mp (by simp at hlen; omega)
      subst a1; subst a2
      exact ⟨by simp, by simp⟩
    · obtain ⟨q0, hq0, -, hord⟩ := hmem t0 (by rw [hts0]; simp)
      obtain ⟨o, ho, hP0, -⟩ := hq q0 hq0
      rw [hord] at ho
      subst ho
      refine sys_lin hA' hB' hnd' hlen hP0.ne ?_ ?_ ?_
      · intro t ht
        obtain ⟨q, hq1, rfl, hq2⟩ := hmem t ht
        obtain ⟨o', ho', hP, -⟩ := hq q hq1
        obtain rfl : o = o' := by rw [hq2] at ho'; simpa using ho'
        exact ⟨hP.t0, hP.den, hP.num⟩
      · intro t ht t' ht' hne
        obtain ⟨q, hq1, rfl, hq2⟩ := hmem t ht
        obtain ⟨q', hq1', rfl, hq2'⟩ := hmem t' ht'
        have := hpair q hq1 q' hq1' (hq2.trans hq2'.symm) hne
        rw [hq2] at this
        exact this
      · intro t ht
        have e := heq t ht
        obtain ⟨q, hq1, rfl, hq2⟩ := hmem t ht
        obtain ⟨o', ho', hP, -⟩ := hq q hq1
        obtain rfl : o = o' := by rw [hq2] at ho'; simpa using ho'
        rw [hv, div_mul_eq_mul_div, eq_div_iff hP.den] at e
        exact e

/-- a further field without shift -/
lemma sh_plain {l : ℚ} (hl : l ≠ 0) {r : RRun.Prime} (hs : haveI := r.fact; ScaleOK r.p l) (hn : r.cfg.n = 2) (ha : haveI := r.fact; r.cfg.anchor = [2])
    (hgt : haveI := r.fact; PivotOrder r.cfg.gt) (hp : haveI := r.fact; 2 < r.p)
    (hq : haveI := r.fact; ∀ q ∈ r.probes, ∃ o, q.2.2 = [o] ∧ q.1 ≠ 0 ∧ 1 + (2 : ZMod r.p) * 2 ^ o ≠ 0 ∧ 1 + (40 / 3 : ZMod r.p) * 2 ^ o ≠ 0 ∧ q.2.1 = (1 + (2 : ZMod r.p) * 2 ^ o) / (1 + (40 / 3 : ZMod r.p) * 2 ^ o))
    (hnd : (r.probes.map (fun q => (q.1, q.2.2))).Nodup) : PlainOK 2 (C l * shN) (C l * shD) r := by
  haveI := r.fact
  have hq : ∀ q ∈ r.probes, ∃ o, q.2.2 = [o] ∧ q.1 ≠ 0 ∧ 1 + (shc false : ZMod r.p) * 2 ^ o ≠ 0 ∧ 1 + (shc true : ZMod r.p) * 2 ^ o ≠ 0 ∧ q.2.1 = (1 + (shc false : ZMod r.p) * 2 ^ o) / (1 + (shc true : ZMod r.p) * 2 ^ o) := by simp only [(shc_cast r.p).1, (shc_cast r.p).2]; exact hq
  have h2 : (2 : ZMod r.p) ≠ 0 := by
    intro h
    have : ((2 : ℕ) : ZMod r.p) = 0 := by exact_mod_cast h
    rw [ZMod.natCast_eq_zero_iff] at this
    have := Nat.le_of_dvd (by norm_num) this
    omega
  have h21 : (2 : ZMod r.p) ≠ 1 := by
    intro h
    exact one_ne_zero (α := ZMod r.p) (by linear_combination h)
  have eN : RRun.red r.p (C l * shN) = C (l : ZMod r.p) * X 0 + C ((l : ZMod r.p) * (shc false : ZMod r.p)) * X 1 := hs.red false
  have eD : RRun.red r.p (C l * shD) = C (l : ZMod r.p) * X 0 + C ((l : ZMod r.p) * (shc true : ZMod r.p)) * X 1 := hs.red true
  have hv : ∀ (t : ZMod r.p) (o : ℕ), t ≠ 0 → 1 + (shc true : ZMod r.p) * 2 ^ o ≠ 0 → eval (RLater.at_ r.cfg.anchor t [o]) (RRun.red r.p (C l * shD)) ≠ 0 ∧
      RLater.value r.cfg.anchor (RRun.red r.p (C l * shN)) (RRun.red r.p (C l * shD)) t [o] = (1 + (shc false : ZMod r.p) * 2 ^ o) / (1 + (shc true : ZMod r.p) * 2 ^ o) := by
    intro t o h1 h3
    unfold RLater.value
    rw [eN, eD, ha, later_eval, later_eval]
    have hlt := mul_ne_zero h1 hs.l0
    have e : ∀ c : ZMod r.p, t * ((l : ZMod r.p) + (l : ZMod r.p) * c * 2 ^ o) = t * (l : ZMod r.p) * (1 + c * 2 ^ o) := fun c => by ring
    rw [e, e]
    exact ⟨mul_ne_zero hlt h3, by rw [mul_div_mul_left _ _ hlt]⟩
  refine ⟨⟨hn, by rw [ha]; rfl, by rw [ha]; simpa using h2, hgt, fun m => hs.dens false m, fun m => hs.dens true m, ?_, ?_, hnd⟩, ?_⟩
  · intro f hf m hm m' hm' _ h
    have hm1 : ∀ m ∈ f.support, m = Finsupp.single 0 1 ∨ m = Finsupp.single 1 1 := by
      intro m hm
      simp only [List.mem_cons, List.not_mem_nil, or_false] at hf
      rcases hf with rfl | rfl
      · exact (sh_mem hl false).mp hm
      · exact (sh_mem hl true).mp hm
    have e0 : eval (RMulti.dir r.cfg.anchor (List.replicate (2 - 1) 1)) (monomial (Finsupp.single 0 1) (1 : ZMod r.p)) = 1 := by
      rw [ha]; simp [RMulti.dir, eval_monomial]
    have e3 : eval (RMulti.dir r.cfg.anchor (List.replicate (2 - 1) 1)) (monomial (Finsupp.single 1 1) (1 : ZMod r.p)) = 2 := by
      rw [ha]; simp [RMulti.dir, eval_monomial]
    rcases hm1 m hm with rfl | rfl <;> rcases hm1 m' hm' with rfl | rfl
    · rfl
    · rw [e0, e3] at h; exact absurd h.symm h21
    · rw [e0, e3] at h; exact absurd h h21
    · rfl
  · intro q hq'
    obtain ⟨o, h1, h3, -, h4, h5⟩ := hq q hq'
    rw [h1, h5]
    exact ⟨by simp, (hv q.1 o h3 h4).1, (hv q.1 o h3 h4).2.symm⟩
  · intro ord A B ts hA hB hnot hnd' hts hlen x z heq
    have hA' := ex_single (A := A) (k := 1) (by
      intro j hj
      obtain ⟨m, h1, h3⟩ := hA j hj
      rw [← h3]
      rcases (sh_mem hl false).mp h1 with rfl | rfl <;> simp)
    have hB' := ex_single (A := B) (k := 1) (by
      intro j hj
      obtain ⟨m, h1, h3⟩ := hB j hj
      rw [← h3]
      rcases (sh_mem hl true).mp h1 with rfl | rfl <;> simp)
    have hone : ∀ t, ts = [t] → t ≠ 0 ∧ ∃ v : ZMod r.p, v ≠ 0 ∧ RLater.value r.cfg.anchor (RRun.red r.p (C l * shN)) (RRun.red r.p (C l * shD)) t ord = v := by
      intro t ht
      obtain ⟨q, hq1, hq2⟩ := List.mem_map.mp (hts t (by rw [ht]; simp))
      obtain ⟨rfl, rfl⟩ := Prod.mk.inj hq2
      obtain ⟨o, h1, h3, h6, h4, h5⟩ := hq q hq1
      refine ⟨h3, _, div_ne_zero h6 h4, ?_⟩
      rw [h1, (hv q.1 o h3 h4).2]
    rcases hA' with rfl | rfl <;> rcases hB' with rfl | rfl
    · exact ⟨by simp, by simp⟩
    · refine ⟨by simp, ?_⟩
      intro k hk
      rw [Finset.mem_singleton.mp hk]
      obtain ⟨t, ht⟩ := List.length_eq_one_iff.mp (by simpa using hlen)
      obtain ⟨h3, v, h4, h5⟩ := hone t ht
      have := heq t (by rw [ht]; simp)
      rw [h5] at this
      simp only [Finset.sum_empty, Finset.sum_singleton, pow_one] at this
      exact (mul_eq_zero.mp ((mul_eq_zero.mp this.symm).resolve_left h4)).resolve_right h3
    · refine ⟨?_, by simp⟩
      intro k hk
      rw [Finset.mem_singleton.mp hk]
      obtain ⟨t, ht⟩ := List.length_eq_one_iff.mp (by simpa using hlen)
      obtain ⟨h3, v, h4, h5⟩ := hone t ht
      have := heq t (by rw [ht]; simp)
      simp only [Finset.sum_empty, Finset.sum_singleton, pow_one, mul_zero] at this
      exact (mul_eq_zero.mp this).resolve_right h3
    · exfalso
      rcases hnot with ⟨m, h1, h3⟩ | ⟨m, h1, h3⟩
      · apply h3
        rcases (sh_mem hl false).mp h1 with rfl | rfl <;> simp
      · apply h3
        rcases (sh_mem hl true).mp h1 with rfl | rfl <;> simp

/-! ### three prime fields: the shift is kept in the second one, and disabled before the third one -/

def pr0 (t o : ℕ) : ZMod 101 × ZMod 101 × List ℕ := (t, (1 + (1 + 2 * 2 ^ o) * t) / (1 + (1 + 40 / 3 * 2 ^ o) * t), [o])
def pr1 (t o : ℕ) : ZMod 103 × ZMod 103 × List ℕ := (t, (1 + (1 + 2 * 2 ^ o) * t) / (1 + (1 + 40 / 3 * 2 ^ o) * t), [o])
def pr2 (t o : ℕ) : ZMod 107 × ZMod 107 × List ℕ := (t, (1 + (1 + 2 * 2 ^ o) * t) / (1 + (1 + 40 / 3 * 2 ^ o) * t), [o])
def pl1 (t o : ℕ) : ZMod 103 × ZMod 103 × List ℕ := (t, (1 + 2 * 2 ^ o) / (1 + 40 / 3 * 2 ^ o), [o])
def pl2 (t o : ℕ) : ZMod 107 × ZMod 107 × List ℕ := (t, (1 + 2 * 2 ^ o) / (1 + 40 / 3 * 2 ^ o), [o])

def st0Probes : List (ZMod 101 × ZMod 101 × List ℕ) := [pr0 1 1, pr0 2 1, pr0 3 1, pr0 4 1, pr0 5 2, pr0 6 2, pr0 7 2]
def st1Probes : List (ZMod 103 × ZMod 103 × List ℕ) := [pr1 1 1, pr1 2 1, pr1 3 1, pr1 4 2, pr1 5 2, pr1 6 2]
def st2Probes : List (ZMod 107 × ZMod 107 × List ℕ) := [pr2 1 1, pr2 2 1, pr2 4 1, pr2 4 2, pr2 5 2, pr2 6 2]
def st1Plain : List (ZMod 103 × ZMod 103 × List ℕ) := [pl1 1 1, pl1 2 1, pl1 3 2, pl1 4 2]
def st2Plain : List (ZMod 107 × ZMod 107 × List ℕ) := [pl2 1 1, pl2 2 1, pl2 3 2, pl2 4 2]

def st0 : Stage := ⟨⟨101, fact101, { n := 2, shift := [1, 0], anchor := [2], gt := exGt 101, fuel := 100 }, st0Probes, 103⟩, [], false⟩
def st1 : Stage := ⟨⟨103, fact103, { n := 2, shift := [1, 0], anchor := [2], gt := exGt 103, fuel := 100 }, st1Probes, 107⟩, st1Plain, false⟩
def st2 : Stage := ⟨⟨107, fact107, { n := 2, shift := [1, 0], anchor := [2], gt := exGt 107, fuel := 100 }, st2Probes, 109⟩, st2Plain, false⟩

instance : Fact (Nat.Prime st1.base.p) := fact103
instance : Fact (Nat.Prime st2.base.p) := fact107

/-- the result, as numbers -/
def shows (N0 D0 : List (List ℕ × ℤ × ℤ)) : Option RunOut → Bool
  | some (.finished N D) => decide (N.map (fun t => (t.1, t.2.num, t.2.den)) = N0) && decide (D.map (fun t => (t.1, t.2.num, t.2.den)) = D0)
  | _ => false

/-- the number of the next field, `singular`, `asks`, `on` -/
def waits (k : ℕ) (a b c : Bool) : Option RunOut → Bool
  | some (.waiting s) => decide (s.base.primeNumber = k) && decide (s.singular = a ∧ s.asks = b ∧ s.on = c)
  | _ => false

lemma sh_run0 : waits 1 true true true (run mpzInvert idOrder (Cross.initial 101) [st0]) = true := by decide +kernel
lemma sh_run1 : waits 2 false false true (run mpzInvert idOrder (Cross.initial 101) [st0, st1]) = true := by decide +kernel
lemma sh_run2 : shows [([1, 0], 1, 1), ([0, 1], 2, 1)] [([1, 0], 1, 1), ([0, 1], 40, 3)] (run mpzInvert idOrder (Cross.initial 101) [st0, st1, st2]) = true := by decide +kernel

lemma scale103 {l : ℚ} (h : l = 1 ∨ l = 1 / 2 ∨ l = 3 / 40) : ScaleOK 103 l := by
  rcases h with rfl | rfl | rfl
  · exact ⟨by decide +kernel, by decide +kernel, by decide +kernel, by decide +kernel⟩
  · exact ⟨by decide +kernel, by decide +kernel, by decide +kernel, by decide +kernel⟩
  · exact ⟨by decide +kernel, by decide +kernel, by decide +kernel, by decide +kernel⟩

lemma scale107 {l : ℚ} (h : l = 1 ∨ l = 1 / 2 ∨ l = 3 / 40) : ScaleOK 107 l := by
  rcases h with rfl | rfl | rfl
  · exact ⟨by decide +kernel, by decide +kernel, by decide +kernel, by decide +kernel⟩
  · exact ⟨by decide +kernel, by decide +kernel, by decide +kernel, by decide +kernel⟩
  · exact ⟨by decide +kernel, by decide +kernel, by decide +kernel, by decide +kernel⟩

lemma st1_pts : ∀ q ∈ st1Probes, q.2.2 = [q.2.2.getD 0 0] ∧ (q.1 ≠ 0 ∧ 1 + (1 + (2 : ZMod 103) * 2 ^ q.2.2.getD 0 0) * q.1 ≠ 0 ∧ 1 + (1 + (40 / 3 : ZMod 103) * 2 ^ q.2.2.getD 0 0) * q.1 ≠ 0 ∧
    1 + (40 / 3 : ZMod 103) * 2 ^ q.2.2.getD 0 0 ≠ 1 + 2 * 2 ^ q.2.2.getD 0 0) ∧ q.2.1 = (1 + (1 + 2 * 2 ^ q.2.2.getD 0 0) * q.1) / (1 + (1 + 40 / 3 * 2 ^ q.2.2.getD 0 0) * q.1) := by decide +kernel
lemma st1_pairs : ∀ q ∈ st1Probes, ∀ q' ∈ st1Probes, q.2.2 = q'.2.2 → q.1 ≠ q'.1 →
    1 + (1 + (2 : ZMod 103) * 2 ^ q.2.2.getD 0 0) * (q.1 + q'.1) + (1 + 2 * 2 ^ q.2.2.getD 0 0) * (1 + 40 / 3 * 2 ^ q.2.2.getD 0 0) * q.1 * q'.1 ≠ 0 := by decide +kernel
lemma st2_pts : ∀ q ∈ st2Probes, q.2.2 = [q.2.2.getD 0 0] ∧ (q.1 ≠ 0 ∧ 1 + (1 + (2 : ZMod 107) * 2 ^ q.2.2.getD 0 0) * q.1 ≠ 0 ∧ 1 + (1 + (40 / 3 : ZMod 107) * 2 ^ q.2.2.getD 0 0) * q.1 ≠ 0 ∧
    1 + (40 / 3 : ZMod 107) * 2 ^ q.2.2.getD 0 0 ≠ 1 + 2 * 2 ^ q.2.2.getD 0 0) ∧ q.2.1 = (1 + (1 + 2 * 2 ^ q.2.2.getD 0 0) * q.1) / (1 + (1 + 40 / 3 * 2 ^ q.2.2.getD 0 0) * q.1) := by decide +kernel
lemma st2_pairs : ∀ q ∈ st2Probes, ∀ q' ∈ st2Probes, q.2.2 = q'.2.2 → q.1 ≠ q'.1 →
    1 + (1 + (2 : ZMod 107) * 2 ^ q.2.2.getD 0 0) * (q.1 + q'.1) + (1 + 2 * 2 ^ q.2.2.getD 0 0) * (1 + 40 / 3 * 2 ^ q.2.2.getD 0 0) * q.1 * q'.1 ≠ 0 := by decide +kernel
lemma st1_plain : ∀ q ∈ st1Plain, q.2.2 = [q.2.2.getD 0 0] ∧ q.1 ≠ 0 ∧ 1 + (2 : ZMod 103) * 2 ^ q.2.2.getD 0 0 ≠ 0 ∧ 1 + (40 / 3 : ZMod 103) * 2 ^ q.2.2.getD 0 0 ≠ 0 ∧
    q.2.1 = (1 + 2 * 2 ^ q.2.2.getD 0 0) / (1 + 40 / 3 * 2 ^ q.2.2.getD 0 0) := by decide +kernel
lemma st2_plain : ∀ q ∈ st2Plain, q.2.2 = [q.2.2.getD 0 0] ∧ q.1 ≠ 0 ∧ 1 + (2 : ZMod 107) * 2 ^ q.2.2.getD 0 0 ≠ 0 ∧ 1 + (40 / 3 : ZMod 107) * 2 ^ q.2.2.getD 0 0 ≠ 0 ∧
    q.2.1 = (1 + 2 * 2 ^ q.2.2.getD 0 0) / (1 + 40 / 3 * 2 ^ q.2.2.getD 0 0) := by decide +kernel

lemma sh_fits1 {l : ℚ} (hl : l ≠ 0) (h : l = 1 ∨ l = 1 / 2 ∨ l = 3 / 40) (on : Bool) : FieldFits 2 (C l * shN) (C l * shD) shS true st1 on := by
  cases on with
  | true =>
    refine sh_shift hl (r := st1.base) (scale103 h) rfl rfl rfl (exGt_spec 103) (by decide) ?_ ?_ (by decide +kernel)
    · intro q hq
      have := st1_pts q hq
      exact ⟨_, this.1, ⟨this.2.1.1, this.2.1.2.1, this.2.1.2.2.1, this.2.1.2.2.2⟩, this.2.2⟩
    · intro q hq q' hq' e1 e2
      exact st1_pairs q hq q' hq' e1 e2
  | false =>
    refine sh_plain hl (r := st1.at false) (scale103 h) rfl rfl (exGt_spec 103) (by decide) ?_ (by decide +kernel)
    intro q hq
    exact ⟨_, st1_plain q hq⟩

lemma sh_fits2 {l : ℚ} (hl : l ≠ 0) (h : l = 1 ∨ l = 1 / 2 ∨ l = 3 / 40) (on : Bool) : FieldFits 2 (C l * shN) (C l * shD) shS true st2 on := by
  cases on with
  | true =>
    refine sh_shift hl (r := st2.base) (scale107 h) rfl rfl rfl (exGt_spec 107) (by decide) ?_ ?_ (by decide +kernel)
    · intro q hq
      have := st2_pts q hq
      exact ⟨_, this.1, ⟨this.2.1.1, this.2.1.2.1, this.2.1.2.2.1, this.2.1.2.2.2⟩, this.2.2⟩
    · intro q hq q' hq' e1 e2
      exact st2_pairs q hq q' hq' e1 e2
  | false =>
    refine sh_plain hl (r := st2.at false) (scale107 h) rfl rfl (exGt_spec 107) (by decide) ?_ (by decide +kernel)
    intro q hq
    exact ⟨_, st2_plain q hq⟩


/-! the first field -/

lemma st0_pts : ∀ q ∈ st0Probes, q.2.2 = [q.2.2.getD 0 0] ∧ (q.1 ≠ 0 ∧ 1 + (1 + (2 : ZMod 101) * 2 ^ q.2.2.getD 0 0) * q.1 ≠ 0 ∧ 1 + (1 + (40 / 3 : ZMod 101) * 2 ^ q.2.2.getD 0 0) * q.1 ≠ 0 ∧
    1 + (40 / 3 : ZMod 101) * 2 ^ q.2.2.getD 0 0 ≠ 1 + 2 * 2 ^ q.2.2.getD 0 0) ∧ q.2.1 = (1 + (1 + 2 * 2 ^ q.2.2.getD 0 0) * q.1) / (1 + (1 + 40 / 3 * 2 ^ q.2.2.getD 0 0) * q.1) := by decide +kernel
lemma st0_pairs : ∀ q ∈ st0Probes, ∀ q' ∈ st0Probes, q.2.2 = q'.2.2 → q.1 ≠ q'.1 →
    1 + (1 + (2 : ZMod 101) * 2 ^ q.2.2.getD 0 0) * (q.1 + q'.1) + (1 + 2 * 2 ^ q.2.2.getD 0 0) * (1 + 40 / 3 * 2 ^ q.2.2.getD 0 0) * q.1 * q'.1 ≠ 0 := by decide +kernel
lemma st0_thiele : (({} : Thiele (ZMod 101)).runChecked [((pr0 1 1).2.1, 1), ((pr0 2 1).2.1, 2), ((pr0 3 1).2.1, 3), ((pr0 4 1).2.1, 4)]).map (fun r => (r.2, r.1.ti.length)) = some (true, 4) := by decide +kernel

lemma val101 (t : ZMod 101) (o : ℕ) : RMulti.valueOf [1, 0] [2] (C 1 * X 0 + C 2 * X 1) (C 1 * X 0 + C (40 / 3) * X 1) t [o] = (1 + (1 + 2 * 2 ^ o) * t) / (1 + (1 + 40 / 3 * 2 ^ o) * t) := by
  have := val_lin (F := ZMod 101) (l := 1) (b := 2) (c := 40 / 3) (t := t) one_ne_zero o
  rw [one_mul, one_mul] at this
  exact this

lemma coefs101 : Coefs (1 : ZMod 101) 2 ∧ Coefs (1 : ZMod 101) (40 / 3) :=
  ⟨⟨by decide, by decide, by decide, by decide, by decide⟩, ⟨by decide, by decide, by decide, by decide +kernel, by decide +kernel⟩⟩

lemma st0_good : RMulti.GoodPts (exShift (exGt 101)) (C 1 * X 0 + C 2 * X 1) (C 1 * X 0 + C (40 / 3) * X 1) (fun t ord => (t, ord) ∈ st0Probes.map (fun q => (q.1, q.2.2))) := by
  refine ⟨?_, ?_⟩
  · intro t ord h
    obtain ⟨q, hq, hq2⟩ := List.mem_map.mp h
    obtain ⟨rfl, rfl⟩ := Prod.mk.inj hq2
    rw [exShift_eval]
    have := (st0_pts q hq).2.1.2.2.1
    intro h0
    apply this
    rw [← h0]; ring
  · intro ord A B ts hA hB hnd' hts hlen x y heq
    have hpart : ∀ (b : ZMod 101) k, 1 ≤ k → RMulti.part (exShift (exGt 101)).shift (C 1 * X 0 + C b * X 1) k ≠ 0 → k = 1 := by
      intro b k h1 hk
      rw [exShift_part] at hk
      by_contra h0
      rw [if_neg h0, if_neg (by omega)] at hk
      exact hk rfl
    have hA' : A ⊆ {0, 1} := by
      intro j hj
      rw [hpart _ j (hA j hj).1 (hA j hj).2]; simp
    have hB' : B ⊆ {1} := by
      intro j hj
      rw [hpart _ j (hB j hj).1 (hB j hj).2]; simp
    have hmem : ∀ t ∈ ts, ∃ q ∈ st0Probes, q.1 = t ∧ q.2.2 = ord := by
      intro t ht
      obtain ⟨q, hq1, hq2⟩ := List.mem_map.mp (hts t ht)
      obtain ⟨rfl, rfl⟩ := Prod.mk.inj hq2
      exact ⟨q, hq1, rfl, rfl⟩
    rcases hts0 : ts with _ | ⟨t0, ts'⟩
    · rw [hts0] at hlen
      have a1 : A = ∅ := Finset.card_eq_zero.mp (by simp at hlen; omega)
      have a2 : B = ∅ := Finset.card_eq_zero.mp (by simp at hlen; omega)
      subst a1; subst a2
      exact ⟨by simp, by simp⟩
    · obtain ⟨q0, hq0, -, hord⟩ := hmem t0 (by rw [hts0]; simp)
      obtain ⟨ho, hP0, -⟩ := st0_pts q0 hq0
      rw [hord] at ho hP0
      refine sys_lin hA' hB' hnd' hlen hP0.2.2.2 ?_ ?_ ?_
      · intro t ht
        obtain ⟨q, hq1, rfl, hq2⟩ := hmem t ht
        have := (st0_pts q hq1).2.1
        rw [hq2] at this
        exact ⟨this.1, this.2.2.1, this.2.1⟩
      · intro t ht t' ht' hne
        obtain ⟨q, hq1, rfl, hq2⟩ := hmem t ht
        obtain ⟨q', hq1', rfl, hq2'⟩ := hmem t' ht'
        have := st0_pairs q hq1 q' hq1' (hq2.trans hq2'.symm) hne
        rw [hq2] at this
        exact this
      · intro t ht
        have e := heq t ht
        obtain ⟨q, hq1, rfl, hq2⟩ := hmem t ht
        have hP := (st0_pts q hq1).2.1
        rw [hq2] at hP
        rw [show (exShift (exGt 101)).shift = [1, 0] from rfl, show (exShift (exGt 101)).anchor = [2] from rfl] at e
        have hval := val101 q.1 (ord.getD 0 0)
        rw [← ho] at hval
        rw [hval, div_mul_eq_mul_div, eq_div_iff hP.2.2.1] at e
        exact e

lemma st0_prob : RMulti.Prob (exShift (exGt 101)) (C (1 : ZMod 101) * X 0 + C 2 * X 1) (C 1 * X 0 + C (40 / 3) * X 1) 1 1 := by
  refine ⟨rfl, le_rfl, exShift_side coefs101.1.two coefs101.1.three (Or.inr coefs101.1), exShift_side coefs101.1.two coefs101.1.three (Or.inr coefs101.2), ?_⟩
  show eval _ (C 1 * X 0 + C (40 / 3) * X 1) = 1
  simp [exShift]

lemma line101 (b : ZMod 101) : RMulti.line (exShift (exGt 101)).shift (exShift (exGt 101)).anchor (RMulti.ones (exShift (exGt 101))) (C 1 * X 0 + C b * X 1) = 1 + Polynomial.C (1 + 2 * b) * Polynomial.X := by
  unfold RMulti.line
  simp [exShift, RMulti.ones, RMulti.dir]
  ring

lemma st0_coprime : IsCoprime (RMulti.line (exShift (exGt 101)).shift (exShift (exGt 101)).anchor (RMulti.ones (exShift (exGt 101))) (C 1 * X 0 + C 2 * X 1))
    (RMulti.line (exShift (exGt 101)).shift (exShift (exGt 101)).anchor (RMulti.ones (exShift (exGt 101))) (C 1 * X 0 + C (40 / 3) * X 1)) := by
  rw [line101, line101]
  obtain ⟨w, hw⟩ : ∃ w : ZMod 101, w = 1 + 2 * 2 := ⟨_, rfl⟩
  obtain ⟨v, hv⟩ : ∃ v : ZMod 101, v = 1 + 2 * (40 / 3) := ⟨_, rfl⟩
  have hvw : v - w ≠ 0 := by rw [hv, hw]; decide +kernel
  rw [← hv, ← hw]
  refine ⟨Polynomial.C (v / (v - w)), Polynomial.C (-w / (v - w)), ?_⟩
  have h1 : Polynomial.C (v / (v - w)) + Polynomial.C (-w / (v - w)) = (1 : Polynomial (ZMod 101)) := by
    rw [← Polynomial.C_add, ← Polynomial.C_1]; congr 1; rw [← add_div, ← sub_eq_add_neg, div_self hvw]
  have h2 : Polynomial.C (v / (v - w)) * Polynomial.C w + Polynomial.C (-w / (v - w)) * Polynomial.C v = (0 : Polynomial (ZMod 101)) := by
    rw [← Polynomial.C_mul, ← Polynomial.C_mul, ← Polynomial.C_add, ← Polynomial.C_0]; congr 1; ring
  linear_combination h1 + Polynomial.X * h2

lemma sh_first : FirstOK 2 shN shD shS st0.base 1 1 1 := by
  have eN : red 101 shN = C 1 * X 0 + C 2 * X 1 := by rw [shN, red_lin]; simp
  have eD : red 101 shD = C 1 * X 0 + C (40 / 3) * X 1 := by rw [shD, red_lin, cast_40]; simp
  have eN' : (haveI := st0.base.fact; red st0.base.p shN) = (C 1 * X 0 + C 2 * X 1 : MvPolynomial ℕ (ZMod 101)) := eN
  have eD' : (haveI := st0.base.fact; red st0.base.p shD) = (C 1 * X 0 + C (40 / 3) * X 1 : MvPolynomial ℕ (ZMod 101)) := eD
  have gN : C (1 : ZMod 101) * red 101 shN = C 1 * X 0 + C 2 * X 1 := by rw [eN, C_1, one_mul]
  have gD : C (1 : ZMod 101) * red 101 shD = C 1 * X 0 + C (40 / 3) * X 1 := by rw [eD, C_1, one_mul]
  have dens : ∀ c : ℚ, ¬ ((101 : ℕ) : ℤ) ∣ c.den → ∀ m, ¬ ((101 : ℕ) : ℤ) ∣ (coeff m (C 1 * X 0 + C c * X 1 : MvPolynomial ℕ ℚ)).den := by
    intro c hc m
    rw [coeff_lin]
    split_ifs
    · decide
    · exact hc
    · decide
  refine ⟨⟨rfl, exGt_spec 101, dens 2 (by decide +kernel), dens (40 / 3) (by decide +kernel), ?_, ?_, ?_, by decide +kernel, ?_, by simp [st0, st0Probes], ?_, ?_, ?_⟩, by decide, ?_, ?_⟩
  · intro m hm
    rw [shN, lin_support one_ne_zero (by norm_num), Finset.mem_insert, Finset.mem_singleton] at hm
    rw [shN, coeff_lin]
    rcases hm with rfl | rfl
    · rw [if_pos rfl]
      show ((1 : ℚ) : ZMod 101) ≠ 0
      rw [Rat.cast_one]; decide
    · rw [if_neg s01.symm, if_pos rfl]
      show ((2 : ℚ) : ZMod 101) ≠ 0
      decide +kernel
  · intro m hm
    rw [shD, lin_support one_ne_zero (by norm_num), Finset.mem_insert, Finset.mem_singleton] at hm
    rw [shD, coeff_lin]
    rcases hm with rfl | rfl
    · rw [if_pos rfl]
      show ((1 : ℚ) : ZMod 101) ≠ 0
      rw [Rat.cast_one]; decide
    · rw [if_neg s01.symm, if_pos rfl]
      show ((40 / 3 : ℚ) : ZMod 101) ≠ 0
      rw [cast_40]; decide +kernel
  · intro q hq
    rw [eN', eD']
    have h1 := st0_pts q hq
    have h2 := val101 q.1 (q.2.2.getD 0 0)
    rw [← h1.1] at h2
    exact h1.2.2.trans h2.symm
  · rintro ⟨q, rest, h1, h2⟩
    have : q = pr0 1 1 := by
      have := congrArg List.head? h1
      exact (Option.some.inj this).symm
    subst this
    revert h2
    show ¬ ((pr0 1 1).2.1 = 0)
    decide +kernel
  · suffices RMulti.Prob (exShift (exGt 101)) (C (1 : ZMod 101) * red 101 shN) (C (1 : ZMod 101) * red 101 shD) 1 1 from this
    rw [gN, gD]
    exact st0_prob
  · suffices RMulti.GoodPts (exShift (exGt 101)) (C (1 : ZMod 101) * red 101 shN) (C (1 : ZMod 101) * red 101 shD) (fun t ord => (t, ord) ∈ st0Probes.map (fun q => (q.1, q.2.2))) from this
    rw [gN, gD]
    exact st0_good
  · suffices RMulti.ThieleOK (exShift (exGt 101)) (C (1 : ZMod 101) * red 101 shN) (C (1 : ZMod 101) * red 101 shD) 1 1
      (RMulti.first (exShift (exGt 101)) (C (1 : ZMod 101) * red 101 shN) (C (1 : ZMod 101) * red 101 shD) (st0Probes.map (fun q => (q.1, q.2.2)))) from this
    rw [gN, gD]
    have hfirst : RMulti.first (exShift (exGt 101)) (C 1 * X 0 + C 2 * X 1) (C 1 * X 0 + C (40 / 3) * X 1) (st0Probes.map (fun q => (q.1, q.2.2))) =
        [((pr0 1 1).2.1, 1), ((pr0 2 1).2.1, 2), ((pr0 3 1).2.1, 3), ((pr0 4 1).2.1, 4)] := by
      unfold RMulti.first
      have hv := val101
      have : ((st0Probes.map (fun q => (q.1, q.2.2))).filter (fun q => decide (q.2 = RMulti.ones (exShift (exGt 101))))) = [(1, [1]), (2, [1]), (3, [1]), (4, [1])] := by decide +kernel
      rw [this]
      simp only [List.map_cons, List.map_nil]
      erw [hv, hv, hv, hv]
      decide +kernel
    rw [hfirst]
    obtain ⟨r, hr, hr2⟩ := Option.map_eq_some_iff.mp st0_thiele
    obtain ⟨h1, h2⟩ : r.2 = true ∧ r.1.ti.length = 4 := by simpa using hr2
    refine ⟨⟨r, hr, ?_⟩, ?_, ?_, ?_, ?_⟩
    · intro _; rw [h2]; omega
    · decide +kernel
    · decide +kernel
    · decide
    · exact st0_coprime
  · intro b j
    show (RMulti.part [1, 0] (red 101 (side shN shD b)) j - homogeneousComponent j (red 101 (side shN shD b))).support = _
    cases b with
    | false => rw [show side shN shD false = shN from rfl, eN, sup_lin _ _ one_ne_zero]; rfl
    | true => rw [show side shN shD true = shD from rfl, eD, sup_lin _ _ one_ne_zero]; rfl
  · intro h
    cases h

/-! the run -/

lemma sh_below {l : ℚ} (h : l = 1 ∨ l = 1 / 2 ∨ l = 3 / 40) {q : ℕ} (hq : 80 < q) (b : Bool) : Below (side (C l * shN) (C l * shD) b) q := by
  intro m
  have hq' : (80 : ℤ) < q := by exact_mod_cast hq
  rw [sh_side, coeff_lin]
  have key : ∀ x ∈ [l, l * shc b, 0], 2 * |x.num| ≤ 80 ∧ 2 * (x.den : ℤ) ≤ 80 := by
    rcases h with rfl | rfl | rfl <;> revert b <;> decide +kernel
  split_ifs
  · have := key l (by simp); omega
  · have := key (l * shc b) (by simp); omega
  · have := key 0 (by simp); omega

lemma sh_ns1 (on : Bool) : (st1.at on).probes ≠ [] ∧ ¬ (st1.at on).Skipped := by
  refine ⟨by cases on <;> simp [Stage.at, st1, st1Probes, st1Plain], ?_⟩
  rintro ⟨q, rest, h1, h2⟩
  cases on with
  | true =>
    obtain rfl : q = pr1 1 1 := (Option.some.inj (congrArg List.head? h1)).symm
    revert h2
    show ¬ ((pr1 1 1).2.1 = 0)
    decide +kernel
  | false =>
    obtain rfl : q = pl1 1 1 := (Option.some.inj (congrArg List.head? h1)).symm
    revert h2
    show ¬ ((pl1 1 1).2.1 = 0)
    decide +kernel

lemma sh_ns2 (on : Bool) : (st2.at on).probes ≠ [] ∧ ¬ (st2.at on).Skipped := by
  refine ⟨by cases on <;> simp [Stage.at, st2, st2Probes, st2Plain], ?_⟩
  rintro ⟨q, rest, h1, h2⟩
  cases on with
  | true =>
    obtain rfl : q = pr2 1 1 := (Option.some.inj (congrArg List.head? h1)).symm
    revert h2
    show ¬ ((pr2 1 1).2.1 = 0)
    decide +kernel
  | false =>
    obtain rfl : q = pl2 1 1 := (Option.some.inj (congrArg List.head? h1)).symm
    revert h2
    show ¬ ((pl2 1 1).2.1 = 0)
    decide +kernel

lemma sh_runs {l : ℚ} (hl : l ≠ 0) (h : ∃ b m, coeff m (side (C l * shN) (C l * shD) b) = 1) : RunsOK 2 (C l * shN) (C l * shD) shS true 101 [st1, st2] := by
  have hc := sh_scale h
  have hB : ∀ q : ℕ, 80 < q → Below (C l * shN) q ∧ Below (C l * shD) q := fun q hq => ⟨sh_below hc hq false, sh_below hc hq true⟩
  refine ⟨fun on => ⟨sh_fits1 hl hc on, sh_ns1 on⟩, by decide, ?_, fun on => ⟨sh_fits2 hl hc on, sh_ns2 on⟩, by decide, ?_, trivial⟩
  · intro m
    have := hB 103 (by norm_num)
    exact ⟨C36_not_deceptive _ _ _ (by norm_num) (this.1 m).1 (this.1 m).2, C36_not_deceptive _ _ _ (by norm_num) (this.2 m).1 (this.2 m).2⟩
  · intro m
    have := hB 107 (by norm_num)
    exact ⟨C36_not_deceptive _ _ _ (by decide) (this.1 m).1 (this.1 m).2, C36_not_deceptive _ _ _ (by decide) (this.2 m).1 (this.2 m).2⟩

lemma sh_cards : (askedDegs shN shD shS true false).card + (askedDegs shN shD shS true true).card ≤ 3 := by
  have h1 : ∀ f : MvPolynomial ℕ ℚ, C 1 * f = f := fun f => by rw [C_1, one_mul]
  have hk : ∀ b j, Asked shN shD shS true b j → j = 1 ∨ (j = 0 ∧ b = false) := by
    intro b j h
    exact sh_asked (l := 1) one_ne_zero b (by rw [h1, h1]; exact h)
  have a1 : askedDegs shN shD shS true false ⊆ {0, 1} := by
    intro j hj
    simp only [askedDegs, Finset.mem_filter] at hj
    rcases hk _ _ hj.2 with h | h
    · rw [h]; simp
    · rw [h.1]; simp
  have a2 : askedDegs shN shD shS true true ⊆ {1} := by
    intro j hj
    simp only [askedDegs, Finset.mem_filter] at hj
    rcases hk _ _ hj.2 with h | h
    · rw [h]; simp
    · exact absurd h.2 (by decide)
  have b1 := Finset.card_le_card a1
  have b2 := Finset.card_le_card a2
  rw [Finset.card_pair (by omega)] at b1
  rw [Finset.card_singleton] at b2
  omega

lemma sh_two (b : Bool) (j : ℕ) : ((side shN shD b).support.filter (fun m => m.degree = j)).card ≤ 2 := by
  refine (Finset.card_le_card (Finset.filter_subset _ _)).trans ?_
  have : (side shN shD b).support = {Finsupp.single 0 1, Finsupp.single 1 1} := by
    cases b
    · exact lin_support one_ne_zero (by norm_num)
    · exact lin_support one_ne_zero (by norm_num)
  rw [this, Finset.card_pair s01]

lemma sh_numDegs (b : Bool) (o : ℕ) : numDegs (side shN shD b) o ≤ if o ≤ 2 then 1 else 0 := by
  have hs : (side shN shD b).support = {Finsupp.single 0 1, Finsupp.single 1 1} := by
    cases b
    · exact lin_support one_ne_zero (by norm_num)
    · exact lin_support one_ne_zero (by norm_num)
  have hi : (side shN shD b).support.image Finsupp.degree = {1} := by rw [hs]; simp
  unfold numDegs
  rw [hi, Finset.filter_singleton]
  split
  · rename_i h
    have := sh_two b 1
    rw [if_pos (by omega)]; simp
  · simp

lemma sh_enough {f : Stage} (h1 : ∀ o, 1 ≤ o → o ≤ 2 → 3 ≤ (f.base.probes.filter (fun q => decide (q.2.2 = [o]))).length) (h2 : ∀ o, 1 ≤ o → o ≤ 2 → 2 ≤ (f.plain.filter (fun q => decide (q.2.2 = [o]))).length) (on : Bool) :
    EnoughIn 2 shN shD shS true f on := by
  cases on with
  | true =>
    intro o ho ⟨b, j, hj⟩
    have : o ≤ 2 := by
      have := sh_two b j
      refine le_trans (le_of_le_of_eq hj ?_) this
      congr!
    exact sh_cards.trans (h1 o ho this)
  | false =>
    intro o ho
    have a1 := sh_numDegs false o
    have a2 := sh_numDegs true o
    have a1 : numDegs shN o ≤ if o ≤ 2 then 1 else 0 := a1
    have a2 : numDegs shD o ≤ if o ≤ 2 then 1 else 0 := a2
    by_cases h : o ≤ 2
    · rw [if_pos h] at a1 a2
      exact le_trans (by omega) (h2 o ho h)
    · rw [if_neg h] at a1 a2
      omega

lemma sh_enough1 (on : Bool) : EnoughIn 2 shN shD shS true st1 on := by
  apply sh_enough <;> · intro o h1 h2; interval_cases o <;> decide +kernel
lemma sh_enough2 (on : Bool) : EnoughIn 2 shN shD shS true st2 on := by
  apply sh_enough <;> · intro o h1 h2; interval_cases o <;> decide +kernel

lemma sh_notRunning : prime mpzInvert idOrder (Cross.initial 101) st0 ≠ some .running := by
  intro h
  have := sh_run0
  unfold run at this
  rw [h] at this
  simp [waits] at this

lemma sh_late (c : Cross) : NoLateAsks mpzInvert idOrder c [st1, st2] := by
  intro fs1 f fs2 c' h ho
  exfalso
  have : f ∈ [st1, st2] := by rw [h]; simp
  simp only [List.mem_cons, List.not_mem_nil, or_false] at this
  rcases this with rfl | rfl <;> cases ho

/-- The hypotheses of `C63_run_partial` and `C63_finishes_partial` hold: `(x + 2 y) / (x + 40/3 y)`, of which no degree has one monomial only, is reconstructed with the primes 101, 103, 107. The shift is kept in the field of 103 (`sh_run0`), and disabled
before the one of 107 (`sh_run1`). -/
example : ∃ (l : ℚ) (N D : RnMap), l ≠ 0 ∧ run mpzInvert idOrder (Cross.initial st0.base.p) [st0, st1, st2] = some (.finished N D) ∧
    ((rnPoly N = C l * shN ∧ rnPoly D = C l * shD) ∨ ∃ fs1 q fs2 on, [st1, st2] = fs1 ++ q :: fs2 ∧ Certified 2 (C l * shN) (C l * shD) (st0.base.p * primeProd fs1) (q.at on) N D ∧
      ¬ AllSmall (C l * shN) (C l * shD) (st0.base.p * primeProd fs1)) := by
  refine C63_finishes_partial (n := shN) (d := shD) mpzInvert_spec idOrder_ok (lin_vars one_ne_zero (by norm_num)) (lin_vars one_ne_zero (by norm_num)) st0 [st1, st2] sh_first (fun l hl h => sh_runs hl h) (fun c _ => sh_late c) (by norm_num)
    (Or.inr sh_notRunning) ?_ (fs1 := [st1]) (q := st2) (fs2 := []) rfl ?_
  · intro q hq on
    simp only [List.mem_cons, List.not_mem_nil, or_false] at hq
    rcases hq with rfl | rfl
    · exact sh_enough1 on
    · exact sh_enough2 on
  · intro l hl h m
    have hc := sh_scale h
    have e : ((st0.base.p : ℤ) * primeProd [st1]) = ((101 : ℕ) : ℤ) * ((103 : ℕ) : ℤ) := by simp [primeProd]; rfl
    rw [e]
    exact ⟨below_small (sh_below hc (by norm_num) false) (sh_below hc (by norm_num) false) m, below_small (sh_below hc (by norm_num) true) (sh_below hc (by norm_num) true) m⟩

/-- The state after the first field; the shift is needed. -/
lemma sh_state : ∃ (l : ℚ) (c : Cross), l ≠ 0 ∧ (∃ b m, coeff m (side (C l * shN) (C l * shD) b) = 1) ∧ prime mpzInvert idOrder (Cross.initial 101) st0 = some (.nextPrime c) ∧ Ready 2 (C l * shN) (C l * shD) shS 101 c ∧ c.on = true ∧
    c.asks = true ∧ c.singular = true ∧ c.normDen = true ∧ c.base.primeNumber = 1 := by
  rcases C63_first (n := shN) (d := shD) (inv := mpzInvert) idOrder_ok (lin_vars one_ne_zero (by norm_num)) (lin_vars one_ne_zero (by norm_num)) (f := st0) sh_first with ⟨h, -⟩ | ⟨l, c, hl, h1, h2, h3, h4, h5, h6, -⟩
  · exact absurd h sh_notRunning
  · have hr := sh_run0
    have e : run mpzInvert idOrder (Cross.initial 101) [st0] = some (.waiting c) := by
      rw [run_cons (c := Cross.initial 101) (f := st0) h1]; rfl
    rw [e] at hr
    simp only [waits, Bool.and_eq_true, decide_eq_true_eq] at hr
    exact ⟨l, c, hl, ⟨_, _, h2.one⟩, h1, h2, h3, hr.2.2.1, hr.2.1, h5, h6⟩

/-- The hypotheses of `C63_prime` hold, with the shift: the second field. -/
example : ∃ (l : ℚ) (c : Cross) (out : Out), c.singular = true ∧ shiftOn c st1 = true ∧ prime mpzInvert idOrder c st1 = some out ∧ Step 2 (C l * shN) (C l * shD) shS 101 c st1 out := by
  obtain ⟨l, c, hl, hone, -, h1, h2, h3, h4, h5, h6⟩ := sh_state
  have hc := sh_scale hone
  have hon : shiftOn c st1 = true := by unfold shiftOn; rw [if_neg (by omega), h2, h3]; rfl
  have hr := (sh_runs hl hone)
  obtain ⟨out, e1, e2⟩ := C63_prime mpzInvert_spec idOrder_ok (k := 2) (n := C l * shN) (d := C l * shD) (S := shS) (M := 101) (c := c) (f := st1)
    (by rw [show C l * shN = side (C l * shN) (C l * shD) false from rfl, sh_side]; exact lin_vars hl (mul_ne_zero hl (shc_ne _)))
    (by rw [show C l * shD = side (C l * shN) (C l * shD) true from rfl, sh_side]; exact lin_vars hl (mul_ne_zero hl (shc_ne _))) h1
    ⟨fun h => (by cases h), fun _ => Or.inl h3⟩ (by rw [h5]; exact sh_fits1 hl hc _) (sh_ns1 _).1 (sh_ns1 _).2 hr.2.1 (by rw [h6]; norm_num) hr.2.2.1
  exact ⟨l, c, out, h4, hon, e1, e2⟩

/-! ### the defect: a field is skipped while the shift is needed -/

/-- A field whose first probe is zero: the numerator `x + 2 y` vanishes at the point `t = 41`. -/
def stz : Stage := ⟨⟨103, fact103, { n := 2, shift := [1, 0], anchor := [2], gt := exGt 103, fuel := 100 }, [(41, 0, [1])], 107⟩, [], false⟩
/-- the third field, with one more probe -/
def st3Plain : List (ZMod 107 × ZMod 107 × List ℕ) := [pl2 1 1, pl2 2 1, pl2 5 1, pl2 3 2, pl2 4 2]
def st3 : Stage := ⟨st2.base, st3Plain, false⟩

lemma st3_plain : ∀ q ∈ st3Plain, q.2.2 = [q.2.2.getD 0 0] ∧ q.1 ≠ 0 ∧ 1 + (2 : ZMod 107) * 2 ^ q.2.2.getD 0 0 ≠ 0 ∧ 1 + (40 / 3 : ZMod 107) * 2 ^ q.2.2.getD 0 0 ≠ 0 ∧
    q.2.1 = (1 + 2 * 2 ^ q.2.2.getD 0 0) / (1 + 40 / 3 * 2 ^ q.2.2.getD 0 0) := by decide +kernel

lemma st3_fits {l : ℚ} (hl : l ≠ 0) (h : l = 1 ∨ l = 1 / 2 ∨ l = 3 / 40) (on : Bool) : FieldFits 2 (C l * shN) (C l * shD) shS true st3 on := by
  cases on with
  | true => exact sh_fits2 hl h true
  | false =>
    refine sh_plain hl (r := st3.at false) (scale107 h) rfl rfl (exGt_spec 107) (by decide) ?_ (by decide +kernel)
    intro q hq
    exact ⟨_, st3_plain q hq⟩

/-- **C63 (violated).** A run in which a field is skipped while the shift is needed fails with the error of a singular system. The assumptions of the theorems above hold for the first and the third field, with and without shift; the second field
has one probe, which is a value of the function, and zero. -/
theorem C63_skip_fails : ∃ (n d : MvPolynomial ℕ ℚ) (S : Bool → ℕ → Finset (ℕ →₀ ℕ)) (f0 f1 f2 : Stage) (u : ZMod f0.base.p), FirstOK 2 n d S f0.base u 1 1 ∧
    (haveI := f1.base.fact; ∀ q ∈ f1.base.probes, q.2.1 = RMulti.valueOf f1.base.cfg.shift f1.base.cfg.anchor (red f1.base.p n) (red f1.base.p d) q.1 q.2.2) ∧ f1.base.Skipped ∧
    (∀ l : ℚ, l ≠ 0 → (∃ b m, coeff m (side (C l * n) (C l * d) b) = 1) → ∀ on, FieldFits 2 (C l * n) (C l * d) S true f2 on ∧ (f2.at on).probes ≠ [] ∧ ¬ (f2.at on).Skipped) ∧
    (∀ on, EnoughIn 2 n d S true f2 on) ∧ f1.others = false ∧ f2.others = false ∧ run mpzInvert idOrder (Cross.initial f0.base.p) [f0, f1, f2] = none := by
  refine ⟨shN, shD, shS, st0, stz, st3, 1, sh_first, ?_, ⟨_, _, rfl, rfl⟩, ?_, ?_, rfl, rfl, ?_⟩
  · intro q hq
    obtain rfl : q = ((41, 0, [1]) : ZMod 103 × ZMod 103 × List ℕ) := List.mem_singleton.mp hq
    have eN : red 103 shN = C 1 * X 0 + C (1 * 2) * X 1 := by rw [shN, red_lin]; simp
    have eD : red 103 shD = C 1 * X 0 + C (1 * (40 / 3)) * X 1 := by rw [shD, red_lin, cast_40]; simp
    have hv := val_lin (F := ZMod 103) (l := 1) (b := 2) (c := 40 / 3) (t := 41) one_ne_zero 1
    rw [← eN, ← eD] at hv
    refine Eq.trans ?_ hv.symm
    show (0 : ZMod 103) = _
    decide +kernel
  · intro l hl hone on
    refine ⟨st3_fits hl (sh_scale hone) on, ?_⟩
    cases on with
    | true => exact sh_ns2 true
    | false =>
      refine ⟨List.cons_ne_nil _ _, ?_⟩
      rintro ⟨q, rest, h1, h2⟩
      obtain rfl : q = pl2 1 1 := (Option.some.inj (congrArg List.head? h1)).symm
      revert h2
      show ¬ ((pl2 1 1).2.1 = 0)
      decide +kernel
  · apply sh_enough <;> · intro o h1 h2; interval_cases o <;> decide +kernel
  · have h : (run mpzInvert idOrder (Cross.initial 101) [st0, stz, st3]).isNone = true := by decide +kernel
    exact Option.isNone_iff_eq_none.mp h

/-- The hypotheses of `C63_skip`, `C63_skip_violated` hold: the state after the first field. -/
example : ∃ (l : ℚ) (c c' : Cross), Ready 2 (C l * shN) (C l * shD) shS 101 c ∧ c.singular = true ∧ prime mpzInvert idOrder c stz = some (.nextPrime c') ∧ c'.singular = true ∧ shiftOn c' st2 = false := by
  obtain ⟨l, c, hl, hone, -, h1, h2, h3, h4, h5, h6⟩ := sh_state
  have hon : shiftOn c stz = true := by unfold shiftOn; rw [if_neg (by omega), h2, h3]; rfl
  obtain ⟨c', e1, -, e2, e3⟩ := C63_skip_violated mpzInvert idOrder h1 (f := stz) ⟨fun h => (by cases h), fun _ => Or.inl h3⟩ (by rw [hon]; exact ⟨_, _, rfl, rfl⟩) (by rw [h6]; norm_num) h4
  exact ⟨l, c, c', h1, h4, e1, e2, (e3 st2 rfl).1⟩

end FireFly.RRun.Shifted
