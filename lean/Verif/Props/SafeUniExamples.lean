import Verif.Props.SafeUniProps
import Verif.Props.RatReconstExamples
import Verif.Props.RatSafeExamples
/-!
# C73: examples
-/
set_option linter.all false
set_option maxRecDepth 20000
namespace FireFly.RRun.Safe.Uni
open Polynomial FFMap

/-- the values of `(a + b x)/(1 + e x)` at the points `ts` -/
def upts (p : ℕ) [hp : Fact p.Prime] (a b e : ZMod p) (ts : List (ZMod p)) : List (ZMod p × ZMod p) := ts.map (fun t => (t, (a + b * t) / (1 + e * t)))

/-- a prime field with these values -/
def ufield (p : ℕ) [hp : Fact p.Prime] (a b e : ZMod p) (ts : List (ZMod p)) : PrimeRun := ⟨p, hp, upts p a b e ts, 0⟩

/-- Thiele's method ends without division by zero and not too early -/
def endsOK {p : ℕ} : Option (Thiele (ZMod p) × Bool) → Bool
  | some (s, true) => decide (2 ≤ s.ti.length)
  | _ => false

/-- the conditions that are computed -/
structure Check (p : ℕ) [hp : Fact p.Prime] (a b e : ZMod p) (ts : List (ZMod p)) : Prop where
  pts : ∀ t ∈ ts, t ≠ 0 ∧ 1 + e * t ≠ 0
  nodup : ts.Nodup
  first : ((upts p a b e ts).headD (0, 0)).2 ≠ 0
  cop : a * e - b ≠ 0
  len : ts.length < 100
  ends : endsOK (({} : Thiele (ZMod p)).runChecked ((upts p a b e ts).map Prod.swap)) = true

lemma lin_degree {F : Type} [Field F] (a b : F) : (C a + C b * X : F[X]).natDegree ≤ 1 := by
  rw [add_comm]; exact natDegree_linear_le

lemma field_ok {p : ℕ} [hp : Fact p.Prime] {A B E : ℚ} {a b e : ZMod p} {ts : List (ZMod p)} (h : Check p a b e ts) (hd : ∀ q ∈ [A, B, E], ¬ (p : ℤ) ∣ q.den) (hA : (A : ZMod p) = a) (hB : (B : ZMod p) = b)
    (hE : (E : ZMod p) = e) : FieldOK (C A + C B * X) (C 1 + C E * X) (ufield p a b e ts) := by
  have hp1 := (Fact.out : p.Prime).one_lt
  have h1 : ¬ (p : ℤ) ∣ 1 := by
    intro h; exact hp1.ne' (by exact_mod_cast Int.eq_one_of_dvd_one (by positivity) h)
  have rN : redPoly p (C A + C B * X) = C a + C b * X := by rw [redPoly_lin, hA, hB]
  have rD : redPoly p (C 1 + C E * X) = C 1 + C e * X := by rw [redPoly_lin, hE]; simp
  have hprobes : ProbesOK (C A + C B * X) (C 1 + C E * X) p (upts p a b e ts) := by
    refine ⟨?_, ?_, ?_, h.first⟩
    · intro k
      rw [lin_coeff]
      split_ifs
      · exact hd _ (by simp)
      · exact hd _ (by simp)
      · exact h1
    · intro k
      rw [lin_coeff]
      split_ifs
      · exact h1
      · exact hd _ (by simp)
      · exact h1
    · intro pt hpt
      obtain ⟨t, ht, rfl⟩ := List.mem_map.mp hpt
      rw [rN, rD]
      refine ⟨by simpa using (h.pts t ht).2, by simp⟩
  have hcop : IsCoprime (redPoly p (C A + C B * X)) (redPoly p (C 1 + C E * X)) := by
    rw [rN, rD]
    refine ⟨C (e / (a * e - b)), C (-b / (a * e - b)), ?_⟩
    have e1 : e / (a * e - b) * a + -b / (a * e - b) * 1 = 1 := by
      rw [div_mul_eq_mul_div, div_mul_eq_mul_div, ← add_div, div_eq_one_iff_eq h.cop]; ring
    have e2 : e / (a * e - b) * b + -b / (a * e - b) * e = 0 := by ring
    calc C (e / (a * e - b)) * (C a + C b * X) + C (-b / (a * e - b)) * (C 1 + C e * X)
        = C (e / (a * e - b) * a + -b / (a * e - b) * 1) + C (e / (a * e - b) * b + -b / (a * e - b) * e) * X := by simp only [C_add, C_mul]; ring
      _ = 1 := by rw [e1, e2]; simp
  have hnd : ((upts p a b e ts).map Prod.fst).Nodup := by
    have : (upts p a b e ts).map Prod.fst = ts := by
      unfold upts
      rw [List.map_map]; exact List.map_id _
    rw [this]; exact h.nodup
  have hnz : ∀ pt ∈ upts p a b e ts, pt.1 ≠ 0 := by
    intro pt hpt
    obtain ⟨t, ht, rfl⟩ := List.mem_map.mp hpt
    exact (h.pts t ht).1
  have hlen : (upts p a b e ts).length < 2 ^ 32 := by
    have : (upts p a b e ts).length = ts.length := List.length_map _
    rw [this]; have := h.len; omega
  have hth : ∃ s b', ({} : Thiele (ZMod p)).runChecked ((upts p a b e ts).map Prod.swap) = some (s, b') ∧ (b' = true → 2 * (redPoly p (C 1 + C E * X)).natDegree ≤ s.ti.length ∧ 2 * (redPoly p (C A + C B * X)).natDegree ≤ s.ti.length + 1) := by
    have he := h.ends
    rcases hr : ({} : Thiele (ZMod p)).runChecked ((upts p a b e ts).map Prod.swap) with _ | ⟨s, b'⟩
    · rw [hr] at he; simp [endsOK] at he
    · rcases b' with _ | _
      · rw [hr] at he; simp [endsOK] at he
      · rw [hr] at he
        have he : 2 ≤ s.ti.length := by simpa [endsOK] using he
        refine ⟨s, true, rfl, fun _ => ?_⟩
        rw [rN, rD]
        have d1 := lin_degree a b
        have d2 := lin_degree (1 : ZMod p) e
        omega
  exact ⟨hprobes, hcop, hnd, hnz, hlen, hth⟩

lemma clear_lin {A B : ℚ} {ps : List ℕ} {p : ℕ} (hps : ∀ p ∈ ps, p.Prime) (h : ∀ q ∈ [A, B, 0], |q.num| + (q.den : ℤ) < p) : Clear (mv (C A + C B * X)) ps p := by
  apply clear_of_small hps
  intro m
  apply h
  rw [coeff_mv, lin_coeff]
  split_ifs <;> simp

/-- `(1 + 13 x)/(1 + 40/3 x)`: a coefficient vanishes modulo 13 -/
noncomputable def uN : ℚ[X] := C 1 + C 13 * X
noncomputable def uD : ℚ[X] := C 1 + C (40 / 3) * X

def u0 : PrimeRun := ufield 13 1 0 (40 / 3) [1, 2, 3, 4, 5]
def u1 : PrimeRun := ufield 3299 1 13 (40 / 3) [1, 2, 3, 4, 5]
def u2 : PrimeRun := ufield 3301 1 13 (40 / 3) [1, 2, 3, 4, 5]

lemma c0 : Check 13 1 0 (40 / 3) [1, 2, 3, 4, 5] := ⟨by decide +kernel, by decide +kernel, by decide +kernel, by decide +kernel, by decide +kernel, by decide +kernel⟩
lemma c1 : Check 3299 1 13 (40 / 3) [1, 2, 3, 4, 5] := ⟨by decide +kernel, by decide +kernel, by decide +kernel, by decide +kernel, by decide +kernel, by decide +kernel⟩
lemma c2 : Check 3301 1 13 (40 / 3) [1, 2, 3, 4, 5] := ⟨by decide +kernel, by decide +kernel, by decide +kernel, by decide +kernel, by decide +kernel, by decide +kernel⟩

lemma forty (p : ℕ) [Fact p.Prime] : ((40 / 3 : ℚ) : ZMod p) = 40 / 3 := by
  rw [cast_val (p := p) (a := 40) (b := 3) (by decide +kernel) (by decide +kernel)]; simp

lemma u0_ok : FieldOK uN uD u0 := field_ok c0 (by decide +kernel) (by simp) (by rw [show (13 : ℚ) = ((13 : ℕ) : ℚ) by norm_num, Rat.cast_natCast]; decide +kernel) (forty 13)
lemma u1_ok : FieldOK uN uD u1 := field_ok c1 (by decide +kernel) (by simp) (by rw [show (13 : ℚ) = ((13 : ℕ) : ℚ) by norm_num, Rat.cast_natCast]; rfl) (forty 3299)
lemma u2_ok : FieldOK uN uD u2 := field_ok c2 (by decide +kernel) (by simp) (by rw [show (13 : ℚ) = ((13 : ℕ) : ℚ) by norm_num, Rat.cast_natCast]; rfl) (forty 3301)

lemma lin_trailing (E : ℚ) : (C 1 + C E * X : ℚ[X]).natTrailingDegree = 0 := by
  have : (C 1 + C E * X : ℚ[X]).coeff 0 ≠ 0 := by simp
  exact Nat.le_zero.mp (natTrailingDegree_le_of_ne_zero this)

lemma lin_trailingCoeff (E : ℚ) : (C 1 + C E * X : ℚ[X]).trailingCoeff = 1 := by
  unfold trailingCoeff
  rw [lin_trailing]; simp

/-- The hypotheses of `C73_run` hold, although a coefficient vanishes in the first prime field. -/
example : (run mpzInvert sOrder (Cross.initial 13) [u0, u1, u2] = some .running ∧ ¬ Enough uN uD u0) ∨ ∃ out, run mpzInvert sOrder (Cross.initial 13) [u0, u1, u2] = some out ∧ Outcome uN uD [13] [u1, u2] out := by
  have p13 := fact13s.out
  have p1 := fact3299.out
  refine C73_run mpzInvert_spec sOrder_ok (lin_trailingCoeff _) u0 [u1, u2] u0_ok ?_ (by simp)
  have q1 : ∀ p ∈ [13], Nat.Prime p := by intro p hp; rw [List.mem_singleton] at hp; rw [hp]; exact p13
  have q2 : ∀ p ∈ [13] ++ [3299], Nat.Prime p := by intro p hp; simp only [List.mem_append, List.mem_singleton] at hp; rcases hp with rfl | rfl <;> assumption
  refine Or.inr ⟨u1_ok, by show 3299 ∉ [13]; decide, clear_lin q1 (by show ∀ q ∈ [(1 : ℚ), 13, 0], |q.num| + (q.den : ℤ) < (3299 : ℕ); decide +kernel),
    clear_lin q1 (by show ∀ q ∈ [(1 : ℚ), 40 / 3, 0], |q.num| + (q.den : ℤ) < (3299 : ℕ); decide +kernel), ?_⟩
  exact Or.inr ⟨u2_ok, by show 3301 ∉ [13] ++ [3299]; decide, clear_lin q2 (by show ∀ q ∈ [(1 : ℚ), 13, 0], |q.num| + (q.den : ℤ) < (3301 : ℕ); decide +kernel),
    clear_lin q2 (by show ∀ q ∈ [(1 : ℚ), 40 / 3, 0], |q.num| + (q.den : ℤ) < (3301 : ℕ); decide +kernel), trivial⟩

/-- the computation: after 13 the coefficient of `x` in the numerator has not been seen; after 3299 it has its own modulus -/
example : sStored [([0], 1, 13)] [([0], 1, 1), ([1], 9, 13)] (run mpzInvert sOrder (Cross.initial 13) [u0]) = true := by decide +kernel
example : sStored [([0], 1, 1), ([1], 13, 3299)] [([0], 1, 1), ([1], 14309, 42887)] (run mpzInvert sOrder (Cross.initial 13) [u0, u1]) = true := by decide +kernel
example : sResult [([0], 1, 1), ([1], 13, 1)] [([0], 1, 1), ([1], 40, 3)] (run mpzInvert sOrder (Cross.initial 13) [u0, u1, u2]) = true := by decide +kernel

/-- The hypotheses of `C73_right`: no coefficient vanishes modulo 3299 and all are small; the run is finished. -/
example : ∀ N D, run mpzInvert sOrder (Cross.initial 3299) [u1, u2] = some (.finished N D) → FireFly.rnPoly N = uN ∧ FireFly.rnPoly D = uD := by
  intro N D e
  have q1 : ∀ p ∈ [3299], Nat.Prime p := by intro p hp; rw [List.mem_singleton] at hp; rw [hp]; exact fact3299.out
  refine C73_right mpzInvert_spec sOrder_ok (lin_trailingCoeff _) u1 [u2] u1_ok ?_ (by simp) ?_ e
  · exact Or.inr ⟨u2_ok, by show 3301 ∉ [3299]; decide, clear_lin q1 (by show ∀ q ∈ [(1 : ℚ), 13, 0], |q.num| + (q.den : ℤ) < (3301 : ℕ); decide +kernel),
      clear_lin q1 (by show ∀ q ∈ [(1 : ℚ), 40 / 3, 0], |q.num| + (q.den : ℤ) < (3301 : ℕ); decide +kernel), trivial⟩
  · have key : ∀ A B : ℚ, (∀ q ∈ [A, B], ¬ (3299 : ℤ) ∣ q.num ∧ 2 * q.num ^ 2 < 3299 ∧ 2 * (q.den : ℤ) ^ 2 < 3299) → ∀ e, (C A + C B * X : ℚ[X]).coeff e ≠ 0 →
        ¬ ((3299 : ℕ) : ℤ) ∣ ((C A + C B * X : ℚ[X]).coeff e).num ∧ Small ((C A + C B * X : ℚ[X]).coeff e) ((3299 : ℕ) : ℤ) := by
      intro A B h e he
      rw [lin_coeff] at he ⊢
      split_ifs at he ⊢
      · exact h A (by simp)
      · exact h B (by simp)
      · exact absurd rfl he
    intro f hf
    simp only [List.mem_cons, List.not_mem_nil, or_false] at hf
    rcases hf with rfl | rfl
    · exact key 1 13 (by decide +kernel)
    · exact key 1 (40 / 3) (by decide +kernel)
example : sResult [([0], 1, 1), ([1], 13, 1)] [([0], 1, 1), ([1], 40, 3)] (run mpzInvert sOrder (Cross.initial 3299) [u1, u2]) = true := by decide +kernel

/-! ### the hypotheses of `C73_ends` for `(1 - x)/(1 + x)`: coefficients with one bit, six prime fields -/

def w (p : ℕ) [Fact p.Prime] : PrimeRun := ufield p 1 (-1) 1 [2, 3, 4, 5, 6]

lemma w_ok {p : ℕ} [hp : Fact p.Prime] (h : Check p 1 (-1) 1 [2, 3, 4, 5, 6]) : FieldOK (C 1 + C (-1) * X) (C 1 + C 1 * X) (w p) := by
  have h1 : ¬ (p : ℤ) ∣ 1 := by
    intro h; exact hp.out.one_lt.ne' (by exact_mod_cast Int.eq_one_of_dvd_one (by positivity) h)
  refine field_ok h ?_ (by simp) (by simp) (by simp)
  intro q hq
  simp only [List.mem_cons, List.not_mem_nil, or_false] at hq
  rcases hq with rfl | rfl | rfl <;> simpa using h1

lemma w_clear {p : ℕ} (h : 2 < p) {ps : List ℕ} (hps : ∀ q ∈ ps, q.Prime) : Clear (mv (C 1 + C (-1) * X)) ps p ∧ Clear (mv (C 1 + C 1 * X)) ps p := by
  have h' : (2 : ℤ) < p := by exact_mod_cast h
  constructor <;> apply clear_lin hps <;> intro q hq <;> simp only [List.mem_cons, List.not_mem_nil, or_false] at hq
  · rcases hq with rfl | rfl | rfl <;> norm_num <;> linarith
  · rcases hq with rfl | rfl | rfl <;> norm_num <;> linarith

lemma w_enough (p : ℕ) [Fact p.Prime] : Enough (C 1 + C (-1) * X) (C 1 + C 1 * X) (w p) := by
  have d1 := lin_degree (1 : ℚ) (-1)
  have d2 := lin_degree (1 : ℚ) 1
  have hl : (w p).pts.length = 5 := rfl
  unfold Enough
  rw [hl]; omega

lemma w_runs : ∀ (ps rest : List ℕ) (l : List PrimeRun), (∀ p ∈ ps, p.Prime) → (∀ r ∈ l, ∃ (p : ℕ) (hp : Fact p.Prime), r = w p ∧ 2 < p ∧ Check p 1 (-1) 1 [2, 3, 4, 5, 6]) → l.map (fun r => r.p) = rest → (ps ++ rest).Nodup →
    RunsOK (C 1 + C (-1) * X) (C 1 + C 1 * X) ps l
  | ps, rest, [], _, _, _, _ => trivial
  | ps, rest, r :: l, h1, h2, h3, h4 => by
    obtain ⟨p, hp, rfl, hp2, hc⟩ := h2 r (by simp)
    rw [List.map_cons] at h3
    have h3' : p :: l.map (fun r => r.p) = rest := h3
    rw [← h3'] at h4
    have h5 : (ps ++ [p] ++ l.map (fun r => r.p)).Nodup := by simpa using h4
    refine Or.inr ⟨w_ok hc, ?_, (w_clear hp2 h1).1, (w_clear hp2 h1).2, ?_⟩
    · show p ∉ ps
      intro hm
      exact (List.nodup_append.mp h4).2.2 p hm p (by simp) rfl
    · show RunsOK _ _ (ps ++ [p]) l
      refine w_runs (ps ++ [p]) _ l ?_ (fun r hr => h2 r (by simp [hr])) rfl h5
      intro q hq
      rw [List.mem_append, List.mem_singleton] at hq
      rcases hq with hq | rfl
      · exact h1 q hq
      · exact hp.out

example : ∃ N D, run mpzInvert sOrder (Cross.initial 13) [w 13, w 101, w 103, w 107, w 3299, w 3301] = some (.finished N D) ∧ Outcome (C 1 + C (-1) * X) (C 1 + C 1 * X) [13] [w 101, w 103, w 107, w 3299, w 3301] (.finished N D) := by
  have c13 : Check 13 1 (-1) 1 [2, 3, 4, 5, 6] := ⟨by decide +kernel, by decide +kernel, by decide +kernel, by decide +kernel, by decide +kernel, by decide +kernel⟩
  have c101 : Check 101 1 (-1) 1 [2, 3, 4, 5, 6] := ⟨by decide +kernel, by decide +kernel, by decide +kernel, by decide +kernel, by decide +kernel, by decide +kernel⟩
  have c103 : Check 103 1 (-1) 1 [2, 3, 4, 5, 6] := ⟨by decide +kernel, by decide +kernel, by decide +kernel, by decide +kernel, by decide +kernel, by decide +kernel⟩
  have c107 : Check 107 1 (-1) 1 [2, 3, 4, 5, 6] := ⟨by decide +kernel, by decide +kernel, by decide +kernel, by decide +kernel, by decide +kernel, by decide +kernel⟩
  have c3299 : Check 3299 1 (-1) 1 [2, 3, 4, 5, 6] := ⟨by decide +kernel, by decide +kernel, by decide +kernel, by decide +kernel, by decide +kernel, by decide +kernel⟩
  have c3301 : Check 3301 1 (-1) 1 [2, 3, 4, 5, 6] := ⟨by decide +kernel, by decide +kernel, by decide +kernel, by decide +kernel, by decide +kernel, by decide +kernel⟩
  have hmem : ∀ r ∈ [w 101, w 103, w 107, w 3299, w 3301], ∃ (p : ℕ) (hp : Fact p.Prime), r = w p ∧ 2 < p ∧ Check p 1 (-1) 1 [2, 3, 4, 5, 6] := by
    intro r hr
    simp only [List.mem_cons, List.not_mem_nil, or_false] at hr
    rcases hr with rfl | rfl | rfl | rfl | rfl
    · exact ⟨_, _, rfl, by norm_num, c101⟩
    · exact ⟨_, _, rfl, by norm_num, c103⟩
    · exact ⟨_, _, rfl, by norm_num, c107⟩
    · exact ⟨_, _, rfl, by norm_num, c3299⟩
    · exact ⟨_, _, rfl, by norm_num, c3301⟩
  have hruns : RunsOK (C 1 + C (-1) * X) (C 1 + C 1 * X) [13] [w 101, w 103, w 107, w 3299, w 3301] :=
    w_runs [13] _ _ (by intro p hp; rw [List.mem_singleton] at hp; rw [hp]; exact fact13s.out) hmem rfl (by show ([13] ++ [101, 103, 107, 3299, 3301]).Nodup; decide)
  have hu : ∀ (p : ℕ) (hp : Fact p.Prime), Check p 1 (-1) 1 [2, 3, 4, 5, 6] → ∀ rs, used (w p :: rs) = p :: used rs := fun p hp hc rs => (used_cons _ _).2 (notSkipped (w_ok hc))
  refine C73_ends mpzInvert_spec sOrder_ok (lin_trailingCoeff _) (w 13) _ (w_ok c13) hruns (by simp) ?_ (b := 1) ?_ ?_
  · intro q hq
    right
    rcases List.mem_cons.mp hq with rfl | hq
    · exact w_enough 13
    · obtain ⟨p, hp, rfl, -⟩ := hmem q hq
      exact w_enough p
  · have key : ∀ A B : ℚ, (∀ q ∈ [A, B, 0], |q.num| < 2 ^ 1 ∧ (q.den : ℤ) < 2 ^ 1) → ∀ e, |((C A + C B * X : ℚ[X]).coeff e).num| < 2 ^ 1 ∧ (((C A + C B * X : ℚ[X]).coeff e).den : ℤ) < 2 ^ 1 := by
      intro A B h e
      rw [lin_coeff]
      split_ifs
      · exact h A (by simp)
      · exact h B (by simp)
      · exact h 0 (by simp)
    intro f hf
    simp only [List.mem_cons, List.not_mem_nil, or_false] at hf
    rcases hf with rfl | rfl
    · exact key 1 (-1) (by decide +kernel)
    · exact key 1 1 (by decide +kernel)
  · rw [hu _ _ c13, hu _ _ c101, hu _ _ c103, hu _ _ c107, hu _ _ c3299, hu _ _ c3301]
    simp

/-! ## the limits: the lowest coefficient of the denominator vanishes modulo a prime -/

lemma run_append (inv : ℤ → ℤ → ℤ) (ord : Order) : ∀ (as bs : List PrimeRun) (c c' : Cross), run inv ord c as = some (.waiting c') → run inv ord c (as ++ bs) = run inv ord c' bs
  | [], bs, c, c', e => by
    unfold run at e
    obtain rfl := RunOut.waiting.inj (Option.some.inj e)
    rfl
  | a :: as, bs, c, c', e => by
    unfold run at e
    simp only [Option.bind_eq_bind] at e
    obtain ⟨out, e1, e2⟩ := Option.bind_eq_some_iff.mp e
    rw [List.cons_append]
    conv_lhs => unfold run
    rw [e1]
    simp only [Option.bind_eq_bind, Option.bind_some]
    cases out with
    | running => simp at e2
    | finished N D => simp at e2
    | nextPrime c1 => exact run_append inv ord as bs c1 c' e2

deriving instance DecidableEq for Side
deriving instance DecidableEq for Cross

def showWait : Option RunOut → Option Cross
  | some (.waiting c) => some c
  | _ => none

lemma showWait_eq {o : Option RunOut} {c : Cross} (h : showWait o = some c) : o = some (.waiting c) := by
  rcases o with _ | (⟨⟩ | ⟨⟩ | ⟨⟩) <;> simp [showWait] at h ⊢
  exact h

/-- `x/(103 + x)`, normalized -/
noncomputable def vN : ℚ[X] := C 0 + C (1 / 103) * X
noncomputable def vD : ℚ[X] := C 1 + C (1 / 103) * X

def v0 : PrimeRun := ufield 101 0 (1 / 103) (1 / 103) [1, 2, 3, 4, 5]
/-- the values of `x/(103 + x)` modulo 103 -/
def vpts : List (ZMod 103 × ZMod 103) := [(1, 1), (2, 1), (3, 1)]
def v1 : PrimeRun := ⟨103, fact103, vpts, 107⟩
def v2 : PrimeRun := ufield 107 0 (1 / 103) (1 / 103) [1, 2, 3, 5, 7]

lemma d0 : Check 101 0 (1 / 103) (1 / 103) [1, 2, 3, 4, 5] := ⟨by decide +kernel, by decide +kernel, by decide +kernel, by decide +kernel, by decide +kernel, by decide +kernel⟩
lemma d2 : Check 107 0 (1 / 103) (1 / 103) [1, 2, 3, 5, 7] := ⟨by decide +kernel, by decide +kernel, by decide +kernel, by decide +kernel, by decide +kernel, by decide +kernel⟩

lemma hundred (p : ℕ) [Fact p.Prime] : ((1 / 103 : ℚ) : ZMod p) = 1 / 103 := by
  rw [cast_val (p := p) (a := 1) (b := 103) (by decide +kernel) (by decide +kernel)]; simp

lemma v0_ok : FieldOK vN vD v0 := field_ok d0 (by decide +kernel) (by simp) (hundred 101) (hundred 101)
lemma v2_ok : FieldOK vN vD v2 := field_ok d2 (by decide +kernel) (by simp) (hundred 107) (hundred 107)

/-- what is stored after the fields 101 and 103: the constant of the numerator does not belong to the function -/
def vc : Cross := { num := { comb := [([1], 51), ([0], 1)], primes := [([1], 101), ([0], 103)] }, den := { g := [([0], ⟨1, 1⟩)], comb := [([1], 51)], primes := [([1], 101)] }, combPrime := 0, norm := some (true, [0]), primeNumber := 2, zeroCounter := 0 }


lemma vc_reached : run mpzInvert sOrder (Cross.initial 101) [v0, v1] = some (.waiting vc) := showWait_eq (by decide +kernel)

/-- **Violated**: what `FieldOK` excludes. `x/(103 + x)` is sampled correctly in the field of 101 and, in the second field, modulo 103, at points where its denominator does not vanish. There its value is 1, and the constant of the numerator is stored as a
coefficient of the function. It is never removed: whatever correct fields follow, a result has a constant in its numerator, which `x/(103 + x)` does not have. -/
theorem C73_vanishing_violated : FieldOK vN vD v0 ∧ (∀ pt ∈ vpts, (103 : ZMod 103) + pt.1 ≠ 0 ∧ pt.2 = pt.1 / (103 + pt.1)) ∧ vN.coeff 0 = 0 ∧
    ∀ rs, (∀ r ∈ rs, Skipped r ∨ FieldOK vN vD r) → ∀ N D, run mpzInvert sOrder (Cross.initial 101) (v0 :: v1 :: rs) = some (.finished N D) → [0] ∈ N.map Prod.fst := by
  refine ⟨v0_ok, ?_, by simp [vN], ?_⟩
  · decide +kernel
  · intro rs hrs N D e
    have e' : run mpzInvert sOrder (Cross.initial 101) ([v0, v1] ++ rs) = some (.finished N D) := e
    rw [run_append mpzInvert sOrder [v0, v1] rs _ vc vc_reached] at e'
    exact key_run (n := vN) (d := vD) (lin_trailingCoeff _) (k := 0) (by simp [vN]) rs vc (by decide) (by decide) (by decide) hrs N D e'

/-- fields which may follow -/
example : ∀ r ∈ [v2], Skipped r ∨ FieldOK vN vD r := by
  intro r hr
  rw [List.mem_singleton] at hr
  rw [hr]
  exact Or.inr v2_ok

end FireFly.RRun.Safe.Uni
