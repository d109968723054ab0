import Verif.Lemmas.PolyClassRoots
import Mathlib.RingTheory.Polynomial.UniqueFactorization
import Mathlib.Algebra.Polynomial.BigOperators
import Mathlib.Tactic.LinearCombination
set_option linter.all false

open Polynomial

namespace FireFly

namespace PolyC

/-- A product of linear factors. -/
def ProdLin {F : Type*} [Field F] (P : F[X]) : Prop :=
  ∃ (u : F) (rs : List F), u ≠ 0 ∧ P = C u * (rs.map (fun r => X - C r)).prod

section
variable {F : Type*} [Field F] [DecidableEq F]

theorem prodLin_ne_zero {P : F[X]} (h : ProdLin P) : P ≠ 0 := by
  obtain ⟨u, rs, hu, rfl⟩ := h
  refine mul_ne_zero (C_ne_zero.2 hu) ?_
  apply List.prod_ne_zero
  intro h0
  obtain ⟨r, -, hr⟩ := List.mem_map.1 h0
  exact X_sub_C_ne_zero r hr

theorem prodLin_of_dvd {P Q : F[X]} (h : ProdLin P) (hd : Q ∣ P) : ProdLin Q := by
  obtain ⟨u, rs, hu, rfl⟩ := h
  obtain ⟨W, hW⟩ := hd
  induction rs generalizing Q W u with
  | nil =>
    have hQ : Q ∣ C u := ⟨W, by simpa using hW⟩
    have hu' : IsUnit (C u : F[X]) := isUnit_C.2 (isUnit_iff_ne_zero.2 hu)
    obtain ⟨v, hv, hv2⟩ := isUnit_iff.1 (isUnit_of_dvd_unit hQ hu')
    exact ⟨v, [], hv.ne_zero, by simp [hv2]⟩
  | cons r rs ih =>
    simp only [List.map_cons, List.prod_cons] at hW
    have hr : (X - C r) ∣ Q * W := ⟨C u * (rs.map (fun r => X - C r)).prod, by rw [← hW]; ring⟩
    rcases (prime_X_sub_C r).dvd_or_dvd hr with ⟨V, hV⟩ | ⟨V, hV⟩
    · have e : C u * (rs.map (fun r => X - C r)).prod = V * W := by
        apply mul_left_cancel₀ (X_sub_C_ne_zero r)
        rw [hV] at hW; linear_combination hW
      obtain ⟨v, ts, hv, ht⟩ := ih u hu W e
      exact ⟨v, r :: ts, hv, by rw [hV, ht]; simp; ring⟩
    · have e : C u * (rs.map (fun r => X - C r)).prod = Q * V := by
        apply mul_left_cancel₀ (X_sub_C_ne_zero r)
        rw [hV] at hW; linear_combination hW
      exact ih u hu V e

end

variable {p : ℕ} [hp : Fact p.Prime]

theorem exists_separating (hp2 : p ≠ 2) (d : ZMod p) (hd : d ≠ 0) :
    ∃ u : ZMod p, u ^ ((p - 1) / 2) = 1 ∧ (u + d) ^ ((p - 1) / 2) ≠ 1 := by
  have h2 := hp.out.two_le
  have hs : (p - 1) / 2 ≠ 0 := by omega
  by_contra h
  push Not at h
  have key : ∀ n : ℕ, (1 + n * d) ^ ((p - 1) / 2) = 1 := by
    intro n
    induction n with
    | zero => simp
    | succ n ih =>
      have := h _ ih
      rw [Nat.cast_succ]
      rw [show 1 + ((n : ZMod p) + 1) * d = 1 + n * d + d by ring]
      exact this
  have h1 := key (-d⁻¹).val
  rw [ZMod.natCast_zmod_val, neg_mul, inv_mul_cancel₀ hd, add_neg_cancel, zero_pow hs] at h1
  exact zero_ne_one h1

/-- For a product of at least two linear factors there is a random number that splits it. -/
theorem exists_split (hp2 : p ≠ 2) (q : List (ZMod p)) (hq : ProdLin (polyOf q))
    (hdeg : 2 ≤ (polyOf q).natDegree) :
    ∃ delta h f, split ((p - 1) / 2) q delta = .ok (h, f) ∧ polyOf q = polyOf h * polyOf f ∧
      0 < (polyOf h).natDegree ∧ 0 < (polyOf f).natDegree := by
  have h2 := hp.out.two_le
  have hq0 := prodLin_ne_zero hq
  -- it is enough to have one common root and no divisibility
  have key : ∀ (delta r : ZMod p), (polyOf q).IsRoot r → (r + delta) ^ ((p - 1) / 2) = 1 →
      ¬ polyOf q ∣ (X + C delta) ^ ((p - 1) / 2) - 1 →
      ∃ delta h f, split ((p - 1) / 2) q delta = .ok (h, f) ∧ polyOf q = polyOf h * polyOf f ∧
      0 < (polyOf h).natDegree ∧ 0 < (polyOf f).natDegree := by
    intro delta r hr h1 hnd
    obtain ⟨h, f, e1, e2, e3, e4, e5⟩ := split_ok ((p - 1) / 2) q delta (by omega)
    refine ⟨delta, h, f, e1, e4, ?_, ?_⟩
    · have hx : (X - C r) ∣ polyOf h := by
        apply e5.2.2
        · exact dvd_iff_isRoot.2 hr
        · rw [dvd_iff_isRoot]; simp [h1]
      have hh0 : polyOf h ≠ 0 := by rintro h0; rw [h0, zero_mul] at e4; exact hq0 e4
      have := natDegree_le_of_dvd hx hh0
      rw [natDegree_X_sub_C] at this; omega
    · by_contra hf
      apply hnd
      have hf1 : (polyOf f) = C ((polyOf f).coeff 0) := eq_C_of_natDegree_eq_zero (by omega)
      have hf0 : (polyOf f).coeff 0 ≠ 0 := by
        intro h0; rw [hf1, h0, C_0, mul_zero] at e4; exact hq0 e4
      have hqh : polyOf q ∣ polyOf h := by
        refine ⟨C ((polyOf f).coeff 0)⁻¹, ?_⟩
        rw [e4]
        conv_rhs => rw [hf1]
        rw [coeff_C_zero, mul_assoc, ← C_mul, mul_inv_cancel₀ hf0, C_1, mul_one]
      exact hqh.trans e5.2.1
  obtain ⟨u, rs, hu, e⟩ := hq
  have hlen : (polyOf q).natDegree ≤ rs.length := by
    rw [e, natDegree_C_mul hu]
    refine (natDegree_list_prod_le _).trans ?_
    rw [List.map_map]
    simp [Function.comp_def]
  match rs, hlen, e with
  | [], hlen, _ => simp at hlen; omega
  | [_], hlen, _ => simp at hlen; omega
  | r1 :: r2 :: ts, hlen, e =>
    simp only [List.map_cons, List.prod_cons] at e
    have hr1 : (polyOf q).IsRoot r1 := by rw [IsRoot, e]; simp
    have hr2 : (polyOf q).IsRoot r2 := by rw [IsRoot, e]; simp
    by_cases h12 : r1 = r2
    · refine key (1 - r1) r1 hr1 (by simp) ?_
      intro hd
      have hd2 : (X - C r1) ^ 2 ∣ (X + C (1 - r1)) ^ ((p - 1) / 2) - 1 := by
        refine Dvd.dvd.trans ⟨C u * (ts.map (fun r => X - C r)).prod, ?_⟩ hd
        rw [e, h12]; ring
      obtain ⟨W, hW⟩ := hd2
      have hder := congrArg (fun P => (derivative P).eval r1) hW
      simp only [derivative_sub, derivative_pow, derivative_mul, derivative_add, derivative_X,
        derivative_C, derivative_one, add_zero, sub_zero, mul_one, eval_mul, eval_add, eval_sub,
        eval_pow, eval_X, eval_C, sub_self, eval_natCast, Nat.cast_ofNat] at hder
      simp at hder
      have hcast : (((p - 1) / 2 : ℕ) : ZMod p) ≠ 0 := by
        rw [Ne, ZMod.natCast_eq_zero_iff]
        intro hdv
        have := Nat.le_of_dvd (by omega) hdv
        omega
      exact hcast hder
    · obtain ⟨w, hw1, hw2⟩ := exists_separating hp2 (r2 - r1) (sub_ne_zero.2 (Ne.symm h12))
      refine key (w - r1) r1 hr1 (by rw [add_sub_cancel]; exact hw1) ?_
      intro hd
      have hr : ((X + C (w - r1)) ^ ((p - 1) / 2) - 1 : (ZMod p)[X]).IsRoot r2 :=
        hr2.dvd hd
      apply hw2
      simp only [IsRoot, eval_sub, eval_pow, eval_add, eval_X, eval_C, eval_one, sub_eq_zero] at hr
      rw [← hr]; congr 1; ring

/-- The measure that decreases when the queue is split. -/
noncomputable def meas (queue : List (List (ZMod p))) : ℕ :=
  (queue.map (fun q => (polyOf q).natDegree ^ 2)).sum

theorem meas_suffix {a b : List (List (ZMod p))} (h : a <:+ b) : meas a ≤ meas b := by
  obtain ⟨t, rfl⟩ := h
  simp [meas]

def Lin (queue : List (List (ZMod p))) : Prop := ∀ q ∈ queue, ProdLin (polyOf q)

theorem Lin.good {queue : List (List (ZMod p))} (h : Lin queue) : Good queue :=
  fun q hq => prodLin_ne_zero (h q hq)

theorem rootsLoop_done (s : ℕ) (draws : List (ZMod p)) (queue : List (List (ZMod p))) (rs rs' : List (ZMod p))
    (h : settle queue rs = ([], rs')) : rootsLoop s draws queue rs = .ok (some rs') := by
  cases draws <;> simp [rootsLoop, h]

/-- From every state there are random numbers with which the loop ends. -/
theorem rootsLoop_live (hp2 : p ≠ 2) (n : ℕ) (queue : List (List (ZMod p))) (rs : List (ZMod p))
    (hq : Lin queue) (hn : meas queue < n) :
    ∃ more out, rootsLoop ((p - 1) / 2) more queue rs = .ok (some out) := by
  induction n generalizing queue rs with
  | zero => omega
  | succ n ih =>
    obtain ⟨h1, h2, h3⟩ := settle_spec queue rs hq.good
    obtain ⟨⟨q', rs'⟩, hs⟩ : ∃ x, settle queue rs = x := ⟨_, rfl⟩
    rw [hs] at h2 h3
    cases q' with
    | nil => exact ⟨[], rs', rootsLoop_done _ _ _ _ _ hs⟩
    | cons q qs =>
      have hlin : ∀ x ∈ q :: qs, ProdLin (polyOf x) := fun x hx => hq x (h2.subset hx)
      obtain ⟨delta, h, f, e1, e2, e3, e4⟩ := exists_split hp2 q (hlin q (by simp)) (h3 q qs rfl)
      have hl2 : Lin (f :: h :: qs) := by
        intro x hx
        rw [List.mem_cons, List.mem_cons] at hx
        rcases hx with rfl | rfl | hx
        · exact prodLin_of_dvd (hlin q (by simp)) ⟨polyOf h, by rw [e2]; ring⟩
        · exact prodLin_of_dvd (hlin q (by simp)) ⟨polyOf f, e2⟩
        · exact hlin x (by simp [hx])
      have hm : meas (f :: h :: qs) < n := by
        have a1 := meas_suffix h2
        have hq0 := prodLin_ne_zero (hlin q (by simp))
        have a2 : (polyOf q).natDegree = (polyOf h).natDegree + (polyOf f).natDegree := by
          rw [e2, natDegree_mul]
          · rintro h0; rw [h0, zero_mul] at e2; exact hq0 e2
          · rintro h0; rw [h0, mul_zero] at e2; exact hq0 e2
        have a3 : meas (q :: qs) = (polyOf q).natDegree ^ 2 + meas qs := by simp [meas]
        have a4 : meas (f :: h :: qs) =
            (polyOf f).natDegree ^ 2 + ((polyOf h).natDegree ^ 2 + meas qs) := by simp [meas]
        rw [a3, a2] at a1
        rw [a4]
        nlinarith
      obtain ⟨more, out, ho⟩ := ih (f :: h :: qs) rs' hl2 hm
      refine ⟨delta :: more, out, ?_⟩
      rw [rootsLoop, hs]
      simp only [e1]
      exact ho

/-- Whatever has been drawn so far, the loop can still end. -/
theorem rootsLoop_always (hp2 : p ≠ 2) (draws : List (ZMod p)) (queue : List (List (ZMod p)))
    (rs : List (ZMod p)) (hq : Lin queue) :
    ∃ more out, rootsLoop ((p - 1) / 2) (draws ++ more) queue rs = .ok (some out) := by
  induction draws generalizing queue rs with
  | nil => exact rootsLoop_live hp2 _ queue rs hq (Nat.lt_succ_self _)
  | cons d ds ih =>
    obtain ⟨h1, h2, h3⟩ := settle_spec queue rs hq.good
    obtain ⟨⟨q', rs'⟩, hs⟩ : ∃ x, settle queue rs = x := ⟨_, rfl⟩
    rw [hs] at h2 h3
    cases q' with
    | nil => exact ⟨[], rs', rootsLoop_done _ _ _ _ _ hs⟩
    | cons q qs =>
      have hlin : ∀ x ∈ q :: qs, ProdLin (polyOf x) := fun x hx => hq x (h2.subset hx)
      have := h3 q qs rfl
      obtain ⟨h, f, e1, -, -, e2, -⟩ := split_ok ((p - 1) / 2) q d (by omega)
      have hl2 : Lin (f :: h :: qs) := by
        intro x hx
        rw [List.mem_cons, List.mem_cons] at hx
        rcases hx with rfl | rfl | hx
        · exact prodLin_of_dvd (hlin q (by simp)) ⟨polyOf h, by rw [e2]; ring⟩
        · exact prodLin_of_dvd (hlin q (by simp)) ⟨polyOf f, e2⟩
        · exact hlin x (by simp [hx])
      obtain ⟨more, out, ho⟩ := ih (f :: h :: qs) rs' hl2
      refine ⟨more, out, ?_⟩
      rw [List.cons_append, rootsLoop, hs]
      simp only [e1]
      exact ho

end PolyC

end FireFly
