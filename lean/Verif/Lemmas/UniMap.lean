import Verif.Props.PolyProps
import Mathlib.Algebra.Polynomial.AlgebraMap
/-! # Univariate maps: `ff_map`s with keys of length one hold the coefficients of a polynomial -/
set_option linter.all false
namespace FireFly
open Polynomial
variable {F : Type} [Field F] [DecidableEq F]

omit [DecidableEq F] in
lemma toMv_coeff (P : F[X]) (e : ℕ) :
    MvPolynomial.coeff (Finsupp.single 0 e) (aeval (MvPolynomial.X (R := F) (0 : ℕ)) P) = P.coeff e := by
  induction P using Polynomial.induction_on' with
  | add p q hp hq => rw [map_add, MvPolynomial.coeff_add, hp, hq, coeff_add]
  | monomial n a =>
    rw [aeval_monomial, MvPolynomial.algebraMap_eq, MvPolynomial.coeff_C_mul, MvPolynomial.coeff_X_pow,
      coeff_monomial]
    by_cases h : n = e
    · subst h; simp
    · rw [if_neg, if_neg h, mul_zero]
      intro h2
      exact h (Finsupp.single_injective _ h2)

lemma single_toFinsupp (e : ℕ) : [e].toFinsupp = Finsupp.single 0 e := by
  ext i
  rw [List.toFinsupp_apply]
  rcases i with _ | i
  · simp
  · simp [Finsupp.single_apply]

/-- `m` holds the coefficients of `P`, all exponents at most `N` -/
structure UMap (N : ℕ) (P : F[X]) (m : FFMap F) : Prop where
  wf : WFMap 1 m
  le : ∀ k ∈ m.map Prod.fst, k.getD 0 0 ≤ N
  den : denote m = aeval (MvPolynomial.X (R := F) (0 : ℕ)) P

lemma UMap.coeff {N : ℕ} {P : F[X]} {m : FFMap F} (h : UMap N P m) (e : ℕ) :
    (m.find? [e]).getD 0 = P.coeff e := by
  rw [← coeff_denote h.wf (k := [e]) rfl, h.den, single_toFinsupp, toMv_coeff]

lemma UMap.mono {N M : ℕ} {P : F[X]} {m : FFMap F} (h : UMap N P m) (hNM : N ≤ M) : UMap M P m :=
  ⟨h.wf, fun k hk => (h.le k hk).trans hNM, h.den⟩

omit [DecidableEq F] in
lemma UMap.const (a : F) : UMap 0 (C a) [([0], a)] where
  wf := ⟨by simp, by simp⟩
  le := by simp
  den := by
    rw [denote_cons, aeval_C, MvPolynomial.algebraMap_eq]
    simp only [single_toFinsupp, denote, List.map_nil, List.sum_nil, add_zero]
    simp

lemma keys_foldl {step : FFMap F → List ℕ × F → FFMap F}
    (hs : ∀ m el k, k ∈ (step m el).map Prod.fst → k ∈ m.map Prod.fst ∨ k = el.1) :
    ∀ (b a : FFMap F) (k : List ℕ), k ∈ (b.foldl step a).map Prod.fst →
      k ∈ a.map Prod.fst ∨ k ∈ b.map Prod.fst := by
  intro b
  induction b with
  | nil => intro a k h; exact Or.inl h
  | cons t b ih =>
    intro a k h
    rw [List.foldl_cons] at h
    rcases ih _ k h with h | h
    · rcases hs _ _ _ h with h | h
      · exact Or.inl h
      · right; rw [h]; simp
    · right; rw [List.map_cons]; exact List.mem_cons_of_mem _ h

lemma keys_addStep (m : FFMap F) (el : List ℕ × F) (k : List ℕ)
    (h : k ∈ (PolyFF.addStep m el).map Prod.fst) : k ∈ m.map Prod.fst ∨ k = el.1 := by
  by_cases hk : k = el.1
  · exact Or.inr hk
  · left
    by_contra hn
    rw [← FFMap.find?_eq_none] at hn
    have := find?_addStep m el k
    rw [if_neg hk, hn] at this
    exact (FFMap.find?_eq_none.mp this) h

lemma keys_addAssignStep (m : FFMap F) (el : List ℕ × F) (k : List ℕ)
    (h : k ∈ (PolyFF.addAssignStep m el).map Prod.fst) : k ∈ m.map Prod.fst ∨ k = el.1 := by
  by_cases hk : k = el.1
  · exact Or.inr hk
  · left
    by_contra hn
    rw [← FFMap.find?_eq_none] at hn
    have := find?_addAssignStep m el k
    rw [if_neg hk, hn] at this
    exact (FFMap.find?_eq_none.mp this) h

lemma UMap.add {N : ℕ} {P Q : F[X]} {a b : FFMap F} (ha : UMap N P a) (hb : UMap N Q b) :
    UMap N (P + Q) (PolyFF.add a b) where
  wf := (C13_add ha.wf hb.wf).1
  le := by
    intro k hk
    unfold PolyFF.add at hk
    split at hk
    · rcases keys_foldl keys_addStep _ _ _ hk with h | h
      · exact hb.le k h
      · exact ha.le k h
    · rcases keys_foldl keys_addStep _ _ _ hk with h | h
      · exact ha.le k h
      · exact hb.le k h
  den := by rw [(C13_add ha.wf hb.wf).2.1, ha.den, hb.den, map_add]

lemma UMap.addAssign {N : ℕ} {P Q : F[X]} {a b : FFMap F} (ha : UMap N P a) (hb : UMap N Q b) :
    UMap N (P + Q) (PolyFF.addAssign a b) where
  wf := (C13_add_assign ha.wf hb.wf).1
  le := by
    intro k hk
    unfold PolyFF.addAssign at hk
    rcases keys_foldl keys_addAssignStep _ _ _ hk with h | h
    · exact ha.le k h
    · exact hb.le k h
  den := by rw [(C13_add_assign ha.wf hb.wf).2.1, ha.den, hb.den, map_add]

lemma UMap.scale {N : ℕ} {P : F[X]} {a : FFMap F} (ha : UMap N P a) (c : F) :
    UMap N (C c * P) (PolyFF.scale a c) where
  wf := (C13_scale ha.wf c).1
  le := by
    intro k hk
    unfold PolyFF.scale at hk
    rw [List.map_map] at hk
    exact ha.le k hk
  den := by
    rw [(C13_scale ha.wf c).2, ha.den, map_mul, aeval_C, MvPolynomial.algebraMap_eq]

lemma UMap.mulVar {N : ℕ} {P : F[X]} {a : FFMap F} (ha : UMap N P a) (hN : N + 1 < 2 ^ 32) :
    UMap (N + 1) (X * P) (PolyFF.mulVar a 1) := by
  have hov : ∀ t ∈ a, t.1.getD (1 - 1) 0 + 1 < 2 ^ 32 := by
    intro t ht
    have := ha.le t.1 (List.mem_map_of_mem ht)
    simp only [Nat.sub_self]; omega
  have h := C17_mul ha.wf (z := 1) le_rfl le_rfl hov
  refine ⟨h.1, ?_, ?_⟩
  · intro k hk
    unfold PolyFF.mulVar at hk
    have : ∀ (b : FFMap F) (m : FFMap F), (∀ t ∈ b, t.1.length = 1 ∧ t.1.getD 0 0 ≤ N) →
        (∀ k ∈ m.map Prod.fst, k.getD 0 0 ≤ N + 1) →
        ∀ k ∈ (b.foldl (fun m t => m.emplace (incrAt t.1 (1 - 1)) t.2) m).map Prod.fst, k.getD 0 0 ≤ N + 1 := by
      intro b
      induction b with
      | nil => intro m _ hm; exact hm
      | cons t b ih =>
        intro m hb hm
        rw [List.foldl_cons]
        apply ih _ (fun t ht => hb t (List.mem_cons_of_mem _ ht))
        intro k hk
        rw [FFMap.keys_emplace] at hk
        split at hk
        · exact hm k hk
        · rw [List.mem_append, List.mem_singleton] at hk
          rcases hk with hk | rfl
          · exact hm k hk
          · obtain ⟨h1, h2⟩ := hb t (by simp)
            obtain ⟨e, he⟩ : ∃ e, t.1 = [e] := List.length_eq_one_iff.mp h1
            rw [he] at h2 ⊢
            simp [incrAt] at h2 ⊢
            exact (Nat.mod_le _ _).trans (by omega)
    exact this a [] (fun t ht => ⟨ha.wf.2 t ht, ha.le t.1 (List.mem_map_of_mem ht)⟩) (by simp) k hk
  · rw [h.2, ha.den, map_mul, aeval_X]

end FireFly
