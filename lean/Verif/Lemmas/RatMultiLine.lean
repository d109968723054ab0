import Verif.Lemmas.RatMultiRun
/-! # The polynomial on a line -/
set_option linter.all false
namespace FireFly.RMulti
open MvPolynomial
variable {F : Type} [Field F] [DecidableEq F] {c : Cfg F} {bounds : Option (List ℕ)} {Q N D : MvPolynomial ℕ F} {m T mN mD : ℕ}

lemma line_coeff0 (d : ℕ → F) (k : ℕ) (P : MvPolynomial ℕ F) :
    (aeval (fun j => (Polynomial.X * Polynomial.C (d j) : Polynomial F)) P).coeff k = eval d (homogeneousComponent k P) := by
  induction P using MvPolynomial.induction_on' with
  | monomial u a =>
    have h1 : aeval (fun j => (Polynomial.X * Polynomial.C (d j) : Polynomial F)) (monomial u a) = Polynomial.C (a * u.prod fun i e => d i ^ e) * Polynomial.X ^ u.degree := by
      rw [aeval_monomial]
      have h2 : (u.prod fun i e => ((Polynomial.X * Polynomial.C (d i)) ^ e : Polynomial F)) = Polynomial.X ^ u.degree * Polynomial.C (u.prod fun i e => d i ^ e) := by
        unfold Finsupp.prod
        simp only [mul_pow, Finset.prod_mul_distrib, Finset.prod_pow_eq_pow_sum]
        rw [Finsupp.degree_apply, map_prod]
        simp only [map_pow]
      rw [h2, map_mul]
      show Polynomial.C a * _ = _
      ring
    rw [h1, Polynomial.coeff_C_mul, Polynomial.coeff_X_pow]
    have h3 : (monomial u a : MvPolynomial ℕ F).IsHomogeneous u.degree := isHomogeneous_monomial a rfl
    rw [homogeneousComponent_of_mem (n := u.degree) h3]
    by_cases h : k = u.degree
    · rw [if_pos h, if_pos h, mul_one, eval_monomial]
    · rw [if_neg h, if_neg h, mul_zero, map_zero]
  | add p q hp hq => rw [map_add, Polynomial.coeff_add, hp, hq, map_add, map_add]

lemma line_coeff (s a : List F) (ord : List ℕ) (Q : MvPolynomial ℕ F) (k : ℕ) : (line s a ord Q).coeff k = eval (dir a ord) (part s Q k) := by
  rw [part_eq, ← line_coeff0]
  congr 1
  unfold line shiftPoly
  have : (aeval (fun j => (Polynomial.X * Polynomial.C (dir a ord j) + Polynomial.C (s.getD j 0) : Polynomial F)) : MvPolynomial ℕ F →ₐ[F] Polynomial F) =
      (aeval (fun j => (Polynomial.X * Polynomial.C (dir a ord j) : Polynomial F))).comp (aeval (fun i : ℕ => (X i + C (s.getD i 0) : MvPolynomial ℕ F))) := by
    ext i
    simp
  rw [this]; rfl

lemma line_eval (s a : List F) (ord : List ℕ) (Q : MvPolynomial ℕ F) (t : F) : (line s a ord Q).eval t = eval (pt s a t ord) Q := by
  unfold line
  rw [← Polynomial.coe_evalRingHom, aeval_def, ← MvPolynomial.coe_eval₂Hom, ← RingHom.comp_apply, MvPolynomial.comp_eval₂Hom]
  rw [MvPolynomial.coe_eval₂Hom, MvPolynomial.eval, MvPolynomial.coe_eval₂Hom]
  congr 1
  · ext x; simp
  · ext j; simp [pt]; ring

end FireFly.RMulti
