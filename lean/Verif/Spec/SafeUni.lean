import Verif.Spec.RatSafe
import Verif.Model.SafeUni
import Verif.Props.RatReconstProps
/-!
# Specification: rational functions in one variable over the rational numbers, reconstructed in several prime fields with safe interpolation
-/
set_option linter.all false
namespace FireFly.RRun.Safe.Uni
open Polynomial

/-- The polynomial in one variable as a polynomial in the variable number 0. -/
noncomputable def mv (f : ℚ[X]) : MvPolynomial ℕ ℚ := ∑ e ∈ f.support, MvPolynomial.monomial (Finsupp.single 0 e) (f.coeff e)

/-- The prime field is skipped: its first value is zero. -/
def Skipped (r : PrimeRun) : Prop := ∃ q rest, r.pts = q :: rest ∧ q.2 = 0

/-- There are enough probes for `n/d`. -/
def Enough (n d : ℚ[X]) (r : PrimeRun) : Prop := 2 * d.natDegree + 2 ≤ r.pts.length ∧ 2 * n.natDegree + 1 ≤ r.pts.length ∧ 2 ≤ r.pts.length

/-- What is assumed about a prime field: `p` divides no denominator of a coefficient of `n`, `d`; the probes `(t, v)` are values of `n/d` modulo `p` at different points `t ≠ 0`, the first one not zero; `n` and `d` have no common factor modulo `p`; Thiele's method does not
divide by zero and does not stop before the degrees of `n/d` modulo `p` are reached. Coefficients of `n` and `d` may vanish modulo `p`, and the degrees may be smaller. -/
structure FieldOK (n d : ℚ[X]) (r : PrimeRun) : Prop where
  probes : haveI := r.fact; ProbesOK n d r.p r.pts
  cop : haveI := r.fact; IsCoprime (redPoly r.p n) (redPoly r.p d)
  distinct : (r.pts.map Prod.fst).Nodup
  nonzero : ∀ pt ∈ r.pts, pt.1 ≠ 0
  len : r.pts.length < 2 ^ 32
  thiele : haveI := r.fact; ∃ s b, ({} : Thiele (ZMod r.p)).runChecked (r.pts.map Prod.swap) = some (s, b) ∧ (b = true → 2 * (redPoly r.p d).natDegree ≤ s.ti.length ∧ 2 * (redPoly r.p n).natDegree ≤ s.ti.length + 1)

/-- Further prime fields are skipped, or they satisfy the assumptions and no coefficient can be mistaken for another number. `ps` are the fields used before. -/
def RunsOK (n d : ℚ[X]) : List ℕ → List PrimeRun → Prop
  | _, [] => True
  | ps, r :: rs => (Skipped r ∧ RunsOK n d ps rs) ∨ (FieldOK n d r ∧ r.p ∉ ps ∧ Clear (mv n) ps r.p ∧ Clear (mv d) ps r.p ∧ RunsOK n d (ps ++ [r.p]) rs)

open Classical in
/-- The primes whose fields are used. -/
noncomputable def used (rs : List PrimeRun) : List ℕ := (rs.filter (fun r => ¬ Skipped r)).map (fun r => r.p)

/-- Every coefficient of `n/d` is determined by the fields `ps`: it is small compared to the modulus it had before one of them; or no coefficient has vanished in a field and all are small for the product of the primes. -/
def Known (n d : ℚ[X]) (ps : List ℕ) : Prop := Determined (mv n) (mv d) ps

/-- What is stored between two prime fields; the lowest coefficient of the denominator is one. -/
def Stored (n d : ℚ[X]) (ps : List ℕ) (c : Cross) : Prop := OK 1 (mv n) (mv d) true [d.natTrailingDegree] ps c

/-- What is guaranteed about a result that is reported in the field of `r` before the coefficients are determined: it has only monomials of `n/d`, the coefficients that are determined are right, and its value at the first probe is the right one. -/
def Tested (n d : ℚ[X]) (ps : List ℕ) (r : PrimeRun) (N D : RnMap) : Prop :=
  haveI := r.fact
  Partly 1 (mv n) ps N ∧ Partly 1 (mv d) ps D ∧ (redPoly r.p (FireFly.rnPoly N)).eval (r.pts.headD (0, 0)).1 / (redPoly r.p (FireFly.rnPoly D)).eval (r.pts.headD (0, 0)).1 = (r.pts.headD (0, 0)).2

/-- The outcome of a run after the fields `ps`. -/
def Outcome (n d : ℚ[X]) (ps : List ℕ) (rs : List PrimeRun) (out : RunOut) : Prop :=
  (∃ c', out = .waiting c' ∧ Stored n d (ps ++ used rs) c' ∧ ∀ rs1 q rs2, rs = rs1 ++ q :: rs2 → ¬ Skipped q → ¬ Known n d (ps ++ used rs1)) ∨
  (out = .running ∧ ∃ rs1 q rs2, rs = rs1 ++ q :: rs2 ∧ ¬ Skipped q ∧ ¬ Enough n d q ∧ ¬ Known n d (ps ++ used rs1)) ∨
  ∃ N D, out = .finished N D ∧ ((FireFly.rnPoly N = n ∧ FireFly.rnPoly D = d) ∨ ∃ rs1 r rs2, rs = rs1 ++ r :: rs2 ∧ ¬ Skipped r ∧ Tested n d (ps ++ used rs1) r N D ∧ ¬ Known n d (ps ++ used rs1))

end FireFly.RRun.Safe.Uni
