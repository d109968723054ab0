import Verif.Spec.RatRun
import Verif.Model.RatSafe
/-!
# Specification: rational functions in several variables over the rational numbers, reconstructed in several prime fields with safe interpolation
-/
set_option linter.all false
namespace FireFly.RRun.Safe
open MvPolynomial

/-- The modulus that is known for a coefficient `q` after the prime fields `ps`: the product of the primes in whose fields it does not vanish. -/
def modulus (q : ℚ) (ps : List ℕ) : ℤ := (ps.map (fun p : ℕ => if (p : ℤ) ∣ q.num then 1 else (p : ℤ))).prod

/-- There is a fraction other than `c` that agrees with `c` modulo `M'` although it is small compared to `M`. Only such a fraction can be mistaken for `c`. -/
def Mistakable (c : ℚ) (M M' : ℤ) : Prop :=
  ∃ g : ℚ, g ≠ c ∧ g.num * c.den ≡ c.num * g.den [ZMOD M'] ∧ ((2 * g.num ^ 2 ≤ M ∧ 2 * (g.den : ℤ) ^ 2 ≤ M) ∨ |g.num| * g.den * 1024 ≤ M)

/-- The coefficient `q` is determined by the prime fields `ps`: it is small compared to the modulus of the fields before one of them, in which it does not vanish. -/
def Settled (q : ℚ) (ps : List ℕ) : Prop := ∃ (ps1 : List ℕ) (p : ℕ) (ps2 : List ℕ), ps = ps1 ++ p :: ps2 ∧ ¬ (p : ℤ) ∣ q.num ∧ Small q (modulus q ps1)

/-- What is stored for the polynomial `f` (numerator or denominator) after the prime fields `ps`: known coefficients are right; for the others the residue with its own modulus is stored; a coefficient that is not stored vanishes in all these
fields; the coefficients that are determined are known. -/
structure SideInv (k : ℕ) (f : MvPolynomial ℕ ℚ) (ps : List ℕ) (s : Side) : Prop where
  nodup : (s.g.map Prod.fst ++ s.comb.map Prod.fst).Nodup
  mem : ∀ e ∈ s.g.map Prod.fst ++ s.comb.map Prod.fst, e ∈ monos k f
  known : ∀ t ∈ s.g, t.2.Valid ∧ t.2.val = coefOf f t.1
  residue : ∀ t ∈ s.comb, s.primes.find? t.1 = some (modulus (coefOf f t.1) ps) ∧ Reduces (coefOf f t.1) t.2 (modulus (coefOf f t.1) ps) ∧ ∃ p ∈ ps, ¬ (p : ℤ) ∣ (coefOf f t.1).num
  unseen : ∀ e ∈ monos k f, e ∉ s.g.map Prod.fst → e ∉ s.comb.map Prod.fst → ∀ p ∈ ps, (p : ℤ) ∣ (coefOf f e).num
  settled : ∀ e ∈ monos k f, Settled (coefOf f e) ps → e ∈ s.g.map Prod.fst

/-- No coefficient vanishes in one of the prime fields. -/
def Steady (n d : MvPolynomial ℕ ℚ) (ps : List ℕ) : Prop := ∀ f ∈ [n, d], ∀ m ∈ f.support, ∀ p ∈ ps, ¬ (p : ℤ) ∣ (coeff m f).num

/-- Between two prime fields: `ps` are the fields that have been used, `(b, e)` is the monomial whose coefficient is one. -/
structure OK (k : ℕ) (n d : MvPolynomial ℕ ℚ) (b : Bool) (e : List ℕ) (ps : List ℕ) (c : Cross) : Prop where
  num : SideInv k n ps c.num
  den : SideInv k d ps c.den
  norm : c.norm = some (b, e)
  len : e.length = k
  one : coeff e.toFinsupp (if b then d else n) = 1
  primes : ∀ p ∈ ps, p.Prime
  distinct : ps.Nodup
  ne : ps ≠ []
  modulus : 0 ≤ c.combPrime
  steady : Steady n d ps → (c.num.comb = [] ∧ c.den.comb = []) ∨ c.combPrime = (ps.map (fun p : ℕ => (p : ℤ))).prod
  zeros : c.zeroCounter < c.primeNumber

/-- What is assumed about a prime field. `n/d` is written as `(l n)/(l d)` such that `p` divides no denominator of a coefficient; the probes are values of this function modulo `p`, and it satisfies, with a constant factor `u`, the
assumptions of C44. Coefficients may vanish modulo `p`. -/
structure FieldOK (k : ℕ) (n d : MvPolynomial ℕ ℚ) (r : RRun.Prime) (l : ℚ) (u : ZMod r.p) (mN mD : ℕ) : Prop where
  l0 : l ≠ 0
  nvars : r.cfg.n = k
  gt : haveI := r.fact; PivotOrder r.cfg.gt
  denN : ∀ m, ¬ (r.p : ℤ) ∣ (coeff m (C l * n)).den
  denD : ∀ m, ¬ (r.p : ℤ) ∣ (coeff m (C l * d)).den
  values : haveI := r.fact; ∀ q ∈ r.probes, q.2.1 = RMulti.valueOf r.cfg.shift r.cfg.anchor (red r.p (C l * n)) (red r.p (C l * d)) q.1 q.2.2
  nodup : (r.probes.map (fun q => (q.1, q.2.2))).Nodup
  notSkipped : ¬ r.Skipped
  nonempty : r.probes ≠ []
  prob : haveI := r.fact; RMulti.Prob r.cfg (C u * red r.p (C l * n)) (C u * red r.p (C l * d)) mN mD
  good : haveI := r.fact; RMulti.GoodPts r.cfg (C u * red r.p (C l * n)) (C u * red r.p (C l * d)) (fun t ord => (t, ord) ∈ r.probes.map (fun q => (q.1, q.2.2)))
  thiele : haveI := r.fact; RMulti.ThieleOK r.cfg (C u * red r.p (C l * n)) (C u * red r.p (C l * d)) mN mD (RMulti.first r.cfg (C u * red r.p (C l * n)) (C u * red r.p (C l * d)) (r.probes.map (fun q => (q.1, q.2.2))))

/-- No coefficient of `f` can be mistaken for another number when the field of `p` is added to the fields `ps`. -/
def Clear (f : MvPolynomial ℕ ℚ) (ps : List ℕ) (p : ℕ) : Prop := ∀ m, ¬ (p : ℤ) ∣ (coeff m f).num → ¬ Mistakable (coeff m f) (modulus (coeff m f) ps) (modulus (coeff m f) ps * p)

/-- the first probe with the order vector `(1, …, 1)` -/
def probe1 (k : ℕ) (r : RRun.Prime) : Option (ZMod r.p × ZMod r.p × List ℕ) := r.probes.find? (fun q => decide (q.2.2 = List.replicate (k - 1) 1))

/-- What is guaranteed about one side of a result: there are no monomials other than those of `f`, and the coefficients that are determined are right. -/
structure Partly (k : ℕ) (f : MvPolynomial ℕ ℚ) (ps : List ℕ) (N : RnMap) : Prop where
  nodup : (N.map Prod.fst).Nodup
  mem : ∀ e ∈ N.map Prod.fst, e ∈ monos k f
  valid : ∀ t ∈ N, t.2.Valid
  settled : ∀ e ∈ monos k f, Settled (coefOf f e) ps → ∃ t ∈ N, t.1 = e ∧ t.2.val = coefOf f e

/-- What is guaranteed about a result the object reports in the field of `r`: its value at the first probe with the order vector `(1, …, 1)` is the right one, and if no coefficient has vanished in a field before, its coefficients
agree with those of `n/d` modulo the product of the primes. -/
structure Tested (k : ℕ) (n d : MvPolynomial ℕ ℚ) (ps : List ℕ) (r : RRun.Prime) (N D : RnMap) : Prop where
  num : Partly k n ps N
  den : Partly k d ps D
  probe : haveI := r.fact; ∃ q, probe1 k r = some q ∧ RMulti.valueOf r.cfg.shift r.cfg.anchor (red r.p (rnPoly N)) (red r.p (rnPoly D)) q.1 q.2.2 = q.2.1
  steady : Steady n d ps → GuessOK (coefOf n) (monos k n) (ps.map (fun p : ℕ => (p : ℤ))).prod N ∧ GuessOK (coefOf d) (monos k d) (ps.map (fun p : ℕ => (p : ℤ))).prod D

/-- Every coefficient is determined by the fields `ps`. -/
def AllSettled (n d : MvPolynomial ℕ ℚ) (ps : List ℕ) : Prop := ∀ f ∈ [n, d], ∀ m ∈ f.support, Settled (coeff m f) ps

/-- The function is determined by the fields `ps`: every coefficient is, or no coefficient has vanished in a field and all are small for the product of the primes. -/
def Determined (n d : MvPolynomial ℕ ℚ) (ps : List ℕ) : Prop := AllSettled n d ps ∨ (Steady n d ps ∧ AllSmall n d (ps.map (fun p : ℕ => (p : ℤ))).prod)

/-- the iteration orders are orders -/
structure Order.OK (o : Order) : Prop where
  num : ∀ l, (o.num l).Perm l
  den : ∀ l, (o.den l).Perm l

/-- `p` divides no denominator of a coefficient of `n` and `d`. -/
def Integral (n d : MvPolynomial ℕ ℚ) (p : ℕ) : Prop := ∀ m, ¬ (p : ℤ) ∣ (coeff m n).den ∧ ¬ (p : ℤ) ∣ (coeff m d).den

/-- Further prime fields are skipped, left out because the normalized coefficient vanishes (`n/d` is normalized: `p` divides a denominator), or used; in the last case no coefficient can be mistaken. `ps` are the fields used before. -/
def RunsOK (k : ℕ) (n d : MvPolynomial ℕ ℚ) : List ℕ → List RRun.Prime → Prop
  | _, [] => True
  | ps, r :: rs => (r.Skipped ∧ RunsOK k n d ps rs) ∨ ((∃ l u mN mD, FieldOK k n d r l u mN mD) ∧
      ((¬ Integral n d r.p ∧ RunsOK k n d ps rs) ∨ (Integral n d r.p ∧ r.p ∉ ps ∧ Clear n ps r.p ∧ Clear d ps r.p ∧ RunsOK k n d (ps ++ [r.p]) rs)))

open Classical in
/-- The primes whose fields are used. -/
noncomputable def used (n d : MvPolynomial ℕ ℚ) (rs : List RRun.Prime) : List ℕ := (rs.filter (fun r => ¬ r.Skipped ∧ Integral n d r.p)).map (fun r => r.p)

/-- The coefficient of the monomial `e` of the denominator (`b`) or the numerator is one. -/
def NormalizedTo (k : ℕ) (n d : MvPolynomial ℕ ℚ) (b : Bool) (e : List ℕ) : Prop := e.length = k ∧ coeff e.toFinsupp (if b then d else n) = 1

/-- The outcome of a run after the fields `ps`: the object waits for a new prime field, and then every coefficient is known or unknown as described by `OK`, and no field had a test probe with all coefficients determined before; there are not enough
probes in a field; or a result has been reported: it is right, or it was reported before all coefficients were determined (`Determined`), and is right as far as they are, and at the probe of the test. -/
def Outcome (k : ℕ) (n d : MvPolynomial ℕ ℚ) (b : Bool) (e : List ℕ) (ps : List ℕ) (rs : List RRun.Prime) (out : RunOut) : Prop :=
  (∃ c', out = .waiting c' ∧ OK k n d b e (ps ++ used n d rs) c' ∧ ∀ rs1 q rs2, rs = rs1 ++ q :: rs2 → ¬ q.Skipped → Integral n d q.p → (probe1 k q).isSome → ¬ Determined n d (ps ++ used n d rs1)) ∨
  (out = .running ∧ ∃ rs1 q rs2, rs = rs1 ++ q :: rs2 ∧ ¬ q.Skipped ∧ (∃ l u mN mD, FieldOK k n d q l u mN mD ∧ ¬ EnoughFirst (C l * n) (C l * d) q u mN mD) ∧
    ((probe1 k q).isSome → Integral n d q.p → ¬ Determined n d (ps ++ used n d rs1))) ∨
  ∃ N D, out = .finished N D ∧ ((rnPoly N = n ∧ rnPoly D = d) ∨ ∃ rs1 r rs2, rs = rs1 ++ r :: rs2 ∧ ¬ r.Skipped ∧ Tested k n d (ps ++ used n d rs1) r N D ∧ ¬ Determined n d (ps ++ used n d rs1))

/-- Numerators and denominators of all coefficients of `f` have at most `B` bits. -/
def Bits (B : ℕ) (f : MvPolynomial ℕ ℚ) : Prop := ∀ m, |(coeff m f).num| < 2 ^ B ∧ ((coeff m f).den : ℤ) < 2 ^ B

end FireFly.RRun.Safe
