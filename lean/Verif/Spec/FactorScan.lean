import Verif.Model.FactorScan
import Mathlib.Algebra.Polynomial.Eval.Defs
import Mathlib.RingTheory.Coprime.Basic
import Mathlib.Algebra.Polynomial.Monic
import Mathlib.Data.Rat.Cast.Defs
set_option linter.all false
/-! # Specification of C52: which factors the scan has to find -/
namespace FireFly
open Polynomial

/-- The contract of FLINT's factorization of the polynomial `N`: distinct monic irreducible polynomials with positive exponents, whose product is `N` up to a constant. -/
structure IsFactorization {p : ℕ} (N : (ZMod p)[X]) (l : Factorization p) : Prop where
  monic : ∀ t ∈ l, t.1.Monic
  irred : ∀ t ∈ l, Irreducible t.1
  pos : ∀ t ∈ l, 0 < t.2
  nodup : (l.map Prod.fst).Nodup
  prod : ∃ c : ZMod p, c ≠ 0 ∧ N = C c * (l.map fun t => t.1 ^ t.2).prod

/-- The map `m` lists the coefficients of the polynomial `f` other than zero, each once; the constant polynomial 1 (no factor) has the empty map. -/
def Lists {R : Type} [CommRing R] (f : R[X]) (m : FFMap R) : Prop :=
  (m.map Prod.fst).Nodup ∧ ∀ k v, (k, v) ∈ m ↔ f ≠ 1 ∧ ∃ e, k = [e] ∧ v = f.coeff e ∧ v ≠ 0

/-- The map `m` lists the residues modulo `p` of the coefficients of the polynomial `h` with rational coefficients. -/
def ListsMod (p : ℕ) [Fact p.Prime] (h : ℚ[X]) (m : FFMap (ZMod p)) : Prop :=
  (m.map Prod.fst).Nodup ∧ ∀ k v, (k, v) ∈ m ↔ h ≠ 1 ∧ ∃ e, k = [e] ∧ v = ((h.coeff e : ℚ) : ZMod p) ∧ v ≠ 0

/-- No numerator and no denominator of a coefficient of `h` is divisible by `p`. -/
def GoodPrime (p : ℕ) (h : ℚ[X]) : Prop := ∀ e ∈ h.support, ¬ (p : ℤ) ∣ (h.coeff e).num ∧ ¬ (p : ℤ) ∣ (h.coeff e).den

/-- What the prime fields `rs` see of `items` functions with the factors `hN i` in the numerator and `hD i` in the denominator (1: no factor). -/
structure Sees (items : ℕ) (hN hD : ℕ → ℚ[X]) (rs : List FacRound) : Prop where
  distinct : (rs.map FacRound.p).Nodup
  num : ∀ r ∈ rs, ∀ i < items, @ListsMod r.p r.prime (hN i) (r.canon i).1
  den : ∀ r ∈ rs, ∀ i < items, @ListsMod r.p r.prime (hD i) (r.canon i).2
  goodNum : ∀ r ∈ rs, ∀ i < items, GoodPrime r.p (hN i)
  goodDen : ∀ r ∈ rs, ∀ i < items, GoodPrime r.p (hD i)
  monicNum : ∀ i < items, (hN i).Monic
  monicDen : ∀ i < items, (hD i).Monic

/-- The product of the primes. -/
def primeProduct (rs : List FacRound) : ℤ := (rs.map fun r => (r.p : ℤ)).prod

/-- All numerators and denominators are small enough for the modulus `M`. -/
def SmallFor (M : ℤ) (h : ℚ[X]) : Prop := ∀ e, 2 * (h.coeff e).num ^ 2 < M ∧ 2 * ((h.coeff e).den : ℤ) ^ 2 < M

/-- All functions are small enough for the modulus `M`. -/
def AllSmall (items : ℕ) (hN hD : ℕ → ℚ[X]) (M : ℤ) : Prop := ∀ i < items, SmallFor M (hN i) ∧ SmallFor M (hD i)

/-- The reported monomials are those of `h` with exactly its coefficients, as reduced fractions with positive denominators. -/
def Exactly (h : ℚ[X]) (g : RnMap) : Prop :=
  (g.map Prod.fst).Nodup ∧ ∀ k v, (k, v) ∈ g ↔ h ≠ 1 ∧ ∃ e, k = [e] ∧ h.coeff e ≠ 0 ∧ v = ⟨(h.coeff e).num, (h.coeff e).den⟩

/-- The reported monomials are those of `h`, and each coefficient agrees with that of `h` modulo `M`. -/
def AgreesMod (M : ℤ) (h : ℚ[X]) (g : RnMap) : Prop :=
  (g.map Prod.fst).Nodup ∧ (∀ k, k ∈ g.map Prod.fst ↔ h ≠ 1 ∧ ∃ e, k = [e] ∧ h.coeff e ≠ 0) ∧
    ∀ e v, ([e], v) ∈ g → 0 < v.den ∧ Int.gcd v.num v.den = 1 ∧ v.num * (h.coeff e).den ≡ (h.coeff e).num * v.den [ZMOD M]

/-- The value of the reported polynomial in a prime field. -/
def valueAt (p : ℕ) [Fact p.Prime] (g : RnMap) (x : ZMod p) : ZMod p := (g.map fun t => (t.2.num : ZMod p) / (t.2.den : ZMod p) * x ^ t.1.getD 0 0).sum

/-- The value of the polynomial `h` in a prime field. -/
noncomputable def trueAt (p : ℕ) [Fact p.Prime] (h : ℚ[X]) (x : ZMod p) : ZMod p := h.support.sum fun e => ((h.coeff e : ℚ) : ZMod p) * x ^ e

/-- The report `g` for one side could have been mistaken for the factor `h`: it agrees with it modulo the primes used before and at the random point of the last one. -/
def Passes (pre : List FacRound) (r : FacRound) (x : ZMod r.p) (h : ℚ[X]) (g : RnMap) : Prop :=
  AgreesMod (primeProduct pre) h g ∧ (h ≠ 1 → @valueAt r.p r.prime g x = @trueAt r.p r.prime h x)

/-- A report `t` (the number of the function, the numerator and the denominator) after the prime fields `rs`: it is exact, or it has passed the test in one of the prime fields although the primes before were too few for some of the functions. -/
def Reported (items : ℕ) (hN hD : ℕ → ℚ[X]) (rs : List FacRound) (t : ℕ × RnMap × RnMap) : Prop :=
  (Exactly (hN t.1) t.2.1 ∧ Exactly (hD t.1) t.2.2) ∨
    ∃ pre r, pre ≠ [] ∧ pre ++ [r] <+: rs ∧ ¬ AllSmall items hN hD (primeProduct pre) ∧ Passes pre r (r.rand t.1) (hN t.1) t.2.1 ∧ Passes pre r (r.rand t.1) (hD t.1) t.2.2

end FireFly
