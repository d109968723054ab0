import Verif.Spec.RatMultiHyps
import Verif.Model.Scan
/-! # Specification: the scan for a sparse shift -/
set_option linter.all false
namespace FireFly.RMulti
open MvPolynomial
variable {F : Type} [Field F] [DecidableEq F]

/-- The probes `(t, value)` of one round for one function that is `n/d` on the line of this round, in lowest terms: the `t` differ from each other and from zero, the denominator does not vanish there; the probes suffice
for Thiele's method, there is no division by zero and no end before the degrees are seen, the first value does not vanish. Or the function is zero. -/
structure LineOK (pts : List (F × F)) (n d : Polynomial F) : Prop where
  lowest : IsCoprime n d
  data : ∀ q ∈ pts, d.eval q.1 ≠ 0 ∧ q.2 = n.eval q.1 / d.eval q.1
  distinct : (pts.map Prod.fst).Nodup
  short : pts.length < 2 ^ 32
  run : (n = 0 ∧ 2 ≤ pts.length) ∨
    ((∀ q ∈ pts, q.1 ≠ 0) ∧ (∀ q, pts.head? = some q → q.2 ≠ 0) ∧
      ∃ s, ({} : Thiele F).runChecked (pts.map Prod.swap) = some (s, true) ∧ 2 * d.natDegree ≤ s.ti.length ∧ 2 * n.natDegree ≤ s.ti.length + 1)

/-- What the object `o` knows about `n/d`, the function on the last line: the powers of `t` that occur. -/
structure Info (n d : Polynomial F) (o : ScanObj F) : Prop where
  memN : n ≠ 0 → ∀ k, k ∈ o.degsNum ↔ n.coeff k ≠ 0
  memD : ∀ k, k ∈ o.degsDen ↔ d.coeff k ≠ 0
  nodupN : o.degsNum.Nodup
  nodupD : o.degsDen.Nodup

/-- The degrees of all `m` functions on the line of the round `k`, the variables `p` being shifted, are the same as on the line of the first round, where all variables are shifted. `nf k p i / df k p i` is the function `i`
on the line of the round `k`. -/
def Keeps (n m : ℕ) (nf df : ℕ → List ℕ → ℕ → Polynomial F) (k : ℕ) (p : List ℕ) : Prop :=
  ∀ i < m, (nf k p i).natDegree = (nf 0 (List.replicate n 1) i).natDegree ∧ (df k p i).natDegree = (df 0 (List.replicate n 1) i).natDegree

/-- What the first step of the interpolation after the scan needs: the powers `dN`, `dD` that the object expects contain all powers of `t` that occur in the numerator and the denominator on the line; the system
for their coefficients, the normalized one being known, has one solution at most if there are as many equations as unknowns. -/
structure FirstOK (c : Cfg F) (N D : MvPolynomial ℕ F) (dN dD : List ℕ) (G : F → List ℕ → Prop) : Prop where
  nodupN : dN.Nodup
  nodupD : dD.Nodup
  powN : ∀ k, (line c.shift c.anchor (ones c) N).coeff k ≠ 0 → k ∈ dN
  powD : ∀ k, (line c.shift c.anchor (ones c) D).coeff k ≠ 0 → k ∈ dD
  det : ∀ ts : List F, ts.Nodup → (∀ t ∈ ts, G t (ones c)) → ts.length = dN.length + dD.length - 1 → ∀ a b : ℕ → F, (if c.normDen then b 0 else a 0) = 0 →
    (∀ t ∈ ts, ∑ k ∈ dN.toFinset, a k * t ^ k = valueOf c.shift c.anchor N D t (ones c) * ∑ k ∈ dD.toFinset, b k * t ^ k) → (∀ k ∈ dN, a k = 0) ∧ ∀ k ∈ dD, b k = 0

/-- The number of probes that an object has asked for at most after the scan: the system for the powers `dN`, `dD` replaces Thiele's method. -/
noncomputable def maxProbesScan (c : Cfg F) (N D : MvPolynomial ℕ F) (mN mD : ℕ) (dN dD : List ℕ) : ℕ :=
  (needs c N mN + needs c D mD) * (mN + mD + 3) + (mN + mD + 2) + (dN.length + dD.length - 1)

/-- The number of probes in the list that have the order vector the object wants at this moment, until it has its result. -/
def hitsScan (c : Cfg F) (dN dD : List ℕ) : St F → List (F × F × List ℕ) → ℕ
  | _, [] => 0
  | s, q :: rest => (if q.2.2 = s.ord ∧ s.result.isSome = false then 1 else 0) + match c.feedScan dN dD s q with
    | none => 0
    | some s' => hitsScan c dN dD s' rest

end FireFly.RMulti
