import Verif.Model.FactorFiles
import Verif.Spec.Factors
import Verif.Props.RationalProps
/-!
# Specification for C53: what a factor scan leaves behind
-/
namespace FireFly

/-- a factor that fits into the file: at least one of the two polynomials, distinct powers below `2^31` of one variable and reduced coefficients -/
structure Factor.Saved (f : Factor) : Prop where
  nonempty : f.num ≠ [] ∨ f.den ≠ []
  pos : f.pos < 2 ^ 31
  num : (f.num.map Prod.fst).Nodup ∧ ∀ t ∈ f.num, t.1.length = 1 ∧ ∀ x ∈ t.1, x < 2 ^ 31
  den : (f.den.map Prod.fst).Nodup ∧ ∀ t ∈ f.den, t.1.length = 1 ∧ ∀ x ∈ t.1, x < 2 ^ 31
  numv : ∀ t ∈ f.num, t.2.Valid
  denv : ∀ t ∈ f.den, t.2.Valid

/-- the result of a scan in `n` variables: `factors` are the factors of the functions that have some, with degrees below `B`, and `texts` are the texts of their products, whose strings stand in any order -/
structure ScanResult (n B : ℕ) (factors : List (ℕ × List Factor)) (texts : List (ℕ × Str)) : Prop where
  keys : (factors.map Prod.fst).Nodup
  bound : ∀ q ∈ factors, q.1 < 2 ^ 31
  nonempty : ∀ q ∈ factors, q.2 ≠ []
  pos : ∀ q ∈ factors, (q.2.map Factor.pos).Nodup
  ok : ∀ q ∈ factors, ∀ f ∈ q.2, f.OK n B
  saved : ∀ q ∈ factors, ∀ f ∈ q.2, f.Saved
  tkeys : (texts.map Prod.fst).Perm (factors.map Prod.fst)
  text : ∀ i fs, factors.lookup i = some fs → ∃ s nums dens, factorStrings fs = some s ∧ nums.Perm s.1 ∧ dens.Perm s.2 ∧ texts.lookup i = some (factorText nums dens)

/-- the files which an interrupted earlier scan of the same functions may have left: nothing but (possibly damaged) files of functions that have factors, and of the order of the variables if the order changes -/
structure Leftovers (order : List (ℕ × ℕ)) (factors : List (ℕ × List Factor)) (d : FacDir) : Prop where
  order : d.order ≠ none → changeOrder order = true
  rf : (d.rf.map Prod.fst).Nodup ∧ ∀ q ∈ d.rf, ∃ i ∈ factors.map Prod.fst, q.1 = facFile i
  fac : (d.fac.map Prod.fst).Nodup ∧ ∀ q ∈ d.fac, ∃ i ∈ factors.map Prod.fst, q.1 = facFile i

/-- the same files, listed in any order -/
structure SameFiles (d e : FacDir) : Prop where
  order : e.order = d.order
  rf : e.rf.Perm d.rf
  fac : e.fac.Perm d.fac

end FireFly
