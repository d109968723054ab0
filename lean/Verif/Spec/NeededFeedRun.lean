import Verif.Spec.NeededFeed
import Verif.Spec.RatLater
import Verif.Model.NeededFeed
import Verif.Props.DenseProps
import Mathlib.Logic.Relation
/-! # Specification: the objects of a run in a further prime field -/
set_option linter.all false
namespace FireFly.Needed
open MvPolynomial

/-- the order vector `(o, …, o)` -/
def ones (n o : ℕ) : List ℕ := List.replicate (n - 1) o

/-- the number of probes with the order vector `(o, …, o)` -/
def count {F : Type} (n : ℕ) (probes : List (F × List ℕ)) (o : ℕ) : ℕ := (probes.filter (fun q => decide (q.2 = List.replicate (n - 1) o))).length

/-- An object of a run with `n` variables whose probes are among `good`: the number of order vectors each of the parts that are asked needs, and which final states are right.
Without shift: a part needs as many order vectors as it has monomials with unknown coefficients. If no coefficient is unknown, no part is asked, and the guess, which is exact then, passes the test with every probe. -/
inductive Described {F : Type} [Field F] [DecidableEq F] (n : ℕ) (good : F × List ℕ → Prop) : (ob : Obj F) → List ℕ → (ob.S → Prop) → Prop
  | plain (c : RLater.Cfg F) (N D : MvPolynomial ℕ F) (UN UD : FFMap (List (List ℕ))) : c.n = n → PivotOrder c.gt → c.anchor.length + 1 = c.n → RLater.Split c.n c.anchor N c.known.1 UN →
      RLater.Split c.n c.anchor D c.known.2 UD → (UN ≠ [] ∨ UD ≠ []) → RLater.GuessOK c → RLater.GoodPts c.anchor N D UN UD (fun t ord => good (t, ord)) →
      Described n good (RLater.obj c UN UD (RLater.value c.anchor N D)) (UN.map (fun u => u.2.length) ++ UD.map (fun u => u.2.length))
        (fun s => (s.out = some .accepted ∧ ∃ t, RLater.Passes c N D t (ones n 1)) ∨ ∃ num den, s.out = some (.solved num den) ∧ WFMap c.n num ∧ WFMap c.n den ∧ denote num = N ∧ denote den = D)
  | known (c : RLater.Cfg F) (N D : MvPolynomial ℕ F) : c.n = n → c.anchor.length + 1 = c.n → RLater.GuessOK c → (∀ q, good q → q.2 ≠ [] ∧ RLater.Passes c N D q.1 q.2) →
      Described n good (RLater.obj c [] [] (RLater.value c.anchor N D)) [] (fun s => s.out = some .accepted)
  | shift (c : RShift.Cfg F) (N D : MvPolynomial ℕ F) : c.n = n → PivotOrder c.gt → RShift.Prob c N D → RShift.GuessOK c → RShift.GoodPts c N D (fun t ord => good (t, ord)) →
      Described n good (RShift.obj c (RMulti.valueOf c.shift c.anchor N D)) (parts c.n (!c.normDen) c.num ++ parts c.n c.normDen c.den)
        (fun s => (s.out = some .accepted ∧ ∃ t, RShift.Passes c N D t (ones n 1)) ∨ ∃ num den, s.out = some (.solved num den) ∧ RShift.Right c N D num den)

/-- `s'` is reached from `s` by a sequence of steps of the threads. -/
def Reaches {F ι : Type} [DecidableEq ι] (objs : ι → Obj F) (n : ℕ) (good : F × List ℕ → Prop) : Fld F objs → Fld F objs → Prop := Relation.ReflTransGen (Step objs n good)

end FireFly.Needed
