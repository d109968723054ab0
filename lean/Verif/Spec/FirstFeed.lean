import Verif.Spec.RatMultiHyps
import Verif.Model.FirstFeed
import Verif.Props.DenseProps
import Mathlib.Logic.Relation
/-! # Specification: the objects of a run in the first prime field -/
set_option linter.all false
namespace FireFly

/-- Thiele's method works on all probes `G` that are allowed for the first order vector, in any order -/
def RMulti.ThieleGood {F : Type} [Field F] [DecidableEq F] (c : RMulti.Cfg F) (N D : MvPolynomial ℕ F) (mN mD : ℕ) (G : F → List ℕ → Prop) : Prop :=
  ∀ ts : List F, ts.Nodup → ts.length ≤ RMulti.thieleMax mN mD → (∀ t ∈ ts, G t (RMulti.ones c)) →
    RMulti.ThieleOK c N D mN mD (ts.map (fun t => (RMulti.valueOf c.shift c.anchor N D t (RMulti.ones c), t)))

namespace First

/-- the number of probes with the order vector `ord` -/
def cnt {F : Type} (probes : List (F × List ℕ)) (ord : List ℕ) : ℕ := (probes.filter (fun q => decide (q.2 = ord))).length

/-- An object of a run with `n` variables whose probes are among `good`: its function `N/D` with the degrees `mN`, `mD`; `size` bounds the number of probes it needs for one order vector other than `(1, …, 1)`; which final states are
right. -/
inductive Described {F : Type} [Field F] [DecidableEq F] (n : ℕ) (good : F × List ℕ → Prop) : (ob : Obj F) → (size : ℕ) → (ob.S → Prop) → Prop
  | multi (c : RMulti.Cfg F) (N D : MvPolynomial ℕ F) (mN mD : ℕ) : c.n = n → PivotOrder c.gt → RMulti.Prob c N D mN mD → RMulti.GoodPts c N D (fun t ord => good (t, ord)) →
      RMulti.ThieleGood c N D mN mD (fun t ord => good (t, ord)) →
      Described n good (RMulti.obj c (RMulti.valueOf c.shift c.anchor N D)) (mN + mD + 2) (fun s => ∃ r, s.result = some r ∧ RMulti.Good c N D r)

/-- `s'` is reached from `s` by a sequence of steps of the threads. -/
def Reaches {F ι : Type} [DecidableEq ι] [DecidableEq F] (objs : ι → Obj F) (n : ℕ) (good : F × List ℕ → Prop) : Fld F objs → Fld F objs → Prop := Relation.ReflTransGen (Step objs n good)

/-- A possible start: the objects have got the first bunch `ts`, which is not empty; all values are allowed and different. -/
structure Starts {F ι : Type} (objs : ι → Obj F) (n : ℕ) (good : F × List ℕ → Prop) (ts rest more : List F) (s : Fld F objs) : Prop where
  bunch : ts ≠ []
  extra : more.length = ts.length
  nodup : (ts ++ rest ++ more).Nodup
  good : ∀ t ∈ ts ++ rest ++ more, good (t, List.replicate (n - 1) 1)
  fed : ∀ i, (ts.map (fun t => (t, List.replicate (n - 1) 1))).foldlM (objs i).feed (objs i).init = some (s.st i)
  eq : s = Fld.start objs n ts rest more s.st

end First
end FireFly
