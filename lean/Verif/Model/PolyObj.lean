import Verif.Model.PolyFF
/-!
# The cached state of a `PolynomialFF` object

`PolynomialFF` caches the leading/trailing degree (`max_degree`, `min_degree`) and a parsed Horner
form (`s_y_fun`, guarded by `generate_new_horner` and `eval_horner`).
-/
namespace FireFly
variable {F : Type} [Field F] [DecidableEq F]

/-- The data members of `PolynomialFF` (source/include/firefly/PolynomialFF.hpp 99-137).
`horner` is the polynomial from which the object `s_y_fun` was last generated. -/
structure PolyObj (F : Type) where
  n : ℕ
  coefs : FFMap F
  minDegree : List ℕ := []
  maxDegree : List ℕ := []
  generateNewHorner : Bool := true
  evalHorner : Bool := false
  horner : FFMap F := []

/-- `PolynomialFF(n, coefs)` (source/PolynomialFF.cpp 26). -/
def PolyObj.mk' (n : ℕ) (coefs : FFMap F) : PolyObj F := { n := n, coefs := coefs }

/-- The common tail of `-=`, `+=`, `*=`, `/=` (source/PolynomialFF.cpp 143-146, 165-168, 200-203,
215-218). -/
def PolyObj.update (o : PolyObj F) (c : FFMap F) : PolyObj F :=
  { o with coefs := c,
           generateNewHorner := if c.length > 50 then true else o.generateNewHorner,
           evalHorner := false }

/-- `max_deg()` (source/PolynomialFF.cpp 278-303): the loop runs only if nothing is cached. -/
def PolyObj.maxDeg (o : PolyObj F) : PolyObj F × List ℕ :=
  if o.maxDegree = [] then
    let d := PolyFF.degs o.coefs
    -- an empty coefficient map leaves both caches untouched
    let mn := if o.coefs = [] then o.minDegree else d.2
    ({ o with maxDegree := d.1, minDegree := mn }, d.1)
  else (o, o.maxDegree)

/-- `min_deg()` (source/PolynomialFF.cpp 305-308). -/
def PolyObj.minDeg (o : PolyObj F) : PolyObj F × List ℕ :=
  let o' := o.maxDeg.1
  (o', o'.minDegree)

/-- `calc_n_m_1` (source/PolynomialFF.cpp 47-69). `hornerEval m x` stands for generating the Horner
string of `m` with the first variable set to one, parsing it and evaluating it at `x`
(`generate_hornerff` 443-468 followed by `s_y_fun.evaluate_pre`). -/
def PolyObj.calcNM1 (hornerEval : ℕ → FFMap F → List F → Option F) (o : PolyObj F) (x : List F) :
    PolyObj F × Option F :=
  if o.generateNewHorner ∧ o.coefs.length > 50 then
    let o' := { o with generateNewHorner := false, evalHorner := true, horner := o.coefs }
    (o', hornerEval o.n o.coefs x)
  else if o.evalHorner then (o, hornerEval o.n o.horner x)
  else (o, PolyFF.calcNM1 o.n o.coefs x)

/-- `homogenize` on the object (source/PolynomialFF.cpp 249-267): neither `n` nor any cache is
updated. -/
def PolyObj.homogenize (o : PolyObj F) (d : ℕ) : PolyObj F :=
  { o with coefs := PolyFF.homogenize o.coefs d }

/-- The public member functions that change an object or its caches, except `homogenize`. -/
inductive PolyOp (F : Type) where
  | addAssign (b : FFMap F)
  | subAssign (b : FFMap F)
  | mulAssign (c : F)
  | divAssign (c : F)
  | removeZeroCoefs
  | maxDeg
  | minDeg
  | calcNM1 (x : List F)

/-- One call on the object (line numbers at the functions called). -/
def PolyObj.step (he : ℕ → FFMap F → List F → Option F) (o : PolyObj F) : PolyOp F → PolyObj F
  | .addAssign b => o.update (PolyFF.addAssign o.coefs b)
  | .subAssign b => o.update (PolyFF.subAssign o.coefs b)
  | .mulAssign c => o.update (PolyFF.scale o.coefs c)
  | .divAssign c => o.update (PolyFF.divScalar o.coefs c)
  | .removeZeroCoefs => { o with coefs := PolyFF.removeZeroCoefs o.coefs }
  | .maxDeg => o.maxDeg.1
  | .minDeg => o.minDeg.1
  | .calcNM1 x => (o.calcNM1 he x).1

end FireFly
