import Verif.Model.Whole
import Verif.Model.RatShiftAll
/-!
# A whole run with a shift: several functions, all prime fields, any schedule (source/include/firefly/Reconstructor.hpp 2306-2850, 3017-3300; source/RatReconst.cpp 131-543, 757-872, 1102-1207, 1366-1438, 1664-1795, 2095-2099, 2425-2445, 3158-3587)

As `Model/Whole.lean`, but the shift is kept as long as one of the functions asks for it: all objects put the number of the next prime field into `singular_system_set`, and the caller disables the shift for all of them when the number of the field
is not in it. `Model/RatShiftAll.lean` is one object of such a run.

Modelled mode: as in these files (`n > 1`, no safe mode, no scans, no MPI, no saved states).
-/
namespace FireFly.WholeShift
open RRun

/-- A prime field of a run: the prime; the settings of the objects (number of variables, shift, anchor points, comparison in the pivot search); the values of the functions at the probe `(t, order vector)` with the shift (`true`) and without it
(`false`); the probes the random number generator may choose in either case; the next prime of the table. -/
structure PField (ι : Type) where
  p : ℕ
  fact : Fact p.Prime
  cfg : ι → RMulti.Cfg (ZMod p)
  value : Bool → ι → ZMod p → List ℕ → ZMod p
  good : Bool → ZMod p × List ℕ → Prop
  nextP : ℕ

/-- The first prime field, with the shift. -/
def PField.first {ι : Type} (f : PField ι) : Whole.PField ι := { p := f.p, fact := f.fact, cfg := f.cfg, value := f.value true, good := f.good true, nextP := f.nextP }

/-- What an object has been fed: the probes `got` with their values, in this order. `others`: another function has asked for the shift of this field. -/
def PField.stage {ι : Type} (f : PField ι) (i : ι) (others : Bool) (got : List (ZMod f.p × List ℕ)) : Shifted.Stage :=
  { base := { p := f.p, fact := f.fact, cfg := f.cfg i, probes := got.map (fun q => (q.1, f.value true i q.1 q.2, q.2)), nextP := f.nextP }
    plain := got.map (fun q => (q.1, f.value false i q.1 q.2, q.2)), others := others }

/-- A function between two prime fields: its object waits for the next prime, or the work has ended (`none`: undefined behaviour or an error). -/
inductive Fn where
  | open (c : Shifted.Cross)
  | closed (o : Option Shifted.RunOut)

/-- the object that waits for the next prime -/
def Fn.cross? : Fn → Option Shifted.Cross
  | .open c => some c
  | .closed _ => none

/-- what a prime field leads to -/
def Fn.of : Option Shifted.Out → Fn
  | some (.nextPrime c) => .open c
  | some (.finished N D) => .closed (some (.finished N D))
  | some .running => .closed (some .running)
  | some .stopped => .closed (some .stopped)
  | none => .closed none

/-- Between two prime fields: whether the shift has not been disabled (the static member `shift` of `RatReconst` is not zero), and the functions. -/
structure State (ι : Type) where
  on : Bool
  fn : ι → Fn

/-- the functions that are not done -/
abbrev Open {ι : Type} (st : State ι) : Type := { i : ι // ((st.fn i).cross?).isSome }

/-- the object of such a function -/
def Open.cross {ι : Type} {st : State ι} (i : Open st) : Shifted.Cross := ((st.fn i.1).cross?).get i.2

/-- A function has put the number of the next field into `singular_system_set` (source/RatReconst.cpp 1688-1692). -/
def State.Asks {ι : Type} (st : State ι) (i : ι) : Prop := ∃ c, st.fn i = .open c ∧ c.asks = true

open Classical in
/-- The number of the next field is in `singular_system_set` because of another function than `i`. -/
noncomputable def State.others {ι : Type} (st : State ι) (i : ι) : Bool := decide (∃ j, j ≠ i ∧ st.Asks j)

open Classical in
/-- The caller disables the shift if the number of the field is not in `singular_system_set` (source/include/firefly/Reconstructor.hpp 2501-2513, source/RatReconst.cpp 2095-2099, 2431-2442); once disabled it stays so. -/
noncomputable def State.next {ι : Type} (st : State ι) : Bool := st.on && decide (∃ i, st.Asks i)

/-- the objects in the first prime field -/
def PField.firstObjs {ι : Type} (f : PField ι) (i : ι) : First.Obj (ZMod f.p) := f.first.firstObjs i

/-- The settings of an object in this field, with the shift or after `disable_shift` (source/RatReconst.cpp 2095-2099). -/
def PField.settings {ι : Type} (f : PField ι) (on : Bool) (i : ι) : Prime :=
  { p := f.p, fact := f.fact, cfg := if on then f.cfg i else { f.cfg i with shift := List.replicate (f.cfg i).n 0 }, probes := [], nextP := f.nextP }

/-- The object chooses between the two interpolations (source/RatReconst.cpp 3340-3350), as in `Shifted.field`. -/
def PField.mode {ι : Type} (f : PField ι) (on others : Bool) (i : ι) (c : Shifted.Cross) : Bool :=
  haveI := f.fact
  c.singular || c.asks || others || decide ((f.settings on i).cfg.shift ≠ List.replicate (f.settings on i).cfg.n 0)

/-- An object in a further prime field that interpolates with a shift (`mode`; source/RatReconst.cpp 3340-3425) or without it: the known coefficients, the monomials which the shift produces and the guess are taken from the object, as in
`laterShift` and `laterPlain`. `on`: the values are those with the shift. -/
def PField.laterObj {ι : Type} (f : PField ι) (on mode : Bool) (i : ι) (c : Shifted.Cross) : Needed.Obj (ZMod f.p) :=
  haveI := f.fact
  if mode then
    let cfg : RShift.Cfg (ZMod f.p) := Shifted.shiftCfg c (f.settings on i) (c.base.coefs.recRatCoef.getD none)
    { S := RShift.St (ZMod f.p), init := Shifted.shiftInit c (f.settings on i) (c.base.coefs.recRatCoef.getD none), feed := fun s q => cfg.feed s (q.1, f.value on i q.1 q.2, q.2)
      adds := fun s q => cfg.adds s q.1 (f.value on i q.1 q.2) q.2, done := fun s => s.out.isSome }
  else RLater.obj { n := (f.cfg i).n, anchor := (f.cfg i).anchor, gt := (f.cfg i).gt, known := (convertToFF f.p c.base.coefs.gNi, convertToFF f.p c.base.coefs.gDi)
                    guess := (c.base.coefs.recRatCoef.getD none).map (fun g => (convertToFF f.p g.1, convertToFF f.p g.2)) }
    c.base.unNum c.base.unDen (f.value on i)

/-- the objects in a further prime field -/
noncomputable def PField.laterObjs {ι : Type} (f : PField ι) (st : State ι) (i : Open st) : Needed.Obj (ZMod f.p) := f.laterObj st.next (f.mode st.next (st.others i.1) i.1 i.cross) i.1 i.cross

variable (inv : ℤ → ℤ → ℤ) (ord : Order)

/-- The first prime field (`start_first_runs`, `run_until_done`, source/include/firefly/Reconstructor.hpp 2020-2270, 2709-2740, 3017-3300): the threads work in some order until all objects are done with the field. `n` is the number of variables. What
has become of the functions is determined by the probes their objects have got, in the order in which they have got them. -/
def FirstField {ι : Type} [DecidableEq ι] (n : ℕ) (f : PField ι) (st : State ι) : Prop :=
  haveI := f.fact
  ∃ (ts rest more : List (ZMod f.p)) (s0 s : First.Fld (ZMod f.p) f.firstObjs), First.Starts f.firstObjs n (f.good true) ts rest more s0 ∧ First.Reaches f.firstObjs n (f.good true) s0 s ∧
    (∀ i, (f.firstObjs i).done (s.st i) = true) ∧ st.on = true ∧ ∀ i, st.fn i = Fn.of (Shifted.prime inv ord (Shifted.Cross.initial f.p) (f.stage i false (s.got i)))

/-- A further prime field (source/include/firefly/Reconstructor.hpp 2500-2676, 2709-2740, 3017-3205): the shift is kept or disabled; then the same with the objects that are not done; there is at least one. `ts`: the probes that are queued at the
start. -/
def LaterField {ι : Type} [DecidableEq ι] (n : ℕ) (f : PField ι) (st st' : State ι) : Prop :=
  haveI := f.fact
  Nonempty (Open st) ∧ ∃ (ts : List (ZMod f.p)) (s : Needed.Fld (ZMod f.p) (f.laterObjs st)), ts ≠ [] ∧ ts.Nodup ∧ (∀ t ∈ ts, f.good st.next (t, List.replicate (n - 1) 1)) ∧
    Needed.Reaches (f.laterObjs st) n (f.good st.next) (Needed.Fld.start (f.laterObjs st) n ts) s ∧ (∀ i, (f.laterObjs st i).done (s.st i) = true) ∧ st'.on = st.next ∧
    (∀ i : Open st, st'.fn i.1 = Fn.of (Shifted.prime inv ord i.cross (f.stage i.1 (st.others i.1) (s.got i)))) ∧ ∀ i, ((st.fn i).cross?).isSome = false → st'.fn i = st.fn i

/-- the further prime fields, one after the other (`run_until_done`, source/include/firefly/Reconstructor.hpp 2318-2483) -/
inductive Later {ι : Type} [DecidableEq ι] (n : ℕ) : State ι → List (PField ι) → State ι → Prop
  | nil (st : State ι) : Later n st [] st
  | cons (st st1 st2 : State ι) (f : PField ι) (fs : List (PField ι)) : LaterField inv ord n f st st1 → Later n st1 fs st2 → Later n st (f :: fs) st2

/-- A run in the prime fields `f :: fs` ends with `st`. -/
def Run {ι : Type} [DecidableEq ι] (n : ℕ) (f : PField ι) (fs : List (PField ι)) (st : State ι) : Prop := ∃ st1, FirstField inv ord n f st1 ∧ Later inv ord n st1 fs st

end FireFly.WholeShift
