import Verif.Model.RatRun
import Verif.Model.FirstFeed
import Verif.Spec.FirstFeed
import Verif.Spec.NeededFeedRun
/-!
# A whole run: several functions, all prime fields, any schedule (source/include/firefly/Reconstructor.hpp 2306-2850, 3017-3300; source/RatReconst.cpp 131-543, 1395-1438, 1696-1795, 3340-3587)

The pieces are put together: in each prime field the threads feed the objects and queue what these ask for (`Model/FirstFeed.lean`, `Model/NeededFeed.lean`), until every object is done or wants the next prime; an object that wants it combines the
coefficients (`Model/RatRun.lean`), one that is done gets no more probes.

Modelled mode: as in these files (`n > 1`, no shift in the further fields, no safe mode, no scans, no MPI, no saved states).
-/
namespace FireFly.Whole
open RRun

/-- A prime field of a run: the prime; the settings of the objects (number of variables, shift, anchor points, comparison in the pivot search); the values of the functions at the probe `(t, order vector)`; the probes the random number
generator may choose; the next prime of the table. -/
structure PField (ι : Type) where
  p : ℕ
  fact : Fact p.Prime
  cfg : ι → RMulti.Cfg (ZMod p)
  value : ι → ZMod p → List ℕ → ZMod p
  good : ZMod p × List ℕ → Prop
  nextP : ℕ

/-- What an object has been fed: the probes `got` with their values, in this order. -/
def PField.record {ι : Type} (f : PField ι) (i : ι) (got : List (ZMod f.p × List ℕ)) : Prime :=
  { p := f.p, fact := f.fact, cfg := f.cfg i, probes := got.map (fun q => (q.1, f.value i q.1 q.2, q.2)), nextP := f.nextP }

/-- A function between two prime fields: its object waits for the next prime, or the work has ended (`none`: undefined behaviour or an error). -/
inductive Fn where
  | open (c : Cross)
  | closed (o : Option RRun.RunOut)

/-- the object that waits for the next prime -/
def Fn.cross? : Fn → Option Cross
  | .open c => some c
  | .closed _ => none

/-- what a prime field leads to -/
def Fn.of : Option Out → Fn
  | some (.nextPrime c) => .open c
  | some (.finished N D) => .closed (some (.finished N D))
  | some .running => .closed (some .running)
  | some .singular => .closed (some .singular)
  | none => .closed none

/-- the functions that are not done -/
abbrev Open {ι : Type} (st : ι → Fn) : Type := { i : ι // ((st i).cross?).isSome }

/-- the object of such a function -/
def Open.cross {ι : Type} {st : ι → Fn} (i : Open st) : Cross := ((st i.1).cross?).get i.2

/-- the objects in the first prime field -/
def PField.firstObjs {ι : Type} (f : PField ι) (i : ι) : First.Obj (ZMod f.p) :=
  haveI := f.fact
  RMulti.obj (f.cfg i) (f.value i)

/-- The objects in a further prime field: the known coefficients and the guess are taken from the object (source/RatReconst.cpp 3340-3425), as in `laterPrime`. -/
def PField.laterObjs {ι : Type} (f : PField ι) (st : ι → Fn) (i : Open st) : Needed.Obj (ZMod f.p) :=
  haveI := f.fact
  RLater.obj { n := (f.cfg i.1).n, anchor := (f.cfg i.1).anchor, gt := (f.cfg i.1).gt, known := (convertToFF f.p i.cross.coefs.gNi, convertToFF f.p i.cross.coefs.gDi)
               guess := (i.cross.coefs.recRatCoef.getD none).map (fun g => (convertToFF f.p g.1, convertToFF f.p g.2)) }
    i.cross.unNum i.cross.unDen (f.value i.1)

variable (inv : ℤ → ℤ → ℤ) (ord : Order)

/-- The first prime field (`start_first_runs`, `run_until_done`, source/include/firefly/Reconstructor.hpp 2020-2270, 2709-2740, 3017-3300): the threads work in some order until all objects are done with the field. `n` is the number of variables. What
has become of the functions is determined by the probes their objects have got, in the order in which they have got them. -/
def FirstField {ι : Type} [DecidableEq ι] (n : ℕ) (f : PField ι) (st : ι → Fn) : Prop :=
  haveI := f.fact
  ∃ (ts rest more : List (ZMod f.p)) (s0 s : First.Fld (ZMod f.p) f.firstObjs), First.Starts f.firstObjs n f.good ts rest more s0 ∧ First.Reaches f.firstObjs n f.good s0 s ∧
    (∀ i, (f.firstObjs i).done (s.st i) = true) ∧ ∀ i, st i = Fn.of (prime inv ord (Cross.initial f.p) (f.record i (s.got i)))

/-- A further prime field (source/include/firefly/Reconstructor.hpp 2500-2676, 2709-2740, 3017-3205): the same with the objects that are not done; there is at least one. `ts`: the probes that are queued at the start. -/
def LaterField {ι : Type} [DecidableEq ι] (n : ℕ) (f : PField ι) (st st' : ι → Fn) : Prop :=
  haveI := f.fact
  Nonempty (Open st) ∧ ∃ (ts : List (ZMod f.p)) (s : Needed.Fld (ZMod f.p) (f.laterObjs st)), ts ≠ [] ∧ ts.Nodup ∧ (∀ t ∈ ts, f.good (t, List.replicate (n - 1) 1)) ∧
    Needed.Reaches (f.laterObjs st) n f.good (Needed.Fld.start (f.laterObjs st) n ts) s ∧ (∀ i, (f.laterObjs st i).done (s.st i) = true) ∧
    (∀ i : Open st, st' i.1 = Fn.of (prime inv ord i.cross (f.record i.1 (s.got i)))) ∧ ∀ i, ((st i).cross?).isSome = false → st' i = st i

/-- the further prime fields, one after the other (`run_until_done`, source/include/firefly/Reconstructor.hpp 2318-2483) -/
inductive Later {ι : Type} [DecidableEq ι] (n : ℕ) : (ι → Fn) → List (PField ι) → (ι → Fn) → Prop
  | nil (st : ι → Fn) : Later n st [] st
  | cons (st st1 st2 : ι → Fn) (f : PField ι) (fs : List (PField ι)) : LaterField inv ord n f st st1 → Later n st1 fs st2 → Later n st (f :: fs) st2

/-- A run in the prime fields `f :: fs` ends with `st`. -/
def Run {ι : Type} [DecidableEq ι] (n : ℕ) (f : PField ι) (fs : List (PField ι)) (st : ι → Fn) : Prop := ∃ st1, FirstField inv ord n f st1 ∧ Later inv ord n st1 fs st

end FireFly.Whole
