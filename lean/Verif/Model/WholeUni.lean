import Verif.Model.RatReconst
import Verif.Model.FirstFeed
/-!
# A whole run with one variable: several functions, all prime fields, any schedule (source/include/firefly/Reconstructor.hpp 2020-2850, 3017-3300; source/RatReconst.cpp 131-210, 298-543, 3340-3587, 3738-3766)

The objects of a run with one variable (`Model/RatReconst.lean`), as the Reconstructor uses them (`Model/FirstFeed.lean`, `Model/NeededFeed.lean`, which are for any number of variables): the order vectors have no entry, all probes belong to `(1, …, 1)`.

Modelled mode: as in these files (no shift, no safe mode, no scans, no MPI, no saved states).
-/
namespace FireFly.WholeUni

/-- An object within a prime field: whether it has been fed (`first_feed`), and what the probes have led to. -/
structure St (p : ℕ) where
  first : Bool := true
  out : UniOut p

/-- done with this prime field: a result, or the next prime is wanted -/
def St.done {p : ℕ} (s : St p) : Bool :=
  match s.out with
  | .running _ => false
  | _ => true

/-- the start of a prime field -/
def start (p : ℕ) (c : UniCross) : St p := { out := .running { cross := c, newPrime := c.checkInterpolation } }

section
variable (inv : ℤ → ℤ → ℤ) {p : ℕ} [Fact p.Prime] (gt : ZMod p → ZMod p → Bool) (ord : List ℕ → List ℕ) (nextP : ℕ)

/-- One probe: `feed` (source/RatReconst.cpp 131-210) and `interpolate()` (298-335). A first probe that is zero skips the field (145-179); an object that is done, or waits for the next prime, ignores the probe (138). -/
def feed (s : St p) (t v : ZMod p) : Option (St p) :=
  match s.out with
  | .running u => (if s.first = true ∧ v = 0 then feedZero nextP u.cross else uniProbe inv gt ord u t v).map (fun o => { first := false, out := o })
  | o => some { first := false, out := o }

/-- What a probe adds to `needed_feed_vec`: if the guess is tested and fails, `num_eqn` probes are needed (source/RatReconst.cpp 343-345, 3552-3568 for `n = 1`). -/
def adds (s : St p) (t v : ZMod p) : Option (List (ℕ × ℕ)) :=
  match s.out with
  | .running u =>
    if s.first = true ∧ v = 0 then some []
    else if u.newPrime then (checkIfDone u.cross v t).map (fun o => if o.isSome then [] else [(1, u.cross.numEqn)])
    else some []
  | _ => some []

/-- `get_zi_orders` for `n = 1` (source/RatReconst.cpp 3738-3749); it is asked only if the object is not done -/
def orders (s : St p) : Option (List (List ℕ × ℕ) × ℕ) :=
  match s.out with
  | .running u => some ([([], RMulti.wrapSub u.cross.numEqn u.coefMat.length)], u.cross.numEqn)
  | _ => some ([], 0)

/-- the object in the first prime field -/
def firstObj (c : UniCross) (value : ZMod p → ZMod p) : First.Obj (ZMod p) :=
  { S := St p, init := start p c, feed := fun s q => feed inv gt ord nextP s q.1 (value q.1), orders := orders, done := St.done }

/-- the object in a further prime field -/
def laterObj (c : UniCross) (value : ZMod p → ZMod p) : Needed.Obj (ZMod p) :=
  { S := St p, init := start p c, feed := fun s q => feed inv gt ord nextP s q.1 (value q.1), adds := fun s q => adds s q.1 (value q.1), done := St.done }

end

/-- A prime field of a run: the prime; the values of the functions at `t`; the probes the random number generator may choose; the next prime of the table. -/
structure PField (ι : Type) where
  p : ℕ
  fact : Fact p.Prime
  value : ι → ZMod p → ZMod p
  good : ZMod p × List ℕ → Prop
  nextP : ℕ

/-- A function between two prime fields: its object waits for the next prime; its result has been reported; or there was an error. -/
inductive Fn where
  | open (c : UniCross)
  | reported (num den : RnMap)
  | failed

/-- the object that waits for the next prime -/
def Fn.cross? : Fn → Option UniCross
  | .open c => some c
  | _ => none

/-- what a prime field leads to -/
def Fn.of {p : ℕ} : UniOut p → Fn
  | .nextPrime c => .open c
  | .finished N D => .reported N D
  | .running _ => .failed

/-- the functions that are not done -/
abbrev Open {ι : Type} (st : ι → Fn) : Type := { i : ι // ((st i).cross?).isSome }

/-- the object of such a function -/
def Open.cross {ι : Type} {st : ι → Fn} (i : Open st) : UniCross := ((st i.1).cross?).get i.2

variable (inv : ℤ → ℤ → ℤ) (gt : (p : ℕ) → ZMod p → ZMod p → Bool) (ord : List ℕ → List ℕ)

/-- the objects in the first prime field: they are new (source/RatReconst.cpp 42-83) -/
def PField.firstObjs {ι : Type} (f : PField ι) (i : ι) : First.Obj (ZMod f.p) :=
  haveI := f.fact
  firstObj inv (gt f.p) ord f.nextP (UniCross.initial f.p) (f.value i)

/-- the objects in a further prime field -/
def PField.laterObjs {ι : Type} (f : PField ι) (st : ι → Fn) (i : Open st) : Needed.Obj (ZMod f.p) :=
  haveI := f.fact
  laterObj inv (gt f.p) ord f.nextP i.cross (f.value i.1)

/-- The first prime field (`start_first_runs`, `run_until_done`, source/include/firefly/Reconstructor.hpp 2020-2270, 2709-2740, 3017-3300): the threads work in some order until all objects are done with the field. -/
def FirstField {ι : Type} [DecidableEq ι] (f : PField ι) (st : ι → Fn) : Prop :=
  haveI := f.fact
  ∃ (ts rest more : List (ZMod f.p)) (s0 s : First.Fld (ZMod f.p) (f.firstObjs inv gt ord)), ts ≠ [] ∧ more.length = ts.length ∧ (ts ++ rest ++ more).Nodup ∧ (∀ t ∈ ts ++ rest ++ more, f.good (t, [])) ∧
    (∀ i, (ts.map (fun t => (t, ([] : List ℕ)))).foldlM (f.firstObjs inv gt ord i).feed (f.firstObjs inv gt ord i).init = some (s0.st i)) ∧ s0 = First.Fld.start (f.firstObjs inv gt ord) 1 ts rest more s0.st ∧
    Relation.ReflTransGen (First.Step (f.firstObjs inv gt ord) 1 f.good) s0 s ∧ (∀ i, (f.firstObjs inv gt ord i).done (s.st i) = true) ∧ ∀ i, st i = Fn.of (St.out (s.st i))

/-- A further prime field (source/include/firefly/Reconstructor.hpp 2500-2676, 2709-2740, 3017-3205): the same with the objects that are not done; there is at least one. `ts`: the probes that are queued at the start. -/
def LaterField {ι : Type} [DecidableEq ι] (f : PField ι) (st st' : ι → Fn) : Prop :=
  haveI := f.fact
  Nonempty (Open st) ∧ ∃ (ts : List (ZMod f.p)) (s : Needed.Fld (ZMod f.p) (f.laterObjs inv gt ord st)), ts ≠ [] ∧ ts.Nodup ∧ (∀ t ∈ ts, f.good (t, [])) ∧
    Relation.ReflTransGen (Needed.Step (f.laterObjs inv gt ord st) 1 f.good) (Needed.Fld.start (f.laterObjs inv gt ord st) 1 ts) s ∧ (∀ i, (f.laterObjs inv gt ord st i).done (s.st i) = true) ∧
    (∀ i : Open st, st' i.1 = Fn.of (St.out (s.st i))) ∧ ∀ i, ((st i).cross?).isSome = false → st' i = st i

/-- the further prime fields, one after the other (`run_until_done`, source/include/firefly/Reconstructor.hpp 2318-2483) -/
inductive Later {ι : Type} [DecidableEq ι] : (ι → Fn) → List (PField ι) → (ι → Fn) → Prop
  | nil (st : ι → Fn) : Later st [] st
  | cons (st st1 st2 : ι → Fn) (f : PField ι) (fs : List (PField ι)) : LaterField inv gt ord f st st1 → Later st1 fs st2 → Later st (f :: fs) st2

/-- A run in the prime fields `f :: fs` ends with `st`. -/
def Run {ι : Type} [DecidableEq ι] (f : PField ι) (fs : List (PField ι)) (st : ι → Fn) : Prop := ∃ st1, FirstField inv gt ord f st1 ∧ Later inv gt ord st1 fs st

end FireFly.WholeUni
