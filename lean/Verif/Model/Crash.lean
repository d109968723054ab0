import Mathlib.Data.Fin.Basic
import Mathlib.Data.List.FinRange
import Mathlib.Logic.Function.Basic
/-!
# The directory `ff_save` under crashes

Which files exist, and with which content, while a run with saved states proceeds, crashes and is resumed
(source/RatReconst.cpp `save_state`, `save_zero_state`, `save_zero_consecutive_prime`, `write_food_to_file`, `feed`, `combine_primes`,
`check_if_done`; source/include/firefly/Reconstructor.hpp `resume_from_saved_state`, `run_until_done`).

The contents of the files are the subject of `Verif.Model.SaveState` and `Verif.Model.ProbeFile`; here only what they stand for is kept.
A crash is the end of the process: operations on the file system that were carried out remain, in their order, and `rename` is atomic.
Opening a file for writing and closing it are two operations, a crash in between leaves an unusable file.

Simplifications: appending probes is one operation (see C40 for a cut line); probes are not appended while the object is writing
its state; the creation of the files at the beginning of the first run and the scan for shifts and factors are left out; all objects of the current field may be processed in
any order and interleaving.
-/
namespace FireFly.Crash

/-- What a state file stands for: the file of `set_tag_name` (source/RatReconst.cpp 2482-2517), the one of `save_zero_state` (2519-2527),
one of `save_state` (2537-2722), or an incomplete one. `fields` are the prime fields whose images have been combined. -/
inductive Content
  | initial
  | zero
  | state (fields : List ℕ) (done : Bool)
  | broken
deriving DecidableEq, Repr

/-- The prime fields that have been combined in a content. -/
def Content.fields : Content → List ℕ
  | .state f _ => f
  | _ => []

/-- The files of one function: `ff_save/states/<item>_<k>.gz`, `ff_save/tmp/<item>_<k>.gz`, `ff_save/probes/<item>_<k>.gz`,
`ff_save/tmp/probe_<item>_<k>_tmp.gz`. A file of probes is the list of the numbers of the prime fields in which its
probes were computed. -/
structure Disk where
  state : ℕ → Option Content
  tmpState : ℕ → Option Content
  probe : ℕ → Option (List ℕ)
  tmpProbe : ℕ → Option (List ℕ)

/-- The operations on the files of a function. -/
inductive Op
  | openTmp (k : ℕ)
  | writeTmp (k : ℕ) (c : Content)
  | tmpToState (k : ℕ)
  | openState (k : ℕ)
  | writeState (k : ℕ) (c : Content)
  | moveState (a b : ℕ)
  | moveProbe (a b : ℕ)
  | probeToTmp (a b : ℕ)
  | tmpToProbe (k : ℕ)
  | createProbe (k : ℕ)
  | removeProbe (k : ℕ)
  | appendProbe (k : ℕ) (labels : List ℕ)
deriving DecidableEq, Repr

/-- `rename` within a directory: nothing happens if there is no such file, an existing target is replaced. -/
def move {α : Type} (f : ℕ → Option α) (a b : ℕ) : ℕ → Option α :=
  match f a with
  | none => f
  | some x => Function.update (Function.update f a none) b (some x)

/-- The effect of an operation: `ogzstream::open` (truncates), `close`, `open` with `std::ios_base::app`, `std::rename`, `std::remove`. -/
def Op.run (d : Disk) : Op → Disk
  | .openTmp k => { d with tmpState := Function.update d.tmpState k (some .broken) }
  | .writeTmp k c => { d with tmpState := Function.update d.tmpState k (some c) }
  | .tmpToState k =>
    match d.tmpState k with
    | none => d
    | some c => { d with tmpState := Function.update d.tmpState k none, state := Function.update d.state k (some c) }
  | .openState k => { d with state := Function.update d.state k (some .broken) }
  | .writeState k c => { d with state := Function.update d.state k (some c) }
  | .moveState a b => { d with state := move d.state a b }
  | .moveProbe a b => { d with probe := move d.probe a b }
  | .probeToTmp a b =>
    match d.probe a with
    | none => d
    | some l => { d with probe := Function.update d.probe a none, tmpProbe := Function.update d.tmpProbe b (some l) }
  | .tmpToProbe k =>
    match d.tmpProbe k with
    | none => d
    | some l => { d with tmpProbe := Function.update d.tmpProbe k none, probe := Function.update d.probe k (some l) }
  | .createProbe k => { d with probe := Function.update d.probe k (some []) }
  | .removeProbe k => { d with probe := Function.update d.probe k none }
  | .appendProbe k l => { d with probe := Function.update d.probe k (some ((d.probe k).getD [] ++ l)) }

/-- Carrying out operations one after the other. -/
def runOps (d : Disk) (os : List Op) : Disk := os.foldl Op.run d

/-- `save_state` in prime field `k` (source/RatReconst.cpp 2537-2540, 2709-2722). -/
def saveOps (k : ℕ) (c : Content) : List Op :=
  [.openTmp k, .writeTmp k c] ++ (if k > 0 then [.moveState (k - 1) k] else []) ++ [.tmpToState k]

/-- A function whose first probe in prime field `k` is zero: `save_zero_state` (source/RatReconst.cpp 2519-2527) for `k = 0`,
`save_zero_consecutive_prime` (2529-2535) otherwise. -/
def zeroOps (k : ℕ) : List Op :=
  if k = 0 then [.openState 0, .writeState 0 .zero] else [.moveState (k - 1) k]

/-- The file of the probes after prime field `k`: the old one is moved away and an empty one is put in its place (source/RatReconst.cpp 160-167,
1740-1748). -/
def newProbeOps (k : ℕ) : List Op :=
  [.probeToTmp k (k + 1), .createProbe (k + 1), .probeToTmp (k + 1) (k + 1), .tmpToProbe (k + 1)]

/-- What the main loop does for a function when it leaves prime field `P` (source/include/firefly/Reconstructor.hpp 2411-2422). -/
def changeOps (P : ℕ) : List Op :=
  [.moveProbe P (P + 1)] ++ (if P > 0 then [.moveState (P - 1) P] else [])

/-- What `run_until_done` does for a function at its end (source/include/firefly/Reconstructor.hpp 2856-2870). -/
def stopOps (P : ℕ) : List Op :=
  [.removeProbe P, .createProbe (P + 1)] ++ (if P > 0 then [.moveState (P - 1) P] else [])

/-- A `RatReconst` object: its prime number, the prime fields that were combined, `zero_counter`, `done`; `saved` is the content of the
last state file that was written or loaded, `prev` the one before. -/
structure Obj where
  prime : ℕ
  fields : List ℕ
  zeroCounter : ℕ
  done : Bool
  saved : Content
  prev : Content
deriving DecidableEq, Repr

/-- `start_from_saved_file` (source/RatReconst.cpp 2724-3215) for the state file with the number `k`: `none` if the file is rejected
(C39: `C39_initial`, `C39_zero`, `C39_round_trip`, `C39_incomplete`). -/
def loadObj (k : ℕ) : Content → Option Obj
  | .initial => some ⟨0, [], 0, false, .initial, .initial⟩
  | .zero => some ⟨k + 1, [], if k + 1 > 2 then 0 else k + 1, decide (k + 1 > 2), .zero, .zero⟩
  | .state f d => some ⟨k + 1, f, 0, d, .state f d, .state f d⟩
  | .broken => none

/-- A run: `up` (the process exists), `P` the prime field of the main loop, the objects, the operations on the files of each function
that its object is carrying out, and those of the main loop; `closing`: the main loop has ended; `change`: a resumed run that begins with a new
prime field. `zeros` (not part of the program) records the prime fields in which the first probe of a function was zero. -/
structure Sys (N : ℕ) where
  up : Bool
  P : ℕ
  disk : Fin N → Disk
  obj : Fin N → Obj
  todo : Fin N → List Op
  main : List (Fin N × Op)
  closing : Bool
  change : Bool
  zeros : Fin N → List ℕ

/-- The state after `set_tag_name` of all objects (source/RatReconst.cpp 2482-2517). -/
def start (N : ℕ) : Sys N where
  up := true
  P := 0
  disk := fun _ => ⟨Function.update (fun _ => none) 0 (some .initial), fun _ => none, Function.update (fun _ => none) 0 (some []), fun _ => none⟩
  obj := fun _ => ⟨0, [], 0, false, .initial, .initial⟩
  todo := fun _ => []
  main := []
  closing := false
  change := false
  zeros := fun _ => []

/-- The operations `ops` for all functions, one function after the other. -/
def forAll (N : ℕ) (ops : List Op) : List (Fin N × Op) := (List.finRange N).flatMap (fun i => ops.map (fun o => (i, o)))

/-- A change of the object of function `i`, after which it carries out `ops`. -/
def Sys.act {N : ℕ} (s : Sys N) (i : Fin N) (o : Obj) (ops : List Op) : Sys N :=
  { s with obj := Function.update s.obj i o, todo := Function.update s.todo i ops }

/-- Function `i` can be processed: the main loop is idle, nothing is pending, the object works in the current field. -/
structure Sys.Active {N : ℕ} (s : Sys N) (i : Fin N) : Prop where
  up : s.up = true
  open_ : s.closing = false
  change : s.change = false
  main : s.main = []
  todo : s.todo i = []
  unfinished : (s.obj i).done = false
  prime : (s.obj i).prime = s.P

/-- What `resume_from_saved_state` finds for function `i`: one state file, with the number `k`, and one file of
probes, with the number `j` and the content `l`, and the object that is loaded. -/
structure Found (d : Disk) (k : ℕ) (o : Obj) (j : ℕ) (l : List ℕ) : Prop where
  state : ∃ c, d.state k = some c ∧ loadObj k c = some o
  state_unique : ∀ k', d.state k' ≠ none → k' = k
  probe : d.probe j = some l
  probe_unique : ∀ j', d.probe j' ≠ none → j' = j

/-- The steps. -/
inductive Step {N : ℕ} : Sys N → Sys N → Prop
  /-- the next operation of object `i` -/
  | op (s : Sys N) (i : Fin N) (o : Op) (os : List Op) (up : s.up = true) (h : s.todo i = o :: os) :
      Step s { s with disk := Function.update s.disk i (o.run (s.disk i)), todo := Function.update s.todo i os }
  /-- the next operation of the main loop -/
  | mainOp (s : Sys N) (i : Fin N) (o : Op) (os : List (Fin N × Op)) (up : s.up = true) (h : s.main = (i, o) :: os) :
      Step s { s with disk := Function.update s.disk i (o.run (s.disk i)), main := os }
  /-- the image of the function in the current field is combined with the previous ones (RatReconst.cpp 1380-1765) -/
  | field (s : Sys N) (i : Fin N) (h : s.Active i) :
      Step s (s.act i { s.obj i with prime := s.P + 1, fields := (s.obj i).fields ++ [s.P], saved := .state ((s.obj i).fields ++ [s.P]) false, prev := (s.obj i).saved }
        (saveOps s.P (.state ((s.obj i).fields ++ [s.P]) false) ++ newProbeOps s.P))
  /-- the first probe is zero (RatReconst.cpp 145-180) -/
  | zero (s : Sys N) (i : Fin N) (h : s.Active i) :
      Step s { s.act i { s.obj i with
          prime := s.P + 1
          zeroCounter := (s.obj i).zeroCounter + 1
          done := decide ((s.obj i).zeroCounter + 1 = 3 ∧ s.P + 1 = 3)
          saved := if s.P = 0 then .zero else (s.obj i).saved
          prev := (s.obj i).saved } (zeroOps s.P ++ newProbeOps s.P) with
        zeros := Function.update s.zeros i (s.zeros i ++ [s.P]) }
  /-- the current field is left out because a coefficient vanishes (`div_by_zero`, RatReconst.cpp 1711-1724), the state is saved -/
  | skipSave (s : Sys N) (i : Fin N) (h : s.Active i) :
      Step s (s.act i { s.obj i with prime := s.P + 1, saved := .state (s.obj i).fields false, prev := (s.obj i).saved }
        (saveOps s.P (.state (s.obj i).fields false) ++ newProbeOps s.P))
  /-- the same, the state is not saved (`prime_number + 1 < interpolations` does not hold; it does in field 0) -/
  | skip (s : Sys N) (i : Fin N) (h : s.Active i) (h0 : s.P ≠ 0) :
      Step s (s.act i { s.obj i with prime := s.P + 1, prev := (s.obj i).saved } (newProbeOps s.P))
  /-- the guess passes the test (`check_if_done`, RatReconst.cpp 3338-3375) -/
  | finish (s : Sys N) (i : Fin N) (h : s.Active i) :
      Step s (s.act i { s.obj i with done := true, saved := .state (s.obj i).fields true, prev := (s.obj i).saved }
        (saveOps s.P (.state (s.obj i).fields true)))
  /-- `write_food_to_file`: probes of the current field are appended (RatReconst.cpp 3674-3701) -/
  | store (s : Sys N) (i : Fin N) (h : s.Active i) (m : ℕ) :
      Step s { s with todo := Function.update s.todo i [.appendProbe (s.obj i).prime (List.replicate m s.P)] }
  /-- all functions are done or wait for a new field: the main loop leaves field `P` -/
  | next (s : Sys N) (up : s.up = true) (open_ : s.closing = false) (main : s.main = []) (todo : ∀ i, s.todo i = [])
      (h : ∀ i, (s.obj i).done = true ∨ s.P < (s.obj i).prime) :
      Step s { s with P := s.P + 1, main := forAll N (changeOps s.P), change := false }
  /-- the same if the number of prime fields is limited (`reconstruct(prime_counter)`) and reached -/
  | nextStop (s : Sys N) (up : s.up = true) (open_ : s.closing = false) (main : s.main = []) (todo : ∀ i, s.todo i = [])
      (h : ∀ i, (s.obj i).done = true ∨ s.P < (s.obj i).prime) :
      Step s { s with P := s.P + 1, main := forAll N (changeOps s.P) ++ forAll N (stopOps (s.P + 1)), change := false, closing := true }
  /-- all functions are done -/
  | stop (s : Sys N) (up : s.up = true) (open_ : s.closing = false) (change : s.change = false) (main : s.main = []) (todo : ∀ i, s.todo i = [])
      (h : ∀ i, (s.obj i).done = true) :
      Step s { s with main := forAll N (stopOps s.P), closing := true }
  /-- the process ends: a crash at any time, or its regular end -/
  | crash (s : Sys N) : Step s { s with up := false, todo := fun _ => [], main := [], closing := false, change := false }
  /-- `resume_from_saved_state` (Reconstructor.hpp 512-860) and the beginning of `run_until_done` (2323-2380): the field is the least number of a state file; unless
  a function is still in its initial state, the run begins with a new prime field. -/
  | resume (s : Sys N) (down : s.up = false) (num : Fin N → ℕ) (obj : Fin N → Obj) (pnum : Fin N → ℕ) (labels : Fin N → List ℕ)
      (found : ∀ i, Found (s.disk i) (num i) (obj i) (pnum i) (labels i)) (P : ℕ) (min_le : ∀ i, P ≤ num i) (min_mem : ∃ i, num i = P) :
      Step s { s with up := true, P := P, obj := obj, change := decide (∀ i, (obj i).saved ≠ .initial) }

/-- Any number of steps. -/
inductive Reach {N : ℕ} : Sys N → Prop
  | start : Reach (start N)
  | step {s t : Sys N} : Reach s → Step s t → Reach t

end FireFly.Crash
