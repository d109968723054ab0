import Mathlib.Data.Nat.Notation
import Verif.Model.PrimeTable
/-!
# `reconstruct` (source/include/firefly/Reconstructor.hpp 885-1093): options, scans, and the loop over the prime fields

The driver decides which scans are done, starts the first prime field and goes from field to field until all functions are done or the limit of prime fields is reached. What happens inside a prime field (C62, C65, C66) and inside the scans (C48, C52)
is abstract here.

Simplifications: no MPI, no resumed run, no precomputed probes; the log, the messages and the files are left out. `aborted` and `resumed` are never set.
-/
namespace FireFly.Driver

/-- The constructors (source/include/firefly/Reconstructor.hpp 379-390, 413-432): the program ends with an error without variables and for bunch sizes that are not listed. -/
def accepts (n bunch : ℕ) : Bool :=
  !(n == 0) && !(bunch != 1 && bunch != 2 && bunch != 4 && bunch != 8 && bunch != 16 && bunch != 32 && bunch != 64 && bunch != 128)

/-- The options (source/include/firefly/Reconstructor.hpp 195-211) -/
structure Opts where
  n : ℕ
  safe : Bool := false
  scan : Bool := false
  factorScan : Bool := false
  stopAfter : Bool := false
deriving DecidableEq

/-- The member functions that set options -/
inductive Call where
  | enableShiftScan | enableFactorScan | stopAfterFactorScan | setSafe
deriving DecidableEq

/-- `enable_shift_scan`, `enable_factor_scan` (with and without FLINT), `stop_after_factor_scan`, `set_safe_interpolation` (source/include/firefly/Reconstructor.hpp 472-496, 880-883) -/
def Opts.call (flint : Bool) (o : Opts) : Call → Opts
  | .enableShiftScan => if o.n = 1 then o else { o with scan := true }
  | .enableFactorScan => { o with factorScan := flint }
  | .stopAfterFactorScan => { o with stopAfter := true }
  | .setSafe => { o with safe := true }

/-- `reconstruct` disables the scans in safe mode (source/include/firefly/Reconstructor.hpp 931-945). -/
def Opts.settle (o : Opts) : Opts := if o.safe then { o with factorScan := false, scan := false } else o

/-- What `reconstruct` does: the factor scan, the scan for a shift, `start_first_runs` (without a scan for a shift), the loop `run_until_done` -/
inductive Phase where
  | factors | shift | start | run
deriving DecidableEq

/-- The parts of `reconstruct` (source/include/firefly/Reconstructor.hpp 947-1020) that are run for a black box with `m` functions, and the flag `done` before `run_until_done`, or at the `return` after the factor scan (961) -/
def Opts.phases (o : Opts) (m : ℕ) : List Phase × Bool :=
  let o := o.settle
  let scanned := o.factorScan
  let scan := if o.factorScan ∧ m = 0 then false else o.scan
  let done0 := decide (o.factorScan = true ∧ m = 0)
  let l0 : List Phase := if o.factorScan then [.factors] else []
  if o.factorScan = true ∧ o.stopAfter = true then (l0, done0)
  else if scan then (if m = 0 then (l0 ++ [.shift], true) else (l0 ++ [.shift, .run], done0))
  else
    let l1 : List Phase := if scanned = true ∧ m = 0 then l0 else l0 ++ [.start]
    if m = 0 then (l1, true) else (l1 ++ [.run], done0)

/-- What the fields do to the objects: `field p x` is the object after the whole prime field `p`, and whether it is done; `extra p x` is the object after the one bunch of probes that is fed in the field behind the limit. -/
structure Env (S : Type) where
  field : ℕ → S → S × Bool
  extra : ℕ → S → S × Bool

/-- The state of the loop: the objects (with their flag done), `prime_it`, the prime fields in which the black box has been evaluated, and `done` -/
structure St (S : Type) where
  recs : List (Bool × S)
  primeIt : ℕ
  used : List ℕ
  done : Bool

/-- The unfinished objects are changed by `f` (source/include/firefly/Reconstructor.hpp 3057-3068: only objects that are not done are fed). -/
def update {S : Type} (f : S → S × Bool) (recs : List (Bool × S)) : List (Bool × S) :=
  recs.map (fun r => if r.1 then r else ((f r.2).2, (f r.2).1))

/-- The first prime field: `start_first_runs` or the scan has set up the objects; the whole field is run. -/
def St.first {S : Type} (env : Env S) (objs : List S) : St S :=
  { recs := update (env.field 0) (objs.map (fun x => (false, x))), primeIt := 0, used := [0], done := false }

/-- The loop of `run_until_done` from the end of a prime field on (source/include/firefly/Reconstructor.hpp 2382-2483, 2709-2745): all done: end; otherwise the next field. If `prime_it` reaches the limit, `done` is set, but the body of the loop is still run: the next prime is set,
probes are queued, and one bunch of probes is computed and fed before the condition of the loop is tested. `none`: the table of primes is read behind its end. -/
def loop {S : Type} (env : Env S) (limit : ℕ) (s : St S) : Option (St S) :=
  if s.recs.all Prod.fst then some { s with done := true }
  else if primes63.length ≤ s.primeIt + 1 then none
  else if limit ≤ s.primeIt + 1 then
    some { recs := update (env.extra (s.primeIt + 1)) s.recs, primeIt := s.primeIt + 1, used := s.used ++ [s.primeIt + 1], done := true }
  else loop env limit { recs := update (env.field (s.primeIt + 1)) s.recs, primeIt := s.primeIt + 1, used := s.used ++ [s.primeIt + 1], done := false }
termination_by limit - s.primeIt

/-- The call `reconstruct(limit)` of a new object, from the first prime field on -/
def reconstruct {S : Type} (env : Env S) (limit : ℕ) (objs : List S) : Option (St S) := loop env limit (St.first env objs)

end FireFly.Driver
