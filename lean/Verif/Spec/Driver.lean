import Verif.Model.Driver
/-! # Specification: the prime fields of a run -/
set_option linter.all false
namespace FireFly.Driver
variable {S : Type}

/-- The object after the prime fields `0, …, k - 1`, as long as it is not done: `none` means that it has been done before. -/
def after (env : Env S) (x : S) : ℕ → Option S
  | 0 => some x
  | k + 1 => (after env x k).bind (fun y => if (env.field k y).2 then none else some (env.field k y).1)

/-- The function is done with the first `k` prime fields. -/
def DoneWithin (env : Env S) (x : S) (k : ℕ) : Prop := after env x k = none

/-- What the user has asked for: the scans that are enabled; the order of the calls does not matter. -/
def wants (cs : List Call) (c : Call) : Prop := c ∈ cs

/-- The parts of a run that the documentation promises: the factor scan first, if it is available; then the scan for a shift, if there is more than one variable; safe mode disables both; after the factor scan the run stops if this is wanted. -/
structure Promised (n : ℕ) (flint : Bool) (cs : List Call) (l : List Phase) : Prop where
  factors : Phase.factors ∈ l ↔ Call.enableFactorScan ∈ cs ∧ flint = true ∧ Call.setSafe ∉ cs
  shift : Phase.shift ∈ l ↔ Call.enableShiftScan ∈ cs ∧ n ≠ 1 ∧ Call.setSafe ∉ cs ∧ ¬ (Phase.factors ∈ l ∧ Call.stopAfterFactorScan ∈ cs)
  run : Phase.run ∈ l ↔ ¬ (Phase.factors ∈ l ∧ Call.stopAfterFactorScan ∈ cs)
  start : Phase.start ∈ l ↔ Phase.run ∈ l ∧ Phase.shift ∉ l
  order : l.Pairwise (fun a b => match a, b with | .run, _ => False | .shift, .factors => False | .start, .factors => False | _, _ => True)
  once : l.Nodup

end FireFly.Driver
