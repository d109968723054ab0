import Verif.Model.Recover
import Verif.Spec.FirstFeed
/-! # Specification: the recovery when nothing is left to feed -/
set_option linter.all false
namespace FireFly.Recover
variable {S : Type}

/-- The objects report their state consistently: `interpolate` returns what `get_done_and_prime` says afterwards, the number of the prime field does not decrease, and taking the list of requests does not change it. -/
structure Honest (api : Api S) : Prop where
  ret : ∀ x y i d p, api.interpolate x = some (y, i, d, p) → api.donePrime y = (d, p) ∧ (api.donePrime x).2 ≤ p
  taken : ∀ x, api.donePrime (api.taken x) = api.donePrime x

/-- The function has its result. -/
def Finished (r : Status × S) : Prop := r.1 = .done

/-- The function waits for the next prime field. -/
def Waits (c : Cfg) (api : Api S) (r : Status × S) : Prop := r.1 = .reconstructing ∧ (api.donePrime r.2).1 = false ∧ (api.donePrime r.2).2 ≠ c.primeIt

/-- The function needs probes in this prime field. -/
def Open (c : Cfg) (api : Api S) (r : Status × S) : Prop := r.1 = .reconstructing ∧ api.donePrime r.2 = (false, c.primeIt)

instance (r : Status × S) : Decidable (Finished r) := by unfold Finished; infer_instance
instance (c : Cfg) (api : Api S) (r : Status × S) : Decidable (Waits c api r) := by unfold Waits; infer_instance

/-- The function is found open and still is after it has used its stored probes: `y` is its object then. -/
def StaysOpen (c : Cfg) (api : Api S) (r : Status × S) (y : S) : Prop := Open c api r ∧ ∃ i p, api.interpolate r.2 = some (y, i, false, p) ∧ p ≤ c.primeIt

/-- What the call notes for the next prime field: the function was open, and with its stored probes it is done with this field; `y` is its object then. -/
def Moves (c : Cfg) (api : Api S) (r : Status × S) (y : S) : Prop := Open c api r ∧ ∃ i p, api.interpolate r.2 = some (y, i, false, p) ∧ c.primeIt < p

/-- An object asks for probes with the order vector `o`: at least `lo`, not more than `hi`. In a further prime field (no safe mode) these are the entries of its list; otherwise `thr_n` probes `(1, …, 1)` before the degrees are known, or the entries of
`get_zi_orders`, with the size of the system. -/
inductive Wants (c : Cfg) (api : Api S) (y : S) : List ℕ → ℕ → ℕ → Prop
  | needed (e k : ℕ) : c.safe = false → c.primeIt ≠ 0 → (e, k) ∈ api.needed y → Wants c api y (c.same e) k k
  | ones (l : List (List ℕ × ℕ)) (size j : ℕ) (o : List ℕ) (rest : List (List ℕ × ℕ)) : ¬ (c.safe = false ∧ c.primeIt ≠ 0) → api.orders y = some (l, size) → l = (o, j) :: rest →
      (c.factorScan = true ∨ l = [(List.replicate (c.n - 1) 1, j)]) → Wants c api y o c.thr c.thr
  | entry (l : List (List ℕ × ℕ)) (size k : ℕ) (o : List ℕ) : ¬ (c.safe = false ∧ c.primeIt ≠ 0) → api.orders y = some (l, size) → c.factorScan = false →
      (¬ ∃ j, l = [(List.replicate (c.n - 1) 1, j)]) → (o, k) ∈ l → Wants c api y o (min k size) (max k size)

/-- The lists of `get_zi_orders`: in the factor scan there is only the empty order vector; otherwise `(1, …, 1)` occurs only alone (this is `C66_request`). -/
def Plain (c : Cfg) (api : Api S) (y : S) : Prop := ∀ l size, api.orders y = some (l, size) →
  (c.factorScan = true → ∀ el ∈ l, el.1 = []) ∧ (c.factorScan = false → (¬ ∃ j, l = [(List.replicate (c.n - 1) 1, j)]) → ∀ el ∈ l, el.1 ≠ List.replicate (c.n - 1) 1)

/-! ### Rounds of recovery in the first prime field -/

/-- The objects of the first prime field, for `attempt_to_continue`: all stored probes have been used. -/
def firstApi {F : Type} {m : ℕ} (objs : Fin m → First.Obj F) : Api (Σ i, (objs i).S) where
  donePrime := fun x => (false, if (objs x.1).done x.2 then 1 else 0)
  interpolate := fun x => some (x, false, false, if (objs x.1).done x.2 then 1 else 0)
  numEqn := fun _ => 0
  needed := fun _ => []
  taken := fun x => x
  orders := fun x => (objs x.1).orders x.2

/-- The first prime field of a run with `n` variables, `thr` threads and `m` functions -/
def firstCfg (n thr m : ℕ) : Cfg := { n := n, thr := thr, items := m, primeIt := 0, safe := false, factorScan := false }

/-- The list `reconst` -/
def recsOf {F : Type} {m : ℕ} {objs : Fin m → First.Obj F} (st : ∀ i, (objs i).S) : List (Status × Σ i, (objs i).S) := (List.finRange m).map (fun i => (.reconstructing, ⟨i, st i⟩))

/-- One round: nothing was left to feed when the objects had got `got`; `attempt_to_continue` has queued new probes, without declaring the run complete or promoting it; then the objects have got at least as many new probes for each order vector as it has queued. They may have got
more, in any order. -/
def Round {F : Type} {m : ℕ} (objs : Fin m → First.Obj F) (n thr : ℕ) (good : F × List ℕ → Prop) (got : Fin m → List (F × List ℕ)) (st : ∀ i, (objs i).S) (got' : Fin m → List (F × List ℕ)) (st' : ∀ i, (objs i).S) : Prop :=
  ∃ (s s' : St (Σ i, (objs i).S)) (fresh : List (List ℕ)), s.recs = recsOf st ∧ (firstCfg n thr m).attempt (firstApi objs) s = .ok s' ∧ s'.done = false ∧ s'.newPrime = false ∧ s'.queued = s.queued ++ fresh ∧
    ∀ i, ∃ l, got' i = got i ++ l ∧ (got i ++ l).Nodup ∧ (∀ q ∈ l, good q) ∧ l.foldlM (objs i).feed (st i) = some (st' i) ∧ ∀ o, fresh.count o ≤ First.cnt l o

/-- The objects are in the states after the probes `got`, which are different and allowed. -/
def After {F : Type} {m : ℕ} (objs : Fin m → First.Obj F) (good : F × List ℕ → Prop) (got : Fin m → List (F × List ℕ)) (st : ∀ i, (objs i).S) : Prop :=
  ∀ i, (got i).Nodup ∧ (∀ q ∈ got i, good q) ∧ (got i).foldlM (objs i).feed (objs i).init = some (st i)

end FireFly.Recover
