import Verif.Model.FirstFeed
/-!
# `attempt_to_continue` (source/include/firefly/Reconstructor.hpp 3479-3717)

If no probe is queued, no job is running, and the counters say that neither all functions are done nor the others wait for the next prime field, `run_until_done` calls `attempt_to_continue` (2786-2804). It counts the functions again, forgets
which probes have been started, and queues what the unfinished functions ask for.

Simplifications: no MPI (`to_start` is `thr_n`), the messages, the log and `write_food_to_file` are left out. The counters are natural numbers.
-/
namespace FireFly.Recover

/-- `RatReconst_status` (source/include/firefly/Reconstructor.hpp 169): `delete` means that the result has been fetched with `get_early_results` (1190). -/
inductive Status where
  | reconstructing | done | delete
deriving DecidableEq

/-- What `attempt_to_continue` uses of a `RatReconst` object: `get_done_and_prime` (source/BaseReconst.cpp 174-177), `interpolate` with its return value (interpolated, done, prime), `get_num_eqn`,
`get_needed_feed_vec` (the list, which is moved, 3642-3647) and `get_zi_orders`. `none`: undefined behaviour -/
structure Api (S : Type) where
  donePrime : S → Bool × ℕ
  interpolate : S → Option (S × Bool × Bool × ℕ)
  numEqn : S → ℕ
  needed : S → List (ℕ × ℕ)
  taken : S → S
  orders : S → Option (List (List ℕ × ℕ) × ℕ)

/-- What does not change: the number of variables, `thr_n`, the number of functions, the number of the prime field, `safe_mode`, `factor_scan` -/
structure Cfg where
  n : ℕ
  thr : ℕ
  items : ℕ
  primeIt : ℕ
  safe : Bool
  factorScan : Bool

/-- `zi_order` with equal entries (source/include/firefly/Reconstructor.hpp 3538-3543, 3692-3696): `std::vector<uint32_t>(0, …)` is empty in the factor scan. -/
def Cfg.same (c : Cfg) (k : ℕ) : List ℕ := if c.factorScan then [] else List.replicate (c.n - 1) k

/-- The members of the Reconstructor that are read or written: `reconst`, the counters and flags, `started_probes`, and the order vectors of all probes that have been queued -/
structure St (S : Type) where
  recs : List (Status × S)
  itemsDone : ℕ
  itemsNew : ℕ
  oneDone : Bool
  oneNew : Bool
  done : Bool
  newPrime : Bool
  nextProbes : ℕ
  balance : ℕ
  started : FFMap ℕ
  queued : List (List ℕ)

/-- How a call ends otherwise: undefined behaviour, `throw std::runtime_error("Cannot continue")` (3691), `std::out_of_range` of `started_probes_copy.at` (3706) -/
inductive Fail where
  | undefined | cannot | range

/-- The local variables of the loop: `items_done_tmp`, `items_done_tmp2`, `items_new_prime_tmp`, `items_new_prime_tmp2`, and the members that are changed in the loop -/
structure Acc (S : Type) where
  recs : List (Status × S) := []
  done1 : ℕ := 0
  done2 : ℕ := 0
  new1 : ℕ := 0
  new2 : ℕ := 0
  oneDone : Bool
  oneNew : Bool
  nextProbes : ℕ
  balance : ℕ
  req : Needed.Req := {}

/-- One entry of `get_needed_feed_vec` (source/include/firefly/Reconstructor.hpp 3531-3586) -/
def Cfg.askNeeded (c : Cfg) (s : Needed.Req) (el : ℕ × ℕ) : Needed.Req :=
  if el.2 = 0 then s
  else match s.started.find? (c.same el.1) with
    | some k => if k < el.2 then Needed.Req.queue { s with started := s.started.set (c.same el.1) el.2 } (c.same el.1) (el.2 - k) else s
    | none => Needed.Req.queue { s with started := s.started.emplace (c.same el.1) el.2 } (c.same el.1) el.2

/-- The choice of the branch for `(1, …, 1)` (source/include/firefly/Reconstructor.hpp 3595), here `prime_it == 0` or `safe_mode`; in the factor scan the list must not be empty (`front`). -/
def Cfg.isOnes (c : Cfg) (l : List (List ℕ × ℕ)) : Bool := c.factorScan || decide (l.length = 1 ∧ l.head?.map Prod.fst = some (List.replicate (c.n - 1) 1))

/-- The branch for `(1, …, 1)` (source/include/firefly/Reconstructor.hpp 3596-3614): `thr_n` probes, if none has been started in this call. -/
def Cfg.askOnes (c : Cfg) {S : Type} (a : Acc S) (o : List ℕ) : Acc S :=
  match a.req.started.find? o with
  | some _ => a
  | none => { a with balance := 0, req := Needed.Req.queue { a.req with started := a.req.started.set o c.thr } o c.thr }

/-- What an unfinished object in this prime field asks for (source/include/firefly/Reconstructor.hpp 3524-3650), after `interpolate`. -/
def Cfg.request (c : Cfg) {S : Type} (api : Api S) (a : Acc S) (x : S) : Except Fail (Acc S) :=
  if c.safe = false ∧ c.primeIt ≠ 0 then .ok { a with recs := a.recs ++ [(.reconstructing, api.taken x)], req := (api.needed x).foldl c.askNeeded a.req }
  else match api.orders x with
    | none => .error .undefined
    | some (l, size) =>
      if c.isOnes l then
        match l.head? with
        | none => .error .undefined
        | some el => .ok (c.askOnes { a with recs := a.recs ++ [(.reconstructing, x)] } el.1)
      else .ok { a with recs := a.recs ++ [(.reconstructing, x)], req := l.foldl (Needed.Req.askOrder size) a.req }

/-- The body of the loop over `reconst` (source/include/firefly/Reconstructor.hpp 3489-3660) -/
def Cfg.item (c : Cfg) {S : Type} (api : Api S) (a : Acc S) (r : Status × S) : Except Fail (Acc S) :=
  match r.1 with
  | .done => .ok { a with recs := a.recs ++ [r], done1 := a.done1 + 1, oneDone := true }
  | .delete => .ok { a with recs := a.recs ++ [r] }
  | .reconstructing =>
    if (api.donePrime r.2).1 then .ok { a with recs := a.recs ++ [(.done, r.2)], done2 := a.done2 + 1, oneDone := true }
    else if (api.donePrime r.2).2 ≠ c.primeIt then .ok { a with recs := a.recs ++ [r], new1 := a.new1 + 1, oneNew := true }
    else match api.interpolate r.2 with
      | none => .error .undefined
      | some (x, _, true, _) => .ok { a with recs := a.recs ++ [(.done, x)], done2 := a.done2 + 1, oneDone := true }
      | some (x, _, false, p) =>
        if c.primeIt < p then
          .ok { a with recs := a.recs ++ [(.reconstructing, x)], new2 := a.new2 + 1, oneNew := true, nextProbes := if a.nextProbes < api.numEqn x then api.numEqn x else a.nextProbes }
        else c.request api a x

/-- The counters after the loop (source/include/firefly/Reconstructor.hpp 3667-3677) -/
def recount (old tmp tmp2 : ℕ) : ℕ := if old ≠ tmp ∨ tmp2 ≠ 0 then tmp + tmp2 else old

/-- `attempt_to_continue` (source/include/firefly/Reconstructor.hpp 3479-3717) -/
def Cfg.attempt (c : Cfg) {S : Type} (api : Api S) (s : St S) : Except Fail (St S) :=
  match s.recs.foldlM (c.item api) { oneDone := s.oneDone, oneNew := s.oneNew, nextProbes := s.nextProbes, balance := s.balance } with
  | .error e => .error e
  | .ok a =>
    let s' : St S := { s with
      recs := a.recs, oneDone := a.oneDone, oneNew := a.oneNew, nextProbes := a.nextProbes, balance := a.balance, queued := s.queued ++ a.req.queued, started := a.req.started
      itemsDone := recount s.itemsDone a.done1 a.done2, itemsNew := recount s.itemsNew a.new1 a.new2 }
    if s'.itemsDone = c.items then .ok { s' with done := true }
    else if s'.itemsDone + s'.itemsNew = c.items then .ok { s' with newPrime := true }
    else if a.req.started.length = 0 then .error .cannot
    else match a.req.started.find? (c.same 1) with
      | some k =>
        if a.req.started.length = 1 then
          (if (s.started.find? (c.same 1)).isSome then .ok { s' with started := s.started.set (c.same 1) k } else .error .range)
        else .ok { s' with started := a.req.started.emplace (c.same 1) 0 }
      | none => .ok { s' with started := a.req.started.emplace (c.same 1) 0 }

/-- `reset_new_prime` (source/include/firefly/Reconstructor.hpp 3720-3747), the members of this model -/
def St.reset {S : Type} (s : St S) : St S := { s with balance := 0, started := [], newPrime := false, itemsNew := 0, oneDone := false, oneNew := false, queued := [] }

end FireFly.Recover
