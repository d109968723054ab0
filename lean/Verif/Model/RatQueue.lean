import Mathlib.Data.List.Basic
/-!
# The protocol between threads that use one `RatReconst` (source/RatReconst.cpp 131-335)

Any number of threads call `feed` and `interpolate()` of one object. `feed` is one critical section of `mutex_status`; `interpolate()` holds
the mutex except while a probe is processed. The processing itself is abstracted to its effect on the members the protocol uses: nothing,
the request of a new prime field (`combine_primes`, source/RatReconst.cpp 1738-1795), or `done` (`check_if_done` 3340-3383, 415).
-/
namespace FireFly.RatQueue

/-- A thread inside the loop of `interpolate()` (309-328). -/
inductive Pc (α : Type) where
  /-- the mutex is released, the probe is being processed (313-326) -/
  | working (x : α)
  /-- the effect of the processing has taken place; next, the mutex is taken (327) -/
  | worked

/-- The members of the object the protocol uses (source/include/firefly/RatReconst.hpp 440-455, BaseReconst.hpp 100-120), the number of
calls of `interpolate()` that have been scheduled but not begun, and the threads inside the loop. The last fields record what happened: `accepted` all probes put into
the queue, `popped` all probes taken from the queue for processing, each with the number of the prime field at
the time; `returned` the values returned by `interpolate()`. -/
structure Obj (α : Type) where
  firstFeed : Bool := true
  startInterp : Bool := true
  isInterp : Bool := false
  fedZero : Bool := false
  done : Bool := false
  prime : ℕ := 0
  zeroCounter : ℕ := 0
  queue : List α := []
  scheduled : ℕ := 0
  inside : List (Pc α) := []
  accepted : List (ℕ × α) := []
  popped : List (ℕ × α) := []
  returned : List (Bool × Bool × ℕ) := []

variable {α : Type}

/-- Putting the probes into the queue (193-196, 276-281). -/
def Obj.enqueue (s : Obj α) (xs : List α) : Obj α :=
  { s with queue := s.queue ++ xs, accepted := s.accepted ++ xs.map (fun x => (s.prime, x)) }

/-- The body of `feed` for an accepted bunch before the test of `start_interpolation` (139-196, 220-281). `scan`: the object is used for
the scan of shifts. A zero as first value of a prime field skips the field; the values of the bunch are dropped. The exit for more than 300
primes is not modelled (the process ends). -/
def Obj.feedBody (zero : α → Bool) (scan : Bool) (s : Obj α) (xs : List α) : Obj α :=
  let s := if s.firstFeed then { s with startInterp := true } else s
  if s.firstFeed && !scan then
    if (xs.head?.map zero).getD false then
      { s with fedZero := true, zeroCounter := s.zeroCounter + 1, prime := s.prime + 1
               done := s.done || (decide (s.zeroCounter + 1 = 3) && decide (s.prime + 1 = 3)) }
    else ({ s with firstFeed := false }).enqueue xs
  else s.enqueue xs

/-- `feed` (131-210 for one probe, 212-296 for a bunch): the new state; the second component is the returned value
`interpolate`, in which case the caller schedules a call of `interpolate()`. -/
def Obj.feed (zero : α → Bool) (scan : Bool) (s : Obj α) (xs : List α) (fedPrime : ℕ) : Obj α × Bool :=
  if !s.done && decide (fedPrime = s.prime) then
    let s := s.feedBody zero scan xs
    if s.startInterp then ({ s with startInterp := false }, true) else (s, false)
  else (s, false)

/-- The test at the head of the loop (309-312), with the mutex held; `rest` are the other threads inside. At the end (330-334) the function returns. -/
def Obj.loopHead (s : Obj α) (rest : List (Pc α)) : Obj α :=
  match s.queue with
  | [] => { s with isInterp := false, startInterp := true, inside := rest, returned := s.returned ++ [(true, s.done, s.prime)] }
  | x :: xs => { s with queue := xs, inside := .working x :: rest, popped := s.popped ++ [(s.prime, x)] }

/-- The begin of `interpolate()` (299-308). -/
def Obj.enter (s : Obj α) : Obj α :=
  if s.fedZero then { s with fedZero := false, returned := s.returned ++ [(true, s.done, s.prime)] }
  else if s.isInterp || s.queue.isEmpty then { s with returned := s.returned ++ [(false, s.done, s.prime)] }
  else ({ s with isInterp := true }).loopHead s.inside

/-- The effect of processing a probe on the members of the protocol: nothing. -/
inductive Effect where
  | nothing
  /-- `combine_primes` (1738-1795): next prime, the queue is emptied, `first_feed` -/
  | newPrime
  | done

/-- the effect applied; for a finished object processing has no effect (340) -/
def Obj.apply (s : Obj α) : Effect → Obj α
  | .nothing => s
  | .newPrime => if s.done then s else { s with prime := s.prime + 1, queue := [], firstFeed := true }
  | .done => { s with done := true }

/-- The steps; `spawn` is a call of `interpolate()` that does not follow from a value returned by `feed`
(e.g. `Reconstructor::attempt_to_continue`, source/include/firefly/Reconstructor.hpp 3509); `drop` is a scheduled call that is never made
because the thread pool is emptied (`ThreadPool::kill_all`) or because the result has been fetched (Reconstructor.hpp 3117). -/
inductive Event (α : Type) where
  | feed (xs : List α) (fedPrime : ℕ)
  | spawn
  | drop
  | call
  | effect (e : Effect)
  | loop

/-- The interleaving semantics. Bunches are not empty (`feed` reads `num[0]`). Scheduled calls are dropped only if the object is done or nothing is waiting
to be processed (`Scheduler` shows that `Reconstructor` keeps to this). -/
inductive Step (zero : α → Bool) (scan : Bool) : Obj α → Event α → Obj α → Prop
  | feed (s : Obj α) (xs : List α) (p : ℕ) (hx : xs ≠ []) :
      Step zero scan s (.feed xs p) { (s.feed zero scan xs p).1 with scheduled := s.scheduled + if (s.feed zero scan xs p).2 then 1 else 0 }
  | spawn (s : Obj α) : Step zero scan s .spawn { s with scheduled := s.scheduled + 1 }
  | drop (s : Obj α) (h : 0 < s.scheduled) (hd : s.done = true ∨ (s.queue = [] ∧ s.fedZero = false)) : Step zero scan s .drop { s with scheduled := s.scheduled - 1 }
  | call (s : Obj α) (h : 0 < s.scheduled) : Step zero scan s .call (Obj.enter { s with scheduled := s.scheduled - 1 })
  | effect (s : Obj α) (x : α) (l r : List (Pc α)) (e : Effect) (h : s.inside = l ++ .working x :: r) :
      Step zero scan s (.effect e) (Obj.apply { s with inside := l ++ .worked :: r } e)
  | loop (s : Obj α) (l r : List (Pc α)) (h : s.inside = l ++ .worked :: r) : Step zero scan s .loop (s.loopHead (l ++ r))

/-- The reachable states of an object. -/
inductive Reach (zero : α → Bool) (scan : Bool) : Obj α → Prop
  | init : Reach zero scan {}
  | step {s e t} : Reach zero scan s → Step zero scan s e t → Reach zero scan t

end FireFly.RatQueue
