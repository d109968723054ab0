import Verif.Model.RatQueue
import Mathlib.Logic.Function.Basic
import Mathlib.Data.Fintype.Basic
/-!
# The scheduling of probes (source/include/firefly/Reconstructor.hpp 2271-3476, without MPI)

`m` functions are reconstructed by a main thread (`run_until_done`) and the worker threads of a pool. Every critical section is one step; the steps of all
threads interleave in any way. The pool is a bag of queued tasks, of which any may be started next by an idle worker (the real order is a
special case); `kill_all` and `wait` are used as characterised by C30.

Abstractions: `β` are the points (`t`, `zi_order`) of the probes, `V` the values, `bb k b i` is the value of function `i` at the point `b` in
the prime field number `k`. How many probes a job requests (`get_needed_feed_vec`, `get_zi_orders`, `started_probes`, `balance_of_ones`) is left open. Files, logging, factor
scan, precomputed probes and MPI are not modelled. The feeding of the very first probe by the main thread (`start_first_runs`
2168-2240) is treated like that of all others.
-/
namespace FireFly.Scheduler
open RatQueue (Obj)

variable {m : ℕ} {β V : Type}

/-- the tasks of the pool -/
inductive Task (m : ℕ) (V : Type) where
  /-- `get_job` (2972-2978, 3326-3366) -/
  | getJob
  /-- `feed_job` (2721-2723): indices and the values of all functions -/
  | feedJob (bunch : List (ℕ × (Fin m → V)))
  /-- `interpolate_job` (3069-3071) -/
  | interpJob (i : Fin m)

/-- what a worker is doing -/
inductive Run (m : ℕ) (β V : Type) where
  /-- `get_job` before taking the mutex -/
  | getJob
  /-- `compute_probe` after taking the bunch (3380, 3439) in the prime field `k`: the black box is being evaluated -/
  | computing (k : ℕ) (bunch : List (ℕ × β))
  /-- `feed_job` before `interpolate_jobs += items` (3016-3020) -/
  | feed0 (bunch : List (ℕ × (Fin m → V)))
  /-- `feed_job` before the look-up of the indices (3029-3050) -/
  | feed1 (bunch : List (ℕ × (Fin m → V)))
  /-- `feed_job` in the loop over the functions (3060-3083): `todo` are still to be fed -/
  | feed2 (foods : List (β × (Fin m → V))) (todo : List (Fin m)) (counter : ℕ)
  /-- `interpolate_job` before the test of the status (3117) -/
  | interp0 (i : Fin m)
  /-- `interpolate_job` inside `RatReconst::interpolate()` -/
  | interpIn (i : Fin m)
  /-- `interpolate_job` with the returned tuple (3118-3120) -/
  | interpRet (i : Fin m) (r : Bool × Bool × ℕ)
  /-- `interpolate_job` while it queues probes (3133-3292); `owed` probes have been queued for which the `get_job` tasks have not
  been submitted (2972-2978) -/
  | interpQ (i : Fin m) (owed : ℕ)
  /-- `interpolate_job` before `--interpolate_jobs` (3300-3303) -/
  | interpEnd (i : Fin m)

/-- the main thread in `run_until_done` -/
inductive Main (m : ℕ) (V : Type) where
  /-- head of the loop (2367); `start_first_runs` and a new prime field leave it with queued probes -/
  | head
  /-- in `tp.kill_all()` (2388) -/
  | killing
  /-- queueing the first probes of a field (2601-2676); `owed` as above -/
  | starting (owed : ℕ) (queued : Bool)
  /-- `get_probe`: waiting for `condition_future` (2997-3005) -/
  | getProbe
  /-- `get_probe` before `probes_queued -= ...` (3007-3011) -/
  | gotProbe (bunch : List (ℕ × (Fin m → V)))
  /-- before `++feed_jobs` (2715-2719) -/
  | incFeed (bunch : List (ℕ × (Fin m → V)))
  /-- before the submission of the `feed_job` (2721-2723) -/
  | submitFeed (bunch : List (ℕ × (Fin m → V)))
  /-- before the test of the counters (2725-2735) -/
  | check
  /-- before the test of `probes_queued` (2738-2741) -/
  | test
  /-- test of the `while` loop, `feed_control` held (2747) -/
  | feedTest
  /-- `condition_feed.wait` (2748) -/
  | sleeping
  /-- woken up, `feed_control` released (2750-2757) -/
  | woken
  /-- after the loop (2763-2769) -/
  | recheck
  /-- `while (tp.wait())` (2773) -/
  | poolWait
  /-- `attempt_to_continue` (2803) -/
  | attempt (owed : ℕ)
  /-- left the loop -/
  | exit

/-- The state. `status i`: the status of function `i` is `DONE`; `counted i`: how often function `i` has been counted
in `items_new_prime` in this field (record only); `gaveUp`: `attempt_to_continue` has been left without a queued probe (record only);
`pos`: the flags `new_prime` and `done` of the main thread. -/
structure State (m : ℕ) (β V : Type) where
  primeIt : ℕ := 0
  obj : Fin m → Obj (β × V) := fun _ => {}
  status : Fin m → Bool := fun _ => false
  itemsDone : ℕ := 0
  itemsNew : ℕ := 0
  counted : Fin m → ℕ := fun _ => 0
  ind : ℕ := 0
  indexMap : List (ℕ × β) := []
  requested : List (ℕ × β) := []
  computed : List (List (ℕ × (Fin m → V))) := []
  probesQueued : ℤ := 0
  feedJobs : ℤ := 0
  interpJobs : ℤ := 0
  tasks : List (Task m V) := []
  running : List (Run m β V) := []
  main : Main m V := .starting 0 false
  newPrime : Bool := false
  done : Bool := false
  gaveUp : Bool := false

/-- the look-up `index_map[index]` (3033); a missing index gives a default value -/
def lookup [Inhabited β] (im : List (ℕ × β)) (k : ℕ) : β := ((im.find? (fun t => t.1 == k)).map Prod.snd).getD default

/-- one iteration of the first loop of `queue_probes` (2919-2967): a new index, request and counter. `front`: probes of
the first order are put in front of the queue. -/
def State.queueOne (s : State m β V) (b : β) (front : Bool) : State m β V :=
  { s with requested := if front then (s.ind, b) :: s.requested else s.requested ++ [(s.ind, b)]
           indexMap := s.indexMap ++ [(s.ind, b)], ind := s.ind + 1, probesQueued := s.probesQueued + 1 }

/-- `tp.run_task([this]() { get_job(); })` (2973-2977) -/
def State.submitGet (s : State m β V) : State m β V := { s with tasks := s.tasks ++ [.getJob] }

/-- `condition_feed.notify_one()`: the main thread is the only one that waits -/
def State.notifyFeed (s : State m β V) : State m β V := match s.main with
  | .sleeping => { s with main := .woken }
  | _ => s

/-- `reset_new_prime` (3721-3748) -/
def State.reset (s : State m β V) : State m β V :=
  { s with probesQueued := 0, indexMap := [], ind := 0, feedJobs := 0, interpJobs := 0, newPrime := false, itemsNew := 0
           counted := fun _ => 0, requested := [], computed := [] }

/-- the end of `interpolate()` for the thread that runs it: the last value of the record -/
def lastRet {α : Type} (o : Obj α) : Bool × Bool × ℕ := o.returned.getLast?.getD (false, false, 0)

/-- The test of the counters (2725-2735, 2776-2781): `exit`/`killing` via the head of the loop, otherwise `next`. -/
def State.afterCheck (s : State m β V) (next : Main m V) : State m β V :=
  if s.itemsDone = m then { s with done := true, main := .head }
  else if s.itemsDone + s.itemsNew = m then { s with newPrime := true, main := .head }
  else { s with main := next }

/-- the parameters of a run: number of workers, bound on the prime fields, the black box and the predicate "the value is zero" -/
structure Cfg (m : ℕ) (β V : Type) where
  workers : ℕ
  primeCounter : ℕ
  bb : ℕ → β → Fin m → V
  zero : V → Bool

/-- the result of the evaluation of a bunch that began in the field `k`; if the prime was changed meanwhile (`FFInt::p` is global) the
values are arbitrary (`junk`) -/
def evalBunch (bb : ℕ → β → Fin m → V) (now k : ℕ) (junk : ℕ → Fin m → V) (bunch : List (ℕ × β)) : List (ℕ × (Fin m → V)) :=
  bunch.map (fun t => (t.1, if k = now then bb now t.2 else junk t.1))

/-- the steps of a worker that executes a task: the new state without the worker, and what the worker does next (`none`: the task is finished) -/
inductive RunStep (c : Cfg m β V) [Inhabited β] : State m β V → Run m β V → State m β V → Option (Run m β V) → Prop
  /-- `get_job`: no requested probes (3329) -/
  | getNone (s : State m β V) (h : s.requested = []) : RunStep c s .getJob s none
  /-- `get_job`: a bunch is taken from the front (3330-3355, 3373-3380, 3426-3439); its size is at least 1 and at most the length of the
  queue (C29) -/
  | getBunch (s : State m β V) (l r : List (ℕ × β)) (h : s.requested = l ++ r) (hl : l ≠ []) :
      RunStep c s .getJob { s with requested := r } (some (.computing s.primeIt l))
  /-- `compute_probe`: the values are stored (3403-3416, 3461-3475) -/
  | compute (s : State m β V) (k : ℕ) (bunch : List (ℕ × β)) (junk : ℕ → Fin m → V) :
      RunStep c s (.computing k bunch) { s with computed := s.computed ++ [evalBunch c.bb s.primeIt k junk bunch] } none
  | feed0 (s : State m β V) (bunch : List (ℕ × (Fin m → V))) :
      RunStep c s (.feed0 bunch) { s with interpJobs := s.interpJobs + m } (some (.feed1 bunch))
  | feed1 (s : State m β V) (bunch : List (ℕ × (Fin m → V))) :
      RunStep c s (.feed1 bunch) { s with indexMap := s.indexMap.filter (fun t => !(bunch.map Prod.fst).contains t.1) }
        (some (.feed2 (bunch.map (fun t => (lookup s.indexMap t.1, t.2))) (List.finRange m) 0))
  /-- a function that is not finished is fed (3061-3071) -/
  | feedItem (s : State m β V) (foods : List (β × (Fin m → V))) (i : Fin m) (todo : List (Fin m)) (counter : ℕ) (hs : s.status i = false) :
      RunStep c s (.feed2 foods (i :: todo) counter)
        (let f := (s.obj i).feed (fun x => c.zero x.2) false (foods.map (fun t => (t.1, t.2 i))) s.primeIt
         { s with obj := Function.update s.obj i { f.1 with scheduled := (s.obj i).scheduled + if f.2 then 1 else 0 }
                  tasks := if f.2 then s.tasks ++ [.interpJob i] else s.tasks })
        (some (.feed2 foods todo (counter + if ((s.obj i).feed (fun x => c.zero x.2) false (foods.map (fun t => (t.1, t.2 i))) s.primeIt).2 then 1 else 0)))
  | feedSkip (s : State m β V) (foods : List (β × (Fin m → V))) (i : Fin m) (todo : List (Fin m)) (counter : ℕ) (hs : s.status i = true) :
      RunStep c s (.feed2 foods (i :: todo) counter) s (some (.feed2 foods todo counter))
  /-- the end of `feed_job` (3107-3111) -/
  | feedEnd (s : State m β V) (foods : List (β × (Fin m → V))) (counter : ℕ) :
      RunStep c s (.feed2 foods [] counter) (State.notifyFeed { s with interpJobs := s.interpJobs - (m - counter), feedJobs := s.feedJobs - 1 }) none
  /-- the result has been fetched already (3117) -/
  | interpSkip (s : State m β V) (i : Fin m) (hs : s.status i = true) :
      RunStep c s (.interp0 i) { s with obj := Function.update s.obj i { s.obj i with scheduled := (s.obj i).scheduled - 1 } } (some (.interpEnd i))
  /-- the call of `interpolate()` (3118) returns at once or enters the loop -/
  | interpCall (s : State m β V) (i : Fin m) (hs : s.status i = false) :
      RunStep c s (.interp0 i) { s with obj := Function.update s.obj i (Obj.enter { s.obj i with scheduled := (s.obj i).scheduled - 1 }) }
        (some (if (s.obj i).fedZero || (s.obj i).isInterp || (s.obj i).queue.isEmpty
          then .interpRet i (lastRet (Obj.enter { s.obj i with scheduled := (s.obj i).scheduled - 1 })) else .interpIn i))
  /-- a probe has been processed -/
  | interpEffect (s : State m β V) (i : Fin m) (x : β × V) (e : RatQueue.Effect) (h : (s.obj i).inside = [.working x]) :
      RunStep c s (.interpIn i) { s with obj := Function.update s.obj i (Obj.apply { s.obj i with inside := [.worked] } e) } (some (.interpIn i))
  /-- the head of the loop of `interpolate()` -/
  | interpLoop (s : State m β V) (i : Fin m) (h : (s.obj i).inside = [.worked]) :
      RunStep c s (.interpIn i) { s with obj := Function.update s.obj i ((s.obj i).loopHead []) }
        (some (if (s.obj i).queue.isEmpty then .interpRet i (lastRet ((s.obj i).loopHead [])) else .interpIn i))
  /-- not interpolated (3120) -/
  | retNothing (s : State m β V) (i : Fin m) (d : Bool) (p : ℕ) : RunStep c s (.interpRet i (false, d, p)) s (some (.interpEnd i))
  /-- a new prime field is requested (3123-3136) -/
  | retNew (s : State m β V) (i : Fin m) (p : ℕ) (h : s.primeIt < p) :
      RunStep c s (.interpRet i (true, false, p)) { s with itemsNew := s.itemsNew + 1, counted := Function.update s.counted i (s.counted i + 1) } (some (.interpEnd i))
  /-- more probes are needed in this field (3137-3292) -/
  | retMore (s : State m β V) (i : Fin m) (p : ℕ) (h : p ≤ s.primeIt) : RunStep c s (.interpRet i (true, false, p)) s (some (.interpQ i 0))
  /-- the function is done (3293-3303) -/
  | retDone (s : State m β V) (i : Fin m) (p : ℕ) (hs : s.status i = false) :
      RunStep c s (.interpRet i (true, true, p)) { s with status := Function.update s.status i true, itemsDone := s.itemsDone + 1 } (some (.interpEnd i))
  | retDone' (s : State m β V) (i : Fin m) (p : ℕ) (hs : s.status i = true) : RunStep c s (.interpRet i (true, true, p)) s (some (.interpEnd i))
  | queueOne (s : State m β V) (i : Fin m) (owed : ℕ) (b : β) (front : Bool) : RunStep c s (.interpQ i owed) (s.queueOne b front) (some (.interpQ i (owed + 1)))
  | submitOne (s : State m β V) (i : Fin m) (owed : ℕ) : RunStep c s (.interpQ i (owed + 1)) s.submitGet (some (.interpQ i owed))
  | queueEnd (s : State m β V) (i : Fin m) : RunStep c s (.interpQ i 0) s (some (.interpEnd i))
  /-- the end of `interpolate_job` (3300-3303) -/
  | interpEnd (s : State m β V) (i : Fin m) : RunStep c s (.interpEnd i) (State.notifyFeed { s with interpJobs := s.interpJobs - 1 }) none

/-- what a worker does first for a task -/
def Task.start : Task m V → Run m β V
  | .getJob => .getJob
  | .feedJob b => .feed0 b
  | .interpJob i => .interp0 i

/-- the effect of removing a task from the pool without executing it: the scheduled call of `interpolate()` is not made -/
def State.dropTask (s : State m β V) : Task m V → State m β V
  | .interpJob i => { s with obj := Function.update s.obj i { s.obj i with scheduled := (s.obj i).scheduled - 1 } }
  | _ => s

/-- The steps of the main thread. -/
inductive MainStep (c : Cfg m β V) : State m β V → State m β V → Prop
  /-- the loop is left (2367); the pool is emptied at the end (2837) -/
  | exit (s : State m β V) (h : s.main = .head) (hd : s.done = true) : MainStep c s { s with main := .exit }
  | kill (s : State m β V) (h : s.main = .head) (hd : s.done = false) (hn : s.newPrime = true) : MainStep c s { s with main := .killing }
  | next (s : State m β V) (h : s.main = .head) (hd : s.done = false) (hn : s.newPrime = false) : MainStep c s { s with main := .getProbe }
  /-- `kill_all` removes queued tasks ... -/
  | drop (s : State m β V) (l r : List (Task m V)) (t : Task m V) (h : s.main = .killing) (ht : s.tasks = l ++ t :: r) :
      MainStep c s (State.dropTask { s with tasks := l ++ r } t)
  /-- ... and returns when no task is queued or running (C30). Then the prime is changed (2410-2413, 2459-2461) and the counters are reset. -/
  | advance (s : State m β V) (h : s.main = .killing) (ht : s.tasks = []) (hr : s.running = []) :
      MainStep c s (State.reset { s with primeIt := s.primeIt + 1, done := decide (c.primeCounter ≤ s.primeIt + 1), main := .starting 0 false })
  | startQueue (s : State m β V) (o : ℕ) (q : Bool) (b : β) (front : Bool) (h : s.main = .starting o q) :
      MainStep c s { s.queueOne b front with main := .starting (o + 1) true }
  | startSubmit (s : State m β V) (o : ℕ) (q : Bool) (h : s.main = .starting (o + 1) q) : MainStep c s { s.submitGet with main := .starting o q }
  /-- the remaining part of the iteration is executed even if the last prime field has been reached -/
  | startEnd (s : State m β V) (h : s.main = .starting 0 true) : MainStep c s { s with main := .getProbe }
  | getProbe (s : State m β V) (b : List (ℕ × (Fin m → V))) (bs : List (List (ℕ × (Fin m → V)))) (h : s.main = .getProbe) (hc : s.computed = b :: bs) :
      MainStep c s { s with computed := bs, main := .gotProbe b }
  | gotProbe (s : State m β V) (b : List (ℕ × (Fin m → V))) (h : s.main = .gotProbe b) :
      MainStep c s { s with probesQueued := s.probesQueued - b.length, main := .incFeed b }
  | incFeed (s : State m β V) (b : List (ℕ × (Fin m → V))) (h : s.main = .incFeed b) : MainStep c s { s with feedJobs := s.feedJobs + 1, main := .submitFeed b }
  | submitFeed (s : State m β V) (b : List (ℕ × (Fin m → V))) (h : s.main = .submitFeed b) :
      MainStep c s { s with tasks := s.tasks ++ [.feedJob b], main := .check }
  | check (s : State m β V) (h : s.main = .check) : MainStep c s (s.afterCheck .test)
  | testZero (s : State m β V) (h : s.main = .test) (hq : s.probesQueued = 0) : MainStep c s { s with main := .feedTest }
  | testMore (s : State m β V) (h : s.main = .test) (hq : s.probesQueued ≠ 0) : MainStep c s { s with main := .head }
  | feedSleep (s : State m β V) (h : s.main = .feedTest) (hj : 0 < s.feedJobs ∨ 0 < s.interpJobs) : MainStep c s { s with main := .sleeping }
  | feedNone (s : State m β V) (h : s.main = .feedTest) (hj : ¬ (0 < s.feedJobs ∨ 0 < s.interpJobs)) : MainStep c s { s with main := .recheck }
  | wokenMore (s : State m β V) (h : s.main = .woken) (hq : s.probesQueued ≠ 0) : MainStep c s { s with main := .recheck }
  | wokenZero (s : State m β V) (h : s.main = .woken) (hq : s.probesQueued = 0) : MainStep c s { s with main := .feedTest }
  | recheckMore (s : State m β V) (h : s.main = .recheck) (hq : s.probesQueued ≠ 0) : MainStep c s { s with main := .head }
  | recheckZero (s : State m β V) (h : s.main = .recheck) (hq : s.probesQueued = 0) : MainStep c s { s with main := .poolWait }
  /-- `while (tp.wait());` returns when no task is running (C30); tasks may be queued. Then the counters are tested again. -/
  | poolWait (s : State m β V) (h : s.main = .poolWait) (hr : s.running = []) : MainStep c s (s.afterCheck (.attempt 0))
  | attemptQueue (s : State m β V) (o : ℕ) (b : β) (front : Bool) (h : s.main = .attempt o) : MainStep c s { s.queueOne b front with main := .attempt (o + 1) }
  | attemptSubmit (s : State m β V) (o : ℕ) (h : s.main = .attempt (o + 1)) : MainStep c s { s.submitGet with main := .attempt o }
  | attemptEnd (s : State m β V) (h : s.main = .attempt 0) : MainStep c s { s with main := .head, gaveUp := s.gaveUp || decide (s.probesQueued = 0) }

/-- The steps of the program. -/
inductive Step (c : Cfg m β V) [Inhabited β] : State m β V → State m β V → Prop
  | main (s t : State m β V) (h : MainStep c s t) : Step c s t
  /-- a spurious wake-up of the main thread -/
  | spurious (s : State m β V) (h : s.main = .sleeping) : Step c s { s with main := .woken }
  /-- an idle worker takes a task -/
  | start (s : State m β V) (l r : List (Task m V)) (t : Task m V) (ht : s.tasks = l ++ t :: r) (hw : s.running.length < c.workers) :
      Step c s { s with tasks := l ++ r, running := s.running ++ [t.start] }
  | run (s t : State m β V) (l r : List (Run m β V)) (w : Run m β V) (w' : Option (Run m β V)) (h : s.running = l ++ w :: r) (hs : RunStep c s w t w') :
      Step c s { t with running := l ++ w'.toList ++ r }

/-- The reachable states. -/
inductive Reach (c : Cfg m β V) [Inhabited β] : State m β V → Prop
  | init : Reach c {}
  | step {s t} : Reach c s → Step c s t → Reach c t

end FireFly.Scheduler
