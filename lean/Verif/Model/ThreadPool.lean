import Verif.Tac
import Mathlib.Data.List.Basic
import Mathlib.Logic.Function.Basic
/-!
# `ThreadPool` (source/include/firefly/ThreadPool.hpp)

A labelled transition system for all interleavings. Every critical section (code executed while holding
`mutex`) is one step; `condition_variable::wait` ends a critical section, and the thread continues with a
new one after it was notified or woke up spuriously. The calls of `notify_one`/`notify_all` that are made
after releasing the mutex are steps of their own. Tasks are identified by values of a type `T`; they may
submit further tasks while they run, they end normally (a task that throws ends the program).

Simplifications: the `future`s of `run_packaged_task` are not modelled (the queue is treated as in
`run_task`); `queue_size` and `size` only read; the clients follow the rules of C++ for the destructor: it
is called when no other client is inside of a member function, and only running tasks use the pool
afterwards.
-/
namespace FireFly

/-- Where a worker thread is (ThreadPool.hpp 58-78): before the critical section of the next iteration,
sleeping in `condition.wait`, woken up but without the mutex, executing `task()`, or returned. -/
inductive WorkerPc (T : Type) where
  | top
  | waiting
  | ready
  | running (t : T)
  | exited
  deriving DecidableEq

/-- Where a client is: outside, or sleeping/woken up in the `condition_wait.wait` of `kill_all` (195-199)
or of `wait` (182-184). -/
inductive ClientPc where
  | outside
  | killWaiting
  | killReady
  | waitWaiting
  | waitReady
  deriving DecidableEq

/-- Where the destructor is (88-102): not called, `stop` set, all workers notified, returned. -/
inductive DtorPc where
  | none
  | stopped
  | joining
  | returned
  deriving DecidableEq

/-- The members of the pool (205-211) with `n` workers, the positions of all threads, the number of pending
calls `condition.notify_one()` (120, 141, 157, 170), and the history of the tasks. -/
structure Pool (n : ℕ) (T : Type) where
  workers : Fin n → WorkerPc T := fun _ => .top
  idle : Fin n → Bool := fun _ => true
  tasks : List T := []
  stop : Bool := false
  notify : ℕ := 0
  dtor : DtorPc := .none
  clients : ℕ → ClientPc := fun _ => .outside
  submitted : List T := []
  started : List T := []
  finished : List T := []
  dropped : List T := []

/-- observable events -/
inductive PoolEvent (T : Type) where
  | submit (t : T) (priority : Bool)
  /-- a step of worker `i` -/
  | worker (i : ℕ)
  /-- a `condition.notify_one()` of `run_task` takes effect -/
  | notified
  /-- client `c` wakes up in `kill_all` and goes on sleeping -/
  | client (c : ℕ)
  | spurious
  | dtorNotify
  | killCall (c : ℕ)
  | killReturn (c : ℕ)
  | waitCall (c : ℕ)
  | waitReturn (c : ℕ) (result : Bool)
  | dtorCall
  | dtorReturn

section
variable {n : ℕ} {T : Type}

/-- the effect of `condition.notify_all()` on a worker (94) -/
def wakeWorker : WorkerPc T → WorkerPc T
  | .waiting => .ready
  | w => w

/-- `condition_wait.notify_one()` (65): one of the sleeping clients is woken up, if there is one. -/
def wakeClient : ClientPc → ClientPc
  | .killWaiting => .killReady
  | .waitWaiting => .waitReady
  | c => c

/-- a client sleeps -/
def ClientPc.sleeping (c : ClientPc) : Prop := c = .killWaiting ∨ c = .waitWaiting

/-- the possible effects of `condition_wait.notify_one()` on the clients -/
def NotifyClients (old new : ℕ → ClientPc) : Prop :=
  (∃ c, (old c).sleeping ∧ new = Function.update old c (wakeClient (old c))) ∨ ((∀ c, ¬ (old c).sleeping) ∧ new = old)

/-- `all_threads_idle` (214-230); for an empty pool the queue is always empty. -/
def Pool.allIdle (s : Pool n T) : Prop := ∀ i, s.idle i = true

/-- The critical section of worker `i` from the test of the predicate of `condition.wait` on (66-73). -/
def Pool.body (s : Pool n T) (i : Fin n) : Pool n T :=
  if s.stop = true ∨ s.tasks ≠ [] then
    match s.tasks with
    | [] => { s with idle := Function.update s.idle i false, workers := Function.update s.workers i .exited }
    | t :: ts => { s with
        idle := Function.update s.idle i false, workers := Function.update s.workers i (.running t)
        tasks := ts, started := s.started ++ [t] }
  else { s with workers := Function.update s.workers i .waiting }

/-- `kill_all` from a test of `all_threads_idle` on (193-201): the queue is emptied in any case. -/
def Pool.clear (s : Pool n T) : Pool n T := { s with tasks := [], dropped := s.dropped ++ s.tasks }

/-- who may submit a task: a client before the destructor is called, or a running task -/
def Pool.maySubmit (s : Pool n T) : Prop := s.dtor = .none ∨ ∃ i t, s.workers i = .running t

/-- The steps of the pool and its clients. -/
inductive Step : Pool n T → PoolEvent T → Pool n T → Prop
  /-- `run_task`, `run_packaged_task` with worker threads (106-124, 149-159) -/
  | submitBack (s : Pool n T) (t : T) (hn : 0 < n) (hm : s.maySubmit) (hf : t ∉ s.submitted) :
      Step s (.submit t false) { s with tasks := s.tasks ++ [t], notify := s.notify + 1, submitted := s.submitted ++ [t] }
  /-- `run_priority_task`, `run_priority_packaged_task` (127-145, 162-172) -/
  | submitFront (s : Pool n T) (t : T) (hn : 0 < n) (hm : s.maySubmit) (hf : t ∉ s.submitted) :
      Step s (.submit t true) { s with tasks := t :: s.tasks, notify := s.notify + 1, submitted := s.submitted ++ [t] }
  /-- without workers the task is executed by the caller (113-114, 134-135, 150-151, 163-164) -/
  | submitInline (s : Pool n T) (t : T) (b : Bool) (hn : n = 0) (hm : s.maySubmit) (hf : t ∉ s.submitted) :
      Step s (.submit t b) { s with submitted := s.submitted ++ [t], started := s.started ++ [t], finished := s.finished ++ [t] }
  /-- a pending `condition.notify_one()` (120, 141, 157, 170) wakes up a sleeping worker -/
  | notifyOne (s : Pool n T) (i : Fin n) (hp : 0 < s.notify) (hw : s.workers i = .waiting) :
      Step s .notified { s with notify := s.notify - 1, workers := Function.update s.workers i .ready }
  /-- a pending `condition.notify_one()` while no worker sleeps -/
  | notifyNone (s : Pool n T) (hp : 0 < s.notify) (hw : ∀ i, s.workers i ≠ .waiting) :
      Step s .notified { s with notify := s.notify - 1 }
  /-- a worker begins an iteration (63-74) -/
  | top (s : Pool n T) (i : Fin n) (cl : ℕ → ClientPc) (hw : s.workers i = .top) (hc : NotifyClients s.clients cl) :
      Step s (.worker i) (Pool.body { s with idle := Function.update s.idle i true, clients := cl } i)
  /-- a worker that was woken up tests the predicate again (66-74) -/
  | resume (s : Pool n T) (i : Fin n) (hw : s.workers i = .ready) : Step s (.worker i) (s.body i)
  /-- spurious wake-up of a worker -/
  | spuriousWorker (s : Pool n T) (i : Fin n) (hw : s.workers i = .waiting) :
      Step s .spurious { s with workers := Function.update s.workers i .ready }
  /-- `task()` returns (76) -/
  | finish (s : Pool n T) (i : Fin n) (t : T) (hw : s.workers i = .running t) :
      Step s (.worker i) { s with workers := Function.update s.workers i .top, finished := s.finished ++ [t] }
  /-- `~ThreadPool`: `stop = true` (89-92) -/
  | dtorCall (s : Pool n T) (hd : s.dtor = .none) (hc : ∀ c, s.clients c = .outside) :
      Step s .dtorCall { s with stop := true, dtor := .stopped }
  /-- `condition.notify_all()` (94) -/
  | notifyAll (s : Pool n T) (hd : s.dtor = .stopped) :
      Step s .dtorNotify { s with dtor := .joining, workers := fun i => wakeWorker (s.workers i) }
  /-- all threads are joined (96-101) -/
  | dtorReturn (s : Pool n T) (hd : s.dtor = .joining) (hw : ∀ i, s.workers i = .exited) :
      Step s .dtorReturn { s with dtor := .returned }
  /-- `kill_all` (190-202) finds all threads idle at once -/
  | killDirect (s : Pool n T) (c : ℕ) (hd : s.dtor = .none) (hc : s.clients c = .outside) (hi : s.allIdle) :
      Step s (.killReturn c) s.clear
  /-- `kill_all` has to wait (193-198) -/
  | killCall (s : Pool n T) (c : ℕ) (hd : s.dtor = .none) (hc : s.clients c = .outside) (hi : ¬ s.allIdle) :
      Step s (.killCall c) { s.clear with clients := Function.update s.clients c .killWaiting }
  /-- `kill_all` was woken up, and some thread is working (195-199) -/
  | killAgain (s : Pool n T) (c : ℕ) (hc : s.clients c = .killReady) (hi : ¬ s.allIdle) :
      Step s (.client c) { s.clear with clients := Function.update s.clients c .killWaiting }
  /-- `kill_all` was woken up, and all threads are idle (195, 201) -/
  | killReturn (s : Pool n T) (c : ℕ) (hc : s.clients c = .killReady) (hi : s.allIdle) :
      Step s (.killReturn c) { s.clear with clients := Function.update s.clients c .outside }
  /-- `wait` (179-188) finds all threads idle -/
  | waitIdle (s : Pool n T) (c : ℕ) (hd : s.dtor = .none) (hc : s.clients c = .outside) (hi : s.allIdle) :
      Step s (.waitReturn c false) s
  /-- `wait` sleeps (183) -/
  | waitCall (s : Pool n T) (c : ℕ) (hd : s.dtor = .none) (hc : s.clients c = .outside) (hi : ¬ s.allIdle) :
      Step s (.waitCall c) { s with clients := Function.update s.clients c .waitWaiting }
  /-- `wait` was woken up (184) -/
  | waitReturn (s : Pool n T) (c : ℕ) (hc : s.clients c = .waitReady) :
      Step s (.waitReturn c true) { s with clients := Function.update s.clients c .outside }
  /-- spurious wake-up of a client -/
  | spuriousClient (s : Pool n T) (c : ℕ) (hc : (s.clients c).sleeping) :
      Step s .spurious { s with clients := Function.update s.clients c (wakeClient (s.clients c)) }

/-- executions: `Run s es s'` if the events `es` lead from `s` to `s'` -/
inductive Run : Pool n T → List (PoolEvent T) → Pool n T → Prop
  | nil (s : Pool n T) : Run s [] s
  | snoc {s s' s'' : Pool n T} {es : List (PoolEvent T)} {e : PoolEvent T} (h : Run s es s') (h' : Step s' e s'') : Run s (es ++ [e]) s''

end
end FireFly
