import Verif.Model.Utils
import Mathlib.Logic.Function.Basic
/-!
# Distribution of the probes over MPI workers (source/include/firefly/MPIWorker.hpp 170-514, source/include/firefly/Reconstructor.hpp 3909-4377)

One communication thread of the master (`mpi_communicate`), any number of worker processes (`MPIWorker::communicate` and the threads of its pool) and the local
threads of the master (`queue_probes`, `get_job`) as one transition system: every critical section or MPI call is one step, the steps interleave in any way.

Messages are lists of 64-bit words exactly as they are packed and read. Channels are FIFO for each pair of processes (the MPI standard). A send is buffered;
with `sync` the `MPI_Wait` of a worker for its last result waits until the master has received it. MPI counts (`int`) are unbounded.
Not modelled: the time measurements (tag `TIMING`), the broadcast of the factors, the hand-over between the main thread and the communication thread
(`proceed`, `continue_communication`), which appears as the events `barrier2` and `start`. A pool of threads is a bag of submitted jobs, of which any may finish next; `kill_all` drops the jobs (C30).
-/
namespace FireFly.Mpi

/-- The settings. `m` workers; `n` variables, `items` functions; `thr`, `bunch`: threads and bunch size of the master, `wthr`, `wbunch` those of the workers. `f k v` are the residues of all functions
at the point `v` in the prime field number `k` (`bb.eval` followed by the division by the factors); a bunch is evaluated point by point. -/
structure Cfg where
  m : ℕ
  n : ℕ
  items : ℕ
  thr : ℕ
  bunch : ℕ
  wthr : Fin m → ℕ
  wbunch : Fin m → ℕ
  f : ℕ → List ℕ → List ℕ
  sync : Bool := false

/-- A requested probe: its index and its point. -/
abbrev Probe := ℕ × List ℕ

/-- `buffer` (source/include/firefly/MPIWorker.hpp 32) -/
def buffer : ℕ := 2

/-- The bunch sizes for which a `case` exists (source/include/firefly/MPIWorker.hpp 234-262, source/include/firefly/Reconstructor.hpp 3330-3358) -/
def bunchSizes : List ℕ := [1, 2, 4, 8, 16, 32, 64, 128]

/-- Packing of probes for a worker (source/include/firefly/Reconstructor.hpp 4242-4252, 4275-4285, 4351-4361) -/
def packValues (ps : List Probe) : List ℕ := ps.flatMap (fun p => p.1 :: p.2)

/-- Probe number `k` as the worker reads it from the received words (source/include/firefly/MPIWorker.hpp 405-425); `none`: a read beyond the end. -/
def readProbe (n : ℕ) (vals : List ℕ) (k : ℕ) : Option Probe := do
  let ix ← vals[(n + 1) * k]?
  let v ← (List.range n).mapM (fun j => vals[(n + 1) * k + j + 1]?)
  some (ix, v)

/-- The words a finished bunch adds to `results` (source/include/firefly/MPIWorker.hpp 442-455, 487-504) -/
def packResults (g : List ℕ → List ℕ) (ps : List Probe) : List ℕ := ps.flatMap (fun p => p.1 :: g p.2)

/-- Unpacking of a result by the master (source/include/firefly/Reconstructor.hpp 4294-4330): the indices, the residues of each function and the free slots. `none`: the program
exits with "Corrupted results" or reads beyond the end (a message without a result). -/
def unpackResults (items : ℕ) (r : List ℕ) : Option ((List ℕ × List (List ℕ)) × ℕ) :=
  let amount := r.length
  if amount < 2 ∨ (amount - 1) % (items + 1) ≠ 0 then none
  else do
    let new := (amount - 1) / (items + 1)
    let indices ← (List.range new).mapM (fun i => r[i * (items + 1)]?)
    let results ← (List.range' 1 items).mapM (fun j => (List.range new).mapM (fun i => r[i * (items + 1) + j]?))
    let free ← r[amount - 1]?
    some ((indices, results), free)

/-- Messages to a worker with the tags `VALUES`, `NEW_PRIME`, `END` (source/include/firefly/MPIWorker.hpp 26-31) -/
inductive ToWorker where
  | values (w : List ℕ)
  | newPrime
  | stop
deriving DecidableEq

/-- Where a worker is in `communicate` (source/include/firefly/MPIWorker.hpp 186-398). -/
inductive WPhase where
  /-- head of the loop (187) -/
  | top
  /-- after `MPI_Isend`, in `MPI_Probe` (212) -/
  | waiting
  /-- in the loop over the received values (231) -/
  | queueing (vals : List ℕ) (new started : ℕ)
  /-- a bunch has been submitted, before `++tasks` (266) -/
  | counting (vals : List ℕ) (new started : ℕ)
  /-- in the first barrier after `NEW_PRIME` (`fin = false`, 283) or `END` (365) -/
  | bar1 (fin : Bool)
  /-- before the last package (285-288, 367-370) -/
  | last (fin : Bool)
  /-- in the second barrier (290, 372) -/
  | bar2 (fin : Bool)
  /-- waiting for the next prime (300-349) -/
  | between
  /-- `communicate` has returned -/
  | off

/-- A worker process with its channels: `out` to the master (tag `RESULT`), `inn` from the master. `field`: the number of the prime; `tasks`, `results`: members; `pool`: the jobs that have been submitted and have not finished. -/
structure Node where
  out : List (List ℕ) := []
  inn : List ToWorker := []
  phase : WPhase := .top
  field : ℕ := 0
  tasks : ℕ := 0
  results : List ℕ := []
  pool : List (List Probe) := []

/-- Where the communication thread of the master is. -/
inductive MPhase (m : ℕ) where
  /-- `send_first_jobs` before worker `k` (source/include/firefly/Reconstructor.hpp 3935) -/
  | first (k : ℕ)
  /-- the polling loop (4013-4028) -/
  | poll
  /-- the results of worker `i` have been stored, before the reply (4341) -/
  | reply (i : Fin m) (free : ℕ)
  /-- in the first barrier (4041, 4131) -/
  | bar1 (fin : Bool)
  /-- receiving the remaining results of worker `k` (4051-4069, 4141-4159) -/
  | drain (fin : Bool) (k : ℕ)
  /-- in the second barrier (4071, 4161) -/
  | bar2 (fin : Bool)
  /-- waiting for the first probes of the field (4205) -/
  | refill
  /-- receiving the first message of worker `k` in the new field (4232-4262) -/
  | collect (k : ℕ)
  /-- `mpi_communicate` has returned -/
  | off

/-- The state. `requested`: the queue `requested_probes`; `log`: all probes requested in this field (record only); `computed`: everything that has been put into `computed_probes` in this field (record only; the main thread takes it
from there). `flags`: running calls of `queue_probes`; `owed`: `get_job` tasks still to be submitted; `jobs`: submitted `get_job` tasks; `localRun`: bunches in `compute_probe`; `checks`: threads in `get_job` before
`requested_probes.empty()` (3361); `clears`: threads that found it empty, before `new_jobs = false` (3362). `fault`: a read beyond the end of a message, or the program has exited. -/
structure State (m : ℕ) where
  fault : Bool := false
  phase : MPhase m := .first 0
  field : ℕ := 0
  slots : Fin m → ℕ := fun _ => 0
  emptyNodes : List (Fin m × ℕ) := []
  newPrime : Bool := false
  done : Bool := false
  newJobs : Bool := false
  ind : ℕ := 0
  requested : List Probe := []
  log : List Probe := []
  computed : List (List ℕ × List (List ℕ)) := []
  flags : ℕ := 0
  owed : ℕ := 0
  jobs : ℕ := 0
  localRun : List (List Probe) := []
  checks : ℕ := 0
  clears : ℕ := 0
  node : Fin m → Node := fun _ => {}

/-- The steps. Those from `call` on are decisions of the rest of the program. -/
inductive Event (m : ℕ) where
  | first (vs : List (List ℕ))
  | recv (i : Fin m)
  | reply
  | restart
  | notice
  | barrier1
  | drain
  | barrier2
  | start
  | collect
  | send (i : Fin m)
  | take (i : Fin m)
  | queueJob (i : Fin m)
  | count (i : Fin m)
  | compute (i : Fin m) (k : ℕ)
  | last (i : Fin m)
  | setFlag
  | submit
  | getJob
  | localDone (k : ℕ)
  | check
  | clearFlag
  | call
  | queue (v : List ℕ) (front : Bool)
  | askPrime
  | askEnd
  | clear

/-- Decisions of the rest of the program: a call of `queue_probes`, a probe requested by it, the request for the next prime or the end, the clearing of the queue. -/
def Event.env {m : ℕ} : Event m → Bool
  | .call | .queue _ _ | .askPrime | .askEnd | .clear => true
  | _ => false

section
variable (c : Cfg)

/-- `updates` node `i` -/
def State.setNode {m : ℕ} (s : State m) (i : Fin m) (x : Node) : State m := { s with node := Function.update s.node i x }

/-! ### The workers -/

/-- Head of the loop (source/include/firefly/MPIWorker.hpp 187-209). If there are tasks and no results, the thread sleeps: no step. The number of free slots is an unsigned difference. -/
def sendStep (s : State c.m) (i : Fin c.m) : Option (State c.m) :=
  let x := s.node i
  match x.phase with
  | .top =>
    if x.tasks = 0 ∧ x.results = [] then
      some (s.setNode i { x with out := x.out ++ [[buffer * c.wthr i]], phase := .waiting })
    else if x.results ≠ [] then
      some (s.setNode i { x with out := x.out ++ [x.results ++ [(buffer * c.wthr i + 2 ^ 64 - x.tasks) % 2 ^ 64]], results := [], phase := .waiting })
    else none
  | _ => none

/-- Receiving a message of the master (source/include/firefly/MPIWorker.hpp 211-229, 272-283, 357-365). `kill_all` drops the jobs. -/
def takeStep (s : State c.m) (i : Fin c.m) : Option (State c.m) :=
  let x := s.node i
  match x.phase, x.inn with
  | .waiting, .values vals :: rest =>
    if vals.length % (c.n + 1) ≠ 0 then some { s with fault := true }
    else some (s.setNode i { x with inn := rest, phase := .queueing vals (vals.length / (c.n + 1)) 0 })
  | .waiting, .newPrime :: rest => some (s.setNode i { x with inn := rest, pool := [], results := [], tasks := 0, phase := .bar1 false })
  | .waiting, .stop :: rest => some (s.setNode i { x with inn := rest, pool := [], results := [], tasks := 0, phase := .bar1 true })
  | _, _ => none

/-- One round of the loop over the received values (source/include/firefly/MPIWorker.hpp 231-264) up to `++tasks`. A bunch size without a `case` starts no job. -/
def queueStep (s : State c.m) (i : Fin c.m) : Option (State c.m) :=
  let x := s.node i
  match x.phase with
  | .queueing vals new started =>
    if started = new then some (s.setNode i { x with phase := .top })
    else
      match computeBunchSize (u32 ((new : ℤ) - started)) (c.wthr i) (c.wbunch i) with
      | none => some { s with fault := true }
      | some b =>
        if b ∈ bunchSizes then
          match (List.range b).mapM (fun j => readProbe c.n vals (started + j)) with
          | none => some { s with fault := true }
          | some bunch => some (s.setNode i { x with pool := x.pool ++ [bunch], phase := .counting vals new (u32 ((started : ℤ) + b)) })
        else some (s.setNode i { x with phase := .counting vals new (u32 ((started : ℤ) + b)) })
  | _ => none

/-- `++tasks` (source/include/firefly/MPIWorker.hpp 266-270) -/
def countStep (s : State c.m) (i : Fin c.m) : Option (State c.m) :=
  let x := s.node i
  match x.phase with
  | .counting vals new started => some (s.setNode i { x with tasks := (x.tasks + 1) % 2 ^ 64, phase := .queueing vals new started })
  | _ => none

/-- A job of the pool of a worker finishes (source/include/firefly/MPIWorker.hpp 432-462, 464-514). -/
def computeStep (s : State c.m) (i : Fin c.m) (k : ℕ) : Option (State c.m) :=
  let x := s.node i
  match x.pool[k]? with
  | some bunch =>
    some (s.setNode i { x with pool := x.pool.eraseIdx k, results := x.results ++ packResults (c.f x.field) bunch, tasks := (x.tasks + 2 ^ 64 - 1) % 2 ^ 64 })
  | none => none

/-- The last package (source/include/firefly/MPIWorker.hpp 285-288, 367-370). -/
def lastStep (s : State c.m) (i : Fin c.m) : Option (State c.m) :=
  let x := s.node i
  match x.phase with
  | .last fin => if c.sync = true ∧ x.out ≠ [] then none else some (s.setNode i { x with out := x.out ++ [[0]], phase := .bar2 fin })
  | _ => none

/-! ### The master -/

/-- The indices of the probes of one loop of `send_first_jobs`. -/
def number (ind : ℕ) (vs : List (List ℕ)) : List Probe := vs.mapIdx (fun j v => (ind + j, v))

/-- One worker in `send_first_jobs` (source/include/firefly/Reconstructor.hpp 3935-4008) with the points `vs`; the case that a random number is drawn twice is the subject of `firstPack`. -/
def firstStep (s : State c.m) (vs : List (List ℕ)) : Option (State c.m) :=
  match s.phase with
  | .first k =>
    if h : k < c.m then
      let x := s.node ⟨k, h⟩
      match x.out with
      | [] => none
      | r :: rest =>
        match r with
        | [start] =>
          if vs.length = start % 2 ^ 32 ∧ (∀ v ∈ vs, v.length = c.n) ∧ s.log.length + vs.length < 2 ^ 64 then
            some { s.setNode ⟨k, h⟩ { x with out := rest, inn := x.inn ++ [.values (packValues (number s.ind vs))] } with
                   slots := Function.update s.slots ⟨k, h⟩ start, ind := s.ind + vs.length, log := s.log ++ number s.ind vs, phase := .first (k + 1) }
          else none
        | _ => some { s with fault := true }
    else some { s with phase := .poll }
  | _ => none

/-- A result is received and stored (source/include/firefly/Reconstructor.hpp 4013-4028, 4293-4341). -/
def recvStep (s : State c.m) (i : Fin c.m) : Option (State c.m) :=
  match s.phase, (s.node i).out with
  | .poll, r :: rest =>
    if s.newPrime ∨ s.done then none
    else
      match unpackResults c.items r with
      | none => some { s with fault := true }
      | some (d, free) => some { s.setNode i { s.node i with out := rest } with computed := s.computed ++ [d], phase := .reply i free }
  | _, _ => none

/-- The probes of the next packet for a worker with `free` slots are taken from the queue (source/include/firefly/Reconstructor.hpp 4237-4256, 4270-4287, 4346-4366). -/
def sendJobs (s : State c.m) (i : Fin c.m) (free : ℕ) : State c.m :=
  match computeJobNumber (s.requested.length % 2 ^ 32) (free % 2 ^ 32) c.thr c.bunch with
  | none => { s with fault := true }
  | some size =>
    if s.requested.length < size then { s with fault := true }
    else { s.setNode i { s.node i with inn := (s.node i).inn ++ [.values (packValues (s.requested.take size))] } with requested := s.requested.drop size }

/-- `if (requested_probes.empty()) new_jobs = false;` -/
def State.testEmpty {m : ℕ} (s : State m) : State m := if s.requested = [] then { s with newJobs := false } else s

/-- The reply (source/include/firefly/Reconstructor.hpp 4341-4372). -/
def replyStep (s : State c.m) : Option (State c.m) :=
  match s.phase with
  | .reply i free =>
    if s.requested ≠ [] then some { (sendJobs c s i free).testEmpty with phase := .poll }
    else if free = s.slots i then some { s with emptyNodes := s.emptyNodes ++ [(i, free)], phase := .poll }
    else some { s.setNode i { s.node i with inn := (s.node i).inn ++ [.values []] } with phase := .poll }
  | _ => none

/-- The loop over the waiting workers (source/include/firefly/Reconstructor.hpp 4266-4288). -/
def restartLoop (s : State c.m) : List (Fin c.m × ℕ) → State c.m
  | [] => { s with emptyNodes := [] }
  | t :: ts => if s.requested ≠ [] then restartLoop (sendJobs c s t.1 t.2) ts else { s with emptyNodes := t :: ts }

/-- Waiting workers get new probes (source/include/firefly/Reconstructor.hpp 4024-4027, 4263-4292). -/
def restartStep (s : State c.m) : Option (State c.m) :=
  match s.phase with
  | .poll => if s.newPrime ∨ s.done then none else if s.emptyNodes ≠ [] ∧ s.newJobs = true then some (restartLoop c s s.emptyNodes).testEmpty else none
  | _ => none

/-- The signal `NEW_PRIME` or `END` is sent to all workers (source/include/firefly/Reconstructor.hpp 4030-4041, 4117-4131). -/
def noticeStep (s : State c.m) : Option (State c.m) :=
  match s.phase with
  | .poll =>
    if s.newPrime ∨ s.done then
      some { s with phase := .bar1 s.done, node := fun i => { s.node i with inn := (s.node i).inn ++ [if s.done then .stop else .newPrime] } }
    else none
  | _ => none

/-- a worker in the first barrier goes on -/
def passBar1 (x : Node) : Option Node := match x.phase with | .bar1 fin => some { x with phase := .last fin } | _ => none
/-- a worker in the second barrier goes on -/
def passBar2 (x : Node) : Option Node := match x.phase with | .bar2 fin => some { x with phase := if fin then .off else .between } | _ => none

/-- The first barrier (source/include/firefly/Reconstructor.hpp 4041, 4131, source/include/firefly/MPIWorker.hpp 283, 365): all processes have to be in it. -/
def barrier1Step (s : State c.m) : Option (State c.m) :=
  match s.phase with
  | .bar1 fin =>
    if ∀ i, (passBar1 (s.node i)).isSome then some { s with phase := .drain fin 0, node := fun i => (passBar1 (s.node i)).getD (s.node i) } else none
  | _ => none

/-- The remaining results are received and thrown away (source/include/firefly/Reconstructor.hpp 4051-4069, 4141-4159). -/
def drainStep (s : State c.m) : Option (State c.m) :=
  match s.phase with
  | .drain fin k =>
    if h : k < c.m then
      match (s.node ⟨k, h⟩).out with
      | [] => none
      | r :: rest => some { s.setNode ⟨k, h⟩ { s.node ⟨k, h⟩ with out := rest } with phase := if r = [0] then .drain fin (k + 1) else .drain fin k }
    else some { s with phase := .bar2 fin }
  | _ => none

/-- The second barrier (source/include/firefly/Reconstructor.hpp 4071, 4161). After `END` all are done. Otherwise the main thread stops the local threads (2401), changes the prime and resets everything (`reset_new_prime` 3721-3748). -/
def barrier2Step (s : State c.m) : Option (State c.m) :=
  match s.phase with
  | .bar2 fin =>
    if ∀ i, (passBar2 (s.node i)).isSome then
      let s' := { s with node := fun i => (passBar2 (s.node i)).getD (s.node i) }
      if fin then some { s' with phase := .off }
      else some { s' with phase := .refill, field := s.field + 1, newPrime := false, newJobs := false, ind := 0, requested := [], log := [], computed := [], flags := 0, owed := 0, jobs := 0, localRun := [], checks := 0, clears := 0 }
    else none
  | _ => none

/-- The new prime is sent (source/include/firefly/Reconstructor.hpp 4205-4230, source/include/firefly/MPIWorker.hpp 348-356). -/
def startStep (s : State c.m) : Option (State c.m) :=
  match s.phase with
  | .refill =>
    if s.newJobs then
      some { s with phase := .collect 0, emptyNodes := [],
                    node := fun i => match (s.node i).phase with | .between => { s.node i with phase := .top, field := s.field } | _ => s.node i }
    else none
  | _ => none

/-- The first message of a worker in the new field (source/include/firefly/Reconstructor.hpp 4232-4262). -/
def collectStep (s : State c.m) : Option (State c.m) :=
  match s.phase with
  | .collect k =>
    if h : k < c.m then
      match (s.node ⟨k, h⟩).out with
      | [] => none
      | r :: rest =>
        let s' := { s.setNode ⟨k, h⟩ { s.node ⟨k, h⟩ with out := rest } with phase := .collect (k + 1) }
        match r with
        | [free] =>
          if s.requested ≠ [] then some (sendJobs c s' ⟨k, h⟩ free).testEmpty
          else if free = s.slots ⟨k, h⟩ then some { s' with emptyNodes := s.emptyNodes ++ [(⟨k, h⟩, free)] }
          else some s'
        | _ => some { s with fault := true }
    else some { s with phase := .poll }
  | _ => none

/-! ### The local threads of the master and the main thread -/

/-- `get_job` up to the release of the mutex (source/include/firefly/Reconstructor.hpp 3326-3358, 3369-3380, 3419-3439). -/
def getJobStep (s : State c.m) : Option (State c.m) :=
  if s.jobs = 0 then none
  else if s.requested = [] then some { s with jobs := s.jobs - 1 }
  else
    match computeBunchSize (s.requested.length % 2 ^ 32) c.thr c.bunch with
    | none => some { s with fault := true }
    | some b =>
      if b ∈ bunchSizes then
        if s.requested.length < b then some { s with fault := true }
        else some { s with jobs := s.jobs - 1, requested := s.requested.drop b, localRun := s.localRun ++ [s.requested.take b] }
      else some { s with jobs := s.jobs - 1 }

/-- `compute_probe` stores its result (source/include/firefly/Reconstructor.hpp 3384-3414, 3443-3480). -/
def localDoneStep (s : State c.m) (k : ℕ) : Option (State c.m) :=
  match s.localRun[k]? with
  | some bunch =>
    some { s with localRun := s.localRun.eraseIdx k, checks := s.checks + 1,
                  computed := s.computed ++ [(bunch.map Prod.fst, (List.range c.items).map (fun j => bunch.map (fun p => ((c.f s.field p.2)[j]?).getD 0)))] }
  | none => none

/-- All steps. The bounds in `queue` say that the queue holds fewer than `2^31` probes and that `ind` does not overflow. The main thread waits during `send_first_jobs` and `collect`, its clearing of the queue (2391-2395, 2838-2842)
and `new_prime`, `done` (2729-2734) come later. -/
def step (s : State c.m) : Event c.m → Option (State c.m)
  | .first vs => firstStep c s vs
  | .recv i => recvStep c s i
  | .reply => replyStep c s
  | .restart => restartStep c s
  | .notice => noticeStep c s
  | .barrier1 => barrier1Step c s
  | .drain => drainStep c s
  | .barrier2 => barrier2Step c s
  | .start => startStep c s
  | .collect => collectStep c s
  | .send i => sendStep c s i
  | .take i => takeStep c s i
  | .queueJob i => queueStep c s i
  | .count i => countStep c s i
  | .compute i k => computeStep c s i k
  | .last i => lastStep c s i
  | .setFlag => if s.flags = 0 then none else some { s with flags := s.flags - 1, newJobs := true }
  | .submit => if s.owed = 0 then none else some { s with owed := s.owed - 1, jobs := s.jobs + 1 }
  | .getJob => getJobStep c s
  | .localDone k => localDoneStep c s k
  | .check => if s.checks = 0 then none else some { s with checks := s.checks - 1, clears := if s.requested = [] then s.clears + 1 else s.clears }
  | .clearFlag => if s.clears = 0 then none else some { s with clears := s.clears - 1, newJobs := false }
  | .call => match s.phase with
    | .off => none
    | _ => some { s with flags := s.flags + 1 }
  | .queue v front =>
    if s.flags ≠ 0 ∧ v.length = c.n ∧ s.requested.length + 1 < 2 ^ 31 ∧ s.log.length + 1 < 2 ^ 64 then
      some { s with requested := if front then (s.ind, v) :: s.requested else s.requested ++ [(s.ind, v)], log := s.log ++ [(s.ind, v)], ind := s.ind + 1, owed := s.owed + 1 }
    else none
  | .askPrime => some { s with newPrime := true }
  | .askEnd => some { s with done := true }
  | .clear =>
    match s.phase with
    | .first _ | .refill | .collect _ => none
    | _ => if s.newPrime ∨ s.done then some { s with requested := [], newJobs := false } else none

/-- The state before the first message; a program that has exited makes no step. -/
def run (s : State c.m) : List (Event c.m) → Option (State c.m)
  | [] => some s
  | e :: es => if s.fault then none else (step c s e).bind (run · es)

end

/-! ### The packet of `send_first_jobs` -/

/-- The loop over `ii` (source/include/firefly/Reconstructor.hpp 3951-4005) on a stream of random numbers: an index is appended before it is known whether the number has been used before. `pt t` is the point for `t`. The result: the words, the used numbers, the entries
of `index_map`, the next index. `none`: the stream ends (the generator does not stop). -/
def firstPack (pt : ℕ → List ℕ) : ℕ → List ℕ → List ℕ → ℕ → Option (List ℕ × List ℕ × List (ℕ × ℕ) × ℕ)
  | 0, _, chosen, ind => some ([], chosen, [], ind)
  | _ + 1, [], _, _ => none
  | k + 1, t :: ts, chosen, ind =>
    if t ∈ chosen then (firstPack pt (k + 1) ts chosen ind).map (fun r => (ind :: r.1, r.2))
    else (firstPack pt k ts (t :: chosen) (ind + 1)).map (fun r => (ind :: pt t ++ r.1, r.2.1, (ind, t) :: r.2.2.1, r.2.2.2))

end FireFly.Mpi
