import Mathlib.Data.List.Basic
/-!
# Hand-over between the reconstructing thread and the MPI communication thread (source/include/firefly/Reconstructor.hpp, `WITH_MPI`)

Two threads of the master process: the one that called `reconstruct` (`main`) and the one that runs `mpi_communicate` (`mpi`). They share the mutex `mutex_probe_queue`, one condition
variable `cond_val` and the flags `proceed`, `continue_communication`, `new_jobs`, `new_prime`, `done`, `scan`. Each thread is a program counter in straight blocks of instructions, which are
the statements of the code that touch these objects, in the order of the code; every interleaving of the instructions is a run. `wait` has the semantics of
`std::condition_variable::wait` with a predicate: under the mutex the predicate is read; if it is false, the thread falls asleep and releases the mutex in one step; a sleeping thread wakes up only
by `notify_one` (or spuriously), and has to get the mutex again before it reads the predicate again. Between reading the predicate and falling asleep other threads can still run.

Everything else is abstracted: what the threads do between these statements only appears as `mark`s. The communication with the workers
always comes to an end (C48). Unsynchronised accesses are modelled as sequentially consistent (in C++ those of the plain `bool`s in lines 2378 and 2634 are data races).
-/
namespace FireFly.Handshake

/-- The shared variables (source/include/firefly/Reconstructor.hpp 194-198, 355-360): `proceed`, `continue_communication`, `new_jobs`, `new_prime`, `done`, `scan`.
`pool`: jobs may be running in the thread pool of the master. -/
inductive Flag | proceed | goOn | newJobs | newPrime | done | scan | pool
  deriving DecidableEq, Repr

/-- What the threads do between the statements that are modelled:
`stop`: all workers have been told to stop, and have stopped sending probes to their pools (lines 4030-4042, 4117-4131, up to the first barrier);
`drain`: all results of the old field have been received and dropped (lines 4052-4088, 4141-4177, up to the third barrier);
`kill`: the local jobs of the old field have been killed (lines 1048, 2404, 2850);
`switch`: tables of the old field are cleared, the prime is changed (lines 2441-2620; `reset_new_prime` 3722-3748);
`send`: the new prime and the first probes are sent to the workers (lines 4211-4259);
`resume`: local jobs of the new field are started (lines 2053-2057, 2297-2301, 2695-2699). -/
inductive Mark | stop | drain | kill | switch | send | resume
  deriving DecidableEq, Repr

/-- Instructions. `drop`: the flag may be set to false; `take`: `get_probe` (line 2996-3004), which waits until a result is in `computed_probes`. -/
inductive Ins
  | lock | unlock | notify
  | set (f : Flag) (v : Bool)
  | wait (f : Flag)
  | drop (f : Flag)
  | mark (m : Mark)
  | take
  deriving DecidableEq, Repr

/-- The blocks of instructions. Main thread: `start`, `resume`, `feed`, `newPrime`, `scanRun`, `finish` and the special cases `allDone`, `restart`, `limit`, `leave`; communication thread: `init`, `change`, `stop`. -/
inductive Block | start | resume | feed | newPrime | scanRun | finish | allDone | restart | limit | leave | init | change | stop
  deriving DecidableEq, Repr

/-- `queue_probes` (source/include/firefly/Reconstructor.hpp 2961-2992): the probes are put into the queue under the mutex, `new_jobs` is set without it. -/
def queueProbes : List Ins := [.lock, .unlock, .set .newJobs true]

/-- The main thread waits for `proceed` (source/include/firefly/Reconstructor.hpp 1038-1046, 2391-2400, 2838-2847) -/
def awaitStop : List Ins := [.lock, .set .newJobs false, .wait .proceed, .set .proceed false, .unlock]

/-- The local jobs are killed (source/include/firefly/Reconstructor.hpp 1048-1050, 2403-2406, 2850-2853) -/
def killJobs : List Ins := [.set .pool false, .mark .kill, .set .newJobs false]

/-- `continue_communication = true; notify_one; wait(proceed); proceed = false;` under the mutex (source/include/firefly/Reconstructor.hpp 1024-1035, 1052-1062, 2110-2120, 2357-2367, 2431-2440, 2874-2883) -/
def goAhead : List Ins := [.lock, .set .goOn true, .notify, .wait .proceed, .set .proceed false, .unlock]

/-- The first probes of a field: `queue_probes(..., true); notify_one; wait(proceed); proceed = false;`, then the local jobs are submitted and the first probe is awaited
(source/include/firefly/Reconstructor.hpp 2039-2058 and 2064, 2275-2302 and 2709, 2643-2700 and 2709) -/
def nextField : List Ins :=
  queueProbes ++ [.notify, .lock, .wait .proceed, .set .proceed false, .unlock, .set .pool true, .mark .resume, .take]

/-- The code of the blocks, line numbers of source/include/firefly/Reconstructor.hpp. -/
def code : Block → List Ins
  /- `start_first_runs(true)`, 2033-2120: the local jobs are submitted in `queue_probes`, the first probe is awaited before the communication starts -/
  | .start => [.lock, .unlock, .set .pool true, .set .newJobs true, .take] ++ goAhead
  /- `run_until_done` of a resumed run in the middle of the first field, 2319-2372, 2709 -/
  | .resume => [.set .pool true] ++ goAhead ++ queueProbes ++ [.take]
  /- one more turn of the loop of `run_until_done`, 2709 -/
  | .feed => [.take]
  /- `new_prime`, set in 2734, 2781; 2391-2440, then 2441-2709. (The order of the statements of `reset_new_prime` and of those up to 2620 is not kept: they are only seen by this thread.) Also the end of a run
     of the factor scan: 2386, 2838-2887, `start_first_runs(false)` -/
  | .newPrime => [.set .newPrime true] ++ awaitStop ++ killJobs ++ goAhead ++
      [.set .newJobs false, .set .newPrime false, .mark .switch] ++ nextField
  /- the end of a run of the scan for a shift: `done` set in 2731, 2778; 2838-2887, 1276, 1292 (the last run of the scan), `queue_new_ones` 2270-2302, 2709 -/
  | .scanRun => [.set .done true] ++ awaitStop ++ killJobs ++ goAhead ++
      [.set .newJobs false, .set .done false, .drop .scan, .mark .switch] ++ nextField
  /- the end: `done` set in 2731, 2778; 2838-2887 -/
  | .finish => [.set .done true] ++ awaitStop ++ killJobs ++ goAhead ++ [.set .newJobs false]
  /- resumed although everything was done: 998-1000, 1022-1062 -/
  | .allDone => [.set .done true] ++ goAhead ++ awaitStop ++ killJobs ++ goAhead
  /- resumed when all functions need the next prime: 2376-2379, 2391-2406, 2441-2620, 2624-2642, 2709 -/
  | .restart => [.set .newPrime true, .set .proceed true] ++ awaitStop ++ killJobs ++
      [.set .newJobs false, .set .newPrime false, .mark .switch, .lock, .unlock, .set .pool true, .set .newJobs true,
       .set .newJobs true, .set .goOn true, .notify, .lock, .wait .proceed, .set .proceed false, .unlock, .take]
  /- a new prime field when the largest number of primes is reached: `done` set in 2427; at the end of the loop 2838-2887. In this block no probe is left to the local threads: all probes of the new field are sent to the workers (see `exec`) -/
  | .limit => [.set .newPrime true] ++ awaitStop ++ killJobs ++ [.set .done true] ++ goAhead ++
      [.set .newJobs false, .set .newPrime false, .mark .switch] ++
      queueProbes ++ [.notify, .lock, .wait .proceed, .set .proceed false, .unlock, .set .pool true, .mark .resume, .take] ++
      awaitStop ++ killJobs ++ goAhead ++ [.set .newJobs false]
  /- the end of the factor scan when the run shall stop after it: 2386, 2838-2887, 957-959; then the destructor of `tp_comm` waits for the communication thread -/
  | .leave => [.set .newPrime true] ++ awaitStop ++ killJobs ++ goAhead ++ [.set .newJobs false, .set .newPrime false]
  /- start of the communication thread, 905-917 -/
  | .init => [.lock, .wait .goOn, .set .goOn false, .set .proceed true, .notify, .unlock]
  /- `mpi_communicate`, branch of the next prime field (or the next run of the scan), 4117-4260 -/
  | .change => [.mark .stop, .lock, .set .proceed true, .notify, .unlock, .mark .drain, .lock, .wait .goOn, .set .goOn false, .unlock,
      .lock, .set .proceed true, .notify, .wait .newJobs, .set .proceed true, .notify, .mark .send, .drop .newJobs, .unlock]
  /- `mpi_communicate`, branch of the end, 4030-4116 -/
  | .stop => [.mark .stop, .lock, .set .proceed true, .notify, .unlock, .mark .drain, .lock, .wait .goOn, .set .goOn false, .unlock,
      .lock, .set .proceed true, .notify, .unlock]

/-- Where a thread is in a `wait`: `run` it runs (and holds the mutex), `armed` it has read the predicate as false and is about to fall asleep, `asleep`, `woken` it waits for the mutex. -/
inductive Mode | run | armed | asleep | woken
  deriving DecidableEq, Repr

inductive Tid | main | mpi
  deriving DecidableEq, Repr

structure Thread where
  block : Block
  pc : ℕ
  mode : Mode
  deriving DecidableEq, Repr

structure Flags where
  proceed : Bool := false
  goOn : Bool := false
  newJobs : Bool := false
  newPrime : Bool := false
  done : Bool := false
  scan : Bool := false
  pool : Bool := false
  deriving DecidableEq, Repr

def Flags.get (x : Flags) : Flag → Bool
  | .proceed => x.proceed | .goOn => x.goOn | .newJobs => x.newJobs | .newPrime => x.newPrime | .done => x.done
  | .scan => x.scan | .pool => x.pool

def Flags.put (x : Flags) (f : Flag) (v : Bool) : Flags :=
  match f with
  | .proceed => { x with proceed := v } | .goOn => { x with goOn := v } | .newJobs => { x with newJobs := v }
  | .newPrime => { x with newPrime := v } | .done => { x with done := v } | .scan => { x with scan := v }
  | .pool => { x with pool := v }

/-- The state without the counters of the marks. `owner`: who holds the mutex. -/
structure Ctl where
  main : Thread
  mpi : Thread
  owner : Option Tid
  flags : Flags
  deriving DecidableEq, Repr

def Ctl.thread (c : Ctl) : Tid → Thread
  | .main => c.main
  | .mpi => c.mpi

def Ctl.put (c : Ctl) : Tid → Thread → Ctl
  | .main, x => { c with main := x }
  | .mpi, x => { c with mpi := x }

def Tid.other : Tid → Tid
  | .main => .mpi
  | .mpi => .main

/-- The instruction a thread is at. -/
def Thread.ins (x : Thread) : Option Ins := (code x.block)[x.pc]?

def Thread.next (x : Thread) : Thread := { x with pc := x.pc + 1 }

/-- The block is at its end. -/
def Thread.over (x : Thread) : Bool := x.pc == (code x.block).length

/-- The main thread has left `reconstruct` (apart from waiting for the communication thread). -/
def Ctl.returned (c : Ctl) : Bool :=
  c.main.over && (c.main.block == .finish || c.main.block == .allDone || c.main.block == .limit || c.main.block == .leave)

/-- The main thread feeds results and asks for more probes: it is not in a hand-over. -/
def Ctl.working (c : Ctl) : Bool := c.main.over && !c.returned

/-- The communication thread serves the workers (the loop of `mpi_communicate`, lines 4009-4028, 4260-4376). -/
def Ctl.serving (c : Ctl) : Bool := c.mpi.over && c.mpi.block != .stop

/-- The communication thread has ended. -/
def Ctl.ended (c : Ctl) : Bool := c.mpi.over && c.mpi.block == .stop

/-- `notify_one`: a sleeping thread wakes up (only the other one can sleep). -/
def wake (x : Thread) : Thread := if x.mode = .asleep then { x with mode := .woken } else x

/-- The next step of a thread; `b` resolves `drop`. For `take`, `b` says where the result comes from: a local job, or a worker (its results are only stored while the communication thread serves and sees no signal, lines 4021-4030,
4336-4347). That a result arrives between these instructions is not a step of its own: it arrives with `take`. In the block `limit` no probe is left to local jobs. -/
def exec (c : Ctl) (t : Tid) (b : Bool) : Option Ctl :=
  let x := c.thread t
  match x.ins with
  | none => none
  | some .lock => if c.owner = none then some { c.put t x.next with owner := some t } else none
  | some .unlock => some { c.put t x.next with owner := none }
  | some .notify => some ((c.put t x.next).put t.other (wake (c.thread t.other)))
  | some (.set f v) => some { c.put t x.next with flags := c.flags.put f v }
  | some (.drop f) => some { c.put t x.next with flags := if b then c.flags.put f false else c.flags }
  | some (.mark _) => some (c.put t x.next)
  | some .take =>
    if (if b then c.flags.pool && x.block != .limit else c.serving && !c.flags.newPrime && !c.flags.done) then some (c.put t x.next) else none
  | some (.wait f) =>
    match x.mode with
    | .run => if c.flags.get f then some (c.put t x.next) else some (c.put t { x with mode := .armed })
    | .armed => some { c.put t { x with mode := .asleep } with owner := none }
    | .asleep => none
    | .woken => if c.owner = none then some { c.put t { x with mode := .run } with owner := some t } else none

/-- Settings. `start`: how the run starts; `scan`: the scan for a shift is enabled; `limit`, `leave`: the special cases can occur; `spurious f`: waiting for `f` may end spuriously. -/
structure Cfg where
  start : Block := .start
  scan : Bool := false
  limit : Bool := false
  leave : Bool := false
  spurious : Flag → Bool := fun _ => false

/-- The steps. `main`, `mpi`: the next instruction of the thread; `begin k`: the main thread decides on its next block; `poll`: the communication thread sees a signal (lines 4021-4030, 4117; the reads of `new_prime`, `done`,
`scan` are one step: they are only changed by the main thread, which then waits); `noise`: `new_jobs` is changed by a local job
(2991, 3362) or, to false, by the communication thread (4291, 4364); `spurious`: a sleeping thread wakes up without `notify_one`. -/
inductive Event
  | main (b : Bool) | mpi (b : Bool)
  | begin (k : Block)
  | poll
  | noise (b : Bool)
  | spurious (t : Tid)
  deriving DecidableEq, Repr

/-- The blocks from which the main thread can choose: with `scan`, `done` is the end of a run of the scan, else the end. -/
def Cfg.may (cfg : Cfg) (c : Ctl) : Block → Bool
  | .feed => true
  | .newPrime => true
  | .scanRun => c.flags.scan
  | .finish => !c.flags.scan
  | .limit => cfg.limit && !c.flags.scan
  | .leave => cfg.leave
  | _ => false

/-- The flag a thread waits for. -/
def Thread.waitsFor (x : Thread) : Option Flag :=
  match x.ins with
  | some (.wait f) => some f
  | _ => none

def cstep (cfg : Cfg) (c : Ctl) : Event → Option Ctl
  | .main b => exec c .main b
  | .mpi b => exec c .mpi b
  | .begin k => if c.working && cfg.may c k then some { c with main := ⟨k, 0, .run⟩ } else none
  | .poll =>
    if c.serving then
      if c.flags.done && !c.flags.scan then some { c with mpi := ⟨.stop, 0, .run⟩ }
      else if c.flags.newPrime || c.flags.done then some { c with mpi := ⟨.change, 0, .run⟩ }
      else none
    else none
  | .noise b => if c.flags.pool || (c.serving && !b) then some { c with flags := c.flags.put .newJobs b } else none
  | .spurious t =>
    match (c.thread t).mode, (c.thread t).waitsFor with
    | .asleep, some f => if cfg.spurious f then some (c.put t { c.thread t with mode := .woken }) else none
    | _, _ => none

/-- The state: control and how often each mark was passed. -/
structure State where
  ctl : Ctl
  seen : Mark → ℕ

/-- Which mark a step passes. -/
def passes (c : Ctl) : Event → Option Mark
  | .main _ => match c.main.ins with | some (.mark m) => some m | _ => none
  | .mpi _ => match c.mpi.ins with | some (.mark m) => some m | _ => none
  | _ => none

def init (cfg : Cfg) : State := ⟨⟨⟨cfg.start, 0, .run⟩, ⟨.init, 0, .run⟩, none, { scan := cfg.scan }⟩, fun _ => 0⟩

def step (cfg : Cfg) (s : State) (e : Event) : Option State :=
  (cstep cfg s.ctl e).map fun c => ⟨c, fun m => s.seen m + if passes s.ctl e = some m then 1 else 0⟩

def run (cfg : Cfg) (s : State) : List Event → Option State
  | [] => some s
  | e :: es => (step cfg s e).bind (run cfg · es)

end FireFly.Handshake
