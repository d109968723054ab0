import Verif.Lemmas.MpiEnd
/-! # C48: the distribution of probes over MPI workers -/
set_option linter.all false
namespace FireFly.Mpi

/-- The program never reads beyond the end of a message and never exits with "Corrupted results", whatever the order in which messages arrive, threads run and probes are requested. -/
theorem C48_safe (c : Cfg) (V : c.Valid) (s : State c.m) (h : Reachable c s) : s.fault = false := by
  obtain ⟨a, comp, I⟩ := h.inv V
  exact I.fault

/-- Every stored result belongs to a probe requested in the current prime field and holds the residues at the point of this probe. -/
theorem C48_values (c : Cfg) (V : c.Valid) (s : State c.m) (h : Reachable c s) (d : List ℕ × List (List ℕ)) (hd : d ∈ s.computed) : Correct c s d := by
  obtain ⟨a, comp, I⟩ := h.inv V
  rw [I.cmp] at hd
  obtain ⟨ps, hps, rfl⟩ := List.mem_map.mp hd
  refine stored_correct V ps ?_ I.logN
  intro p hp
  have := Multiset.mem_of_le I.mem_comp (show p ∈ (comp.flatten : Multiset Probe) from List.mem_flatten.mpr ⟨ps, hps, hp⟩)
  exact this

/-- No probe is delivered twice, and the indices of the requested probes are `0, 1, 2, …`: an index names one probe. -/
theorem C48_once (c : Cfg) (V : c.Valid) (s : State c.m) (h : Reachable c s) :
    (delivered s).Nodup ∧ (∀ i ∈ delivered s, ∃ v, (i, v) ∈ s.log) ∧ s.log.map Prod.fst = List.range s.log.length := by
  obtain ⟨a, comp, I⟩ := h.inv V
  have hle := I.mem_comp
  have hlen : s.log.length = s.ind := by have := congrArg List.length I.logInd; simpa using this
  refine ⟨?_, ?_, by rw [I.logInd, hlen]⟩
  · rw [I.delivered_eq]
    have h1 := Multiset.map_le_map (f := Prod.fst) hle
    have h2 : (Multiset.map Prod.fst (s.log : Multiset Probe)).Nodup := by
      rw [Multiset.map_coe, Multiset.coe_nodup, I.logInd]; exact List.nodup_range
    have := Multiset.nodup_of_le h1 h2
    rwa [Multiset.map_coe, Multiset.coe_nodup] at this
  · intro i hi
    rw [I.delivered_eq] at hi
    obtain ⟨p, hp, rfl⟩ := List.mem_map.mp hi
    exact ⟨p.2, Multiset.mem_of_le hle hp⟩

/-- No deadlock and no lost probe. When nothing can happen any more without the rest of the program, then either the communication thread polls, nothing else was asked for, every requested probe has been delivered and each worker is registered as waiting for new probes; or all processes wait for the first
probes of the next prime field; or `communicate` has returned in all processes. -/
theorem C48_progress (c : Cfg) (V : c.Valid) (s : State c.m) (h : Reachable c s) (hb : s.log.length + 2 ^ 32 < 2 ^ 64) (q : Quiet c s) :
    (s.phase = .poll ∧ s.newPrime = false ∧ s.done = false ∧ AllDelivered s ∧ ∀ i, i ∈ s.emptyNodes.map Prod.fst) ∨
    (s.phase = .refill ∧ s.newJobs = false ∧ (s.newPrime = false → s.done = false → AllDelivered s) ∧ ∀ i, (s.node i).phase = .between) ∨
    (s.phase = .off ∧ s.done = true ∧ ∀ i, (s.node i).phase = .off) := by
  obtain ⟨a, comp, I⟩ := h.inv V
  rcases quiet_cases V I q hb with h1 | h1 | h1
  · exact Or.inl h1
  · exact Or.inr (Or.inl h1)
  · exact Or.inr (Or.inr ⟨h1.1, h.asked.1 (by rw [h1.1]; rfl), h1.2⟩)

/-- As long as neither the next prime nor the end was asked for, nothing is lost: when the processes rest, every requested probe has been delivered. -/
theorem C48_complete (c : Cfg) (V : c.Valid) (s : State c.m) (h : Reachable c s) (hb : s.log.length + 2 ^ 32 < 2 ^ 64) (q : Quiet c s) (hp : s.newPrime = false) (hd : s.done = false) : AllDelivered s := by
  rcases C48_progress c V s h hb q with h1 | h1 | h1
  · exact h1.2.2.2.1
  · exact h1.2.2.1 hp hd
  · rw [h1.2.1] at hd; cases hd

/-- `END` reaches all workers only after the end was asked for, `NEW_PRIME` only after the next prime was asked for. -/
theorem C48_signal (c : Cfg) (s : State c.m) (h : Reachable c s) :
    (s.phase = .bar1 true ∨ s.phase = .off → s.done = true) ∧ (s.phase = .bar1 false → s.newPrime = true) :=
  ⟨fun hp => h.asked.1 (by rcases hp with hp | hp <;> rw [hp] <;> rfl), fun hp => h.asked.2 (by rw [hp]; rfl) (by rw [hp]; rfl)⟩

/-- Without new requests of the rest of the program the processes come to rest: the number of steps is bounded. Together with `C48_progress`: every schedule ends in one of the three states named there. -/
theorem C48_terminates (c : Cfg) (V : c.Valid) (s : State c.m) (h : Reachable c s) :
    ∃ N, ∀ es s', (∀ e ∈ es, e.env = false) → run c s es = some s' → es.length ≤ N := by
  obtain ⟨a, comp, I⟩ := h.inv V
  exact ⟨measure c s a, fun es s' he hr => run_len V es s s' a comp I he hr⟩

/-- From every reachable state the processes can come to rest (and by `C48_terminates` have to). -/
theorem C48_rest (c : Cfg) (V : c.Valid) (s : State c.m) (h : Reachable c s) : ∃ es s', (∀ e ∈ es, e.env = false) ∧ run c s es = some s' ∧ Quiet c s' := by
  obtain ⟨a, comp, I⟩ := h.inv V
  exact run_rest V _ s a comp I (le_refl _)

theorem restartLoop_all (c : Cfg) (ts : List (Fin c.m × ℕ)) : ∀ s : State c.m, (restartLoop c s ts).requested = [] ∨ (restartLoop c s ts).emptyNodes = [] := by
  induction ts with
  | nil => intro s; exact Or.inr rfl
  | cons t ts ih =>
    intro s
    rw [restartLoop]
    split_ifs with h
    · exact ih _
    · push Not at h; exact Or.inl h

/-- When `new_jobs` is set, the communication thread serves the waiting workers until no probe or no waiting worker is left. -/
theorem C48_woken (c : Cfg) (s : State c.m) (hp : s.phase = .poll) (h1 : s.newPrime = false) (h2 : s.done = false) (hn : s.newJobs = true) (he : s.emptyNodes ≠ []) :
    ∃ s', step c s .restart = some s' ∧ (s'.requested = [] ∨ s'.emptyNodes = []) := by
  refine ⟨(restartLoop c s s.emptyNodes).testEmpty, ?_, ?_⟩
  · simp only [step, restartStep, hp]
    rw [if_neg (by simp [h1, h2]), if_pos ⟨he, hn⟩]
  · have := restartLoop_all c s.emptyNodes s
    unfold State.testEmpty
    split_ifs <;> exact this

/-! ### A run -/

/-- Two workers with one and two threads, two functions in one variable. -/
def demo : Cfg := { m := 2, n := 1, items := 2, thr := 1, bunch := 2, wthr := fun i => i.val + 1, wbunch := fun _ => 2, f := fun k v => [k + v.sum, 7 * v.sum] }

theorem demo_valid : demo.Valid :=
  ⟨by decide, by decide, by decide, by decide, by decide, fun k v hv => by simp [demo]⟩

def demoRun : List (Event 2) :=
  [.send 0, .first [[10], [11]], .call, .queue [90] false, .setFlag, .submit, .send 1, .first [[20], [21], [22], [23]], .first [], .take 1, .queueJob 1, .count 1, .take 0, .queueJob 0, .compute 0 0,
   .count 0, .queueJob 0, .send 0, .recv 0, .reply, .queueJob 1, .count 1, .queueJob 1, .count 1, .queueJob 1, .compute 1 1, .compute 1 1, .compute 1 0, .send 1, .recv 1, .reply, .take 0, .queueJob 0, .count 0, .queueJob 0, .compute 0 0, .send 0,
   .recv 0, .reply, .getJob]

set_option synthInstance.maxSize 4000 in
theorem demo_run : (run demo {} demoRun).map (fun s : State 2 => (s.log.length, s.computed, s.emptyNodes)) =
    some (7, [([0, 1], [[10, 11], [70, 77]]), ([5, 6, 3, 4], [[22, 23, 20, 21], [154, 161, 140, 147]]), ([2], [[90], [630]])], [(1, 4), (0, 2)]) := by
  decide +kernel

/-- The hypotheses of the theorems are met: a reachable state with everything delivered. -/
example : ∃ s, Reachable demo s ∧ s.log.length = 7 ∧ s.log.length + 2 ^ 32 < 2 ^ 64 ∧ AllDelivered s := by
  cases h : run demo {} demoRun with
  | none => have := demo_run; rw [h] at this; cases this
  | some s =>
    have h1 := demo_run
    rw [h] at h1
    injection h1 with h1
    injection h1 with h2 h1
    injection h1 with h3 _
    refine ⟨s, ⟨_, h⟩, h2, by rw [h2]; norm_num, ?_⟩
    have hl := (C48_once demo demo_valid s ⟨_, h⟩).2.2
    unfold AllDelivered delivered
    rw [hl, h2, h3]
    decide

/-- The next prime field, two further probes, one for a worker and one for a local thread, and the end. -/
def demoRun2 : List (Event 2) :=
  demoRun ++ [.askPrime, .clear, .notice, .take 0, .take 1, .barrier1, .last 1, .last 0, .drain, .drain, .drain, .barrier2, .call, .queue [4] false, .submit, .getJob, .queue [5] true, .setFlag, .start, .submit, .send 1, .send 0, .collect, .collect,
    .collect, .take 0, .queueJob 0, .count 0, .queueJob 0, .compute 0 0, .localDone 0, .check, .clearFlag, .send 0, .recv 0, .askEnd, .reply, .notice, .take 0, .take 1, .barrier1, .last 1, .last 0, .drain, .drain, .drain, .barrier2, .getJob]

theorem demo_run2 : (run demo {} demoRun2).map (fun s : State 2 => (s.log, s.computed, s.field)) = some ([(0, [4]), (1, [5])], [([0], [[5], [28]]), ([1], [[6], [35]])], 1) ∧
    (run demo {} demoRun2).map (fun s : State 2 => ((s.phase matches .off), ((s.node 0).phase matches .off), ((s.node 1).phase matches .off))) = some (true, true, true) := by
  decide +kernel

/-! ### What goes wrong -/

/-- A worker with a bunch size that is no power of two (`MPIWorker` does not check it). -/
def odd : Cfg := { m := 1, n := 1, items := 1, thr := 1, bunch := 4, wthr := fun _ => 1, wbunch := fun _ => 3, f := fun _ v => [v.sum] }

def oddRun : List (Event 1) :=
  [.send 0, .first [[10], [11]], .first [], .take 0, .queueJob 0, .count 0, .queueJob 0, .compute 0 0, .send 0, .call, .queue [1] false, .queue [2] false, .queue [3] false, .queue [4] false, .setFlag, .recv 0, .reply,
   .take 0, .queueJob 0, .count 0, .queueJob 0, .count 0, .queueJob 0, .compute 0 0, .send 0, .recv 0, .reply, .take 0, .queueJob 0, .submit, .submit, .submit, .submit, .getJob, .getJob, .getJob, .getJob]

def oddEnd : State 1 := (run odd {} oddRun).getD {}

theorem odd_run : run odd {} oddRun = some oddEnd := by
  have : (run odd {} oddRun).isSome = true := by decide +kernel
  obtain ⟨s, h⟩ := Option.isSome_iff_exists.mp this
  rw [oddEnd, h]; rfl

theorem fin1 (i : Fin 1) : i = 0 := Subsingleton.elim _ _

/-- `MPIWorker` accepts every bunch size, but starts jobs for `1, 2, 4, …, 128` only: with bunch size 3 three of four requested probes get lost, and then all processes wait for ever, the worker because it counts a task that does not exist. -/
theorem C48_bunch_violated : ∃ (c : Cfg) (s : State c.m), c.bunch ∈ bunchSizes ∧ (∀ i, c.wbunch i = 3) ∧ Reachable c s ∧ Quiet c s ∧ s.phase = .poll ∧ ¬ AllDelivered s ∧
    s.log.map Prod.fst = [0, 1, 2, 3, 4, 5] ∧ delivered s = [0, 1, 5] := by
  have hl : oddEnd.log.map Prod.fst = [0, 1, 2, 3, 4, 5] := by decide +kernel
  have hd : delivered oddEnd = [0, 1, 5] := by decide +kernel
  have hph : oddEnd.phase = .poll := by
    have : (oddEnd.phase matches .poll) = true := by decide +kernel
    revert this
    cases oddEnd.phase <;> simp
  refine ⟨odd, oddEnd, by decide, fun _ => rfl, ⟨_, odd_run⟩, ?_, hph, ?_, hl, hd⟩
  · intro e he
    have hnode : (oddEnd.node 0).phase = .top ∧ (oddEnd.node 0).out = [] ∧ (oddEnd.node 0).inn = [] ∧ (oddEnd.node 0).pool = [] ∧ (oddEnd.node 0).tasks = 1 ∧ (oddEnd.node 0).results = [] := by
      have h1 : ((oddEnd.node 0).phase matches .top) = true := by decide +kernel
      refine ⟨?_, by decide +kernel, by decide +kernel, by decide +kernel, by decide +kernel, by decide +kernel⟩
      revert h1
      cases (oddEnd.node 0).phase <;> simp
    obtain ⟨n1, n2, n3, n4, n5, n6⟩ := hnode
    have g1 : oddEnd.newPrime = false := by decide +kernel
    have g2 : oddEnd.done = false := by decide +kernel
    have g3 : oddEnd.emptyNodes = [] := by decide +kernel
    have g4 : oddEnd.flags = 0 := by decide +kernel
    have g5 : oddEnd.owed = 0 := by decide +kernel
    have g6 : oddEnd.jobs = 0 := by decide +kernel
    have g7 : oddEnd.localRun = [] := by decide +kernel
    have g8 : oddEnd.checks = 0 := by decide +kernel
    have g9 : oddEnd.clears = 0 := by decide +kernel
    cases e with
    | first vs => simp [step, firstStep, hph]
    | recv i => rw [fin1 i]; simp [step, recvStep, hph, n2]
    | reply => simp [step, replyStep, hph]
    | restart => simp only [step, restartStep, hph, g1, g2, g3]; rfl
    | notice => simp [step, noticeStep, hph, g1, g2]
    | barrier1 => simp [step, barrier1Step, hph]
    | drain => simp [step, drainStep, hph]
    | barrier2 => simp [step, barrier2Step, hph]
    | start => simp [step, startStep, hph]
    | collect => simp [step, collectStep, hph]
    | send i => rw [fin1 i]; simp only [step, sendStep, n1, n5, n6]; rfl
    | take i => rw [fin1 i]; simp only [step, takeStep, n1]
    | queueJob i => rw [fin1 i]; simp only [step, queueStep, n1]
    | count i => rw [fin1 i]; simp only [step, countStep, n1]
    | compute i k => rw [fin1 i]; simp only [step, computeStep, n4]; rfl
    | last i => rw [fin1 i]; simp only [step, lastStep, n1]
    | setFlag => simp [step, g4]
    | submit => simp [step, g5]
    | getJob => simp [step, getJobStep, g6]
    | localDone k => simp [step, localDoneStep, g7]
    | check => simp [step, g8]
    | clearFlag => simp [step, g9]
    | _ => simp [Event.env] at he
  · intro h
    replace h : (delivered oddEnd).Perm (oddEnd.log.map Prod.fst) := h
    rw [hd, hl] at h
    have := h.length_eq
    simp at this

/-- A master that is started with one thread gives this thread to the communication (`thr_n = thr_n_ - 1`): with a bunch size above one the first reply divides by zero. -/
theorem C48_one_thread_violated : ∃ (c : Cfg) (es : List (Event c.m)), c.thr = 1 - 1 ∧ c.bunch = 2 ∧ (∀ i, c.wbunch i = 2) ∧ (run c {} es).map State.fault = some true :=
  ⟨{ m := 1, n := 1, items := 1, thr := 0, bunch := 2, wthr := fun _ => 1, wbunch := fun _ => 2, f := fun _ v => [v.sum] },
    [.send 0, .first [[10], [11]], .first [], .call, .queue [1] false, .setFlag, .take 0, .queueJob 0, .count 0, .queueJob 0, .compute 0 0, .send 0, .recv 0, .reply], rfl, rfl, fun _ => rfl, by decide +kernel⟩

/-! ### Idle workers -/

def solo : Cfg := { m := 1, n := 1, items := 1, thr := 1, bunch := 1, wthr := fun _ => 1, wbunch := fun _ => 1, f := fun _ v => [v.sum] }

theorem solo_valid : solo.Valid := ⟨by decide, by decide, by decide, by decide, by decide, fun k v hv => by simp [solo]⟩

/-- The worker gets its first two probes, delivers them and is parked. A local thread computes the next probe, finds the queue empty; before it sets `new_jobs = false`, a further probe is queued. -/
def idleRun : List (Event 1) :=
  [.send 0, .first [[10], [11]], .first [], .take 0, .queueJob 0, .count 0, .queueJob 0, .count 0, .queueJob 0, .compute 0 0, .compute 0 0, .send 0, .recv 0, .reply,
   .call, .queue [1] false, .setFlag, .submit, .getJob, .localDone 0, .check, .call, .queue [2] false, .setFlag, .clearFlag]

def idleEnd : State 1 := (run solo {} idleRun).getD {}

theorem idle_run : run solo {} idleRun = some idleEnd := by
  have : (run solo {} idleRun).isSome = true := by decide +kernel
  obtain ⟨s, h⟩ := Option.isSome_iff_exists.mp this
  rw [idleEnd, h]; rfl

/-- Nothing wakes the worker up. -/
structure Asleep (x : Node) (s : State 1) : Prop where
  phase : s.phase = .poll
  newPrime : s.newPrime = false
  done : s.done = false
  newJobs : s.newJobs = false
  flags : s.flags = 0
  node : s.node 0 = x
  xphase : x.phase = .waiting
  xinn : x.inn = []
  xout : x.out = []
  xpool : x.pool = []

theorem asleep_step {x : Node} {s s' : State solo.m} (h : Asleep x s) (e : Event solo.m) (he : e.env = false) (hs : step solo s e = some s') : Asleep x s' := by
  have hn := h.node
  cases e with
  | first vs => simp [step, firstStep, h.phase] at hs
  | recv i => rw [fin1 i] at hs; simp [step, recvStep, h.phase, hn, h.xout] at hs
  | reply => simp [step, replyStep, h.phase] at hs
  | restart => simp [step, restartStep, h.phase, h.newJobs] at hs
  | notice => simp [step, noticeStep, h.phase, h.newPrime, h.done] at hs
  | barrier1 => simp [step, barrier1Step, h.phase] at hs
  | drain => simp [step, drainStep, h.phase] at hs
  | barrier2 => simp [step, barrier2Step, h.phase] at hs
  | start => simp [step, startStep, h.phase] at hs
  | collect => simp [step, collectStep, h.phase] at hs
  | send i => rw [fin1 i] at hs; simp [step, sendStep, hn, h.xphase] at hs
  | take i => rw [fin1 i] at hs; simp [step, takeStep, hn, h.xphase, h.xinn] at hs
  | queueJob i => rw [fin1 i] at hs; simp [step, queueStep, hn, h.xphase] at hs
  | count i => rw [fin1 i] at hs; simp [step, countStep, hn, h.xphase] at hs
  | compute i k => rw [fin1 i] at hs; simp [step, computeStep, hn, h.xpool] at hs
  | last i => rw [fin1 i] at hs; simp [step, lastStep, hn, h.xphase] at hs
  | setFlag => simp [step, h.flags] at hs
  | submit =>
    simp only [step] at hs
    split_ifs at hs
    rw [← Option.some.inj hs]
    exact ⟨h.phase, h.newPrime, h.done, h.newJobs, h.flags, h.node, h.xphase, h.xinn, h.xout, h.xpool⟩
  | getJob =>
    simp only [step, getJobStep] at hs
    split_ifs at hs with h1 h2
    · rw [← Option.some.inj hs]
      exact ⟨h.phase, h.newPrime, h.done, h.newJobs, h.flags, h.node, h.xphase, h.xinn, h.xout, h.xpool⟩
    · split at hs
      · rw [← Option.some.inj hs]
        exact ⟨h.phase, h.newPrime, h.done, h.newJobs, h.flags, h.node, h.xphase, h.xinn, h.xout, h.xpool⟩
      · split_ifs at hs <;> (rw [← Option.some.inj hs]; exact ⟨h.phase, h.newPrime, h.done, h.newJobs, h.flags, h.node, h.xphase, h.xinn, h.xout, h.xpool⟩)
  | localDone k =>
    simp only [step, localDoneStep] at hs
    split at hs
    · rw [← Option.some.inj hs]
      exact ⟨h.phase, h.newPrime, h.done, h.newJobs, h.flags, h.node, h.xphase, h.xinn, h.xout, h.xpool⟩
    · cases hs
  | check =>
    simp only [step] at hs
    by_cases hc : s.checks = 0
    · rw [if_pos hc] at hs; cases hs
    rw [if_neg hc] at hs
    rw [← Option.some.inj hs]
    exact ⟨h.phase, h.newPrime, h.done, h.newJobs, h.flags, h.node, h.xphase, h.xinn, h.xout, h.xpool⟩
  | clearFlag =>
    simp only [step] at hs
    split_ifs at hs
    rw [← Option.some.inj hs]
    exact ⟨h.phase, h.newPrime, h.done, rfl, h.flags, h.node, h.xphase, h.xinn, h.xout, h.xpool⟩
  | _ => simp [Event.env] at he

theorem asleep_run {x : Node} : ∀ (es : List (Event solo.m)) (s s' : State solo.m), Asleep x s → (∀ e ∈ es, e.env = false) → run solo s es = some s' → Asleep x s'
  | [], s, s', h, _, hr => by cases hr; exact h
  | e :: es, s, s', h, he, hr => by
    rw [run] at hr
    split_ifs at hr
    cases hs : step solo s e with
    | none => rw [hs] at hr; cases hr
    | some s1 =>
      rw [hs] at hr
      exact asleep_run es s1 s' (asleep_step h e (he e (by simp)) hs) (fun y hy => he y (by simp [hy])) hr

/-- Probes can wait in the queue while all workers are idle: `get_job` tests the queue without the mutex and sets `new_jobs = false` after a further probe has been queued and announced. Then, as long as there is no new call of `queue_probes`, no
worker gets anything, whatever the schedule; the probe is left to the threads of the master. -/
theorem C48_idle_violated : ∃ (c : Cfg) (s : State c.m), c.Valid ∧ Reachable c s ∧ s.requested ≠ [] ∧ s.emptyNodes.length = c.m ∧ s.newPrime = false ∧ s.done = false ∧
    ∀ es s', (∀ e ∈ es, e.env = false) → run c s es = some s' → s'.node = s.node := by
  refine ⟨solo, idleEnd, solo_valid, ⟨_, idle_run⟩, ?_, ?_, by decide +kernel, by decide +kernel, ?_⟩
  · have : (idleEnd.requested == [(3, [2])]) = true := by decide +kernel
    intro h; rw [h] at this; cases this
  · have : idleEnd.emptyNodes.length = 1 := by decide +kernel
    exact this
  · intro es s' he hr
    have hA : Asleep (idleEnd.node 0) idleEnd := by
      have h1 : (idleEnd.phase matches .poll) = true := by decide +kernel
      have h2 : ((idleEnd.node 0).phase matches .waiting) = true := by decide +kernel
      refine ⟨?_, by decide +kernel, by decide +kernel, by decide +kernel, by decide +kernel, rfl, ?_, by decide +kernel, by decide +kernel, by decide +kernel⟩
      · revert h1; cases idleEnd.phase <;> simp
      · revert h2; cases (idleEnd.node 0).phase <;> simp
    have := (asleep_run es idleEnd s' hA he hr).node
    funext i
    rw [fin1 i, this]

/-! ### The first packet -/

/-- If no random number is drawn twice, the packet of `send_first_jobs` holds the next indices with their points, and the numbers are stored under these indices. -/
theorem C48_first (pt : ℕ → List ℕ) : ∀ (k : ℕ) (ts chosen : List ℕ) (ind : ℕ), k ≤ ts.length → (ts.take k).Nodup → (∀ t ∈ ts.take k, t ∉ chosen) →
    ∃ ch, firstPack pt k ts chosen ind = some (packValues (number ind ((ts.take k).map pt)), ch, (ts.take k).mapIdx (fun j t => (ind + j, t)), ind + k)
  | 0, ts, chosen, ind, _, _, _ => ⟨chosen, by simp [firstPack, number, packValues]⟩
  | k + 1, [], chosen, ind, h, _, _ => by simp at h
  | k + 1, t :: ts, chosen, ind, h, hn, hd => by
    simp only [List.take_succ_cons, List.nodup_cons, List.mem_cons, forall_eq_or_imp] at hn hd
    obtain ⟨ch, ih⟩ := C48_first pt k ts (t :: chosen) (ind + 1) (by simpa using h) hn.2 (fun t' ht' hm => by
      rcases List.mem_cons.mp hm with rfl | hm
      · exact hn.1 ht'
      · exact hd.2 t' ht' hm)
    refine ⟨ch, ?_⟩
    rw [firstPack, if_neg hd.1, ih]
    have hf : ∀ (β : Type) (g : ℕ → ℕ → β), (fun j => g (ind + 1 + j)) = fun j => g (ind + (j + 1)) := by intro β g; funext j; rw [Nat.add_assoc, Nat.add_comm 1 j]
    simp [number, packValues, List.mapIdx_cons, Nat.add_assoc, Nat.add_comm 1]

example : ∃ ch, firstPack (fun t => [t, 2 * t]) 2 [7, 9, 11] [4] 5 = some ([5, 7, 14, 6, 9, 18], ch, [(5, 7), (6, 9)], 7) := ⟨[9, 7, 4], rfl⟩

/-- If the generator repeats a number, the index stays in the packet without a point: the worker evaluates the functions for index 1 at the point `[1]`, although this index stands for the random number 5. -/
theorem C48_first_violated : ∃ (pt : ℕ → List ℕ) (ts : List ℕ), (∀ t, (pt t).length = 1) ∧
    ∃ w ch m e, firstPack pt 2 ts [] 0 = some (w, ch, m, e) ∧ (1, 5) ∈ m ∧ readProbe 1 (w.take (2 * (1 + 1))) 1 = some (1, [1]) ∧ pt 5 ≠ [1] :=
  ⟨fun t => [t], [3, 3, 5], fun _ => rfl, [0, 3, 1, 1, 5], [5, 3], [(0, 3), (1, 5)], 2, by decide, by decide, by decide, by decide⟩

end FireFly.Mpi
