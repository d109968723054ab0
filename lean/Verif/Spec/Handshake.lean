import Verif.Model.Handshake
/-! # What C49 says about the hand-over between the two threads of the master -/
namespace FireFly.Handshake

/-- A fresh run or one resumed in the middle of the first prime field, in which the largest number of primes is not reached and which does not stop after the factor scan. Waiting may end spuriously, except that for `new_jobs`. -/
structure Cfg.Plain (cfg : Cfg) : Prop where
  start : cfg.start = .start ∨ cfg.start = .resume
  limit : cfg.limit = false
  leave : cfg.leave = false
  spurious : cfg.spurious .newJobs = false

/-- A state that the program can reach. -/
def Reachable (cfg : Cfg) (s : State) : Prop := ∃ es, run cfg (init cfg) es = some s

/-- Both threads are through: `reconstruct` returns. -/
def Finished (s : State) : Prop := s.ctl.returned = true ∧ s.ctl.ended = true

/-- The steps of the two threads. -/
def Event.isStep : Event → Bool
  | .main _ | .mpi _ | .poll => true
  | _ => false

/-- A step that does not depend on the grace of local jobs: the communication thread has to fetch results from the workers. Only at the start of a run, before it works, the local jobs are sure to have probes (line 2035-2064). -/
def sure (c : Ctl) : Event → Bool
  | .main b => !b || c.main.ins != some .take || c.main.block == .start
  | .mpi _ | .poll => true
  | _ => false

/-- The threads wait for each other for ever: no thread can take a step, although the main thread is not through. -/
def Deadlock (cfg : Cfg) (s : State) : Prop :=
  ¬ Finished s ∧ s.ctl.working = false ∧ ∀ e, e.isStep = true → step cfg s e = none

/-- Steps that a decision of the main thread or a spurious wake-up can cause. -/
def Event.cost : Event → ℕ
  | .begin _ => 250
  | .spurious _ => 3
  | _ => 0

end FireFly.Handshake
