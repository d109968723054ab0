import Verif.Model.Mpi
/-! # What C48 says about the distribution of probes -/
namespace FireFly.Mpi

/-- Settings that the constructors of `Reconstructor` and `MPIWorker` should ensure. -/
structure Cfg.Valid (c : Cfg) : Prop where
  thr : 1 ≤ c.thr
  bunch : c.bunch ∈ bunchSizes
  wthr : ∀ i, 1 ≤ c.wthr i
  wthr' : ∀ i, 2 * c.wthr i < 2 ^ 31
  wbunch : ∀ i, c.wbunch i ∈ bunchSizes
  f : ∀ k v, v.length = c.n → (c.f k v).length = c.items

/-- A state that the program can reach. -/
def Reachable (c : Cfg) (s : State c.m) : Prop := ∃ es, run c {} es = some s

/-- Only the rest of the program (new calls of `queue_probes`, a request for the next prime or the end) can do something. -/
def Quiet (c : Cfg) (s : State c.m) : Prop := ∀ e : Event c.m, e.env = false → step c s e = none

/-- One package of results: each of its columns belongs to a probe that was requested in this prime field, and holds the residues of all functions at the point of this probe. -/
def Correct (c : Cfg) (s : State c.m) (d : List ℕ × List (List ℕ)) : Prop :=
  d.2.length = c.items ∧ (∀ row ∈ d.2, row.length = d.1.length) ∧
    ∀ r < d.1.length, ∃ v, (d.1[r]!, v) ∈ s.log ∧ ∀ j < c.items, (d.2[j]!)[r]! = (c.f s.field v)[j]!

/-- All indices for which results were stored in this field. -/
def delivered {m : ℕ} (s : State m) : List ℕ := s.computed.flatMap Prod.fst

/-- Every probe requested in this field has been delivered, none twice. -/
def AllDelivered {m : ℕ} (s : State m) : Prop := (delivered s).Perm (s.log.map Prod.fst)

end FireFly.Mpi
