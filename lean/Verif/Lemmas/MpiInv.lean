import Verif.Lemmas.MpiCodec
import Verif.Spec.Mpi
import Verif.Props.CompareProps
import Mathlib.Algebra.BigOperators.Group.Finset.Basic
import Mathlib.Algebra.BigOperators.Fin
import Mathlib.Algebra.Order.Group.Multiset
/-! # The MPI protocol: the invariant and the measure -/
set_option linter.all false
namespace FireFly.Mpi
open Function (update)

/-! ### The state with the messages in decoded form -/

inductive AIn where
  | values (ps : List Probe)
  | newPrime
  | stop

inductive AOut where
  | free (w : ℕ)
  | results (k : ℕ) (ps : List Probe) (w : ℕ)
  | last

inductive APhase where
  | top
  | waiting
  | queueing (ps : List Probe) (st : ℕ)
  | counting (ps : List Probe) (st : ℕ)
  | bar1 (fin : Bool)
  | last (fin : Bool)
  | bar2 (fin : Bool)
  | between
  | off

structure ANode where
  out : List AOut
  inn : List AIn
  phase : APhase
  field : ℕ
  tasks : ℕ
  results : List Probe
  pool : List (List Probe)

def encOut (c : Cfg) : AOut → List ℕ
  | .free w => [w]
  | .results k ps w => packResults (c.f k) ps ++ [w]
  | .last => [0]

def encIn : AIn → ToWorker
  | .values ps => .values (packValues ps)
  | .newPrime => .newPrime
  | .stop => .stop

def encPhase : APhase → WPhase
  | .top => .top
  | .waiting => .waiting
  | .queueing ps st => .queueing (packValues ps) ps.length st
  | .counting ps st => .counting (packValues ps) ps.length st
  | .bar1 fin => .bar1 fin
  | .last fin => .last fin
  | .bar2 fin => .bar2 fin
  | .between => .between
  | .off => .off

def encNode (c : Cfg) (x : ANode) : Node :=
  { out := x.out.map (encOut c), inn := x.inn.map encIn, phase := encPhase x.phase, field := x.field, tasks := x.tasks,
    results := packResults (c.f x.field) x.results, pool := x.pool }

def AIn.probes : AIn → List Probe
  | .values ps => ps
  | _ => []
def AOut.probes : AOut → List Probe
  | .results _ ps _ => ps
  | _ => []
def APhase.rest : APhase → List Probe
  | .queueing ps st | .counting ps st => ps.drop st
  | _ => []

/-- The probes at a worker or on the way to or from it. -/
def ANode.acc (x : ANode) : Multiset Probe :=
  (x.out.flatMap AOut.probes : Multiset Probe) + (x.inn.flatMap AIn.probes : Multiset Probe) + (x.phase.rest : Multiset Probe) + (x.pool.flatten : Multiset Probe) + (x.results : Multiset Probe)

def AIn.wt : AIn → ℕ
  | .values ps => 8 + 40 * ps.length
  | _ => 10
def AOut.wt (o : AOut) : ℕ := 5 + 12 * o.probes.length
def APhase.wt : APhase → ℕ
  | .top => 6
  | .queueing ps st => 7 + 30 * (ps.length - st)
  | .counting ps st => 8 + 30 * (ps.length - st)
  | .bar1 _ => 8
  | .last _ => 7
  | _ => 0

def ANode.wt (x : ANode) : ℕ :=
  (x.out.map AOut.wt).sum + (x.inn.map AIn.wt).sum + x.phase.wt + 20 * x.pool.flatten.length + 15 * x.results.length

/-! ### The invariant -/

def notParked {m : ℕ} (en : List (Fin m × ℕ)) (i : Fin m) : Prop := ∀ t ∈ en, t.1 ≠ i
def notReply {m : ℕ} (ph : MPhase m) (i : Fin m) : Prop := ∀ w, ph ≠ .reply i w
def Cont (p : List (List Probe)) (t d : ℕ) : Prop := (∀ b ∈ p, b ≠ []) ∧ t < 2 ^ 64 ∧ (t + d) % 2 ^ 64 = p.length % 2 ^ 64
def Cleared (x : ANode) : Prop := x.pool = [] ∧ x.results = [] ∧ x.tasks = 0
def sigOf (fin : Bool) : AIn := if fin then .stop else .newPrime

/-- Where the turn is between a worker and the master. -/
inductive Place (c : Cfg) (ph : MPhase c.m) (fld : ℕ) (en : List (Fin c.m × ℕ)) (i : Fin c.m) (sg : List AIn) : ANode → Prop
  | top (t : ℕ) (r : List Probe) (p : List (List Probe)) (hp : notParked en i) (hr : notReply ph i) (hb : p ≠ [] ∨ r ≠ []) (hc : Cont p t 0) :
    Place c ph fld en i sg ⟨[], sg, .top, fld, t, r, p⟩
  | queueing (ps : List Probe) (st t : ℕ) (r : List Probe) (p : List (List Probe)) (hp : notParked en i) (hr : notReply ph i) (h1 : st ≤ ps.length) (h2 : ps.length < 2 ^ 31) (hn : ∀ q ∈ ps, q.2.length = c.n)
    (hb : st < ps.length ∨ p ≠ [] ∨ r ≠ []) (hc : Cont p t 0) : Place c ph fld en i sg ⟨[], sg, .queueing ps st, fld, t, r, p⟩
  | counting (ps : List Probe) (st t : ℕ) (r : List Probe) (p : List (List Probe)) (hp : notParked en i) (hr : notReply ph i) (h1 : st ≤ ps.length) (h2 : ps.length < 2 ^ 31) (hn : ∀ q ∈ ps, q.2.length = c.n)
    (hb : p ≠ [] ∨ r ≠ []) (hc : Cont p t 1) : Place c ph fld en i sg ⟨[], sg, .counting ps st, fld, t, r, p⟩
  | sent (ps : List Probe) (w t : ℕ) (r : List Probe) (p : List (List Probe)) (hp : notParked en i) (hr : notReply ph i) (hps : ps ≠ [])
    (hw : w = buffer * c.wthr i ↔ p = [] ∧ r = []) (hc : Cont p t 0) : Place c ph fld en i sg ⟨[.results fld ps w], sg, .waiting, fld, t, r, p⟩
  | replying (w t : ℕ) (r : List Probe) (p : List (List Probe)) (hp : notParked en i) (hr : ph = .reply i w)
    (hw : w = buffer * c.wthr i ↔ p = [] ∧ r = []) (hc : Cont p t 0) : Place c ph fld en i sg ⟨[], sg, .waiting, fld, t, r, p⟩
  | answered (ps : List Probe) (t : ℕ) (r : List Probe) (p : List (List Probe)) (hp : notParked en i) (hr : notReply ph i) (h2 : ps.length < 2 ^ 31)
    (hb : ps ≠ [] ∨ p ≠ [] ∨ r ≠ []) (hc : Cont p t 0) : Place c ph fld en i sg ⟨[], .values ps :: sg, .waiting, fld, t, r, p⟩
  | parked (h : (i, buffer * c.wthr i) ∈ en) (hr : notReply ph i) : Place c ph fld en i sg ⟨[], sg, .waiting, fld, 0, [], []⟩

/-- A worker that starts in a field. -/
inductive Fresh (c : Cfg) (fld : ℕ) (en : List (Fin c.m × ℕ)) (i : Fin c.m) : ANode → Prop
  | top (hp : notParked en i) : Fresh c fld en i ⟨[], [], .top, fld, 0, [], []⟩
  | sent (hp : notParked en i) : Fresh c fld en i ⟨[.free (buffer * c.wthr i)], [], .waiting, fld, 0, [], []⟩

/-- At most one message with results is under way. -/
def Pre (l : List AOut) : Prop := l = [] ∨ ∃ k ps w, l = [.results k ps w] ∧ ps ≠ []

/-- The state of worker `i`, depending on where the master is. -/
def NodeInv (c : Cfg) (ph : MPhase c.m) (fld : ℕ) (en : List (Fin c.m × ℕ)) (i : Fin c.m) (x : ANode) : Prop :=
  match ph with
  | .first k | .collect k => (i.val < k → Place c ph fld en i [] x) ∧ (k ≤ i.val → Fresh c fld en i x)
  | .poll | .reply _ _ => Place c ph fld en i [] x
  | .bar1 fin => Place c ph fld en i [sigOf fin] x ∨ (x.phase = .bar1 fin ∧ x.inn = [] ∧ Cleared x ∧ Pre x.out)
  | .drain fin k => x.inn = [] ∧ Cleared x ∧ (i.val < k → x.phase = .bar2 fin ∧ x.out = []) ∧
      (k ≤ i.val → (x.phase = .last fin ∧ Pre x.out) ∨ (x.phase = .bar2 fin ∧ ∃ pre, x.out = pre ++ [.last] ∧ Pre pre))
  | .bar2 fin => x.inn = [] ∧ Cleared x ∧ x.out = [] ∧ x.phase = .bar2 fin
  | .refill => x.inn = [] ∧ Cleared x ∧ x.out = [] ∧ x.phase = .between
  | .off => x.inn = [] ∧ Cleared x ∧ x.out = [] ∧ x.phase = .off

def runPhase {m : ℕ} : MPhase m → Bool
  | .first _ | .poll | .reply _ _ | .collect _ => true
  | _ => false

def livePhase {m : ℕ} : MPhase m → Bool
  | .first _ | .poll | .reply _ _ | .collect _ | .refill => true
  | _ => false

def Running {m : ℕ} (s : State m) : Prop := livePhase s.phase = true ∧ s.newPrime = false ∧ s.done = false

def EnOk (c : Cfg) (en : List (Fin c.m × ℕ)) : Prop := (en.map Prod.fst).Nodup ∧ ∀ t ∈ en, t.2 = buffer * c.wthr t.1

def SlotsOk (c : Cfg) (ph : MPhase c.m) (slots : Fin c.m → ℕ) : Prop := ∀ i : Fin c.m, (∀ k, ph = .first k → i.val < k) → slots i = buffer * c.wthr i

structure Inv (c : Cfg) (s : State c.m) (a : Fin c.m → ANode) (comp : List (List Probe)) : Prop where
  fault : s.fault = false
  node : s.node = fun i => encNode c (a i)
  cmp : s.computed = comp.map (stored c.items (c.f s.field))
  logLen : s.log.length < 2 ^ 64
  logN : ∀ p ∈ s.log, p.2.length = c.n
  logInd : s.log.map Prod.fst = List.range s.ind
  reqLen : s.requested.length < 2 ^ 31
  jobs : s.requested.length ≤ s.owed + s.jobs
  acc : (s.requested : Multiset Probe) + (s.localRun.flatten : Multiset Probe) + (comp.flatten : Multiset Probe) + ∑ i, (a i).acc ≤ (s.log : Multiset Probe)
  eq : Running s → (s.requested : Multiset Probe) + (s.localRun.flatten : Multiset Probe) + (comp.flatten : Multiset Probe) + ∑ i, (a i).acc = (s.log : Multiset Probe)
  en : runPhase s.phase = true → EnOk c s.emptyNodes
  slots : SlotsOk c s.phase s.slots
  nodes : ∀ i, NodeInv c s.phase s.field s.emptyNodes i (a i)

/-! ### The measure -/

def mwt (c : Cfg) : MPhase c.m → ℕ
  | .first k => 1 + ∑ i : Fin c.m, if k ≤ i.val then 20 + 80 * c.wthr i else 0
  | .poll => 0
  | .reply _ _ => 9
  | .bar1 _ => 60 * (c.m + 1)
  | .drain _ k => 50 * (c.m + 1) + (c.m + 1 - k)
  | .bar2 _ => 40 * (c.m + 1)
  | .refill => 30 * (c.m + 1)
  | .collect k => 20 * (c.m - k) + 1
  | .off => 0

def primeWt (c : Cfg) (np : Bool) (ph : MPhase c.m) : ℕ :=
  if np = true ∧ livePhase ph = true then 100 * (c.m + 1) else 0

def isFin {m : ℕ} : MPhase m → Bool
  | .bar1 fin | .drain fin _ | .bar2 fin => fin
  | .off => true
  | _ => false

def doneWt (c : Cfg) (done : Bool) (ph : MPhase c.m) : ℕ := if done = true ∧ isFin ph = false then 100 * (c.m + 1) else 0

/-- The part of the measure that does not concern the workers. -/
def ownWt (c : Cfg) (s : State c.m) : ℕ :=
  mwt c s.phase + primeWt c s.newPrime s.phase + doneWt c s.done s.phase + 100 * s.requested.length + 3 * s.flags + s.newJobs.toNat + 6 * s.owed + 4 * s.jobs +
    (s.localRun.map (fun b => 6 + 50 * b.length)).sum + 3 * s.checks + 2 * s.clears

def measure (c : Cfg) (s : State c.m) (a : Fin c.m → ANode) : ℕ := ownWt c s + ∑ i, (a i).wt

/-! ### Basic lemmas -/

theorem sum_update {m : ℕ} {M : Type} [AddCommMonoid M] (g : ANode → M) (a : Fin m → ANode) (i : Fin m) (x : ANode) :
    ∑ j, g (update a i x j) + g (a i) = ∑ j, g (a j) + g x := by
  rw [← Finset.add_sum_erase Finset.univ _ (Finset.mem_univ i), ← Finset.add_sum_erase Finset.univ (fun j => g (a j)) (Finset.mem_univ i)]
  have : ∑ j ∈ Finset.univ.erase i, g (update a i x j) = ∑ j ∈ Finset.univ.erase i, g (a j) := by
    apply Finset.sum_congr rfl
    intro j hj
    rw [Function.update_of_ne (Finset.ne_of_mem_erase hj)]
  rw [this, Function.update_self]
  abel

theorem update_node {c : Cfg} {s : State c.m} {a : Fin c.m → ANode} (h : s.node = fun i => encNode c (a i)) (i : Fin c.m) (x : ANode) :
    update s.node i (encNode c x) = fun j => encNode c (update a i x j) := by
  funext j
  by_cases hj : j = i
  · subst hj; simp
  · simp [Function.update_of_ne hj, h]

/-- A step of worker `i`. -/
theorem Inv.set {c : Cfg} {s : State c.m} {a : Fin c.m → ANode} {comp : List (List Probe)} (I : Inv c s a comp) (i : Fin c.m) (x : ANode)
    (hN : NodeInv c s.phase s.field s.emptyNodes i x) (hle : x.acc ≤ (a i).acc) (heq : Running s → x.acc = (a i).acc) (hwt : x.wt < (a i).wt) :
    ∃ a' comp', Inv c (s.setNode i (encNode c x)) a' comp' ∧ measure c (s.setNode i (encNode c x)) a' < measure c s a := by
  have hs := sum_update ANode.acc a i x
  have hw := sum_update ANode.wt a i x
  refine ⟨update a i x, comp, ⟨I.fault, update_node I.node i x, I.cmp, I.logLen, I.logN, I.logInd, I.reqLen, I.jobs, ?_, ?_, I.en, I.slots, ?_⟩, ?_⟩
  · refine le_trans ?_ I.acc
    show _ + ∑ j, (update a i x j).acc ≤ _
    apply add_le_add_right
    rw [← add_le_add_iff_right (a i).acc, hs]
    exact add_le_add_right hle _
  · intro hR
    refine Eq.trans ?_ (I.eq hR)
    show _ + ∑ j, (update a i x j).acc = _
    congr 1
    rw [heq hR] at hs
    exact add_right_cancel hs
  · intro j
    show NodeInv c s.phase s.field s.emptyNodes j _
    by_cases hj : j = i
    · subst hj; rw [Function.update_self]; exact hN
    · rw [Function.update_of_ne hj]; exact I.nodes j
  · have : ownWt c (s.setNode i (encNode c x)) = ownWt c s := rfl
    unfold measure
    rw [this]
    omega

/-- Probes anywhere are probes of the log. -/
theorem Inv.mem_log {c : Cfg} {s : State c.m} {a : Fin c.m → ANode} {comp : List (List Probe)} (I : Inv c s a comp) (i : Fin c.m) : (a i).acc ≤ (s.log : Multiset Probe) := by
  refine le_trans ?_ I.acc
  refine le_trans ?_ (Multiset.le_add_left _ _)
  exact Finset.single_le_sum (f := fun j => (a j).acc) (fun j _ => Multiset.zero_le _) (Finset.mem_univ i)

theorem Inv.len {c : Cfg} {s : State c.m} {a : Fin c.m → ANode} {comp : List (List Probe)} (I : Inv c s a comp) (i : Fin c.m) (p : Probe) (hp : p ∈ (a i).acc) : p.2.length = c.n :=
  I.logN p (Multiset.mem_of_le (I.mem_log i) hp)

theorem length_le_flatten {α : Type} (l : List (List α)) (h : ∀ b ∈ l, b ≠ []) : l.length ≤ l.flatten.length := by
  induction l with
  | nil => simp
  | cons b l ih =>
    have h1 := ih (fun x hx => h x (by simp [hx]))
    have h2 : 0 < b.length := List.length_pos_iff.mpr (h b (by simp))
    simp only [List.length_cons, List.flatten_cons, List.length_append]
    omega

theorem Inv.pool_lt {c : Cfg} {s : State c.m} {a : Fin c.m → ANode} {comp : List (List Probe)} (I : Inv c s a comp) (i : Fin c.m) (h : ∀ b ∈ (a i).pool, b ≠ []) : (a i).pool.length < 2 ^ 64 := by
  have h1 := length_le_flatten _ h
  have h2 := Multiset.card_le_card (I.mem_log i)
  have h3 : (a i).pool.flatten.length ≤ Multiset.card (a i).acc := by
    unfold ANode.acc
    simp only [Multiset.card_add, Multiset.coe_card]
    omega
  rw [Multiset.coe_card] at h2
  have := I.logLen
  omega

end FireFly.Mpi
