import Verif.Model.NeededFeed
import Verif.Model.RatMulti
/-!
# The probes that are requested in the first prime field (source/RatReconst.cpp 663-716, 3738-3766, source/PolyReconst.cpp 952-959; source/include/firefly/Reconstructor.hpp 2020-2270, 2893-2990, 3017-3119, 3205-3280)

In the first prime field the number of probes is not known in advance. After each probe an object says which order vectors it wants next (`get_zi_orders`). Until the degrees are known this is `(1, …, 1)`, and the
Reconstructor only keeps the number of such probes in flight constant (`balance_of_ones`). Afterwards it queues the probes that are missing for the wanted order vectors (`started_probes`).

Simplifications: no factor scan, no scan of shifts, no MPI. The messages are left out. The counters are natural numbers, except for the subtraction in `get_zi_orders`, which may wrap.
-/
namespace FireFly

/-- `get_vandermonde_num_eqn` (source/PolyReconst.cpp 952-959): the number of values that are missing for the current Vandermonde system -/
def MPoly.St.vandermonde {F : Type} (s : MPoly.St F) : ℕ := if s.zi = 1 then 1 else s.recDegs.length - s.nums.length

namespace RMulti
variable {F : Type} [Field F] [DecidableEq F]

/-- The choice of the next order vector with `vandermonde_size` (source/RatReconst.cpp 663-710), see `pickNext`: `zi`, `curr_zi_order` and `vandermonde_size` -/
def pickVand (l : List (ℕ × MPoly.St F)) (start : (ℕ × List ℕ) × ℕ) : (ℕ × List ℕ) × ℕ :=
  l.foldl (fun b t =>
    if b.1.1 < t.2.zi + 1 then ((t.2.zi + 1, t.2.ord), t.2.vandermonde)
    else if b.1.1 = t.2.zi + 1 ∧ aGrtB t.2.ord b.1.2 = true then ((b.1.1, t.2.ord), t.2.vandermonde)
    else if b.1.1 = t.2.zi + 1 ∧ t.2.ord = b.1.2 ∧ b.2 < t.2.vandermonde then (b.1, t.2.vandermonde)
    else b) start

/-- `vandermonde_size`: it is computed together with `curr_zi_order` from the polynomials that are not done; these change only then. -/
def Cfg.vand (c : Cfg F) (s : St F) : ℕ := (pickVand (s.num.coefs ++ s.den.coefs) ((2, List.replicate (c.n - 1) 1), 1)).2

/-- `a - b` for `uint32_t` -/
def wrapSub (a b : ℕ) : ℕ := if b ≤ a then a - b else 2 ^ 32 + a - b

/-- The order vector of the `i`th of the following values of the Vandermonde system (source/RatReconst.cpp 3752-3754). -/
def advance (zi : ℕ) (ord : List ℕ) (i : ℕ) : List ℕ := ord.mapIdx (fun j x => if j + 2 < zi then x + i else x)

/-- `get_zi_orders` (source/RatReconst.cpp 3738-3766): the order vectors with the numbers of probes that are missing, and the size of the system. `none`: the loop does not end (`vandermonde_size` is zero). -/
def Cfg.orders (c : Cfg F) (s : St F) : Option (List (List ℕ × ℕ) × ℕ) :=
  let sub := match s.savedTi.find? s.ord with
    | some l => l.length
    | none => s.rows.length
  if s.zi < 3 then some ([(s.ord, wrapSub s.numEqn sub)], s.numEqn)
  else if c.vand s = 0 then none
  else some ((s.ord, wrapSub s.numEqn sub) ::
    (List.range' 1 (c.vand s - 1)).map (fun i => (advance s.zi s.ord i, wrapSub s.numEqn ((s.savedTi.find? (advance s.zi s.ord i)).getD []).length)), s.numEqn)

end RMulti

namespace First

/-- An object as the Reconstructor uses it in the first prime field: the state at the start, a probe `(t, order vector)` (the value is computed), `get_zi_orders`, and whether the object is done with this
field. `none`: undefined behaviour or an error. -/
structure Obj (F : Type) where
  S : Type
  init : S
  feed : S → F × List ℕ → Option S
  orders : S → Option (List (List ℕ × ℕ) × ℕ)
  done : S → Bool

/-- What a job still has to do after it has read the list of an object: the branch for `(1, …, 1)`, or an entry with the size of the system. -/
inductive Ask where
  | one
  | entry (el : List ℕ × ℕ) (size : ℕ)

/-- The choice of the branch (source/include/firefly/Reconstructor.hpp 3212, without factor scan, in the first prime field) -/
def asks (n : ℕ) (l : List (List ℕ × ℕ)) (size : ℕ) : List Ask :=
  if l.length = 1 ∧ (l.head?.map Prod.fst) = some (List.replicate (n - 1) 1) then [.one] else l.map (fun el => .entry el size)

/-- A field: `started_probes`, all probes queued so far, those computed (their results have been taken by a `feed_job`), `balance_of_ones`, and for each object its state, the probes it has got, whether a job has fed
it and has not yet read its list, and what the jobs still have to do with the lists they have read. -/
structure Fld (F : Type) {ι : Type} (objs : ι → Obj F) where
  started : FFMap ℕ
  probes : List (F × List ℕ)
  computed : List (F × List ℕ)
  balance : ℕ
  st : ∀ i, (objs i).S
  got : ι → List (F × List ℕ)
  pend : ι → Bool
  todo : ι → List Ask

/-- The start (`start_first_runs`, source/include/firefly/Reconstructor.hpp 2020-2270): `thr_n` probes `(1, …, 1)` have been queued, the values `ts ++ rest`; the bunch `ts` that was computed first has been fed to all objects; as many
probes as in this bunch, `more`, have been queued in addition. `st` are the states of the objects after this. -/
def Fld.start {F ι : Type} (objs : ι → Obj F) (n : ℕ) (ts rest more : List F) (st : ∀ i, (objs i).S) : Fld F objs :=
  { started := [(List.replicate (n - 1) 1, ts.length + rest.length + more.length)]
    probes := (ts ++ rest ++ more).map (fun t => (t, List.replicate (n - 1) 1))
    computed := ts.map (fun t => (t, List.replicate (n - 1) 1))
    balance := ts.length
    st := st
    got := fun _ => ts.map (fun t => (t, List.replicate (n - 1) 1))
    pend := fun _ => false
    todo := fun _ => [] }

/-- The branch for `(1, …, 1)` (source/include/firefly/Reconstructor.hpp 3213-3230): `started_probes` and the number of new probes. The balance is zero afterwards. -/
def startedOnes (n : ℕ) (started : FFMap ℕ) (balance : ℕ) : FFMap ℕ :=
  if balance = 0 then started else started.set (List.replicate (n - 1) 1) ((started.find? (List.replicate (n - 1) 1)).getD 0 + balance)

/-- What the threads do, in any order. `compute`: the result of a probe is taken by a `feed_job`, which counts the probes `(1, …, 1)` (source/include/firefly/Reconstructor.hpp 3017-3055). `feed`: an object interpolates with a probe it
has not had (3056-3081, 3118-3119). `look`: the job that has interpolated finds the object not done and reads the list (3205-3212). `skip`: the object was done when the job looked at it. `one`, `entry`: the requests are handled, each under the
lock `job_control` up to the call of `queue_probes`; `new` are the new probes, `queue_probes` chooses values `t` that are new for this order vector.
Simplifications: the probes of a bunch are single steps here; a probe is marked as queued at once when it is counted. An object that is done gets the probes, too, but does not change (3057-3061). -/
inductive Step {F ι : Type} [DecidableEq ι] [DecidableEq F] (objs : ι → Obj F) (n : ℕ) (good : F × List ℕ → Prop) : Fld F objs → Fld F objs → Prop
  | compute (s : Fld F objs) (q : F × List ℕ) : q ∈ s.probes → q ∉ s.computed →
      Step objs n good s { s with computed := s.computed ++ [q], balance := if q.2 = List.replicate (n - 1) 1 then s.balance + 1 else s.balance }
  | feed (s : Fld F objs) (i : ι) (q : F × List ℕ) (x : (objs i).S) : q ∈ s.computed → q ∉ s.got i → (objs i).feed (s.st i) q = some x →
      Step objs n good s { s with st := Function.update s.st i x, got := Function.update s.got i (s.got i ++ [q]), pend := Function.update s.pend i true }
  | look (s : Fld F objs) (i : ι) (l : List (List ℕ × ℕ)) (size : ℕ) : s.pend i = true → (objs i).done (s.st i) = false → (objs i).orders (s.st i) = some (l, size) →
      Step objs n good s { s with pend := Function.update s.pend i false, todo := Function.update s.todo i (s.todo i ++ asks n l size) }
  | skip (s : Fld F objs) (i : ι) : s.pend i = true → (objs i).done (s.st i) = true → Step objs n good s { s with pend := Function.update s.pend i false }
  | one (s : Fld F objs) (i : ι) (a b : List Ask) (new : List (F × List ℕ)) : s.todo i = a ++ .one :: b → new.map Prod.snd = List.replicate s.balance (List.replicate (n - 1) 1) →
      (s.probes ++ new).Nodup → (∀ q ∈ new, good q) →
      Step objs n good s { s with started := startedOnes n s.started s.balance, balance := 0, probes := s.probes ++ new, todo := Function.update s.todo i (a ++ b) }
  | entry (s : Fld F objs) (i : ι) (el : List ℕ × ℕ) (size : ℕ) (a b : List Ask) (new : List (F × List ℕ)) : s.todo i = a ++ .entry el size :: b →
      new.map Prod.snd = (Needed.Req.askOrder size { started := s.started } el).queued → (s.probes ++ new).Nodup → (∀ q ∈ new, good q) →
      Step objs n good s { s with started := (Needed.Req.askOrder size { started := s.started } el).started, probes := s.probes ++ new, todo := Function.update s.todo i (a ++ b) }

/-- Nothing is left to do: all probes are computed, every object has got every probe, every request has been handled. -/
def Fld.Quiet {F ι : Type} {objs : ι → Obj F} (s : Fld F objs) : Prop :=
  (∀ q ∈ s.probes, q ∈ s.computed) ∧ ∀ i, s.pend i = false ∧ s.todo i = [] ∧ ∀ q ∈ s.computed, q ∈ s.got i

end First

/-- An object whose probes have the values `value t ord` -/
def RMulti.obj {F : Type} [Field F] [DecidableEq F] (c : RMulti.Cfg F) (value : F → List ℕ → F) : First.Obj F :=
  { S := RMulti.St F, init := c.init, feed := fun s q => c.feed s (q.1, value q.1 q.2, q.2), orders := c.orders, done := fun s => s.result.isSome }

end FireFly
