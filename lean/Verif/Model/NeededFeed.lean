import Verif.Model.RatLater
import Verif.Model.RatShift
/-!
# The probes an object requests in a further prime field, and what the Reconstructor queues (source/RatReconst.cpp 3446-3647, 3738-3764; source/include/firefly/Reconstructor.hpp 3126-3205, 3208-3280)

After the check of the guess (`check_if_done`) an object computes once how many probes it needs for each of the order vectors `(1, …, 1), (2, …, 2), …` (`needed_feed_vec`). The Reconstructor takes the list
(`get_needed_feed_vec`) and queues the probes that are not yet queued for another object (`started_probes`). Nothing else is queued in this field.

Simplifications: numbers are natural numbers; a subtraction below zero is an error (`none`). `std::map` is a list with ascending keys. The messages are left out.
-/
namespace FireFly
namespace Needed

/-- `a - b` for `uint32_t`; `none` if it is below zero. -/
def sub? (a b : ℕ) : Option ℕ := if b ≤ a then some (a - b) else none

/-- `r_map[size] ++` or `r_map[size] = 1` (source/RatReconst.cpp 3469-3472): a map with ascending keys -/
def bump : List (ℕ × ℕ) → ℕ → List (ℕ × ℕ)
  | [], k => [(k, 1)]
  | el :: rest, k => if k < el.1 then (k, 1) :: el :: rest else if k = el.1 then (el.1, el.2 + 1) :: rest else el :: bump rest k

/-- `r_map` after the loops over `coef_mat_num` and `coef_mat_den` -/
def rMap (sizes : List ℕ) : List (ℕ × ℕ) := sizes.foldl bump []

/-- `r_map[k]` -/
def at? (m : List (ℕ × ℕ)) (k : ℕ) : ℕ := ((m.find? (fun el => decide (el.1 = k))).map Prod.snd).getD 0

/-- The number of equations after the degrees of the previous entry are removed (source/RatReconst.cpp 3553-3561, 3496-3505). -/
def step? (rm : List (ℕ × ℕ)) (last eqn : ℕ) : Option ℕ := if last = 0 then some eqn else sub? eqn (at? rm last)

/-- The loop over `r_map` without shift (source/RatReconst.cpp 3552-3566): the blocks (multiplicity, number of probes). The arguments are the rest of `r_map`, `last_number_of_terms`, `tmp_max_num_eqn`. -/
def blocks (rm : List (ℕ × ℕ)) : List (ℕ × ℕ) → ℕ → ℕ → Option (List (ℕ × ℕ))
  | [], _, _ => some []
  | el :: rest, last, eqn => do
    let e ← step? rm last eqn
    let r ← blocks rm rest el.1 e
    some ((el.1 - last, e) :: r)

/-- What the loop over `r_map` with shift reads of numerator and denominator: `max_num_coef_num.second` and the number of degrees that are removed together with the largest one without being counted in `r_map`
(`non_solved_degs_num.size() - dense_solve_degs_num.size() - sparse_num`). -/
structure Tail where
  width : ℕ
  rest : ℕ

/-- source/RatReconst.cpp 3507-3510, 3512-3515 -/
def dropIf (b : Bool) (e r : ℕ) : Option ℕ := if b then sub? e r else some e

/-- The loop over `r_map` with shift (source/RatReconst.cpp 3495-3531). `numDone` and `denDone` are the flags; they are reset when they are used (not for the first entry, where they are not set). -/
def blocksShift (rm : List (ℕ × ℕ)) (num den : Tail) : List (ℕ × ℕ) → ℕ → ℕ → Bool → Bool → Option (List (ℕ × ℕ))
  | [], _, _, _, _ => some []
  | el :: rest, last, eqn, numDone, denDone => do
    let e ← step? rm last eqn
    let e ← dropIf (decide (last ≠ 0) && numDone) e num.rest
    let e ← dropIf (decide (last ≠ 0) && denDone) e den.rest
    let numDone := (decide (last = 0) && numDone) || decide (el.1 = num.width)
    let denDone := (decide (last = 0) && denDone) || decide (el.1 = den.width)
    let bs ← blocksShift rm num den rest el.1 e numDone denDone
    some ((el.1 - last, e) :: bs)

/-- The blocks are written in terms of the order vectors (source/RatReconst.cpp 3571-3587). -/
def expand : ℕ → List (ℕ × ℕ) → List (ℕ × ℕ)
  | _, [] => []
  | counter, el :: rest => (List.range el.1).map (fun i => (counter + i, el.2)) ++ expand (counter + el.1) rest

/-- The sizes of the parts that are counted (source/RatReconst.cpp 3535-3536, 3544-3545). `non_solved_degs_num[el.first]` creates an entry if there is none; this does not happen, because the keys of `coef_mat_num` are keys of
`non_solved_degs_num`. -/
def sizes {V : Type} (unsolved : FFMap (List (List ℕ))) (mat : FFMap V) : List ℕ := mat.map (fun el => ((unsolved.find? el.1).getD []).length)

/-- `sparse_num` (source/RatReconst.cpp 3460-3466, 3477-3483) -/
def sparse {F : Type} (s : RShift.Side F) : ℕ := (s.mat.filter (fun el => decide (((s.unsolved.find? el.1).getD []).length = s.most.2))).length

/-- The sizes that are counted with shift (source/RatReconst.cpp 3460-3473, 3477-3490). -/
def sizesShift {F : Type} (s : RShift.Side F) : List ℕ :=
  sizes s.unsolved (s.mat.filter (fun el => decide (((s.unsolved.find? el.1).getD []).length = s.most.2) || s.dense.contains (el.1.getD 0 0)))

/-- source/RatReconst.cpp 3511, 3516 -/
def tail? {F : Type} (s : RShift.Side F) : Option Tail := do
  let a ← sub? s.unsolved.length s.dense.length
  let b ← sub? a (sparse s)
  some ⟨s.most.2, b⟩

end Needed

/-- `needed_feed_vec` without shift (source/RatReconst.cpp 3446-3587, `n > 1`, `is_singular_system` is false) -/
def RLater.needed {F : Type} (s : RLater.St F) : Option (List (ℕ × ℕ)) :=
  let rm := Needed.rMap (Needed.sizes s.num.unsolved s.num.mat ++ Needed.sizes s.den.unsolved s.den.mat)
  (Needed.blocks rm rm 0 s.numEqn).map (Needed.expand 1)

/-- `needed_feed_vec` with shift (source/RatReconst.cpp 3446-3531, 3571-3587, `n > 1`, `is_singular_system` is set) -/
def RShift.needed {F : Type} (s : RShift.St F) : Option (List (ℕ × ℕ)) := do
  let rm := Needed.rMap (Needed.sizesShift s.num ++ Needed.sizesShift s.den)
  let a ← Needed.tail? s.num
  let b ← Needed.tail? s.den
  let bs ← Needed.blocksShift rm a b rm 0 s.numEqn false false
  some (Needed.expand 1 bs)

namespace Needed

/-- `needed_feed_vec[o - 1].second` is reduced by `k`, not below zero (source/RatReconst.cpp 3612-3618); `size` is `needed_feed_vec.size()`. `none`: the index `0 - 1` -/
def reduce? (size : ℕ) (need : List (ℕ × ℕ)) (o k : ℕ) : Option (List (ℕ × ℕ)) :=
  if o ≤ size then (if o = 0 then none else some (need.set (o - 1) ((need.getD (o - 1) (0, 0)).1, (need.getD (o - 1) (0, 0)).2 - k))) else some need

/-- One entry of `parsed_probes` (source/RatReconst.cpp 3604-3632): the requests that are left and the queue. `none`: `el.first[0]` of an empty order vector -/
def resumeStep {F : Type} (size : ℕ) (r : List (ℕ × ℕ) × List (F × F × List ℕ)) (el : List ℕ × List (F × F)) : Option (List (ℕ × ℕ) × List (F × F × List ℕ)) := do
  let o ← el.1.head?
  let need ← reduce? size r.1 o el.2.length
  some (need, r.2 ++ el.2.map (fun q => (q.1, q.2, el.1)))

/-- The stored probes of a saved state are subtracted and moved to the queue (source/RatReconst.cpp 3589-3637 for `n > 1` in a further prime field): the requests that are left and the queue. `parsed` is `parsed_probes`, the keys are
order vectors. -/
def resume {F : Type} (need : List (ℕ × ℕ)) (parsed : FFMap (List (F × F))) : Option (List (ℕ × ℕ) × List (F × F × List ℕ)) :=
  if need = [] then some (need, []) else parsed.foldlM (resumeStep need.length) (need, [])

/-! ### The Reconstructor -/

/-- `started_probes` and the probes queued since the start of this field, by their order vectors, in the order of the calls of `queue_probes`. -/
structure Req where
  started : FFMap ℕ := []
  queued : List (List ℕ) := []

/-- `queue_probes(zi_order, to_start)` (source/include/firefly/Reconstructor.hpp 2893-2990): here only the number of probes with this order vector -/
def Req.queue (s : Req) (ord : List ℕ) (k : ℕ) : Req := { s with queued := s.queued ++ List.replicate k ord }

/-- The start of a field: `to_start` probes `(1, …, 1)` (source/include/firefly/Reconstructor.hpp 2618-2676, without MPI) -/
def Req.start (n thr probesForNextPrime : ℕ) : Req :=
  let k := if thr < probesForNextPrime then thr else probesForNextPrime
  { started := [(List.replicate (n - 1) 1, k)], queued := List.replicate k (List.replicate (n - 1) 1) }

/-- One entry of the list of an object (source/include/firefly/Reconstructor.hpp 3140-3203). The entries of several objects are handled in any order; each of them is handled under the lock `job_control` up to the call of
`queue_probes`. -/
def Req.ask (n : ℕ) (s : Req) (el : ℕ × ℕ) : Req :=
  if el.2 = 0 then s
  else
    let ord := List.replicate (n - 1) el.1
    match s.started.find? ord with
    | some k => if k < el.2 then Req.queue { s with started := s.started.set ord el.2 } ord (el.2 - k) else s
    | none => Req.queue { s with started := s.started.emplace ord el.2 } ord el.2

/-- One entry of `get_zi_orders` with the size of the system (source/include/firefly/Reconstructor.hpp 3232-3278), in the first prime field -/
def Req.askOrder (size : ℕ) (s : Req) (el : List ℕ × ℕ) : Req :=
  match s.started.find? el.1 with
  | some k =>
    if k < size then
      let m := min (size - k) el.2
      Req.queue { s with started := s.started.set el.1 (k + m) } el.1 m
    else s
  | none => Req.queue { s with started := s.started.emplace el.1 el.2 } el.1 el.2

/-! ### All objects of a run in one further prime field -/

/-- An object as the Reconstructor uses it: the state at the start of the field, a probe `(t, order vector)` (the value is computed), what this probe adds to `needed_feed_vec` (`check_if_done`), and whether the object is done with this
field (done, or it waits for the next prime). `none`: undefined behaviour or an error. -/
structure Obj (F : Type) where
  S : Type
  init : S
  feed : S → F × List ℕ → Option S
  adds : S → F × List ℕ → Option (List (ℕ × ℕ))
  done : S → Bool

/-- A field: `started_probes`, all probes queued so far, and for each object its state, the probes it has got, `needed_feed_vec`, and the entries `interpolate_job` has taken but not yet handled. -/
structure Fld (F : Type) {ι : Type} (objs : ι → Obj F) where
  started : FFMap ℕ
  probes : List (F × List ℕ)
  st : ∀ i, (objs i).S
  got : ι → List (F × List ℕ)
  need : ι → List (ℕ × ℕ)
  todo : ι → List (ℕ × ℕ)

/-- The start of the field: `k` probes with the order vector `(1, …, 1)` have been queued. -/
def Fld.start {F ι : Type} (objs : ι → Obj F) (n : ℕ) (ts : List F) : Fld F objs :=
  { started := [(List.replicate (n - 1) 1, ts.length)], probes := ts.map (fun t => (t, List.replicate (n - 1) 1)), st := fun i => (objs i).init, got := fun _ => [], need := fun _ => [], todo := fun _ => [] }

/-- What the threads do, in any order. `feed`: an object interpolates with a probe it has not had (source/include/firefly/Reconstructor.hpp 3056-3081, 3118-3119). `take`: an `interpolate_job` has found the object not done and takes its
list (3136-3137). `ask`: it handles one entry (3140-3203); `new` are the new probes, `queue_probes` chooses values `t` that are new for this order vector. `drop`: the object was done when the job looked at it, and the list is never taken.
Simplifications: a job handles its probes one after another, so the probes of a batch are single steps here; `get_needed_feed_vec` (source/RatReconst.cpp 3642-3647) is executed by one thread at a time. -/
inductive Step {F ι : Type} [DecidableEq ι] (objs : ι → Obj F) (n : ℕ) (good : F × List ℕ → Prop) : Fld F objs → Fld F objs → Prop
  | feed (s : Fld F objs) (i : ι) (q : F × List ℕ) (x : (objs i).S) (l : List (ℕ × ℕ)) : q ∈ s.probes → q ∉ s.got i → (objs i).feed (s.st i) q = some x → (objs i).adds (s.st i) q = some l →
      Step objs n good s { s with st := Function.update s.st i x, got := Function.update s.got i (s.got i ++ [q]), need := Function.update s.need i (s.need i ++ l) }
  | take (s : Fld F objs) (i : ι) : (objs i).done (s.st i) = false → s.need i ≠ [] →
      Step objs n good s { s with need := Function.update s.need i [], todo := Function.update s.todo i (s.todo i ++ s.need i) }
  | drop (s : Fld F objs) (i : ι) : (objs i).done (s.st i) = true → s.need i ≠ [] → Step objs n good s { s with need := Function.update s.need i [] }
  | ask (s : Fld F objs) (i : ι) (el : ℕ × ℕ) (rest : List (ℕ × ℕ)) (new : List (F × List ℕ)) : s.todo i = el :: rest →
      new.map Prod.snd = (Req.ask n { started := s.started } el).queued → (s.probes ++ new).Nodup → (∀ q ∈ new, good q) →
      Step objs n good s { s with started := (Req.ask n { started := s.started } el).started, probes := s.probes ++ new, todo := Function.update s.todo i rest }

/-- Nothing is left to do: every object has got every probe, every request has been handled. -/
def Fld.Quiet {F ι : Type} {objs : ι → Obj F} (s : Fld F objs) : Prop := ∀ i, s.need i = [] ∧ s.todo i = [] ∧ ∀ q ∈ s.probes, q ∈ s.got i

end Needed

/-- What a probe adds to `needed_feed_vec`: the list is computed after the check of the guess, if the guess fails (source/RatReconst.cpp 343-345, 3340-3346, 3446-3587). -/
def RLater.Cfg.adds {F : Type} [Field F] [DecidableEq F] (c : RLater.Cfg F) (s : RLater.St F) (t v : F) (ord : List ℕ) : Option (List (ℕ × ℕ)) :=
  if s.out.isSome = false ∧ ord = s.ord ∧ s.newPrime = true then (c.checkIfDone s t v).bind (fun s => if s.out.isSome then some [] else RLater.needed s) else some []

/-- The same with shift. -/
def RShift.Cfg.adds {F : Type} [Field F] [DecidableEq F] (c : RShift.Cfg F) (s : RShift.St F) (t v : F) (ord : List ℕ) : Option (List (ℕ × ℕ)) :=
  if s.out.isSome = false ∧ ord = s.ord ∧ s.newPrime = true then (c.checkIfDone s t v).bind (fun s => if s.out.isSome then some [] else RShift.needed s) else some []

/-- An object without shift whose probes have the values `value t ord` -/
def RLater.obj {F : Type} [Field F] [DecidableEq F] (c : RLater.Cfg F) (num den : FFMap (List (List ℕ))) (value : F → List ℕ → F) : Needed.Obj F :=
  { S := RLater.St F, init := c.init num den, feed := fun s q => c.feed s (q.1, value q.1 q.2, q.2), adds := fun s q => c.adds s q.1 (value q.1 q.2) q.2, done := fun s => s.out.isSome }

/-- An object with shift whose probes have the values `value t ord` -/
def RShift.obj {F : Type} [Field F] [DecidableEq F] (c : RShift.Cfg F) (value : F → List ℕ → F) : Needed.Obj F :=
  { S := RShift.St F, init := c.init, feed := fun s q => c.feed s (q.1, value q.1 q.2, q.2), adds := fun s q => c.adds s q.1 (value q.1 q.2) q.2, done := fun s => s.out.isSome }

end FireFly
