import Verif.Props.RecoverRounds
import Verif.Props.FirstFeedExamples
/-!
# C67: examples
-/
set_option linter.all false
namespace FireFly.Recover
open RMulti

/-- An object for the examples: whether it is done and its prime field, now and after `interpolate`; its equations; its requests -/
structure ExObj where
  now : Bool × ℕ
  later : Bool × ℕ
  eqn : ℕ := 0
  list : List (ℕ × ℕ) := []
  ord : List (List ℕ × ℕ) × ℕ := ([], 0)

/-- the member functions -/
def exApi : Api ExObj where
  donePrime := ExObj.now
  interpolate := fun x => if x.now.2 ≤ x.later.2 then some ({ x with now := x.later }, false, x.later.1, x.later.2) else none
  numEqn := ExObj.eqn
  needed := ExObj.list
  taken := fun x => { x with list := [] }
  orders := fun x => some x.ord

lemma exApi_honest : Honest exApi := by
  refine ⟨?_, fun _ => rfl⟩
  intro x y i d p h
  simp only [exApi] at h ⊢
  split_ifs at h with c
  simp only [Option.some.injEq, Prod.mk.injEq] at h
  obtain ⟨rfl, -, rfl, rfl⟩ := h
  exact ⟨rfl, c⟩

/-- in a further prime field the lists of `get_zi_orders` are not used -/
lemma exPlain {c : Cfg} (x : ExObj) (h : ∀ el ∈ x.ord.1, c.factorScan = false ∧ el.1 ≠ List.replicate (c.n - 1) 1) : Plain c exApi x := by
  intro l size e
  simp only [exApi, Option.some.injEq] at e
  rw [e] at h
  refine ⟨fun hf el hel => ?_, fun _ _ el hel => (h el hel).2⟩
  have := (h el hel).1
  rw [hf] at this
  simp at this

/-- what can be compared of the result of a call -/
def view (x : Except Fail (St ExObj)) : Option ((ℕ × ℕ × Bool × Bool) × List (List ℕ) × FFMap ℕ) :=
  match x with
  | .ok s => some ((s.itemsDone, s.itemsNew, s.done, s.newPrime), s.queued, s.started)
  | .error _ => none

/-- a state before the call: counters that are too small, and the books of the field -/
def exSt (recs : List (Status × ExObj)) : St ExObj :=
  { recs := recs, itemsDone := 0, itemsNew := 0, oneDone := false, oneNew := false, done := false, newPrime := false, nextProbes := 0, balance := 3, started := [([1], 4), ([2], 2)], queued := [[1]] }

/-- two variables, two threads -/
def exCfg (items primeIt : ℕ) (safe fs : Bool) : Cfg := { n := 2, thr := 2, items := items, primeIt := primeIt, safe := safe, factorScan := fs }

/-- a function that is done, one that finishes with its stored probes -/
def exDone : ExObj := { now := (true, 0), later := (true, 0) }
def exFin : ExObj := { now := (false, 0), later := (true, 0) }
/-- a function that is done with the field, one that gets there with its stored probes -/
def exNext : ExObj := { now := (false, 1), later := (false, 1) }
def exNext' : ExObj := { now := (false, 0), later := (false, 1), eqn := 7 }
/-- a function that has not got its degrees, and one that lacks probes of its systems `(2)` and `(3)` -/
def exOne : ExObj := { now := (false, 0), later := (false, 0), ord := ([([1], 1)], 1) }
def exTwo : ExObj := { now := (false, 0), later := (false, 0), ord := ([([2], 1), ([3], 2)], 2) }
/-- a function in a further prime field -/
def exFar : ExObj := { now := (false, 3), later := (false, 3), list := [(1, 0), (2, 3)] }

/-- all functions are done: complete -/
example : view ((exCfg 2 0 false false).attempt exApi (exSt [(.done, exDone), (.reconstructing, exFin)])) = some ((2, 0, true, false), [[1]], []) := by decide +kernel
/-- one is done, the others wait: promoted -/
example : view ((exCfg 3 0 false false).attempt exApi (exSt [(.done, exDone), (.reconstructing, exNext), (.reconstructing, exNext')])) = some ((1, 2, false, true), [[1]], []) := by decide +kernel
/-- probes `(1)` are needed: as many as threads are queued, the rest of the books stays -/
example : view ((exCfg 3 0 false false).attempt exApi (exSt [(.done, exDone), (.reconstructing, exOne), (.reconstructing, exOne)])) = some ((1, 0, false, false), [[1], [1], [1]], [([1], 2), ([2], 2)]) := by decide +kernel
/-- the probes of the systems are queued again -/
example : view ((exCfg 2 0 false false).attempt exApi (exSt [(.reconstructing, exNext), (.reconstructing, exTwo)])) = some ((0, 1, false, false), [[1], [2], [3], [3]], [([2], 1), ([3], 2), ([1], 0)]) := by decide +kernel
/-- a further prime field -/
example : view ((exCfg 2 3 false false).attempt exApi (exSt [(.done, exDone), (.reconstructing, exFar)])) = some ((1, 0, false, false), [[1], [2], [2], [2]], [([2], 3), ([1], 0)]) := by decide +kernel
/-- the list has been taken: the call throws -/
example : view ((exCfg 2 3 false false).attempt exApi (exSt [(.done, exDone), (.reconstructing, { exFar with list := [] })])) = none := by decide +kernel
/-- the result of the first function has been fetched: the call throws, although the other function is done as well -/
example : view ((exCfg 2 0 false false).attempt exApi (exSt [(.delete, exDone), (.reconstructing, exFin)])) = none := by decide +kernel
/-- and it does not promote -/
example : view ((exCfg 2 0 false false).attempt exApi (exSt [(.delete, exDone), (.reconstructing, exNext')])) = none := by decide +kernel
/-- in the factor scan the order vectors are empty -/
example : view ((exCfg 1 0 false true).attempt exApi { exSt [(.reconstructing, { exOne with ord := ([([], 1)], 1) })] with started := [([], 5)] }) = some ((0, 0, false, false), [[1], [], []], [([], 2)]) := by decide +kernel

/-- the function of the example in a further prime field stays open and asks for three probes `(2)` -/
lemma exFar_open : StaysOpen (exCfg 2 3 false false) exApi (.reconstructing, exFar) exFar ∧ Wants (exCfg 2 3 false false) exApi exFar [2] 3 3 :=
  ⟨⟨⟨rfl, rfl⟩, false, 3, by simp [exApi, exFar], le_rfl⟩, Wants.needed 2 3 rfl (by simp [exCfg]) (by simp [exApi, exFar])⟩

/-- the theorems apply to it: the hypotheses of `C67_counts`, `C67_flags`, `C67_enough`, `C67_books` hold, and at least three probes are queued -/
example : ∃ s', (exCfg 2 3 false false).attempt exApi (exSt [(.done, exDone), (.reconstructing, exFar)]) = .ok s' ∧ s'.itemsDone = 1 ∧ s'.itemsNew = 0 ∧ (∃ r ∈ s'.recs, Open (exCfg 2 3 false false) exApi r) ∧ 3 ≤ s'.queued.count [2] := by
  have hp : ∀ r ∈ (exSt [(.done, exDone), (.reconstructing, exFar)]).recs, ∀ y, StaysOpen (exCfg 2 3 false false) exApi r y → Plain (exCfg 2 3 false false) exApi y := by
    intro r hr y hy
    apply exPlain
    intro el hel
    obtain ⟨h1, i, p, h2, -⟩ := hy
    have : y.ord = r.2.ord := by
      simp only [exApi] at h2
      split_ifs at h2
      simp only [Option.some.injEq, Prod.mk.injEq] at h2
      rw [← h2.1]
    simp only [exSt, List.mem_cons, List.not_mem_nil, or_false] at hr
    rw [this] at hel
    rcases hr with rfl | rfl <;> simp [exDone, exFar] at hel
  cases h : (exCfg 2 3 false false).attempt exApi (exSt [(.done, exDone), (.reconstructing, exFar)]) with
  | error e =>
    have : view ((exCfg 2 3 false false).attempt exApi (exSt [(.done, exDone), (.reconstructing, exFar)])) = some ((1, 0, false, false), [[1], [2], [2], [2]], [([2], 3), ([1], 0)]) := by decide +kernel
    rw [h] at this
    simp [view] at this
  | ok s' =>
    have hv : view ((exCfg 2 3 false false).attempt exApi (exSt [(.done, exDone), (.reconstructing, exFar)])) = some ((1, 0, false, false), [[1], [2], [2], [2]], [([2], 3), ([1], 0)]) := by decide +kernel
    rw [h] at hv
    simp only [view, Option.some.injEq, Prod.mk.injEq] at hv
    obtain ⟨⟨v1, v2, v3, v4⟩, -⟩ := hv
    obtain ⟨fresh, f1, f2, -⟩ := C67_enough exApi_honest _ s' hp h
    refine ⟨s', rfl, v1, v2, (C67_flags exApi_honest _ s' hp h (by simp [exSt]) rfl rfl rfl).2.2 v3 v4, ?_⟩
    have := f2 (.reconstructing, exFar) (by simp [exSt]) exFar exFar_open.1 _ _ _ exFar_open.2
    rw [f1, List.count_append]
    omega

/-- one thread, two functions `x / (x + y)`, all probes but one are lost: the hypotheses of `C67_recovers` hold; there is a round as in `C67_rounds`, or the run is promoted -/
example : ∃ (st : ∀ i, (First.exObjs i).S) (s s' : St (Σ i, (First.exObjs i).S)), After First.exObjs (fun q => 0 < q.1) (fun _ => [((1 : ℚ), [1])]) st ∧ s.recs = recsOf st ∧
    (firstCfg 2 1 2).attempt (firstApi First.exObjs) s = .ok s' ∧ s'.done = false ∧ s'.newPrime = false ∧
    ∃ got' st', Round First.exObjs 2 1 (fun q => 0 < q.1) (fun _ => [((1 : ℚ), [1])]) st got' st' ∧ After First.exObjs (fun q => 0 < q.1) got' st' := by
  obtain ⟨x, hx, -⟩ := First.C66_request First.exDescribed [(1, [1])] (by simp) (by simp)
  have ha : After First.exObjs (fun q => 0 < q.1) (fun _ => [((1 : ℚ), [1])]) (fun _ => x) := fun i => ⟨by simp, by simp, hx⟩
  let s : St (Σ i, (First.exObjs i).S) :=
    { recs := recsOf (objs := First.exObjs) (fun _ => x), itemsDone := 0, itemsNew := 0, oneDone := false, oneNew := false, done := false, newPrime := false, nextProbes := 0, balance := 0, started := [([1], 1)], queued := [] }
  obtain ⟨s', fresh, h1, h2, h3, h4, h5, -⟩ := C67_recovers (objs := First.exObjs) (size := fun _ => 4) (right := fun _ s => ∃ r, s.result = some r ∧ RMulti.Good exShift exNum exDen r) (thr := 1) (fun _ => First.exDescribed) (by norm_num) le_rfl _ _ ha s rfl rfl rfl rfl
  have hnd : (First.exObjs 0).done x = false := by
    have h0 : exShift.feed exShift.init (1, 1 / 2, [1]) = some x := by
      have hv : valueOf exShift.shift exShift.anchor exNum exDen 1 [1] = 1 / 2 := by rw [exShift_value]; norm_num
      have := hx
      simp only [List.foldlM_cons, List.foldlM_nil, bind_pure, RMulti.obj, hv] at this
      exact this
    have h1 : (exShift.feed exShift.init (1, 1 / 2, [1])).map (fun s => s.result.isSome) = some false := by decide +kernel
    rw [h0] at h1
    exact Option.some.inj h1
  have hnp : s'.newPrime = false := by
    cases hb : s'.newPrime with
    | false => rfl
    | true => have := h4.mp hb 0; rw [hnd] at this; simp at this
  have key : ∀ (f : List (List ℕ)) (k : ℕ), ∃ l : List (ℚ × List ℕ), l.Nodup ∧ (∀ q ∈ l, (k : ℚ) + 1 < q.1) ∧ ∀ o, First.cnt l o = f.count o := by
    intro f
    induction f with
    | nil => intro k; exact ⟨[], by simp, by simp, fun o => by simp [First.cnt]⟩
    | cons o f ih =>
      intro k
      obtain ⟨l, l1, l2, l3⟩ := ih (k + 1)
      refine ⟨((k : ℚ) + 2, o) :: l, ?_, ?_, fun o' => ?_⟩
      · refine List.nodup_cons.mpr ⟨fun hm => ?_, l1⟩
        have := l2 _ hm
        push_cast at this
        linarith
      · intro q hq
        rcases List.mem_cons.mp hq with rfl | hq
        · simp only; linarith
        · have := l2 _ hq
          push_cast at this
          linarith
      · have := l3 o'
        simp only [First.cnt, List.filter_cons, List.count_cons] at this ⊢
        rw [← this]
        by_cases e : o = o' <;> simp [e]
  obtain ⟨l, l1, l2, l3⟩ := key fresh 0
  have hpos : ∀ q ∈ l, (0 : ℚ) < q.1 := fun q hq => by have := l2 q hq; push_cast at this; linarith
  have hN : ([((1 : ℚ), [1])] ++ l).Nodup := by
    refine List.nodup_cons.mpr ⟨fun hm => ?_, l1⟩
    have := l2 _ hm
    push_cast at this
    linarith
  have hG : ∀ q ∈ [((1 : ℚ), [1])] ++ l, 0 < q.1 := by
    intro q hq
    rcases List.mem_cons.mp hq with rfl | hq
    · norm_num
    · exact hpos q hq
  obtain ⟨y, hy, -⟩ := First.C66_request First.exDescribed ([((1 : ℚ), [1])] ++ l) hN hG
  have hy' := hy
  rw [List.foldlM_append] at hy'
  rw [hx] at hy'
  exact ⟨_, s, s', ha, rfl, h1, h2, hnp, fun _ => [((1 : ℚ), [1])] ++ l, fun _ => y, ⟨s, s', fresh, rfl, h1, h2, hnp, h3, fun i => ⟨l, rfl, hN, hpos, hy', fun o => (l3 o).ge⟩⟩, fun i => ⟨hN, hG, hy⟩⟩

end FireFly.Recover
