import Verif.Props.SchedulerProps
import Mathlib.Tactic.Ring
set_option linter.all false
/-! # C38: no livelock -/
namespace FireFly.Scheduler
open RatQueue (Obj)
variable {m : ℕ} {β V : Type}

/-- work left for one object: two units for each waiting probe -/
def objWork (o : Obj (β × V)) : ℕ := 2 * o.queue.length + (o.inside.map (fun w => match w with | .working _ => 2 | .worked => 1)).sum
/-- work to feed a bunch of `n` probes to all functions -/
def bunchWork (m n : ℕ) : ℕ := m * (9 + 2 * n) + 6
def taskWork : Task m V → ℕ
  | .getJob => 2
  | .feedJob b => bunchWork m b.length
  | .interpJob _ => 8
def runWork : Run m β V → ℕ
  | .getJob => 1
  | .computing _ l => bunchWork m l.length + 16
  | .feed0 b => m * (9 + 2 * b.length) + 5
  | .feed1 b => m * (9 + 2 * b.length) + 4
  | .feed2 foods todo _ => todo.length * (9 + 2 * foods.length) + 3
  | .interp0 _ => 7
  | .interpIn _ => 6
  | .interpRet _ _ => 5
  | .interpQ _ o => 4 + 3 * o
  | .interpEnd _ => 3
def mainWork : Main m V → ℕ
  | .getProbe => 0
  | .exit => 0
  | .starting o _ => 1 + 3 * o
  | .killing => 2
  | .head => 3
  | .attempt o => 4 + 3 * o
  | .poolWait => 5
  | .recheck => 6
  | .sleeping => 7
  | .feedTest => 8
  | .woken => 9
  | .test => 10
  | .check => 11
  | .submitFeed b => 12 + bunchWork m b.length
  | .incFeed b => 13 + bunchWork m b.length
  | .gotProbe b => 14 + bunchWork m b.length
/-- Specification: a bound on the number of steps that remain if no further probe is requested. -/
def work (s : State m β V) : ℕ :=
  mainWork s.main + (s.tasks.map taskWork).sum + (s.running.map runWork).sum + (s.computed.map (fun b => 15 + bunchWork m b.length)).sum +
  s.requested.length * (17 + bunchWork m 1) + ∑ i, objWork (s.obj i)

lemma sum_obj (f : Fin m → Obj (β × V)) (j : Fin m) (o : Obj (β × V)) :
    ∑ i, objWork (Function.update f j o i) + objWork (f j) = ∑ i, objWork (f i) + objWork o := by
  have h1 : ∀ g : Fin m → ℕ, ∑ i, g i = ∑ i ∈ Finset.univ \ {j}, g i + g j := by
    intro g
    rw [← Finset.sum_sdiff (Finset.subset_univ {j}) (f := g), Finset.sum_singleton]
  rw [h1 (fun i => objWork (Function.update f j o i)), h1 (fun i => objWork (f i))]
  have : ∑ i ∈ Finset.univ \ {j}, objWork (Function.update f j o i) = ∑ i ∈ Finset.univ \ {j}, objWork (f i) := by
    refine Finset.sum_congr rfl (fun i hi => ?_)
    simp only [Finset.mem_sdiff, Finset.mem_singleton] at hi
    rw [Function.update_of_ne hi.2]
  simp only [this, Function.update_self]
  omega

lemma objWork_feed (zero : V → Bool) (o : Obj (β × V)) (xs : List (β × V)) (k n : ℕ) :
    objWork { (o.feed (fun x => zero x.2) false xs k).1 with scheduled := n } ≤ objWork o + 2 * xs.length := by
  have hb : objWork (o.feedBody (fun x => zero x.2) false xs) ≤ objWork o + 2 * xs.length := by
    unfold Obj.feedBody
    simp only
    split_ifs <;> simp [objWork, Obj.enqueue] <;> omega
  have : ∀ (b : Bool) (n : ℕ), objWork { o.feedBody (fun x => zero x.2) false xs with startInterp := b, scheduled := n } = objWork (o.feedBody (fun x => zero x.2) false xs) := fun _ _ => rfl
  unfold Obj.feed
  split_ifs
  · simp only; split_ifs
    · exact hb
    · exact hb
  · show objWork o ≤ _; omega

lemma objWork_loop (o : Obj (β × V)) (h : o.inside = [.worked]) : objWork (o.loopHead []) + 1 ≤ objWork o := by
  unfold Obj.loopHead
  rcases hq : o.queue with _ | ⟨x, xs⟩ <;> simp [objWork, h, hq]
  omega

lemma objWork_enter (o : Obj (β × V)) : objWork o.enter ≤ objWork o := by
  unfold Obj.enter
  split_ifs
  · exact le_rfl
  · exact le_rfl
  · unfold Obj.loopHead
    rcases hq : o.queue with _ | ⟨x, xs⟩ <;> simp [objWork, hq]
    omega

lemma objWork_apply (o : Obj (β × V)) (e : RatQueue.Effect) : objWork (o.apply e) ≤ objWork o := by
  cases e <;> simp only [Obj.apply]
  · exact le_rfl
  · split_ifs
    · exact le_rfl
    · simp [objWork]
  · exact le_rfl

lemma notify_work (s : State m β V) (l : List (Run m β V)) : work { s.notifyFeed with running := l } ≤ work { s with running := l } + 2 := by
  unfold State.notifyFeed
  split
  · rename_i h
    simp only [work, h, mainWork]; omega
  · exact Nat.le_add_right _ _

/-- **C38 (no livelock).** Every step that requests no probe, other than a spurious wake-up, reduces the work left: between two requests of probes only finitely
many steps can be made. -/
theorem C38_no_livelock {c : Cfg m β V} [Inhabited β] {s t : State m β V} (hs : Step c s t) (hq : t.ind ≤ s.ind) (hsp : ¬ (s.main = .sleeping ∧ t = { s with main := .woken })) :
    work t < work s := by
  cases hs with
  | spurious hm => exact absurd ⟨hm, rfl⟩ hsp
  | start l r tk ht hw =>
    have : runWork (tk.start : Run m β V) + 1 ≤ taskWork tk := by cases tk <;> simp [Task.start, runWork, taskWork, bunchWork]
    simp only [work, ht, List.map_append, List.map_cons, List.map_nil, List.sum_append, List.sum_cons, List.sum_nil]
    omega
  | main _ h' =>
    have check : ∀ mn, mainWork s.main ≥ 5 → mainWork mn < mainWork s.main → work (s.afterCheck mn) < work s := by
      intro mn h1 h2
      unfold State.afterCheck
      split_ifs <;> simp only [work] <;> first | omega | (simp only [mainWork] at h1 ⊢; omega)
    cases h' with
    | drop l r tk hm ht =>
      have e : taskWork tk > 0 := by cases tk <;> simp [taskWork, bunchWork]
      cases tk with
      | interpJob i =>
        have := sum_obj s.obj i { s.obj i with scheduled := (s.obj i).scheduled - 1 }
        have h2 : objWork { s.obj i with scheduled := (s.obj i).scheduled - 1 } = objWork (s.obj i) := rfl
        simp only [work, State.dropTask, ht, List.map_append, List.map_cons, List.sum_append, List.sum_cons]
        dsimp only at this h2 ⊢
        omega
      | _ =>
        simp only [work, State.dropTask, ht, List.map_append, List.map_cons, List.sum_append, List.sum_cons]
        omega
    | advance hm ht hr =>
      simp only [work, State.reset, hm, ht, hr, mainWork, List.map_nil, List.sum_nil, List.length_nil]
      omega
    | check hm => exact check _ (by rw [hm]; simp [mainWork]) (by rw [hm]; simp [mainWork])
    | poolWait hm hr => exact check _ (by rw [hm]; simp [mainWork]) (by rw [hm]; simp [mainWork])
    | startQueue o q b front hm => simp only [State.queueOne] at hq; omega
    | attemptQueue o b front hm => simp only [State.queueOne] at hq; omega
    | startSubmit o q hm =>
      simp only [work, State.submitGet, hm, mainWork, List.map_append, List.map_cons, List.map_nil, List.sum_append, List.sum_cons, List.sum_nil, taskWork]; omega
    | attemptSubmit o hm =>
      simp only [work, State.submitGet, hm, mainWork, List.map_append, List.map_cons, List.map_nil, List.sum_append, List.sum_cons, List.sum_nil, taskWork]; omega
    | getProbe b bs hm hc =>
      simp only [work, hm, hc, mainWork, List.map_cons, List.sum_cons]; omega
    | submitFeed b hm =>
      simp only [work, hm, mainWork, List.map_append, List.map_cons, List.map_nil, List.sum_append, List.sum_cons, List.sum_nil, taskWork]; omega
    | exit hm _ => simp only [work, hm, mainWork]; omega
    | kill hm _ _ => simp only [work, hm, mainWork]; omega
    | next hm _ _ => simp only [work, hm, mainWork]; omega
    | startEnd hm => simp only [work, hm, mainWork]; omega
    | gotProbe b hm => simp only [work, hm, mainWork]; omega
    | incFeed b hm => simp only [work, hm, mainWork]; omega
    | testZero hm _ => simp only [work, hm, mainWork]; omega
    | testMore hm _ => simp only [work, hm, mainWork]; omega
    | feedSleep hm _ => simp only [work, hm, mainWork]; omega
    | feedNone hm _ => simp only [work, hm, mainWork]; omega
    | wokenMore hm _ => simp only [work, hm, mainWork]; omega
    | wokenZero hm _ => simp only [work, hm, mainWork]; omega
    | recheckMore hm _ => simp only [work, hm, mainWork]; omega
    | recheckZero hm _ => simp only [work, hm, mainWork]; omega
    | attemptEnd hm => simp only [work, hm, mainWork]; omega
  | run t' l r w w' hr hrs =>
    have base : work s = mainWork s.main + (s.tasks.map taskWork).sum + ((l.map runWork).sum + (runWork w + (r.map runWork).sum)) +
        (s.computed.map (fun b => 15 + bunchWork m b.length)).sum + s.requested.length * (17 + bunchWork m 1) + ∑ i, objWork (s.obj i) := by
      simp only [work, hr, List.map_append, List.map_cons, List.sum_append, List.sum_cons]
    rw [base]
    cases hrs with
    | getNone hq' => simp [work, runWork, hq'] <;> omega
    | getBunch a b hreq hl =>
      have hpos : 1 ≤ a.length := List.length_pos_of_ne_nil hl
      have key : bunchWork m a.length + 16 < 1 + a.length * (17 + bunchWork m 1) := by
        simp only [bunchWork]
        obtain ⟨n, hn⟩ := Nat.exists_eq_add_of_le hpos
        rw [hn]
        nlinarith [Nat.zero_le (m * n)]
      simp only [work, hreq, List.map_append, List.sum_append, List.length_append, Option.toList_some, List.map_cons, List.map_nil, List.sum_cons, List.sum_nil, runWork, Nat.add_mul]
      omega
    | compute k bunch junk =>
      simp [work, runWork, evalBunch]; omega
    | feed0 bunch => simp [work, runWork] <;> omega
    | feed1 bunch => simp [work, runWork] <;> omega
    | feedItem foods i todo counter hst =>
      have h1 := objWork_feed c.zero (s.obj i) (foods.map (fun t => (t.1, t.2 i))) s.primeIt
        ((s.obj i).scheduled + if ((s.obj i).feed (fun x => c.zero x.2) false (foods.map (fun t => (t.1, t.2 i))) s.primeIt).2 then 1 else 0)
      have h2 := sum_obj s.obj i { ((s.obj i).feed (fun x => c.zero x.2) false (foods.map (fun t => (t.1, t.2 i))) s.primeIt).1 with scheduled := ((s.obj i).scheduled + if ((s.obj i).feed (fun x => c.zero x.2) false (foods.map (fun t => (t.1, t.2 i))) s.primeIt).2 then 1 else 0) }
      rw [List.length_map] at h1
      have h3 : ((if ((s.obj i).feed (fun x => c.zero x.2) false (foods.map (fun t => (t.1, t.2 i))) s.primeIt).2 then s.tasks ++ [Task.interpJob i] else s.tasks).map taskWork).sum ≤ (s.tasks.map taskWork).sum + 8 := by
        split_ifs <;> simp [taskWork]
      simp only [work, List.map_append, List.sum_append, Option.toList_some, List.map_cons, List.map_nil, List.sum_cons, List.sum_nil, runWork, List.length_cons, Nat.add_mul, Nat.one_mul] at h2 h3 ⊢
      dsimp only at h1 h2 h3 ⊢
      omega
    | feedSkip foods i todo counter hst =>
      simp only [work, List.map_append, List.sum_append, Option.toList_some, List.map_cons, List.map_nil, List.sum_cons, List.sum_nil, runWork, List.length_cons, Nat.add_mul, Nat.one_mul]
      omega
    | feedEnd foods counter =>
      have := notify_work ({ s with interpJobs := s.interpJobs - (m - counter), feedJobs := s.feedJobs - 1 } : State m β V) (l ++ r)
      simp only [Option.toList_none, List.append_nil]
      refine lt_of_le_of_lt this ?_
      simp [work, runWork]; omega
    | interpEnd i =>
      have := notify_work ({ s with interpJobs := s.interpJobs - 1 } : State m β V) (l ++ r)
      simp only [Option.toList_none, List.append_nil]
      refine lt_of_le_of_lt this ?_
      simp [work, runWork]; omega
    | interpSkip i hst =>
      have h2 := sum_obj s.obj i { s.obj i with scheduled := (s.obj i).scheduled - 1 }
      have h1 : objWork { s.obj i with scheduled := (s.obj i).scheduled - 1 } = objWork (s.obj i) := rfl
      simp only [work, List.map_append, List.sum_append, Option.toList_some, List.map_cons, List.map_nil, List.sum_cons, List.sum_nil, runWork]
      dsimp only at h1 h2 ⊢
      omega
    | interpCall i hst =>
      have h2 := sum_obj s.obj i (Obj.enter { s.obj i with scheduled := (s.obj i).scheduled - 1 })
      have h1 : objWork (Obj.enter { s.obj i with scheduled := (s.obj i).scheduled - 1 }) ≤ objWork (s.obj i) := objWork_enter _
      simp only [work, List.map_append, List.sum_append, Option.toList_some, List.map_cons, List.map_nil, List.sum_cons, List.sum_nil]
      dsimp only at h1 h2 ⊢
      split_ifs <;> simp only [runWork] <;> omega
    | interpEffect i x e hin =>
      have h2 := sum_obj s.obj i (Obj.apply { s.obj i with inside := [.worked] } e)
      have h1 := objWork_apply { s.obj i with inside := [.worked] } e
      have h3 : objWork { s.obj i with inside := [.worked] } + 1 ≤ objWork (s.obj i) := by simp [objWork, hin]
      simp only [work, List.map_append, List.sum_append, Option.toList_some, List.map_cons, List.map_nil, List.sum_cons, List.sum_nil, runWork]
      dsimp only at h1 h2 h3 ⊢
      omega
    | interpLoop i hin =>
      have h2 := sum_obj s.obj i ((s.obj i).loopHead [])
      have h1 := objWork_loop (s.obj i) hin
      simp only [work, List.map_append, List.sum_append, Option.toList_some, List.map_cons, List.map_nil, List.sum_cons, List.sum_nil]
      try dsimp only at h1 h2 ⊢
      split_ifs <;> simp only [runWork] <;> omega
    | queueOne i owed b front => simp only [State.queueOne] at hq; omega
    | submitOne i owed =>
      simp only [work, State.submitGet, List.map_append, List.sum_append, Option.toList_some, List.map_cons, List.map_nil, List.sum_cons, List.sum_nil, runWork, taskWork]
      omega
    | _ =>
      simp only [work, List.map_append, List.sum_append, Option.toList_some, List.map_cons, List.map_nil, List.sum_cons, List.sum_nil, runWork]
      omega

/-! ## a complete run -/

/-- one function, one worker; the value in the field `k` is `k + 5` -/
def exCfg : Cfg 1 Unit ℕ := { workers := 1, primeCounter := 10, bb := fun k _ _ => k + 5, zero := fun v => v == 0 }

/-- A run that meets the assumptions of the theorems: a probe is requested, computed, fed and processed, the function is finished and the loop ends. -/
example : ∃ s : State 1 Unit ℕ, Reach exCfg s ∧ s.main = .exit ∧ (0, (), 5) ∈ (s.obj 0).accepted ∧ (s.obj 0).done = true ∧ s.itemsDone = 1 ∧ s.gaveUp = false := by
  have h0 : Reach exCfg {} := .init
  have h1 := Reach.step h0 (.main _ _ (.startQueue _ 0 false () false rfl))
  have h2 := Reach.step h1 (.main _ _ (.startSubmit _ 0 true rfl))
  have h3 := Reach.step h2 (.main _ _ (.startEnd _ rfl))
  have h4 := Reach.step h3 (.start _ [] [] .getJob rfl (by decide))
  have h5 := Reach.step h4 (.run _ _ [] [] .getJob _ rfl (.getBunch _ [(0, ())] [] rfl (by simp)))
  have h6 := Reach.step h5 (.run _ _ [] [] (.computing 0 [(0, ())]) _ rfl (.compute _ 0 [(0, ())] (fun _ _ => 0)))
  have h7 := Reach.step h6 (.main _ _ (.getProbe _ _ [] rfl rfl))
  have h8 := Reach.step h7 (.main _ _ (.gotProbe _ _ rfl))
  have h9 := Reach.step h8 (.main _ _ (.incFeed _ _ rfl))
  have h10 := Reach.step h9 (.main _ _ (.submitFeed _ _ rfl))
  have h11 := Reach.step h10 (.main _ _ (.check _ rfl))
  have h12 := Reach.step h11 (.main _ _ (.testZero _ rfl rfl))
  have h13 := Reach.step h12 (.main _ _ (.feedSleep _ rfl (Or.inl (by decide))))
  have h14 := Reach.step h13 (.start _ [] [] _ rfl (by decide))
  have h15 := Reach.step h14 (.run _ _ [] [] (.feed0 _) _ rfl (.feed0 _ _))
  have h16 := Reach.step h15 (.run _ _ [] [] (.feed1 _) _ rfl (.feed1 _ _))
  have h17 := Reach.step h16 (.run _ _ [] [] (.feed2 _ [0] 0) _ rfl (.feedItem _ _ 0 [] 0 rfl))
  have h18 := Reach.step h17 (.run _ _ [] [] (.feed2 _ [] 1) _ rfl (.feedEnd _ _ 1))
  have h19 := Reach.step h18 (.start _ [] [] (.interpJob 0) rfl (by decide))
  have h20 := Reach.step h19 (.run _ _ [] [] (.interp0 0) _ rfl (.interpCall _ 0 rfl))
  have h21 := Reach.step h20 (.run _ _ [] [] (.interpIn 0) _ rfl (.interpEffect _ 0 ((), 5) .done rfl))
  have h22 := Reach.step h21 (.run _ _ [] [] (.interpIn 0) _ rfl (.interpLoop _ 0 rfl))
  have h23 := Reach.step h22 (.run _ _ [] [] (.interpRet 0 (true, true, 0)) _ rfl (.retDone _ 0 0 rfl))
  have h24 := Reach.step h23 (.run _ _ [] [] (.interpEnd 0) _ rfl (.interpEnd _ 0))
  have h25 := Reach.step h24 (.main _ _ (.wokenZero _ rfl rfl))
  have h26 := Reach.step h25 (.main _ _ (.feedNone _ rfl (by decide)))
  have h27 := Reach.step h26 (.main _ _ (.recheckZero _ rfl rfl))
  have h28 := Reach.step h27 (.main _ _ (.poolWait _ rfl rfl))
  have h29 := Reach.step h28 (.main _ _ (.exit _ rfl rfl))
  exact ⟨_, h29, rfl, List.mem_cons_self, rfl, rfl, rfl⟩

/-- A run in which the prime field changes, as in `C38_prime_change`. -/
example : ∃ s t : State 1 Unit ℕ, Reach exCfg s ∧ Step exCfg s t ∧ t.primeIt ≠ s.primeIt ∧ AsksNext s 0 := by
  have h0 : Reach exCfg {} := .init
  have h1 := Reach.step h0 (.main _ _ (.startQueue _ 0 false () false rfl))
  have h2 := Reach.step h1 (.main _ _ (.startSubmit _ 0 true rfl))
  have h3 := Reach.step h2 (.main _ _ (.startEnd _ rfl))
  have h4 := Reach.step h3 (.start _ [] [] .getJob rfl (by decide))
  have h5 := Reach.step h4 (.run _ _ [] [] .getJob _ rfl (.getBunch _ [(0, ())] [] rfl (by simp)))
  have h6 := Reach.step h5 (.run _ _ [] [] (.computing 0 [(0, ())]) _ rfl (.compute _ 0 [(0, ())] (fun _ _ => 0)))
  have h7 := Reach.step h6 (.main _ _ (.getProbe _ _ [] rfl rfl))
  have h8 := Reach.step h7 (.main _ _ (.gotProbe _ _ rfl))
  have h9 := Reach.step h8 (.main _ _ (.incFeed _ _ rfl))
  have h10 := Reach.step h9 (.main _ _ (.submitFeed _ _ rfl))
  have h14 := Reach.step h10 (.start _ [] [] _ rfl (by decide))
  have h15 := Reach.step h14 (.run _ _ [] [] (.feed0 _) _ rfl (.feed0 _ _))
  have h16 := Reach.step h15 (.run _ _ [] [] (.feed1 _) _ rfl (.feed1 _ _))
  have h17 := Reach.step h16 (.run _ _ [] [] (.feed2 _ [0] 0) _ rfl (.feedItem _ _ 0 [] 0 rfl))
  have h18 := Reach.step h17 (.run _ _ [] [] (.feed2 _ [] 1) _ rfl (.feedEnd _ _ 1))
  have h19 := Reach.step h18 (.start _ [] [] (.interpJob 0) rfl (by decide))
  have h20 := Reach.step h19 (.run _ _ [] [] (.interp0 0) _ rfl (.interpCall _ 0 rfl))
  have h21 := Reach.step h20 (.run _ _ [] [] (.interpIn 0) _ rfl (.interpEffect _ 0 ((), 5) .newPrime rfl))
  have h22 := Reach.step h21 (.run _ _ [] [] (.interpIn 0) _ rfl (.interpLoop _ 0 rfl))
  have h23 := Reach.step h22 (.run _ _ [] [] (.interpRet 0 (true, false, 1)) _ rfl (.retNew _ 0 1 (by decide)))
  have h24 := Reach.step h23 (.run _ _ [] [] (.interpEnd 0) _ rfl (.interpEnd _ 0))
  have h25 := Reach.step h24 (.main _ _ (.check _ rfl))
  have h26 := Reach.step h25 (.main _ _ (.kill _ rfl rfl rfl))
  exact ⟨_, _, h26, .main _ _ (.advance _ rfl rfl rfl), by decide, rfl, rfl, rfl, rfl, rfl⟩

end FireFly.Scheduler
