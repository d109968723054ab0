import Verif.Props.SchedulerCounters
import Verif.Props.SchedulerLive
set_option linter.all false
/-! # C38: the schedule of a reconstruction of several functions -/
namespace FireFly.Scheduler
open RatQueue (Obj)
variable {m : ℕ} {β V : Type}

/-! ## values -/

lemma feed_accepted {α : Type} (zero : α → Bool) (o : Obj α) (xs : List α) (k : ℕ) : ∀ t ∈ (o.feed zero false xs k).1.accepted, t ∈ o.accepted ∨ (t.1 = k ∧ t.2 ∈ xs) := by
  intro t ht
  unfold Obj.feed at ht
  split_ifs at ht with hacc
  · have hk : k = o.prime := by simp at hacc; exact hacc.2
    have hb : ∀ t ∈ (o.feedBody zero false xs).accepted, t ∈ o.accepted ∨ (t.1 = k ∧ t.2 ∈ xs) := by
      intro t ht
      unfold Obj.feedBody at ht
      simp only [Obj.enqueue] at ht
      split_ifs at ht <;> simp only [List.mem_append, List.mem_map] at ht
      all_goals first
        | exact Or.inl ht
        | (rcases ht with ht | ⟨x, hx, rfl⟩
           · exact Or.inl ht
           · exact Or.inr ⟨hk.symm, hx⟩)
    simp only at ht
    split_ifs at ht
    · exact hb t ht
    · exact hb t ht
  · exact Or.inl ht

lemma loopHead_accepted {α : Type} (o : Obj α) (r : List (RatQueue.Pc α)) : (o.loopHead r).accepted = o.accepted := by
  unfold Obj.loopHead; split <;> rfl
lemma enter_accepted {α : Type} (o : Obj α) : o.enter.accepted = o.accepted := by
  unfold Obj.enter; split_ifs
  · rfl
  · rfl
  · rw [loopHead_accepted]
lemma apply_accepted {α : Type} (o : Obj α) (e : RatQueue.Effect) : (o.apply e).accepted = o.accepted := by
  cases e <;> simp only [Obj.apply]
  split_ifs <;> rfl

def ValInv (c : Cfg m β V) (s : State m β V) : Prop := ∀ i, ∀ t ∈ (s.obj i).accepted, t.2.2 = c.bb t.1 t.2.1 i

lemma ValInv.upd {c : Cfg m β V} {s t : State m β V} (h : ValInv c s) {i : Fin m} {o : Obj (β × V)} (ho : o.accepted = (s.obj i).accepted) (ht : t.obj = Function.update s.obj i o) : ValInv c t := by
  intro j x hx
  rw [ht] at hx
  by_cases hij : j = i
  · subst hij
    rw [Function.update_self, ho] at hx
    exact h j x hx
  · rw [Function.update_of_ne hij] at hx
    exact h j x hx

lemma ValInv.step {c : Cfg m β V} [Inhabited β] {s t : State m β V} (h : ValInv c s) (hd : DataInv c.bb s) (hs : Step c s t) : ValInv c t := by
  cases hs with
  | main _ h' =>
    cases h' with
    | drop l r tk hm ht =>
      cases tk with
      | interpJob i => exact h.upd (i := i) (o := { s.obj i with scheduled := (s.obj i).scheduled - 1 }) rfl rfl
      | _ => exact h
    | check => unfold State.afterCheck; split_ifs <;> exact h
    | poolWait => unfold State.afterCheck; split_ifs <;> exact h
    | _ => exact h
  | spurious hm => exact h
  | start l r tk ht hw => exact h
  | run t' l r w w' hr hrs =>
    have hw := hd.runs w (by rw [hr]; simp)
    cases hrs with
    | feedItem foods i todo counter hst =>
      intro j x hx
      by_cases hij : j = i
      · subst hij
        simp only [Function.update_self] at hx
        rcases feed_accepted _ _ _ _ x hx with hx | ⟨h1, h2⟩
        · exact h j x hx
        · obtain ⟨y, hy, e⟩ := List.mem_map.mp h2
          rw [h1, ← e, hw.2 y hy]
      · simp only [Function.update_of_ne hij] at hx
        exact h j x hx
    | interpSkip i hst => exact h.upd (i := i) (o := { s.obj i with scheduled := (s.obj i).scheduled - 1 }) rfl rfl
    | interpCall i hst => exact h.upd (i := i) (o := Obj.enter { s.obj i with scheduled := (s.obj i).scheduled - 1 }) (enter_accepted _) rfl
    | interpEffect i x e hin => exact h.upd (i := i) (o := Obj.apply { s.obj i with inside := [.worked] } e) (apply_accepted _ _) rfl
    | interpLoop i hin => exact h.upd (i := i) (o := (s.obj i).loopHead []) (loopHead_accepted _ _) rfl
    | feedEnd foods counter =>
      intro j x hx
      have := (notify_fields ({ s with interpJobs := s.interpJobs - (m - counter), feedJobs := s.feedJobs - 1 } : State m β V)).2.1
      simp only [this] at hx
      exact h j x hx
    | interpEnd i =>
      intro j x hx
      have := (notify_fields ({ s with interpJobs := s.interpJobs - 1 } : State m β V)).2.1
      simp only [this] at hx
      exact h j x hx
    | _ => exact h

lemma reach_val {c : Cfg m β V} [Inhabited β] {s : State m β V} (h : Reach c s) : ValInv c s := by
  induction h with
  | init => intro i x hx; simp at hx
  | step hr hs ih => exact ih.step (reach_data hr) hs

/-- **C38 (values).** In every execution, every probe that function `i` accepts for a point `b` in the prime field `k` has the value of the black box for
function `i` at `b` in the field `k`. -/
theorem C38_values {c : Cfg m β V} [Inhabited β] {s : State m β V} (h : Reach c s) (i : Fin m) (k : ℕ) (b : β) (v : V) (ha : (k, b, v) ∈ (s.obj i).accepted) :
    v = c.bb k b i := reach_val h i _ ha

/-- **C38 (protocol).** The scheduler uses every reconstruction object according to the protocol of C37: its state is always one that C37 describes. -/
theorem C38_protocol {c : Cfg m β V} [Inhabited β] {s : State m β V} (h : Reach c s) (i : Fin m) : RatQueue.Reach (fun x : β × V => c.zero x.2) false (s.obj i) :=
  ((reach_count h).items i).reach

/-- Specification: function `i` has asked for the next prime field and nothing is left to be done for it in this one. -/
def AsksNext (s : State m β V) (i : Fin m) : Prop :=
  (s.obj i).done = false ∧ (s.obj i).prime = s.primeIt + 1 ∧ (s.obj i).queue = [] ∧ (s.obj i).inside = [] ∧ (s.obj i).fedZero = false

/-- **C38 (change of the prime).** The prime field changes only to the next one, only when the pool is empty, and only when every function is finished
or has asked for the next field. -/
theorem C38_prime_change {c : Cfg m β V} [Inhabited β] {s t : State m β V} (h : Reach c s) (hs : Step c s t) (hp : t.primeIt ≠ s.primeIt) :
    t.primeIt = s.primeIt + 1 ∧ s.tasks = [] ∧ s.running = [] ∧ ∀ i, (s.obj i).done = true ∨ AsksNext s i := by
  have hc := reach_count h
  cases hs with
  | main _ h' =>
    cases h' with
    | advance hm ht hr =>
      refine ⟨rfl, ht, hr, fun i => ?_⟩
      have hf := hc.flag (Or.inr hm) i
      rcases hst : s.status i with _ | _
      · right
        obtain ⟨a1, a2, a3, a4, a5, a6, a7, a8, a9⟩ := item_counted (hc.items i) (by rw [hst] at hf; simp at hf; simp [view, mkView]; omega)
        exact ⟨a1, a2, a3, a5, a4⟩
      · exact Or.inl ((hc.items i).st hst)
    | drop l r tk hm ht => exfalso; apply hp; cases tk <;> rfl
    | check => exfalso; apply hp; unfold State.afterCheck; split_ifs <;> rfl
    | poolWait => exfalso; apply hp; unfold State.afterCheck; split_ifs <;> rfl
    | _ => exact absurd rfl hp
  | spurious hm => exact absurd rfl hp
  | start l r tk ht hw => exact absurd rfl hp
  | run t' l r w w' hr hrs =>
    exfalso; apply hp
    cases hrs with
    | feedEnd foods counter => exact (notify_fields ({ s with interpJobs := s.interpJobs - (m - counter), feedJobs := s.feedJobs - 1 } : State m β V)).1
    | interpEnd i => exact (notify_fields ({ s with interpJobs := s.interpJobs - 1 } : State m β V)).1
    | _ => rfl

/-- **C38 (counters).** `items_done` is the number of functions whose result has been fetched, and `items_new_prime` never exceeds the number of functions that have asked for the next field. When no job is queued or running, both are exact: a function
is finished if and only if its result has been fetched, and `items_new_prime` is the number of functions that have asked for the next field. -/
theorem C38_counters {c : Cfg m β V} [Inhabited β] {s : State m β V} (h : Reach c s) :
    s.itemsDone = (Finset.univ.filter (fun i => s.status i = true)).card ∧ (∀ i, s.status i = true → (s.obj i).done = true) ∧ s.itemsDone + s.itemsNew ≤ m ∧
    (s.tasks = [] → s.running = [] → (∀ i, (s.obj i).done = true → s.status i = true) ∧
      s.itemsNew = (Finset.univ.filter (fun i => (s.obj i).done = false ∧ (s.obj i).prime = s.primeIt + 1)).card) := by
  have hc := reach_count h
  have hone : ∀ i, (s.status i).toNat + s.counted i ≤ 1 := by
    intro i
    by_cases hcnt : 0 < s.counted i
    · obtain ⟨-, -, -, -, -, -, h7, h8, -⟩ := item_counted (hc.items i) hcnt
      have h7' : s.counted i = 1 := h7
      have h8' : s.status i = false := h8
      simp [h7', h8']
    · have : (s.status i).toNat ≤ 1 := Bool.toNat_le _
      omega
  refine ⟨?_, fun i => (hc.items i).st, ?_, fun ht hr => ⟨fun i hd => ?_, ?_⟩⟩
  · rw [hc.sumD, Finset.card_filter]
    exact Finset.sum_congr rfl (fun i _ => by cases s.status i <;> rfl)
  · rw [hc.sumD, hc.sumN, ← Finset.sum_add_distrib]
    calc _ ≤ ∑ i : Fin m, 1 := Finset.sum_le_sum (fun i _ => hone i)
      _ = m := by simp
  · by_contra hst
    have hI := hc.items i
    have hS := hI.sched
    have hIn := hI.ins
    simp only [view, mkView, ht, hr, List.map_nil, List.sum_nil] at hS hIn
    rcases hI.pend hd (by simpa [view, mkView] using hst) with hp | hp
    · simp only [view, mkView, hr, List.map_nil, List.sum_nil] at hp
      omega
    · have := hp.2
      simp only [view, mkView] at this
      omega
  · rw [hc.sumN, Finset.card_filter]
    refine Finset.sum_congr rfl (fun i _ => ?_)
    have hI := hc.items i
    have hS := hI.sched
    have hIn := hI.ins
    simp only [view, mkView, ht, hr, List.map_nil, List.sum_nil] at hS hIn
    split_ifs with hcond
    · obtain ⟨n1, n2, n3, n4⟩ := hI.nxt hcond.1 hcond.2
      have hz : (s.obj i).fedZero = false := by
        by_contra hz
        have := (RatQueue.reach_inv hI.reach).zeroPend hcond.1 (by simpa [view, mkView] using hz)
        simp only [view, mkView] at this
        omega
      simp only [view, mkView, hr, List.map_nil, List.sum_nil, hz] at n4
      simp at n4
      omega
    · by_contra hcnt
      obtain ⟨a1, a2, -⟩ := item_counted hI (Nat.pos_of_ne_zero hcnt)
      exact hcond ⟨a1, a2⟩

/-! ## the end -/

lemma reach_exit {c : Cfg m β V} [Inhabited β] {s : State m β V} (h : Reach c s) :
    (s.done = true → (∀ i, s.status i = true) ∨ c.primeCounter ≤ s.primeIt) ∧ (s.main = .exit → s.done = true) := by
  induction h with
  | init => simp
  | step hr hs ih =>
    rename_i s t
    have hc := reach_count hr
    have check : ∀ mn : Main m V, mn ≠ .exit → ((s.afterCheck mn).done = true → (∀ i, (s.afterCheck mn).status i = true) ∨ c.primeCounter ≤ (s.afterCheck mn).primeIt) ∧ ((s.afterCheck mn).main = .exit → (s.afterCheck mn).done = true) := by
      intro mn hmn
      unfold State.afterCheck
      split_ifs with h1 h2
      · refine ⟨fun _ => Or.inl ?_, by simp⟩
        have hsum : ∑ i : Fin m, (s.status i).toNat = ∑ i : Fin m, 1 := by rw [← hc.sumD, h1]; simp
        intro i
        have := (Finset.sum_eq_sum_iff_of_le (fun i _ => Bool.toNat_le _)).mp hsum i (Finset.mem_univ i)
        simpa using this
      · exact ⟨ih.1, by simp⟩
      · exact ⟨ih.1, fun a => absurd a hmn⟩
    cases hs with
    | main _ h' =>
      cases h' with
      | exit hm hd => exact ⟨ih.1, fun _ => hd⟩
      | drop l r tk hm ht =>
        cases tk <;> exact ⟨ih.1, fun a => ih.2 a⟩
      | advance hm ht hr' =>
        refine ⟨fun hd => Or.inr ?_, fun a => (by simp [State.reset] at a)⟩
        simpa [State.reset] using hd
      | check hm => exact check _ (by simp)
      | poolWait hm hr' => exact check _ (by simp)
      | _ => exact ⟨ih.1, fun a => (by simp at a)⟩
    | spurious hm => exact ⟨ih.1, fun a => (by simp at a)⟩
    | start l r tk ht hw => exact ih
    | run t' l r w w' hrr hrs =>
      have hnot : ∀ s' : State m β V, s'.main = s.main → s'.status = s.status → s'.done = s.done → s'.primeIt = s.primeIt →
          (s'.notifyFeed.done = true → (∀ i, s'.notifyFeed.status i = true) ∨ c.primeCounter ≤ s'.notifyFeed.primeIt) ∧ (s'.notifyFeed.main = .exit → s'.notifyFeed.done = true) := by
        intro s' e1 e2 e3 e4
        unfold State.notifyFeed
        split
        · simp only [e2, e3, e4]; exact ⟨ih.1, by simp⟩
        · rw [e1, e2, e3, e4]; exact ih
      cases hrs with
      | retDone i p hst =>
        refine ⟨fun hd => ?_, ih.2⟩
        rcases ih.1 hd with h | h
        · left
          intro j
          by_cases hij : j = i
          · subst hij; simp
          · simp [Function.update_of_ne hij, h j]
        · exact Or.inr h
      | feedEnd foods counter => exact hnot _ rfl rfl rfl rfl
      | interpEnd i => exact hnot _ rfl rfl rfl rfl
      | _ => exact ih

/-- **C38 (end).** The main loop ends only when every function is finished, or when the last prime field has been reached. -/
theorem C38_exit {c : Cfg m β V} [Inhabited β] {s : State m β V} (h : Reach c s) (he : s.main = .exit) :
    (∀ i, (s.obj i).done = true) ∨ c.primeCounter ≤ s.primeIt := by
  obtain ⟨h1, h2⟩ := reach_exit h
  rcases h1 (h2 he) with h' | h'
  · exact Or.inl (fun i => ((reach_count h).items i).st (h' i))
  · exact Or.inr h'

/-! ## no deadlock -/

/-- Specification: some thread can make a step, other than a spurious wake-up. -/
def CanStep (c : Cfg m β V) [Inhabited β] (s : State m β V) : Prop :=
  (∃ t, MainStep c s t) ∨ (∃ l r w t w', s.running = l ++ w :: r ∧ RunStep c s w t w') ∨ (∃ l r tk, s.tasks = l ++ tk :: r ∧ s.running.length < c.workers)

lemma run_progress {c : Cfg m β V} [Inhabited β] {s : State m β V} (h : Reach c s) {l r : List (Run m β V)} {w : Run m β V} (hr : s.running = l ++ w :: r) : ∃ t w', RunStep c s w t w' := by
  cases w with
  | getJob =>
    rcases hq : s.requested with _ | ⟨x, xs⟩
    · exact ⟨_, _, .getNone s hq⟩
    · exact ⟨_, _, .getBunch s [x] xs hq (by simp)⟩
  | computing k b => exact ⟨_, _, .compute s k b (fun _ => c.bb 0 default)⟩
  | feed0 b => exact ⟨_, _, .feed0 s b⟩
  | feed1 b => exact ⟨_, _, .feed1 s b⟩
  | feed2 foods todo n =>
    rcases todo with _ | ⟨i, todo⟩
    · exact ⟨_, _, .feedEnd s foods n⟩
    · rcases hst : s.status i with _ | _
      · exact ⟨_, _, .feedItem s foods i todo n hst⟩
      · exact ⟨_, _, .feedSkip s foods i todo n hst⟩
  | interp0 i =>
    rcases hst : s.status i with _ | _
    · exact ⟨_, _, .interpCall s i hst⟩
    · exact ⟨_, _, .interpSkip s i hst⟩
  | interpIn i =>
    have hlen := ((reach_count h).items i).ins
    have h1 := RatQueue.C37_exclusive (C38_protocol h i)
    simp only [view, mkView, hr, List.map_append, List.map_cons, List.sum_append, List.sum_cons] at hlen
    rw [show wIn i (Run.interpIn i : Run m β V) = 1 by simp [wIn]] at hlen
    rcases hin : (s.obj i).inside with _ | ⟨p, ps⟩
    · rw [hin] at hlen; simp at hlen; omega
    · have hps : ps = [] := by rw [hin] at h1; simp at h1; exact h1
      subst hps
      cases p with
      | working x => exact ⟨_, _, .interpEffect s i x .nothing hin⟩
      | worked => exact ⟨_, _, .interpLoop s i hin⟩
  | interpRet i ret =>
    rcases ret with ⟨_ | _, d, p⟩
    · exact ⟨_, _, .retNothing s i d p⟩
    · rcases d with _ | _
      · by_cases hp : s.primeIt < p
        · exact ⟨_, _, .retNew s i p hp⟩
        · exact ⟨_, _, .retMore s i p (by omega)⟩
      · rcases hst : s.status i with _ | _
        · exact ⟨_, _, .retDone s i p hst⟩
        · exact ⟨_, _, .retDone' s i p hst⟩
  | interpQ i o =>
    rcases o with _ | o
    · exact ⟨_, _, .queueEnd s i⟩
    · exact ⟨_, _, .submitOne s i o⟩
  | interpEnd i => exact ⟨_, _, .interpEnd s i⟩

lemma sum_pos_ne_nil {α : Type} {f : α → ℕ} {l : List α} (h : 0 < (l.map f).sum) : l ≠ [] := by rintro rfl; simp at h

/-- **C38 (no deadlock).** As long as the main loop has not ended, some thread can make a step, unless `attempt_to_continue` has once been left without requesting a probe. -/
theorem C38_no_deadlock {c : Cfg m β V} [Inhabited β] (hw : 1 ≤ c.workers) {s : State m β V} (h : Reach c s) (he : s.main ≠ .exit) (hg : s.gaveUp = false) : CanStep c s := by
  have hl := reach_live h
  rcases hrun : s.running with _ | ⟨w, ws⟩
  swap
  · obtain ⟨t, w', hs⟩ := run_progress h (l := []) hrun
    exact Or.inr (Or.inl ⟨[], ws, w, t, w', hrun, hs⟩)
  rcases htask : s.tasks with _ | ⟨tk, ts⟩
  swap
  · exact Or.inr (Or.inr ⟨[], ts, tk, htask, by rw [hrun]; exact hw⟩)
  left
  have hgets := hl.gets
  have hfj := hl.fj
  have hij := hl.ij
  have hpq := hl.pq
  simp only [hrun, htask, List.map_nil, List.sum_nil] at hgets hfj hij hpq
  rcases hm : s.main with _ | _ | ⟨o, q⟩ | _ | b | b | b | _ | _ | _ | _ | _ | _ | _ | o | _
  · rcases hd : s.done with _ | _
    · rcases hn : s.newPrime with _ | _
      · exact ⟨_, .next s hm hd hn⟩
      · exact ⟨_, .kill s hm hd hn⟩
    · exact ⟨_, .exit s hm hd⟩
  · exact ⟨_, .advance s hm htask hrun⟩
  · exact ⟨_, .startQueue s o q default false hm⟩
  · rcases hc : s.computed with _ | ⟨b, bs⟩
    · exfalso
      have hp := hl.probe (Or.inl hm)
      rw [hg] at hp
      simp only [hm, hc, mGot, mOwed, List.map_nil, List.sum_nil] at hpq hgets
      have := hgets (by simp)
      simp at hp
      omega
    · exact ⟨_, .getProbe s b bs hm hc⟩
  · exact ⟨_, .gotProbe s b hm⟩
  · exact ⟨_, .incFeed s b hm⟩
  · exact ⟨_, .submitFeed s b hm⟩
  · exact ⟨_, .check s hm⟩
  · by_cases hq : s.probesQueued = 0
    · exact ⟨_, .testZero s hm hq⟩
    · exact ⟨_, .testMore s hm hq⟩
  · by_cases hj : 0 < s.feedJobs ∨ 0 < s.interpJobs
    · exact ⟨_, .feedSleep s hm hj⟩
    · exact ⟨_, .feedNone s hm hj⟩
  · exfalso
    have hp := hl.sleep hm
    have h1 := hfj (by simp [hm])
    have h2 := hij (by simp [hm])
    simp only [hm, mSub] at h1
    simp at h1
    omega
  · by_cases hq : s.probesQueued = 0
    · exact ⟨_, .wokenZero s hm hq⟩
    · exact ⟨_, .wokenMore s hm hq⟩
  · by_cases hq : s.probesQueued = 0
    · exact ⟨_, .recheckZero s hm hq⟩
    · exact ⟨_, .recheckMore s hm hq⟩
  · exact ⟨_, .poolWait s hm hrun⟩
  · rcases o with _ | o
    · exact ⟨_, .attemptEnd s hm⟩
    · exact ⟨_, .attemptSubmit s o hm⟩
  · exact absurd hm he

end FireFly.Scheduler
