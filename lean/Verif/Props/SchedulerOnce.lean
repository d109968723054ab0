import Verif.Props.SchedulerData
set_option linter.all false
/-! # C38: no probe is lost -/
namespace FireFly.Scheduler
open RatQueue (Obj)
variable {m : ℕ} {β V : Type}

/-- the indices of the index map -/
def mapIds (s : State m β V) : Multiset ℕ := ↑(s.indexMap.map Prod.fst)

def OnceInv (s : State m β V) : Prop := s.main ≠ .killing → mapIds s = inflight s

lemma inflight_swap {s : State m β V} {l r : List (Run m β V)} {w : Run m β V} (w' : Option (Run m β V)) (hr : s.running = l ++ w :: r) :
    inflight ({ s with running := l ++ w'.toList ++ r } : State m β V) + runIds w = inflight s + (w'.map runIds).getD 0 := by
  have : (w'.toList.map runIds).sum = (w'.map runIds).getD 0 := by cases w' <;> simp
  simp only [inflight, hr, List.map_append, List.map_cons, List.sum_append, List.sum_cons, this]
  abel

lemma inflight_queueOne (s : State m β V) (b : β) (front : Bool) : inflight (s.queueOne b front) = s.ind ::ₘ inflight s := by
  simp only [inflight, State.queueOne]
  rcases front with _ | _
  · simp only [Bool.false_eq_true, if_false, List.map_append, List.map_cons, List.map_nil]
    rw [← Multiset.coe_add, show (↑[s.ind] : Multiset ℕ) = {s.ind} from rfl, ← Multiset.singleton_add]
    abel
  · simp only [if_true, List.map_cons]
    rw [← Multiset.cons_coe]
    simp only [Multiset.cons_add]

lemma mapIds_queueOne (s : State m β V) (b : β) (front : Bool) : mapIds (s.queueOne b front) = s.ind ::ₘ mapIds s := by
  simp only [mapIds, State.queueOne, List.map_append, List.map_cons, List.map_nil]
  rw [← Multiset.coe_add, show (↑[s.ind] : Multiset ℕ) = {s.ind} from rfl, ← Multiset.singleton_add, add_comm]

lemma inflight_submitGet (s : State m β V) : inflight s.submitGet = inflight s := by
  simp [inflight, State.submitGet, taskIds]

lemma notify_ids (s : State m β V) : inflight s.notifyFeed = inflight s ∧ mapIds s.notifyFeed = mapIds s ∧ (s.notifyFeed.main ≠ .killing → s.main ≠ .killing) := by
  unfold State.notifyFeed
  split
  · rename_i h
    simp [inflight, mapIds, h, mainIds]
  · simp

lemma OnceInv.step {c : Cfg m β V} [Inhabited β] {s t : State m β V} (h : OnceInv s) (hd : DataInv c.bb s) (hs : Step c s t) : OnceInv t := by
  have hmain : ∀ mn : Main m V, mainIds mn = mainIds s.main → s.main ≠ .killing → mapIds ({ s with main := mn } : State m β V) = inflight ({ s with main := mn } : State m β V) := by
    intro mn hi hk
    have := h hk
    simp only [mapIds, inflight, hi] at this ⊢
    exact this
  cases hs with
  | spurious hm => exact fun _ => hmain _ (by simp [hm, mainIds]) (by simp [hm])
  | start l r tk ht hw =>
    intro hk
    have e : inflight ({ s with tasks := l ++ r, running := s.running ++ [tk.start] } : State m β V) = inflight s := by
      simp only [inflight, ht, List.map_append, List.sum_append, List.map_cons, List.map_nil, List.sum_cons, List.sum_nil, runIds_start]
      abel
    rw [e]; exact h hk
  | main _ h' =>
    have check : ∀ mn, mainIds mn = 0 → s.main = .check ∨ s.main = .poolWait → mapIds (s.afterCheck mn) = inflight (s.afterCheck mn) := by
      intro mn hi hm
      have hk : s.main ≠ .killing := by rcases hm with hm | hm <;> simp [hm]
      have e : mainIds s.main = 0 := by rcases hm with hm | hm <;> simp [hm, mainIds]
      unfold State.afterCheck
      split_ifs
      · exact hmain .head (by rw [e]; rfl) hk
      · exact hmain .head (by rw [e]; rfl) hk
      · exact hmain mn (by rw [hi, e]) hk
    cases h' with
    | kill => exact fun hk => absurd rfl hk
    | drop l r tk hm ht =>
      intro hk
      exfalso; apply hk
      cases tk <;> exact hm
    | advance hm ht hr =>
      intro _
      simp [mapIds, inflight, State.reset, ht, hr, mainIds]
    | check hm => exact fun _ => check _ rfl (Or.inl hm)
    | poolWait hm hr => exact fun _ => check _ rfl (Or.inr hm)
    | startQueue o q b front hm =>
      intro _
      have := hmain (.starting (o + 1) true) (by simp [hm, mainIds]) (by simp [hm])
      have e1 := mapIds_queueOne ({ s with main := .starting (o + 1) true } : State m β V) b front
      have e2 := inflight_queueOne ({ s with main := .starting (o + 1) true } : State m β V) b front
      rw [← this, ← e1] at e2
      exact e2.symm
    | attemptQueue o b front hm =>
      intro _
      have := hmain (.attempt (o + 1)) (by simp [hm, mainIds]) (by simp [hm])
      have e1 := mapIds_queueOne ({ s with main := .attempt (o + 1) } : State m β V) b front
      have e2 := inflight_queueOne ({ s with main := .attempt (o + 1) } : State m β V) b front
      rw [← this, ← e1] at e2
      exact e2.symm
    | startSubmit o q hm =>
      intro _
      have := hmain (.starting o q) (by simp [hm, mainIds]) (by simp [hm])
      have e2 := inflight_submitGet ({ s with main := .starting o q } : State m β V)
      rw [← this] at e2
      exact e2.symm
    | attemptSubmit o hm =>
      intro _
      have := hmain (.attempt o) (by simp [hm, mainIds]) (by simp [hm])
      have e2 := inflight_submitGet ({ s with main := .attempt o } : State m β V)
      rw [← this] at e2
      exact e2.symm
    | getProbe b bs hm hc =>
      intro _
      have := h (by simp [hm])
      simp only [mapIds, inflight, hc, hm, List.map_cons, List.sum_cons, mainIds, bunchIds] at this ⊢
      rw [this]; abel
    | gotProbe b hm => exact fun _ => hmain (.incFeed b) (by simp [hm, mainIds]) (by simp [hm])
    | incFeed b hm => exact fun _ => hmain (.submitFeed b) (by simp [hm, mainIds]) (by simp [hm])
    | submitFeed b hm =>
      intro _
      have := h (by simp [hm])
      simp only [mapIds, inflight, hm, List.map_append, List.sum_append, List.map_cons, List.map_nil, List.sum_cons, List.sum_nil, mainIds, taskIds] at this ⊢
      rw [this]; abel
    | exit hm _ => exact fun _ => hmain _ (by simp [hm, mainIds]) (by simp [hm])
    | next hm _ _ => exact fun _ => hmain _ (by simp [hm, mainIds]) (by simp [hm])
    | startEnd hm => exact fun _ => hmain _ (by simp [hm, mainIds]) (by simp [hm])
    | testZero hm _ => exact fun _ => hmain _ (by simp [hm, mainIds]) (by simp [hm])
    | testMore hm _ => exact fun _ => hmain _ (by simp [hm, mainIds]) (by simp [hm])
    | feedSleep hm _ => exact fun _ => hmain _ (by simp [hm, mainIds]) (by simp [hm])
    | feedNone hm _ => exact fun _ => hmain _ (by simp [hm, mainIds]) (by simp [hm])
    | wokenMore hm _ => exact fun _ => hmain _ (by simp [hm, mainIds]) (by simp [hm])
    | wokenZero hm _ => exact fun _ => hmain _ (by simp [hm, mainIds]) (by simp [hm])
    | recheckMore hm _ => exact fun _ => hmain _ (by simp [hm, mainIds]) (by simp [hm])
    | recheckZero hm _ => exact fun _ => hmain _ (by simp [hm, mainIds]) (by simp [hm])
    | attemptEnd hm => exact fun _ => hmain .head (by simp [hm, mainIds]) (by simp [hm])
  | run t' l r w w' hr hrs =>
    have swap : ∀ w' : Option (Run m β V), (w'.map runIds).getD 0 = runIds w → inflight ({ s with running := l ++ w'.toList ++ r } : State m β V) = inflight s := by
      intro w' hw
      have := inflight_swap w' hr
      rw [hw] at this
      exact add_right_cancel this
    cases hrs with
    | getBunch a b hq hl =>
      intro hk
      have := h hk
      refine Eq.trans this ?_
      simp only [inflight, hr, hq, List.map_append, List.map_cons, List.sum_append, List.sum_cons, Option.toList_some, List.map_nil, List.sum_nil, runIds, ← Multiset.coe_add]
      abel
    | compute k bunch junk =>
      intro hk
      have := h hk
      have e' : bunchIds (evalBunch c.bb s.primeIt k junk bunch) = ↑(bunch.map Prod.fst) := by
        simp only [bunchIds, evalBunch, List.map_map]; rfl
      refine Eq.trans this ?_
      simp only [inflight, hr, List.map_append, List.map_cons, List.sum_append, List.sum_cons, Option.toList_none, List.append_nil, List.map_nil, List.sum_nil, runIds, e']
      abel
    | feed1 bunch =>
      intro hk
      have := h hk
      have e := inflight_swap (some (Run.feed2 (bunch.map (fun t => (lookup s.indexMap t.1, t.2))) (List.finRange m) 0)) hr
      simp only [Option.map_some, Option.getD_some, runIds, add_zero] at e
      rw [← this] at e
      have hn : (mapIds s).Nodup := by simpa [mapIds] using hd.keys
      rw [← e, Multiset.nodup_add] at hn
      have e3 : mapIds ({ s with indexMap := s.indexMap.filter (fun t => !(bunch.map Prod.fst).contains t.1) } : State m β V) = (mapIds s).filter (fun n => n ∉ bunch.map Prod.fst) := by
        simp only [mapIds, Multiset.filter_coe]
        rw [List.filter_map]
        congr 2
        refine List.filter_congr (fun t _ => ?_)
        simp
      have e4 : (mapIds s).filter (fun n => n ∉ bunch.map Prod.fst) = inflight ({ s with running := l ++ (some (Run.feed2 (bunch.map (fun t => (lookup s.indexMap t.1, t.2))) (List.finRange m) 0)).toList ++ r } : State m β V) := by
        rw [← e, Multiset.filter_add]
        rw [Multiset.filter_eq_self.mpr, Multiset.filter_eq_nil.mpr, add_zero]
        · intro n hn'
          simp at hn' ⊢
          exact hn'
        · intro n hn' hc
          exact Multiset.disjoint_left.mp hn.2.2 hn' (by simpa using hc)
      rw [← e3] at e4
      exact e4
    | feedItem foods i todo counter hst =>
      intro hk
      have := h hk
      have e := swap (some (.feed2 foods todo (counter + if ((s.obj i).feed (fun x => c.zero x.2) false (foods.map (fun t => (t.1, t.2 i))) s.primeIt).2 then 1 else 0))) (by simp [runIds])
      rw [← this] at e
      simp only [mapIds, inflight] at e ⊢
      split_ifs at e ⊢
      · simpa [taskIds] using e.symm
      · exact e.symm
    | feedEnd foods counter =>
      obtain ⟨e1, e2, e3⟩ := notify_ids ({ s with interpJobs := s.interpJobs - (m - counter), feedJobs := s.feedJobs - 1, running := l ++ r } : State m β V)
      have e := swap none (by simp [runIds])
      have hcomm : ({ State.notifyFeed ({ s with interpJobs := s.interpJobs - (m - counter), feedJobs := s.feedJobs - 1 } : State m β V) with running := l ++ r } : State m β V) =
          State.notifyFeed ({ s with interpJobs := s.interpJobs - (m - counter), feedJobs := s.feedJobs - 1, running := l ++ r } : State m β V) := by
        unfold State.notifyFeed; rcases s.main with _ | _ | _ | _ | _ | _ | _ | _ | _ | _ | _ <;> rfl
      simp only [Option.toList_none, List.append_nil] at e ⊢
      rw [hcomm]
      intro hk
      rw [e1, e2]
      have := h (e3 hk)
      rw [← e] at this
      exact this
    | interpEnd i =>
      obtain ⟨e1, e2, e3⟩ := notify_ids ({ s with interpJobs := s.interpJobs - 1, running := l ++ r } : State m β V)
      have e := swap none (by simp [runIds])
      have hcomm : ({ State.notifyFeed ({ s with interpJobs := s.interpJobs - 1 } : State m β V) with running := l ++ r } : State m β V) =
          State.notifyFeed ({ s with interpJobs := s.interpJobs - 1, running := l ++ r } : State m β V) := by
        unfold State.notifyFeed; rcases s.main with _ | _ | _ | _ | _ | _ | _ | _ | _ | _ | _ <;> rfl
      simp only [Option.toList_none, List.append_nil] at e ⊢
      rw [hcomm]
      intro hk
      rw [e1, e2]
      have := h (e3 hk)
      rw [← e] at this
      exact this
    | queueOne i owed b front =>
      intro hk
      have := h hk
      have e := swap (some (.interpQ i (owed + 1))) (by simp [runIds])
      have e1 := mapIds_queueOne ({ s with running := l ++ (some (Run.interpQ i (owed + 1))).toList ++ r } : State m β V) b front
      have e2 := inflight_queueOne ({ s with running := l ++ (some (Run.interpQ i (owed + 1))).toList ++ r } : State m β V) b front
      rw [e, ← this] at e2
      exact e1.trans e2.symm
    | submitOne i owed =>
      intro hk
      have := h hk
      have e := swap (some (.interpQ i owed)) (by simp [runIds])
      have e2 := inflight_submitGet ({ s with running := l ++ (some (Run.interpQ i owed)).toList ++ r } : State m β V)
      rw [e, ← this] at e2
      exact e2.symm
    | interpCall i hst =>
      intro hk
      have := h hk
      have e := swap (some (if (s.obj i).fedZero || (s.obj i).isInterp || (s.obj i).queue.isEmpty
          then .interpRet i (lastRet (Obj.enter { s.obj i with scheduled := (s.obj i).scheduled - 1 })) else .interpIn i)) (by simp only [Option.map_some, Option.getD_some]; split_ifs <;> simp [runIds])
      rw [← this] at e
      exact e.symm
    | interpLoop i hin =>
      intro hk
      have := h hk
      have e := swap (some (if (s.obj i).queue.isEmpty then .interpRet i (lastRet ((s.obj i).loopHead [])) else .interpIn i)) (by simp only [Option.map_some, Option.getD_some]; split_ifs <;> simp [runIds])
      rw [← this] at e
      exact e.symm
    | getNone hq => exact fun hk => (h hk).trans (swap none (by simp [runIds])).symm
    | feed0 bunch => exact fun hk => (h hk).trans (swap (some (.feed1 bunch)) (by simp [runIds])).symm
    | feedSkip foods i todo counter hst => exact fun hk => (h hk).trans (swap (some (.feed2 foods todo counter)) (by simp [runIds])).symm
    | interpSkip i _ => exact fun hk => (h hk).trans (swap (some (.interpEnd i)) (by simp [runIds])).symm
    | interpEffect i _ _ _ => exact fun hk => (h hk).trans (swap (some (.interpIn i)) (by simp [runIds])).symm
    | retNothing i _ _ => exact fun hk => (h hk).trans (swap (some (.interpEnd i)) (by simp [runIds])).symm
    | retNew i _ _ => exact fun hk => (h hk).trans (swap (some (.interpEnd i)) (by simp [runIds])).symm
    | retMore i _ _ => exact fun hk => (h hk).trans (swap (some (.interpQ i 0)) (by simp [runIds])).symm
    | retDone i _ _ => exact fun hk => (h hk).trans (swap (some (.interpEnd i)) (by simp [runIds])).symm
    | retDone' i _ _ => exact fun hk => (h hk).trans (swap (some (.interpEnd i)) (by simp [runIds])).symm
    | queueEnd i => exact fun hk => (h hk).trans (swap (some (.interpEnd i)) (by simp [runIds])).symm

/-- **C38 (no lost probe).** Unless the pool is being emptied for a change of the prime field, the indices that wait in the index map are, each exactly once, those of the probes that are requested, being computed, computed,
held by the main thread or waiting to be fed: no requested probe is lost and none is delivered twice. -/
theorem C38_no_lost_probe {c : Cfg m β V} [Inhabited β] {s : State m β V} (h : Reach c s) (hk : s.main ≠ .killing) :
    (↑(s.indexMap.map Prod.fst) : Multiset ℕ) = inflight s ∧ (inflight s).Nodup := by
  refine ⟨?_, (reach_data h).nodup⟩
  have : OnceInv s := by
    induction h with
    | init => intro _; simp [mapIds, inflight, mainIds]
    | step hr hs ih =>
      rename_i s' t'
      by_cases hk' : s'.main = .killing
      · exact OnceInv.step (fun a => absurd hk' a) (reach_data hr) hs
      · exact OnceInv.step (ih hk') (reach_data hr) hs
  exact this hk

end FireFly.Scheduler
