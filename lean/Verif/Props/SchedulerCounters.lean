import Verif.Props.SchedulerItems
import Verif.Props.SchedulerData
set_option linter.all false
/-! # The counters of the scheduler (for C38) -/
namespace FireFly.Scheduler
open RatQueue (Obj)
variable {m : ℕ} {β V : Type}

structure CountInv (c : Cfg m β V) (s : State m β V) : Prop where
  items : ∀ i, ItemInv c.zero (view s i)
  sumD : s.itemsDone = ∑ i, (s.status i).toNat
  sumN : s.itemsNew = ∑ i, s.counted i
  flag : (s.newPrime = true ∨ s.main = .killing) → ∀ i, (s.status i).toNat + s.counted i = 1

lemma item_of_eq {z : V → Bool} {v v' : View β V} (h : ItemInv z v) (e : v' = v) : ItemInv z v' := e ▸ h

lemma sum_upd (f : Fin m → ℕ) (j : Fin m) : ∑ i, Function.update f j (f j + 1) i = ∑ i, f i + 1 := by
  rw [Finset.sum_update_of_mem (Finset.mem_univ j), ← Finset.sum_sdiff (Finset.subset_univ {j}) (f := f), Finset.sum_singleton]
  omega

lemma sum_upd_bool (f : Fin m → Bool) (j : Fin m) (h : f j = false) : ∑ i, (Function.update f j true i).toNat = ∑ i, (f i).toNat + 1 := by
  rw [← sum_upd (fun i => (f i).toNat) j]
  congr 1; ext i
  by_cases hi : i = j
  · subst hi; simp [h]
  · simp [hi]

/-- the view of a function for which nothing changes -/
lemma view_same {s t : State m β V} {i : Fin m} (h1 : t.primeIt = s.primeIt) (h2 : t.obj i = s.obj i) (h3 : t.status i = s.status i) (h4 : t.counted i = s.counted i)
    (h5 : (t.tasks.map (tI i)).sum + (t.running.map (wI0 i)).sum = (s.tasks.map (tI i)).sum + (s.running.map (wI0 i)).sum)
    (h6 : (t.running.map (wNew i s.primeIt)).sum = (s.running.map (wNew i s.primeIt)).sum)
    (h7 : (t.running.map (wPD i)).sum = (s.running.map (wPD i)).sum) (h8 : (t.running.map (wIn i)).sum = (s.running.map (wIn i)).sum) : view t i = view s i := by
  simp only [view, mkView, h1, h2, h3, h4, h5, h6, h7, h8]

lemma notify_fields (s : State m β V) : s.notifyFeed.primeIt = s.primeIt ∧ s.notifyFeed.obj = s.obj ∧ s.notifyFeed.status = s.status ∧ s.notifyFeed.counted = s.counted ∧
    s.notifyFeed.tasks = s.tasks ∧ s.notifyFeed.itemsDone = s.itemsDone ∧ s.notifyFeed.itemsNew = s.itemsNew ∧ s.notifyFeed.newPrime = s.newPrime ∧ (s.notifyFeed.main = .killing ↔ s.main = .killing) := by
  unfold State.notifyFeed
  split <;> simp_all

lemma CountInv.run {c : Cfg m β V} [Inhabited β] {s t : State m β V} {l r : List (Run m β V)} {w : Run m β V} {w' : Option (Run m β V)} (h : CountInv c s) (hdat : DataInv c.bb s)
    (hr : s.running = l ++ w :: r) (hs : RunStep c s w t w') : CountInv c { t with running := l ++ w'.toList ++ r } := by
  have hw := hdat.runs w (by rw [hr]; simp)
  obtain ⟨hit, hD, hN, hF⟩ := h
  cases hs with
  | feedItem foods i todo counter hst =>
    refine ⟨fun j => ?_, hD, hN, hF⟩
    have hx : foods.map (fun t => (t.1, t.2 i)) ≠ [] := by simpa using hw.1
    by_cases hij : i = j
    · subst hij
      have key := item_feed (hit i) (foods.map (fun t => (t.1, t.2 i))) hx hst
      refine item_of_eq key (View.ext_iff.mpr ?_)
      · refine ⟨rfl, by simp only [view, mkView, Function.update_self]; rfl, rfl, rfl, ?_, ?_, ?_, ?_⟩
        · simp [view, mkView, hr, wNew]
        · simp [view, mkView, hr, wPD]
        · simp only [view, mkView, hr]
          split_ifs <;> simp [wI0, tI]
          omega
        · simp [view, mkView, hr, wIn]
    · refine item_of_eq (hit j) (view_same (s := s) rfl (by simp [Function.update_of_ne (Ne.symm hij)]) rfl rfl ?_ ?_ ?_ ?_)
      · simp only [hr]
        split_ifs <;> simp [wI0, tI, hij]
      · simp [hr, wNew]
      · simp [hr, wPD]
      · simp [hr, wIn]
  | interpSkip i hst =>
    refine ⟨fun j => ?_, hD, hN, hF⟩
    by_cases hij : i = j
    · subst hij
      have key := item_skip (hit i) hst (by simp [view, mkView, hr, wI0])
      refine item_of_eq key (View.ext_iff.mpr ?_)
      · refine ⟨rfl, by simp [view, mkView], rfl, rfl, ?_, ?_, ?_, ?_⟩
        · simp [view, mkView, hr, wNew]
        · simp [view, mkView, hr, wPD]
        · simp [view, mkView, hr, wI0]; omega
        · simp [view, mkView, hr, wIn]
    · refine item_of_eq (hit j) (view_same (s := s) rfl (by simp [Function.update_of_ne (Ne.symm hij)]) rfl rfl ?_ ?_ ?_ ?_)
      · simp [hr, wI0, hij]
      · simp [hr, wNew]
      · simp [hr, wPD]
      · simp [hr, wIn]
  | interpCall i hst =>
    refine ⟨fun j => ?_, hD, hN, hF⟩
    by_cases hij : i = j
    · subst hij
      have key := item_call (hit i) (by simp [view, mkView, hr, wI0]) hst i _ rfl
      refine item_of_eq key (View.ext_iff.mpr ?_)
      · refine ⟨rfl, by simp [view, mkView], rfl, rfl, ?_, ?_, ?_, ?_⟩
        · simp only [view, mkView, hr, List.map_append, List.sum_append, List.map_cons, List.sum_cons, Option.toList_some, List.map_nil, List.sum_nil]
          rw [show wNew i s.primeIt (Run.interp0 i : Run m β V) = 0 from rfl]; omega
        · simp only [view, mkView, hr, List.map_append, List.sum_append, List.map_cons, List.sum_cons, Option.toList_some, List.map_nil, List.sum_nil]
          rw [show wPD i (Run.interp0 i : Run m β V) = 0 from rfl]; omega
        · simp only [view, mkView, hr, List.map_append, List.sum_append, List.map_cons, List.sum_cons, Option.toList_some, List.map_nil, List.sum_nil]
          rw [show wI0 i (Run.interp0 i : Run m β V) = 1 by simp [wI0]]; omega
        · simp only [view, mkView, hr, List.map_append, List.sum_append, List.map_cons, List.sum_cons, Option.toList_some, List.map_nil, List.sum_nil]
          rw [show wIn i (Run.interp0 i : Run m β V) = 0 from rfl]; omega
    · refine item_of_eq (hit j) (view_same (s := s) rfl (by simp [Function.update_of_ne (Ne.symm hij)]) rfl rfl ?_ ?_ ?_ ?_)
      · simp only [hr]; split_ifs <;> simp [wI0, hij]
      · simp only [hr]; rcases lastRet (Obj.enter { s.obj i with scheduled := (s.obj i).scheduled - 1 }) with ⟨_ | _, _ | _, p⟩ <;> split_ifs <;> simp [wNew, hij]
      · simp only [hr]; rcases lastRet (Obj.enter { s.obj i with scheduled := (s.obj i).scheduled - 1 }) with ⟨_ | _, _ | _, p⟩ <;> split_ifs <;> simp [wPD, hij]
      · simp only [hr]; split_ifs <;> simp [wIn, hij]
  | interpEffect i x e hin =>
    refine ⟨fun j => ?_, hD, hN, hF⟩
    by_cases hij : i = j
    · subst hij
      have key := item_effect (hit i) x hin e
      refine item_of_eq key (View.ext_iff.mpr ?_)
      · refine ⟨rfl, by simp [view, mkView], rfl, rfl, ?_, ?_, ?_, ?_⟩
        · simp [view, mkView, hr, wNew]
        · simp [view, mkView, hr, wPD]
        · simp [view, mkView, hr, wI0]
        · simp [view, mkView, hr, wIn]
    · refine item_of_eq (hit j) (view_same (s := s) rfl (by simp [Function.update_of_ne (Ne.symm hij)]) rfl rfl ?_ ?_ ?_ ?_)
      · simp [hr, wI0, hij]
      · simp [hr, wNew]
      · simp [hr, wPD]
      · simp [hr, wIn]
  | interpLoop i hin =>
    refine ⟨fun j => ?_, hD, hN, hF⟩
    by_cases hij : i = j
    · subst hij
      have key := item_loop (hit i) hin i _ rfl
      refine item_of_eq key (View.ext_iff.mpr ?_)
      · refine ⟨rfl, by simp [view, mkView], rfl, rfl, ?_, ?_, ?_, ?_⟩
        · simp only [view, mkView, hr, List.map_append, List.sum_append, List.map_cons, List.sum_cons, Option.toList_some, List.map_nil, List.sum_nil]
          rw [show wNew i s.primeIt (Run.interpIn i : Run m β V) = 0 from rfl]; omega
        · simp only [view, mkView, hr, List.map_append, List.sum_append, List.map_cons, List.sum_cons, Option.toList_some, List.map_nil, List.sum_nil]
          rw [show wPD i (Run.interpIn i : Run m β V) = 0 from rfl]; omega
        · simp only [view, mkView, hr, List.map_append, List.sum_append, List.map_cons, List.sum_cons, Option.toList_some, List.map_nil, List.sum_nil]
          rw [show wI0 i (Run.interpIn i : Run m β V) = 0 by simp [wI0]]; omega
        · simp only [view, mkView, hr, List.map_append, List.sum_append, List.map_cons, List.sum_cons, Option.toList_some, List.map_nil, List.sum_nil]
          rw [show wIn i (Run.interpIn i : Run m β V) = 1 by simp [wIn]]; omega
    · refine item_of_eq (hit j) (view_same (s := s) rfl (by simp [Function.update_of_ne (Ne.symm hij)]) rfl rfl ?_ ?_ ?_ ?_)
      · simp only [hr]; split_ifs <;> simp [wI0, hij]
      · simp only [hr]; rcases lastRet ((s.obj i).loopHead []) with ⟨_ | _, _ | _, p⟩ <;> split_ifs <;> simp [wNew, hij]
      · simp only [hr]; rcases lastRet ((s.obj i).loopHead []) with ⟨_ | _, _ | _, p⟩ <;> split_ifs <;> simp [wPD, hij]
      · simp only [hr]; split_ifs <;> simp [wIn, hij]
  | retNew i p hp =>
    have hnew : 0 < (view s i).new := by simp [view, mkView, hr, wNew, hp]
    obtain ⟨n1, n2, n3, n4⟩ := item_new (hit i) hnew
    refine ⟨fun j => ?_, hD, by simp only; rw [hN, sum_upd], ?_⟩
    · by_cases hij : i = j
      · subst hij
        have key := item_retNew (hit i) hnew
        refine item_of_eq key (View.ext_iff.mpr ?_)
        · refine ⟨rfl, rfl, rfl, by simp [view, mkView], ?_, ?_, ?_, ?_⟩
          · simp [view, mkView, hr, wNew, hp]; omega
          · simp [view, mkView, hr, wPD]
          · simp [view, mkView, hr, wI0]
          · simp [view, mkView, hr, wIn]
      · refine item_of_eq (hit j) (view_same (s := s) rfl rfl rfl (by simp [Function.update_of_ne (Ne.symm hij)]) ?_ ?_ ?_ ?_)
        · simp [hr, wI0, hij]
        · simp [hr, wNew, hij]
        · simp [hr, wPD]
        · simp [hr, wIn]
    · intro hf
      exfalso
      have h1 := hF hf i
      have h2 : (view s i).st = true := by
        have : s.counted i = 0 := n3
        rw [this] at h1
        simpa [view, mkView] using h1
      have := (hit i).st h2
      rw [n1] at this; cases this
  | retDone i p hp =>
    have hpd : 0 < (view s i).pd := by simp [view, mkView, hr, wPD]
    have hd := (hit i).pd hpd
    refine ⟨fun j => ?_, by simp only; rw [hD, sum_upd_bool _ _ hp], hN, ?_⟩
    · by_cases hij : i = j
      · subst hij
        have key := item_retDone (hit i) hpd
        refine item_of_eq key (View.ext_iff.mpr ?_)
        · refine ⟨rfl, rfl, by simp [view, mkView], rfl, ?_, ?_, ?_, ?_⟩
          · simp [view, mkView, hr, wNew]
          · simp [view, mkView, hr, wPD]; omega
          · simp [view, mkView, hr, wI0]
          · simp [view, mkView, hr, wIn]
      · refine item_of_eq (hit j) (view_same (s := s) rfl rfl (by simp [Function.update_of_ne (Ne.symm hij)]) rfl ?_ ?_ ?_ ?_)
        · simp [hr, wI0, hij]
        · simp [hr, wNew]
        · simp [hr, wPD, hij]
        · simp [hr, wIn]
    · intro hf
      exfalso
      have h1 := hF hf i
      have h2 : s.counted i = 0 := ((hit i).dn hd).1
      rw [h2, hp] at h1
      simp at h1
  | retDone' i p hp =>
    have hpd : 0 < (view s i).pd := by simp [view, mkView, hr, wPD]
    refine ⟨fun j => ?_, hD, hN, hF⟩
    by_cases hij : i = j
    · subst hij
      have key := item_retDone (hit i) hpd
      refine item_of_eq key (View.ext_iff.mpr ?_)
      · refine ⟨rfl, rfl, by simp [view, mkView, hp], rfl, ?_, ?_, ?_, ?_⟩
        · simp [view, mkView, hr, wNew]
        · simp [view, mkView, hr, wPD]; omega
        · simp [view, mkView, hr, wI0]
        · simp [view, mkView, hr, wIn]
    · refine item_of_eq (hit j) (view_same (s := s) rfl rfl rfl rfl ?_ ?_ ?_ ?_)
      · simp [hr, wI0, hij]
      · simp [hr, wNew]
      · simp [hr, wPD, hij]
      · simp [hr, wIn]
  | feedEnd foods counter =>
    obtain ⟨e1, e2, e3, e4, e5, e6, e7, e8, e9⟩ := notify_fields ({ s with interpJobs := s.interpJobs - (m - counter), feedJobs := s.feedJobs - 1 } : State m β V)
    refine ⟨fun j => ?_, ?_, ?_, ?_⟩
    · refine item_of_eq (hit j) (view_same (s := s) e1 (by simp only [e2]) (by simp only [e3]) (by simp only [e4]) (by simp only [e5]; simp [hr, wI0]) (by simp [hr, wNew]) (by simp [hr, wPD]) (by simp [hr, wIn]))
    · simp only [e6, e3]; exact hD
    · simp only [e7, e4]; exact hN
    · simp only [e8, e9, e3, e4]; exact hF
  | interpEnd i =>
    obtain ⟨e1, e2, e3, e4, e5, e6, e7, e8, e9⟩ := notify_fields ({ s with interpJobs := s.interpJobs - 1 } : State m β V)
    refine ⟨fun j => ?_, ?_, ?_, ?_⟩
    · refine item_of_eq (hit j) (view_same (s := s) e1 (by simp only [e2]) (by simp only [e3]) (by simp only [e4]) (by simp only [e5]; simp [hr, wI0]) (by simp [hr, wNew]) (by simp [hr, wPD]) (by simp [hr, wIn]))
    · simp only [e6, e3]; exact hD
    · simp only [e7, e4]; exact hN
    · simp only [e8, e9, e3, e4]; exact hF
  | submitOne i owed =>
    refine ⟨fun j => ?_, hD, hN, hF⟩
    refine item_of_eq (hit j) (view_same (s := s) rfl rfl rfl rfl (by simp [hr, wI0, State.submitGet, tI]) (by simp [hr, wNew]) (by simp [hr, wPD]) (by simp [hr, wIn]))
  | retMore i p hp =>
    refine ⟨fun j => ?_, hD, hN, hF⟩
    refine item_of_eq (hit j) (view_same (s := s) rfl rfl rfl rfl (by simp [hr, wI0]) (by simp [hr, wNew]; omega) (by simp [hr, wPD]) (by simp [hr, wIn]))
  | _ =>
    refine ⟨fun j => ?_, hD, hN, hF⟩
    refine item_of_eq (hit j) (view_same (s := s) rfl rfl rfl rfl (by simp [hr, wI0, State.queueOne]) (by simp [hr, wNew]) (by simp [hr, wPD]) (by simp [hr, wIn]))

/-- when both counters together reach the number of functions, every function is finished or counted once -/
lemma CountInv.full {c : Cfg m β V} {s : State m β V} (h : CountInv c s) (hs : s.itemsDone + s.itemsNew = m) : ∀ i, (s.status i).toNat + s.counted i = 1 := by
  have hle : ∀ i ∈ Finset.univ, (s.status i).toNat + s.counted i ≤ 1 := by
    intro i _
    by_cases hc : 0 < s.counted i
    · obtain ⟨-, -, -, -, -, -, h7, h8, -⟩ := item_counted (h.items i) hc
      have h7' : s.counted i = 1 := h7
      have h8' : s.status i = false := h8
      simp [h7', h8']
    · have : (s.status i).toNat ≤ 1 := Bool.toNat_le _
      omega
  have hsum : ∑ i : Fin m, ((s.status i).toNat + s.counted i) = ∑ i : Fin m, 1 := by
    rw [Finset.sum_add_distrib, ← h.sumD, ← h.sumN, hs]; simp
  intro i
  exact (Finset.sum_eq_sum_iff_of_le hle).mp hsum i (Finset.mem_univ i)

lemma CountInv.setMain {c : Cfg m β V} {s : State m β V} (h : CountInv c s) (mn : Main m V) (hm : mn ≠ .killing) : CountInv c { s with main := mn } := by
  obtain ⟨hit, hD, hN, hF⟩ := h
  exact ⟨hit, hD, hN, fun hf => hF (Or.inl (by rcases hf with hf | hf; exacts [hf, absurd hf hm]))⟩

lemma CountInv.mainStep {c : Cfg m β V} {s t : State m β V} (h : CountInv c s) (hs : MainStep c s t) : CountInv c t := by
  have check : ∀ mn, mn ≠ .killing → CountInv c (s.afterCheck mn) := by
    intro mn hm
    unfold State.afterCheck
    split_ifs with h1 h2
    · obtain ⟨hit, hD, hN, hF⟩ := h
      exact ⟨hit, hD, hN, fun hf => hF (Or.inl (by rcases hf with hf | hf; exacts [hf, absurd hf (by simp)]))⟩
    · have := h.full h2
      obtain ⟨hit, hD, hN, hF⟩ := h
      exact ⟨hit, hD, hN, fun _ => this⟩
    · exact h.setMain mn hm
  cases hs with
  | kill hm hd hn =>
    obtain ⟨hit, hD, hN, hF⟩ := h
    exact ⟨hit, hD, hN, fun _ => hF (Or.inl hn)⟩
  | drop l r tk hm ht =>
    have hf := h.flag (Or.inr hm)
    obtain ⟨hit, hD, hN, hF⟩ := h
    cases tk with
    | getJob => exact ⟨fun j => item_of_eq (hit j) (view_same (s := s) rfl rfl rfl rfl (by simp [ht, tI, State.dropTask]) rfl rfl rfl), hD, hN, hF⟩
    | feedJob b => exact ⟨fun j => item_of_eq (hit j) (view_same (s := s) rfl rfl rfl rfl (by simp [ht, tI, State.dropTask]) rfl rfl rfl), hD, hN, hF⟩
    | interpJob i =>
      refine ⟨fun j => ?_, hD, hN, hF⟩
      by_cases hij : i = j
      · subst hij
        have key := item_drop (hit i) (hf i) (by simp [view, mkView, ht, tI])
        refine item_of_eq key (View.ext_iff.mpr ?_)
        refine ⟨rfl, by simp [view, mkView, State.dropTask], rfl, rfl, rfl, rfl, ?_, rfl⟩
        simp [view, mkView, State.dropTask, ht, tI]; omega
      · exact item_of_eq (hit j) (view_same (s := s) rfl (by simp [State.dropTask, Function.update_of_ne (Ne.symm hij)]) rfl rfl (by simp [ht, tI, State.dropTask, hij]) rfl rfl rfl)
  | advance hm ht hr =>
    have hf := h.flag (Or.inr hm)
    obtain ⟨hit, hD, hN, hF⟩ := h
    refine ⟨fun j => ?_, by simp only [State.reset]; exact hD, by simp [State.reset], by simp [State.reset]⟩
    have key := item_advance (hit j) (hf j) (by simp [view, mkView, hr]) (by simp [view, mkView, hr]) (by simp [view, mkView, hr, ht]) (by simp [view, mkView, hr])
    refine item_of_eq key (View.ext_iff.mpr ?_)
    refine ⟨rfl, rfl, rfl, rfl, ?_, ?_, ?_, ?_⟩ <;> simp [view, mkView, State.reset, hr, ht]
  | check hm => exact check _ (by simp)
  | poolWait hm hr => exact check _ (by simp)
  | startQueue o q b front hm =>
    obtain ⟨hit, hD, hN, hF⟩ := h.setMain (.starting (o + 1) true) (by simp)
    exact ⟨hit, hD, hN, hF⟩
  | attemptQueue o b front hm =>
    obtain ⟨hit, hD, hN, hF⟩ := h.setMain (.attempt (o + 1)) (by simp)
    exact ⟨hit, hD, hN, hF⟩
  | startSubmit o q hm =>
    obtain ⟨hit, hD, hN, hF⟩ := h.setMain (.starting o q) (by simp)
    exact ⟨fun j => item_of_eq (hit j) (view_same rfl rfl rfl rfl (by simp [State.submitGet, tI]) rfl rfl rfl), hD, hN, hF⟩
  | attemptSubmit o hm =>
    obtain ⟨hit, hD, hN, hF⟩ := h.setMain (.attempt o) (by simp)
    exact ⟨fun j => item_of_eq (hit j) (view_same rfl rfl rfl rfl (by simp [State.submitGet, tI]) rfl rfl rfl), hD, hN, hF⟩
  | getProbe b bs hm hc =>
    obtain ⟨hit, hD, hN, hF⟩ := h.setMain (.gotProbe b) (by simp)
    exact ⟨hit, hD, hN, hF⟩
  | gotProbe b hm =>
    obtain ⟨hit, hD, hN, hF⟩ := h.setMain (.incFeed b) (by simp)
    exact ⟨hit, hD, hN, hF⟩
  | incFeed b hm =>
    obtain ⟨hit, hD, hN, hF⟩ := h.setMain (.submitFeed b) (by simp)
    exact ⟨hit, hD, hN, hF⟩
  | submitFeed b hm =>
    obtain ⟨hit, hD, hN, hF⟩ := h.setMain (.check) (by simp)
    exact ⟨fun j => item_of_eq (hit j) (view_same rfl rfl rfl rfl (by simp [tI]) rfl rfl rfl), hD, hN, hF⟩
  | attemptEnd hm =>
    obtain ⟨hit, hD, hN, hF⟩ := h.setMain (.head) (by simp)
    exact ⟨hit, hD, hN, hF⟩
  | _ => exact h.setMain _ (by simp)

lemma w_start (i : Fin m) (k : ℕ) (t : Task m V) : wI0 i (t.start : Run m β V) = tI i t ∧ wNew i k (t.start : Run m β V) = 0 ∧ wPD i (t.start : Run m β V) = 0 ∧ wIn i (t.start : Run m β V) = 0 := by
  cases t <;> simp [Task.start, wI0, tI, wNew, wPD, wIn]

lemma CountInv.step {c : Cfg m β V} [Inhabited β] {s t : State m β V} (h : CountInv c s) (hd : DataInv c.bb s) (hs : Step c s t) : CountInv c t := by
  cases hs with
  | main _ h' => exact h.mainStep h'
  | spurious hm => exact h.setMain _ (by simp)
  | start l r tk ht hw =>
    obtain ⟨hit, hD, hN, hF⟩ := h
    refine ⟨fun j => item_of_eq (hit j) (view_same rfl rfl rfl rfl ?_ ?_ ?_ ?_), hD, hN, hF⟩
    · simp [ht, (w_start j 0 tk : wI0 j (tk.start : Run m β V) = _ ∧ _).1]; omega
    · simp [(w_start j s.primeIt tk : wI0 j (tk.start : Run m β V) = _ ∧ _).2.1]
    · simp [(w_start j 0 tk : wI0 j (tk.start : Run m β V) = _ ∧ _).2.2.1]
    · simp [(w_start j 0 tk : wI0 j (tk.start : Run m β V) = _ ∧ _).2.2.2]
  | run t' l r w w' hr hrs => exact h.run hd hr hrs

lemma reach_count {c : Cfg m β V} [Inhabited β] {s : State m β V} (h : Reach c s) : CountInv c s := by
  induction h with
  | init =>
    refine ⟨fun i => ?_, by simp, by simp, by simp⟩
    exact item_of_eq (itemInv_init c.zero) (by simp [view, mkView])
  | step hr hs ih => exact ih.step (reach_data hr) hs

end FireFly.Scheduler
