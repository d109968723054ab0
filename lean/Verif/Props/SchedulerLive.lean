import Verif.Model.Scheduler
import Mathlib.Tactic.Common
import Mathlib.Tactic.Linarith
set_option linter.all false
/-! # The counters of jobs and probes (for C38) -/
namespace FireFly.Scheduler
open RatQueue (Obj)
variable {m : ℕ} {β V : Type}

def wComp : Run m β V → ℕ
  | .computing _ l => l.length
  | _ => 0
def wGet : Run m β V → ℕ
  | .getJob => 1
  | .interpQ _ o => o
  | _ => 0
def wFeed : Run m β V → ℕ
  | .feed0 _ => 1
  | .feed1 _ => 1
  | .feed2 _ _ _ => 1
  | _ => 0
def wInt : Run m β V → ℕ
  | .feed1 _ => m
  | .feed2 _ _ n => m - n
  | .interp0 _ => 1
  | .interpIn _ => 1
  | .interpRet _ _ => 1
  | .interpQ _ _ => 1
  | .interpEnd _ => 1
  | _ => 0
def tGet : Task m V → ℕ
  | .getJob => 1
  | _ => 0
def tFeed : Task m V → ℕ
  | .feedJob _ => 1
  | _ => 0
def tInt : Task m V → ℕ
  | .interpJob _ => 1
  | _ => 0
def mGot : Main m V → ℕ
  | .gotProbe b => b.length
  | _ => 0
def mOwed : Main m V → ℕ
  | .starting o _ => o
  | .attempt o => o
  | _ => 0
def mSub : Main m V → ℕ
  | .submitFeed _ => 1
  | _ => 0
def cntOK : Run m β V → Prop
  | .feed2 _ todo n => n + todo.length ≤ m
  | _ => True
/-- the main thread is about to wait for a probe -/
def wants (s : State m β V) : Prop := s.main = .getProbe ∨ (∃ o, s.main = .starting o true) ∨ (s.main = .head ∧ s.newPrime = false ∧ s.done = false)

structure LiveInv (s : State m β V) : Prop where
  pq : s.probesQueued = s.requested.length + (s.running.map wComp).sum + (s.computed.map List.length).sum + mGot s.main
  gets : s.main ≠ .killing → s.requested.length ≤ (s.tasks.map tGet).sum + (s.running.map wGet).sum + mOwed s.main
  fj : s.main ≠ .killing → s.feedJobs = (s.tasks.map tFeed).sum + (s.running.map wFeed).sum + mSub s.main
  ij : s.main ≠ .killing → s.interpJobs = (s.tasks.map tInt).sum + (s.running.map wInt).sum
  cnt : ∀ w ∈ s.running, cntOK w
  probe : wants s → 0 < s.probesQueued ∨ s.gaveUp = true
  sleep : s.main = .sleeping → 0 < s.feedJobs ∨ 0 < s.interpJobs

lemma notify_live (s : State m β V) : s.notifyFeed.requested = s.requested ∧ s.notifyFeed.tasks = s.tasks ∧ s.notifyFeed.computed = s.computed ∧ s.notifyFeed.feedJobs = s.feedJobs ∧
    s.notifyFeed.interpJobs = s.interpJobs ∧ s.notifyFeed.probesQueued = s.probesQueued ∧ s.notifyFeed.gaveUp = s.gaveUp ∧ (s.notifyFeed.main ≠ .killing → s.main ≠ .killing) ∧
    s.notifyFeed.main ≠ .sleeping ∧ mGot s.notifyFeed.main = mGot s.main ∧ mOwed s.notifyFeed.main = mOwed s.main ∧ mSub s.notifyFeed.main = mSub s.main ∧
    s.notifyFeed.newPrime = s.newPrime ∧ s.notifyFeed.done = s.done ∧ (s.notifyFeed.main = s.main ∨ s.notifyFeed.main = .woken) := by
  unfold State.notifyFeed
  split <;> simp_all [mGot, mOwed, mSub]

lemma LiveInv.run {c : Cfg m β V} [Inhabited β] {s t : State m β V} {l r : List (Run m β V)} {w : Run m β V} {w' : Option (Run m β V)} (h : LiveInv s)
    (hr : s.running = l ++ w :: r) (hs : RunStep c s w t w') : LiveInv { t with running := l ++ w'.toList ++ r } := by
  obtain ⟨h1, h2, h3, h4, h5, h6, h7⟩ := h
  have hcw := h5 w (by rw [hr]; simp)
  have h5' : (∀ x ∈ w', cntOK x) → ∀ x ∈ l ++ w'.toList ++ r, cntOK x := by
    intro hx x hm
    simp only [List.mem_append] at hm
    rcases hm with (hm | hm) | hm
    · exact h5 x (by rw [hr]; simp [hm])
    · exact hx x (by simpa using hm)
    · exact h5 x (by rw [hr]; simp [hm])
  simp only [hr, List.map_append, List.map_cons, List.sum_append, List.sum_cons] at h1 h2 h3 h4
  cases hs with
  | getNone hq =>
    refine ⟨?_, ?_, ?_, ?_, h5' (by simp), h6, h7⟩ <;> simp [wComp, wGet, wFeed, wInt, hq] at h1 h2 h3 h4 ⊢
    · omega
    · intro a; have := h3 a; omega
    · intro a; have := h4 a; omega
  | getBunch a b hq hl =>
    have : 0 < a.length := List.length_pos_of_ne_nil hl
    refine ⟨?_, ?_, ?_, ?_, h5' (by simp [cntOK]), h6, h7⟩ <;> simp [wComp, wGet, wFeed, wInt, hq] at h1 h2 h3 h4 ⊢
    · omega
    · intro a; have := h2 a; omega
    · intro a; have := h3 a; omega
    · intro a; have := h4 a; omega
  | compute k bunch junk =>
    refine ⟨?_, ?_, ?_, ?_, h5' (by simp [cntOK]), h6, h7⟩ <;> simp [wComp, wGet, wFeed, wInt, evalBunch] at h1 h2 h3 h4 ⊢
    · omega
    · intro a; have := h2 a; omega
    · intro a; have := h3 a; omega
    · intro a; have := h4 a; omega
  | feed0 bunch =>
    refine ⟨?_, ?_, ?_, ?_, h5' (by simp [cntOK]), h6, ?_⟩ <;> simp [wComp, wGet, wFeed, wInt] at h1 h2 h3 h4 ⊢
    · omega
    · intro a; have := h2 a; omega
    · intro a; have := h3 a; omega
    · intro a; have := h4 a; omega
    · intro a; have := h7 a; omega
  | feed1 bunch =>
    refine ⟨?_, ?_, ?_, ?_, h5' (by simp [cntOK]), h6, h7⟩ <;> simp [wComp, wGet, wFeed, wInt] at h1 h2 h3 h4 ⊢
    · omega
    · intro a; have := h2 a; omega
    · intro a; have := h3 a; omega
    · intro a; have := h4 a; omega
  | feedItem foods i todo counter hst =>
    simp only [cntOK, List.length_cons] at hcw
    rcases hf : (Obj.feed (fun x : β × V => c.zero x.2) false (s.obj i) (foods.map (fun t => (t.1, t.2 i))) s.primeIt).2 with _ | _
    · refine ⟨?_, ?_, ?_, ?_, h5' (by simp [cntOK, hf]; omega), h6, h7⟩ <;> simp [wComp, wGet, wFeed, wInt, hf] at h1 h2 h3 h4 ⊢
      · omega
      · intro a; have := h2 a; omega
      · intro a; have := h3 a; omega
      · intro a; have := h4 a; omega
    · refine ⟨?_, ?_, ?_, ?_, h5' (by simp [cntOK, hf]; omega), h6, h7⟩ <;> simp [wComp, wGet, wFeed, wInt, tGet, tFeed, tInt, hf] at h1 h2 h3 h4 ⊢
      · omega
      · intro a; have := h2 a; omega
      · intro a; have := h3 a; omega
      · intro a; have := h4 a; omega
  | feedSkip foods i todo counter hst =>
    simp only [cntOK, List.length_cons] at hcw
    refine ⟨?_, ?_, ?_, ?_, h5' (by simp [cntOK]; omega), h6, h7⟩ <;> simp [wComp, wGet, wFeed, wInt] at h1 h2 h3 h4 ⊢
    · omega
    · intro a; have := h2 a; omega
    · intro a; have := h3 a; omega
    · intro a; have := h4 a; omega
  | feedEnd foods counter =>
    simp only [cntOK, List.length_nil] at hcw
    obtain ⟨e1, e2, e3, e4, e5, e6, e7, e8, e9, e10, e11, e12, e13, e14, e15⟩ := notify_live ({ s with interpJobs := s.interpJobs - (m - counter), feedJobs := s.feedJobs - 1 } : State m β V)
    refine ⟨?_, ?_, ?_, ?_, h5' (by simp), ?_, fun a => absurd a e9⟩
    · simp only [e1, e3, e6, e10]; simp [wComp] at h1 ⊢; omega
    · intro a; have := h2 (e8 a); simp only [e1, e2, e11]; simp [wGet] at this ⊢; omega
    · intro a; have := h3 (e8 a); simp only [e2, e4, e12]; simp [wFeed] at this ⊢; omega
    · intro a; have := h4 (e8 a); simp only [e2, e5]; simp [wInt] at this ⊢; omega
    · intro a
      simp only [e6, e7]
      apply h6
      simp only [wants, e13, e14] at a ⊢
      rcases e15 with e15 | e15
      · rw [e15] at a; exact a
      · rw [e15] at a; simp at a
  | interpEnd i =>
    obtain ⟨e1, e2, e3, e4, e5, e6, e7, e8, e9, e10, e11, e12, e13, e14, e15⟩ := notify_live ({ s with interpJobs := s.interpJobs - 1 } : State m β V)
    refine ⟨?_, ?_, ?_, ?_, h5' (by simp), ?_, fun a => absurd a e9⟩
    · simp only [e1, e3, e6, e10]; simp [wComp] at h1 ⊢; omega
    · intro a; have := h2 (e8 a); simp only [e1, e2, e11]; simp [wGet] at this ⊢; omega
    · intro a; have := h3 (e8 a); simp only [e2, e4, e12]; simp [wFeed] at this ⊢; omega
    · intro a; have := h4 (e8 a); simp only [e2, e5]; simp [wInt] at this ⊢; omega
    · intro a
      simp only [e6, e7]
      apply h6
      simp only [wants, e13, e14] at a ⊢
      rcases e15 with e15 | e15
      · rw [e15] at a; exact a
      · rw [e15] at a; simp at a
  | interpCall i hst =>
    refine ⟨?_, ?_, ?_, ?_, h5' (by simp; split_ifs <;> simp [cntOK]), h6, h7⟩ <;> simp only [Option.toList_some] <;> split_ifs <;> simp [wComp, wGet, wFeed, wInt] at h1 h2 h3 h4 ⊢
    · omega
    · omega
    · intro a; have := h2 a; omega
    · intro a; have := h2 a; omega
    · intro a; have := h3 a; omega
    · intro a; have := h3 a; omega
    · intro a; have := h4 a; omega
    · intro a; have := h4 a; omega
  | interpLoop i hst =>
    refine ⟨?_, ?_, ?_, ?_, h5' (by simp; split_ifs <;> simp [cntOK]), h6, h7⟩ <;> simp only [Option.toList_some] <;> split_ifs <;> simp [wComp, wGet, wFeed, wInt] at h1 h2 h3 h4 ⊢
    · omega
    · omega
    · intro a; have := h2 a; omega
    · intro a; have := h2 a; omega
    · intro a; have := h3 a; omega
    · intro a; have := h3 a; omega
    · intro a; have := h4 a; omega
    · intro a; have := h4 a; omega
  | queueOne i owed b front =>
    refine ⟨?_, ?_, ?_, ?_, h5' (by simp [cntOK]), ?_, h7⟩
    · simp only [State.queueOne]; split_ifs <;> simp [wComp] at h1 ⊢ <;> omega
    · intro a; have := h2 a; simp only [State.queueOne]; split_ifs <;> simp [wGet] at this ⊢ <;> omega
    · intro a; have := h3 a; simp [State.queueOne, wFeed] at this ⊢; omega
    · intro a; have := h4 a; simp [State.queueOne, wInt] at this ⊢; omega
    · intro a; have := h6 a; simp only [State.queueOne]; omega
  | _ =>
    refine ⟨?_, ?_, ?_, ?_, h5' (by simp [cntOK]), h6, h7⟩ <;> simp [wComp, wGet, wFeed, wInt, State.submitGet, tGet, tFeed, tInt] at h1 h2 h3 h4 ⊢
    · omega
    · intro a; have := h2 a; omega
    · intro a; have := h3 a; omega
    · intro a; have := h4 a; omega

lemma LiveInv.mainStep {c : Cfg m β V} {s t : State m β V} (h : LiveInv s) (hs : MainStep c s t) : LiveInv t := by
  have hnn : 0 ≤ s.probesQueued := by have := h.pq; omega
  obtain ⟨h1, h2, h3, h4, h5, h6, h7⟩ := h
  have check : ∀ mn, s.main = .check ∨ s.main = .poolWait → mn = .test ∨ mn = .attempt 0 → LiveInv (s.afterCheck mn) := by
    intro mn hm hmn
    have e : mGot s.main = 0 ∧ mOwed s.main = 0 ∧ mSub s.main = 0 ∧ s.main ≠ .killing := by rcases hm with hm | hm <;> simp [hm, mGot, mOwed, mSub]
    obtain ⟨e1, e2, e3, e4⟩ := e
    rw [e1] at h1; rw [e2] at h2; rw [e3] at h3
    unfold State.afterCheck
    split_ifs
    · exact ⟨h1, fun _ => h2 e4, fun _ => h3 e4, fun _ => h4 e4, h5, fun hw => (by simp [wants] at hw), fun a => (by simp at a)⟩
    · exact ⟨h1, fun _ => h2 e4, fun _ => h3 e4, fun _ => h4 e4, h5, fun hw => (by simp [wants] at hw), fun a => (by simp at a)⟩
    · rcases hmn with rfl | rfl
      · exact ⟨h1, fun _ => h2 e4, fun _ => h3 e4, fun _ => h4 e4, h5, fun hw => (by simp [wants] at hw), fun a => (by simp at a)⟩
      · exact ⟨h1, fun _ => h2 e4, fun _ => h3 e4, fun _ => h4 e4, h5, fun hw => (by simp [wants] at hw), fun a => (by simp at a)⟩
  cases hs with
  | kill hm hd hn =>
    simp only [hm, mGot] at h1
    exact ⟨h1, fun a => absurd rfl a, fun a => absurd rfl a, fun a => absurd rfl a, h5, fun hw => (by simp [wants] at hw), fun a => (by simp at a)⟩
  | drop l r tk hm ht =>
    have : LiveInv { s with tasks := l ++ r } := ⟨h1, fun a => absurd hm a, fun a => absurd hm a, fun a => absurd hm a, h5, h6, h7⟩
    obtain ⟨h1, h2, h3, h4, h5, h6, h7⟩ := this
    cases tk <;> exact ⟨h1, h2, h3, h4, h5, h6, h7⟩
  | advance hm ht hr =>
    refine ⟨?_, ?_, ?_, ?_, ?_, fun hw => (by simp [wants, State.reset] at hw), fun a => (by simp [State.reset] at a)⟩ <;> simp [State.reset, ht, hr, mGot, mSub]
  | startQueue o q b front hm =>
    simp only [hm, mGot, mOwed, mSub, ne_eq, reduceCtorEq, not_false_eq_true, forall_const] at h1 h2 h3 h4
    refine ⟨?_, fun _ => ?_, fun _ => ?_, fun _ => ?_, h5, fun hw => Or.inl ?_, fun a => (by simp at a)⟩
    · simp only [State.queueOne, mGot]; split_ifs <;> simp at h1 ⊢ <;> omega
    · simp only [State.queueOne, mOwed]; split_ifs <;> simp at h2 ⊢ <;> omega
    · simpa [State.queueOne, mSub] using h3
    · simpa [State.queueOne] using h4
    · simp only [State.queueOne]; omega
  | attemptQueue o b front hm =>
    simp only [hm, mGot, mOwed, mSub, ne_eq, reduceCtorEq, not_false_eq_true, forall_const] at h1 h2 h3 h4
    refine ⟨?_, fun _ => ?_, fun _ => ?_, fun _ => ?_, h5, fun hw => (by simp [wants] at hw), fun a => (by simp at a)⟩
    · simp only [State.queueOne, mGot]; split_ifs <;> simp at h1 ⊢ <;> omega
    · simp only [State.queueOne, mOwed]; split_ifs <;> simp at h2 ⊢ <;> omega
    · simpa [State.queueOne, mSub] using h3
    · simpa [State.queueOne] using h4
  | startSubmit o q hm =>
    simp only [hm, mGot, mOwed, mSub, ne_eq, reduceCtorEq, not_false_eq_true, forall_const] at h1 h2 h3 h4
    refine ⟨?_, fun _ => ?_, fun _ => ?_, fun _ => ?_, h5, fun hw => h6 ?_, fun a => (by simp at a)⟩
    · simpa [State.submitGet, mGot] using h1
    · simp [State.submitGet, mOwed, tGet]; omega
    · simpa [State.submitGet, mSub, tFeed] using h3
    · simpa [State.submitGet, tInt] using h4
    · simp [wants] at hw
      subst hw
      exact Or.inr (Or.inl ⟨_, hm⟩)
  | attemptSubmit o hm =>
    simp only [hm, mGot, mOwed, mSub, ne_eq, reduceCtorEq, not_false_eq_true, forall_const] at h1 h2 h3 h4
    refine ⟨?_, fun _ => ?_, fun _ => ?_, fun _ => ?_, h5, fun hw => (by simp [wants] at hw), fun a => (by simp at a)⟩
    · simpa [State.submitGet, mGot] using h1
    · simp [State.submitGet, mOwed, tGet]; omega
    · simpa [State.submitGet, mSub, tFeed] using h3
    · simpa [State.submitGet, tInt] using h4
  | getProbe b bs hm hc =>
    simp only [hm, hc, mGot, mOwed, mSub, ne_eq, reduceCtorEq, not_false_eq_true, forall_const] at h1 h2 h3 h4
    refine ⟨?_, fun _ => h2, fun _ => h3, fun _ => h4, h5, fun hw => (by simp [wants] at hw), fun a => (by simp at a)⟩
    simp [mGot] at h1 ⊢; omega
  | gotProbe b hm =>
    simp only [hm, mGot, mOwed, mSub, ne_eq, reduceCtorEq, not_false_eq_true, forall_const] at h1 h2 h3 h4
    refine ⟨?_, fun _ => h2, fun _ => h3, fun _ => h4, h5, fun hw => (by simp [wants] at hw), fun a => (by simp at a)⟩
    simp [mGot] at h1 ⊢; omega
  | incFeed b hm =>
    simp only [hm, mGot, mOwed, mSub, ne_eq, reduceCtorEq, not_false_eq_true, forall_const] at h1 h2 h3 h4
    refine ⟨h1, fun _ => h2, fun _ => ?_, fun _ => h4, h5, fun hw => (by simp [wants] at hw), fun a => (by simp at a)⟩
    simp [mSub] at h3 ⊢; omega
  | submitFeed b hm =>
    simp only [hm, mGot, mOwed, mSub, ne_eq, reduceCtorEq, not_false_eq_true, forall_const] at h1 h2 h3 h4
    refine ⟨h1, fun _ => ?_, fun _ => ?_, fun _ => ?_, h5, fun hw => (by simp [wants] at hw), fun a => (by simp at a)⟩
    · simpa [mOwed, tGet] using h2
    · simp [mSub, tFeed] at h3 ⊢; omega
    · simpa [tInt] using h4
  | check hm => exact check _ (Or.inl hm) (Or.inl rfl)
  | poolWait hm hr => exact check _ (Or.inr hm) (Or.inr rfl)
  | next hm hd hn =>
    have := h6 (Or.inr (Or.inr ⟨hm, hn, hd⟩))
    simp only [hm, mGot, mOwed, mSub, ne_eq, reduceCtorEq, not_false_eq_true, forall_const] at h1 h2 h3 h4
    exact ⟨h1, fun _ => h2, fun _ => h3, fun _ => h4, h5, fun _ => this, fun a => (by simp at a)⟩
  | startEnd hm =>
    have := h6 (Or.inr (Or.inl ⟨_, hm⟩))
    simp only [hm, mGot, mOwed, mSub, ne_eq, reduceCtorEq, not_false_eq_true, forall_const] at h1 h2 h3 h4
    exact ⟨h1, fun _ => h2, fun _ => h3, fun _ => h4, h5, fun _ => this, fun a => (by simp at a)⟩
  | testMore hm hq =>
    simp only [hm, mGot, mOwed, mSub, ne_eq, reduceCtorEq, not_false_eq_true, forall_const] at h1 h2 h3 h4
    exact ⟨h1, fun _ => h2, fun _ => h3, fun _ => h4, h5, fun _ => Or.inl (by simp only; omega), fun a => (by simp at a)⟩
  | recheckMore hm hq =>
    simp only [hm, mGot, mOwed, mSub, ne_eq, reduceCtorEq, not_false_eq_true, forall_const] at h1 h2 h3 h4
    exact ⟨h1, fun _ => h2, fun _ => h3, fun _ => h4, h5, fun _ => Or.inl (by simp only; omega), fun a => (by simp at a)⟩
  | attemptEnd hm =>
    simp only [hm, mGot, mOwed, mSub, ne_eq, reduceCtorEq, not_false_eq_true, forall_const] at h1 h2 h3 h4
    refine ⟨h1, fun _ => h2, fun _ => h3, fun _ => h4, h5, fun _ => ?_, fun a => (by simp at a)⟩
    by_cases hq : s.probesQueued = 0
    · right; simp [hq]
    · left; simp only; omega
  | feedSleep hm hj =>
    simp only [hm, mGot, mOwed, mSub, ne_eq, reduceCtorEq, not_false_eq_true, forall_const] at h1 h2 h3 h4
    exact ⟨h1, fun _ => h2, fun _ => h3, fun _ => h4, h5, fun hw => (by simp [wants] at hw), fun a => hj⟩
  | exit hm hd =>
    simp only [hm, mGot, mOwed, mSub, ne_eq, reduceCtorEq, not_false_eq_true, forall_const] at h1 h2 h3 h4
    exact ⟨h1, fun _ => h2, fun _ => h3, fun _ => h4, h5, fun hw => (by simp [wants] at hw), fun a => (by simp at a)⟩
  | testZero hm hq =>
    simp only [hm, mGot, mOwed, mSub, ne_eq, reduceCtorEq, not_false_eq_true, forall_const] at h1 h2 h3 h4
    exact ⟨h1, fun _ => h2, fun _ => h3, fun _ => h4, h5, fun hw => (by simp [wants] at hw), fun a => (by simp at a)⟩
  | feedNone hm hq =>
    simp only [hm, mGot, mOwed, mSub, ne_eq, reduceCtorEq, not_false_eq_true, forall_const] at h1 h2 h3 h4
    exact ⟨h1, fun _ => h2, fun _ => h3, fun _ => h4, h5, fun hw => (by simp [wants] at hw), fun a => (by simp at a)⟩
  | wokenMore hm hq =>
    simp only [hm, mGot, mOwed, mSub, ne_eq, reduceCtorEq, not_false_eq_true, forall_const] at h1 h2 h3 h4
    exact ⟨h1, fun _ => h2, fun _ => h3, fun _ => h4, h5, fun hw => (by simp [wants] at hw), fun a => (by simp at a)⟩
  | wokenZero hm hq =>
    simp only [hm, mGot, mOwed, mSub, ne_eq, reduceCtorEq, not_false_eq_true, forall_const] at h1 h2 h3 h4
    exact ⟨h1, fun _ => h2, fun _ => h3, fun _ => h4, h5, fun hw => (by simp [wants] at hw), fun a => (by simp at a)⟩
  | recheckZero hm hq =>
    simp only [hm, mGot, mOwed, mSub, ne_eq, reduceCtorEq, not_false_eq_true, forall_const] at h1 h2 h3 h4
    exact ⟨h1, fun _ => h2, fun _ => h3, fun _ => h4, h5, fun hw => (by simp [wants] at hw), fun a => (by simp at a)⟩

lemma wl_start (t : Task m V) : wComp (t.start : Run m β V) = 0 ∧ wGet (t.start : Run m β V) = tGet t ∧ wFeed (t.start : Run m β V) = tFeed t ∧ wInt (t.start : Run m β V) = tInt t ∧ cntOK (t.start : Run m β V) := by
  cases t <;> simp [Task.start, wComp, wGet, wFeed, wInt, tGet, tFeed, tInt, cntOK]

lemma LiveInv.step {c : Cfg m β V} [Inhabited β] {s t : State m β V} (h : LiveInv s) (hs : Step c s t) : LiveInv t := by
  cases hs with
  | main _ h' => exact h.mainStep h'
  | spurious hm =>
    obtain ⟨h1, h2, h3, h4, h5, h6, h7⟩ := h
    simp only [hm, mGot, mOwed, mSub, ne_eq, reduceCtorEq, not_false_eq_true, forall_const] at h1 h2 h3 h4
    exact ⟨h1, fun _ => h2, fun _ => h3, fun _ => h4, h5, fun hw => (by simp [wants] at hw), fun a => (by simp at a)⟩
  | start l r tk ht hw =>
    obtain ⟨h1, h2, h3, h4, h5, h6, h7⟩ := h
    obtain ⟨e1, e2, e3, e4, e5⟩ := (wl_start tk : wComp (tk.start : Run m β V) = 0 ∧ _)
    simp only [ht, List.map_append, List.map_cons, List.sum_append, List.sum_cons] at h2 h3 h4
    refine ⟨?_, fun a => ?_, fun a => ?_, fun a => ?_, ?_, h6, h7⟩
    · simp [e1]; omega
    · have := h2 a; simp [e2]; omega
    · have := h3 a; simp [e3]; omega
    · have := h4 a; simp [e4]; omega
    · intro x hx
      rcases List.mem_append.mp hx with hx | hx
      · exact h5 x hx
      · rw [List.mem_singleton.mp hx]; exact e5
  | run t' l r w w' hr hrs => exact h.run hr hrs

lemma reach_live {c : Cfg m β V} [Inhabited β] {s : State m β V} (h : Reach c s) : LiveInv s := by
  induction h with
  | init =>
    refine ⟨?_, ?_, ?_, ?_, ?_, fun hw => (by simp [wants] at hw), fun a => (by simp at a)⟩ <;> simp [mGot, mSub]
  | step hr hs ih => exact ih.step hs

end FireFly.Scheduler
