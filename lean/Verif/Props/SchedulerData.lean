import Verif.Model.Scheduler
import Mathlib.Tactic.Common
import Mathlib.Tactic.Linarith
import Mathlib.Tactic.Abel
import Mathlib.Data.Multiset.AddSub
import Mathlib.Data.Multiset.UnionInter
import Mathlib.Algebra.Order.Group.Multiset
import Mathlib.Algebra.BigOperators.Group.List.Basic
set_option linter.all false
/-! # The probes under way belong to their requests (for C38) -/
namespace FireFly.Scheduler
open RatQueue (Obj)
variable {m : ℕ} {β V : Type}

def runIds : Run m β V → Multiset ℕ
  | .computing _ l => ↑(l.map Prod.fst)
  | .feed0 b => ↑(b.map Prod.fst)
  | .feed1 b => ↑(b.map Prod.fst)
  | _ => 0
def taskIds : Task m V → Multiset ℕ
  | .feedJob b => ↑(b.map Prod.fst)
  | _ => 0
def mainIds : Main m V → Multiset ℕ
  | .gotProbe b => ↑(b.map Prod.fst)
  | .incFeed b => ↑(b.map Prod.fst)
  | .submitFeed b => ↑(b.map Prod.fst)
  | _ => 0
def bunchIds (b : List (ℕ × (Fin m → V))) : Multiset ℕ := ↑(b.map Prod.fst)

/-- the indices under way -/
def inflight (s : State m β V) : Multiset ℕ :=
  ↑(s.requested.map Prod.fst) + (s.running.map runIds).sum + (s.computed.map bunchIds).sum + mainIds s.main + (s.tasks.map taskIds).sum

def bunchOK (bb : ℕ → β → Fin m → V) (k : ℕ) (im : List (ℕ × β)) (b : List (ℕ × (Fin m → V))) : Prop :=
  b ≠ [] ∧ ∀ t ∈ b, ∃ x, (t.1, x) ∈ im ∧ t.2 = bb k x
def runOK (bb : ℕ → β → Fin m → V) (k : ℕ) (im : List (ℕ × β)) : Run m β V → Prop
  | .computing k' l => k' = k ∧ l ≠ [] ∧ ∀ t ∈ l, t ∈ im
  | .feed0 b => bunchOK bb k im b
  | .feed1 b => bunchOK bb k im b
  | .feed2 foods _ _ => foods ≠ [] ∧ ∀ t ∈ foods, t.2 = bb k t.1
  | _ => True
def taskOK (bb : ℕ → β → Fin m → V) (k : ℕ) (im : List (ℕ × β)) : Task m V → Prop
  | .feedJob b => bunchOK bb k im b
  | _ => True
def mainOK (bb : ℕ → β → Fin m → V) (k : ℕ) (im : List (ℕ × β)) : Main m V → Prop
  | .gotProbe b => bunchOK bb k im b
  | .incFeed b => bunchOK bb k im b
  | .submitFeed b => bunchOK bb k im b
  | _ => True

structure DataInv (bb : ℕ → β → Fin m → V) (s : State m β V) : Prop where
  nodup : (inflight s).Nodup
  keys : (s.indexMap.map Prod.fst).Nodup
  lt : ∀ t ∈ s.indexMap, t.1 < s.ind
  req : ∀ t ∈ s.requested, t ∈ s.indexMap
  runs : ∀ w ∈ s.running, runOK bb s.primeIt s.indexMap w
  comp : ∀ b ∈ s.computed, bunchOK bb s.primeIt s.indexMap b
  main : mainOK bb s.primeIt s.indexMap s.main
  tasks : ∀ t ∈ s.tasks, taskOK bb s.primeIt s.indexMap t

section lemmas
variable {bb : ℕ → β → Fin m → V} {k : ℕ} {im im' : List (ℕ × β)}

lemma mem_lsum {α : Type} {f : α → Multiset ℕ} {l : List α} {a : α} {n : ℕ} (ha : a ∈ l) (h : n ∈ f a) : n ∈ (l.map f).sum := by
  induction l with
  | nil => cases ha
  | cons x xs ih =>
    rw [List.map_cons, List.sum_cons, Multiset.mem_add]
    rcases List.mem_cons.mp ha with rfl | ha
    · exact Or.inl h
    · exact Or.inr (ih ha)

lemma bunchOK_im {b : List (ℕ × (Fin m → V))} (h : bunchOK bb k im b) (hi : ∀ t ∈ im, t.1 ∈ bunchIds b → t ∈ im') : bunchOK bb k im' b := by
  refine ⟨h.1, fun t ht => ?_⟩
  obtain ⟨x, h1, h2⟩ := h.2 t ht
  exact ⟨x, hi _ h1 (by simp only [bunchIds, Multiset.mem_coe]; exact List.mem_map_of_mem ht), h2⟩

lemma runOK_im {w : Run m β V} (h : runOK bb k im w) (hi : ∀ t ∈ im, t.1 ∈ runIds w → t ∈ im') : runOK bb k im' w := by
  cases w with
  | computing k' l => exact ⟨h.1, h.2.1, fun t ht => hi t (h.2.2 t ht) (by simp only [runIds, Multiset.mem_coe]; exact List.mem_map_of_mem ht)⟩
  | feed0 b => exact bunchOK_im h hi
  | feed1 b => exact bunchOK_im h hi
  | _ => exact h
lemma taskOK_im {w : Task m V} (h : taskOK bb k im w) (hi : ∀ t ∈ im, t.1 ∈ taskIds w → t ∈ im') : taskOK bb k im' w := by
  cases w with
  | feedJob b => exact bunchOK_im h hi
  | _ => exact h
lemma mainOK_im {w : Main m V} (h : mainOK bb k im w) (hi : ∀ t ∈ im, t.1 ∈ mainIds w → t ∈ im') : mainOK bb k im' w := by
  cases w with
  | gotProbe b => exact bunchOK_im h hi
  | incFeed b => exact bunchOK_im h hi
  | submitFeed b => exact bunchOK_im h hi
  | _ => exact h

/-- a change of the index map that keeps the entries under way -/
lemma DataInv.setMap {s : State m β V} (h : DataInv bb s) (im' : List (ℕ × β)) (n : ℕ) (hi : ∀ t ∈ s.indexMap, t.1 ∈ inflight s → t ∈ im')
    (hk : (im'.map Prod.fst).Nodup) (hl : ∀ t ∈ im', t.1 < n) : DataInv bb { s with indexMap := im', ind := n } := by
  obtain ⟨h1, h2, h3, h4, h5, h6, h7, h8⟩ := h
  refine ⟨h1, hk, hl, fun t ht => hi t (h4 t ht) ?_, fun w hw => runOK_im (h5 w hw) (fun t ht hm => hi t ht ?_), fun w hw => bunchOK_im (h6 w hw) (fun t ht hm => hi t ht ?_),
    mainOK_im h7 (fun t ht hm => hi t ht ?_), fun w hw => taskOK_im (h8 w hw) (fun t ht hm => hi t ht ?_)⟩
  · simp only [inflight, Multiset.mem_add, Multiset.mem_coe]
    exact Or.inl (Or.inl (Or.inl (Or.inl (List.mem_map_of_mem ht))))
  · simp only [inflight, Multiset.mem_add]
    exact Or.inl (Or.inl (Or.inl (Or.inr (mem_lsum hw hm))))
  · simp only [inflight, Multiset.mem_add]
    exact Or.inl (Or.inl (Or.inr (mem_lsum hw hm)))
  · simp only [inflight, Multiset.mem_add]
    exact Or.inl (Or.inr hm)
  · simp only [inflight, Multiset.mem_add]
    exact Or.inr (mem_lsum hw hm)

lemma inflight_lt {s : State m β V} (h : DataInv bb s) : ∀ n ∈ inflight s, n < s.ind := by
  have hb : ∀ b : List (ℕ × (Fin m → V)), bunchOK bb s.primeIt s.indexMap b → ∀ n ∈ bunchIds b, n < s.ind := by
    intro b hb n hn
    simp only [bunchIds, Multiset.mem_coe, List.mem_map] at hn
    obtain ⟨t, ht, rfl⟩ := hn
    obtain ⟨x, hx, -⟩ := hb.2 t ht
    exact h.lt _ hx
  have hs : ∀ {α : Type} (f : α → Multiset ℕ) (l : List α), (∀ a ∈ l, ∀ n ∈ f a, n < s.ind) → ∀ n ∈ (l.map f).sum, n < s.ind := by
    intro α f l
    induction l with
    | nil => intro _ n hn; simp at hn
    | cons x xs ih =>
      intro hx n hn
      rw [List.map_cons, List.sum_cons, Multiset.mem_add] at hn
      rcases hn with hn | hn
      · exact hx x (by simp) n hn
      · exact ih (fun a ha => hx a (by simp [ha])) n hn
  intro n hn
  simp only [inflight, Multiset.mem_add] at hn
  rcases hn with (((hn | hn) | hn) | hn) | hn
  · simp only [Multiset.mem_coe, List.mem_map] at hn
    obtain ⟨t, ht, rfl⟩ := hn
    exact h.lt _ (h.req t ht)
  · refine hs _ _ (fun w hw n hn => ?_) n hn
    have := h.runs w hw
    cases w with
    | computing k' l =>
      simp only [runIds, Multiset.mem_coe, List.mem_map] at hn
      obtain ⟨t, ht, rfl⟩ := hn
      exact h.lt _ (this.2.2 t ht)
    | feed0 b => exact hb b this n hn
    | feed1 b => exact hb b this n hn
    | _ => simp [runIds] at hn
  · exact hs _ _ (fun w hw n hn => hb w (h.comp w hw) n hn) n hn
  · have := h.main
    rcases hm : s.main with _ | _ | _ | _ | b | b | b | _ <;> rw [hm] at this hn
    all_goals first | exact hb b this n hn | simp [mainIds] at hn
  · refine hs _ _ (fun w hw n hn => ?_) n hn
    have := h.tasks w hw
    cases w with
    | feedJob b => exact hb b this n hn
    | _ => simp [taskIds] at hn

lemma DataInv.queueOne {s : State m β V} (h : DataInv bb s) (b : β) (front : Bool) : DataInv bb (s.queueOne b front) := by
  have hlt := inflight_lt h
  have h' := DataInv.setMap h (s.indexMap ++ [(s.ind, b)]) (s.ind + 1) (fun t ht _ => List.mem_append_left _ ht) ?_ ?_
  · obtain ⟨h1, h2, h3, h4, h5, h6, h7, h8⟩ := h'
    refine ⟨?_, h2, h3, ?_, h5, h6, h7, h8⟩
    · have e : inflight (s.queueOne b front) = s.ind ::ₘ inflight s := by
        simp only [inflight, State.queueOne]
        rcases front with _ | _
        · simp only [Bool.false_eq_true, if_false, List.map_append, List.map_cons, List.map_nil]
          rw [← Multiset.coe_add, show (↑[s.ind] : Multiset ℕ) = {s.ind} from rfl, ← Multiset.singleton_add]
          abel
        · simp only [if_true, List.map_cons]
          rw [← Multiset.cons_coe]
          simp only [Multiset.cons_add]
      rw [e, Multiset.nodup_cons]
      exact ⟨fun hm => absurd (hlt _ hm) (by omega), h.nodup⟩
    · intro t ht
      simp only [State.queueOne] at ht ⊢
      split_ifs at ht
      · rcases List.mem_cons.mp ht with rfl | ht
        · simp
        · exact h4 t ht
      · rcases List.mem_append.mp ht with ht | ht
        · exact h4 t ht
        · rw [List.mem_singleton.mp ht]; simp
  · rw [List.map_append, List.nodup_append]
    refine ⟨h.keys, by simp, ?_⟩
    intro a ha b' hb'
    simp at hb' ha
    obtain ⟨x, hx⟩ := ha
    have := h.lt _ hx
    simp only at this; omega
  · intro t ht
    rcases List.mem_append.mp ht with ht | ht
    · have := h.lt t ht; omega
    · rw [List.mem_singleton.mp ht]; simp

lemma lookup_mem [Inhabited β] {im : List (ℕ × β)} (hk : (im.map Prod.fst).Nodup) {n : ℕ} {x : β} (h : (n, x) ∈ im) : lookup im n = x := by
  induction im with
  | nil => cases h
  | cons t im ih =>
    simp only [List.map_cons, List.nodup_cons] at hk
    rcases List.mem_cons.mp h with rfl | h
    · simp [lookup]
    · have hne : t.1 ≠ n := by
        rintro rfl
        exact hk.1 (List.mem_map.mpr ⟨_, h, rfl⟩)
      have := ih hk.2 h
      simp only [lookup, List.find?_cons] at this ⊢
      rw [show (t.1 == n) = false by simpa using hne]
      exact this

end lemmas

lemma mainIds_notify (s : State m β V) : mainIds s.notifyFeed.main = mainIds s.main ∧ s.notifyFeed.tasks = s.tasks ∧ s.notifyFeed.running = s.running ∧
    s.notifyFeed.computed = s.computed ∧ s.notifyFeed.requested = s.requested ∧ s.notifyFeed.indexMap = s.indexMap ∧ s.notifyFeed.ind = s.ind ∧ s.notifyFeed.primeIt = s.primeIt := by
  unfold State.notifyFeed
  split <;> simp_all [mainIds]
lemma mainOK_notify {bb : ℕ → β → Fin m → V} (s : State m β V) (k : ℕ) (im : List (ℕ × β)) (h : mainOK bb k im s.main) : mainOK bb k im s.notifyFeed.main := by
  unfold State.notifyFeed
  split
  · trivial
  · exact h

/-- replacing what a worker does by something with less data -/
lemma DataInv.swap {bb : ℕ → β → Fin m → V} {s : State m β V} (h : DataInv bb s) {l r : List (Run m β V)} {w : Run m β V} {w' : Option (Run m β V)} (hr : s.running = l ++ w :: r)
    (hi : ((w'.map runIds).getD 0) ≤ runIds w) (ho : ∀ x ∈ w', runOK bb s.primeIt s.indexMap x) : DataInv bb { s with running := l ++ w'.toList ++ r } := by
  obtain ⟨h1, h2, h3, h4, h5, h6, h7, h8⟩ := h
  refine ⟨Multiset.nodup_of_le ?_ h1, h2, h3, h4, ?_, h6, h7, h8⟩
  · simp only [inflight, hr, List.map_append, List.map_cons, List.sum_append, List.sum_cons]
    have : (w'.toList.map runIds).sum = (w'.map runIds).getD 0 := by cases w' <;> simp
    rw [this]
    have : (List.map runIds l).sum + (Option.map runIds w').getD 0 + (List.map runIds r).sum ≤ (List.map runIds l).sum + (runIds w + (List.map runIds r).sum) := by
      rw [add_assoc]
      exact add_le_add le_rfl (add_le_add hi le_rfl)
    exact add_le_add (add_le_add (add_le_add (add_le_add le_rfl this) le_rfl) le_rfl) le_rfl
  · intro x hx
    simp only [List.mem_append] at hx
    rcases hx with (hx | hx) | hx
    · exact h5 x (by rw [hr]; simp [hx])
    · exact ho x (by simpa using hx)
    · exact h5 x (by rw [hr]; simp [hx])

lemma DataInv.notify {bb : ℕ → β → Fin m → V} {s : State m β V} (h : DataInv bb s) : DataInv bb s.notifyFeed := by
  obtain ⟨e1, e2, e3, e4, e5, e6, e7, e8⟩ := mainIds_notify s
  obtain ⟨h1, h2, h3, h4, h5, h6, h7, h8⟩ := h
  refine ⟨?_, ?_, ?_, ?_, ?_, ?_, ?_, ?_⟩
  · simp only [inflight, e1, e2, e3, e4, e5]; exact h1
  · rw [e6]; exact h2
  · rw [e6, e7]; exact h3
  · rw [e5, e6]; exact h4
  · rw [e3, e6, e8]; exact h5
  · rw [e4, e6, e8]; exact h6
  · rw [e6, e8]; exact mainOK_notify s _ _ h7
  · rw [e2, e6, e8]; exact h8

lemma runIds_start (t : Task m V) : runIds (t.start : Run m β V) = taskIds t := by cases t <;> rfl

/-- changing the main thread, and dropping bunches -/
lemma DataInv.setMain {bb : ℕ → β → Fin m → V} {s : State m β V} (h : DataInv bb s) {mn : Main m V} (hi : mainIds mn ≤ mainIds s.main) (ho : mainOK bb s.primeIt s.indexMap mn) :
    DataInv bb { s with main := mn } := by
  obtain ⟨h1, h2, h3, h4, h5, h6, h7, h8⟩ := h
  refine ⟨Multiset.nodup_of_le ?_ h1, h2, h3, h4, h5, h6, ho, h8⟩
  simp only [inflight]
  exact add_le_add (add_le_add le_rfl hi) le_rfl

lemma DataInv.run {c : Cfg m β V} [Inhabited β] {s t : State m β V} {l r : List (Run m β V)} {w : Run m β V} {w' : Option (Run m β V)} (h : DataInv c.bb s)
    (hr : s.running = l ++ w :: r) (hs : RunStep c s w t w') : DataInv c.bb { t with running := l ++ w'.toList ++ r } := by
  have hw := h.runs w (by rw [hr]; simp)
  cases hs with
  | getNone => exact h.swap hr (by simp [runIds]) (by simp)
  | getBunch a b hq hl =>
    obtain ⟨h1, h2, h3, h4, h5, h6, h7, h8⟩ := h
    refine ⟨?_, h2, h3, fun t ht => h4 t (by rw [hq]; simp only at ht; simp [ht]), ?_, h6, h7, h8⟩
    · have e : inflight ({ s with requested := b, running := l ++ (some (Run.computing s.primeIt a)).toList ++ r } : State m β V) = inflight s := by
        simp only [inflight, hr, hq, List.map_append, List.map_cons, List.sum_append, List.sum_cons, Option.toList_some, List.map_nil, List.sum_nil, runIds, ← Multiset.coe_add]
        abel
      rw [e]; exact h1
    · intro x hx
      simp only [Option.toList_some, List.mem_append, List.mem_singleton] at hx
      rcases hx with (hx | rfl) | hx
      · exact h5 x (by rw [hr]; simp [hx])
      · exact ⟨rfl, hl, fun t ht => h4 t (by rw [hq]; simp [ht])⟩
      · exact h5 x (by rw [hr]; simp [hx])
  | compute k bunch junk =>
    obtain ⟨hk, hne, hb⟩ := hw
    obtain ⟨h1, h2, h3, h4, h5, h6, h7, h8⟩ := h
    refine ⟨?_, h2, h3, h4, ?_, ?_, h7, h8⟩
    · have e : inflight ({ s with computed := s.computed ++ [evalBunch c.bb s.primeIt k junk bunch], running := l ++ (none : Option (Run m β V)).toList ++ r } : State m β V) = inflight s := by
        have e' : bunchIds (evalBunch c.bb s.primeIt k junk bunch) = ↑(bunch.map Prod.fst) := by
          simp only [bunchIds, evalBunch, List.map_map]; rfl
        simp only [inflight, hr, List.map_append, List.map_cons, List.sum_append, List.sum_cons, Option.toList_none, List.append_nil, List.map_nil, List.sum_nil, runIds, e']
        abel
      rw [e]; exact h1
    · intro x hx
      simp only [Option.toList_none, List.append_nil, List.mem_append] at hx
      exact h5 x (by rw [hr]; simp; tauto)
    · intro b hb'
      rcases List.mem_append.mp hb' with hb' | hb'
      · exact h6 b hb'
      · rw [List.mem_singleton.mp hb']
        refine ⟨by simpa [evalBunch] using hne, fun t ht => ?_⟩
        simp only [evalBunch, List.mem_map] at ht
        obtain ⟨x, hx, rfl⟩ := ht
        exact ⟨x.2, hb x hx, by simp [hk]⟩
  | feed0 bunch =>
    have := h.swap (w' := some (.feed1 bunch)) hr (by simp [runIds]) (by simpa [runOK] using hw)
    obtain ⟨h1, h2, h3, h4, h5, h6, h7, h8⟩ := this
    exact ⟨h1, h2, h3, h4, h5, h6, h7, h8⟩
  | feed1 bunch =>
    obtain ⟨hne, hb⟩ := hw
    have hs' := h.swap (w' := some (.feed2 (bunch.map (fun t => (lookup s.indexMap t.1, t.2))) (List.finRange m) 0)) hr (Multiset.zero_le _) (by
      intro x hx
      simp only [Option.mem_def, Option.some.injEq] at hx
      subst hx
      refine ⟨by simpa using hne, fun t ht => ?_⟩
      simp only [List.mem_map] at ht
      obtain ⟨u, hu, rfl⟩ := ht
      obtain ⟨x, hx, hv⟩ := hb u hu
      simp only
      rw [lookup_mem h.keys hx]; exact hv)
    have hs'' := DataInv.setMap hs' (s.indexMap.filter (fun t => !(bunch.map Prod.fst).contains t.1)) s.ind ?_ ?_ ?_
    · obtain ⟨h1, h2, h3, h4, h5, h6, h7, h8⟩ := hs''
      exact ⟨h1, h2, h3, h4, h5, h6, h7, h8⟩
    · intro t ht hm
      rw [List.mem_filter]
      refine ⟨ht, ?_⟩
      simp only [Bool.not_eq_true', List.contains_eq_mem, decide_eq_false_iff_not]
      intro hc
      have e : inflight s = inflight ({ s with running := l ++ (some (Run.feed2 (bunch.map (fun t => (lookup s.indexMap t.1, t.2))) (List.finRange m) 0)).toList ++ r } : State m β V) + ↑(bunch.map Prod.fst) := by
        simp only [inflight, hr, List.map_append, List.map_cons, List.sum_append, List.sum_cons, Option.toList_some, List.append_nil, List.map_nil, List.sum_nil, runIds]
        abel
      have hn := h.nodup
      rw [e, Multiset.nodup_add] at hn
      exact Multiset.disjoint_left.mp hn.2.2 hm (by simpa using hc)
    · exact (List.filter_sublist.map _).nodup h.keys
    · exact fun t ht => h.lt t (List.mem_filter.mp ht).1
  | feedItem foods i todo counter hs =>
    have := h.swap (w' := some (.feed2 foods todo (counter + if ((s.obj i).feed (fun x => c.zero x.2) false (foods.map (fun t => (t.1, t.2 i))) s.primeIt).2 then 1 else 0)))
      hr (by simp [runIds]) (by simpa [runOK] using hw)
    obtain ⟨h1, h2, h3, h4, h5, h6, h7, h8⟩ := this
    refine ⟨?_, h2, h3, h4, h5, h6, h7, ?_⟩
    · simp only [inflight] at h1 ⊢
      split_ifs at h1 ⊢
      · simpa [taskIds] using h1
      · exact h1
    · intro t ht
      simp only at ht
      split_ifs at ht
      · rcases List.mem_append.mp ht with ht | ht
        · exact h8 t ht
        · rw [List.mem_singleton.mp ht]; trivial
      · exact h8 t ht
  | feedSkip foods i todo counter hs => exact h.swap (w' := some _) hr (by simp [runIds]) (by simpa [runOK] using hw)
  | feedEnd foods counter =>
    have := (h.swap (w' := none) hr (Multiset.zero_le _) (by simp)).notify
    obtain ⟨h1, h2, h3, h4, h5, h6, h7, h8⟩ := this
    rcases hm : s.main with _ | _ | _ | _ | _ | _ | _ | _ | _ | _ | _ <;> simp only [State.notifyFeed, hm] at h1 h2 h3 h4 h5 h6 h7 h8 ⊢ <;> exact ⟨h1, h2, h3, h4, h5, h6, h7, h8⟩
  | interpEnd i =>
    have := (h.swap (w' := none) hr (Multiset.zero_le _) (by simp)).notify
    obtain ⟨h1, h2, h3, h4, h5, h6, h7, h8⟩ := this
    rcases hm : s.main with _ | _ | _ | _ | _ | _ | _ | _ | _ | _ | _ <;> simp only [State.notifyFeed, hm] at h1 h2 h3 h4 h5 h6 h7 h8 ⊢ <;> exact ⟨h1, h2, h3, h4, h5, h6, h7, h8⟩
  | queueOne i owed b front =>
    have := (h.swap (w' := some (.interpQ i (owed + 1))) hr (by simp [runIds]) (by simp [runOK])).queueOne b front
    obtain ⟨h1, h2, h3, h4, h5, h6, h7, h8⟩ := this
    exact ⟨h1, h2, h3, h4, h5, h6, h7, h8⟩
  | submitOne i owed =>
    have := h.swap (w' := some (.interpQ i owed)) hr (by simp [runIds]) (by simp [runOK])
    obtain ⟨h1, h2, h3, h4, h5, h6, h7, h8⟩ := this
    refine ⟨?_, h2, h3, h4, h5, h6, h7, ?_⟩
    · simpa [inflight, State.submitGet, taskIds] using h1
    · intro t ht
      rcases List.mem_append.mp ht with ht | ht
      · exact h8 t ht
      · rw [List.mem_singleton.mp ht]; trivial
  | interpSkip i hs =>
    obtain ⟨h1, h2, h3, h4, h5, h6, h7, h8⟩ := h.swap (w' := some (.interpEnd i)) hr (by simp [runIds]) (by simp [runOK])
    exact ⟨h1, h2, h3, h4, h5, h6, h7, h8⟩
  | interpCall i hs =>
    obtain ⟨h1, h2, h3, h4, h5, h6, h7, h8⟩ := h.swap (w' := some (if (s.obj i).fedZero || (s.obj i).isInterp || (s.obj i).queue.isEmpty
          then .interpRet i (lastRet (Obj.enter { s.obj i with scheduled := (s.obj i).scheduled - 1 })) else .interpIn i)) hr (by simp only [Option.map_some, Option.getD_some]; split_ifs <;> simp [runIds]) (by simp; split_ifs <;> simp [runOK])
    exact ⟨h1, h2, h3, h4, h5, h6, h7, h8⟩
  | interpEffect i x e hh =>
    obtain ⟨h1, h2, h3, h4, h5, h6, h7, h8⟩ := h.swap (w' := some (.interpIn i)) hr (by simp [runIds]) (by simp [runOK])
    exact ⟨h1, h2, h3, h4, h5, h6, h7, h8⟩
  | interpLoop i hh =>
    obtain ⟨h1, h2, h3, h4, h5, h6, h7, h8⟩ := h.swap (w' := some (if (s.obj i).queue.isEmpty then .interpRet i (lastRet ((s.obj i).loopHead [])) else .interpIn i)) hr (by simp only [Option.map_some, Option.getD_some]; split_ifs <;> simp [runIds]) (by simp; split_ifs <;> simp [runOK])
    exact ⟨h1, h2, h3, h4, h5, h6, h7, h8⟩
  | retNothing i d p => exact h.swap (w' := some _) hr (by simp [runIds]) (by simp [runOK])
  | retNew i p hp =>
    obtain ⟨h1, h2, h3, h4, h5, h6, h7, h8⟩ := h.swap (w' := some (.interpEnd i)) hr (by simp [runIds]) (by simp [runOK])
    exact ⟨h1, h2, h3, h4, h5, h6, h7, h8⟩
  | retMore i p hp => exact h.swap (w' := some _) hr (by simp [runIds]) (by simp [runOK])
  | retDone i p hp =>
    obtain ⟨h1, h2, h3, h4, h5, h6, h7, h8⟩ := h.swap (w' := some (.interpEnd i)) hr (by simp [runIds]) (by simp [runOK])
    exact ⟨h1, h2, h3, h4, h5, h6, h7, h8⟩
  | retDone' i p hp => exact h.swap (w' := some _) hr (by simp [runIds]) (by simp [runOK])
  | queueEnd i => exact h.swap (w' := some _) hr (by simp [runIds]) (by simp [runOK])

lemma DataInv.mainStep {c : Cfg m β V} {s t : State m β V} (h : DataInv c.bb s) (hs : MainStep c s t) : DataInv c.bb t := by
  have check : ∀ mn, s.main = .check ∨ s.main = .poolWait → mainIds mn = 0 → mainOK c.bb s.primeIt s.indexMap mn → DataInv c.bb (s.afterCheck mn) := by
    intro mn hm hi ho
    unfold State.afterCheck
    split_ifs
    · obtain ⟨h1, h2, h3, h4, h5, h6, h7, h8⟩ := h.setMain (mn := .head) (Multiset.zero_le _) (by simp [mainOK])
      exact ⟨h1, h2, h3, h4, h5, h6, h7, h8⟩
    · obtain ⟨h1, h2, h3, h4, h5, h6, h7, h8⟩ := h.setMain (mn := .head) (Multiset.zero_le _) (by simp [mainOK])
      exact ⟨h1, h2, h3, h4, h5, h6, h7, h8⟩
    · exact h.setMain (by rw [hi]; exact Multiset.zero_le _) ho
  have hmn := h.main
  cases hs with
  | drop l r tk hm ht =>
    have : DataInv c.bb { s with tasks := l ++ r } := by
      obtain ⟨h1, h2, h3, h4, h5, h6, h7, h8⟩ := h
      refine ⟨Multiset.nodup_of_le ?_ h1, h2, h3, h4, h5, h6, h7, fun t hh => h8 t (by rw [ht]; simp at hh ⊢; tauto)⟩
      simp only [inflight, ht, List.map_append, List.map_cons, List.sum_append, List.sum_cons]
      refine add_le_add le_rfl (add_le_add le_rfl ?_)
      exact le_add_of_nonneg_left (Multiset.zero_le _)
    obtain ⟨h1, h2, h3, h4, h5, h6, h7, h8⟩ := this
    cases tk <;> exact ⟨h1, h2, h3, h4, h5, h6, h7, h8⟩
  | advance hm ht hr =>
    refine ⟨?_, by simp [State.reset], by simp [State.reset], by simp [State.reset], ?_, by simp [State.reset], by simp [State.reset, mainOK], ?_⟩
    · simp [inflight, State.reset, ht, hr, mainIds]
    · simp [State.reset, hr]
    · simp [State.reset, ht]
  | startQueue o q b front hm =>
    obtain ⟨h1, h2, h3, h4, h5, h6, h7, h8⟩ := (h.setMain (mn := .starting (o + 1) true) (Multiset.zero_le _) (by simp [mainOK])).queueOne b front
    exact ⟨h1, h2, h3, h4, h5, h6, h7, h8⟩
  | attemptQueue o b front hm =>
    obtain ⟨h1, h2, h3, h4, h5, h6, h7, h8⟩ := (h.setMain (mn := .attempt (o + 1)) (Multiset.zero_le _) (by simp [mainOK])).queueOne b front
    exact ⟨h1, h2, h3, h4, h5, h6, h7, h8⟩
  | startSubmit o q hm =>
    obtain ⟨h1, h2, h3, h4, h5, h6, h7, h8⟩ := (h.setMain (mn := .starting o q) (Multiset.zero_le _) (by simp [mainOK]))
    refine ⟨by simpa [inflight, State.submitGet, taskIds] using h1, h2, h3, h4, h5, h6, h7, ?_⟩
    intro t ht
    rcases List.mem_append.mp ht with ht | ht
    · exact h8 t ht
    · rw [List.mem_singleton.mp ht]; trivial
  | attemptSubmit o hm =>
    obtain ⟨h1, h2, h3, h4, h5, h6, h7, h8⟩ := (h.setMain (mn := .attempt o) (Multiset.zero_le _) (by simp [mainOK]))
    refine ⟨by simpa [inflight, State.submitGet, taskIds] using h1, h2, h3, h4, h5, h6, h7, ?_⟩
    intro t ht
    rcases List.mem_append.mp ht with ht | ht
    · exact h8 t ht
    · rw [List.mem_singleton.mp ht]; trivial
  | getProbe b bs hm hc =>
    obtain ⟨h1, h2, h3, h4, h5, h6, h7, h8⟩ := h
    refine ⟨?_, h2, h3, h4, h5, fun x hx => h6 x (by rw [hc]; simp only at hx; simp [hx]), h6 b (by rw [hc]; simp), h8⟩
    have e : inflight ({ s with computed := bs, main := .gotProbe b } : State m β V) = inflight s := by
      simp only [inflight, hc, hm, List.map_cons, List.sum_cons, mainIds, bunchIds]
      abel
    rw [e]; exact h1
  | gotProbe b hm =>
    obtain ⟨h1, h2, h3, h4, h5, h6, h7, h8⟩ := h.setMain (mn := .incFeed b) (by simp [mainIds, hm]) (by rw [hm] at hmn; exact hmn)
    exact ⟨h1, h2, h3, h4, h5, h6, h7, h8⟩
  | incFeed b hm =>
    obtain ⟨h1, h2, h3, h4, h5, h6, h7, h8⟩ := h.setMain (mn := .submitFeed b) (by simp [mainIds, hm]) (by rw [hm] at hmn; exact hmn)
    exact ⟨h1, h2, h3, h4, h5, h6, h7, h8⟩
  | submitFeed b hm =>
    rw [hm] at hmn
    obtain ⟨h1, h2, h3, h4, h5, h6, h7, h8⟩ := h
    refine ⟨?_, h2, h3, h4, h5, h6, trivial, ?_⟩
    · have e : inflight ({ s with tasks := s.tasks ++ [.feedJob b], main := .check } : State m β V) = inflight s := by
        simp only [inflight, hm, List.map_append, List.sum_append, List.map_cons, List.map_nil, List.sum_cons, List.sum_nil, mainIds, taskIds]
        abel
      rw [e]; exact h1
    · intro t ht
      rcases List.mem_append.mp ht with ht | ht
      · exact h8 t ht
      · rw [List.mem_singleton.mp ht]; exact hmn
  | check hm => exact check _ (Or.inl hm) rfl trivial
  | poolWait hm hr => exact check _ (Or.inr hm) rfl trivial
  | attemptEnd hm =>
    obtain ⟨h1, h2, h3, h4, h5, h6, h7, h8⟩ := h.setMain (mn := .head) (Multiset.zero_le _) trivial
    exact ⟨h1, h2, h3, h4, h5, h6, h7, h8⟩
  | _ => exact h.setMain (Multiset.zero_le _) trivial

lemma DataInv.step {c : Cfg m β V} [Inhabited β] {s t : State m β V} (h : DataInv c.bb s) (hs : Step c s t) : DataInv c.bb t := by
  cases hs with
  | main _ h' => exact h.mainStep h'
  | spurious hm => exact h.setMain (Multiset.zero_le _) trivial
  | start l r tk ht hw =>
    obtain ⟨h1, h2, h3, h4, h5, h6, h7, h8⟩ := h
    refine ⟨?_, h2, h3, h4, ?_, h6, h7, fun t hh => h8 t (by rw [ht]; simp at hh ⊢; tauto)⟩
    · have e : inflight ({ s with tasks := l ++ r, running := s.running ++ [tk.start] } : State m β V) = inflight s := by
        simp only [inflight, ht, List.map_append, List.sum_append, List.map_cons, List.map_nil, List.sum_cons, List.sum_nil, runIds_start]
        abel
      rw [e]; exact h1
    · intro x hx
      rcases List.mem_append.mp hx with hx | hx
      · exact h5 x hx
      · rw [List.mem_singleton.mp hx]
        have := h8 tk (by rw [ht]; simp)
        cases tk
        · trivial
        · exact this
        · trivial
  | run t' l r w w' hr hrs => exact h.run hr hrs

lemma DataInv.init (bb : ℕ → β → Fin m → V) : DataInv bb ({} : State m β V) := by
  refine ⟨?_, ?_, ?_, ?_, ?_, ?_, trivial, ?_⟩ <;> simp [inflight, mainIds]

lemma reach_data {c : Cfg m β V} [Inhabited β] {s : State m β V} (h : Reach c s) : DataInv c.bb s := by
  induction h with
  | init => exact .init _
  | step _ hs ih => exact ih.step hs

end FireFly.Scheduler
