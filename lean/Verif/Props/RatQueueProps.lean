import Verif.Model.RatQueue
import Mathlib.Tactic.Common
import Mathlib.Tactic.Linarith
set_option linter.all false
/-! # C37: threads that share one reconstruction object -/
namespace FireFly.RatQueue
variable {α : Type}

/-- Specification: the probes of a record that belong to prime field `k`, in order. -/
def ofPrime (k : ℕ) (l : List (ℕ × α)) : List α := (l.filter (fun t => t.1 == k)).map Prod.snd

lemma ofPrime_append (k : ℕ) (l r : List (ℕ × α)) : ofPrime k (l ++ r) = ofPrime k l ++ ofPrime k r := by
  simp [ofPrime]

lemma ofPrime_tag (k j : ℕ) (xs : List α) : ofPrime k (xs.map (fun x => (j, x))) = if j = k then xs else [] := by
  induction xs with
  | nil => simp [ofPrime]
  | cons x xs ih =>
    rw [List.map_cons, show (j, x) :: xs.map (fun x => (j, x)) = [(j, x)] ++ xs.map (fun x => (j, x)) from rfl, ofPrime_append, ih]
    by_cases h : j = k <;> simp [ofPrime, h]

lemma ofPrime_nil {k : ℕ} {l : List (ℕ × α)} (h : ∀ t ∈ l, t.1 < k) : ofPrime k l = [] := by
  simp only [ofPrime, List.map_eq_nil_iff, List.filter_eq_nil_iff]
  intro t ht
  have := h t ht
  simp; omega

/-- the invariant of the protocol -/
structure Inv (scan : Bool) (s : Obj α) : Prop where
  one : s.inside.length = if s.isInterp then 1 else 0
  first : scan = false → s.firstFeed = true → s.queue = []
  zeroPend : s.done = false → s.fedZero = true → 1 ≤ s.scheduled
  lost : s.done = false → s.queue ≠ [] → s.isInterp = false → 1 + s.fedZero.toNat ≤ s.scheduled
  start : s.startInterp = false → s.firstFeed = false → s.isInterp = true ∨ s.queue ≠ []
  fifo : ofPrime s.prime s.accepted = ofPrime s.prime s.popped ++ s.queue
  old : ∀ k, ofPrime k s.popped <+: ofPrime k s.accepted
  fut : (∀ t ∈ s.accepted, t.1 ≤ s.prime) ∧ ∀ t ∈ s.popped, t.1 ≤ s.prime

lemma inv_init (scan : Bool) : Inv scan ({} : Obj α) := by
  constructor <;> simp [ofPrime]

lemma enqueue_fifo {s : Obj α} (xs : List α) (h : ofPrime s.prime s.accepted = ofPrime s.prime s.popped ++ s.queue)
    (ho : ∀ k, ofPrime k s.popped <+: ofPrime k s.accepted) :
    ofPrime s.prime (s.enqueue xs).accepted = ofPrime s.prime s.popped ++ (s.queue ++ xs) ∧
    ∀ k, ofPrime k s.popped <+: ofPrime k (s.enqueue xs).accepted := by
  constructor
  · simp only [Obj.enqueue, ofPrime_append, ofPrime_tag, if_true, h, List.append_assoc]
  · intro k
    simp only [Obj.enqueue, ofPrime_append]
    exact (ho k).trans (List.prefix_append _ _)

lemma inv_feed {zero : α → Bool} {scan : Bool} {s : Obj α} (h : Inv scan s) {xs : List α} (hx : xs ≠ []) (p : ℕ) :
    Inv scan { (s.feed zero scan xs p).1 with scheduled := s.scheduled + if (s.feed zero scan xs p).2 then 1 else 0 } := by
  obtain ⟨h1, h2, h3, h4, h5, h6, h7, h8, h9⟩ := h
  by_cases hacc : (!s.done && decide (p = s.prime)) = true
  swap
  · have e : s.feed zero scan xs p = (s, false) := by unfold Obj.feed; rw [if_neg hacc]
    rw [e]
    exact ⟨h1, h2, h3, h4, h5, h6, h7, h8, h9⟩
  have hdn : s.done = false := by simp at hacc; exact hacc.1
  have hzt : s.fedZero.toNat ≤ s.scheduled := by
    rcases hz : s.fedZero with _ | _
    · simp
    · simpa using h3 hdn hz
  have e : s.feed zero scan xs p = (if (s.feedBody zero scan xs).startInterp then ({ s.feedBody zero scan xs with startInterp := false }, true)
      else (s.feedBody zero scan xs, false)) := by unfold Obj.feed; rw [if_pos hacc]
  rw [e]
  obtain ⟨f1, f2⟩ := enqueue_fifo xs h6 h7
  have hq : s.queue ++ xs ≠ [] := by simp [hx]
  have hfut : ∀ t ∈ s.accepted ++ xs.map (fun x => (s.prime, x)), t.1 ≤ s.prime := by
    intro t ht
    rcases List.mem_append.mp ht with ht | ht
    · exact h8 t ht
    · obtain ⟨x, -, rfl⟩ := List.mem_map.mp ht; exact le_rfl
  rcases hff : s.firstFeed with _ | _
  · -- not the first probe
    have eb : s.feedBody zero scan xs = s.enqueue xs := by simp [Obj.feedBody, hff]
    rw [eb]
    rcases hs : s.startInterp with _ | _
    · simp only [Obj.enqueue, hs, Bool.false_eq_true, if_false, Nat.add_zero]
      refine ⟨h1, fun a b => absurd (hff.symm.trans b) (by simp), h3, ?_, fun _ _ => Or.inr hq, f1, f2, hfut, h9⟩
      intro _ _ hi
      rcases h5 hs hff with h | h
      · rw [hi] at h; cases h
      · exact h4 hdn h hi
    · simp only [Obj.enqueue, hs, if_true]
      refine ⟨h1, fun a b => absurd (hff.symm.trans b) (by simp), fun _ _ => by simp, ?_, fun _ _ => Or.inr hq, f1, f2, hfut, h9⟩
      intro _ _ hi
      simp only; omega
  · -- the first probe
    rcases hsc : scan with _ | _
    · have hq0 := h2 hsc hff
      rcases hz : (xs.head?.map zero).getD false with _ | _
      · have eb : s.feedBody zero false xs = ({ s with startInterp := true, firstFeed := false } : Obj α).enqueue xs := by
          simp [Obj.feedBody, hff, hz]
        rw [eb]
        simp only [Obj.enqueue, if_true]
        refine ⟨h1, fun _ b => by simp at b, fun _ _ => by simp, ?_, fun _ _ => Or.inr hq, f1, f2, hfut, h9⟩
        intro _ _ hi
        simp only; omega
      · have eb : s.feedBody zero false xs = { s with startInterp := true, fedZero := true, zeroCounter := s.zeroCounter + 1, prime := s.prime + 1, done := s.done || (decide (s.zeroCounter + 1 = 3) && decide (s.prime + 1 = 3)) } := by
          simp [Obj.feedBody, hff, hz]
        rw [eb]
        simp only [if_true]
        refine ⟨h1, fun _ _ => hq0, fun _ _ => by simp, fun _ hne => absurd hq0 hne, fun _ b => ?_, ?_, h7, ?_, ?_⟩
        · simp only at b; rw [hff] at b; cases b
        · simp only [hq0, List.append_nil]
          rw [ofPrime_nil (fun t ht => by have := h8 t ht; omega), ofPrime_nil (fun t ht => by have := h9 t ht; omega)]
        · intro t ht; have := h8 t ht; simp only; omega
        · intro t ht; have := h9 t ht; simp only; omega
    · have eb : s.feedBody zero true xs = ({ s with startInterp := true } : Obj α).enqueue xs := by
        simp [Obj.feedBody, hff]
      rw [eb]
      simp only [Obj.enqueue, if_true]
      refine ⟨h1, fun a _ => (by cases a), fun _ _ => by simp, ?_, fun _ _ => Or.inr hq, f1, f2, hfut, h9⟩
      intro _ _ hi
      simp only; omega

lemma inv_loopHead {scan : Bool} {s : Obj α} (h : Inv scan { s with inside := .worked :: [] }) (hi : s.isInterp = true) :
    Inv scan (s.loopHead []) := by
  obtain ⟨h1, h2, h3, h4, h5, h6, h7, h8, h9⟩ := h
  simp only at h1 h2 h3 h4 h5 h6 h7 h8 h9
  unfold Obj.loopHead
  rcases hq : s.queue with _ | ⟨x, xs⟩
  · refine ⟨by simp, fun _ _ => rfl, h3, fun _ hne => absurd rfl hne, fun a => by simp at a, by simpa [hq] using h6, h7, h8, h9⟩
  · refine ⟨by simp [hi], ?_, h3, fun _ _ hf => (by rw [hi] at hf; cases hf), fun _ _ => Or.inl hi, ?_, ?_, h8, ?_⟩
    · intro a b
      have := h2 a b
      rw [hq] at this; cases this
    · simp only [ofPrime_append]
      rw [show ofPrime s.prime [(s.prime, x)] = [x] by simp [ofPrime], h6, hq]
      simp
    · intro k
      rw [ofPrime_append]
      by_cases hk : s.prime = k
      · subst hk
        rw [show ofPrime s.prime [(s.prime, x)] = [x] by simp [ofPrime], h6, hq]
        exact ⟨xs, by simp⟩
      · rw [show ofPrime k [(s.prime, x)] = [] by simp [ofPrime, hk], List.append_nil]
        exact h7 k
    · intro t ht
      rcases List.mem_append.mp ht with ht | ht
      · exact h9 t ht
      · rw [List.mem_singleton.mp ht]

lemma inv_step {zero : α → Bool} {scan : Bool} {s t : Obj α} {e : Event α} (h : Inv scan s) (hs : Step zero scan s e t) : Inv scan t := by
  cases hs with
  | feed xs p hx => exact inv_feed h hx p
  | spawn =>
    obtain ⟨h1, h2, h3, h4, h5, h6, h7, h8, h9⟩ := h
    exact ⟨h1, h2, fun _ a => by simp, fun c a b => by have := h4 c a b; simp only; omega, h5, h6, h7, h8, h9⟩
  | drop hp hd =>
    obtain ⟨h1, h2, h3, h4, h5, h6, h7, h8, h9⟩ := h
    refine ⟨h1, h2, fun c a => ?_, fun c a => ?_, h5, h6, h7, h8, h9⟩
    · simp only at c a
      simp [c, a] at hd
    · simp only at c a
      rw [c] at hd
      simp only [Bool.false_eq_true, false_or] at hd
      exact absurd hd.1 a
  | call hp =>
    obtain ⟨h1, h2, h3, h4, h5, h6, h7, h8, h9⟩ := h
    unfold Obj.enter
    simp only
    rcases hz : s.fedZero with _ | _
    · rw [if_neg (by simp)]
      by_cases hi : (s.isInterp || s.queue.isEmpty) = true
      · rw [if_pos hi]
        have hcase : s.isInterp = true ∨ s.queue = [] := by simpa using hi
        refine ⟨h1, h2, fun _ a => ?_, fun c a b => ?_, h5, h6, h7, h8, h9⟩
        · simp only at a; exact absurd a (by simp)
        · rcases hcase with hc | hc
          · simp only at b; rw [b] at hc; cases hc
          · exact absurd hc a
      · rw [if_neg hi]
        have hi' : s.isInterp = false ∧ s.queue ≠ [] := by simpa using hi
        have hin : s.inside = [] := by
          rw [hi'.1] at h1
          exact List.eq_nil_of_length_eq_zero (by simpa using h1)
        rw [hin]
        apply inv_loopHead _ rfl
        refine ⟨by simp, h2, fun _ a => ?_, fun _ a b => (by simp at b), fun _ _ => Or.inl rfl, h6, h7, h8, h9⟩
        simp only at a; exact absurd a (by simp)
    · rw [if_pos rfl]
      refine ⟨h1, h2, fun _ a => (by simp at a), fun c a b => ?_, h5, h6, h7, h8, h9⟩
      have := h4 c a b
      rw [hz] at this
      simp only [Bool.toNat_true, Bool.toNat_false] at this ⊢
      omega
  | effect x l r e hin =>
    have hi : s.isInterp = true := by
      by_contra hc
      have := h.one
      rw [if_neg hc, hin] at this
      simp at this
    obtain ⟨h1, h2, h3, h4, h5, h6, h7, h8, h9⟩ := h
    have hlen : (l ++ Pc.worked :: r).length = if s.isInterp then 1 else 0 := by
      rw [← h1, hin]; simp
    cases e with
    | nothing => exact ⟨hlen, h2, h3, h4, h5, h6, h7, h8, h9⟩
    | done => exact ⟨hlen, h2, fun c => (by simp [Obj.apply] at c), fun c => (by simp [Obj.apply] at c), h5, h6, h7, h8, h9⟩
    | newPrime =>
      unfold Obj.apply
      simp only
      split_ifs with hd
      · exact ⟨hlen, h2, h3, h4, h5, h6, h7, h8, h9⟩
      · refine ⟨hlen, fun _ _ => rfl, h3, fun _ a => absurd rfl a, fun _ b => by simp at b, ?_, h7, ?_, ?_⟩
        · simp only [List.append_nil]
          rw [ofPrime_nil (fun t ht => by have := h8 t ht; omega), ofPrime_nil (fun t ht => by have := h9 t ht; omega)]
        · intro t ht; have := h8 t ht; simp only; omega
        · intro t ht; have := h9 t ht; simp only; omega
  | loop l r hin =>
    have hi : s.isInterp = true := by
      by_contra hc
      have := h.one
      rw [if_neg hc, hin] at this
      simp at this
    have hlen := h.one
    rw [if_pos hi, hin] at hlen
    simp at hlen
    obtain ⟨rfl, rfl⟩ : l = [] ∧ r = [] := ⟨List.eq_nil_of_length_eq_zero (by omega), List.eq_nil_of_length_eq_zero (by omega)⟩
    apply inv_loopHead _ hi
    obtain ⟨h1, h2, h3, h4, h5, h6, h7, h8, h9⟩ := h
    exact ⟨by simp [hi], h2, h3, h4, h5, h6, h7, h8, h9⟩

lemma reach_inv {zero : α → Bool} {scan : Bool} {s : Obj α} (h : Reach zero scan s) : Inv scan s := by
  induction h with
  | init => exact inv_init scan
  | step _ hs ih => exact inv_step ih hs

/-- **C37 (exclusion).** At no time two threads process probes of the same object. -/
theorem C37_exclusive {zero : α → Bool} {scan : Bool} {s : Obj α} (h : Reach zero scan s) : s.inside.length ≤ 1 := by
  have := (reach_inv h).one
  split_ifs at this <;> omega

/-- **C37 (order).** The probes of each prime field are processed in the order in which they were accepted, none twice; those of the current field
that have not been processed are in the queue. -/
theorem C37_fifo {zero : α → Bool} {scan : Bool} {s : Obj α} (h : Reach zero scan s) :
    (∀ k, ofPrime k s.popped <+: ofPrime k s.accepted) ∧ ofPrime s.prime s.accepted = ofPrime s.prime s.popped ++ s.queue :=
  ⟨(reach_inv h).old, (reach_inv h).fifo⟩

/-- **C37 (no lost probe).** When all scheduled calls have returned and the object is not done, every accepted probe of the current prime field has been processed. -/
theorem C37_no_lost_probe {zero : α → Bool} {scan : Bool} {s : Obj α} (h : Reach zero scan s) (hs : s.scheduled = 0) (hi : s.inside = []) (hd : s.done = false) :
    ofPrime s.prime s.popped = ofPrime s.prime s.accepted := by
  have hinv := reach_inv h
  have hint : s.isInterp = false := by
    by_contra hc
    have := hinv.one
    rw [hi, if_pos (by simpa using hc)] at this
    simp at this
  have hq : s.queue = [] := by
    by_contra hq
    have := hinv.lost hd hq hint
    omega
  rw [hinv.fifo, hq, List.append_nil]

/-- Specification: the work left to the threads. -/
def work (s : Obj α) : ℕ := s.scheduled * 3 + s.queue.length * 2 + (s.inside.map (fun w => match w with | .working _ => 2 | .worked => 1)).sum

/-- **C37 (termination).** Every step of a thread inside `interpolate()` reduces the work left, and as long as there is work some thread can make a
step: without further calls of `feed` all calls return. -/
theorem C37_terminates {zero : α → Bool} {scan : Bool} {s : Obj α} (h : Reach zero scan s) :
    (∀ e t, Step zero scan s e t → (e = .call ∨ (∃ f, e = .effect f) ∨ e = .loop) → work t < work s) ∧
    ((0 < s.scheduled ∨ s.inside ≠ []) → ∃ e t, Step zero scan s e t ∧ (e = .call ∨ (∃ f, e = .effect f) ∨ e = .loop)) := by
  have lh : ∀ (s : Obj α) (r : List (Pc α)), work (s.loopHead r) ≤ s.scheduled * 3 + s.queue.length * 2 + (r.map (fun w => match w with | .working _ => 2 | .worked => 1)).sum := by
    intro s r
    unfold Obj.loopHead
    rcases hq : s.queue with _ | ⟨x, xs⟩
    · simp [work, hq]
    · simp only [work, List.length_cons, List.map_cons, List.sum_cons]; omega
  constructor
  · intro e t hst he
    cases hst with
    | feed => simp at he
    | spawn => simp at he
    | drop => simp at he
    | call hp =>
      unfold Obj.enter
      simp only
      split_ifs
      · simp only [work]; omega
      · simp only [work]; omega
      · refine lt_of_le_of_lt (lh _ _) ?_
        simp only [work]; omega
    | effect x l r f hin =>
      have e1 : ∀ u : Obj α, u.queue.length ≤ s.queue.length → u.scheduled = s.scheduled → u.inside = l ++ .worked :: r → work u < work s := by
        intro u h1 h2 h3
        simp only [work, h2, h3, hin, List.map_append, List.map_cons, List.sum_append, List.sum_cons]
        omega
      apply e1
      · cases f <;> simp [Obj.apply]
        split_ifs <;> simp
      · cases f <;> simp [Obj.apply]
        split_ifs <;> simp
      · cases f <;> simp [Obj.apply]
        split_ifs <;> simp
    | loop l r hin =>
      refine lt_of_le_of_lt (lh _ _) ?_
      simp only [work, hin, List.map_append, List.map_cons, List.sum_append, List.sum_cons]
      omega
  · intro hw
    rcases hin : s.inside with _ | ⟨w, ws⟩
    · have hp : 0 < s.scheduled := by simpa [hin] using hw
      exact ⟨_, _, .call s hp, Or.inl rfl⟩
    · cases w with
      | working x => exact ⟨_, _, .effect s x [] ws .nothing (by simpa using hin), Or.inr (Or.inl ⟨_, rfl⟩)⟩
      | worked => exact ⟨_, _, .loop s [] ws (by simpa using hin), Or.inr (Or.inr rfl)⟩

/-- **C37 (rejection).** Probes of another prime field, or for a finished object, change nothing. -/
theorem C37_reject (zero : α → Bool) (scan : Bool) (s : Obj α) (xs : List α) (p : ℕ) (h : s.done = true ∨ p ≠ s.prime) :
    s.feed zero scan xs p = (s, false) := by
  unfold Obj.feed
  rw [if_neg]
  rcases h with h | h <;> simp [h]

/-- a state with one probe being processed and one waiting is reachable; then both are processed -/
example : ∃ s : Obj ℕ, Reach (fun x => x == 0) false s ∧ s.queue = [7] ∧ s.inside.length = 1 ∧ s.popped = [(0, 5)] ∧ s.scheduled = 0 :=
  ⟨_, .step (.step (.step .init (.feed _ [5] 0 (by simp))) (.call _ (by decide))) (.feed _ [7] 0 (by simp)), rfl, rfl, rfl, rfl⟩
example : ∃ s : Obj ℕ, Reach (fun x => x == 0) false s ∧ s.popped = [(0, 5), (0, 7)] ∧ s.scheduled = 0 ∧ s.inside = [] ∧ s.done = false ∧ s.prime = 0 :=
  ⟨_, .step (.step (.step (.step (.step (.step (.step .init (.feed _ [5] 0 (by simp))) (.call _ (by decide))) (.feed _ [7] 0 (by simp)))
    (.effect _ 5 [] [] .nothing rfl)) (.loop _ [] [] rfl)) (.effect _ 7 [] [] .nothing rfl)) (.loop _ [] [] rfl), rfl, rfl, rfl, rfl, rfl⟩

/-- **C37 fails for an empty bunch.** Feeding an empty bunch to an idle object schedules a call that returns without doing anything and
leaves the object blocked: later probes are accepted, but no call is scheduled for them. -/
theorem C37_empty_bunch_violated : ∃ s : Obj ℕ, Reach (fun x => x == 0) false s ∧ s.scheduled = 0 ∧ s.inside = [] ∧
    (s.feed (fun x => x == 0) false [] s.prime).2 = true ∧
    (((s.feed (fun x => x == 0) false [] s.prime).1.enter).feed (fun x => x == 0) false [7] s.prime).2 = false ∧
    (((s.feed (fun x => x == 0) false [] s.prime).1.enter).feed (fun x => x == 0) false [7] s.prime).1.queue = [7] ∧
    (((s.feed (fun x => x == 0) false [] s.prime).1.enter).feed (fun x => x == 0) false [7] s.prime).1.isInterp = false :=
  ⟨_, .step (.step (.step (.step .init (.feed _ [5] 0 (by simp))) (.call _ (by decide))) (.effect _ 5 [] [] .nothing rfl)) (.loop _ [] [] rfl),
    rfl, rfl, rfl, rfl, rfl, rfl⟩

end FireFly.RatQueue
