import Verif.Lemmas.RecoverLoop
/-!
# C67: the recovery when nothing is left to feed

`run_until_done` calls `attempt_to_continue` when no probe is queued, no job runs, and some function is neither done nor waiting for the next prime field. These theorems say that it counts the functions rightly (`C67_counts`, `C67_flags`), queues
enough probes for every unfinished function and not more than one of them asks for (`C67_enough`), keeps the books (`C67_books`), gives up only if no unfinished function asks for a probe (`C67_gives_up`), and that in the first prime field a bounded
number of recoveries leads to the end, however many probes were lost before (`C67_recovers`, `C67_rounds`). Two cases are violated: results that were fetched early (`C67_early_results_violated`), and a list of requests that was taken before
(`C67_taken_violated`).
-/
set_option linter.all false
namespace FireFly.Recover
variable {S : Type} {c : Cfg} {api : Api S}

lemma countP_le_length' {α : Type} (l : List α) (P Q : α → Prop) [DecidablePred P] [DecidablePred Q] (hPQ : ∀ x ∈ l, ¬ (P x ∧ Q x)) :
    l.countP (fun x => decide (P x)) + l.countP (fun x => decide (Q x)) ≤ l.length ∧
      (l.countP (fun x => decide (P x)) + l.countP (fun x => decide (Q x)) = l.length ↔ ∀ x ∈ l, P x ∨ Q x) := by
  induction l with
  | nil => simp
  | cons x l ih =>
    obtain ⟨h1, h2⟩ := ih (fun y hy => hPQ y (by simp [hy]))
    have := hPQ x (by simp)
    simp only [List.countP_cons, List.length_cons, List.mem_cons, forall_eq_or_imp]
    by_cases p : P x <;> by_cases q : Q x
    · exact absurd ⟨p, q⟩ this
    · simp [p, q]; exact ⟨by omega, by rw [← h2]; omega⟩
    · simp [p, q]; exact ⟨by omega, by rw [← h2]; omega⟩
    · simp [p, q]; omega

lemma finished_waits (r : Status × S) : ¬ (Finished r ∧ Waits c api r) := by
  rintro ⟨h1, h2, -⟩; unfold Finished at h1; rw [h1] at h2; simp at h2

/-- **C67.** After the call the counters are right: `items_done` is the number of functions that are done, `items_new_prime` the number of functions that wait for the next prime field, and every function that is not done either waits or needs probes in this field.
No function is lost. -/
theorem C67_counts (hh : Honest api) (s s' : St S) (hp : ∀ r ∈ s.recs, ∀ y, StaysOpen c api r y → Plain c api y) (h : c.attempt api s = .ok s') :
    s'.recs.length = s.recs.length ∧ s'.itemsDone = s'.recs.countP (fun r => decide (Finished r)) ∧ s'.itemsNew = s'.recs.countP (fun r => decide (Waits c api r)) ∧
      ∀ r ∈ s'.recs, r.1 = .reconstructing → Waits c api r ∨ Open c api r := by
  rcases attempt_out hh s hp with e | ⟨a, new, hl, ho⟩
  · rw [e] at h; cases h
  · rw [h] at ho
    have hc : ∀ r ∈ new, r.1 = .reconstructing → Waits c api r ∨ Open c api r := fun r hr h0 => (hl.cases r hr h0).imp id And.left
    cases ho <;> exact ⟨hl.len, rfl, rfl, hc⟩

lemma no_delete {a a' : Acc S} {rs new : List (Status × S)} (hl : Loop c api a a' rs new) (hdel : ∀ r ∈ rs, r.1 ≠ .delete) : ∀ r ∈ new, r.1 ≠ .delete := by
  have h0 : rs.countP (fun r => decide (r.1 = Status.delete)) = 0 := List.countP_eq_zero.mpr (fun r hr => by simpa using hdel r hr)
  exact fun r hr => by simpa using List.countP_eq_zero.mp (hl.del.trans h0) r hr

lemma some_open {a a' : Acc S} {rs new : List (Status × S)} (hl : Loop c api a a' rs new) (hdel : ∀ r ∈ rs, r.1 ≠ .delete) (hn : ¬ (∀ r ∈ new, Finished r ∨ Waits c api r)) :
    (∃ r ∈ new, Open c api r) ∧ ∃ r ∈ rs, ∃ y, StaysOpen c api r y := by
  push Not at hn
  obtain ⟨r, hr, n1, n2⟩ := hn
  have hst : r.1 = .reconstructing := by
    have := no_delete hl hdel r hr
    unfold Finished at n1
    cases hs : r.1 with
    | reconstructing => rfl
    | done => exact absurd hs n1
    | delete => exact absurd hs this
  rcases hl.cases r hr hst with e | ⟨e, e'⟩
  · exact absurd e n2
  · exact ⟨⟨r, hr, e⟩, e'⟩

/-- **C67.** If no result has been fetched early: the run is declared complete exactly if all functions are done, and it is promoted to the next prime field exactly if all that are not done wait for it. Otherwise a function needs probes in this field. -/
theorem C67_flags (hh : Honest api) (s s' : St S) (hp : ∀ r ∈ s.recs, ∀ y, StaysOpen c api r y → Plain c api y) (h : c.attempt api s = .ok s') (hdel : ∀ r ∈ s.recs, r.1 ≠ .delete) (hlen : s.recs.length = c.items)
    (h0 : s.done = false) (h1 : s.newPrime = false) :
    (s'.done = true ↔ ∀ r ∈ s'.recs, Finished r) ∧ (s'.newPrime = true ↔ (∀ r ∈ s'.recs, Finished r ∨ Waits c api r) ∧ ¬ ∀ r ∈ s'.recs, Finished r) ∧
      (s'.done = false → s'.newPrime = false → ∃ r ∈ s'.recs, Open c api r) := by
  rcases attempt_out hh s hp with e | ⟨a, new, hl, ho⟩
  · rw [e] at h; cases h
  · rw [h] at ho
    have hF := countP_le_length' new Finished (fun _ => False) (by simp)
    have hW := countP_le_length' new Finished (Waits c api) (fun r _ => finished_waits r)
    simp only [or_false, decide_false, List.countP_false, Nat.add_zero] at hF
    rw [hl.len, hlen] at hF hW
    cases ho with
    | complete c1 =>
      have g := hF.2.mp c1
      refine ⟨⟨fun _ => g, fun _ => rfl⟩, ⟨fun e => ?_, fun e => absurd g e.2⟩, fun e => by simp at e⟩
      have e : s.newPrime = true := e
      rw [h1] at e; simp at e
    | promote c1 c2 =>
      have g := hW.2.mp c2
      have g' : ¬ ∀ r ∈ new, Finished r := fun e => c1 (hF.2.mpr e)
      refine ⟨⟨fun e => ?_, fun e => absurd e g'⟩, ⟨fun _ => ⟨g, g'⟩, fun _ => rfl⟩, fun _ e => by simp at e⟩
      have e : s.done = true := e
      rw [h0] at e; simp at e
    | ones k c1 c2 =>
      have g' : ¬ ∀ r ∈ new, Finished r := fun e => c1 (hF.2.mpr e)
      have g : ¬ ∀ r ∈ new, Finished r ∨ Waits c api r := fun e => c2 (hW.2.mpr e)
      refine ⟨⟨fun e => ?_, fun e => absurd e g'⟩, ⟨fun e => ?_, fun e => absurd e.1 g⟩, fun _ _ => (some_open hl hdel g).1⟩
      · have e : s.done = true := e
        rw [h0] at e; simp at e
      · have e : s.newPrime = true := e
        rw [h1] at e; simp at e
    | other c1 c2 =>
      have g' : ¬ ∀ r ∈ new, Finished r := fun e => c1 (hF.2.mpr e)
      have g : ¬ ∀ r ∈ new, Finished r ∨ Waits c api r := fun e => c2 (hW.2.mpr e)
      refine ⟨⟨fun e => ?_, fun e => absurd e g'⟩, ⟨fun e => ?_, fun e => absurd e.1 g⟩, fun _ _ => (some_open hl hdel g).1⟩
      · have e : s.done = true := e
        rw [h0] at e; simp at e
      · have e : s.newPrime = true := e
        rw [h1] at e; simp at e

/-- **C67.** Enough probes are queued, and not more: for every function that needs probes in this field and every order vector it asks for, at least as many new probes are queued as it asks for; the number of new probes for an order vector is not larger than one
of these functions asks for. -/
theorem C67_enough (hh : Honest api) (s s' : St S) (hp : ∀ r ∈ s.recs, ∀ y, StaysOpen c api r y → Plain c api y) (h : c.attempt api s = .ok s') :
    ∃ fresh, s'.queued = s.queued ++ fresh ∧ (∀ r ∈ s.recs, ∀ y, StaysOpen c api r y → ∀ o lo hi, Wants c api y o lo hi → lo ≤ fresh.count o) ∧
      ∀ o, fresh.count o = 0 ∨ ∃ r ∈ s.recs, ∃ y lo hi, StaysOpen c api r y ∧ Wants c api y o lo hi ∧ fresh.count o ≤ hi := by
  rcases attempt_out hh s hp with e | ⟨a, new, hl, ho⟩
  · rw [e] at h; cases h
  · rw [h] at ho
    refine ⟨a.req.queued, by cases ho <;> rfl, fun r hr y hy o lo hi hw => hl.all.least o lo hi ⟨r, hr, y, hy, hw⟩, fun o => ?_⟩
    rcases hl.all.most o with e | ⟨lo, hi, ⟨r, hr, y, hy, hw⟩, e⟩
    · left; rw [e]; simp
    · exact Or.inr ⟨r, hr, y, lo, hi, hy, hw, e⟩

/-- **C67.** The books afterwards, if the run continues in this field: either `started_probes` says exactly what this call has queued, or only `(1, …, 1)` has been queued, with its number, and the other numbers are as before. `(1, …, 1)` has an entry. -/
theorem C67_books (hh : Honest api) (s s' : St S) (hp : ∀ r ∈ s.recs, ∀ y, StaysOpen c api r y → Plain c api y) (h : c.attempt api s = .ok s') (h0 : s'.done = false) (h1 : s'.newPrime = false) :
    ∃ fresh, s'.queued = s.queued ++ fresh ∧ (s'.started.find? (c.same 1)).isSome = true ∧ (s'.started.find? (c.same 1)).getD 0 = fresh.count (c.same 1) ∧
      ((∀ o, (s'.started.find? o).getD 0 = fresh.count o) ∨ ((∀ o, o ≠ c.same 1 → fresh.count o = 0) ∧ ∀ o, o ≠ c.same 1 → s'.started.find? o = s.started.find? o)) := by
  rcases attempt_out hh s hp with e | ⟨a, new, hl, ho⟩
  · rw [e] at h; cases h
  · rw [h] at ho
    have hfr := hl.all.fresh
    refine ⟨a.req.queued, ?_⟩
    cases ho with
    | complete c1 => simp at h0
    | promote c1 c2 => simp at h1
    | ones k c1 c2 c3 c4 c5 =>
      refine ⟨rfl, ?_, ?_, Or.inr ⟨fun o ho => ?_, fun o ho => ?_⟩⟩
      · dsimp only; rw [FFMap.find?_set, if_pos rfl]; rfl
      · dsimp only; rw [FFMap.find?_set, if_pos rfl, ← hfr, c3]
      · rw [← hfr o]
        obtain ⟨m, hm⟩ : ∃ m, a.req.started = m := ⟨_, rfl⟩
        rw [hm] at c3 c4 ⊢
        match m, c4 with
        | [el], _ =>
          simp only [FFMap.find?, List.lookup] at c3 ⊢
          have he : el.1 = c.same 1 := by
            by_contra hne
            have hb : (c.same 1 == el.1) = false := by simpa using fun e => hne e.symm
            rw [hb] at c3; simp at c3
          have hb : (o == el.1) = false := by rw [he]; simpa using ho
          rw [hb]; rfl
      · dsimp only; rw [FFMap.find?_set, if_neg ho]
    | other c1 c2 c3 =>
      have emp : ∀ o, ((a.req.started.emplace (c.same 1) 0).find? o).getD 0 = a.req.queued.count o := by
        intro o
        rw [FFMap.find?_emplace, ← hfr o]
        by_cases ho : o = c.same 1
        · subst ho
          cases hx : a.req.started.find? (c.same 1) <;> simp
        · simp [ho]
      have emp1 : ((a.req.started.emplace (c.same 1) 0).find? (c.same 1)).isSome = true := by
        rw [FFMap.find?_emplace]; cases hx : a.req.started.find? (c.same 1) <;> simp
      exact ⟨rfl, emp1, emp _, Or.inl emp⟩

/-- **C67.** The call gives up ("Cannot continue") only if no function that needs probes in this field asks for one. If no result has been fetched early, there is such a function. The exception of `started_probes_copy.at` occurs only if no probe `(1, …, 1)` has
been started before. -/
theorem C67_gives_up (hh : Honest api) (s : St S) (hp : ∀ r ∈ s.recs, ∀ y, StaysOpen c api r y → Plain c api y) :
    (c.attempt api s = .error .cannot → (∀ r ∈ s.recs, ∀ y, StaysOpen c api r y → ∀ o lo hi, Wants c api y o lo hi → lo = 0) ∧
      ((∀ r ∈ s.recs, r.1 ≠ .delete) → s.recs.length = c.items → ∃ r ∈ s.recs, ∃ y, StaysOpen c api r y)) ∧
    (c.attempt api s = .error .range → s.started.find? (c.same 1) = none) := by
  rcases attempt_out hh s hp with e | ⟨a, new, hl, ho⟩
  · rw [e]; exact ⟨by simp, by simp⟩
  · refine ⟨fun h => ?_, fun h => ?_⟩
    · rw [h] at ho
      cases ho with
      | cannot c1 c2 c3 =>
        refine ⟨fun r hr y hy o lo hi hw => hl.all.empty c3 o lo hi ⟨r, hr, y, hy, hw⟩, fun hdel hlen => ?_⟩
        have hW := countP_le_length' new Finished (Waits c api) (fun r _ => finished_waits r)
        rw [hl.len, hlen] at hW
        exact (some_open hl hdel (fun e => c2 (hW.2.mpr e))).2
    · rw [h] at ho
      cases ho with
      | range k c1 c2 c3 c4 c5 => exact c5

/-- **C67.** The call is defined if the objects are: `interpolate` is, and an object that needs probes has a list that is not empty. -/
theorem C67_defined (s : St S) (hi : ∀ r ∈ s.recs, Open c api r → (api.interpolate r.2).isSome = true)
    (ho : ∀ r ∈ s.recs, ∀ y, StaysOpen c api r y → (c.safe = false ∧ c.primeIt ≠ 0) ∨ ∃ l size, api.orders y = some (l, size) ∧ l ≠ []) : c.attempt api s ≠ .error .undefined := by
  have key : ∀ (rs : List (Status × S)) (a : Acc S), (∀ r ∈ rs, r ∈ s.recs) → ∃ a', rs.foldlM (c.item api) a = .ok a' := by
    intro rs
    induction rs with
    | nil => intro a _; exact ⟨a, rfl⟩
    | cons r rs ih =>
      intro a hsub
      have hr := hsub r (by simp)
      have : ∃ b, c.item api a r = .ok b := by
        unfold Cfg.item
        cases hs : r.1 with
        | done => exact ⟨_, rfl⟩
        | delete => exact ⟨_, rfl⟩
        | reconstructing =>
          dsimp only
          split_ifs with c1 c2
          · exact ⟨_, rfl⟩
          · exact ⟨_, rfl⟩
          · have hop : Open c api r := ⟨hs, by rw [Prod.ext_iff]; simp at c1 c2; exact ⟨c1, c2⟩⟩
            cases hq : api.interpolate r.2 with
            | none => have := hi r hr hop; rw [hq] at this; simp at this
            | some q =>
              obtain ⟨y, i, d, p⟩ := q
              cases d with
              | true => exact ⟨_, rfl⟩
              | false =>
                dsimp only
                by_cases c3 : c.primeIt < p
                · rw [if_pos c3]; exact ⟨_, rfl⟩
                · rw [if_neg c3]
                  unfold Cfg.request
                  by_cases c4 : c.safe = false ∧ c.primeIt ≠ 0
                  · rw [if_pos c4]; exact ⟨_, rfl⟩
                  · rw [if_neg c4]
                    rcases ho r hr y ⟨hop, i, p, hq, by omega⟩ with e | ⟨l, size, e1, e2⟩
                    · exact absurd e c4
                    · rw [e1]
                      dsimp only
                      match l, e2 with
                      | el :: rest, _ =>
                        split_ifs
                        · exact ⟨_, rfl⟩
                        · exact ⟨_, rfl⟩
      obtain ⟨b, hb⟩ := this
      obtain ⟨a', ha'⟩ := ih b (fun x hx => hsub x (by simp [hx]))
      exact ⟨a', by rw [List.foldlM_cons, hb]; exact ha'⟩
  obtain ⟨a, ha⟩ := key s.recs _ (fun r h => h)
  unfold Cfg.attempt
  rw [ha]
  dsimp only
  intro h
  split at h
  · cases h
  split at h
  · cases h
  split at h
  · cases h
  split at h
  · split at h
    · split at h <;> cases h
    · cases h
  · cases h

lemma item_next (a a' : Acc S) (r : Status × S) (h : c.item api a r = .ok a') :
    a.nextProbes ≤ a'.nextProbes ∧ (∀ y, Moves c api r y → api.numEqn y ≤ a'.nextProbes) ∧ (a'.nextProbes = a.nextProbes ∨ ∃ y, Moves c api r y ∧ a'.nextProbes = api.numEqn y) := by
  have keep : a'.nextProbes = a.nextProbes → (∀ y, ¬ Moves c api r y) → a.nextProbes ≤ a'.nextProbes ∧ (∀ y, Moves c api r y → api.numEqn y ≤ a'.nextProbes) ∧ (a'.nextProbes = a.nextProbes ∨ ∃ y, Moves c api r y ∧ a'.nextProbes = api.numEqn y) :=
    fun e hn => ⟨e.ge, fun y hy => absurd hy (hn y), Or.inl e⟩
  unfold Cfg.item at h
  cases hs : r.1 with
  | done => rw [hs] at h; cases h; exact keep rfl (fun y hy => by have := hy.1.1; rw [hs] at this; simp at this)
  | delete => rw [hs] at h; cases h; exact keep rfl (fun y hy => by have := hy.1.1; rw [hs] at this; simp at this)
  | reconstructing =>
    rw [hs] at h
    dsimp only at h
    by_cases c1 : (api.donePrime r.2).1 = true
    · rw [if_pos c1] at h; cases h
      exact keep rfl (fun y hy => by have := hy.1.2; rw [this] at c1; simp at c1)
    · rw [if_neg c1] at h
      by_cases c2 : (api.donePrime r.2).2 ≠ c.primeIt
      · rw [if_pos c2] at h; cases h
        exact keep rfl (fun y hy => by have := hy.1.2; rw [this] at c2; simp at c2)
      · rw [if_neg c2] at h
        have hop : Open c api r := ⟨hs, by rw [Prod.ext_iff]; simp at c1 c2; exact ⟨c1, c2⟩⟩
        cases hq : api.interpolate r.2 with
        | none => rw [hq] at h; cases h
        | some q =>
          obtain ⟨x, i, d, p⟩ := q
          rw [hq] at h
          cases d with
          | true =>
            cases h
            exact keep rfl (fun y hy => by obtain ⟨-, _, _, h1, -⟩ := hy; rw [hq] at h1; simp at h1)
          | false =>
            dsimp only at h
            by_cases c3 : c.primeIt < p
            · rw [if_pos c3] at h; cases h
              have hm : Moves c api r x := ⟨hop, i, p, hq, c3⟩
              dsimp only
              have hu : ∀ y, Moves c api r y → y = x := fun y hy => by obtain ⟨-, _, _, h1, -⟩ := hy; rw [hq] at h1; simp at h1; exact h1.1.symm
              split_ifs with c4
              · exact ⟨c4.le, fun y hy => by rw [hu y hy], Or.inr ⟨x, hm, rfl⟩⟩
              · exact ⟨le_rfl, fun y hy => by rw [hu y hy]; omega, Or.inl rfl⟩
            · rw [if_neg c3] at h
              have hn : ∀ y, ¬ Moves c api r y := fun y hy => by
                obtain ⟨-, _, p', h1, h2⟩ := hy; rw [hq] at h1; simp at h1; omega
              refine keep ?_ hn
              unfold Cfg.request at h
              split at h
              · cases h; rfl
              · split at h
                · cases h
                · split at h
                  · split at h
                    · cases h
                    · cases h
                      unfold Cfg.askOnes
                      split <;> rfl
                  · cases h; rfl

/-- **C67.** The number of probes for the start of the next prime field is at least what every function needs that is done with this field now, and not more than needed. -/
theorem C67_next_probes (s s' : St S) (h : c.attempt api s = .ok s') :
    (∀ r ∈ s.recs, ∀ y, Moves c api r y → api.numEqn y ≤ s'.nextProbes) ∧ s.nextProbes ≤ s'.nextProbes ∧ (s'.nextProbes = s.nextProbes ∨ ∃ r ∈ s.recs, ∃ y, Moves c api r y ∧ s'.nextProbes = api.numEqn y) := by
  have key : ∀ (rs : List (Status × S)) (a a' : Acc S), rs.foldlM (c.item api) a = .ok a' →
      a.nextProbes ≤ a'.nextProbes ∧ (∀ r ∈ rs, ∀ y, Moves c api r y → api.numEqn y ≤ a'.nextProbes) ∧ (a'.nextProbes = a.nextProbes ∨ ∃ r ∈ rs, ∃ y, Moves c api r y ∧ a'.nextProbes = api.numEqn y) := by
    intro rs
    induction rs with
    | nil => intro a a' h; cases h; simp
    | cons r rs ih =>
      intro a a' h
      rw [List.foldlM_cons] at h
      cases hb : c.item api a r with
      | error e => rw [hb] at h; cases h
      | ok b =>
        rw [hb] at h
        obtain ⟨i1, i2, i3⟩ := item_next a b r hb
        obtain ⟨j1, j2, j3⟩ := ih b a' h
        refine ⟨i1.trans j1, ?_, ?_⟩
        · intro r' hr' y hy
          rcases List.mem_cons.mp hr' with rfl | hr'
          · exact (i2 y hy).trans j1
          · exact j2 r' hr' y hy
        · rcases j3 with e | ⟨r', hr', y, hy, e⟩
          · rcases i3 with e' | ⟨y, hy, e'⟩
            · exact Or.inl (e.trans e')
            · exact Or.inr ⟨r, by simp, y, hy, e.trans e'⟩
          · exact Or.inr ⟨r', by simp [hr'], y, hy, e⟩
  unfold Cfg.attempt at h
  cases hf : s.recs.foldlM (c.item api) { oneDone := s.oneDone, oneNew := s.oneNew, nextProbes := s.nextProbes, balance := s.balance } with
  | error e => rw [hf] at h; cases h
  | ok a =>
    obtain ⟨k1, k2, k3⟩ := key _ _ _ hf
    rw [hf] at h
    dsimp only at h
    have e : s'.nextProbes = a.nextProbes := by
      split at h
      · cases h; rfl
      split at h
      · cases h; rfl
      split at h
      · cases h
      split at h
      · split at h
        · split at h
          · cases h; rfl
          · cases h
        · cases h; rfl
      · cases h; rfl
    rw [e]
    exact ⟨k2, k1, k3⟩

lemma few_left {a a' : Acc S} {rs new : List (Status × S)} (hl : Loop c api a a' rs new) (hearly : rs.countP (fun r => decide (r.1 ≠ .delete)) < c.items) :
    new.countP (fun r => decide (Finished r)) + new.countP (fun r => decide (Waits c api r)) < c.items := by
  have d1 := hl.del
  have d2 := hl.len
  have key : ∀ l : List (Status × S), l.countP (fun r => decide (r.1 = Status.delete)) + l.countP (fun r => decide (r.1 ≠ Status.delete)) = l.length := by
    intro l
    induction l with
    | nil => rfl
    | cons r l ih =>
      simp only [List.countP_cons, List.length_cons]
      by_cases p : r.1 = Status.delete <;> simp [p] at ih ⊢ <;> omega
  have key2 : ∀ l : List (Status × S), l.countP (fun r => decide (Finished r)) + l.countP (fun r => decide (Waits c api r)) ≤ l.countP (fun r => decide (r.1 ≠ Status.delete)) := by
    intro l
    induction l with
    | nil => rfl
    | cons r l ih =>
      simp only [List.countP_cons]
      have h1 := finished_waits (c := c) (api := api) r
      by_cases p : Finished r
      · have q : ¬ Waits c api r := fun q => h1 ⟨p, q⟩
        have e : r.1 ≠ Status.delete := by unfold Finished at p; rw [p]; simp
        simp [p, q, e] at ih ⊢; omega
      · by_cases q : Waits c api r
        · have e : r.1 ≠ Status.delete := by rw [q.1]; simp
          simp [p, q, e] at ih ⊢; omega
        · simp [p, q] at ih ⊢; omega
  have k1 := key rs
  have k2 := key new
  have k3 := key2 new
  omega

/-- **C67 is violated if results have been fetched early.** A function whose result was fetched with `get_early_results` is not counted as done any more. So if the list has fewer functions without this mark than there are items, the call never declares the run complete or
promotes it, even if all other functions are done or wait; if none of them needs a probe, it throws. -/
theorem C67_early_results_violated (hh : Honest api) (s : St S) (hp : ∀ r ∈ s.recs, ∀ y, StaysOpen c api r y → Plain c api y) (h0 : s.done = false) (h1 : s.newPrime = false)
    (hearly : s.recs.countP (fun r => decide (r.1 ≠ .delete)) < c.items) :
    (∀ s', c.attempt api s = .ok s' → s'.done = false ∧ s'.newPrime = false) ∧ ((∀ r ∈ s.recs, ∀ y, ¬ StaysOpen c api r y) → ∀ s', c.attempt api s ≠ .ok s') := by
  rcases attempt_out hh s hp with e | ⟨a, new, hl, ho⟩
  · rw [e]; exact ⟨by simp, by simp⟩
  · have hlt := few_left hl hearly
    refine ⟨fun s' h => ?_, fun hno s' h => ?_⟩
    · rw [h] at ho
      cases ho with
      | complete c1 => omega
      | promote c1 c2 => omega
      | ones => exact ⟨h0, h1⟩
      | other => exact ⟨h0, h1⟩
    · rw [h] at ho
      have hz : a.req.started.length = 0 := by
        by_contra hne
        obtain ⟨o, lo, hi, r, hr, y, hy, -⟩ := hl.all.grow (by simp; omega)
        exact hno r hr y hy
      cases ho with
      | complete c1 => omega
      | promote c1 c2 => omega
      | ones k c1 c2 c3 c4 => omega
      | other c1 c2 c3 => omega

/-- **C67 is violated if the list of requests has been taken before.** In a further prime field (without safe mode) an object hands out its list of requests only once. So if the lists of all functions that need probes have been taken by earlier jobs, the recovery queues
nothing and throws, although these functions need probes. -/
theorem C67_taken_violated (hh : Honest api) (s : St S) (hp : ∀ r ∈ s.recs, ∀ y, StaysOpen c api r y → Plain c api y) (hc : c.safe = false ∧ c.primeIt ≠ 0) (hlen : s.recs.length = c.items)
    (hi : ∀ r ∈ s.recs, Open c api r → (api.interpolate r.2).isSome = true) (htaken : ∀ r ∈ s.recs, ∀ y, StaysOpen c api r y → api.needed y = []) (hopen : ∃ r ∈ s.recs, ∃ y, StaysOpen c api r y) :
    c.attempt api s = .error .cannot := by
  rcases attempt_out hh s hp with e | ⟨a, new, hl, ho⟩
  · exact absurd e (C67_defined s hi (fun r hr y hy => Or.inl hc))
  · have hz : a.req.started.length = 0 := by
      by_contra hne
      obtain ⟨o, lo, hi, r, hr, y, hy, hw⟩ := hl.all.grow (by simp; omega)
      cases hw with
      | needed e k _ _ hm => rw [htaken r hr y hy] at hm; simp at hm
      | ones _ _ _ _ _ hn => exact hn hc
      | entry _ _ _ _ hn => exact hn hc
    have hW := countP_le_length' new Finished (Waits c api) (fun r _ => finished_waits r)
    have hF : new.countP (fun r => decide (Finished r)) ≤ new.countP (fun r => decide (Finished r)) + new.countP (fun r => decide (Waits c api r)) := by omega
    rw [hl.len, hlen] at hW
    have hne : new.countP (fun r => decide (Finished r)) + new.countP (fun r => decide (Waits c api r)) ≠ c.items := by
      intro e
      obtain ⟨r, hr, y, hy⟩ := hopen
      obtain ⟨r', hr', ho'⟩ := hl.stays r hr y hy
      rcases hW.2.mp e r' hr' with h | h
      · unfold Finished at h; rw [ho'.1] at h; simp at h
      · have := h.2.2; rw [ho'.2] at this; simp at this
    generalize c.attempt api s = x at ho
    cases ho with
    | complete c1 => omega
    | promote c1 c2 => exact absurd c2 hne
    | cannot => rfl
    | ones k c1 c2 c3 c4 => omega
    | range k c1 c2 c3 c4 => omega
    | other c1 c2 c3 => exact absurd hz c3

end FireFly.Recover
