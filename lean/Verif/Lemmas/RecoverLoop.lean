import Verif.Lemmas.Recover
/-! # `attempt_to_continue`: the loop over the functions -/
set_option linter.all false
namespace FireFly.Recover
variable {S : Type} {c : Cfg} {api : Api S}

/-- what becomes of a function -/
structure Step1 (c : Cfg) (api : Api S) (a a' : Acc S) (r r' : Status × S) : Prop where
  recs : a'.recs = a.recs ++ [r']
  done : a'.done1 + a'.done2 = a.done1 + a.done2 + if Finished r' then 1 else 0
  news : a'.new1 + a'.new2 = a.new1 + a.new2 + if Waits c api r' then 1 else 0
  del : r'.1 = .delete ↔ r.1 = .delete
  cases : r'.1 = .reconstructing → (Waits c api r' ∨ (Open c api r' ∧ ∃ y, StaysOpen c api r y))
  stays : ∀ y, StaysOpen c api r y → Open c api r'
  all : All a.req a'.req (fun o lo hi => ∃ y, StaysOpen c api r y ∧ Wants c api y o lo hi)
  thr : Thr c a'.req
  oneD : a'.oneDone = (a.oneDone || decide (Finished r'))
  oneN : a'.oneNew = (a.oneNew || decide (Waits c api r'))
  fin : Finished r' → r.1 = .done ∨ (api.donePrime r.2).1 = true ∨ ∃ y i p, api.interpolate r.2 = some (y, i, true, p)

lemma item_step (hh : Honest api) {a a' : Acc S} {r : Status × S} (h : c.item api a r = .ok a') (hf : Fresh a.req) (ht : Thr c a.req) (hp : ∀ y, StaysOpen c api r y → Plain c api y) :
    ∃ r', Step1 c api a a' r r' := by
  obtain ⟨st, x⟩ := r
  have triv : ∀ {b : Acc S}, b.req = a.req → (∀ y, ¬ StaysOpen c api (st, x) y) → All a.req b.req (fun o lo hi => ∃ y, StaysOpen c api (st, x) y ∧ Wants c api y o lo hi) := by
    intro b hb hn
    rw [hb]
    exact All.refl hf (by rintro o lo hi ⟨y, hy, -⟩; exact hn y hy)
  unfold Cfg.item at h
  dsimp only at h
  cases st with
  | done =>
    injection h with h
    subst h
    have hn : ∀ y, ¬ StaysOpen c api (.done, x) y := by rintro y ⟨⟨h1, -⟩, -⟩; simp at h1
    exact ⟨(.done, x), rfl, by simp [Finished]; omega, by simp [Waits], Iff.rfl, by simp, fun y hy => absurd hy (hn y), triv rfl hn, ht, by simp [Finished], by simp [Waits], fun _ => Or.inl rfl⟩
  | delete =>
    injection h with h
    subst h
    have hn : ∀ y, ¬ StaysOpen c api (.delete, x) y := by rintro y ⟨⟨h1, -⟩, -⟩; simp at h1
    exact ⟨(.delete, x), rfl, by simp [Finished], by simp [Waits], Iff.rfl, by simp, fun y hy => absurd hy (hn y), triv rfl hn, ht, by simp [Finished], by simp [Waits], by simp [Finished]⟩
  | reconstructing =>
    dsimp only at h
    obtain ⟨⟨d, p0⟩, hdp⟩ : ∃ q, api.donePrime x = q := ⟨_, rfl⟩
    rw [hdp] at h
    cases d with
    | true =>
      simp only [if_true] at h
      injection h with h
      subst h
      have hn : ∀ y, ¬ StaysOpen c api (.reconstructing, x) y := by rintro y ⟨⟨-, h1⟩, -⟩; rw [hdp] at h1; simp at h1
      exact ⟨(.done, x), rfl, by simp [Finished]; omega, by simp [Waits], by simp, by simp, fun y hy => absurd hy (hn y), triv rfl hn, ht, by simp [Finished], by simp [Waits], fun _ => Or.inr (Or.inl (by rw [hdp]))⟩
    | false =>
      simp only [Bool.false_eq_true, if_false] at h
      by_cases hp0 : p0 = c.primeIt
      · rw [if_neg (by simpa using hp0)] at h
        cases hi : api.interpolate x with
        | none => rw [hi] at h; simp at h
        | some q =>
          obtain ⟨y, i, d, p⟩ := q
          rw [hi] at h
          obtain ⟨e1, e2⟩ := hh.ret x y i d p hi
          have ho : Open c api (.reconstructing, x) := ⟨rfl, by rw [hdp, hp0]⟩
          cases d with
          | true =>
            injection h with h
            subst h
            have hn : ∀ y, ¬ StaysOpen c api (.reconstructing, x) y := by rintro y ⟨-, j, p', h1, -⟩; dsimp only at h1; rw [hi] at h1; simp at h1
            exact ⟨(.done, y), rfl, by simp [Finished]; omega, by simp [Waits], by simp, by simp, fun y hy => absurd hy (hn y), triv rfl hn, ht, by simp [Finished], by simp [Waits], fun _ => Or.inr (Or.inr ⟨y, i, p, hi⟩)⟩
          | false =>
            dsimp only at h
            by_cases hlt : c.primeIt < p
            · rw [if_pos hlt] at h
              injection h with h
              subst h
              have hn : ∀ y, ¬ StaysOpen c api (.reconstructing, x) y := by
                rintro y ⟨-, j, p', h1, h2⟩; dsimp only at h1; rw [hi] at h1
                simp only [Option.some.injEq, Prod.mk.injEq] at h1
                obtain ⟨-, -, -, rfl⟩ := h1
                omega
              have hw : Waits c api (.reconstructing, y) := ⟨rfl, by rw [e1], by rw [e1]; simp; omega⟩
              exact ⟨(.reconstructing, y), rfl, by simp [Finished], by rw [if_pos hw]; dsimp only; omega, by simp, fun _ => Or.inl hw, fun y hy => absurd hy (hn y), triv rfl hn, ht, by simp [Finished], by simp [hw], by simp [Finished]⟩
            · rw [if_neg hlt] at h
              have hs : StaysOpen c api (.reconstructing, x) y := ⟨ho, i, p, hi, by omega⟩
              obtain ⟨g1, g2, g3, g4, g5, g6, g7, g8, y', g9, g10⟩ := request_all h hf ht (hp y hs)
              have hpp : p = c.primeIt := by rw [hdp] at e2; simp at e2; omega
              have hy' : api.donePrime y' = (false, c.primeIt) := by
                rcases g10 with rfl | rfl
                · rw [e1, hpp]
                · rw [hh.taken, e1, hpp]
              have hnw : ¬ Waits c api (.reconstructing, y') := by rintro ⟨-, -, h3⟩; dsimp only at h3; rw [hy'] at h3; simp at h3
              refine ⟨(.reconstructing, y'), g9, by simp [Finished]; omega, by rw [if_neg hnw]; omega, by simp, fun _ => Or.inr ⟨⟨rfl, hy'⟩, y, hs⟩, fun _ _ => ⟨rfl, hy'⟩, ?_, g2, by rw [g7]; simp [Finished], by rw [g8]; simp [hnw], by simp [Finished]⟩
              have : (fun o lo hi => ∃ y, StaysOpen c api (.reconstructing, x) y ∧ Wants c api y o lo hi) = Wants c api y := by
                funext o lo hi'
                apply propext
                constructor
                · rintro ⟨z, ⟨-, j, p', h1, -⟩, hz⟩
                  dsimp only at h1; rw [hi] at h1
                  simp only [Option.some.injEq, Prod.mk.injEq] at h1
                  rw [h1.1]; exact hz
                · intro hw; exact ⟨y, hs, hw⟩
              rw [this]; exact g1
      · rw [if_pos (by simpa using hp0)] at h
        injection h with h
        subst h
        have hn : ∀ y, ¬ StaysOpen c api (.reconstructing, x) y := by rintro y ⟨⟨-, h1⟩, -⟩; dsimp only at h1; rw [hdp] at h1; simp at h1; exact hp0 h1
        have hw : Waits c api (.reconstructing, x) := ⟨rfl, by rw [hdp], by rw [hdp]; exact hp0⟩
        exact ⟨(.reconstructing, x), rfl, by simp [Finished], by rw [if_pos hw]; dsimp only; omega, by simp, fun _ => Or.inl hw, fun y hy => absurd hy (hn y), triv rfl hn, ht, by simp [Finished], by simp [hw], by simp [Finished]⟩

/-- what the loop does -/
structure Loop (c : Cfg) (api : Api S) (a a' : Acc S) (rs new : List (Status × S)) : Prop where
  recs : a'.recs = a.recs ++ new
  len : new.length = rs.length
  done : a'.done1 + a'.done2 = a.done1 + a.done2 + new.countP (fun r => decide (Finished r))
  news : a'.new1 + a'.new2 = a.new1 + a.new2 + new.countP (fun r => decide (Waits c api r))
  del : new.countP (fun r => decide (r.1 = Status.delete)) = rs.countP (fun r => decide (r.1 = Status.delete))
  cases : ∀ r' ∈ new, r'.1 = .reconstructing → (Waits c api r' ∨ (Open c api r' ∧ ∃ r ∈ rs, ∃ y, StaysOpen c api r y))
  stays : ∀ r ∈ rs, ∀ y, StaysOpen c api r y → ∃ r' ∈ new, Open c api r'
  all : All a.req a'.req (fun o lo hi => ∃ r ∈ rs, ∃ y, StaysOpen c api r y ∧ Wants c api y o lo hi)
  thr : Thr c a'.req
  oneD : a'.oneDone = (a.oneDone || new.any (fun r => decide (Finished r)))
  oneN : a'.oneNew = (a.oneNew || new.any (fun r => decide (Waits c api r)))
  fin : ∀ r' ∈ new, Finished r' → ∃ r ∈ rs, r.1 = .done ∨ (api.donePrime r.2).1 = true ∨ ∃ y i p, api.interpolate r.2 = some (y, i, true, p)

lemma loop (hh : Honest api) : ∀ (rs : List (Status × S)) (a a' : Acc S), rs.foldlM (c.item api) a = .ok a' → Fresh a.req → Thr c a.req → (∀ r ∈ rs, ∀ y, StaysOpen c api r y → Plain c api y) →
    ∃ new, Loop c api a a' rs new := by
  intro rs
  induction rs with
  | nil =>
    intro a a' h hf ht hp
    injection h with h
    subst h
    exact ⟨[], by simp, rfl, by simp, by simp, rfl, by simp, by simp, All.refl hf (by simp), ht, by simp, by simp, by simp⟩
  | cons r rs ih =>
    intro a a' h hf ht hp
    rw [List.foldlM_cons] at h
    cases h1 : c.item api a r with
    | error e => rw [h1] at h; cases h
    | ok b =>
      rw [h1] at h
      replace h : rs.foldlM (c.item api) b = .ok a' := h
      obtain ⟨r', s1⟩ := item_step hh h1 hf ht (hp r (by simp))
      obtain ⟨new, s2⟩ := ih b a' h s1.all.fresh s1.thr (fun x hx => hp x (by simp [hx]))
      refine ⟨r' :: new, ?_, ?_, ?_, ?_, ?_, ?_, ?_, ?_, s2.thr, ?_, ?_, ?_⟩
      · rw [s2.recs, s1.recs]; simp
      · simp [s2.len]
      · rw [s2.done, s1.done, List.countP_cons]
        by_cases hF : Finished r' <;> simp [hF] <;> omega
      · rw [s2.news, s1.news, List.countP_cons]
        by_cases hF : Waits c api r' <;> simp [hF] <;> omega
      · rw [List.countP_cons, List.countP_cons, s2.del]
        by_cases hd : r.1 = .delete
        · simp [hd, s1.del.mpr hd]
        · have : r'.1 ≠ .delete := fun e => hd (s1.del.mp e)
          simp [hd, this]
      · intro x hx hr
        rcases List.mem_cons.mp hx with rfl | hx
        · rcases s1.cases hr with e | ⟨e, y, hy⟩
          · exact Or.inl e
          · exact Or.inr ⟨e, r, by simp, y, hy⟩
        · rcases s2.cases x hx hr with e | ⟨e, q, hq, y, hy⟩
          · exact Or.inl e
          · exact Or.inr ⟨e, q, by simp [hq], y, hy⟩
      · intro x hx y hy
        rcases List.mem_cons.mp hx with rfl | hx
        · exact ⟨r', by simp, s1.stays y hy⟩
        · obtain ⟨q, hq, e⟩ := s2.stays x hx y hy
          exact ⟨q, by simp [hq], e⟩
      · exact s1.all.trans s2.all (fun o lo hi => by simp)
      · rw [s2.oneD, s1.oneD]; simp [Bool.or_assoc]
      · rw [s2.oneN, s1.oneN]; simp [Bool.or_assoc]
      · intro x hx hF
        rcases List.mem_cons.mp hx with rfl | hx
        · exact ⟨r, by simp, s1.fin hF⟩
        · obtain ⟨q, hq, e⟩ := s2.fin x hx hF
          exact ⟨q, by simp [hq], e⟩

lemma recount_eq (old a b : ℕ) : recount old a b = a + b := by
  unfold recount; split <;> omega

/-- the ways a call can end -/
lemma attempt_cases (hh : Honest api) (s : St S) (hp : ∀ r ∈ s.recs, ∀ y, StaysOpen c api r y → Plain c api y) :
    (c.attempt api s = .error .undefined) ∨
    ∃ a new, Loop c api { oneDone := s.oneDone, oneNew := s.oneNew, nextProbes := s.nextProbes, balance := s.balance } a s.recs new ∧ a.recs = new ∧ a.done1 + a.done2 = new.countP (fun r => decide (Finished r)) ∧ a.new1 + a.new2 = new.countP (fun r => decide (Waits c api r)) ∧
      c.attempt api s =
        (let s' : St S := { s with
          recs := new, oneDone := a.oneDone, oneNew := a.oneNew, nextProbes := a.nextProbes, balance := a.balance, queued := s.queued ++ a.req.queued, started := a.req.started
          itemsDone := new.countP (fun r => decide (Finished r)), itemsNew := new.countP (fun r => decide (Waits c api r)) }
        if new.countP (fun r => decide (Finished r)) = c.items then .ok { s' with done := true }
        else if new.countP (fun r => decide (Finished r)) + new.countP (fun r => decide (Waits c api r)) = c.items then .ok { s' with newPrime := true }
        else if a.req.started.length = 0 then .error .cannot
        else match a.req.started.find? (c.same 1) with
          | some k =>
            if a.req.started.length = 1 then
              (if (s.started.find? (c.same 1)).isSome then .ok { s' with started := s.started.set (c.same 1) k } else .error .range)
            else .ok { s' with started := a.req.started.emplace (c.same 1) 0 }
          | none => .ok { s' with started := a.req.started.emplace (c.same 1) 0 }) := by
  unfold Cfg.attempt
  cases h : s.recs.foldlM (c.item api) { oneDone := s.oneDone, oneNew := s.oneNew, nextProbes := s.nextProbes, balance := s.balance } with
  | error e =>
    left
    have key : ∀ (rs : List (Status × S)) (a : Acc S), rs.foldlM (c.item api) a = .error e → e = .undefined := by
      intro rs
      induction rs with
      | nil => intro a h; cases h
      | cons r rs ih =>
        intro a h
        rw [List.foldlM_cons] at h
        cases h1 : c.item api a r with
        | ok b => rw [h1] at h; exact ih b h
        | error e' =>
          rw [h1] at h
          injection h with h
          subst h
          unfold Cfg.item at h1
          split at h1
          · cases h1
          · cases h1
          · split at h1
            · cases h1
            · split at h1
              · cases h1
              · split at h1
                · injection h1 with h1; exact h1.symm
                · cases h1
                · split at h1
                  · cases h1
                  · unfold Cfg.request at h1
                    split at h1
                    · cases h1
                    · split at h1
                      · injection h1 with h1; exact h1.symm
                      · split at h1
                        · split at h1
                          · injection h1 with h1; exact h1.symm
                          · cases h1
                        · cases h1
    rw [key _ _ h]
  | ok a =>
    right
    obtain ⟨new, hl⟩ := loop hh s.recs _ a h (by intro o; simp [FFMap.find?]) (by intro _ h; simp [FFMap.find?] at h) hp
    have h1 := hl.recs
    have h2 := hl.done
    have h3 := hl.news
    simp only [List.nil_append, Nat.zero_add] at h1 h2 h3
    refine ⟨a, new, hl, h1, h2, h3, ?_⟩
    dsimp only
    rw [recount_eq, recount_eq, h1, h2, h3]
    cases a.req.started.find? (c.same 1) <;> rfl

/-- the state after the loop and the new counters -/
def base (c : Cfg) (api : Api S) (s : St S) (a : Acc S) (new : List (Status × S)) : St S :=
  { s with
    recs := new, oneDone := a.oneDone, oneNew := a.oneNew, nextProbes := a.nextProbes, balance := a.balance, queued := s.queued ++ a.req.queued, started := a.req.started
    itemsDone := new.countP (fun r => decide (Finished r)), itemsNew := new.countP (fun r => decide (Waits c api r)) }

/-- the ways a call can end -/
inductive Out (c : Cfg) (api : Api S) (s : St S) (a : Acc S) (new : List (Status × S)) : Except Fail (St S) → Prop
  | complete : new.countP (fun r => decide (Finished r)) = c.items → Out c api s a new (.ok { base c api s a new with done := true })
  | promote : new.countP (fun r => decide (Finished r)) ≠ c.items → new.countP (fun r => decide (Finished r)) + new.countP (fun r => decide (Waits c api r)) = c.items →
      Out c api s a new (.ok { base c api s a new with newPrime := true })
  | cannot : new.countP (fun r => decide (Finished r)) ≠ c.items → new.countP (fun r => decide (Finished r)) + new.countP (fun r => decide (Waits c api r)) ≠ c.items → a.req.started.length = 0 →
      Out c api s a new (.error .cannot)
  | ones (k : ℕ) : new.countP (fun r => decide (Finished r)) ≠ c.items → new.countP (fun r => decide (Finished r)) + new.countP (fun r => decide (Waits c api r)) ≠ c.items → a.req.started.find? (c.same 1) = some k →
      a.req.started.length = 1 → (s.started.find? (c.same 1)).isSome = true → Out c api s a new (.ok { base c api s a new with started := s.started.set (c.same 1) k })
  | range (k : ℕ) : new.countP (fun r => decide (Finished r)) ≠ c.items → new.countP (fun r => decide (Finished r)) + new.countP (fun r => decide (Waits c api r)) ≠ c.items → a.req.started.find? (c.same 1) = some k →
      a.req.started.length = 1 → s.started.find? (c.same 1) = none → Out c api s a new (.error .range)
  | other : new.countP (fun r => decide (Finished r)) ≠ c.items → new.countP (fun r => decide (Finished r)) + new.countP (fun r => decide (Waits c api r)) ≠ c.items → a.req.started.length ≠ 0 →
      Out c api s a new (.ok { base c api s a new with started := a.req.started.emplace (c.same 1) 0 })

lemma attempt_out (hh : Honest api) (s : St S) (hp : ∀ r ∈ s.recs, ∀ y, StaysOpen c api r y → Plain c api y) :
    (c.attempt api s = .error .undefined) ∨
    ∃ a new, Loop c api { oneDone := s.oneDone, oneNew := s.oneNew, nextProbes := s.nextProbes, balance := s.balance } a s.recs new ∧ Out c api s a new (c.attempt api s) := by
  rcases attempt_cases hh s hp with e | ⟨a, new, hl, -, -, -, e⟩
  · exact Or.inl e
  refine Or.inr ⟨a, new, hl, ?_⟩
  rw [e]
  dsimp only
  by_cases h1 : new.countP (fun r => decide (Finished r)) = c.items
  · rw [if_pos h1]; exact Out.complete h1
  rw [if_neg h1]
  by_cases h2 : new.countP (fun r => decide (Finished r)) + new.countP (fun r => decide (Waits c api r)) = c.items
  · rw [if_pos h2]; exact Out.promote h1 h2
  rw [if_neg h2]
  by_cases h3 : a.req.started.length = 0
  · rw [if_pos h3]; exact Out.cannot h1 h2 h3
  rw [if_neg h3]
  cases hf : a.req.started.find? (c.same 1) with
  | none => exact Out.other h1 h2 h3
  | some k =>
    dsimp only
    by_cases h4 : a.req.started.length = 1
    · rw [if_pos h4]
      cases hs : s.started.find? (c.same 1) with
      | none => simp only [Option.isSome_none, Bool.false_eq_true, if_false]; exact Out.range k h1 h2 hf h4 hs
      | some v => simp only [Option.isSome_some, if_true]; exact Out.ones k h1 h2 hf h4 (by rw [hs]; rfl)
    · rw [if_neg h4]; exact Out.other h1 h2 h3

end FireFly.Recover
