import Verif.Spec.Recover
import Verif.Props.FirstFeedProps
/-! # `attempt_to_continue`: lemmas -/
set_option linter.all false
namespace FireFly.Recover
variable {S : Type} {c : Cfg} {api : Api S}

/-- the probes that have been started are those that have been queued in this call -/
def Fresh (r : Needed.Req) : Prop := ∀ o, (r.started.find? o).getD 0 = r.queued.count o

/-- the number of probes queued for `o` -/
def num (r : Needed.Req) (o : List ℕ) : ℕ := r.queued.count o

lemma count_rep (l : List (List ℕ)) (k : ℕ) (o o' : List ℕ) : (l ++ List.replicate k o).count o' = l.count o' + if o' = o then k else 0 := by
  rw [List.count_append, List.count_replicate]
  by_cases h : o = o'
  · subst h; simp
  · have h' : o' ≠ o := fun e => h e.symm
    simp [h, h']

/-- one entry with the bounds `lo`, `hi` -/
structure Did (r r' : Needed.Req) (o : List ℕ) (lo hi : ℕ) : Prop where
  fresh : Fresh r'
  mono : ∀ o', r.queued.count o' ≤ r'.queued.count o'
  other : ∀ o', o' ≠ o → r'.queued.count o' = r.queued.count o'
  least : lo ≤ r'.queued.count o
  most : r'.queued.count o = r.queued.count o ∨ r'.queued.count o ≤ hi
  len : r.started.length ≤ r'.started.length
  empty : r'.started.length = 0 → lo = 0
  keys : ∀ o', (r.started.find? o').isSome = true → (r'.started.find? o').isSome = true

lemma emplace_length (m : FFMap ℕ) (k : List ℕ) (v : ℕ) (h : m.find? k = none) : (m.emplace k v).length = m.length + 1 := by
  unfold FFMap.emplace; rw [h]; simp

lemma set_length (m : FFMap ℕ) (k : List ℕ) (v : ℕ) (h : (m.find? k).isSome = true) : (m.set k v).length = m.length := by
  unfold FFMap.set; rw [h]; simp

lemma set_length' (m : FFMap ℕ) (k : List ℕ) (v : ℕ) (h : m.find? k = none) : (m.set k v).length = m.length + 1 := by
  unfold FFMap.set; rw [h]; simp

lemma length_of_find {m : FFMap ℕ} {k : List ℕ} {v : ℕ} (h : m.find? k = some v) : m.length ≠ 0 := by
  intro e
  rw [List.length_eq_zero_iff] at e
  subst e; simp [FFMap.find?] at h

/-- a new entry -/
lemma did_new {r : Needed.Req} (hf : Fresh r) {o : List ℕ} (h : r.started.find? o = none) (k : ℕ) {lo hi : ℕ} (h1 : lo ≤ k) (h2 : k ≤ hi) {m : FFMap ℕ} (hm : ∀ o', m.find? o' = if o' = o then some k else r.started.find? o')
    (hl : m.length = r.started.length + 1) : Did r (Needed.Req.queue { r with started := m } o k) o lo hi := by
  have h0 : r.queued.count o = 0 := by rw [← hf o, h]; rfl
  refine ⟨fun o' => ?_, fun o' => ?_, fun o' ho => ?_, ?_, ?_, ?_, ?_, ?_⟩
  · simp only [Needed.Req.queue]
    rw [count_rep, hm]
    by_cases ho : o' = o
    · subst ho; simp [h0]
    · simp [ho, hf o']
  · simp only [Needed.Req.queue]; rw [count_rep]; omega
  · simp only [Needed.Req.queue]; rw [count_rep, if_neg ho]; simp
  · simp only [Needed.Req.queue]; rw [count_rep, if_pos rfl]; omega
  · right; simp only [Needed.Req.queue]; rw [count_rep, if_pos rfl]; omega
  · simp only [Needed.Req.queue]; omega
  · simp only [Needed.Req.queue]; omega
  · intro o' ho'
    simp only [Needed.Req.queue]; rw [hm]; split
    · simp
    · exact ho'

/-- an entry that has been started is raised by `k` -/
lemma did_more {r : Needed.Req} (hf : Fresh r) {o : List ℕ} {a : ℕ} (h : r.started.find? o = some a) (k : ℕ) {lo hi : ℕ} (h1 : lo ≤ a + k) (h2 : k = 0 ∨ a + k ≤ hi) :
    Did r (Needed.Req.queue { r with started := r.started.set o (a + k) } o k) o lo hi := by
  have h0 : r.queued.count o = a := by rw [← hf o, h]; rfl
  refine ⟨fun o' => ?_, fun o' => ?_, fun o' ho => ?_, ?_, ?_, ?_, ?_, ?_⟩
  · simp only [Needed.Req.queue]
    rw [count_rep, FFMap.find?_set]
    by_cases ho : o' = o
    · subst ho; simp [h0]
    · simp [ho, hf o']
  · simp only [Needed.Req.queue]; rw [count_rep]; omega
  · simp only [Needed.Req.queue]; rw [count_rep, if_neg ho]; simp
  · simp only [Needed.Req.queue]; rw [count_rep, if_pos rfl]; omega
  · simp only [Needed.Req.queue]; rw [count_rep, if_pos rfl]; omega
  · simp only [Needed.Req.queue]; rw [set_length _ _ _ (by rw [h]; rfl)]
  · simp only [Needed.Req.queue]; rw [set_length _ _ _ (by rw [h]; rfl)]
    intro e; exact absurd e (length_of_find h)
  · intro o' ho'
    simp only [Needed.Req.queue]; rw [FFMap.find?_set]; split
    · simp
    · exact ho'

lemma did_nothing {r : Needed.Req} (hf : Fresh r) {o : List ℕ} {lo hi : ℕ} (h1 : lo ≤ r.queued.count o) : Did r r o lo hi := by
  refine ⟨hf, fun _ => le_rfl, fun _ _ => rfl, h1, Or.inl rfl, le_rfl, ?_, fun _ h => h⟩
  intro e
  rw [List.length_eq_zero_iff] at e
  have := hf o
  rw [e] at this; simp [FFMap.find?] at this; omega

lemma askNeeded_did {r : Needed.Req} (hf : Fresh r) (el : ℕ × ℕ) : Did r (c.askNeeded r el) (c.same el.1) el.2 el.2 := by
  unfold Cfg.askNeeded
  by_cases h0 : el.2 = 0
  · rw [if_pos h0]; exact did_nothing hf (by omega)
  rw [if_neg h0]
  cases h : r.started.find? (c.same el.1) with
  | none =>
    dsimp only
    exact did_new hf h _ le_rfl le_rfl (fun o' => by rw [FFMap.find?_emplace]; by_cases ho : o' = c.same el.1 <;> simp [ho, h]) (emplace_length _ _ _ h)
  | some a =>
    dsimp only
    have ha : r.queued.count (c.same el.1) = a := by rw [← hf, h]; rfl
    split
    · rename_i hlt
      have := did_more hf h (el.2 - a) (lo := el.2) (hi := el.2) (by omega) (by omega)
      rwa [show a + (el.2 - a) = el.2 by omega] at this
    · exact did_nothing hf (by omega)

lemma askOrder_did {r : Needed.Req} (hf : Fresh r) (size : ℕ) (el : List ℕ × ℕ) : Did r (Needed.Req.askOrder size r el) el.1 (min el.2 size) (max el.2 size) := by
  unfold Needed.Req.askOrder
  cases h : r.started.find? el.1 with
  | none =>
    dsimp only
    exact did_new hf h _ (by omega) (by omega) (fun o' => by rw [FFMap.find?_emplace]; by_cases ho : o' = el.1 <;> simp [ho, h]) (emplace_length _ _ _ h)
  | some a =>
    dsimp only
    have ha : r.queued.count el.1 = a := by rw [← hf, h]; rfl
    split
    · exact did_more hf h (min (size - a) el.2) (by omega) (by omega)
    · exact did_nothing hf (by omega)

/-- what a list of requests does -/
structure All (r r' : Needed.Req) (W : List ℕ → ℕ → ℕ → Prop) : Prop where
  fresh : Fresh r'
  mono : ∀ o, r.queued.count o ≤ r'.queued.count o
  least : ∀ o lo hi, W o lo hi → lo ≤ r'.queued.count o
  most : ∀ o, r'.queued.count o = r.queued.count o ∨ ∃ lo hi, W o lo hi ∧ r'.queued.count o ≤ hi
  len : r.started.length ≤ r'.started.length
  empty : r'.started.length = 0 → ∀ o lo hi, W o lo hi → lo = 0
  grow : r.started.length < r'.started.length → ∃ o lo hi, W o lo hi
  keys : ∀ o', (r.started.find? o').isSome = true → (r'.started.find? o').isSome = true

lemma All.refl {r : Needed.Req} (h : Fresh r) {W : List ℕ → ℕ → ℕ → Prop} (hW : ∀ o lo hi, ¬ W o lo hi) : All r r W :=
  ⟨h, fun _ => le_rfl, fun o lo hi w => absurd w (hW o lo hi), fun _ => Or.inl rfl, le_rfl, fun _ o lo hi w => absurd w (hW o lo hi), fun h => absurd h (lt_irrefl _), fun _ h => h⟩

lemma All.single {r r' : Needed.Req} {o : List ℕ} {lo hi : ℕ} (h : Did r r' o lo hi) {W : List ℕ → ℕ → ℕ → Prop} (hW : ∀ o' lo' hi', W o' lo' hi' ↔ o' = o ∧ lo' = lo ∧ hi' = hi) : All r r' W := by
  refine ⟨h.fresh, h.mono, ?_, ?_, h.len, ?_, fun _ => ⟨o, lo, hi, (hW _ _ _).mpr ⟨rfl, rfl, rfl⟩⟩, h.keys⟩
  · intro o' lo' hi' w; obtain ⟨rfl, rfl, rfl⟩ := (hW _ _ _).mp w; exact h.least
  · intro o'
    by_cases ho : o' = o
    · subst ho
      rcases h.most with e | e
      · exact Or.inl e
      · exact Or.inr ⟨lo, hi, (hW _ _ _).mpr ⟨rfl, rfl, rfl⟩, e⟩
    · exact Or.inl (h.other o' ho)
  · intro e o' lo' hi' w; obtain ⟨rfl, rfl, rfl⟩ := (hW _ _ _).mp w; exact h.empty e

lemma All.trans {r1 r2 r3 : Needed.Req} {W1 W2 W : List ℕ → ℕ → ℕ → Prop} (h1 : All r1 r2 W1) (h2 : All r2 r3 W2) (hW : ∀ o lo hi, W o lo hi ↔ W1 o lo hi ∨ W2 o lo hi) : All r1 r3 W := by
  refine ⟨h2.fresh, fun o => le_trans (h1.mono o) (h2.mono o), ?_, ?_, le_trans h1.len h2.len, ?_, ?_, fun o h => h2.keys o (h1.keys o h)⟩
  · intro o lo hi w
    rcases (hW _ _ _).mp w with w | w
    · exact le_trans (h1.least _ _ _ w) (h2.mono o)
    · exact h2.least _ _ _ w
  · intro o
    rcases h2.most o with e | ⟨lo, hi, w, e⟩
    · rcases h1.most o with e' | ⟨lo, hi, w, e'⟩
      · exact Or.inl (by omega)
      · exact Or.inr ⟨lo, hi, (hW _ _ _).mpr (Or.inl w), by omega⟩
    · exact Or.inr ⟨lo, hi, (hW _ _ _).mpr (Or.inr w), e⟩
  · intro e o lo hi w
    rcases (hW _ _ _).mp w with w | w
    · exact h1.empty (by have := h2.len; omega) _ _ _ w
    · exact h2.empty e _ _ _ w
  · intro hlt
    by_cases hlt1 : r1.started.length < r2.started.length
    · obtain ⟨o, lo, hi, w⟩ := h1.grow hlt1
      exact ⟨o, lo, hi, (hW _ _ _).mpr (Or.inl w)⟩
    · obtain ⟨o, lo, hi, w⟩ := h2.grow (by omega)
      exact ⟨o, lo, hi, (hW _ _ _).mpr (Or.inr w)⟩

lemma fold_all {α : Type} {f : Needed.Req → α → Needed.Req} {key : α → List ℕ} {lo hi : α → ℕ} (hf : ∀ r el, Fresh r → Did r (f r el) (key el) (lo el) (hi el)) :
    ∀ (l : List α) (r : Needed.Req), Fresh r → All r (l.foldl f r) (fun o a b => ∃ el ∈ l, o = key el ∧ a = lo el ∧ b = hi el) := by
  intro l
  induction l with
  | nil => intro r h; exact All.refl h (by simp)
  | cons el l ih =>
    intro r h
    have h1 := hf r el h
    exact (All.single h1 (W := fun o a b => o = key el ∧ a = lo el ∧ b = hi el) (fun _ _ _ => Iff.rfl)).trans (ih _ h1.fresh) (fun o a b => by simp)

lemma isOnes_iff {l : List (List ℕ × ℕ)} : c.isOnes l = true ↔ c.factorScan = true ∨ ∃ j, l = [(List.replicate (c.n - 1) 1, j)] := by
  unfold Cfg.isOnes
  rw [Bool.or_eq_true, decide_eq_true_eq]
  constructor
  · rintro (h | ⟨h1, h2⟩)
    · exact Or.inl h
    · right
      match l, h1 with
      | [el], _ => simp at h2; exact ⟨el.2, by rw [← h2]⟩
  · rintro (h | ⟨j, rfl⟩)
    · exact Or.inl h
    · right; simp

/-- if `(1, …, 1)` has been started, `thr_n` probes of it have been queued -/
def Thr (c : Cfg) (r : Needed.Req) : Prop := ¬ (c.safe = false ∧ c.primeIt ≠ 0) → (r.started.find? (c.same 1)).isSome = true → c.thr ≤ r.queued.count (c.same 1)

/-- what the request of an object does -/
lemma request_all {a a' : Acc S} {y : S} (h : c.request api a y = .ok a') (hf : Fresh a.req) (hthr : Thr c a.req) (hpl : Plain c api y) :
    All a.req a'.req (Wants c api y) ∧ Thr c a'.req ∧ a'.done1 = a.done1 ∧ a'.done2 = a.done2 ∧ a'.new1 = a.new1 ∧ a'.new2 = a.new2 ∧ a'.oneDone = a.oneDone ∧ a'.oneNew = a.oneNew ∧
      ∃ y', a'.recs = a.recs ++ [(.reconstructing, y')] ∧ (y' = y ∨ y' = api.taken y) := by
  unfold Cfg.request at h
  by_cases hc : c.safe = false ∧ c.primeIt ≠ 0
  · rw [if_pos hc] at h
    injection h with h
    subst h
    refine ⟨?_, ?_, rfl, rfl, rfl, rfl, rfl, rfl, _, rfl, Or.inr rfl⟩
    rotate_left
    · intro hn; exact absurd hc hn
    have := fold_all (f := c.askNeeded) (key := fun el => c.same el.1) (lo := Prod.snd) (hi := Prod.snd) (fun r el hr => askNeeded_did hr el) (api.needed y) a.req hf
    have e : Wants c api y = fun o a b => ∃ el ∈ api.needed y, o = c.same el.1 ∧ a = el.2 ∧ b = el.2 := by
      funext o lo hi
      apply propext
      constructor
      · rintro (⟨e, k, -, -, hm⟩ | ⟨_, _, _, _, _, hn, _⟩ | ⟨_, _, _, _, hn, _⟩)
        · exact ⟨_, hm, rfl, rfl, rfl⟩
        · exact absurd hc hn
        · exact absurd hc hn
      · rintro ⟨⟨e, k⟩, hm, rfl, rfl, rfl⟩
        exact Wants.needed e _ hc.1 hc.2 hm
    rw [e]; exact this
  · rw [if_neg hc] at h
    cases ho : api.orders y with
    | none => rw [ho] at h; simp at h
    | some ls =>
      obtain ⟨l, size⟩ := ls
      rw [ho] at h
      dsimp only at h
      cases hi : c.isOnes l with
      | true =>
        rw [hi] at h
        simp only [if_true] at h
        match l, hi, ho, h with
        | [], _, _, h => simp at h
        | el :: rest, hi, ho, h =>
          simp only [List.head?_cons] at h
          injection h with h
          have hon := isOnes_iff.mp hi
          have hhead : el.1 = c.same 1 := by
            unfold Cfg.same
            rcases hon with e | ⟨j, e⟩
            · rw [if_pos e]; exact (hpl _ _ ho).1 e el (by simp)
            · cases hfs : c.factorScan with
              | true => simp only [if_true]; exact (hpl _ _ ho).1 hfs el (by simp)
              | false =>
                rw [List.cons.injEq] at e
                rw [e.1]; simp
          have hW : ∀ o lo hi, Wants c api y o lo hi ↔ o = el.1 ∧ lo = c.thr ∧ hi = c.thr := by
            intro o lo hi'
            constructor
            · rintro (⟨e, k, h1, h2, hm⟩ | ⟨l', s', j, _, rest', hn, ho', he, hc'⟩ | ⟨l', s', k, _, hn, ho', hfs, hno, hm⟩)
              · exact absurd ⟨h1, h2⟩ hc
              · rw [ho] at ho'
                obtain ⟨rfl, rfl⟩ := Prod.mk.inj (Option.some.inj ho')
                rw [List.cons.injEq] at he
                rw [he.1]; exact ⟨rfl, rfl, rfl⟩
              · rw [ho] at ho'
                obtain ⟨rfl, rfl⟩ := Prod.mk.inj (Option.some.inj ho')
                rcases hon with e | e
                · rw [hfs] at e; simp at e
                · exact absurd e hno
            · rintro ⟨rfl, rfl, rfl⟩
              refine Wants.ones (el :: rest) size el.2 el.1 rest hc ho rfl ?_
              rcases hon with e | ⟨j, e⟩
              · exact Or.inl e
              · right; rw [e]; rw [List.cons.injEq] at e; rw [e.1]
          subst h
          unfold Cfg.askOnes
          dsimp only
          cases hs : a.req.started.find? el.1 with
          | some k =>
            dsimp only
            refine ⟨?_, ?_, rfl, rfl, rfl, rfl, rfl, rfl, _, rfl, Or.inl rfl⟩
            · have h1 : el.1 = c.same 1 := hhead
              have h2 := hthr hc (by rw [← h1, hs]; rfl)
              exact All.single (did_nothing hf (by rw [h1]; exact h2)) hW
            · exact hthr
          | none =>
            dsimp only
            refine ⟨?_, ?_, rfl, rfl, rfl, rfl, rfl, rfl, _, rfl, Or.inl rfl⟩
            · exact All.single (did_new hf hs c.thr le_rfl le_rfl (fun o' => by rw [FFMap.find?_set]) (set_length' _ _ _ hs)) hW
            · intro _ _
              simp only [Needed.Req.queue]
              rw [count_rep, hhead, if_pos rfl]; omega
      | false =>
        rw [hi] at h
        simp only [Bool.false_eq_true, if_false] at h
        injection h with h
        subst h
        have hon : ¬ (c.factorScan = true ∨ ∃ j, l = [(List.replicate (c.n - 1) 1, j)]) := by rw [← isOnes_iff, hi]; simp
        rw [not_or] at hon
        refine ⟨?_, ?_, rfl, rfl, rfl, rfl, rfl, rfl, _, rfl, Or.inl rfl⟩
        have := fold_all (f := Needed.Req.askOrder size) (key := Prod.fst) (lo := fun el => min el.2 size) (hi := fun el => max el.2 size) (fun r el hr => askOrder_did hr size el) l a.req hf
        rotate_left
        · have hne := (hpl _ _ ho).2 (by simpa using hon.1) hon.2
          have hs1 : c.same 1 = List.replicate (c.n - 1) 1 := by unfold Cfg.same; rw [if_neg hon.1]
          intro _ hsome
          have key : ∀ (l : List (List ℕ × ℕ)) (r : Needed.Req), (∀ el ∈ l, el.1 ≠ c.same 1) → Thr c r → Thr c (l.foldl (Needed.Req.askOrder size) r) := by
            intro l
            induction l with
            | nil => intro r _ h; exact h
            | cons el l ih =>
              intro r hne h
              refine ih _ (fun e he => hne e (by simp [he])) ?_
              have hn := hne el (by simp)
              intro h1 h2
              have hq := h h1
              unfold Needed.Req.askOrder at h2 ⊢
              cases hf' : r.started.find? el.1 with
              | none =>
                rw [hf'] at h2
                simp only [Needed.Req.queue] at h2 ⊢
                rw [FFMap.find?_emplace] at h2
                rw [count_rep, if_neg (fun e => hn e.symm)]
                apply hq
                by_cases h3 : (c.same 1) = el.1
                · exact absurd h3.symm hn
                · simpa [h3] using h2
              | some k =>
                rw [hf'] at h2
                dsimp only at h2 ⊢
                split
                · rename_i hlt
                  rw [if_pos hlt] at h2
                  simp only [Needed.Req.queue] at h2 ⊢
                  rw [FFMap.find?_set, if_neg (fun e => hn e.symm)] at h2
                  rw [count_rep, if_neg (fun e => hn e.symm)]
                  exact hq h2
                · rename_i hlt
                  rw [if_neg hlt] at h2
                  exact hq h2
          exact key l a.req (fun el hel => by rw [hs1]; exact hne el hel) hthr hc hsome
        have e : Wants c api y = fun o a b => ∃ el ∈ l, o = el.1 ∧ a = min el.2 size ∧ b = max el.2 size := by
          funext o lo hi
          apply propext
          constructor
          · rintro (⟨e, k, h1, h2, hm⟩ | ⟨l', s', j, _, rest', hn, ho', he, hc'⟩ | ⟨l', s', k, _, hn, ho', hfs, hno, hm⟩)
            · exact absurd ⟨h1, h2⟩ hc
            · rw [ho] at ho'
              obtain ⟨rfl, rfl⟩ := Prod.mk.inj (Option.some.inj ho')
              rcases hc' with e | e
              · exact absurd e hon.1
              · exact absurd ⟨_, e⟩ hon.2
            · rw [ho] at ho'
              obtain ⟨rfl, rfl⟩ := Prod.mk.inj (Option.some.inj ho')
              exact ⟨_, hm, rfl, rfl, rfl⟩
          · rintro ⟨⟨o, k⟩, hm, rfl, rfl, rfl⟩
            exact Wants.entry l size k o hc ho (by simpa using hon.1) hon.2 hm
        rw [e]; exact this

end FireFly.Recover
