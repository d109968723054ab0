import Verif.Lemmas.NeededFeedEnd
import Verif.Lemmas.NeededFeedWidth
/-!
# C65: the probes that are requested in a further prime field suffice

The objects of a run compute once per prime field how many probes they need for each order vector; the Reconstructor queues what is not queued yet. These theorems say that the numbers are right (`C65_list`), that all objects finish
with the field in every schedule (`C65_all`, `C65_ends`, `C65_no_deadlock`), and that nothing more is queued (`C65_no_surplus`).
-/
set_option linter.all false
namespace FireFly.Needed
open MvPolynomial
variable {F ι : Type} [Field F] [DecidableEq F] [DecidableEq ι] {n : ℕ} {good : F × List ℕ → Prop}

lemma Described.ok {ob : Obj F} {E : List ℕ} {right : ob.S → Prop} (h : Described n good ob E right) : ob.OK n good (requests E) := by
  cases h with
  | plain c N D UN UD hn gtp hlen hN hD hU hg hG => subst hn; exact RLater.obj_ok gtp hlen hN hD hU hg hG
  | known c N D hn hlen hg hp => subst hn; exact RLater.known_ok hlen hg hp
  | shift c N D hn gtp hp hg hG => subst hn; rw [← RShift.requests_lens hp]; exact RShift.obj_ok gtp hp hg hG

/-- what an object has computed when it is done -/
lemma Described.result {ob : Obj F} {E : List ℕ} {right : ob.S → Prop} (h : Described n good ob E right) {past : List (F × List ℕ)} {s : ob.S} (hnd : past.Nodup) (hp : ∀ q ∈ past, good q)
    (hs : past.foldlM ob.feed ob.init = some s) (hd : ob.done s = true) : right s := by
  cases h with
  | plain c N D UN UD hn gtp hlen hN hD hU hg hG =>
    subst hn
    have sub : RLater.GoodPts c.anchor N D UN UD (fun t ord => (t, ord) ∈ past) :=
      ⟨fun t o h => hG.ord t o (hp _ h), fun t o h => hG.den t o (hp _ h), fun o A B ts h1 h2 h3 h4 => hG.det o A B ts h1 h2 h3 (fun t ht => hp _ (h4 t ht))⟩
    obtain ⟨s', e1, e2, e3, -⟩ := RLater.C45_prime gtp hlen hN hD hU hg past hnd sub
    have hss : some s = some s' := by
      rw [← e1, ← hs]
      exact RLater.feedAll_obj past _
    obtain rfl : s = s' := Option.some.inj hss
    cases hr : s.out with
    | none => simp only [RLater.obj, hr] at hd; cases hd
    | some r =>
      cases r with
      | accepted =>
        obtain ⟨q, h1, h2⟩ := e2.mp hr
        left
        refine ⟨rfl, q.1, ?_⟩
        have : q.2 = RLater.uni c 1 := by
          unfold RLater.firstProbe at h1
          simpa using List.find?_some h1
        rw [this] at h2; exact h2
      | solved num den => exact Or.inr ⟨num, den, rfl, (e3 num den hr).2⟩
  | known c N D hn hlen hg hps =>
    subst hn
    obtain ⟨s', e1, e2⟩ := RLater.C45_known (N := N) (D := D) hlen hg [] [] past (fun q hq => (hps q (hp q hq)).1) (fun q hq _ => (hps q (hp q hq)).2)
    have hss : some s = some s' := by
      rw [← e1, ← hs]
      exact RLater.feedAll_obj past _
    obtain rfl : s = s' := Option.some.inj hss
    rcases e2 with ⟨e2, -⟩ | ⟨e2, -⟩
    · exact e2
    · simp only [RLater.obj, e2] at hd; cases hd
  | shift c N D hn gtp hpr hg hG =>
    subst hn
    have sub : RShift.GoodPts c N D (fun t ord => (t, ord) ∈ past) :=
      ⟨fun t o h => hG.ord t o (hp _ h), fun t o h => hG.den t o (hp _ h), fun o A B ts h1 h2 h3 h4 => hG.det o A B ts h1 h2 h3 (fun t ht => hp _ (h4 t ht))⟩
    obtain ⟨s', e1, e2, e3, -⟩ := RShift.C61_prime gtp hpr hg past hnd sub
    have hss : some s = some s' := by
      rw [← e1, ← hs]
      exact RShift.feedAll_obj past _
    obtain rfl : s = s' := Option.some.inj hss
    cases hr : s.out with
    | none => simp only [RShift.obj, hr] at hd; cases hd
    | some r =>
      cases r with
      | accepted =>
        obtain ⟨q, h1, h2⟩ := e2.mp hr
        left
        refine ⟨rfl, q.1, ?_⟩
        have : q.2 = RShift.uni c 1 := by
          unfold RShift.firstProbe at h1
          simpa using List.find?_some h1
        rw [this] at h2; exact h2
      | solved num den => exact Or.inr ⟨num, den, rfl, (e3 num den hr).2⟩

/-- **C65.** The list of an object. With the first probe for `(1, …, 1)`, whatever it got before, the object either is done (its guess is accepted) or asks for `requests E`: for the order vector `(o, …, o)` the number of parts that need it.
It asks only then. -/
theorem C65_list {ob : Obj F} {E : List ℕ} {right : ob.S → Prop} (h : Described n good ob E right) (past : List (F × List ℕ)) (q : F × List ℕ) (hnd : (past ++ [q]).Nodup)
    (hgood : ∀ x ∈ past ++ [q], good x) :
    ∃ s s', past.foldlM ob.feed ob.init = some s ∧ ob.feed s q = some s' ∧
      (if count n past 1 = 0 ∧ q.2 = ones n 1 then ob.adds s q = some (requests E) ∨ (ob.adds s q = some [] ∧ ob.done s' = true) else ob.adds s q = some []) := by
  have hok := h.ok
  obtain ⟨s', hs'⟩ := hok.run _ hnd hgood
  obtain ⟨s, hs⟩ := hok.run past (List.nodup_append.mp hnd).1 (fun x hx => hgood x (by simp [hx]))
  rw [List.foldlM_append, hs] at hs'
  have hs' : ob.feed s q = some s' := by simpa using hs'
  refine ⟨s, s', hs, hs', ?_⟩
  have h1 := hok.adds past q s s' hnd hgood hs hs'
  split
  · rename_i hc
    rcases h1 with h1 | h1
    · rcases hok.first past q s s' hnd hgood hs hs' hc.1 hc.2 with h2 | h2
      · exact Or.inl h2
      · exact Or.inr ⟨h1, h2⟩
    · exact Or.inl h1.1
  · rename_i hc
    rcases h1 with h1 | ⟨-, h2, h3⟩
    · exact h1
    · exact absurd ⟨h2, h3⟩ hc

/-- **C65.** The requested probes suffice for the object, in any order and together with any others. -/
theorem C65_enough {ob : Obj F} {E : List ℕ} {right : ob.S → Prop} (h : Described n good ob E right) (past : List (F × List ℕ)) (hnd : past.Nodup) (hgood : ∀ q ∈ past, good q)
    (hone : 1 ≤ count n past 1) (hmany : ∀ el ∈ requests E, el.2 ≤ count n past el.1) : ∃ s, past.foldlM ob.feed ob.init = some s ∧ ob.done s = true ∧ right s := by
  obtain ⟨s, hs⟩ := h.ok.run past hnd hgood
  have hd := h.ok.enough past s hnd hgood hs hmany hone
  exact ⟨s, hs, hd, h.result hnd hgood hs hd⟩

variable {objs : ι → Obj F} {E : ι → List ℕ} {right : ∀ i, (objs i).S → Prop}

lemma reach_sound (hd : ∀ i, Described n good (objs i) (E i) (right i)) {ts : List F} (hnd : ts.Nodup) (hg : ∀ t ∈ ts, good (t, ones n 1)) {s : Fld F objs}
    (hr : Reaches objs n good (Fld.start objs n ts) s) : Sound objs n good (fun i => requests (E i)) ts.length s := by
  induction hr with
  | refl => exact Sound.start hnd hg
  | tail _ h ih => exact ih.step (fun i => (hd i).ok) h

/-- **C65.** In every schedule of the threads: when nothing is left to do, all objects are done with this prime field, and their results are right. -/
theorem C65_all (hd : ∀ i, Described n good (objs i) (E i) (right i)) (ts : List F) (hts : ts ≠ []) (hnd : ts.Nodup) (hg : ∀ t ∈ ts, good (t, ones n 1)) (s : Fld F objs)
    (hr : Reaches objs n good (Fld.start objs n ts) s) (hq : s.Quiet) (i : ι) : (objs i).done (s.st i) = true ∧ right i (s.st i) := by
  have h := reach_sound hd hnd hg hr
  have hdone := h.quiet (fun i => (hd i).ok) (List.length_pos_iff.mpr hts) hq i
  exact ⟨hdone, (hd i).result (h.gotNodup i) (fun q hq => h.good q (h.gotSub i q hq)) (h.st i) hdone⟩

/-- **C65.** An object that is done is right, at any moment. -/
theorem C65_done (hd : ∀ i, Described n good (objs i) (E i) (right i)) (ts : List F) (hnd : ts.Nodup) (hg : ∀ t ∈ ts, good (t, ones n 1)) (s : Fld F objs)
    (hr : Reaches objs n good (Fld.start objs n ts) s) (i : ι) (hdone : (objs i).done (s.st i) = true) : right i (s.st i) := by
  have h := reach_sound hd hnd hg hr
  exact (hd i).result (h.gotNodup i) (fun q hq => h.good q (h.gotSub i q hq)) (h.st i) hdone

/-- **C65.** There is no deadlock: as long as something is left to do, a thread can do something. It is only assumed that there are as many allowed probes as are requested. -/
theorem C65_no_deadlock (hd : ∀ i, Described n good (objs i) (E i) (right i)) (ts : List F) (hnd : ts.Nodup) (hg : ∀ t ∈ ts, good (t, ones n 1))
    (hmany : ∀ i, ∀ el ∈ requests (E i), ∃ ts : List F, ts.Nodup ∧ el.2 ≤ ts.length ∧ ∀ t ∈ ts, good (t, ones n el.1)) (s : Fld F objs) (hr : Reaches objs n good (Fld.start objs n ts) s) (hq : ¬ s.Quiet) :
    ∃ s', Step objs n good s s' :=
  (reach_sound hd hnd hg hr).next (fun i => (hd i).ok) hmany hq

/-- **C65.** Every schedule ends: a bound for the number of steps. -/
theorem C65_ends [Fintype ι] (hd : ∀ i, Described n good (objs i) (E i) (right i)) (ts : List F) (hnd : ts.Nodup) (hg : ∀ t ∈ ts, good (t, ones n 1)) (k : ℕ) (f : ℕ → Fld F objs)
    (h0 : f 0 = Fld.start objs n ts) (hstep : ∀ j < k, Step objs n good (f j) (f (j + 1))) :
    k ≤ ∑ i, (((requests (E i)).map (fun el => 2 + Fintype.card ι * el.2)).sum + ts.length) := by
  have key : ∀ j ≤ k, Sound objs n good (fun i => requests (E i)) ts.length (f j) ∧ ∑ i, pot (Fintype.card ι) (fun i => requests (E i)) n (f j) i + j ≤ ∑ i, pot (Fintype.card ι) (fun i => requests (E i)) n (Fld.start objs n ts) i := by
    intro j
    induction j with
    | zero => intro _; rw [h0]; exact ⟨Sound.start hnd hg, le_rfl⟩
    | succ j ih =>
      intro hj
      obtain ⟨h1, h2⟩ := ih (by omega)
      have := h1.decreases (fun i => (hd i).ok) (hstep j (by omega))
      exact ⟨h1.step (fun i => (hd i).ok) (hstep j (by omega)), by omega⟩
  have h := (key k le_rfl).2
  rw [pot_start] at h
  refine le_trans ?_ h
  omega

/-- **C65.** Nothing more is queued: the number of probes for `(o, …, o)` is at most what was queued at the start, or what one of the objects needs. No probe is queued twice. -/
theorem C65_no_surplus (hn : 2 ≤ n) (hd : ∀ i, Described n good (objs i) (E i) (right i)) (ts : List F) (hnd : ts.Nodup) (hg : ∀ t ∈ ts, good (t, ones n 1)) (s : Fld F objs)
    (hr : Reaches objs n good (Fld.start objs n ts) s) : s.probes.Nodup ∧ ∀ o, count n s.probes o ≤ (if o = 1 then ts.length else 0) ∨ ∃ i, count n s.probes o ≤ atLeast (E i) o := by
  have h := reach_sound hd hnd hg hr
  refine ⟨h.nodup, fun o => (h.upper o).imp (fun e => ?_) ?_⟩
  · by_cases ho : o = 1
    · rw [if_pos ho]; rwa [if_pos (by rw [ho])] at e
    · rw [if_neg ho]; rwa [if_neg (fun e => ho (ones_inj hn e))] at e
  rintro ⟨i, o', r, ho, h1, h2⟩
  obtain rfl := ones_inj hn ho
  refine ⟨i, le_trans h2 ?_⟩
  unfold requests at h1
  obtain ⟨j, -, h3⟩ := List.mem_map.mp h1
  rw [← (Prod.mk.inj h3).1, ← (Prod.mk.inj h3).2]

lemma sound_of_ok {R : ι → List (ℕ × ℕ)} (hok : ∀ i, (objs i).OK n good (R i)) {ts : List F} (hnd : ts.Nodup) (hg : ∀ t ∈ ts, good (t, ones n 1)) {s : Fld F objs} (hr : Reaches objs n good (Fld.start objs n ts) s) :
    Sound objs n good R ts.length s := by
  induction hr with
  | refl => exact Sound.start hnd hg
  | tail _ h ih => exact ih.step hok h

/-- a bound for the number of steps -/
lemma steps_of_ok [Fintype ι] {R : ι → List (ℕ × ℕ)} (hok : ∀ i, (objs i).OK n good (R i)) {ts : List F} (hnd : ts.Nodup) (hg : ∀ t ∈ ts, good (t, ones n 1)) (k : ℕ) (f : ℕ → Fld F objs)
    (h0 : f 0 = Fld.start objs n ts) (hstep : ∀ j < k, Step objs n good (f j) (f (j + 1))) :
    k ≤ ∑ i, (((R i).map (fun el => 2 + Fintype.card ι * el.2)).sum + ts.length) := by
  have key : ∀ j ≤ k, Sound objs n good R ts.length (f j) ∧ ∑ i, pot (Fintype.card ι) R n (f j) i + j ≤ ∑ i, pot (Fintype.card ι) R n (Fld.start objs n ts) i := by
    intro j
    induction j with
    | zero => intro _; rw [h0]; exact ⟨Sound.start hnd hg, le_rfl⟩
    | succ j ih =>
      intro hj
      obtain ⟨h1, h2⟩ := ih (by omega)
      have := h1.decreases hok (hstep j (by omega))
      exact ⟨h1.step hok (hstep j (by omega)), by omega⟩
  have h := (key k le_rfl).2
  rw [pot_start] at h
  refine le_trans ?_ h
  omega

lemma finishes_of_ok [Fintype ι] {R : ι → List (ℕ × ℕ)} (hok : ∀ i, (objs i).OK n good (R i)) {ts : List F} (hnd : ts.Nodup) (hg : ∀ t ∈ ts, good (t, ones n 1))
    (hmany : ∀ i, ∀ el ∈ R i, ∃ ts : List F, ts.Nodup ∧ el.2 ≤ ts.length ∧ ∀ t ∈ ts, good (t, ones n el.1)) (s : Fld F objs) (hr : Reaches objs n good (Fld.start objs n ts) s) :
    ∃ s', Reaches objs n good s s' ∧ s'.Quiet := by
  obtain ⟨m, hm⟩ : ∃ m, m = ∑ i, pot (Fintype.card ι) R n s i := ⟨_, rfl⟩
  induction m using Nat.strong_induction_on generalizing s with
  | _ m ih =>
    by_cases hq : s.Quiet
    · exact ⟨s, Relation.ReflTransGen.refl, hq⟩
    · obtain ⟨s1, h1⟩ := (sound_of_ok hok hnd hg hr).next hok hmany hq
      have hlt := (sound_of_ok hok hnd hg hr).decreases hok h1
      obtain ⟨s2, h2, h3⟩ := ih _ (by rw [hm]; exact hlt) s1 (Relation.ReflTransGen.tail hr h1) rfl
      exact ⟨s2, Relation.ReflTransGen.head h1 h2, h3⟩

/-- **C65.** From every state the threads can reach the end; together with `C65_ends` and `C65_no_deadlock`, every schedule does. -/
theorem C65_finishes [Fintype ι] (hd : ∀ i, Described n good (objs i) (E i) (right i)) (ts : List F) (hnd : ts.Nodup) (hg : ∀ t ∈ ts, good (t, ones n 1))
    (hmany : ∀ i, ∀ el ∈ requests (E i), ∃ ts : List F, ts.Nodup ∧ el.2 ≤ ts.length ∧ ∀ t ∈ ts, good (t, ones n el.1)) (s : Fld F objs) (hr : Reaches objs n good (Fld.start objs n ts) s) :
    ∃ s', Reaches objs n good s s' ∧ s'.Quiet :=
  finishes_of_ok (fun i => (hd i).ok) hnd hg hmany s hr

/-- **C65.** The first prime field: an object asks for the probes its system of `size` equations lacks (`size - saved`; the `saved` ones it has are among the ones started). After the entry is handled, `size` probes, or the larger number
that had been queued before, are queued for this order vector; the other order vectors are not touched. -/
theorem C65_orders (size saved : ℕ) (s : Req) (ord : List ℕ) (hsaved : saved ≤ (s.started.find? ord).getD 0) :
    ((s.askOrder size (ord, size - saved)).started.find? ord).getD 0 = max ((s.started.find? ord).getD 0) size ∧
    (∀ ord', ord' ≠ ord → (s.askOrder size (ord, size - saved)).started.find? ord' = s.started.find? ord') ∧
    (s.askOrder size (ord, size - saved)).queued = s.queued ++ List.replicate (max ((s.started.find? ord).getD 0) size - (s.started.find? ord).getD 0) ord := by
  unfold Req.askOrder
  cases hf : s.started.find? ord with
  | none =>
    rw [hf] at hsaved
    have : saved = 0 := by simpa using hsaved
    subst this
    simp only [Req.queue]
    refine ⟨?_, fun o ho => ?_, by simp⟩
    · rw [FFMap.find?_emplace]; simp [hf]
    · rw [FFMap.find?_emplace]; simp [ho]
  | some k =>
    rw [hf] at hsaved
    simp only [Option.getD_some] at hsaved ⊢
    split
    · rename_i hk
      have hmin : min (size - k) (size - saved) = size - k := by omega
      simp only [Req.queue, hmin]
      refine ⟨?_, fun o ho => ?_, by rw [show max k size = size by omega]⟩
      · rw [FFMap.find?_set]; simp; omega
      · rw [FFMap.find?_set]; simp [ho]
    · rename_i hk
      refine ⟨?_, fun _ _ => rfl, ?_⟩
      · rw [hf]; simp; omega
      · rw [show max k size - k = 0 by omega]; simp

/-- **C65.** A saved state: the probes that were stored are moved to the queue, and the requests are reduced by their numbers; stored and requested probes together are enough. -/
theorem C65_resume {G : Type} (n : ℕ) (need : List (ℕ × ℕ)) (hneed : need ≠ []) (parsed : FFMap (List (G × G))) (hkeys : (parsed.map Prod.fst).Nodup) (hform : ∀ el ∈ parsed, ∃ o, 1 ≤ o ∧ el.1 = ones n o) (hn : 2 ≤ n) :
    ∃ left, resume need parsed = some (left, parsed.flatMap (fun el => el.2.map (fun q => (q.1, q.2, el.1)))) ∧ left.length = need.length ∧
      ∀ i < need.length, (left.getD i (0, 0)).1 = (need.getD i (0, 0)).1 ∧
        (left.getD i (0, 0)).2 + ((parsed.find? (ones n (i + 1))).getD []).length = max (need.getD i (0, 0)).2 ((parsed.find? (ones n (i + 1))).getD []).length := by
  have hinj : ∀ {o o' : ℕ}, ones n o = ones n o' → o = o' := fun h => ones_inj hn h
  have hhead : ∀ o, (ones n o).head? = some o := by
    intro o
    unfold ones
    obtain ⟨k, hk⟩ := Nat.exists_eq_succ_of_ne_zero (show n - 1 ≠ 0 by omega)
    rw [hk, List.replicate_succ]; rfl
  have key : ∀ (parsed : FFMap (List (G × G))), (parsed.map Prod.fst).Nodup → (∀ el ∈ parsed, ∃ o, 1 ≤ o ∧ el.1 = ones n o) → ∀ (r : List (ℕ × ℕ)) (qs : List (G × G × List ℕ)), r.length = need.length →
      ∃ left, parsed.foldlM (resumeStep need.length) (r, qs) = some (left, qs ++ parsed.flatMap (fun el => el.2.map (fun q => (q.1, q.2, el.1)))) ∧ left.length = need.length ∧
        ∀ i < need.length, (left.getD i (0, 0)).1 = (r.getD i (0, 0)).1 ∧ (left.getD i (0, 0)).2 = (r.getD i (0, 0)).2 - ((parsed.find? (ones n (i + 1))).getD []).length := by
    intro parsed
    induction parsed with
    | nil => intro _ _ r qs hr; exact ⟨r, by simp, hr, fun i _ => ⟨rfl, by simp [FFMap.find?]⟩⟩
    | cons el rest ih =>
      intro hk hf r qs hr
      obtain ⟨o, ho, hel⟩ := hf el (by simp)
      rw [List.map_cons, List.nodup_cons] at hk
      have hrest : FFMap.find? rest (ones n o) = none := by
        cases hh : FFMap.find? rest (ones n o) with
        | none => rfl
        | some v => exact absurd (List.mem_map.mpr ⟨_, FFMap.find?_mem hh, rfl⟩) (hel ▸ hk.1)
      have hcons : ∀ i, (FFMap.find? (el :: rest) (ones n (i + 1))).getD [] = if i + 1 = o then el.2 else (FFMap.find? rest (ones n (i + 1))).getD [] := by
        intro i
        unfold FFMap.find?
        obtain ⟨a, b⟩ := el
        simp only at hel
        subst hel
        rw [List.lookup_cons]
        by_cases hi : i + 1 = o
        · subst hi; simp
        · rw [if_neg hi]
          have : (ones n (i + 1) == ones n o) = false := by
            rw [beq_eq_false_iff_ne]; exact fun h => hi (hinj h)
          rw [this]
      obtain ⟨r', hr'⟩ : ∃ r', r' = (if o ≤ need.length then r.set (o - 1) ((r.getD (o - 1) (0, 0)).1, (r.getD (o - 1) (0, 0)).2 - el.2.length) else r) := ⟨_, rfl⟩
      obtain ⟨left, e1, e2, e3⟩ := ih hk.2 (fun x hx => hf x (by simp [hx])) r' (qs ++ el.2.map (fun q => (q.1, q.2, el.1))) (by rw [hr']; split <;> simp [hr])
      refine ⟨left, ?_, e2, fun i hi => ?_⟩
      · have hstep : resumeStep need.length (r, qs) el = some (r', qs ++ el.2.map (fun q => (q.1, q.2, el.1))) := by
          unfold resumeStep
          rw [hel, hhead, ← hel]
          have : reduce? need.length r o el.2.length = some r' := by
            unfold reduce?
            rw [hr']
            split
            · rw [if_neg (by omega)]
            · rfl
          simp [this]
        rw [List.foldlM_cons, hstep]
        simp only [Option.bind_eq_bind, Option.bind_some]
        rw [e1, List.flatMap_cons, List.append_assoc]
      · obtain ⟨f1, f2⟩ := e3 i hi
        rw [f1, f2, hcons]
        rw [hr']
        by_cases hi' : i + 1 = o
        · subst hi'
          rw [hrest, if_pos (by omega), if_pos rfl]
          simp only [Nat.add_sub_cancel]
          rw [List.getD_eq_getElem?_getD (l := r.set _ _), List.getElem?_set, if_pos rfl, if_pos (by omega)]
          simp
        · rw [if_neg hi']
          split
          · rw [List.getD_eq_getElem?_getD (l := r.set _ _), List.getElem?_set, if_neg (by omega), ← List.getD_eq_getElem?_getD]
            exact ⟨rfl, rfl⟩
          · exact ⟨rfl, rfl⟩
  obtain ⟨left, e1, e2, e3⟩ := key parsed hkeys hform need [] rfl
  refine ⟨left, ?_, e2, fun i hi => ⟨(e3 i hi).1, ?_⟩⟩
  · unfold resume
    rw [if_neg hneed]
    simpa using e1
  · rw [(e3 i hi).2]; omega

end FireFly.Needed
