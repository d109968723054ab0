import Verif.Lemmas.MpiMaster4
/-! # The MPI protocol: reachable states, quiet states -/
set_option linter.all false
namespace FireFly.Mpi
open Function (update)

variable {c : Cfg} {s s' : State c.m} {a : Fin c.m → ANode} {comp : List (List Probe)}

theorem run_inv (V : c.Valid) : ∀ (es : List (Event c.m)) (s s' : State c.m) a comp, Inv c s a comp → run c s es = some s' → ∃ a' comp', Inv c s' a' comp'
  | [], s, s', a, comp, I, h => by cases h; exact ⟨a, comp, I⟩
  | e :: es, s, s', a, comp, I, h => by
    rw [run, I.fault] at h
    simp only [Bool.false_eq_true, if_false] at h
    cases hs : step c s e with
    | none => rw [hs] at h; cases h
    | some s1 =>
      rw [hs] at h
      obtain ⟨a1, comp1, I1, _⟩ := step_keeps V I e hs
      exact run_inv V es s1 s' a1 comp1 I1 h

theorem run_len (V : c.Valid) : ∀ (es : List (Event c.m)) (s s' : State c.m) a comp, Inv c s a comp → (∀ e ∈ es, e.env = false) → run c s es = some s' → es.length ≤ measure c s a
  | [], s, s', a, comp, I, _, h => by simp
  | e :: es, s, s', a, comp, I, he, h => by
    rw [run, I.fault] at h
    simp only [Bool.false_eq_true, if_false] at h
    cases hs : step c s e with
    | none => rw [hs] at h; cases h
    | some s1 =>
      rw [hs] at h
      obtain ⟨a1, comp1, I1, hm⟩ := step_keeps V I e hs
      have h1 := run_len V es s1 s' a1 comp1 I1 (fun x hx => he x (by simp [hx])) h
      have h2 := hm (he e (by simp))
      simp only [List.length_cons]
      omega

theorem run_rest (V : c.Valid) : ∀ (n : ℕ) (s : State c.m) a comp, Inv c s a comp → measure c s a ≤ n → ∃ es s', (∀ e ∈ es, e.env = false) ∧ run c s es = some s' ∧ Quiet c s' := by
  intro n
  induction n with
  | zero =>
    intro s a comp I hm
    refine ⟨[], s, by simp, rfl, ?_⟩
    intro e he
    cases hs : step c s e with
    | none => rfl
    | some s1 =>
      obtain ⟨a1, comp1, I1, hm1⟩ := step_keeps V I e hs
      have := hm1 he
      omega
  | succ n ih =>
    intro s a comp I hm
    by_cases hq : Quiet c s
    · exact ⟨[], s, by simp, rfl, hq⟩
    · unfold Quiet at hq
      push Not at hq
      obtain ⟨e, he, hs⟩ := hq
      obtain ⟨s1, hs⟩ := Option.ne_none_iff_exists'.mp hs
      obtain ⟨a1, comp1, I1, hm1⟩ := step_keeps V I e hs
      have := hm1 he
      obtain ⟨es, s', h1, h2, h3⟩ := ih s1 a1 comp1 I1 (by omega)
      refine ⟨e :: es, s', ?_, ?_, h3⟩
      · intro x hx
        rcases List.mem_cons.mp hx with rfl | hx
        · exact he
        · exact h1 x hx
      · rw [run, I.fault, hs]
        simpa using h2

theorem Reachable.inv (V : c.Valid) (h : Reachable c s) : ∃ a comp, Inv c s a comp := by
  obtain ⟨es, h⟩ := h
  exact run_inv V es _ _ _ _ (inv_init c) h

/-! ### What is stored -/

theorem Inv.mem_comp (I : Inv c s a comp) : (comp.flatten : Multiset Probe) ≤ (s.log : Multiset Probe) := by
  refine le_trans ?_ I.acc
  refine le_trans ?_ (Multiset.le_add_right _ _)
  exact Multiset.le_add_left _ _

theorem Inv.delivered_eq (I : Inv c s a comp) : delivered s = comp.flatten.map Prod.fst := by
  unfold delivered
  rw [I.cmp, List.map_flatten]
  simp [List.flatMap, stored, Function.comp_def]

theorem stored_correct (V : c.Valid) (ps : List Probe) (h : ∀ p ∈ ps, p ∈ s.log) (hn : ∀ p ∈ s.log, p.2.length = c.n) : Correct c s (stored c.items (c.f s.field) ps) := by
  refine ⟨by simp [stored], ?_, ?_⟩
  · intro row hr
    simp only [stored, List.mem_map] at hr
    obtain ⟨j, _, rfl⟩ := hr
    simp [stored]
  · intro r hr
    have hr' : r < ps.length := by simpa [stored] using hr
    refine ⟨(ps[r]).2, ?_, ?_⟩
    · have : (stored c.items (c.f s.field) ps).1[r]! = (ps[r]).1 := by
        simp [stored, hr']
      rw [this]
      exact h _ (List.getElem_mem hr')
    · intro j hj
      have hlen := V.f s.field (ps[r]).2 (hn _ (h _ (List.getElem_mem hr')))
      simp [stored, hj, hr', hlen]

/-! ### Signals follow from requests -/

/-- `NEW_PRIME` and `END` are sent only after the rest of the program asked for it. -/
def Asked {m : ℕ} (s : State m) : Prop :=
  (isFin s.phase = true → s.done = true) ∧ (isFin s.phase = false → livePhase s.phase = false → s.newPrime = true)

theorem Asked.of_eq {m : ℕ} {s s' : State m} (h : Asked s) (h1 : s'.phase = s.phase) (h2 : s'.newPrime = s.newPrime) (h3 : s'.done = s.done) : Asked s' := by
  unfold Asked; rw [h1, h2, h3]; exact h

theorem Asked.of_live {m : ℕ} {s : State m} (h : livePhase s.phase = true) : Asked s := by
  unfold Asked
  cases hp : s.phase <;> rw [hp] at h <;> simp_all [livePhase, isFin]

theorem sendJobs_same (s : State c.m) (i : Fin c.m) (w : ℕ) : (sendJobs c s i w).phase = s.phase ∧ (sendJobs c s i w).newPrime = s.newPrime ∧ (sendJobs c s i w).done = s.done := by
  unfold sendJobs
  split
  · exact ⟨rfl, rfl, rfl⟩
  · split_ifs <;> exact ⟨rfl, rfl, rfl⟩

theorem testEmpty_same {m : ℕ} (s : State m) : s.testEmpty.phase = s.phase ∧ s.testEmpty.newPrime = s.newPrime ∧ s.testEmpty.done = s.done := by
  unfold State.testEmpty
  split_ifs <;> exact ⟨rfl, rfl, rfl⟩

theorem restartLoop_same (ts : List (Fin c.m × ℕ)) : ∀ s : State c.m, (restartLoop c s ts).phase = s.phase := by
  induction ts with
  | nil => intro s; rfl
  | cons t ts ih =>
    intro s
    rw [restartLoop]
    split_ifs
    · rw [ih]; exact (sendJobs_same s t.1 t.2).1
    · rfl

theorem worker_same {m : ℕ} {s : State m} {i : Fin m} {x : Node} {s' : State m} (h : some (s.setNode i x) = some s') : s'.phase = s.phase ∧ s'.newPrime = s.newPrime ∧ s'.done = s.done := by
  rw [← Option.some.inj h]; exact ⟨rfl, rfl, rfl⟩

theorem asked_step (e : Event c.m) (h : Asked s) (hs : step c s e = some s') : Asked s' := by
  have same : s'.phase = s.phase ∧ s'.newPrime = s.newPrime ∧ s'.done = s.done → Asked s' := fun ⟨h1, h2, h3⟩ => h.of_eq h1 h2 h3
  have flt : some ({ s with fault := true } : State c.m) = some s' → Asked s' := fun hh => same (by rw [← Option.some.inj hh]; exact ⟨rfl, rfl, rfl⟩)
  cases e with
  | first vs =>
    simp only [step, firstStep] at hs
    split at hs
    · rename_i k hp
      split_ifs at hs with hk
      · split at hs
        · cases hs
        · split at hs
          · split_ifs at hs
            rw [← Option.some.inj hs]; exact Asked.of_live rfl
          · exact flt hs
      · rw [← Option.some.inj hs]; exact Asked.of_live rfl
    · cases hs
  | recv i =>
    simp only [step, recvStep] at hs
    split at hs
    · split_ifs at hs
      split at hs
      · exact flt hs
      · rw [← Option.some.inj hs]; exact Asked.of_live rfl
    · cases hs
  | reply =>
    simp only [step, replyStep] at hs
    split at hs
    · split_ifs at hs
      all_goals (rw [← Option.some.inj hs]; exact Asked.of_live rfl)
    · cases hs
  | restart =>
    simp only [step, restartStep] at hs
    split at hs
    · rename_i hp
      split_ifs at hs
      rw [← Option.some.inj hs]
      apply Asked.of_live
      rw [(testEmpty_same _).1, restartLoop_same, hp]
      rfl
    · cases hs
  | notice =>
    simp only [step, noticeStep] at hs
    split at hs
    · by_cases h1 : s.newPrime = true ∨ s.done = true
      · replace hs := (if_pos (α := Option (State c.m)) h1).symm.trans hs
        rw [← Option.some.inj hs]
        refine ⟨fun h => h, fun h2 _ => ?_⟩
        rcases h1 with h1 | h1
        · exact h1
        · have : s.done = false := h2
          rw [h1] at this; cases this
      · replace hs := (if_neg (α := Option (State c.m)) h1).symm.trans hs
        cases hs
    · cases hs
  | barrier1 =>
    simp only [step, barrier1Step] at hs
    split at hs
    · rename_i fin hp
      split_ifs at hs
      rw [← Option.some.inj hs]
      unfold Asked at h ⊢
      rw [hp] at h
      exact h
    · cases hs
  | drain =>
    simp only [step, drainStep] at hs
    split at hs
    · rename_i fin k hp
      unfold Asked at h
      rw [hp] at h
      split_ifs at hs with hk
      · split at hs
        · cases hs
        · rename_i r rest _
          rw [← Option.some.inj hs]
          unfold Asked
          dsimp only
          by_cases hr : r = [0]
          · rw [if_pos hr]; exact h
          · rw [if_neg hr]; exact h
      · rw [← Option.some.inj hs]
        exact h
    · cases hs
  | barrier2 =>
    simp only [step, barrier2Step] at hs
    split at hs
    · rename_i fin hp
      unfold Asked at h
      rw [hp] at h
      split_ifs at hs with h1 h2
      · rw [← Option.some.inj hs]
        exact ⟨fun _ => h.1 h2, fun hh => by cases hh⟩
      · rw [← Option.some.inj hs]; exact Asked.of_live rfl
    · cases hs
  | start =>
    simp only [step, startStep] at hs
    split at hs
    · split_ifs at hs
      rw [← Option.some.inj hs]; exact Asked.of_live rfl
    · cases hs
  | collect =>
    simp only [step, collectStep] at hs
    split at hs
    · rename_i k hp
      by_cases hk : k < c.m
      · rw [dif_pos hk] at hs
        split at hs
        · cases hs
        · split at hs
          · by_cases h1 : s.requested ≠ []
            · rw [if_pos h1] at hs
              rw [← Option.some.inj hs]
              apply Asked.of_live
              rw [(testEmpty_same _).1, (sendJobs_same _ _ _).1]; rfl
            · rw [if_neg h1] at hs
              split_ifs at hs
              · rw [← Option.some.inj hs]; exact Asked.of_live rfl
              · rw [← Option.some.inj hs]; exact Asked.of_live rfl
          · exact flt hs
      · rw [dif_neg hk] at hs
        rw [← Option.some.inj hs]; exact Asked.of_live rfl
    · cases hs
  | send i =>
    simp only [step, sendStep] at hs
    split at hs
    · split_ifs at hs <;> exact same (worker_same hs)
    · cases hs
  | take i =>
    simp only [step, takeStep] at hs
    split at hs
    · split_ifs at hs
      · exact flt hs
      · exact same (worker_same hs)
    · exact same (worker_same hs)
    · exact same (worker_same hs)
    · cases hs
  | queueJob i =>
    simp only [step, queueStep] at hs
    split at hs
    · split_ifs at hs
      · exact same (worker_same hs)
      · split at hs
        · exact flt hs
        · split_ifs at hs
          · split at hs
            · exact flt hs
            · exact same (worker_same hs)
          · exact same (worker_same hs)
    · cases hs
  | count i =>
    simp only [step, countStep] at hs
    split at hs
    · exact same (worker_same hs)
    · cases hs
  | compute i k =>
    simp only [step, computeStep] at hs
    split at hs
    · exact same (worker_same hs)
    · cases hs
  | last i =>
    simp only [step, lastStep] at hs
    split at hs
    · split_ifs at hs
      exact same (worker_same hs)
    · cases hs
  | setFlag =>
    simp only [step] at hs
    split_ifs at hs
    exact same (by rw [← Option.some.inj hs]; exact ⟨rfl, rfl, rfl⟩)
  | submit =>
    simp only [step] at hs
    split_ifs at hs
    exact same (by rw [← Option.some.inj hs]; exact ⟨rfl, rfl, rfl⟩)
  | getJob =>
    simp only [step, getJobStep] at hs
    split_ifs at hs
    · exact same (by rw [← Option.some.inj hs]; exact ⟨rfl, rfl, rfl⟩)
    · split at hs
      · exact flt hs
      · split_ifs at hs
        · exact flt hs
        · exact same (by rw [← Option.some.inj hs]; exact ⟨rfl, rfl, rfl⟩)
        · exact same (by rw [← Option.some.inj hs]; exact ⟨rfl, rfl, rfl⟩)
  | localDone k =>
    simp only [step, localDoneStep] at hs
    split at hs
    · exact same (by rw [← Option.some.inj hs]; exact ⟨rfl, rfl, rfl⟩)
    · cases hs
  | check =>
    simp only [step] at hs
    by_cases hc : s.checks = 0
    · rw [if_pos hc] at hs; cases hs
    · rw [if_neg hc] at hs
      exact same (by rw [← Option.some.inj hs]; exact ⟨rfl, rfl, rfl⟩)
  | clearFlag =>
    simp only [step] at hs
    split_ifs at hs
    exact same (by rw [← Option.some.inj hs]; exact ⟨rfl, rfl, rfl⟩)
  | call =>
    simp only [step] at hs
    split at hs
    · cases hs
    · exact same (by rw [← Option.some.inj hs]; exact ⟨rfl, rfl, rfl⟩)
  | queue v front =>
    simp only [step] at hs
    by_cases hc : s.flags ≠ 0 ∧ v.length = c.n ∧ s.requested.length + 1 < 2 ^ 31 ∧ s.log.length + 1 < 2 ^ 64
    · rw [if_pos hc] at hs
      exact same (by rw [← Option.some.inj hs]; exact ⟨rfl, rfl, rfl⟩)
    · rw [if_neg hc] at hs; cases hs
  | askPrime =>
    simp only [step] at hs
    rw [← Option.some.inj hs]
    exact ⟨h.1, fun _ _ => rfl⟩
  | askEnd =>
    simp only [step] at hs
    rw [← Option.some.inj hs]
    exact ⟨fun _ => rfl, h.2⟩
  | clear =>
    simp only [step] at hs
    split at hs
    · cases hs
    · cases hs
    · cases hs
    · split_ifs at hs
      exact same (by rw [← Option.some.inj hs]; exact ⟨rfl, rfl, rfl⟩)

theorem asked_run : ∀ (es : List (Event c.m)) (s s' : State c.m), Asked s → run c s es = some s' → Asked s'
  | [], s, s', h, hr => by cases hr; exact h
  | e :: es, s, s', h, hr => by
    rw [run] at hr
    split_ifs at hr
    cases hs : step c s e with
    | none => rw [hs] at hr; cases hr
    | some s1 =>
      rw [hs] at hr
      exact asked_run es s1 s' (asked_step e h hs) hr

theorem Reachable.asked (h : Reachable c s) : Asked s := by
  obtain ⟨es, h⟩ := h
  exact asked_run es _ _ (Asked.of_live rfl) h

/-! ### Quiet states -/

theorem quiet_flags (q : Quiet c s) : s.flags = 0 := by
  have := q .setFlag rfl
  simp only [step] at this
  by_contra h
  rw [if_neg h] at this
  cases this

theorem quiet_owed (q : Quiet c s) : s.owed = 0 := by
  have := q .submit rfl
  simp only [step] at this
  by_contra h
  rw [if_neg h] at this
  cases this

theorem quiet_jobs (q : Quiet c s) : s.jobs = 0 := by
  have := q .getJob rfl
  simp only [step] at this
  by_contra h
  unfold getJobStep at this
  rw [if_neg h] at this
  by_cases h1 : s.requested = []
  · rw [if_pos h1] at this; cases this
  · rw [if_neg h1] at this
    split at this
    · cases this
    · split_ifs at this

theorem quiet_requested (I : Inv c s a comp) (q : Quiet c s) : s.requested = [] := by
  have := I.jobs
  rw [quiet_owed q, quiet_jobs q] at this
  exact List.eq_nil_of_length_eq_zero (by omega)

theorem quiet_local (q : Quiet c s) : s.localRun = [] := by
  cases h : s.localRun with
  | nil => rfl
  | cons b l =>
    have := q (.localDone 0) rfl
    simp [step, localDoneStep, h] at this

theorem quiet_pool {i : Fin c.m} {x : ANode} (hn : s.node i = encNode c x) (q : Quiet c s) : x.pool = [] := by
  cases h : x.pool with
  | nil => rfl
  | cons b l =>
    have := q (.compute i 0) rfl
    simp only [step, computeStep, hn, encNode, h, List.getElem?_cons_zero] at this
    exact absurd this (Option.some_ne_none _)

theorem quiet_queueing {i : Fin c.m} {x : ANode} (hn : s.node i = encNode c x) (q : Quiet c s) (ps : List Probe) (st : ℕ) : x.phase ≠ .queueing ps st := by
  intro h
  have := q (.queueJob i) rfl
  simp only [step, queueStep, hn, encNode, h, encPhase] at this
  split_ifs at this
  split at this
  · exact Option.some_ne_none _ this
  · split_ifs at this
    split at this <;> exact Option.some_ne_none _ this

theorem quiet_counting {i : Fin c.m} {x : ANode} (hn : s.node i = encNode c x) (q : Quiet c s) (ps : List Probe) (st : ℕ) : x.phase ≠ .counting ps st := by
  intro h
  have := q (.count i) rfl
  simp only [step, countStep, hn, encNode, h, encPhase] at this
  exact Option.some_ne_none _ this

theorem quiet_top {i : Fin c.m} {x : ANode} (hn : s.node i = encNode c x) (q : Quiet c s) (h : x.phase = .top) : x.results = [] ∧ x.tasks ≠ 0 := by
  have := q (.send i) rfl
  simp only [step, sendStep, hn, encNode, h, encPhase] at this
  split_ifs at this with h1 h2
  push Not at h2
  exact ⟨(packResults_eq_nil _ _).mp h2, fun ht => h1 ⟨ht, h2⟩⟩

theorem quiet_inn {i : Fin c.m} {x : ANode} (hn : s.node i = encNode c x) (q : Quiet c s) (h : x.phase = .waiting) : x.inn = [] := by
  cases hi : x.inn with
  | nil => rfl
  | cons g l =>
    exfalso
    have := q (.take i) rfl
    simp only [step, takeStep, hn, encNode, h, encPhase, hi, List.map_cons] at this
    cases g with
    | values ps =>
      simp only [encIn] at this
      split_ifs at this
    | newPrime => simp only [encIn] at this; exact Option.some_ne_none _ this
    | stop => simp only [encIn] at this; exact Option.some_ne_none _ this

theorem quiet_last {i : Fin c.m} {x : ANode} (hn : s.node i = encNode c x) (q : Quiet c s) (fin : Bool) (h : x.phase = .last fin) : x.out ≠ [] := by
  intro ho
  have := q (.last i) rfl
  simp only [step, lastStep, hn, encNode, h, encPhase, ho, List.map_nil] at this
  rw [if_neg (by simp)] at this
  exact Option.some_ne_none _ this

theorem quiet_node (I : Inv c s a comp) (q : Quiet c s) (i : Fin c.m) :
    (a i).pool = [] ∧ (∀ ps st, (a i).phase ≠ .queueing ps st) ∧ (∀ ps st, (a i).phase ≠ .counting ps st) ∧ ((a i).phase = .top → (a i).results = [] ∧ (a i).tasks ≠ 0) ∧
    ((a i).phase = .waiting → (a i).inn = []) ∧ (∀ fin, (a i).phase = .last fin → (a i).out ≠ []) := by
  have hn : s.node i = encNode c (a i) := by rw [I.node]
  exact ⟨quiet_pool hn q, quiet_queueing hn q, quiet_counting hn q, quiet_top hn q, quiet_inn hn q, quiet_last hn q⟩

/-- In a quiet state a worker whose turn is not clear has to be parked. -/
theorem quiet_place (I : Inv c s a comp) (q : Quiet c s) {i : Fin c.m} {ph : MPhase c.m} {sg : List AIn} (h : Place c ph s.field s.emptyNodes i sg (a i)) (hr : notReply ph i) (ho : (a i).out = []) :
    sg = [] ∧ (a i).acc = 0 ∧ (i, buffer * c.wthr i) ∈ s.emptyNodes := by
  obtain ⟨q1, q2, q3, q4, q5, q6⟩ := quiet_node I q i
  generalize a i = x at *
  cases h with
  | top t r p hp hr hb hc =>
    have h1 := (q4 rfl).1
    dsimp only at h1 q1
    subst h1 q1
    simp at hb
  | queueing ps st t r p => exact absurd rfl (q2 ps st)
  | counting ps st t r p => exact absurd rfl (q3 ps st)
  | sent => simp at ho
  | replying w t r p hp hw => exact absurd hw (hr w)
  | answered => simp at q5
  | parked hen =>
    have h5 : sg = [] := q5 rfl
    exact ⟨h5, by simp [ANode.acc, APhase.rest, h5], hen⟩

theorem quiet_fresh (I : Inv c s a comp) (q : Quiet c s) {i : Fin c.m} {fld : ℕ} (h : Fresh c fld s.emptyNodes i (a i)) : (a i).out = [.free (buffer * c.wthr i)] := by
  obtain ⟨q1, q2, q3, q4, q5, q6⟩ := quiet_node I q i
  generalize a i = x at *
  cases h with
  | top hp => exact absurd rfl (q4 rfl).2
  | sent => rfl

theorem quiet_all (I : Inv c s a comp) (q : Quiet c s) (hR : Running s) (h : ∀ i, (a i).acc = 0) : AllDelivered s := by
  have := I.eq hR
  rw [quiet_requested I q, quiet_local q] at this
  simp only [h, Finset.sum_const_zero, add_zero, List.flatten_nil, Multiset.coe_nil, zero_add] at this
  unfold AllDelivered
  rw [I.delivered_eq]
  exact (Multiset.coe_eq_coe.mp this).map _

/-- Where the program can rest. -/
theorem quiet_cases (V : c.Valid) (I : Inv c s a comp) (q : Quiet c s) (hb : s.log.length + 2 ^ 32 < 2 ^ 64) :
    (s.phase = .poll ∧ s.newPrime = false ∧ s.done = false ∧ AllDelivered s ∧ ∀ i, i ∈ s.emptyNodes.map Prod.fst) ∨
    (s.phase = .refill ∧ s.newJobs = false ∧ (s.newPrime = false → s.done = false → AllDelivered s) ∧ ∀ i, (s.node i).phase = .between) ∨
    (s.phase = .off ∧ ∀ i, (s.node i).phase = .off) := by
  have hn : ∀ i, s.node i = encNode c (a i) := fun i => by rw [I.node]
  cases hph : s.phase with
  | first k =>
    exfalso
    by_cases hk : k < c.m
    · have hN := I.nodes ⟨k, hk⟩
      rw [hph] at hN
      have hF := quiet_fresh I q (hN.2 (le_refl _))
      have hmod : buffer * c.wthr ⟨k, hk⟩ % 2 ^ 32 < 2 ^ 32 := Nat.mod_lt _ (by norm_num)
      have := q (.first (List.replicate (buffer * c.wthr ⟨k, hk⟩ % 2 ^ 32) (List.replicate c.n 0))) rfl
      simp only [step, firstStep, hph] at this
      rw [dif_pos hk, hn] at this
      simp only [encNode, hF, List.map_cons, List.map_nil, encOut] at this
      rw [if_pos ⟨List.length_replicate, fun v hv => by rw [List.eq_of_mem_replicate hv]; simp, by rw [List.length_replicate]; omega⟩] at this
      cases this
    · have := q (.first []) rfl
      simp only [step, firstStep, hph] at this
      rw [dif_neg hk] at this
      cases this
  | poll =>
    left
    have hfl : ¬ (s.newPrime = true ∨ s.done = true) := by
      intro h
      have := q .notice rfl
      simp only [step, noticeStep, hph] at this
      rw [if_pos h] at this
      cases this
    push Not at hfl
    have h1 : s.newPrime = false := by simpa using hfl.1
    have h2 : s.done = false := by simpa using hfl.2
    have hout : ∀ i, (a i).out = [] := by
      intro i
      cases ho : (a i).out with
      | nil => rfl
      | cons r rest =>
        exfalso
        have := q (.recv i) rfl
        simp only [step, recvStep, hph, hn, encNode, ho, List.map_cons] at this
        rw [if_neg (by simp [h1, h2])] at this
        split at this <;> cases this
    have hP : ∀ i, (a i).acc = 0 ∧ (i, buffer * c.wthr i) ∈ s.emptyNodes := by
      intro i
      have hN := I.nodes i
      rw [hph] at hN
      refine (quiet_place I q (ph := .poll) hN (fun w => by simp) ?_).2
      exact hout i
    exact ⟨rfl, h1, h2, quiet_all I q ⟨by rw [hph]; rfl, h1, h2⟩ (fun i => (hP i).1), fun i => List.mem_map.mpr ⟨_, (hP i).2, rfl⟩⟩
  | reply i w =>
    exfalso
    have := q .reply rfl
    simp only [step, replyStep, hph] at this
    split_ifs at this
  | bar1 fin =>
    exfalso
    have := q .barrier1 rfl
    simp only [step, barrier1Step, hph] at this
    rw [if_pos] at this
    · cases this
    · intro i
      have hN := I.nodes i
      rw [hph] at hN
      rcases hN with h | h
      · exfalso
        obtain ⟨q1, q2, q3, q4, q5, q6⟩ := quiet_node I q i
        by_cases ho : (a i).out = []
        · have := (quiet_place I q (ph := .bar1 fin) h (fun w => by simp) ho).1
          cases this
        · generalize a i = x at *
          cases h <;> simp at ho q5
      · rw [hn]
        simp [passBar1, encNode, h.1, encPhase]
  | drain fin k =>
    exfalso
    have := q .drain rfl
    simp only [step, drainStep, hph] at this
    by_cases hk : k < c.m
    · rw [dif_pos hk] at this
      have hN := I.nodes ⟨k, hk⟩
      rw [hph] at hN
      have hlast := (quiet_node I q ⟨k, hk⟩).2.2.2.2.2 fin
      have ho : (a ⟨k, hk⟩).out ≠ [] := by
        rcases hN.2.2.2 (le_refl _) with h | ⟨_, pre, h, _⟩
        · exact hlast h.1
        · rw [h]; simp
      cases ho' : (a ⟨k, hk⟩).out with
      | nil => exact ho ho'
      | cons r rest =>
        simp only [hn, encNode, ho', List.map_cons] at this
        cases this
    · rw [dif_neg hk] at this; cases this
  | bar2 fin =>
    exfalso
    have := q .barrier2 rfl
    simp only [step, barrier2Step, hph] at this
    rw [if_pos] at this
    · split_ifs at this
    · intro i
      have hN := I.nodes i
      rw [hph] at hN
      rw [hn]
      simp [passBar2, encNode, hN.2.2.2, encPhase]
  | refill =>
    right; left
    have hN : ∀ i, (a i).acc = 0 ∧ (a i).phase = .between := by
      intro i
      have hN := I.nodes i
      rw [hph] at hN
      obtain ⟨g2, ⟨g3, g4, g5⟩, g6, g1⟩ := hN
      exact ⟨by simp [ANode.acc, g1, g2, g3, g4, g6, APhase.rest], g1⟩
    refine ⟨rfl, ?_, ?_, ?_⟩
    · have := q .start rfl
      simp only [step, startStep, hph] at this
      split_ifs at this with h
      simpa using h
    · intro h1 h2
      exact quiet_all I q ⟨by rw [hph]; rfl, h1, h2⟩ (fun i => (hN i).1)
    · intro i
      rw [hn]
      simp [encNode, (hN i).2, encPhase]
  | collect k =>
    exfalso
    have := q .collect rfl
    simp only [step, collectStep, hph] at this
    by_cases hk : k < c.m
    · rw [dif_pos hk] at this
      have hN := I.nodes ⟨k, hk⟩
      rw [hph] at hN
      have hF := quiet_fresh I q (hN.2 (le_refl _))
      rw [hn] at this
      simp only [encNode, hF, List.map_cons, List.map_nil, encOut] at this
      split_ifs at this
    · rw [dif_neg hk] at this; cases this
  | off =>
    right; right
    refine ⟨rfl, fun i => ?_⟩
    have hN := I.nodes i
    rw [hph] at hN
    rw [hn]
    simp [encNode, hN.2.2.2, encPhase]

end FireFly.Mpi
