import Verif.Props.CrashProps
/-!
# C42: crashes with consequences
-/
set_option linter.all false
namespace FireFly.Crash

def runMain {N : ℕ} (d : Fin N → Disk) (l : List (Fin N × Op)) : Fin N → Disk := l.foldl (fun d x => Function.update d x.1 (x.2.run (d x.1))) d

lemma reach_main {N : ℕ} {s : Sys N} (h : Reach s) (up : s.up = true) (a : List (Fin N × Op)) {b : List (Fin N × Op)} (e : s.main = a ++ b) :
    Reach { s with disk := runMain s.disk a, main := b } := by
  induction a generalizing s with
  | nil =>
    simp only [List.nil_append] at e
    simpa [← e, runMain] using h
  | cons o a ih =>
    obtain ⟨i, o⟩ := o
    have h1 := Reach.step h (Step.mainOp s i o (a ++ b) up e)
    have h2 := ih h1 up rfl
    simpa [runMain] using h2

lemma start_active : (start 1).Active 0 := ⟨rfl, rfl, rfl, rfl, rfl, rfl, rfl⟩

/-- A crash while the file of the probes is replaced: for a moment there is none, and the run cannot be resumed. -/
theorem C42_no_probe_file_violated : ∃ s : Sys 1, Reach s ∧ s.up = false ∧ (∀ j, (s.disk 0).probe j = none) ∧ ∀ t, Step s t → t.up = false := by
  have r1 := Reach.step Reach.start (Step.field (start 1) 0 start_active)
  have r2 := reach_ops r1 rfl 0 [.openTmp 0, .writeTmp 0 (.state [0] false), .tmpToState 0, .probeToTmp 0 1] (b := [.createProbe 1, .probeToTmp 1 1, .tmpToProbe 1]) rfl
  have r3 := Reach.step r2 (Step.crash _)
  have hn : ∀ j, (runOps ((start 1).disk 0) [.openTmp 0, .writeTmp 0 (.state [0] false), .tmpToState 0, .probeToTmp 0 1]).probe j = none := by
    intro j
    show Function.update (Function.update (fun _ : ℕ => (none : Option (List ℕ))) 0 (some [])) 0 none j = none
    by_cases e : j = 0
    · subst e; simp
    · simp [e]
  refine ⟨_, r3, rfl, hn, ?_⟩
  apply stuck rfl 0
  intro k o j l hf
  have h1 := hf.probe
  have h2 : (runOps ((start 1).disk 0) [.openTmp 0, .writeTmp 0 (.state [0] false), .tmpToState 0, .probeToTmp 0 1]).probe j = some l := h1
  rw [hn j] at h2
  cases h2

/-- A crash while the state file of a function is written whose first probe is zero: it is unusable, and the run cannot be resumed. -/
theorem C42_zero_write_violated : ∃ s : Sys 1, Reach s ∧ s.up = false ∧ (s.disk 0).state 0 = some .broken ∧ ∀ t, Step s t → t.up = false := by
  have r1 := Reach.step Reach.start (Step.zero (start 1) 0 start_active)
  have r2 := reach_ops r1 rfl 0 [.openState 0] (b := .writeState 0 .zero :: newProbeOps 0) rfl
  have r3 := Reach.step r2 (Step.crash _)
  refine ⟨_, r3, rfl, rfl, ?_⟩
  apply stuck rfl 0
  intro k o j l hf
  obtain ⟨c, h1, h2⟩ := hf.state
  have h3 := hf.state_unique 0 (by simp [runOps, Op.run, Sys.act, start])
  subst h3
  have h4 : c = .broken := by
    have : some Content.broken = some c := h1
    simpa using this.symm
  subst h4
  cases h2

/-- Two crashes: the first one after the state was saved and before the file of the probes was replaced, the second one in the next prime field. Then
a probe of field 0 is found that is taken for one of field 1. -/
theorem C42_probes_violated : ∃ s : Sys 1, Reach s ∧ s.up = false ∧ ∃ k o j l, Found (s.disk 0) k o j l ∧ o.done = false ∧ j = o.prime ∧ o.prime = 1 ∧ 0 ∈ l := by
  have r1 := Reach.step Reach.start (Step.store (start 1) 0 start_active 1)
  have r2 := reach_ops r1 rfl 0 [.appendProbe 0 [0]] (b := []) rfl
  have r3 := Reach.step r2 (Step.field _ 0 ⟨rfl, rfl, rfl, rfl, rfl, rfl, rfl⟩)
  have r4 := reach_ops r3 rfl 0 [.openTmp 0, .writeTmp 0 (.state [0] false), .tmpToState 0] (b := newProbeOps 0) rfl
  have r5 := Reach.step r4 (Step.crash _)
  have hsu : ∀ (c : Content) (k' : ℕ), Function.update (Function.update (fun _ => none) 0 (some Content.initial)) 0 (some c) k' ≠ none → k' = 0 := by
    intro c k' hk
    by_contra hn
    simp [hn] at hk
  have hpu : ∀ (l : List ℕ) (k' : ℕ), Function.update (Function.update (fun _ => none) 0 (some ([] : List ℕ))) 0 (some l) k' ≠ none → k' = 0 := by
    intro c k' hk
    by_contra hn
    simp [hn] at hk
  have r6 := Reach.step r5 (Step.resume _ rfl (fun _ => 0) (fun _ => ⟨1, [0], 0, false, .state [0] false, .state [0] false⟩) (fun _ => 0) (fun _ => [0])
    (fun i => by
      have : i = 0 := Subsingleton.elim _ _
      subst this
      exact ⟨⟨.state [0] false, rfl, rfl⟩, hsu _, rfl, hpu _⟩) 0 (fun _ => le_refl _) ⟨0, rfl⟩)
  have r7 := Reach.step r6 (Step.next _ rfl rfl rfl (fun i => by
      have : i = 0 := Subsingleton.elim _ _
      subst this
      rfl) (fun _ => Or.inr (by show 0 < 1; norm_num)))
  have r8 := reach_main r7 rfl [(0, .moveProbe 0 1)] (b := []) rfl
  have r9 := Reach.step r8 (Step.crash _)
  refine ⟨_, r9, rfl, 0, ⟨1, [0], 0, false, .state [0] false, .state [0] false⟩, 1, [0], ⟨⟨.state [0] false, rfl, rfl⟩, hsu _, rfl, ?_⟩, rfl, rfl, rfl, by simp⟩
  intro j' hj'
  have h1 : Function.update (Function.update (Function.update (Function.update (fun _ => none) 0 (some ([] : List ℕ))) 0 (some [0])) 0 none) 1 (some [0]) j' ≠ none := hj'
  by_contra hn
  by_cases e : j' = 0
  · subst e; simp at h1
  · simp [hn, e] at h1

/-- No crash is needed: a function whose first probe in field 0 is zero, and `reconstruct` is called with a limited number of prime fields three times. At the end of each run the
state file is moved to the next number although the field was not used; the third run takes the function to be zero although its first
probe was zero in one field only. -/
theorem C42_zero_violated : ∃ s : Sys 1, Reach s ∧ s.up = true ∧ (s.obj 0).done = true ∧ (s.obj 0).saved = .zero ∧ s.zeros 0 = [0] := by
  have r1 := Reach.step Reach.start (Step.zero (start 1) 0 start_active)
  have r2 := reach_ops r1 rfl 0 ([.openState 0, .writeState 0 .zero] ++ newProbeOps 0) (b := []) rfl
  have r3 := Reach.step r2 (Step.nextStop _ rfl rfl rfl (fun i => by
      have : i = 0 := Subsingleton.elim _ _
      subst this
      rfl) (fun i => Or.inr (by
      have : i = 0 := Subsingleton.elim _ _
      subst this
      show 0 < 1; norm_num)))
  have r4 := reach_main r3 rfl [(0, .moveProbe 0 1), (0, .removeProbe 1), (0, .createProbe 2), (0, .moveState 0 1)] (b := []) rfl
  have r5 := Reach.step r4 (Step.crash _)
  have hsu : ∀ k' : ℕ, Function.update (Function.update (Function.update (Function.update (Function.update (fun _ => none) 0 (some Content.initial)) 0 (some .broken)) 0 (some .zero)) 0 none) 1 (some .zero) k' ≠ none → k' = 1 := by
    intro k' hk
    by_contra hn
    by_cases e : k' = 0
    · subst e; simp at hk
    · simp [hn, e] at hk
  have r6 := Reach.step r5 (Step.resume _ rfl (fun _ => 1) (fun _ => ⟨2, [], 2, false, .zero, .zero⟩) (fun _ => 2) (fun _ => [])
    (fun i => by
      have : i = 0 := Subsingleton.elim _ _
      subst this
      refine ⟨⟨.zero, rfl, rfl⟩, hsu, rfl, ?_⟩
      intro j' hj'
      by_contra hn
      by_cases e0 : j' = 0
      · subst e0; exact hj' rfl
      · by_cases e1 : j' = 1
        · subst e1; exact hj' rfl
        · apply hj'
          simp [runMain, runOps, newProbeOps, Op.run, Sys.act, start, move, hn, e0, e1]) 1 (fun _ => le_refl _) ⟨0, rfl⟩)
  have r7 := Reach.step r6 (Step.nextStop _ rfl rfl rfl (fun i => by
      have : i = 0 := Subsingleton.elim _ _
      subst this
      rfl) (fun i => Or.inr (by show 1 < 2; norm_num)))
  have r8 := reach_main r7 rfl [(0, .moveProbe 1 2), (0, .moveState 0 1), (0, .removeProbe 2), (0, .createProbe 3), (0, .moveState 1 2)] (b := []) rfl
  have r9 := Reach.step r8 (Step.crash _)
  have r10 := Reach.step r9 (Step.resume _ rfl (fun _ => 2) (fun _ => ⟨3, [], 0, true, .zero, .zero⟩) (fun _ => 3) (fun _ => [])
    (fun i => by
      have : i = 0 := Subsingleton.elim _ _
      subst this
      refine ⟨⟨.zero, rfl, rfl⟩, ?_, rfl, ?_⟩
      · intro j' hj'
        by_contra hn
        by_cases e0 : j' = 0
        · subst e0; exact hj' rfl
        · by_cases e1 : j' = 1
          · subst e1; exact hj' rfl
          · apply hj'
            simp [runMain, runOps, newProbeOps, Op.run, Sys.act, start, move, hn, e0, e1]
      · intro j' hj'
        by_contra hn
        by_cases e0 : j' = 0
        · subst e0; exact hj' rfl
        · by_cases e1 : j' = 1
          · subst e1; exact hj' rfl
          · by_cases e2 : j' = 2
            · subst e2; exact hj' rfl
            · apply hj'
              simp [runMain, runOps, newProbeOps, Op.run, Sys.act, start, move, hn, e0, e1, e2]) 2 (fun _ => le_refl _) ⟨0, rfl⟩)
  exact ⟨_, r10, rfl, rfl, rfl, rfl⟩

/-- A calm history with a crash and a resumption: a concrete case of the hypotheses of the `_partial` theorems. -/
example : ∃ s : Sys 1, CalmReach s ∧ s.up = false ∧ (s.obj 0).prime = 0 ∧ (s.disk 0).probe 0 = some [0, 0] := by
  have r1 := CalmReach.step CalmReach.start (Step.store (start 1) 0 start_active 2) (fun _ h => by cases h)
  have r2 := CalmReach.step r1 (Step.op _ 0 (.appendProbe 0 [0, 0]) [] rfl rfl) (fun _ h => by cases h)
  refine ⟨_, CalmReach.step r2 (Step.crash _) (fun _ _ => ⟨fun i => ?_, fun h => (by cases h), fun i _ _ => ?_⟩), rfl, rfl, rfl⟩
  · have : i = 0 := Subsingleton.elim _ _
    subst this
    rfl
  · have : i = 0 := Subsingleton.elim _ _
    subst this
    show some Content.initial ≠ none
    simp

end FireFly.Crash
