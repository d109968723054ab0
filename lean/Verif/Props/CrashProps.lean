import Verif.Lemmas.CrashCalmStep
/-!
# C41, C42: crashes and the directory `ff_save`
-/
set_option linter.all false
namespace FireFly.Crash

/-! ## the state files -/

/-- **C41 (one state file).** At any time, in any history of steps, crashes and resumptions, there is exactly one state file per function. It is the one that was
saved last, or the one before (while a new one is being put in its place), or unusable with number 0. The prime fields it combines are
pairwise different, in increasing order, and not larger than its number. -/
theorem C41_state {N : ℕ} {s : Sys N} (h : Reach s) (i : Fin N) :
    ∃ k c, (s.disk i).state k = some c ∧ (∀ k', (s.disk i).state k' ≠ none → k' = k) ∧ c.fields.Pairwise (· < ·) ∧ (∀ x ∈ c.fields, x ≤ k) ∧
      (c = (s.obj i).saved ∨ c = (s.obj i).prev ∨ (c = .broken ∧ k = 0)) := by
  obtain ⟨k, c, h1, h2, h3⟩ := ((inv_reach h).q i).head
  refine ⟨k, c, h1.1, h1.2, ?_, ?_, ?_⟩
  · cases c with
    | state f d => exact h2.1
    | _ => exact List.Pairwise.nil
  · cases c with
    | state f d => exact h2.2
    | _ => intro x hx; simp [Content.fields] at hx
  · rcases h3 with h3 | h3 | h3
    · exact Or.inl h3
    · exact Or.inr (Or.inl h3)
    · subst h3; exact Or.inr (Or.inr ⟨rfl, h2⟩)

/-- **C41 (nothing is pending).** When no operation on its files is pending, the state file of a function contains what the object has combined. -/
theorem C41_durable {N : ℕ} {s : Sys N} (h : Reach s) (up : s.up = true) (open_ : s.closing = false) (main : s.main = []) (i : Fin N) (todo : s.todo i = []) :
    ∃ k, (s.disk i).state k = some (s.obj i).saved ∧ (s.obj i).saved.fields = (s.obj i).fields ∧ (s.obj i).saved ≠ .broken := by
  obtain ⟨k, hk⟩ := (inv_reach h).good up open_ i
  have e : s.pending i = [] := by unfold Sys.pending; rw [todo, main]; rfl
  rw [e] at hk
  exact ⟨k, hk.single.1, hk.fields.symm, hk.notBroken⟩

/-- **C41 (no field twice).** No prime field is combined twice, whatever crashes happened: the fields are in increasing order and
smaller than the field in which the object works. -/
theorem C41_no_field_twice {N : ℕ} {s : Sys N} (h : Reach s) (i : Fin N) :
    (s.obj i).fields.Pairwise (· < ·) ∧ ∀ x ∈ (s.obj i).fields, x < (s.obj i).prime :=
  ⟨(inv_reach h).sorted i, (inv_reach h).below i⟩

/-- **C41 (at most one field is lost).** The process ends at any time, and is resumed successfully: each object has the prime fields it had
when the process ended, or all but the last one. -/
theorem C41_lost {N : ℕ} {s t : Sys N} (h : Reach s) (down : s.up = false) (hst : Step s t) (up : t.up = true) (i : Fin N) :
    (t.obj i).fields = (s.obj i).fields ∨ (t.obj i).fields ++ [(s.obj i).prime - 1] = (s.obj i).fields := by
  have I := inv_reach h
  cases hst with
  | op _ _ _ up' => rw [down] at up'; cases up'
  | mainOp _ _ _ up' => rw [down] at up'; cases up'
  | field _ ha => have := ha.up; rw [down] at this; cases this
  | zero _ ha => have := ha.up; rw [down] at this; cases this
  | skipSave _ ha => have := ha.up; rw [down] at this; cases this
  | skip _ ha => have := ha.up; rw [down] at this; cases this
  | finish _ ha => have := ha.up; rw [down] at this; cases this
  | store _ ha => have := ha.up; rw [down] at this; cases this
  | next up' => rw [down] at up'; cases up'
  | nextStop up' => rw [down] at up'; cases up'
  | stop up' => rw [down] at up'; cases up'
  | crash => cases up
  | resume _ num obj pnum labels found P hle hmem =>
    obtain ⟨k, c, h1, h2, h3⟩ := (I.q i).head
    obtain ⟨c', e1, e2⟩ := (found i).state
    obtain ⟨rfl, rfl⟩ := h1.unique ⟨e1, (found i).state_unique⟩
    have hf : (obj i).fields = c.fields := by
      cases c with
      | broken => cases e2
      | initial => simp only [loadObj, Option.some.injEq] at e2; rw [← e2]; rfl
      | zero => simp only [loadObj, Option.some.injEq] at e2; rw [← e2]; rfl
      | state f d => simp only [loadObj, Option.some.injEq] at e2; rw [← e2]; rfl
    show (obj i).fields = _ ∨ (obj i).fields ++ _ = _
    rw [hf, I.kept i]
    rcases h3 with h3 | h3 | h3
    · exact Or.inl (by rw [h3])
    · rw [h3]
      rcases I.lost i with h4 | h4
      · exact Or.inl h4.symm
      · exact Or.inr h4.symm
    · subst h3; cases e2

/-! ## the files of the probes -/

/-- **C42 (probes), partial.** If the process ended in quiet states only, the probes that are found for an unfinished function belong to the prime field in
which the object works, and they are taken (the number of the file is that field). Missing: histories in which the process ended while an object was
writing its state and its file of probes, or at the end of the run; there the claim fails (`C42_probes_violated`, `C42_no_probe_file_violated`). -/
theorem C42_probes_partial {N : ℕ} {s : Sys N} (h : CalmReach s) (down : s.up = false) (i : Fin N) {k j : ℕ} {o : Obj} {l : List ℕ} (hf : Found (s.disk i) k o j l)
    (hd : o.done = false) : j = o.prime ∧ ∀ x ∈ l, x = o.prime := by
  obtain ⟨B, hB⟩ := (cinv_reach h).down down
  obtain ⟨k', c, j', l', o', h1, h2, h3, h4, -⟩ := hB i
  obtain ⟨c', e1, e2⟩ := hf.state
  obtain ⟨rfl, rfl⟩ := h1.unique ⟨e1, hf.state_unique⟩
  obtain ⟨rfl, rfl⟩ := h2.unique ⟨hf.probe, hf.probe_unique⟩
  have : o' = o := by have := h3.symm.trans e2; simpa using this
  subst this
  exact h4 hd

/-- **C42 (a run can be resumed), partial.** If the process ended in quiet states only, it can be resumed. -/
theorem C42_resumable_partial {N : ℕ} [NeZero N] {s : Sys N} (h : CalmReach s) (down : s.up = false) : ∃ t, Step s t ∧ t.up = true := by
  obtain ⟨B, hB⟩ := (cinv_reach h).down down
  choose k c j l o h1 h2 h3 _ using hB
  have hf : ∀ i, Found (s.disk i) (k i) (o i) (j i) (l i) := fun i => ⟨⟨c i, (h1 i).1, h3 i⟩, (h1 i).2, (h2 i).1, (h2 i).2⟩
  obtain ⟨i0, -, hi0⟩ := Finset.exists_min_image Finset.univ k ⟨0, Finset.mem_univ _⟩
  exact ⟨_, Step.resume s down k o j l hf (k i0) (fun i => hi0 i (Finset.mem_univ _)) ⟨i0, rfl⟩, rfl⟩

/-- **C42 (nothing is lost), partial.** If the process ends in a quiet state before the end of the run, each object has all its prime fields after the
resumption, and works in the same field; finished objects are finished. -/
theorem C42_quiet_partial {N : ℕ} {s : Sys N} (h : CalmReach s) (up : s.up = true) (open_ : s.closing = false) (hq : Quiet s) (i : Fin N)
    {k j : ℕ} {o : Obj} {l : List ℕ} (hf : Found (s.disk i) k o j l) :
    o.fields = (s.obj i).fields ∧ ((s.obj i).done = true → o.done = true) ∧ ((s.obj i).done = false → o.prime = (s.obj i).prime) := by
  have C := cinv_reach h
  have I := inv_reach h.reach
  have hpos : ∃ B k j l, Pos (s.obj i) (s.disk i) B k j l := by
    by_cases hm : s.main = []
    · obtain ⟨k, j, l, h1, -⟩ := C.idle up open_ i
      have e : s.pending i = [] := by unfold Sys.pending; rw [hq.todo i, hm]; rfl
      rw [e, runOps_nil] at h1
      exact ⟨_, k, j, l, h1⟩
    · obtain ⟨B, hB⟩ := C.mid up open_ hm
      obtain ⟨k, j, l, h1⟩ := (hB i).head
      exact ⟨B, k, j, l, h1⟩
  obtain ⟨B, k', j', l', hp⟩ := hpos
  obtain ⟨c', e1, e2⟩ := hf.state
  obtain ⟨e3, e4⟩ := hp.single.unique ⟨e1, hf.state_unique⟩
  subst e3
  have hnum : (s.obj i).done = false → (s.obj i).prime - 1 = k' := fun hd => hp.single.2 _ (hq.number i open_ hd)
  have hbr := hp.notBroken
  cases hs : (s.obj i).saved with
  | broken => exact absurd hs hbr
  | initial =>
    rw [hs] at e4; subst e4
    simp only [loadObj, Option.some.injEq] at e2
    subst e2
    refine ⟨by rw [I.kept i, hs]; rfl, fun hd => ?_, fun hd => (hp.init hs).2.symm⟩
    rcases hp.doneForm hd with ⟨f, h3⟩ | ⟨h3, -⟩ <;> (rw [hs] at h3; cases h3)
  | zero =>
    rw [hs] at e4; subst e4
    simp only [loadObj, Option.some.injEq] at e2
    subst e2
    refine ⟨by rw [I.kept i, hs]; rfl, fun hd => ?_, fun hd => ?_⟩
    · rcases hp.doneForm hd with ⟨f, h3⟩ | ⟨-, h3⟩
      · rw [hs] at h3; cases h3
      · simp; omega
    · have := hnum hd
      have := hp.pos hd (by rw [hs]; simp)
      show k' + 1 = _
      omega
  | state f d =>
    rw [hs] at e4; subst e4
    simp only [loadObj, Option.some.injEq] at e2
    subst e2
    refine ⟨by rw [I.kept i, hs]; rfl, fun hd => ?_, fun hd => ?_⟩
    · rcases hp.doneForm hd with ⟨f, h3⟩ | ⟨h3, -⟩
      · rw [hs] at h3; injection h3
      · rw [hs] at h3; cases h3
    · have := hnum hd
      have := hp.pos hd (by rw [hs]; simp)
      show k' + 1 = _
      omega

/-! ## defects -/

lemma reach_ops {N : ℕ} {s : Sys N} (h : Reach s) (up : s.up = true) (i : Fin N) (a : List Op) {b : List Op} (e : s.todo i = a ++ b) :
    Reach { s with disk := Function.update s.disk i (runOps (s.disk i) a), todo := Function.update s.todo i b } := by
  induction a generalizing s with
  | nil =>
    simp only [List.nil_append] at e
    simpa [← e] using h
  | cons o a ih =>
    have h1 := Reach.step h (Step.op s i o (a ++ b) up e)
    have h2 := ih h1 up (by simp)
    simpa [runOps_cons] using h2

/-- A process that has ended cannot be resumed if no file of probes or no usable state file is found for a function. -/
lemma stuck {N : ℕ} {s : Sys N} (down : s.up = false) (i : Fin N) (h : ∀ k o j l, ¬ Found (s.disk i) k o j l) : ∀ t, Step s t → t.up = false := by
  intro t hst
  cases hst with
  | op _ _ _ up' => rw [down] at up'; cases up'
  | mainOp _ _ _ up' => rw [down] at up'; cases up'
  | field _ ha => have := ha.up; rw [down] at this; cases this
  | zero _ ha => have := ha.up; rw [down] at this; cases this
  | skipSave _ ha => have := ha.up; rw [down] at this; cases this
  | skip _ ha => have := ha.up; rw [down] at this; cases this
  | finish _ ha => have := ha.up; rw [down] at this; cases this
  | store _ ha => have := ha.up; rw [down] at this; cases this
  | next up' => rw [down] at up'; cases up'
  | nextStop up' => rw [down] at up'; cases up'
  | stop up' => rw [down] at up'; cases up'
  | crash => rfl
  | resume _ num obj pnum labels found P hle hmem => exact absurd (found i) (h _ _ _ _)

end FireFly.Crash
