import Verif.Lemmas.NeededFeedShift
/-! # All objects of a field: the requests, the queued probes -/
set_option linter.all false
namespace FireFly.Needed
variable {F ι : Type} [DecidableEq ι] {objs : ι → Obj F} {n : ℕ} {good : F × List ℕ → Prop} {R : ι → List (ℕ × ℕ)}

lemma ones_inj (hn : 2 ≤ n) {o o' : ℕ} (h : ones n o = ones n o') : o = o' := by
  unfold ones at h
  obtain ⟨k, hk⟩ := Nat.exists_eq_succ_of_ne_zero (show n - 1 ≠ 0 by omega)
  rw [hk, List.replicate_succ, List.replicate_succ] at h
  exact (List.cons.inj h).1

lemma count_append (l l' : List (F × List ℕ)) (o : ℕ) : count n (l ++ l') o = count n l o + count n l' o := by
  unfold count; rw [List.filter_append, List.length_append]

lemma count_mono {l l' : List (F × List ℕ)} (hnd : l.Nodup) (hsub : ∀ q ∈ l, q ∈ l') (o : ℕ) : count n l o ≤ count n l' o := by
  unfold count
  apply (List.Nodup.subperm (hnd.filter _) _).length_le
  intro q hq
  rw [List.mem_filter] at hq ⊢
  exact ⟨hsub q hq.1, hq.2⟩

/-- the new probes of one entry -/
lemma ask_spec (st : FFMap ℕ) (el : ℕ × ℕ) (new : List (F × List ℕ)) (hnew : new.map Prod.snd = (Req.ask n { started := st } el).queued) :
    ((Req.ask n { started := st } el).started.find? (ones n el.1)).getD 0 = max ((st.find? (ones n el.1)).getD 0) el.2 ∧
    (∀ o, ones n o ≠ ones n el.1 → (Req.ask n { started := st } el).started.find? (ones n o) = st.find? (ones n o)) ∧
    new.length = max ((st.find? (ones n el.1)).getD 0) el.2 - (st.find? (ones n el.1)).getD 0 ∧ (∀ q ∈ new, q.2 = ones n el.1) := by
  have hlen : new.length = (Req.ask n { started := st } el).queued.length := by rw [← hnew, List.length_map]
  have hmem : ∀ q ∈ new, q.2 ∈ (Req.ask n { started := st } el).queued := fun q hq => by rw [← hnew]; exact List.mem_map_of_mem hq
  have hne : ∀ o, ones n o ≠ ones n el.1 → ones n o ≠ List.replicate (n - 1) el.1 := fun o ho h => ho h
  unfold Req.ask at hlen hmem ⊢
  unfold ones at *
  by_cases h0 : el.2 = 0
  · rw [if_pos h0] at hlen hmem ⊢
    refine ⟨by simp [h0], fun _ _ => rfl, by rw [hlen, h0]; simp, fun q hq => absurd (hmem q hq) (by simp)⟩
  · rw [if_neg h0] at hlen hmem ⊢
    simp only at hlen hmem ⊢
    cases hf : st.find? (List.replicate (n - 1) el.1) with
    | none =>
      rw [hf] at hlen hmem
      simp only [Req.queue, List.nil_append, List.length_replicate] at hlen hmem ⊢
      refine ⟨?_, fun o ho => ?_, by rw [hlen]; simp, fun q hq => List.eq_of_mem_replicate (hmem q hq)⟩
      · rw [FFMap.find?_emplace]; simp [hf]
      · rw [FFMap.find?_emplace]; simp [hne o ho]
    | some k =>
      rw [hf] at hlen hmem
      simp only [Option.getD_some] at hlen hmem ⊢
      split at hlen
      · rename_i hk
        rw [if_pos hk] at hmem ⊢
        simp only [Req.queue, List.nil_append, List.length_replicate] at hlen hmem ⊢
        refine ⟨?_, fun o ho => ?_, by rw [hlen]; omega, fun q hq => List.eq_of_mem_replicate (hmem q hq)⟩
        · rw [FFMap.find?_set]; simp; omega
        · rw [FFMap.find?_set]; simp [hne o ho]
      · rename_i hk
        rw [if_neg hk] at hmem ⊢
        refine ⟨?_, fun _ _ => rfl, by rw [hlen]; simp; omega, fun q hq => absurd (hmem q hq) (by simp)⟩
        simp only [hf, Option.getD_some]; omega

/-- what holds in every reachable state; `k0` probes `(1, …, 1)` were queued at the start -/
structure Sound (objs : ι → Obj F) (n : ℕ) (good : F × List ℕ → Prop) (R : ι → List (ℕ × ℕ)) (k0 : ℕ) (s : Fld F objs) : Prop where
  nodup : s.probes.Nodup
  good : ∀ q ∈ s.probes, good q
  started : ∀ o, (s.started.find? (ones n o)).getD 0 = count n s.probes o
  first : 1 ≤ k0 → 1 ≤ count n s.probes 1
  gotNodup : ∀ i, (s.got i).Nodup
  gotSub : ∀ i, ∀ q ∈ s.got i, q ∈ s.probes
  st : ∀ i, (s.got i).foldlM (objs i).feed (objs i).init = some (s.st i)
  before : ∀ i, count n (s.got i) 1 = 0 → s.need i = [] ∧ s.todo i = []
  after : ∀ i, 1 ≤ count n (s.got i) 1 → (objs i).done (s.st i) = true ∨ ∀ el ∈ R i, el ∈ s.need i ∨ el ∈ s.todo i ∨ el.2 ≤ count n s.probes el.1
  mem : ∀ i, ∀ el, el ∈ s.need i ∨ el ∈ s.todo i → el ∈ R i
  upper : ∀ o, count n s.probes o ≤ (if ones n o = ones n 1 then k0 else 0) ∨ ∃ i, ∃ o' r, ones n o' = ones n o ∧ (o', r) ∈ R i ∧ count n s.probes o ≤ r

lemma count_same (l : List (F × List ℕ)) {o o' : ℕ} (h : ones n o = ones n o') : count n l o = count n l o' := by
  unfold ones at h
  unfold count
  rw [h]

lemma count_ones (ts : List F) (o : ℕ) : count n (ts.map (fun t => (t, List.replicate (n - 1) 1))) o = if List.replicate (n - 1) 1 = List.replicate (n - 1) o then ts.length else 0 := by
  unfold count
  rw [List.filter_map, List.length_map]
  split
  · rename_i h
    rw [List.filter_eq_self.mpr]
    intro t _
    simp [h]
  · rename_i h
    rw [List.filter_eq_nil_iff.mpr]; · rfl
    intro t _
    simp [h]

lemma Sound.start {ts : List F} (hnd : ts.Nodup) (hg : ∀ t ∈ ts, good (t, ones n 1)) : Sound objs n good R ts.length (Fld.start objs n ts) := by
  have hcnt : ∀ o, count n (Fld.start objs n ts).probes o = if ones n o = ones n 1 then ts.length else 0 := by
    intro o
    show count n (ts.map (fun t => (t, List.replicate (n - 1) 1))) o = _
    rw [count_ones]
    by_cases h : ones n o = ones n 1
    · exact (if_pos (show ones n 1 = ones n o from h.symm)).trans (if_pos h).symm
    · exact (if_neg (show ¬ ones n 1 = ones n o from fun e => h e.symm)).trans (if_neg h).symm
  refine ⟨?_, ?_, ?_, ?_, fun i => List.nodup_nil, fun i q hq => by simp [Fld.start] at hq, fun i => rfl, fun i _ => ⟨rfl, rfl⟩, fun i h => ?_, fun i el h => ?_, fun o => Or.inl (by rw [hcnt])⟩
  · exact hnd.map (fun a b h => by simpa using h)
  · intro q hq
    obtain ⟨t, ht, rfl⟩ := List.mem_map.mp hq
    exact hg t ht
  · intro o
    rw [hcnt]
    show (FFMap.find? [(List.replicate (n - 1) 1, ts.length)] (ones n o)).getD 0 = _
    by_cases h : ones n o = ones n 1
    · rw [if_pos h, h]; simp [FFMap.find?, ones, List.lookup]
    · have : ¬ ones n o = List.replicate (n - 1) 1 := fun e => h e
      have h2 : (ones n o == List.replicate (n - 1) 1) = false := by simpa using this
      simp [FFMap.find?, List.lookup, h2, h]
  · intro h; rw [hcnt]; simpa using h
  · simp [Fld.start, count] at h
  · simp [Fld.start] at h

lemma Sound.step (hok : ∀ i, (objs i).OK n good (R i)) {k0 : ℕ} {s s' : Fld F objs} (h : Sound objs n good R k0 s) (hs : Step objs n good s s') : Sound objs n good R k0 s' := by
  cases hs with
  | feed i q x l h1 h2 h3 h4 =>
    have hnd : (s.got i ++ [q]).Nodup := by
      rw [List.nodup_append]
      exact ⟨h.gotNodup i, by simp, fun a ha b hb => by rw [List.mem_singleton] at hb; rintro rfl; exact h2 (hb ▸ ha)⟩
    have hgd : ∀ y ∈ s.got i ++ [q], good y := by
      intro y hy
      rcases List.mem_append.mp hy with hy | hy
      · exact h.good y (h.gotSub i y hy)
      · rw [List.mem_singleton.mp hy]; exact h.good q h1
    have hadd := (hok i).adds (s.got i) q (s.st i) x hnd hgd (h.st i) h3
    have hc1 : count n (s.got i ++ [q]) 1 = count n (s.got i) 1 + count n [q] 1 := count_append _ _ _
    have hcq : count n [q] 1 = if q.2 = List.replicate (n - 1) 1 then 1 else 0 := by
      unfold count; by_cases hq : q.2 = List.replicate (n - 1) 1 <;> simp [hq]
    refine ⟨h.nodup, h.good, h.started, h.first, ?_, ?_, ?_, ?_, ?_, ?_, h.upper⟩
    · intro j
      by_cases hj : j = i
      · subst hj; simpa using hnd
      · simp only [Function.update_of_ne hj]; exact h.gotNodup j
    · intro j y hy
      by_cases hj : j = i
      · subst hj
        simp only [Function.update_self] at hy
        rcases List.mem_append.mp hy with hy | hy
        · exact h.gotSub j y hy
        · rw [List.mem_singleton.mp hy]; exact h1
      · simp only [Function.update_of_ne hj] at hy; exact h.gotSub j y hy
    · intro j
      by_cases hj : j = i
      · subst hj
        simp only [Function.update_self]
        rw [List.foldlM_append, h.st j]
        simp [h3]
      · simp only [Function.update_of_ne hj]; exact h.st j
    · intro j hz
      by_cases hj : j = i
      · subst hj
        simp only [Function.update_self] at hz ⊢
        rw [hc1] at hz
        obtain ⟨b1, b2⟩ := h.before j (by omega)
        refine ⟨?_, b2⟩
        rcases hadd with e | ⟨e, -, e3⟩
        · rw [h4] at e; rw [b1, Option.some.inj e]; rfl
        · rw [hcq, if_pos e3] at hz; omega
      · simp only [Function.update_of_ne hj] at hz ⊢; exact h.before j hz
    · intro j hz
      by_cases hj : j = i
      · subst hj
        simp only [Function.update_self] at hz ⊢
        rcases Nat.eq_zero_or_pos (count n (s.got j) 1) with c0 | c1
        · have hq : q.2 = List.replicate (n - 1) 1 := by
            by_contra hq; rw [hc1, hcq, if_neg hq] at hz; omega
          rcases (hok j).first (s.got j) q (s.st j) x hnd hgd (h.st j) h3 c0 hq with e | e
          · rw [h4] at e
            right
            intro el hel
            left
            rw [Option.some.inj e]; simp [hel]
          · exact Or.inl e
        · rcases h.after j c1 with e | e
          · exact Or.inl ((hok j).stay _ _ _ e h3)
          · right
            intro el hel
            rcases e el hel with e | e | e
            · exact Or.inl (by simp [e])
            · exact Or.inr (Or.inl e)
            · exact Or.inr (Or.inr e)
      · simp only [Function.update_of_ne hj] at hz ⊢; exact h.after j hz
    · intro j el hel
      by_cases hj : j = i
      · subst hj
        simp only [Function.update_self] at hel
        rcases hel with hel | hel
        · rcases List.mem_append.mp hel with hel | hel
          · exact h.mem j el (Or.inl hel)
          · rcases hadd with e | ⟨e, -⟩
            · rw [h4] at e; rw [Option.some.inj e] at hel; simp at hel
            · rw [h4] at e; rw [Option.some.inj e] at hel; exact hel
        · exact h.mem j el (Or.inr hel)
      · simp only [Function.update_of_ne hj] at hel; exact h.mem j el hel
  | take i h1 h3 =>
    refine ⟨h.nodup, h.good, h.started, h.first, h.gotNodup, h.gotSub, h.st, ?_, ?_, ?_, h.upper⟩
    · intro j hz
      by_cases hj : j = i
      · subst hj
        exact absurd (h.before j hz).1 h3
      · simp only [Function.update_of_ne hj]; exact h.before j hz
    · intro j hz
      by_cases hj : j = i
      · subst hj
        simp only [Function.update_self]
        refine (h.after j hz).imp id (fun e el hel => ?_)
        rcases e el hel with e | e | e
        · exact Or.inr (Or.inl (by simp [e]))
        · exact Or.inr (Or.inl (by simp [e]))
        · exact Or.inr (Or.inr e)
      · simp only [Function.update_of_ne hj]; exact h.after j hz
    · intro j el hel
      by_cases hj : j = i
      · subst hj
        simp only [Function.update_self] at hel
        rcases hel with hel | hel
        · simp at hel
        · rcases List.mem_append.mp hel with hel | hel
          · exact h.mem j el (Or.inr hel)
          · exact h.mem j el (Or.inl hel)
      · simp only [Function.update_of_ne hj] at hel; exact h.mem j el hel
  | drop i h1 h2 =>
    refine ⟨h.nodup, h.good, h.started, h.first, h.gotNodup, h.gotSub, h.st, ?_, ?_, ?_, h.upper⟩
    · intro j hz
      by_cases hj : j = i
      · subst hj
        exact absurd (h.before j hz).1 h2
      · simp only [Function.update_of_ne hj]; exact h.before j hz
    · intro j hz
      by_cases hj : j = i
      · subst hj; exact Or.inl h1
      · simp only [Function.update_of_ne hj]; exact h.after j hz
    · intro j el hel
      by_cases hj : j = i
      · subst hj
        simp only [Function.update_self] at hel
        rcases hel with hel | hel
        · simp at hel
        · exact h.mem j el (Or.inr hel)
      · simp only [Function.update_of_ne hj] at hel; exact h.mem j el hel
  | ask i el rest new h1 h2 h3 h4 =>
    obtain ⟨a1, a2, a3, a4⟩ := ask_spec s.started el new h2
    have hcn : ∀ o, count n new o = if ones n o = ones n el.1 then new.length else 0 := by
      intro o
      unfold count
      by_cases ho : ones n o = ones n el.1
      · rw [if_pos ho, List.filter_eq_self.mpr]
        intro q hq
        simp only [decide_eq_true_eq]
        exact (a4 q hq).trans ho.symm
      · rw [if_neg ho, List.filter_eq_nil_iff.mpr]; · rfl
        intro q hq
        rw [a4 q hq]
        simp only [decide_eq_true_eq]
        exact fun e => ho (show ones n o = ones n el.1 from e.symm)
    have hca : ∀ o, count n (s.probes ++ new) o = if ones n o = ones n el.1 then max (count n s.probes o) el.2 else count n s.probes o := by
      intro o
      rw [count_append, hcn]
      by_cases ho : ones n o = ones n el.1
      · rw [if_pos ho, if_pos ho, a3, h.started el.1, count_same s.probes ho]; omega
      · rw [if_neg ho, if_neg ho]; omega
    have hge : ∀ o, count n s.probes o ≤ count n (s.probes ++ new) o := by intro o; rw [count_append]; omega
    refine ⟨h3, ?_, ?_, ?_, h.gotNodup, fun j q hq => by simp [h.gotSub j q hq], h.st, ?_, ?_, ?_, ?_⟩
    · intro q hq
      rcases List.mem_append.mp hq with hq | hq
      · exact h.good q hq
      · exact h4 q hq
    · intro o
      simp only
      rw [hca]
      by_cases ho : ones n o = ones n el.1
      · rw [if_pos ho, ho, a1, h.started, count_same s.probes ho]
      · rw [if_neg ho, a2 o ho, h.started]
    · intro hk; exact le_trans (h.first hk) (hge 1)
    · intro j hz
      by_cases hj : j = i
      · subst hj
        rw [(h.before j hz).2] at h1; cases h1
      · simp only [Function.update_of_ne hj]; exact h.before j hz
    · intro j hz
      refine (h.after j hz).imp id (fun e el' hel => ?_)
      rcases e el' hel with e | e | e
      · exact Or.inl e
      · by_cases hj : j = i
        · subst hj
          simp only [Function.update_self]
          rw [h1] at e
          rcases List.mem_cons.mp e with rfl | e
          · right; right
            rw [hca, if_pos rfl]; omega
          · exact Or.inr (Or.inl e)
        · simp only [Function.update_of_ne hj]; exact Or.inr (Or.inl e)
      · exact Or.inr (Or.inr (le_trans e (hge _)))
    · intro j el' hel
      by_cases hj : j = i
      · subst hj
        simp only [Function.update_self] at hel
        rcases hel with hel | hel
        · exact h.mem j el' (Or.inl hel)
        · exact h.mem j el' (Or.inr (by rw [h1]; simp [hel]))
      · simp only [Function.update_of_ne hj] at hel; exact h.mem j el' hel
    · intro o
      simp only
      rw [hca]
      by_cases ho : ones n o = ones n el.1
      · rw [if_pos ho]
        rcases le_total (count n s.probes o) el.2 with hle | hle
        · rw [max_eq_right hle]
          exact Or.inr ⟨i, el.1, el.2, ho.symm, h.mem i el (Or.inr (by rw [h1]; simp)), le_rfl⟩
        · rw [max_eq_left hle]; exact h.upper o
      · rw [if_neg ho]; exact h.upper o

/-- at the end everybody is done -/
lemma Sound.quiet (hok : ∀ i, (objs i).OK n good (R i)) {k0 : ℕ} (hk : 1 ≤ k0) {s : Fld F objs} (h : Sound objs n good R k0 s) (hq : s.Quiet) (i : ι) : (objs i).done (s.st i) = true := by
  obtain ⟨q1, q2, q3⟩ := hq i
  have hcnt : ∀ o, count n s.probes o ≤ count n (s.got i) o := fun o => count_mono h.nodup q3 o
  have hone : 1 ≤ count n (s.got i) 1 := le_trans (h.first hk) (hcnt 1)
  rcases h.after i hone with e | e
  · exact e
  · refine (hok i).enough (s.got i) (s.st i) (h.gotNodup i) (fun q hq => h.good q (h.gotSub i q hq)) (h.st i) (fun el hel => ?_) hone
    rcases e el hel with e | e | e
    · rw [q1] at e; simp at e
    · rw [q2] at e; simp at e
    · exact le_trans e (hcnt _)

end FireFly.Needed
