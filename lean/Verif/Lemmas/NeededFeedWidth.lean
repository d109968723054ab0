import Verif.Lemmas.NeededFeedShift
/-! # The number of order vectors each degree needs, in terms of the monomials -/
set_option linter.all false
namespace FireFly.RShift
open MvPolynomial Needed
variable {F : Type} [Field F] [DecidableEq F] {c : Cfg F} {N D Q : MvPolynomial ℕ F} {const : Bool} {p : Prior} {S : Side F} {n : ℕ} {sh a : List F}

lemma zero_of_sum0 {e : List ℕ} (h : e.sum = 0) : e = List.replicate e.length 0 := by
  rw [List.eq_replicate_iff]
  exact ⟨rfl, fun x hx => by have := List.le_sum_of_mem hx; omega⟩

/-- the terms of a degree that is asked -/
lemma all_some (hp : PriorOK n sh a Q const p) {i : ℕ} (hi : i ∈ asked n const p) {l : List (List ℕ)} (hl : (allTerms n const p).find? [i] = some l) :
    l ≠ [] ∧ l.Nodup ∧ (∀ e ∈ l, e ∈ exps p ∧ e.sum = i ∧ e.length = n) ∧ ∀ e ∈ exps p, e.sum = i → e ∈ l := by
  have hu := FFMap.find?_mem hl
  obtain ⟨d, f1, f2, f3, f4, f5, -⟩ := all_form hp hu
  obtain rfl : i = d := (List.cons.inj f1).1
  refine ⟨f3, f4, fun e he => ⟨(f5 e he).1, (f5 e he).2.2, (f5 e he).2.1⟩, fun e he hs => ?_⟩
  have hA := allTerms_spec hp
  obtain ⟨w, hw, h1, h2⟩ := hA.cover e (List.mem_append.mp he) (by
    rintro ⟨c1, c2⟩
    unfold asked at hi
    rw [Finset.mem_filter] at hi
    exact hi.2.2 ⟨c1, by rw [← hs, c2]; simp⟩)
  rw [hs] at h1
  have := FFMap.find?_of_mem hA.keys hw
  rw [h1, hl] at this
  rw [Option.some.inj this]; exact h2

lemma all_none (hp : PriorOK n sh a Q const p) {i : ℕ} (hi : i ∈ asked n const p) (hl : (allTerms n const p).find? [i] = none) : ∀ e ∈ exps p, e.sum ≠ i := by
  intro e he hs
  have hA := allTerms_spec hp
  obtain ⟨w, hw, h1, h2⟩ := hA.cover e (List.mem_append.mp he) (by
    rintro ⟨c1, c2⟩
    unfold asked at hi
    rw [Finset.mem_filter] at hi
    exact hi.2.2 ⟨c1, by rw [← hs, c2]; simp⟩)
  rw [hs] at h1
  have := FFMap.find?_of_mem hA.keys hw
  rw [h1, hl] at this
  cases this

lemma monos_some (hp : PriorOK n sh a Q const p) {i : ℕ} (hi : i ∈ asked n const p) {l : List (List ℕ)} (hl : (allTerms n const p).find? [i] = some l) :
    (l ++ (p.shifts i).filter (fun e => decide (e ∉ l ∧ e ≠ List.replicate n 0))).length = monos p i ∧ l.length ≤ monos p i := by
  obtain ⟨h1, h2, h3, h4⟩ := all_some hp hi hl
  have hnd : (l ++ (p.shifts i).filter (fun e => decide (e ∉ l ∧ e ≠ List.replicate n 0))).Nodup := by
    rw [List.nodup_append]
    refine ⟨h2, (hp.shiftForm i).1.filter _, ?_⟩
    rintro x hx y hy rfl
    exact (of_decide_eq_true (List.mem_filter.mp hy).2).1 hx
  have : (l ++ (p.shifts i).filter (fun e => decide (e ∉ l ∧ e ≠ List.replicate n 0))).length = monos p i := by
    unfold monos
    rw [← List.toFinset_card_of_nodup hnd]
    congr 1
    ext e
    simp only [List.mem_toFinset, List.mem_append, List.mem_filter, decide_eq_true_eq]
    constructor
    · rintro (h | h)
      · exact Or.inl ⟨(h3 e h).1, (h3 e h).2.1⟩
      · exact Or.inr h.1
    · rintro (h | h)
      · exact Or.inl (h4 e h.1 h.2)
      · by_cases hel : e ∈ l
        · exact Or.inl hel
        · right
          refine ⟨h, hel, ?_⟩
          rintro rfl
          have hs := ((hp.shiftForm i).2 _ h).2
          have h0 : i = 0 := by rw [← hs]; simp
          obtain ⟨x, hx⟩ := List.exists_mem_of_ne_nil _ h1
          have := zero_of_sum0 (show x.sum = 0 by rw [(h3 x hx).2.1, h0])
          rw [(h3 x hx).2.2] at this
          exact hel (this ▸ hx)
  refine ⟨this, ?_⟩
  rw [← this, List.length_append]; omega

lemma monos_none (hp : PriorOK n sh a Q const p) {i : ℕ} (hi : i ∈ asked n const p) (hl : (allTerms n const p).find? [i] = none) : (p.shifts i).length = monos p i := by
  unfold monos
  rw [List.filter_eq_nil_iff.mpr (fun e he => by simpa using all_none hp hi hl e he), List.nil_append, List.toFinset_card_of_nodup (hp.shiftForm i).1]

/-- the loop over the degrees -/
structure EffInv (n : ℕ) (const : Bool) (p : Prior) (k : ℕ) (S : Side F) : Prop where
  most : S.most = mostTerms (allTerms n const p)
  later : ∀ i, k ≤ i → S.unsolved.find? [i] = (allTerms n const p).find? [i] ∧ i ∉ S.dense
  done : ∀ i, i < k → i ∈ asked n const p → eff S i = min (monos p i) S.most.2

lemma EffInv.step (hp : PriorOK n sh a Q const p) (hne : allTerms n const p ≠ []) {i : ℕ} {S : Side F} (h : EffInv n const p i S) : EffInv n const p (i + 1) (setDeg n const p S i) := by
  have hA := allTerms_spec hp
  have hM := mostTerms_spec (fun w hw => by
      obtain ⟨d, f1, f2, f3, -⟩ := all_form hp hw
      exact ⟨d, f1, f3⟩) hne
  rw [← h.most] at hM
  have base : (i ∈ asked n const p → eff S i = min (monos p i) S.most.2) → EffInv n const p (i + 1) S := fun hh =>
    ⟨h.most, fun j hj => h.later j (by omega), fun j hj => by
      rcases Nat.lt_succ_iff_lt_or_eq.mp hj with hj | rfl
      · exact h.done j hj
      · exact hh⟩
  have hdn : i ∉ S.dense := (h.later i le_rfl).2
  have heff : eff S i = S.most.2 := by unfold eff; rw [if_neg hdn]
  have put : ∀ (es : List (List ℕ)) (dense : List ℕ) (mat : FFMap (List F)), (dense = S.dense ++ [i] ∨ dense = S.dense) →
      (i ∈ asked n const p → (if dense = S.dense ++ [i] then es.length else S.most.2) = min (monos p i) S.most.2) →
      EffInv n const p (i + 1) { S with dense := dense, unsolved := S.unsolved.set [i] es, mat := mat } := by
    intro es dense mat hd hh
    have hmem : ∀ j, j ≠ i → (j ∈ dense ↔ j ∈ S.dense) := by
      intro j hj
      rcases hd with rfl | rfl
      · simp [hj]
      · rfl
    have hfind : ∀ j, j ≠ i → (S.unsolved.set [i] es).find? [j] = S.unsolved.find? [j] := by
      intro j hj
      rw [FFMap.find?_set, if_neg]
      intro e; exact hj (List.cons.inj e).1
    refine ⟨h.most, fun j hj => ⟨?_, ?_⟩, fun j hj ha => ?_⟩
    · simp only; rw [hfind j (by omega)]; exact (h.later j (by omega)).1
    · rw [hmem j (by omega)]; exact (h.later j (by omega)).2
    · rcases Nat.lt_succ_iff_lt_or_eq.mp hj with hj | rfl
      · have := h.done j hj ha
        rw [← this]
        unfold eff RShift.len
        simp only [hmem j (by omega), hfind j (by omega)]
      · rw [← hh ha]
        unfold eff RShift.len
        simp only
        rw [FFMap.find?_set, if_pos rfl]
        rcases hd with rfl | rfl
        · simp
        · rw [if_neg hdn, if_neg]; intro e
          have := congrArg List.length e
          simp at this
  unfold setDeg
  split
  · rename_i hi
    apply base
    intro ha
    rw [heff]
    obtain ⟨u, hu, h1, h2⟩ := hM.2.1
    rw [← hi] at h1
    have := FFMap.find?_of_mem hA.keys hu
    rw [h1] at this
    have := (monos_some hp ha this).2
    omega
  · split
    · rename_i l hl
      rw [(h.later i le_rfl).1] at hl
      simp only
      split
      · rename_i hc
        refine put _ _ _ (Or.inl rfl) (fun ha => ?_)
        rw [if_pos rfl, (monos_some hp ha hl).1]
        rw [(monos_some hp ha hl).1] at hc
        omega
      · rename_i hc
        apply base
        intro ha
        rw [heff]
        rw [(monos_some hp ha hl).1] at hc
        have := (monos_some hp ha hl).2
        have := List.length_pos_iff.mpr (all_some hp ha hl).1
        omega
    · rename_i hl
      rw [(h.later i le_rfl).1] at hl
      split
      · rename_i hc
        apply base
        intro ha
        exfalso
        have hx := all_none hp ha hl
        unfold asked at ha
        rw [Finset.mem_filter] at ha
        rcases hc with hc | hc
        · exact ha.2.2 hc
        · rcases ha.2.1 with hb | hb
          · obtain ⟨e, he, hs⟩ := List.mem_map.mp hb
            exact hx e he hs
          · exact hb hc
      · split
        · rename_i hc
          refine put _ _ _ (Or.inl rfl) (fun ha => ?_)
          rw [if_pos rfl, ← monos_none hp ha hl, min_eq_left hc.le]
          split
          · rename_i h0
            rw [List.filter_eq_self.mpr]
            intro e he
            have := ((hp.shiftForm i).2 e he).2
            simp only [decide_eq_true_eq]
            rintro rfl
            apply h0; rw [← this]; simp
          · rfl
        · rename_i hc
          refine put _ _ _ (Or.inr rfl) (fun ha => ?_)
          rw [if_neg (by intro e; have := congrArg List.length e; simp at this), ← monos_none hp ha hl]
          omega

lemma setSide_eff (hp : PriorOK n sh a Q const p) (hne : allTerms n const p ≠ []) {i : ℕ} (hi : i ∈ asked n const p) : eff (setSide (F := F) n const p) i = min (monos p i) (mostTerms (allTerms n const p)).2 := by
  have : ∀ k, EffInv n const p k ((List.range k).foldl (setDeg (F := F) n const p) { unsolved := allTerms n const p, mat := (allTerms n const p).map (fun t => (t.1, [])), most := mostTerms (allTerms n const p) }) := by
    intro k
    induction k with
    | zero => exact ⟨rfl, fun i _ => ⟨rfl, by simp⟩, fun i hi => absurd hi (by omega)⟩
    | succ k ih =>
      rw [List.range_succ, List.foldl_append, List.foldl_cons, List.foldl_nil]
      exact ih.step hp hne
  have h := this (p.maxDeg + 1)
  have hlt : i < p.maxDeg + 1 := by
    unfold asked at hi
    rw [Finset.mem_filter, Finset.mem_range] at hi
    exact hi.1
  have := h.done i hlt hi
  rw [h.most] at this
  exact this

lemma width_eq (hp : PriorOK n sh a Q const p) (hne : allTerms n const p ≠ []) : (mostTerms (allTerms n const p)).2 = width const p := by
  have hA := allTerms_spec hp
  have hM := mostTerms_spec (fun w hw => by
      obtain ⟨d, f1, f2, f3, -⟩ := all_form hp hw
      exact ⟨d, f1, f3⟩) hne
  apply le_antisymm
  · obtain ⟨u, hu, h1, h2⟩ := hM.2.1
    rw [← h2]; exact all_width hp hu
  · unfold width
    apply Finset.sup_le
    intro k hk
    by_cases hf : (exps p).filter (fun e => decide (e.sum = k ∧ ¬ (const = true ∧ k = 0))) = []
    · rw [hf]; exact Nat.zero_le _
    · obtain ⟨e, he⟩ := List.exists_mem_of_ne_nil _ hf
      obtain ⟨g1, g2⟩ := List.mem_filter.mp he
      obtain ⟨g3, g4⟩ := of_decide_eq_true g2
      have ha : k ∈ asked n const p := by
        unfold asked
        rw [Finset.mem_filter]
        exact ⟨hk, Or.inl (List.mem_map.mpr ⟨e, g1, g3⟩), g4⟩
      cases hl : (allTerms n const p).find? [k] with
      | none => exact absurd g3 (all_none hp ha hl e g1)
      | some l =>
        obtain ⟨-, -, -, h4⟩ := all_some hp ha hl
        refine le_trans ?_ (hM.2.2 _ (FFMap.find?_mem hl))
        apply (List.Nodup.subperm (hp.nodup.filter _) _).length_le
        intro x hx
        obtain ⟨x1, x2⟩ := List.mem_filter.mp hx
        exact h4 x x1 (of_decide_eq_true x2).1

/-- each degree that is asked occurs once -/
lemma effs_perm {Q : MvPolynomial ℕ F} (hc : Ctx c Q const p (setSide c.n const p)) : (effs (setSide (F := F) c.n const p)).Perm (parts c.n const p) := by
  have hkeys : ((setSide (F := F) c.n const p).unsolved.map dg).Perm (asked c.n const p).toList := by
    rw [List.perm_ext_iff_of_nodup]
    · intro d
      rw [Finset.mem_toList, List.mem_map]
      constructor
      · rintro ⟨u, hu, rfl⟩; exact (hc.key hu).2.1
      · intro hd
        obtain ⟨u, hu, h1⟩ := List.mem_map.mp (hc.set.cover d hd)
        refine ⟨u, hu, ?_⟩
        unfold dg; rw [h1]; rfl
    · apply List.Nodup.map_on _ (List.Nodup.of_map _ hc.set.keys)
      intro u hu w hw h
      exact hc.inj hu hw h
    · exact Finset.nodup_toList _
  have h1 : effs (setSide (F := F) c.n const p) = ((setSide (F := F) c.n const p).unsolved.map dg).map (eff (setSide (F := F) c.n const p)) := by
    unfold effs; rw [List.map_map]; rfl
  have h2 : parts c.n const p = (asked c.n const p).toList.map (eff (setSide (F := F) c.n const p)) := by
    unfold parts
    apply List.map_congr_left
    intro d hd
    rw [Finset.mem_toList] at hd
    have hne : allTerms c.n const p ≠ [] := by
      intro h0
      have hA := allTerms_spec hc.prior
      obtain ⟨e, hme, hs⟩ := List.mem_map.mp hc.prior.lead
      have hz : const = true ∧ e = List.replicate c.n 0 := by
        by_contra hh
        obtain ⟨w, hw, -⟩ := hA.cover e (List.mem_append.mp hme) hh
        rw [h0] at hw; simp at hw
      have hm : p.maxDeg = 0 := by rw [← hs, hz.2]; simp
      unfold asked at hd
      rw [Finset.mem_filter, Finset.mem_range, hm] at hd
      exact hd.2.2 ⟨hz.1, by omega⟩
    rw [setSide_eff hc.prior hne hd, width_eq hc.prior hne]; rfl
  rw [h1, h2]
  exact hkeys.map _

lemma requests_perm {E E' : List ℕ} (h : E.Perm E') : requests E = requests E' := by
  have h1 : largest E = largest E' := by
    unfold largest
    exact h.foldr_eq 0
  have h2 : ∀ o, atLeast E o = atLeast E' o := fun o => (h.filter _).length_eq
  unfold requests
  rw [h1]
  apply List.map_congr_left
  intro i _
  rw [h2]

lemma requests_lens (hp : Prob c N D) : requests (lens c) = requests (parts c.n (!c.normDen) c.num ++ parts c.n c.normDen c.den) :=
  requests_perm ((effs_perm hp.ctxN).append (effs_perm hp.ctxD))

end FireFly.RShift
