import Verif.Lemmas.NeededFeedObj
/-! # The requests of one object with shift suffice -/
set_option linter.all false
namespace FireFly.RShift
open MvPolynomial Needed
variable {F : Type} [Field F] [DecidableEq F] {c : Cfg F} {N D Q : MvPolynomial ℕ F} {const : Bool} {p : Prior} {S : Side F} {n : ℕ}

/-- the state of the loop over the degrees: where values are stored -/
structure Extra (all : FFMap (List (List ℕ))) (k : ℕ) (S : Side F) : Prop where
  most : S.most = mostTerms all
  mat : ∀ x ∈ all.map Prod.fst, x ∈ S.mat.map Prod.fst
  unsolved : ∀ x ∈ S.unsolved.map Prod.fst, x ∈ all.map Prod.fst ∨ ∃ j < k, x = [j]
  nodup : S.dense.Nodup
  dense : ∀ d ∈ S.dense, d < k ∧ [d] ∈ S.mat.map Prod.fst

lemma mem_keys_of_find {V : Type} {m : FFMap V} {k : List ℕ} {v : V} (h : m.find? k = some v) : k ∈ m.map Prod.fst := by
  have := FFMap.find?_mem h
  exact List.mem_map.mpr ⟨_, this, rfl⟩

lemma Extra.step {all : FFMap (List (List ℕ))} {i : ℕ} {S : Side F} (h : Extra all i S) : Extra all (i + 1) (setDeg n const p S i) := by
  have weak : ∀ x ∈ S.unsolved.map Prod.fst, x ∈ all.map Prod.fst ∨ ∃ j < i + 1, x = [j] := fun x hx =>
    (h.unsolved x hx).imp id (fun ⟨j, h1, h2⟩ => ⟨j, by omega, h2⟩)
  have base : Extra all (i + 1) S := ⟨h.most, h.mat, weak, h.nodup, fun d hd => ⟨by have := (h.dense d hd).1; omega, (h.dense d hd).2⟩⟩
  have hnd : (S.dense ++ [i]).Nodup := by
    rw [List.nodup_append]
    refine ⟨h.nodup, by simp, ?_⟩
    intro a ha b hb
    rw [List.mem_singleton] at hb
    have := (h.dense a ha).1
    omega
  unfold setDeg
  split
  · exact base
  · split
    · rename_i l hl
      simp only
      split
      · refine ⟨h.most, h.mat, ?_, hnd, ?_⟩
        · intro x hx
          rw [mem_keys_set] at hx
          rcases hx with hx | hx
          · exact weak x hx
          · exact Or.inr ⟨i, by omega, hx⟩
        · intro d hd
          rcases List.mem_append.mp hd with hd | hd
          · exact base.dense d hd
          · rw [List.mem_singleton] at hd
            subst hd
            refine ⟨by omega, ?_⟩
            rcases h.unsolved _ (mem_keys_of_find hl) with h1 | ⟨j, h1, h2⟩
            · exact h.mat _ h1
            · have := (List.cons.inj h2).1; omega
      · exact base
    · split
      · exact base
      · split
        · refine ⟨h.most, fun x hx => (mem_keys_set _ _ _ _).mpr (Or.inl (h.mat x hx)), ?_, hnd, ?_⟩
          · intro x hx
            rw [mem_keys_set] at hx
            rcases hx with hx | hx
            · exact weak x hx
            · exact Or.inr ⟨i, by omega, hx⟩
          · intro d hd
            rcases List.mem_append.mp hd with hd | hd
            · exact ⟨(base.dense d hd).1, (mem_keys_set _ _ _ _).mpr (Or.inl (base.dense d hd).2)⟩
            · rw [List.mem_singleton] at hd
              subst hd
              exact ⟨by omega, (mem_keys_set _ _ _ _).mpr (Or.inr rfl)⟩
        · refine ⟨h.most, h.mat, ?_, h.nodup, base.dense⟩
          intro x hx
          rw [mem_keys_set] at hx
          rcases hx with hx | hx
          · exact weak x hx
          · exact Or.inr ⟨i, by omega, hx⟩

lemma setSide_extra : Extra (allTerms n const p) (p.maxDeg + 1) (setSide (F := F) n const p) := by
  have : ∀ k, Extra (allTerms n const p) k ((List.range k).foldl (setDeg (F := F) n const p) { unsolved := allTerms n const p, mat := (allTerms n const p).map (fun t => (t.1, [])), most := mostTerms (allTerms n const p) }) := by
    intro k
    induction k with
    | zero => exact ⟨rfl, fun x hx => by simpa using hx, fun x hx => Or.inl hx, List.nodup_nil, by simp⟩
    | succ k ih =>
      rw [List.range_succ, List.foldl_append, List.foldl_cons, List.foldl_nil]
      exact ih.step
  have h := this (p.maxDeg + 1)
  exact ⟨h.most, h.mat, h.unsolved, h.nodup, h.dense⟩

/-- the number of order vectors each degree needs -/
def effs (S : Side F) : List ℕ := S.unsolved.map (fun u => eff S (dg u))

lemma most_mat (hp : PriorOK c.n c.shift c.anchor Q const p) (hne : (setSide (F := F) c.n const p).unsolved ≠ []) (hall : allTerms c.n const p ≠ []) :
    [(setSide (F := F) c.n const p).most.1] ∈ (setSide (F := F) c.n const p).mat.map Prod.fst := by
  have he := setSide_extra (F := F) (n := c.n) (const := const) (p := p)
  have hM := mostTerms_spec (fun w hw => by
      obtain ⟨d, f1, f2, f3, -⟩ := all_form hp hw
      exact ⟨d, f1, f3⟩) hall
  obtain ⟨u, hu, h1, -⟩ := hM.2.1
  apply he.mat
  rw [he.most, ← h1]
  exact List.mem_map_of_mem hu

lemma countP_filter_map {α β : Type} [BEq β] [LawfulBEq β] (l : List α) (P : α → Bool) (f : α → β) (x : β) : ((l.filter P).map f).count x = l.countP (fun a => P a && (f a == x)) := by
  rw [List.count, List.countP_map, List.countP_filter]
  apply List.countP_congr
  intro a _
  simp [and_comm]

/-- the counts of one side -/
lemma side_counts (hc : Ctx c Q const p S) (he : S.dense.Nodup ∧ ∀ d ∈ S.dense, [d] ∈ S.mat.map Prod.fst) (hm : S.unsolved ≠ [] → [S.most.1] ∈ S.mat.map Prod.fst) :
    ∃ t, tail? S = some t ∧ t.width = S.most.2 ∧ (∀ x, 0 < x → (sizesShift S).count x + (if x = t.width then t.rest else 0) = (effs S).count x) ∧ (∀ x, x ∈ sizesShift S ↔ x ∈ effs S) ∧ 0 ∉ effs S := by
  obtain ⟨lenf, hlenf⟩ : ∃ lenf : List ℕ → ℕ, lenf = fun k => ((S.unsolved.find? k).getD []).length := ⟨_, rfl⟩
  obtain ⟨isD, hisD⟩ : ∃ isD : List ℕ → Bool, isD = fun k => S.dense.contains (k.getD 0 0) := ⟨_, rfl⟩
  have hKU : (S.unsolved.map Prod.fst).Nodup := hc.set.keys
  have hKM : (S.mat.map Prod.fst).Nodup := hc.set.matKeys
  have hsub : ∀ k ∈ S.mat.map Prod.fst, k ∈ S.unsolved.map Prod.fst := by
    intro k hk
    obtain ⟨x, hx, rfl⟩ := List.mem_map.mp hk
    exact (hc.set.mat x hx).1
  have hkey : ∀ k ∈ S.unsolved.map Prod.fst, ∃ u ∈ S.unsolved, k = u.1 ∧ k = [dg u] ∧ lenf k = u.2.length ∧ (isD k = true ↔ dg u ∈ S.dense) := by
    intro k hk
    obtain ⟨u, hu, rfl⟩ := List.mem_map.mp hk
    refine ⟨u, hu, rfl, (hc.key hu).1, ?_, ?_⟩
    · rw [hlenf]; simp only; rw [FFMap.find?_of_mem hKU hu]; rfl
    · rw [hisD]; simp only [List.contains_iff_mem]; rfl
  have hdlt : ∀ k ∈ S.unsolved.map Prod.fst, isD k = true → lenf k < S.most.2 := by
    intro k hk h
    obtain ⟨u, hu, -, -, h2, h3⟩ := hkey k hk
    rw [h2]; exact hc.dense_lt hu (h3.mp h)
  have hpos : ∀ k ∈ S.unsolved.map Prod.fst, 0 < lenf k := by
    intro k hk
    obtain ⟨u, hu, -, -, h2, h3⟩ := hkey k hk
    rw [h2]; exact List.length_pos_iff.mpr (hc.key hu).2.2.2.1
  have hdenseP : ((S.unsolved.map Prod.fst).filter isD).Perm (S.dense.map (fun d => [d])) := by
    rw [List.perm_ext_iff_of_nodup (hKU.filter _) (he.1.map (fun a b h => by simpa using h))]
    intro k
    rw [List.mem_filter, List.mem_map (b := k) (l := S.dense)]
    constructor
    · rintro ⟨h1, h2⟩
      obtain ⟨u, hu, -, h3, -, h4⟩ := hkey k h1
      exact ⟨dg u, h4.mp h2, h3.symm⟩
    · rintro ⟨d, hd, rfl⟩
      exact ⟨hsub _ (he.2 d hd), by rw [hisD]; simp [hd]⟩
  have hdenseM : ((S.mat.map Prod.fst).filter isD).Perm (S.dense.map (fun d => [d])) := by
    rw [List.perm_ext_iff_of_nodup (hKM.filter _) (he.1.map (fun a b h => by simpa using h))]
    intro k
    rw [List.mem_filter, List.mem_map (b := k) (l := S.dense)]
    constructor
    · rintro ⟨h1, h2⟩
      obtain ⟨u, hu, -, h3, -, h4⟩ := hkey k (hsub k h1)
      exact ⟨dg u, h4.mp h2, h3.symm⟩
    · rintro ⟨d, hd, rfl⟩
      exact ⟨he.2 d hd, by rw [hisD]; simp [hd]⟩
  have hperm := hdenseP.trans hdenseM.symm
  have hsizes : sizesShift S = ((S.mat.map Prod.fst).filter (fun k => decide (lenf k = S.most.2) || isD k)).map lenf := by
    unfold sizesShift sizes
    rw [List.filter_map, List.map_map, hlenf, hisD]; rfl
  have hsparse : sparse S = (S.mat.map Prod.fst).countP (fun k => decide (lenf k = S.most.2)) := by
    unfold sparse
    rw [List.countP_map, ← List.countP_eq_length_filter, hlenf]; rfl
  have heffs : effs S = (S.unsolved.map Prod.fst).map (fun k => if isD k = true then lenf k else S.most.2) := by
    unfold effs
    rw [List.map_map]
    apply List.map_congr_left
    intro u hu
    obtain ⟨w, hw, h1, h2, h3, h4⟩ := hkey u.1 (List.mem_map_of_mem hu)
    have hd : dg w = dg u := by unfold dg; rw [h1]
    rw [hd] at h2 h4
    simp only [Function.comp]
    unfold eff
    by_cases h : dg u ∈ S.dense
    · rw [if_pos h, if_pos (h4.mpr h), hc.len hu]
      rw [hlenf]; simp only
      rw [FFMap.find?_of_mem hKU hu]; rfl
    · rw [if_neg h, if_neg (fun hh => h (h4.mp hh))]
  obtain ⟨KU, hKUe⟩ : ∃ KU, KU = S.unsolved.map Prod.fst := ⟨_, rfl⟩
  obtain ⟨KM, hKMe⟩ : ∃ KM, KM = S.mat.map Prod.fst := ⟨_, rfl⟩
  rw [← hKUe] at hKU hsub hkey hdlt hpos hdenseP hperm heffs
  rw [← hKMe] at hKM hsub hdenseM hperm hsizes hsparse hm
  have hKUl : S.unsolved.length = KU.length := by rw [hKUe, List.length_map]
  have hnd : KU.countP (fun k => !isD k) + S.dense.length = KU.length := by
    have h1 := hdenseP.length_eq
    rw [← List.countP_eq_length_filter, List.length_map] at h1
    have h2 := List.length_eq_countP_add_countP isD (l := KU)
    rw [← h1]
    have h3 : KU.countP (fun k => !isD k) = KU.countP (fun a => decide ¬ isD a = true) := List.countP_congr (fun a _ => by simp)
    omega
  have hsp : KM.countP (fun k => decide (lenf k = S.most.2)) ≤ KU.countP (fun k => !isD k) := by
    rw [List.countP_eq_length_filter, List.countP_eq_length_filter]
    apply (List.Nodup.subperm (hKM.filter _) _).length_le
    intro k hk
    obtain ⟨h1, h2⟩ := List.mem_filter.mp hk
    have h2 : lenf k = S.most.2 := of_decide_eq_true h2
    rw [List.mem_filter]
    refine ⟨hsub k h1, ?_⟩
    by_contra hh
    have := hdlt k (hsub k h1) (by simpa using hh)
    omega
  have hpos0 : 0 ∉ effs S := by
    rw [heffs]
    intro h0
    obtain ⟨k, hk, h1⟩ := List.mem_map.mp h0
    split at h1
    · have := hpos k hk; omega
    · have : S.unsolved ≠ [] := by rintro e; rw [hKUe, e] at hk; simp at hk
      have := (hc.set.most this).1; omega
  refine ⟨⟨S.most.2, KU.countP (fun k => !isD k) - KM.countP (fun k => decide (lenf k = S.most.2))⟩, ?_, rfl, ?_, ?_, hpos0⟩
  · unfold tail? sub?
    rw [hsparse, if_pos (by omega)]
    simp only [Option.bind_eq_bind, Option.bind_some]
    rw [if_pos (by omega)]
    simp only [Option.bind_some]
    congr 2
    omega
  · intro x hx
    simp only
    rw [hsizes, countP_filter_map, heffs, List.count, List.countP_map]
    have hE : KU.countP ((fun b => b == x) ∘ fun k => if isD k = true then lenf k else S.most.2) = KU.countP (fun k => isD k && decide (lenf k = x)) + if x = S.most.2 then KU.countP (fun k => !isD k) else 0 := by
      have : ∀ l : List (List ℕ), l.countP ((fun b => b == x) ∘ fun k => if isD k = true then lenf k else S.most.2) = l.countP (fun k => isD k && decide (lenf k = x)) + if x = S.most.2 then l.countP (fun k => !isD k) else 0 := by
        intro l
        induction l with
        | nil => simp
        | cons k l ih =>
          rw [List.countP_cons, List.countP_cons, List.countP_cons, ih]
          by_cases h1 : isD k = true <;> by_cases h2 : x = S.most.2
          · simp [h1, h2]; omega
          · simp [h1, h2]
          · subst h2; simp [h1]; omega
          · have : ¬ S.most.2 = x := fun e => h2 e.symm
            simp [h1, h2, this]
      exact this KU
    have hP : KU.countP (fun k => isD k && decide (lenf k = x)) = KM.countP (fun k => isD k && decide (lenf k = x)) := by
      have := hperm.countP_eq (fun k => decide (lenf k = x))
      rw [List.countP_filter, List.countP_filter] at this
      rw [List.countP_congr (p := fun k => isD k && decide (lenf k = x)) (q := fun k => decide (lenf k = x) && isD k) (fun a _ => by simp [and_comm]), this]
      exact List.countP_congr (fun a _ => by simp [and_comm])
    rw [hE, hP]
    by_cases hxm : x = S.most.2
    · rw [if_pos hxm, if_pos hxm]
      have h1 : KM.countP (fun k => isD k && decide (lenf k = x)) = 0 := by
        rw [List.countP_eq_zero]
        intro k hk
        simp only [Bool.and_eq_true, decide_eq_true_eq, not_and]
        intro h h'
        have := hdlt k (hsub k hk) h
        omega
      have h2 : KM.countP (fun a => (decide (lenf a = S.most.2) || isD a) && (lenf a == x)) = KM.countP (fun k => decide (lenf k = S.most.2)) := by
        apply List.countP_congr
        intro k hk
        simp only [Bool.and_eq_true, Bool.or_eq_true, decide_eq_true_eq, beq_iff_eq, hxm]
        tauto
      omega
    · rw [if_neg hxm, if_neg hxm]
      have h2 : KM.countP (fun a => (decide (lenf a = S.most.2) || isD a) && (lenf a == x)) = KM.countP (fun k => isD k && decide (lenf k = x)) := by
        apply List.countP_congr
        intro k hk
        simp only [Bool.and_eq_true, Bool.or_eq_true, decide_eq_true_eq, beq_iff_eq]
        constructor
        · rintro ⟨h1 | h1, h2⟩
          · omega
          · exact ⟨h1, h2⟩
        · rintro ⟨h1, h2⟩; exact ⟨Or.inr h1, h2⟩
      omega
  · intro x
    rw [hsizes, heffs, List.mem_map, List.mem_map]
    constructor
    · rintro ⟨k, hk, rfl⟩
      obtain ⟨h1, h2⟩ := List.mem_filter.mp hk
      refine ⟨k, hsub k h1, ?_⟩
      by_cases hd : isD k = true
      · rw [if_pos hd]
      · rw [if_neg hd]
        have hd : isD k = false := by simpa using hd
        rw [hd, Bool.or_false] at h2
        exact (of_decide_eq_true h2).symm
    · rintro ⟨k, hk, rfl⟩
      by_cases hd : isD k = true
      · rw [if_pos hd]
        have : k ∈ KM.filter isD := hperm.mem_iff.mp (List.mem_filter.mpr ⟨hk, hd⟩)
        exact ⟨k, List.mem_filter.mpr ⟨(List.mem_filter.mp this).1, by simp [hd]⟩, rfl⟩
      · rw [if_neg hd]
        have hne : S.unsolved ≠ [] := by rintro e; rw [hKUe, e] at hk; simp at hk
        obtain ⟨-, -, u, hu, h3, h4⟩ := hc.set.most hne
        have hl : lenf [S.most.1] = S.most.2 := by
          rw [← h4, hlenf]; simp only; rw [← h3, FFMap.find?_of_mem hc.set.keys hu]; rfl
        exact ⟨[S.most.1], List.mem_filter.mpr ⟨hm hne, by simp [hl]⟩, hl⟩

lemma ctx_counts {Q : MvPolynomial ℕ F} (hc : Ctx c Q const p (setSide c.n const p)) :
    ∃ t, tail? (setSide (F := F) c.n const p) = some t ∧ t.width = (setSide (F := F) c.n const p).most.2 ∧
      (∀ x, 0 < x → (sizesShift (setSide (F := F) c.n const p)).count x + (if x = t.width then t.rest else 0) = (effs (setSide (F := F) c.n const p)).count x) ∧
      (∀ x, x ∈ sizesShift (setSide (F := F) c.n const p) ↔ x ∈ effs (setSide (F := F) c.n const p)) ∧ 0 ∉ effs (setSide (F := F) c.n const p) := by
  have he := setSide_extra (F := F) (n := c.n) (const := const) (p := p)
  refine side_counts hc ⟨he.nodup, fun d hd => (he.dense d hd).2⟩ (fun hne => ?_)
  by_cases hall : allTerms c.n const p = []
  · exfalso
    -- no monomial: nothing is asked
    have hA := allTerms_spec hc.prior
    obtain ⟨e, hme, hs⟩ := List.mem_map.mp hc.prior.lead
    have hz : const = true ∧ e = List.replicate c.n 0 := by
      by_contra hh
      obtain ⟨w, hw, -⟩ := hA.cover e (List.mem_append.mp hme) hh
      rw [hall] at hw; simp at hw
    have hm : p.maxDeg = 0 := by rw [← hs, hz.2]; simp
    obtain ⟨u, hu⟩ := List.exists_mem_of_ne_nil _ hne
    have h2 := (hc.key hu).2
    have h3 := h2.1
    unfold asked at h3
    exact (Finset.mem_filter.mp h3).2.2 ⟨hz.1, by omega⟩
  · exact most_mat hc.prior hne hall

/-- the number of order vectors each degree of numerator and denominator needs -/
def lens (c : Cfg F) : List ℕ := effs (startN c) ++ effs (startD c)

lemma needed_spec (hp : Prob c N D) {s : St F} (h1 : s.num.unsolved = (startN c).unsolved ∧ s.num.mat = (startN c).mat ∧ s.num.dense = (startN c).dense ∧ s.num.most = (startN c).most)
    (h2 : s.den.unsolved = (startD c).unsolved ∧ s.den.mat = (startD c).mat ∧ s.den.dense = (startD c).dense ∧ s.den.most = (startD c).most) (he : s.numEqn = c.maxEqn) : needed s = some (requests (lens c)) := by
  obtain ⟨a, a1, a2, a3, a4, a5⟩ := ctx_counts hp.ctxN
  obtain ⟨b, b1, b2, b3, b4, b5⟩ := ctx_counts hp.ctxD
  have t1 : tail? s.num = some a := by rw [← a1]; unfold tail? sparse; rw [h1.1, h1.2.1, h1.2.2.1, h1.2.2.2]; rfl
  have t2 : tail? s.den = some b := by rw [← b1]; unfold tail? sparse; rw [h2.1, h2.2.1, h2.2.2.1, h2.2.2.2]; rfl
  have z1 : sizesShift s.num = sizesShift (startN c) := by unfold sizesShift; rw [h1.1, h1.2.1, h1.2.2.1, h1.2.2.2]
  have z2 : sizesShift s.den = sizesShift (startD c) := by unfold sizesShift; rw [h2.1, h2.2.1, h2.2.2.1, h2.2.2.2]
  have hl : (lens c).length = c.maxEqn := by
    unfold lens effs
    rw [List.length_append, List.length_map, List.length_map, hp.ctxN.card, hp.ctxD.card, hp.eqn]
  unfold needed
  rw [t1, t2, z1, z2, he, ← hl]
  have := blocksShift_spec (L := sizesShift (startN c) ++ sizesShift (startD c)) (E := lens c) (num := a) (den := b) (by
    unfold lens; rw [List.mem_append]; rintro (h | h)
    · exact a5 h
    · exact b5 h) (by intro x; unfold lens; rw [List.mem_append, List.mem_append]; exact or_congr (a4 x) (b4 x)) (by
    intro x hx
    have i1 := a3 x hx
    have i2 := b3 x hx
    unfold lens
    rw [List.count_append, List.count_append]
    unfold startN startD
    omega)
  rw [← this]
  simp only [Option.bind_eq_bind, Option.bind_some]
  cases blocksShift (rMap (sizesShift (startN c) ++ sizesShift (startD c))) a b (rMap (sizesShift (startN c) ++ sizesShift (startD c))) 0 (lens c).length false false <;> rfl

lemma feedAll_obj (past : List (F × List ℕ)) (s : St F) : past.foldlM (obj c (RMulti.valueOf c.shift c.anchor N D)).feed s = c.feedAll s (withValues c N D past) := by
  unfold Cfg.feedAll withValues
  rw [List.foldlM_map]; rfl

lemma first_count (past : List (F × List ℕ)) : firstProbe c past = none ↔ count c.n past 1 = 0 := by
  unfold firstProbe count
  rw [List.find?_eq_none, List.length_eq_zero_iff, List.filter_eq_nil_iff]; rfl

/-- as long as the object is not done, a request is not met -/
lemma too_few (gtp : PivotOrder c.gt) (hp : Prob c N D) (hg : GuessOK c) (probes : List (F × List ℕ)) (hnd : probes.Nodup) (hG : GoodPts c N D (fun t ord => (t, ord) ∈ probes))
    {s : St F} (hs : c.feedAll c.init (withValues c N D probes) = some s) (hout : s.out = none) : ∃ o, 1 ≤ o ∧ count c.n probes o < atLeast (lens c) o := by
  obtain ⟨s', φ, e1, e2, e3⟩ := feedAll_spec gtp hp hg hG probes [] c.init _ (fun x hx => by simpa using hx) (by simpa using hnd) (Inv.start c N D _)
  rw [hs] at e1
  obtain rfl : s = s' := Option.some.inj e1
  rw [List.nil_append] at e2
  have hside : ∀ {const : Bool} {p : Prior} {Q : MvPolynomial ℕ F} {S x : Side F} {o : ℕ}, Ctx c Q const p S → SInv c Q p S o x → x.unsolved.length = atLeast (effs S) o := by
    intro const p Q S x o hc hx
    rw [hx.unsolved]
    unfold atLeast effs
    rw [List.filter_map, List.length_map]
    congr 1
    apply List.filter_congr
    intro u _
    simp only [Function.comp]
    by_cases h : o ≤ eff S (dg u)
    · simp [h, not_lt.mpr h]
    · simp [h, lt_of_not_ge h]
  have heqn : ∀ {o : ℕ} {s : St F}, Both c N D o s → s.numEqn = atLeast (lens c) o := by
    intro o s hb
    rw [hb.eqn, hside hp.ctxN hb.num, hside hp.ctxD hb.den]
    unfold lens atLeast
    rw [List.filter_append, List.length_append]
  rcases e2 with h | ⟨h, hφ⟩ | ⟨o, pts, h, hn, hφ⟩
  · have := h.some
    rw [hout] at this; cases this
  · have hr := start_run (G := fun t ord => (t, ord) ∈ probes) hp h
    refine ⟨1, le_rfl, ?_⟩
    rw [(first_count probes).mp h.first, ← heqn hr.both]
    exact hr.lt
  · have hlt := h.run.lt
    refine ⟨o, h.run.both.pos, ?_⟩
    rw [← heqn h.run.both]
    refine lt_of_le_of_lt ?_ hlt
    have hsub : ∀ q ∈ probes.filter (fun q => decide (q.2 = List.replicate (c.n - 1) o)), q.1 ∈ pts.map Prod.fst ∧ q.2 = List.replicate (c.n - 1) o := by
      intro q hq
      obtain ⟨h1, h2⟩ := List.mem_filter.mp hq
      have h2 : q.2 = uni c o := of_decide_eq_true h2
      refine ⟨?_, h2⟩
      rcases h.kept q h1 with (⟨o', h3, h4⟩ | ⟨-, h3⟩) | ⟨l, h3, -⟩
      · exact absurd (h4.symm.trans h2) (uni_ne h3 (by rw [← h2]; exact hG.ord _ _ h1))
      · exact h3
      · rw [h2, ← h.run.both.ord, hn] at h3; cases h3
    have hnd2 : ((probes.filter (fun q => decide (q.2 = List.replicate (c.n - 1) o))).map Prod.fst).Nodup := by
      refine List.Nodup.map_on ?_ (hnd.filter _)
      intro x hx y hy hxy
      exact Prod.ext hxy ((hsub x hx).2.trans (hsub y hy).2.symm)
    have := (List.Nodup.subperm hnd2 (fun t ht => by
      obtain ⟨q, hq, rfl⟩ := List.mem_map.mp ht
      exact (hsub q hq).1)).length_le
    unfold count
    simpa using this

theorem obj_ok (gtp : PivotOrder c.gt) (hp : Prob c N D) (hg : GuessOK c) {good : F × List ℕ → Prop} (hG : GoodPts c N D (fun t ord => good (t, ord))) :
    (obj c (RMulti.valueOf c.shift c.anchor N D)).OK c.n good (requests (lens c)) := by
  have sub : ∀ past : List (F × List ℕ), (∀ q ∈ past, good q) → GoodPts c N D (fun t ord => (t, ord) ∈ past) := fun past hp =>
    ⟨fun t o h => hG.ord t o (hp _ h), fun t o h => hG.den t o (hp _ h), fun o A B ts h1 h2 h3 h4 => hG.det o A B ts h1 h2 h3 (fun t ht => hp _ (h4 t ht))⟩
  have inv : ∀ past : List (F × List ℕ), past.Nodup → (∀ q ∈ past, good q) → ∃ s φ, past.foldlM (obj c (RMulti.valueOf c.shift c.anchor N D)).feed c.init = some s ∧
      Inv c N D (fun t ord => good (t, ord)) past s φ := by
    intro past h1 h2
    obtain ⟨s, φ, e1, e2, e3⟩ := feedAll_spec gtp hp hg hG past [] c.init _ (fun x hx => h2 x (by simpa using hx)) (by simpa using h1) (Inv.start c N D _)
    exact ⟨s, φ, by rw [feedAll_obj]; exact e1, by simpa using e2⟩
  have fresh : ∀ (past : List (F × List ℕ)) (s : St F) (q : F × List ℕ), Fresh c N D past s → q.2 = uni c 1 → ∀ s', c.feed s (q.1, RMulti.valueOf c.shift c.anchor N D q.1 q.2, q.2) = some s' →
      c.adds s q.1 (RMulti.valueOf c.shift c.anchor N D q.1 q.2) q.2 = some (requests (lens c)) ∨ (c.adds s q.1 (RMulti.valueOf c.shift c.anchor N D q.1 q.2) q.2 = some [] ∧ s'.out.isSome = true) := by
    intro past s q hf hq s' hs'
    have hchk := check_spec hp hg hf.out q.1
    rw [hf.ord] at hchk
    have hcond : (s.out.isSome = false ∧ uni c 1 = s.ord ∧ s.newPrime = true) := ⟨by rw [hf.out]; rfl, hf.ord.symm, hf.np⟩
    by_cases hpa : Passes c N D q.1 (uni c 1)
    · right
      rw [if_pos hpa] at hchk
      unfold Cfg.adds
      rw [hq, if_pos hcond, hchk]
      refine ⟨by simp, ?_⟩
      rw [hq] at hs'
      unfold Cfg.feed at hs'
      obtain ⟨x, hx, hs'⟩ := Option.bind_eq_some_iff.mp hs'
      refine drain_stay _ x s' ?_ hs'
      unfold Cfg.probe at hx
      rw [hf.out, hf.ord, hf.np, hchk] at hx
      simp at hx
      rw [← hx]; rfl
    · left
      rw [if_neg hpa] at hchk
      unfold Cfg.adds
      rw [hq, if_pos hcond, hchk]
      have := needed_spec (s := c.checked s) hp (by simp [Cfg.checked, hf.num]) (by simp [Cfg.checked, hf.den]) (by simp [Cfg.checked, hf.eqn])
      rw [Option.bind_some]
      have ho : (c.checked s).out = none := hf.out
      simp only [ho, Option.isSome_none, Bool.false_eq_true, if_false]
      exact this
  refine ⟨?_, ?_, ?_, ?_, ?_⟩
  · intro past h1 h2
    obtain ⟨s, φ, e, -⟩ := inv past h1 h2
    exact ⟨s, e⟩
  · intro past q s s' h1 h2 hs hs'
    obtain ⟨s2, φ, e, hi⟩ := inv past (h1.sublist (by simp)) (fun x hx => h2 x (by simp [hx]))
    obtain rfl : s = s2 := Option.some.inj (hs.symm.trans e)
    show c.adds s q.1 (RMulti.valueOf c.shift c.anchor N D q.1 q.2) q.2 = some [] ∨ _
    have hnot : ¬ (s.out.isSome = false ∧ q.2 = s.ord ∧ s.newPrime = true) → c.adds s q.1 (RMulti.valueOf c.shift c.anchor N D q.1 q.2) q.2 = some [] := by
      intro h; unfold Cfg.adds; rw [if_neg h]
    rcases hi with h | ⟨h, -⟩ | ⟨o, pts, h, -⟩
    · left; exact hnot (fun hh => by have := h.some; rw [hh.1] at this; cases this)
    · by_cases hq : q.2 = uni c 1
      · rcases fresh past s q h hq s' hs' with h1 | ⟨h1, -⟩
        · exact Or.inr ⟨h1, (first_count past).mp h.first, hq⟩
        · exact Or.inl h1
      · left; exact hnot (fun hh => hq (by rw [hh.2.1]; exact h.ord))
    · left; exact hnot (fun hh => by have := h.run.both.np; rw [hh.2.2] at this; cases this)
  · intro past q s s' h1 h2 hs hs' h0 hq
    obtain ⟨s2, φ, e, hi⟩ := inv past (h1.sublist (by simp)) (fun x hx => h2 x (by simp [hx]))
    obtain rfl : s = s2 := Option.some.inj (hs.symm.trans e)
    have hnone := (first_count (c := c) past).mpr h0
    rcases hi with ⟨q', h, -⟩ | ⟨h, -⟩ | ⟨o, pts, h, -⟩
    · rw [hnone] at h; cases h
    · rcases fresh past s q h hq s' hs' with h1 | ⟨-, h1⟩
      · exact Or.inl h1
      · exact Or.inr h1
    · obtain ⟨q', h, -⟩ := h.first; rw [hnone] at h; cases h
  · intro s q s' hd hs'
    have hs' : c.feed s (q.1, RMulti.valueOf c.shift c.anchor N D q.1 q.2, q.2) = some s' := hs'
    unfold Cfg.feed at hs'
    obtain ⟨x, hx, hs'⟩ := Option.bind_eq_some_iff.mp hs'
    have := probe_stay hd hx
    exact drain_stay _ x s' (by rw [this]; exact hd) hs'
  · intro past s h1 h2 hs hR hone
    by_contra hh
    have hout : s.out = none := by
      cases ho : s.out with
      | none => rfl
      | some r => exact absurd (show (s.out).isSome = true by rw [ho]; rfl) hh
    have hs := (feedAll_obj past c.init).symm.trans hs
    obtain ⟨o, k1, k2⟩ := too_few gtp hp hg past h1 (sub past h2) hs hout
    by_cases hle : o ≤ largest (lens c)
    · have := hR (o, atLeast (lens c) o) (List.mem_map.mpr ⟨o - 1, List.mem_range.mpr (by omega), by rw [show o - 1 + 1 = o by omega]⟩)
      simp only at this
      omega
    · have : atLeast (lens c) o = 0 := by
        unfold atLeast
        rw [List.length_eq_zero_iff, List.filter_eq_nil_iff]
        intro e he
        have := le_largest he
        simp; omega
      omega

end FireFly.RShift
