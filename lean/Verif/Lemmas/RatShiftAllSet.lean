import Verif.Lemmas.RatShiftSet
/-! # The degrees that are solved with their shift do not depend on what is known of the coefficients -/
set_option linter.all false
namespace FireFly.RShift
open MvPolynomial FFMap

/-- two maps from degrees to lists of monomials are the same up to the order -/
def SameMap (m m' : FFMap (List (List ℕ))) : Prop :=
  ∀ j : ℕ, (m.find? [j] = none ∧ m'.find? [j] = none) ∨ ∃ l l', m.find? [j] = some l ∧ m'.find? [j] = some l' ∧ l.Perm l'

lemma SameMap.set {m m' : FFMap (List (List ℕ))} (h : SameMap m m') (i : ℕ) {l l' : List (List ℕ)} (hl : l.Perm l') : SameMap (m.set [i] l) (m'.set [i] l') := by
  intro j
  rw [find?_set, find?_set]
  by_cases hj : [i] = [j]
  · rw [if_pos hj.symm, if_pos hj.symm]; exact Or.inr ⟨l, l', rfl, rfl, hl⟩
  · rw [if_neg (Ne.symm hj), if_neg (Ne.symm hj)]; exact h j

lemma mostTerms_map (m : FFMap (List (List ℕ))) :
    mostTerms m = (m.map (fun el => (el.1.getD 0 0, el.2.length))).foldl (fun (b : ℕ × ℕ) x => if b.2 < x.2 ∨ (x.2 = b.2 ∧ b.1 < x.1) then x else b) (0, 0) := by
  unfold mostTerms
  rw [List.foldl_map]

lemma mostTerms_perm {m m' : FFMap (List (List ℕ))} (h : (m.map (fun el => (el.1.getD 0 0, el.2.length))).Perm (m'.map (fun el => (el.1.getD 0 0, el.2.length)))) : mostTerms m = mostTerms m' := by
  rw [mostTerms_map, mostTerms_map]
  apply List.Perm.foldl_eq' h
  intro x _ y _ b
  obtain ⟨x1, x2⟩ := x
  obtain ⟨y1, y2⟩ := y
  obtain ⟨b1, b2⟩ := b
  simp only
  split_ifs <;> simp only [Prod.mk.injEq] at * <;> omega

variable {F : Type} [Field F] [DecidableEq F] {n : ℕ} {const : Bool} {p p' : Prior} {sh a : List F} {Q : MvPolynomial ℕ F}

lemma all_same (h : PriorOK n sh a Q const p) (h' : PriorOK n sh a Q const p') (hp : ∀ e, e ∈ exps p ↔ e ∈ exps p') :
    ∀ u ∈ allTerms n const p, ∃ u' ∈ allTerms n const p', u'.1 = u.1 ∧ u.2.Perm u'.2 := by
  intro u hu
  have A := allTerms_spec h
  have A' := allTerms_spec h'
  obtain ⟨d, f1, f2, f3, f4, f5⟩ := A.form u hu
  obtain ⟨e, he⟩ := List.exists_mem_of_ne_nil _ f2
  have hcov : ∀ e ∈ u.2, ∃ w ∈ allTerms n const p', w.1 = [d] ∧ e ∈ w.2 := by
    intro e he
    have h1 : e ∈ exps p := List.mem_append.mpr (f4 e he).2
    obtain ⟨w, hw, g1, g2⟩ := A'.cover e (List.mem_append.mp ((hp e).mp h1)) (by
      rintro ⟨c1, c2⟩
      refine f5 ⟨c1, ?_⟩
      rw [← (f4 e he).1, c2]; simp)
    exact ⟨w, hw, by rw [g1, (f4 e he).1], g2⟩
  obtain ⟨w, hw, g1, g2⟩ := hcov e he
  refine ⟨w, hw, by rw [g1, f1], ?_⟩
  obtain ⟨d', k1, k2, k3, k4, k5⟩ := A'.form w hw
  rw [g1] at k1
  obtain rfl : d = d' := by simpa using k1
  rw [List.perm_ext_iff_of_nodup f3 k3]
  intro x
  constructor
  · intro hx
    obtain ⟨w', hw', q1, q2⟩ := hcov x hx
    have e1 := find?_of_mem A'.keys hw'
    rw [q1, ← g1, find?_of_mem A'.keys hw] at e1
    rw [Option.some.inj e1]; exact q2
  · intro hx
    have h1 : x ∈ exps p' := List.mem_append.mpr (k4 x hx).2
    obtain ⟨v, hv, q1, q2⟩ := A.cover x (List.mem_append.mp ((hp x).mpr h1)) (by
      rintro ⟨c1, c2⟩
      refine k5 ⟨c1, ?_⟩
      rw [← (k4 x hx).1, c2]; simp)
    rw [(k4 x hx).1, ← f1] at q1
    have e1 := find?_of_mem A.keys hv
    rw [q1, find?_of_mem A.keys hu] at e1
    rw [Option.some.inj e1]; exact q2

lemma all_sameMap (h : PriorOK n sh a Q const p) (h' : PriorOK n sh a Q const p') (hp : ∀ e, e ∈ exps p ↔ e ∈ exps p') : SameMap (allTerms n const p) (allTerms n const p') := by
  have A := allTerms_spec h
  have A' := allTerms_spec h'
  have a1 := all_same h h' hp
  have a2 := all_same h' h (fun e => (hp e).symm)
  intro j
  cases h1 : (allTerms n const p).find? [j] with
  | some l =>
    right
    obtain ⟨w, hw, g1, g2⟩ := a1 _ (find?_mem h1)
    have := find?_of_mem A'.keys hw
    rw [g1] at this
    exact ⟨l, w.2, rfl, this, g2⟩
  | none =>
    left
    refine ⟨rfl, ?_⟩
    by_contra hc
    obtain ⟨l, hl⟩ := Option.ne_none_iff_exists'.mp hc
    obtain ⟨w, hw, g1, g2⟩ := a2 _ (find?_mem hl)
    have := find?_of_mem A.keys hw
    rw [g1, h1] at this
    cases this

lemma all_most (h : PriorOK n sh a Q const p) (h' : PriorOK n sh a Q const p') (hp : ∀ e, e ∈ exps p ↔ e ∈ exps p') : mostTerms (allTerms n const p) = mostTerms (allTerms n const p') := by
  apply mostTerms_perm
  have nd : ∀ {p : Prior}, PriorOK n sh a Q const p → ((allTerms n const p).map (fun el => (el.1.getD 0 0, el.2.length))).Nodup := by
    intro p h
    have A := allTerms_spec h
    apply List.Nodup.of_map (fun x : ℕ × ℕ => [x.1])
    rw [List.map_map]
    convert A.keys using 1
    apply List.map_congr_left
    intro u hu
    obtain ⟨d, f1, -⟩ := A.form u hu
    simp [f1]
  have sub : ∀ {p p' : Prior}, PriorOK n sh a Q const p → PriorOK n sh a Q const p' → (∀ e, e ∈ exps p ↔ e ∈ exps p') → ∀ x ∈ (allTerms n const p).map (fun el => (el.1.getD 0 0, el.2.length)),
      x ∈ (allTerms n const p').map (fun el => (el.1.getD 0 0, el.2.length)) := by
    intro p p' h h' hp x hx
    obtain ⟨u, hu, rfl⟩ := List.mem_map.mp hx
    obtain ⟨w, hw, g1, g2⟩ := all_same h h' hp u hu
    exact List.mem_map.mpr ⟨w, hw, by rw [g1, g2.length_eq]⟩
  rw [List.perm_ext_iff_of_nodup (nd h) (nd h')]
  exact fun x => ⟨sub h h' hp x, sub h' h (fun e => (hp e).symm) x⟩

section
variable {F' : Type} [Field F'] [DecidableEq F']

/-- the states of the two loops over the degrees -/
structure Rel (s : Side F) (s' : Side F') : Prop where
  dense : s.dense = s'.dense
  most : s.most = s'.most
  un : SameMap s.unsolved s'.unsolved

lemma Rel.step {s : Side F} {s' : Side F'} (h : Rel s s') (hsh : ∀ i, (p.shifts i).Perm (p'.shifts i)) (i : ℕ) : Rel (setDeg n const p s i) (setDeg n const p' s' i) := by
  unfold setDeg
  rw [← h.most]
  by_cases hi : i = s.most.1
  · rw [if_pos hi, if_pos hi]; exact h
  rw [if_neg hi, if_neg hi]
  rcases h.un i with ⟨h1, h2⟩ | ⟨l, l', h1, h2, h3⟩
  · rw [h1, h2]
    simp only
    have hnil : p.shifts i = [] ↔ p'.shifts i = [] := by
      rw [← List.length_eq_zero_iff, ← List.length_eq_zero_iff, (hsh i).length_eq]
    rw [(hsh i).length_eq]
    by_cases hc : (const = true ∧ i = 0) ∨ p'.shifts i = []
    · rw [if_pos hc, if_pos (hc.imp id hnil.mpr)]; exact h
    rw [if_neg hc, if_neg (fun h0 => hc (h0.imp id hnil.mp))]
    split
    · refine ⟨by simp [h.dense], by first | rfl | exact h.most, h.un.set i ?_⟩
      split
      · exact (hsh i).filter _
      · exact hsh i
    · exact ⟨h.dense, by first | rfl | exact h.most, h.un.set i (List.Perm.refl _)⟩
  · rw [h1, h2]
    simp only
    have hperm : (l ++ (p.shifts i).filter (fun e => decide (e ∉ l ∧ e ≠ List.replicate n 0))).Perm (l' ++ (p'.shifts i).filter (fun e => decide (e ∉ l' ∧ e ≠ List.replicate n 0))) := by
      apply h3.append
      have : (fun e => decide (e ∉ l ∧ e ≠ List.replicate n 0)) = (fun e => decide (e ∉ l' ∧ e ≠ List.replicate n 0)) := by
        funext e
        simp only [h3.mem_iff]
      rw [this]
      exact (hsh i).filter _
    rw [hperm.length_eq]
    split
    · exact ⟨by simp [h.dense], by first | rfl | exact h.most, h.un.set i hperm⟩
    · exact h

lemma setSide_dense (h : PriorOK n sh a Q const p) (h' : PriorOK n sh a Q const p') (hp : ∀ e, e ∈ exps p ↔ e ∈ exps p') (hm : p.maxDeg = p'.maxDeg) (hsh : ∀ i, (p.shifts i).Perm (p'.shifts i)) :
    (setSide (F := F) n const p).dense = (setSide (F := F') n const p').dense := by
  unfold setSide
  simp only
  rw [hm]
  have : ∀ (l : List ℕ) (s : Side F) (s' : Side F'), Rel s s' → Rel (l.foldl (setDeg n const p) s) (l.foldl (setDeg n const p') s') := by
    intro l
    induction l with
    | nil => intro s s' h; exact h
    | cons i l ih => intro s s' h; rw [List.foldl_cons, List.foldl_cons]; exact ih _ _ (h.step hsh i)
  exact (this _ _ _ ⟨rfl, all_most h h' hp, all_sameMap h h' hp⟩).dense

end

end FireFly.RShift
