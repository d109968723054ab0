import Verif.Lemmas.RatMultiInv
/-! # The removal of the shift at the end -/
set_option linter.all false
namespace FireFly.RMulti
open MvPolynomial
variable {F : Type} [Field F] [DecidableEq F] {c : Cfg F} {bounds : Option (List ℕ)} {Q : MvPolynomial ℕ F} {m T : ℕ}

/-- one step of the loop of `unshift` -/
def Cfg.unshiftStep (c : Cfg F) (s : Side F) (i : ℕ) : Option (Side F) :=
  if s.dense.contains i then
    if i = 0 then some (subtract s i) else c.addSub (subtract s i) i
  else some s

lemma unshift_eq (s : Side F) : c.unshift s = ((List.range (s.maxDeg + 1)).reverse).foldlM c.unshiftStep s := rfl

lemma addSub_dense (s : Side F) (k : ℕ) (x : List ℕ) {s' : Side F} (h : c.addSub { s with dense := x } k = some s') : c.addSub s k = some { s' with dense := s.dense } := by
  unfold Cfg.addSub at h ⊢
  simp only [Option.bind_eq_bind, Option.bind_eq_some_iff, Option.some.injEq] at h ⊢
  obtain ⟨ms, h1, h2⟩ := h
  refine ⟨ms, h1, ?_⟩
  rw [← h2]

lemma subSum_zero_one (c : Cfg F) (Q : MvPolynomial ℕ F) (m j : ℕ) : subSum c Q m 0 j = subSum c Q m 1 j := by
  unfold subSum
  apply Finset.sum_congr _ (fun _ _ => rfl)
  ext x
  simp only [Finset.mem_filter]
  constructor
  · rintro ⟨a, b⟩; exact ⟨a, by omega, b.2⟩
  · rintro ⟨a, b⟩; exact ⟨a, by omega, b.2⟩

lemma unshift_loop (hs : c.shift.length = c.n) (hok : SideOK c bounds Q m) {dn : List ℕ} (hbelow : ∀ k < T, part c.shift Q k ≠ 0 → k ∈ dn) (habove : ∀ k, T ≤ k → k ∉ dn) :
    ∀ (i : ℕ) (s : Side F), i ≤ m + 1 → s.dense = dn → BInv c Q m (min i T) [] { s with dense := dn.filter (· < i) } →
    ∃ sv sb, ((List.range i).reverse).foldlM c.unshiftStep s = some { s with solved := sv, sub := sb } ∧ BInv c Q m 0 [] { s with solved := sv, sub := sb, dense := [] } := by
  intro i
  induction i with
  | zero =>
    intro s _ hdn h
    refine ⟨s.solved, s.sub, by simp, ?_⟩
    have h1 : dn.filter (· < 0) = [] := by simp
    rw [h1, Nat.zero_min] at h
    exact h
  | succ i ih =>
    intro s him hdn h
    rw [List.range_succ, List.reverse_append, List.reverse_singleton, List.singleton_append, List.foldlM_cons]
    by_cases hi : i ∈ dn
    · have hiT : i < T := by
        by_contra hlt
        exact habove i (by omega) hi
      rw [Nat.min_eq_left (by omega : i + 1 ≤ T)] at h
      have hp : part c.shift Q i ≠ 0 := h.dense i (by show i ∈ dn.filter (· < i + 1); simp [hi])
      have hfil : (dn.filter (· < i + 1)).filter (· ≠ i) = dn.filter (· < i) := by
        rw [List.filter_filter]
        apply List.filter_congr
        intro x _
        have : (x < i + 1 ∧ x ≠ i) ↔ x < i := by omega
        simp only [← Bool.decide_and, decide_eq_decide]
        tauto
      by_cases h0 : i = 0
      · subst h0
        have hh := h.holds 0 hp (by simp)
        rw [tgt_dense (by show 0 ∈ dn.filter (· < 0 + 1); simp [hi])] at hh
        obtain ⟨g1, g2⟩ := subtract_spec hok (by omega) h.sub hh
        have hst : c.unshiftStep s 0 = some (subtract s 0) := by
          unfold Cfg.unshiftStep; rw [if_pos (by rw [hdn]; simpa using hi), if_pos rfl]
        rw [hst]
        refine ⟨(subtract s 0).solved, s.sub, by simp [subtract], ?_, set_nodup h.nodup _ _, ?_, by simp, ?_, by simp⟩
        · intro key hk
          rcases keys_set_cases hk with hk | hk
          · exact h.keys key hk
          · exact ⟨0, hk, hp, by simp⟩
        · intro k hk1 hk2
          by_cases hk0 : k = 0
          · subst hk0
            rw [tgt_sparse (by simp)]; exact g1
          · have hkd : k ∉ dn.filter (· < 0 + 1) := by simp; omega
            have := h.holds k hk1 (by simp)
            rw [tgt_sparse hkd] at this
            rw [tgt_sparse (by simp)]
            exact g2 k _ hk0 this
        · intro j hj
          obtain ⟨a, b⟩ := h.sub j hj
          exact ⟨a, by rw [subSum_zero_one]; exact b⟩
      · obtain ⟨sv, sb, e1, e2⟩ := BInv.step (T := i) hs hok h (by omega) (by omega) hp (by simp) (by show i ∈ dn.filter (· < i + 1); simp [hi])
        have hst : c.unshiftStep s i = some { s with solved := sv, sub := sb } := by
          unfold Cfg.unshiftStep
          rw [if_pos (by rw [hdn]; simpa using hi), if_neg h0]
          have := addSub_dense (subtract s i) i ((dn.filter (· < i + 1)).filter (· ≠ i)) e1
          rw [this]
          rfl
        rw [hst]
        simp only [hfil] at e2
        obtain ⟨sv', sb', f1, f2⟩ := ih { s with solved := sv, sub := sb } (by omega) hdn (by
          rw [Nat.min_eq_left (by omega : i ≤ T)]
          exact e2)
        exact ⟨sv', sb', f1, f2⟩
    · have hst : c.unshiftStep s i = some s := by
        unfold Cfg.unshiftStep
        rw [if_neg (by rw [hdn]; simpa using hi)]
      rw [hst]
      have hfil : dn.filter (· < i + 1) = dn.filter (· < i) := by
        apply List.filter_congr
        intro x hx
        have : x ≠ i := fun h => hi (h ▸ hx)
        simp; omega
      rw [hfil] at h
      apply ih s (by omega) hdn
      by_cases hiT : i < T
      · rw [Nat.min_eq_left (by omega : i + 1 ≤ T)] at h
        rw [Nat.min_eq_left (by omega : i ≤ T)]
        have hp : part c.shift Q i = 0 := by
          by_contra hp
          exact hi (hbelow i hiT hp)
        refine ⟨h.keys, h.nodup, h.holds, h.dense, SubOK.skip hok (by omega) hp h.sub, ?_⟩
        intro k hk hk2
        have hk2 : k ∈ dn.filter (· < i) := hk2
        rw [List.mem_filter] at hk2
        have := hk2.2
        simp at this; omega
      · rw [Nat.min_eq_right (by omega : T ≤ i + 1)] at h
        rw [Nat.min_eq_right (by omega : T ≤ i)]
        exact h

/-- what the solved degrees are in the end -/
structure Final (c : Cfg F) (Q : MvPolynomial ℕ F) (m : ℕ) (s : Side F) : Prop where
  keys : ∀ key ∈ s.solved.map Prod.fst, ∃ k, key = [k] ∧ part c.shift Q k ≠ 0
  nodup : (s.solved.map Prod.fst).Nodup
  holds : ∀ k, part c.shift Q k ≠ 0 → Holds c s.solved k (homogeneousComponent k Q)
  sub : c.hasShift = true → SubOK c Q m 0 s.sub

lemma SInv.unshift (hs : c.shift.length = c.n) (hok : SideOK c bounds Q m) {s : Side F} (h : SInv c Q m T s) (ho : s.coefs = []) (hsh : c.hasShift = true) :
    ∃ s', c.unshift s = some s' ∧ Final c Q m s' ∧ s'.maxDeg = m := by
  have hop : s.open = [] := by simp [Side.open, ho]
  have hbelow : ∀ k < T, part c.shift Q k ≠ 0 → k ∈ s.dense := by
    intro k hk hp
    rcases h.below hsh k hk hp with h1 | h1
    · exact h1
    · rw [hop] at h1; simp at h1
  have hfil : s.dense.filter (· < m + 1) = s.dense := by
    rw [List.filter_eq_self]
    intro k hk
    have := hok.le (h.dense k hk)
    simp; omega
  obtain ⟨sv, sb, e1, e2⟩ := unshift_loop (T := T) (dn := s.dense) hs hok hbelow (fun k hk => (h.above hsh k hk).1) (m + 1) s le_rfl rfl (by
    rw [hfil, Nat.min_eq_right h.le]
    have hk := h.keys
    have hh := h.holds
    rw [hop] at hk hh
    exact ⟨hk, h.nodup, hh, h.dense, h.sub hsh, fun k hk => (h.above hsh k hk).1⟩)
  refine ⟨{ s with solved := sv, sub := sb }, by rw [unshift_eq]; have := h.maxDeg; rw [show List.range (s.maxDeg + 1) = List.range (m + 1) by rw [this]]; exact e1, ⟨?_, e2.nodup, ?_, fun _ => e2.sub⟩, h.maxDeg⟩
  · intro key hk
    obtain ⟨k, a, b, -⟩ := e2.keys key hk
    exact ⟨k, a, b⟩
  · intro k hk
    have := e2.holds k hk (by simp)
    rw [tgt_sparse (by simp)] at this
    exact this

lemma SInv.final (hs : c.shift.length = c.n) {s : Side F} (h : SInv c Q m T s) (ho : s.coefs = []) (hsh : c.hasShift = false) : Final c Q m s := by
  have hop : s.open = [] := by simp [Side.open, ho]
  refine ⟨?_, h.nodup, ?_, by simp [hsh]⟩
  · intro key hk
    obtain ⟨k, a, b, -⟩ := h.keys key hk
    exact ⟨k, a, b⟩
  · intro k hk
    have := h.holds k hk (by simp [hop])
    rw [tgt_dense (h.plain hsh k hk), noshift_eq hs hsh] at this
    exact this

/-! ### the sum of the degrees -/

lemma collect_loop : ∀ (l : FFMap (FFMap F)) (acc : FFMap F), WFMap c.n acc → NZ acc → (∀ t ∈ l, WFMap c.n t.2 ∧ NZ t.2) →
    WFMap c.n (l.foldl (fun (m : FFMap F) el => if el.2.length = 0 ∨ (el.2.length = 1 ∧ (el.2.getD 0 ([], 0)).2 = 0) then m else PolyFF.addAssign m el.2) acc) ∧
    NZ (l.foldl (fun (m : FFMap F) el => if el.2.length = 0 ∨ (el.2.length = 1 ∧ (el.2.getD 0 ([], 0)).2 = 0) then m else PolyFF.addAssign m el.2) acc) ∧
    denote (l.foldl (fun (m : FFMap F) el => if el.2.length = 0 ∨ (el.2.length = 1 ∧ (el.2.getD 0 ([], 0)).2 = 0) then m else PolyFF.addAssign m el.2) acc) =
      denote acc + (l.map (fun t => denote t.2)).sum := by
  intro l
  induction l with
  | nil => intro acc h1 h2 _; exact ⟨h1, h2, by simp⟩
  | cons t l ih =>
    intro acc h1 h2 h3
    obtain ⟨g1, g2⟩ := h3 t (by simp)
    rw [List.foldl_cons]
    by_cases hc : t.2.length = 0 ∨ (t.2.length = 1 ∧ (t.2.getD 0 ([], 0)).2 = 0)
    · rw [if_pos hc]
      obtain ⟨i1, i2, i3⟩ := ih acc h1 h2 (fun x hx => h3 x (by simp [hx]))
      refine ⟨i1, i2, ?_⟩
      rw [i3, List.map_cons, List.sum_cons]
      have : denote t.2 = 0 := by
        rcases hc with hc | ⟨hc, hc2⟩
        · rw [List.length_eq_zero_iff.mp hc]; simp [denote]
        · obtain ⟨x, hx⟩ := List.length_eq_one_iff.mp hc
          exact absurd (by rw [hx] at hc2; simpa using hc2) (g2 x (by rw [hx]; simp))
      rw [this, zero_add]
    · rw [if_neg hc]
      obtain ⟨k1, k2, k3⟩ := C13_add_assign h1 g1
      obtain ⟨i1, i2, i3⟩ := ih (PolyFF.addAssign acc t.2) k1 (k3 h2) (fun x hx => h3 x (by simp [hx]))
      refine ⟨i1, i2, ?_⟩
      rw [i3, k2, List.map_cons, List.sum_cons, add_assoc]

lemma hc_sum_support (Q : MvPolynomial ℕ F) (S : Finset ℕ) (h : ∀ k, k ∉ S → homogeneousComponent k Q = 0) : ∑ k ∈ S, homogeneousComponent k Q = Q := by
  conv_rhs => rw [← sum_homogeneousComponent Q]
  rw [Finset.sum_subset (Finset.subset_union_left (s₁ := S) (s₂ := Finset.range (Q.totalDegree + 1)))]
  · rw [Finset.sum_subset (Finset.subset_union_right (s₁ := S) (s₂ := Finset.range (Q.totalDegree + 1)))]
    intro k hk1 hk2
    rw [Finset.mem_range] at hk2
    exact homogeneousComponent_eq_zero _ _ (by omega)
  · intro k _ hk2
    exact h k hk2

lemma Final.collect (hok : SideOK c bounds Q m) {s : Side F} (h : Final c Q m s) : WFMap c.n (RMulti.collect s) ∧ NZ (RMulti.collect s) ∧ denote (RMulti.collect s) = Q := by
  have hmem : ∀ t ∈ s.solved, ∃ k, t.1 = [k] ∧ part c.shift Q k ≠ 0 ∧ WFMap c.n t.2 ∧ NZ t.2 ∧ denote t.2 = homogeneousComponent k Q := by
    rintro ⟨key, q⟩ ht
    obtain ⟨k, rfl, hk⟩ := h.keys key (List.mem_map.mpr ⟨_, ht, rfl⟩)
    obtain ⟨q', e1, e2⟩ := h.holds k hk
    rw [FFMap.find?_of_mem h.nodup ht] at e1
    obtain rfl : q = q' := by simpa using e1
    exact ⟨k, rfl, hk, e2⟩
  obtain ⟨k1, k2, k3⟩ := collect_loop (c := c) s.solved [] (WFMap.nil _) (by intro t ht; simp at ht) (by
    intro t ht
    obtain ⟨k, -, -, a, b, -⟩ := hmem t ht
    exact ⟨a, b⟩)
  refine ⟨k1, k2, ?_⟩
  refine k3.trans ?_
  have hz : denote ([] : FFMap F) = 0 := by simp [denote]
  rw [hz, zero_add]
  have e1 : s.solved.map (fun t => denote t.2) = (s.solved.map Prod.fst).map (fun key => homogeneousComponent (key.getD 0 0) Q) := by
    rw [List.map_map]
    apply List.map_congr_left
    intro t ht
    obtain ⟨k, a, -, -, -, b⟩ := hmem t ht
    rw [b, Function.comp_apply, a]; rfl
  rw [e1]
  have e2 : ((s.solved.map Prod.fst).map (fun key => homogeneousComponent (key.getD 0 0) Q)) = ((s.solved.map (fun t => t.1.getD 0 0))).map (fun k => homogeneousComponent k Q) := by
    rw [List.map_map, List.map_map]; rfl
  rw [e2]
  have hnd : (s.solved.map (fun t => t.1.getD 0 0)).Nodup := by
    have h1 := h.nodup
    rw [show s.solved.map (fun t => t.1.getD 0 0) = (s.solved.map Prod.fst).map (fun key => key.getD 0 0) by rw [List.map_map]; rfl]
    apply List.Nodup.map_on _ h1
    intro a ha b hb hab
    obtain ⟨k, rfl, -⟩ := h.keys a ha
    obtain ⟨k', rfl, -⟩ := h.keys b hb
    simpa using hab
  rw [← List.sum_toFinset _ hnd]
  apply hc_sum_support
  intro k hk
  apply hok.keep
  by_contra hp
  apply hk
  obtain ⟨q, hq, -⟩ := h.holds k hp
  rw [List.mem_toFinset, List.mem_map]
  exact ⟨_, FFMap.find?_mem hq, rfl⟩

end FireFly.RMulti
