import Verif.Lemmas.FirstFeedSys
import Mathlib.Algebra.BigOperators.Fin
import Mathlib.Algebra.Order.BigOperators.Group.Finset
/-! # All objects in the first prime field: the work is bounded, and there is no deadlock -/
set_option linter.all false
namespace FireFly.First
variable {F ι : Type} [DecidableEq ι] [DecidableEq F] {objs : ι → Obj F} {n : ℕ} {good : F × List ℕ → Prop} {b l m : ℕ} {J : ∀ i, List (F × List ℕ) → (objs i).S → ℕ → Prop} {early : ∀ i, (objs i).S → Bool}
  {right : ∀ i, (objs i).S → Prop}

/-- the branch for `(1, …, 1)` -/
def Ask.isOne : Ask → Bool
  | .one => true
  | .entry _ _ => false

/-- the requests for `(1, …, 1)` that are not handled -/
def onesLeft (early : ∀ i, (objs i).S → Bool) (s : Fld F objs) (i : ι) : ℕ :=
  (s.todo i).countP Ask.isOne + if s.pend i = true ∧ early i (s.st i) = true ∧ (objs i).done (s.st i) = false then 1 else 0

/-- at most this many probes that are not `(1, …, 1)` -/
def others (N b l m : ℕ) : ℕ := b * (N * (l * (m + 1)))
/-- at most this many probes are fed to an object whose degrees are not known -/
def earlyMax (N b l m : ℕ) : ℕ := m + others N b l m

/-- the bookkeeping for the bound: `φ` counts the changes of the requests that are left, `R` are the order vectors an object has asked for, `e` counts the probes it has got before its degrees were known -/
structure Bounded [Fintype ι] (objs : ι → Obj F) (n : ℕ) (J : ∀ i, List (F × List ℕ) → (objs i).S → ℕ → Prop) (early : ∀ i, (objs i).S → Bool) (b l m K : ℕ) (s : Fld F objs) (φ : ι → ℕ) (R : ι → Finset (List ℕ)) (e : ι → ℕ) : Prop where
  inv : ∀ i, J i (s.got i) (s.st i) (φ i)
  card : ∀ i, (R i).card + l * φ i ≤ l * (m + 1)
  cur : ∀ i L size, (objs i).done (s.st i) = false → (objs i).orders (s.st i) = some (L, size) → ∀ el ∈ L, el.1 ∈ R i
  todo : ∀ i el size, Ask.entry el size ∈ s.todo i → el.1 ∈ R i
  probes : ∀ q ∈ s.probes, q.2 = List.replicate (n - 1) 1 ∨ ∃ i, q.2 ∈ R i
  eGot : ∀ i, e i ≤ (s.got i).length
  eMax : ∀ i, e i ≤ earlyMax (Fintype.card ι) b l m
  ones : cnt s.probes (List.replicate (n - 1) 1) + K * ∑ i, onesLeft early s i ≤ K * (1 + ∑ i, e i)

/-- the probes that are not `(1, …, 1)` -/
def restOf (n : ℕ) (probes : List (F × List ℕ)) : List (F × List ℕ) := probes.filter (fun q => decide (q.2 ≠ List.replicate (n - 1) 1))

lemma length_split (probes : List (F × List ℕ)) : probes.length = cnt probes (List.replicate (n - 1) 1) + (restOf n probes).length := by
  unfold cnt restOf
  rw [← List.countP_eq_length_filter, ← List.countP_eq_length_filter, List.length_eq_countP_add_countP (fun q : F × List ℕ => decide (q.2 = List.replicate (n - 1) 1))]
  congr 1
  apply List.countP_congr
  intro q _
  simp

lemma Bounded.others [Fintype ι] {K : ℕ} {s : Fld F objs} {φ : ι → ℕ} {R : ι → Finset (List ℕ)} {e : ι → ℕ} (h : Bounded objs n J early b l m K s φ R e) (hs : Sound objs n good (fun _ => b) J early K s) :
    (restOf n s.probes).length ≤ others (Fintype.card ι) b l m := by
  classical
  have hnd : (restOf n s.probes).Nodup := hs.nodup.filter _
  rw [← List.toFinset_card_of_nodup hnd]
  have h1 : (restOf n s.probes).toFinset.card ≤ b * (Finset.univ.biUnion R).card := by
    refine Finset.card_le_mul_card_image_of_maps_to (f := Prod.snd) ?_ b ?_
    · intro q hq
      have hq := List.mem_toFinset.mp hq
      obtain ⟨q1, q2⟩ := List.mem_filter.mp hq
      have q2 : q.2 ≠ List.replicate (n - 1) 1 := by simpa using q2
      rcases h.probes q q1 with x | ⟨i, x⟩
      · exact absurd x q2
      · exact Finset.mem_biUnion.mpr ⟨i, Finset.mem_univ _, x⟩
    · intro o _
      by_cases ho : o = List.replicate (n - 1) 1
      · rw [Finset.card_eq_zero.mpr]; · omega
        rw [Finset.filter_eq_empty_iff]
        intro q hq
        have hq := List.mem_toFinset.mp hq
        have q2 : q.2 ≠ List.replicate (n - 1) 1 := by simpa using (List.mem_filter.mp hq).2
        rw [ho]; exact q2
      · have hle : ((restOf n s.probes).toFinset.filter (fun q => q.2 = o)).card ≤ cnt s.probes o := by
          unfold cnt
          rw [← List.toFinset_card_of_nodup (hs.nodup.filter _)]
          apply Finset.card_le_card
          intro q hq
          obtain ⟨q1, q2⟩ := Finset.mem_filter.mp hq
          have q1 := (List.mem_filter.mp (List.mem_toFinset.mp q1)).1
          exact List.mem_toFinset.mpr (List.mem_filter.mpr ⟨q1, by simpa using q2⟩)
        rcases hs.bound o ho with hb | ⟨_, hb⟩ <;> omega
  have h2 : (Finset.univ.biUnion R).card ≤ Fintype.card ι * (l * (m + 1)) := by
    refine le_trans Finset.card_biUnion_le ?_
    refine le_trans (Finset.sum_le_card_nsmul _ _ (l * (m + 1)) ?_) (by simp [Finset.card_univ])
    intro i _
    have := h.card i; omega
  exact le_trans h1 (Nat.mul_le_mul le_rfl h2)

lemma restOf_mono {p p' : List (F × List ℕ)} (hnd : p.Nodup) (hsub : ∀ q ∈ p, q ∈ p') : (restOf n p).length ≤ (restOf n p').length := by
  apply (List.Nodup.subperm (hnd.filter _) _).length_le
  intro q hq
  unfold restOf
  rw [List.mem_filter] at hq ⊢
  exact ⟨hsub q hq.1, hq.2⟩

lemma onesLeft_congr {s s' : Fld F objs} {i : ι} (h1 : (s'.todo i).countP Ask.isOne = (s.todo i).countP Ask.isOne) (h2 : s'.pend i = s.pend i) (h3 : s'.st i = s.st i) : onesLeft early s' i = onesLeft early s i := by
  unfold onesLeft; rw [h1, h2, h3]

lemma sum_change [Fintype ι] {f g : ι → ℕ} (i : ι) (ho : ∀ j, j ≠ i → f j = g j) : ∑ j, f j + g i = ∑ j, g j + f i := by
  classical
  rw [← Finset.add_sum_erase _ f (Finset.mem_univ i), ← Finset.add_sum_erase _ g (Finset.mem_univ i)]
  have : ∑ j ∈ Finset.univ.erase i, f j = ∑ j ∈ Finset.univ.erase i, g j := Finset.sum_congr rfl (fun j hj => ho j (Finset.mem_erase.mp hj).1)
  omega

lemma keys_same {x y : Option (List (List ℕ × ℕ) × ℕ)} (h : y.map (fun r => (r.1.map Prod.fst, r.2)) = x.map (fun r => (r.1.map Prod.fst, r.2))) {L : List (List ℕ × ℕ)} {size : ℕ} (hy : y = some (L, size)) :
    ∃ L', x = some (L', size) ∧ L'.map Prod.fst = L.map Prod.fst := by
  subst hy
  cases x with
  | none => simp at h
  | some r =>
    obtain ⟨L', z⟩ := r
    simp at h
    exact ⟨L', by rw [h.2], h.1.symm⟩

lemma Bounded.step [Fintype ι] (hok : ∀ i, (objs i).OK n good b l m (J i) (early i) (right i)) {K : ℕ} {s s' : Fld F objs} {φ : ι → ℕ} {R : ι → Finset (List ℕ)} {e : ι → ℕ}
    (h : Bounded objs n J early b l m K s φ R e) (hs : Sound objs n good (fun _ => b) J early K s) (hst : Step objs n good s s') : ∃ φ' R' e', Bounded objs n J early b l m K s' φ' R' e' := by
  classical
  cases hst with
  | compute q h1 h2 => exact ⟨φ, R, e, ⟨h.inv, h.card, h.cur, h.todo, h.probes, h.eGot, h.eMax, h.ones⟩⟩
  | feed i q x h1 h2 h3 =>
    have hnd : (s.got i ++ [q]).Nodup := by
      rw [List.nodup_append]
      exact ⟨hs.gotNodup i, by simp, fun a ha b hb => by rw [List.mem_singleton] at hb; rintro rfl; exact h2 (hb ▸ ha)⟩
    have hsub : ∀ y ∈ s.got i ++ [q], y ∈ s.probes := by
      intro y hy
      rcases List.mem_append.mp hy with hy | hy
      · exact hs.gotProbes i y hy
      · rw [List.mem_singleton.mp hy]; exact hs.compSub q h1
    obtain ⟨x', φ', e1, e2, e3⟩ := (hok i).feed _ q _ _ (h.inv i) hnd (fun y hy => hs.good y (hsub y hy))
    rw [h3] at e1
    have e1 := Option.some.inj e1
    subst e1
    -- the order vectors
    obtain ⟨Ri, hR1, hR2, hR3⟩ : ∃ Ri : Finset (List ℕ), R i ⊆ Ri ∧ Ri.card + l * φ' ≤ l * (m + 1) ∧
        ∀ L size, (objs i).done x = false → (objs i).orders x = some (L, size) → ∀ el ∈ L, el.1 ∈ Ri := by
      rcases e3 with e3 | ⟨e3, e4, e5⟩
      · by_cases hd : (objs i).done x = false
        · obtain ⟨L, size, w1, w2, -⟩ := (hok i).wants _ _ _ e2 hnd hd
          refine ⟨R i ∪ (L.map Prod.fst).toFinset, Finset.subset_union_left, ?_, ?_⟩
          · have c1 := Finset.card_union_le (R i) (L.map Prod.fst).toFinset
            have c2 : (L.map Prod.fst).toFinset.card ≤ l := le_trans (List.toFinset_card_le _) (by simpa using w2)
            have c3 := h.card i
            have c4 : l * φ' + l ≤ l * φ i := by
              have : l * (φ' + 1) ≤ l * φ i := Nat.mul_le_mul le_rfl e3
              rw [Nat.mul_add, Nat.mul_one] at this; exact this
            omega
          · intro L' size' _ hL' el hel
            rw [w1] at hL'
            obtain ⟨rfl, -⟩ := Prod.mk.inj (Option.some.inj hL')
            exact Finset.mem_union_right _ (List.mem_toFinset.mpr (List.mem_map_of_mem hel))
        · refine ⟨R i, Finset.Subset.refl _, ?_, fun _ _ h0 => absurd h0 hd⟩
          have c3 := h.card i
          have c4 : l * φ' ≤ l * φ i := Nat.mul_le_mul le_rfl e3.le
          omega
      · refine ⟨R i, Finset.Subset.refl _, ?_, ?_⟩
        · have c3 := h.card i
          have c4 : l * φ' ≤ l * φ i := Nat.mul_le_mul le_rfl e3
          omega
        · intro L size hd hL el hel
          obtain ⟨L', k1, k2⟩ := keys_same e4 hL
          have : el.1 ∈ L'.map Prod.fst := by rw [k2]; exact List.mem_map_of_mem hel
          obtain ⟨el', m1, m2⟩ := List.mem_map.mp this
          rw [← m2]
          exact h.cur i L' size (by rw [← e5]; exact hd) k1 el' m1
    have hRsub : ∀ j o, o ∈ R j → o ∈ Function.update R i Ri j := by
      intro j o ho
      by_cases hj : j = i
      · subst hj; rw [Function.update_self]; exact hR1 ho
      · rw [Function.update_of_ne hj]; exact ho
    have hlen := (List.Nodup.subperm hnd hsub).length_le
    refine ⟨Function.update φ i φ', Function.update R i Ri, Function.update e i (if early i x = true ∧ (objs i).done x = false then (s.got i).length + 1 else e i), ?_⟩
    refine ⟨?_, ?_, ?_, ?_, ?_, ?_, ?_, ?_⟩
    · intro j
      dsimp only
      by_cases hj : j = i
      · subst hj; simp only [Function.update_self]; exact e2
      · simp only [Function.update_of_ne hj]; exact h.inv j
    · intro j
      by_cases hj : j = i
      · subst hj; simp only [Function.update_self]; exact hR2
      · simp only [Function.update_of_ne hj]; exact h.card j
    · intro j L size
      dsimp only
      by_cases hj : j = i
      · subst hj; simp only [Function.update_self]; exact hR3 L size
      · simp only [Function.update_of_ne hj]; exact h.cur j L size
    · intro j el size hm
      exact hRsub j _ (h.todo j el size hm)
    · intro q' hq'
      rcases h.probes q' hq' with x1 | ⟨j, x1⟩
      · exact Or.inl x1
      · exact Or.inr ⟨j, hRsub j _ x1⟩
    · intro j
      dsimp only
      by_cases hj : j = i
      · subst hj
        simp only [Function.update_self, List.length_append, List.length_cons, List.length_nil]
        have := h.eGot j
        split <;> omega
      · simp only [Function.update_of_ne hj]; exact h.eGot j
    · intro j
      by_cases hj : j = i
      · subst hj
        simp only [Function.update_self]
        split
        · rename_i hc
          obtain ⟨L, size, w1, w2, w3, w4, w5⟩ := (hok j).wants _ _ _ e2 hnd hc.2
          have c1 := (w4 hc.1).2
          have c2 := length_split (n := n) (s.got j ++ [q])
          have c3 := restOf_mono (n := n) hnd hsub
          have c4 := h.others hs
          unfold earlyMax
          simp only [List.length_append, List.length_cons, List.length_nil] at c2
          omega
        · exact h.eMax j
      · simp only [Function.update_of_ne hj]; exact h.eMax j
    · dsimp only
      refine le_trans ?_ (le_trans (Nat.add_le_add_right h.ones (K * (∑ j, onesLeft early { s with st := Function.update s.st i x, got := Function.update s.got i (s.got i ++ [q]), pend := Function.update s.pend i true } j - ∑ j, onesLeft early s j))) ?_)
      · have : K * ∑ j, onesLeft early { s with st := Function.update s.st i x, got := Function.update s.got i (s.got i ++ [q]), pend := Function.update s.pend i true } j ≤
            K * ∑ j, onesLeft early s j + K * (∑ j, onesLeft early { s with st := Function.update s.st i x, got := Function.update s.got i (s.got i ++ [q]), pend := Function.update s.pend i true } j - ∑ j, onesLeft early s j) := by
          rw [← Nat.mul_add]; exact Nat.mul_le_mul le_rfl (by omega)
        omega
      · rw [← Nat.mul_add]
        apply Nat.mul_le_mul le_rfl
        have s1 := sum_change (f := fun j => onesLeft early { s with st := Function.update s.st i x, got := Function.update s.got i (s.got i ++ [q]), pend := Function.update s.pend i true } j)
          (g := fun j => onesLeft early s j) i (fun j hj => onesLeft_congr rfl (by dsimp only; rw [Function.update_of_ne hj]) (by dsimp only; rw [Function.update_of_ne hj]))
        have s2 := sum_change (f := fun j => Function.update e i (if early i x = true ∧ (objs i).done x = false then (s.got i).length + 1 else e i) j) (g := e) i (fun j hj => by rw [Function.update_of_ne hj])
        simp only [Function.update_self] at s2
        have s3 : onesLeft early { s with st := Function.update s.st i x, got := Function.update s.got i (s.got i ++ [q]), pend := Function.update s.pend i true } i ≤
            onesLeft early s i + if early i x = true ∧ (objs i).done x = false then 1 else 0 := by
          unfold onesLeft
          simp only [Function.update_self, true_and]
          omega
        have := h.eGot i
        beta_reduce at s1 s2
        split at s3 <;> rename_i hc
        · rw [if_pos hc] at s2 ⊢; omega
        · rw [if_neg hc] at s2 ⊢; omega
  | look i L size h1 h2 h3 =>
    obtain ⟨w0, w1, w2⟩ := wants_asks (B := fun _ => b) (L := fun _ => l) (M := fun _ => m) (hok i) (h.inv i) (hs.gotNodup i) h2 h3
    refine ⟨φ, R, e, ⟨h.inv, h.card, h.cur, ?_, h.probes, h.eGot, h.eMax, ?_⟩⟩
    · intro j el sz hm
      dsimp only at hm
      by_cases hj : j = i
      · subst hj
        rw [Function.update_self] at hm
        rcases List.mem_append.mp hm with hm | hm
        · exact h.todo j el sz hm
        · cases he : early j (s.st j) with
          | true => rw [(w1 he).1] at hm; simp at hm
          | false =>
            rw [(w2 he).1] at hm
            obtain ⟨el', m1, m2⟩ := List.mem_map.mp hm
            injection m2 with m2 m3
            subst m2
            exact h.cur j L size h2 h3 el' m1
      · rw [Function.update_of_ne hj] at hm; exact h.todo j el sz hm
    · have hle : ∑ j, onesLeft early { s with pend := Function.update s.pend i false, todo := Function.update s.todo i (s.todo i ++ asks n L size) } j ≤ ∑ j, onesLeft early s j := by
        apply Finset.sum_le_sum
        intro j _
        by_cases hj : j = i
        · subst hj
          unfold onesLeft
          simp only [Function.update_self, List.countP_append, h1, h2, true_and, and_true]
          cases he : early j (s.st j) with
          | true => rw [(w1 he).1]; simp [Ask.isOne]
          | false =>
            rw [(w2 he).1]
            have : List.countP Ask.isOne (L.map (fun el => Ask.entry el size)) = 0 := by
              rw [List.countP_eq_zero]
              intro a ha
              obtain ⟨_, -, rfl⟩ := List.mem_map.mp ha
              simp [Ask.isOne]
            rw [this]; simp
        · exact le_of_eq (onesLeft_congr (by dsimp only; rw [Function.update_of_ne hj]) (by dsimp only; rw [Function.update_of_ne hj]) rfl)
      have := Nat.mul_le_mul (le_refl K) hle
      have := h.ones
      dsimp only at *
      omega
  | skip i h1 h2 =>
    refine ⟨φ, R, e, ⟨h.inv, h.card, h.cur, h.todo, h.probes, h.eGot, h.eMax, ?_⟩⟩
    have hle : ∑ j, onesLeft early { s with pend := Function.update s.pend i false } j ≤ ∑ j, onesLeft early s j := by
      apply Finset.sum_le_sum
      intro j _
      by_cases hj : j = i
      · subst hj
        unfold onesLeft
        simp only [Function.update_self]
        simp
      · exact le_of_eq (onesLeft_congr rfl (by dsimp only; rw [Function.update_of_ne hj]) rfl)
    have := Nat.mul_le_mul (le_refl K) hle
    have := h.ones
    dsimp only at *
    omega
  | one i a b' new h1 h2 h3 h4 =>
    have hc := cnt_rep h2
    refine ⟨φ, R, e, ⟨h.inv, h.card, h.cur, ?_, ?_, h.eGot, h.eMax, ?_⟩⟩
    · intro j el sz hm
      apply h.todo j el sz
      dsimp only at hm
      by_cases hj : j = i
      · subst hj
        rw [Function.update_self] at hm
        rw [h1]
        simp only [List.mem_append, List.mem_cons] at hm ⊢
        tauto
      · rwa [Function.update_of_ne hj] at hm
    · intro q hq
      rcases List.mem_append.mp hq with hq | hq
      · exact h.probes q hq
      · left
        exact List.eq_of_mem_replicate (by rw [← h2]; exact List.mem_map_of_mem hq)
    · dsimp only
      rw [cnt_append, hc, if_pos rfl]
      have s1 := sum_change (f := fun j => onesLeft early { s with started := startedOnes n s.started s.balance, balance := 0, probes := s.probes ++ new, todo := Function.update s.todo i (a ++ b') } j)
          (g := fun j => onesLeft early s j) i (fun j hj => onesLeft_congr (by dsimp only; rw [Function.update_of_ne hj]) rfl rfl)
      have s2 : onesLeft early { s with started := startedOnes n s.started s.balance, balance := 0, probes := s.probes ++ new, todo := Function.update s.todo i (a ++ b') } i + 1 = onesLeft early s i := by
        unfold onesLeft
        simp only [Function.update_self, h1, List.countP_append, List.countP_cons, Ask.isOne]
        simp only [if_true]
        omega
      have s3 : ∑ j, onesLeft early s j = ∑ j, onesLeft early { s with started := startedOnes n s.started s.balance, balance := 0, probes := s.probes ++ new, todo := Function.update s.todo i (a ++ b') } j + 1 := by omega
      have h5 := h.ones
      rw [s3, Nat.mul_add, Nat.mul_one] at h5
      have h6 := hs.book
      have h7 := cnt_mono hs.compNodup hs.compSub (List.replicate (n - 1) 1)
      omega
  | entry i el size a b' new h1 h2 h3 h4 =>
    have hmem : Ask.entry el size ∈ s.todo i := by rw [h1]; simp
    obtain ⟨f1, ⟨sv, f2, f3⟩, f4⟩ := hs.asks i el size hmem
    obtain ⟨g1, g2, g3⟩ := entry_spec (started := s.started) (by rw [hs.started]; exact f2) f3
    rw [g3] at h2
    have hc := cnt_rep h2
    refine ⟨φ, R, e, ⟨h.inv, h.card, h.cur, ?_, ?_, h.eGot, h.eMax, ?_⟩⟩
    · intro j el sz hm
      apply h.todo j el sz
      dsimp only at hm
      by_cases hj : j = i
      · subst hj
        rw [Function.update_self] at hm
        rw [h1]
        simp only [List.mem_append, List.mem_cons] at hm ⊢
        tauto
      · rwa [Function.update_of_ne hj] at hm
    · intro q hq
      rcases List.mem_append.mp hq with hq | hq
      · exact h.probes q hq
      · right
        refine ⟨i, ?_⟩
        have : q.2 = el.1 := List.eq_of_mem_replicate (by rw [← h2]; exact List.mem_map_of_mem hq)
        rw [this]
        exact h.todo i el size hmem
    · dsimp only
      rw [cnt_append, hc, if_neg f1.symm]
      have s1 : ∑ j, onesLeft early { s with started := (Needed.Req.askOrder size { started := s.started } el).started, probes := s.probes ++ new, todo := Function.update s.todo i (a ++ b') } j = ∑ j, onesLeft early s j := by
        apply Finset.sum_congr rfl
        intro j _
        refine onesLeft_congr ?_ rfl rfl
        dsimp only
        by_cases hj : j = i
        · subst hj
          rw [Function.update_self, h1]
          simp [List.countP_append, List.countP_cons, Ask.isOne]
        · rw [Function.update_of_ne hj]
      rw [s1]
      have := h.ones
      omega

lemma Bounded.start [Fintype ι] (hok : ∀ i, (objs i).OK n good b l m (J i) (early i) (right i)) {ts rest more : List F} {s : Fld F objs} (h : Starts objs n good ts rest more s) :
    ∃ φ R e, Bounded objs n J early b l m (ts.length + rest.length + more.length) s φ R e := by
  classical
  have hsound : Sound objs n good (fun _ => b) J early _ s := Sound.start (L := fun _ => l) (M := fun _ => m) hok h
  have hst := h.fed
  obtain ⟨st, hs⟩ : ∃ st, s.st = st := ⟨_, rfl⟩
  have heq := h.eq
  rw [hs] at heq hst
  subst heq
  have key : ∀ i, ∃ φ, J i (ts.map (fun t => (t, List.replicate (n - 1) 1))) (st i) φ ∧ φ ≤ m := by
    intro i
    obtain ⟨φ, h1, h2⟩ := fold_J (B := fun _ => b) (L := fun _ => l) (M := fun _ => m) (hok i) (ts.map (fun t => (t, List.replicate (n - 1) 1))) [] _ _ _ (hok i).init (by rw [List.nil_append]; exact hsound.gotNodup i)
      (fun q hq => hsound.good q (hsound.gotProbes i q (by rw [List.nil_append] at hq; exact hq))) (hst i)
    rw [List.nil_append] at h1
    exact ⟨φ, h1, h2⟩
  choose φ h1 h2 using key
  refine ⟨φ, fun i => if (objs i).done (st i) = false then (((objs i).orders (st i)).elim [] (fun r => r.1.map Prod.fst)).toFinset else ∅, fun _ => 0, ⟨h1, ?_, ?_, ?_, ?_, fun _ => by omega, fun _ => by omega, ?_⟩⟩
  · intro i
    have c1 : l * φ i ≤ l * m := Nat.mul_le_mul le_rfl (h2 i)
    have c2 : l * (m + 1) = l * m + l := by rw [Nat.mul_add, Nat.mul_one]
    split
    · rename_i hd
      obtain ⟨L, size, w1, w2, -⟩ := (hok i).wants _ _ _ (h1 i) (hsound.gotNodup i) hd
      rw [w1]
      have c3 : (L.map Prod.fst).toFinset.card ≤ l := le_trans (List.toFinset_card_le _) (by simpa using w2)
      simp only [Option.elim] at c3 ⊢
      omega
    · rw [Finset.card_empty]; omega
  · intro i L size hd ho el hel
    have hd : (objs i).done (st i) = false := hd
    have ho : (objs i).orders (st i) = some (L, size) := ho
    rw [if_pos hd, ho]
    exact List.mem_toFinset.mpr (List.mem_map_of_mem hel)
  · intro i el size hm
    simp [Fld.start] at hm
  · intro q hq
    left
    obtain ⟨t, -, rfl⟩ := List.mem_map.mp hq
    rfl
  · have e1 : ∑ i, onesLeft early (Fld.start objs n ts rest more st) i = 0 := by
      apply Finset.sum_eq_zero
      intro i _
      unfold onesLeft
      simp [Fld.start]
    rw [e1]
    dsimp only [Fld.start]
    rw [cnt_map_one, if_pos rfl]
    simp
    omega

/-- the bound for the number of probes -/
def probesMax (N b l m K : ℕ) : ℕ := K * (1 + N * earlyMax N b l m) + others N b l m

lemma Bounded.few [Fintype ι] {K : ℕ} {s : Fld F objs} {φ : ι → ℕ} {R : ι → Finset (List ℕ)} {e : ι → ℕ} (h : Bounded objs n J early b l m K s φ R e) (hs : Sound objs n good (fun _ => b) J early K s) :
    s.probes.length ≤ probesMax (Fintype.card ι) b l m K := by
  have h1 := length_split (n := n) s.probes
  have h2 := h.others hs
  have h3 := h.ones
  have h4 : ∑ i, e i ≤ Fintype.card ι * earlyMax (Fintype.card ι) b l m := by
    refine le_trans (Finset.sum_le_card_nsmul _ _ _ (fun i _ => h.eMax i)) (by simp [Finset.card_univ])
  have h5 : K * (1 + ∑ i, e i) ≤ K * (1 + Fintype.card ι * earlyMax (Fintype.card ι) b l m) := Nat.mul_le_mul le_rfl (by omega)
  unfold probesMax
  omega

/-- the work that is left before something is fed -/
def small [Fintype ι] (l : ℕ) (s : Fld F objs) : ℕ := ∑ i, ((if s.pend i = true then l + 1 else 0) + (s.todo i).length)
/-- the work that has been done -/
def big [Fintype ι] (l : ℕ) (s : Fld F objs) : ℕ := s.computed.length + ∑ i, (l + 2) * (s.got i).length

lemma Bounded.progress [Fintype ι] (hok : ∀ i, (objs i).OK n good b l m (J i) (early i) (right i)) {K : ℕ} {s s' : Fld F objs} {φ : ι → ℕ} {R : ι → Finset (List ℕ)} {e : ι → ℕ}
    (h : Bounded objs n J early b l m K s φ R e) (hs : Sound objs n good (fun _ => b) J early K s) (hst : Step objs n good s s') : small l s' + big l s + 1 ≤ small l s + big l s' := by
  cases hst with
  | compute q h1 h2 => unfold small big; simp only [List.length_append, List.length_cons, List.length_nil]; omega
  | feed i q x h1 h2 h3 =>
    have s1 := sum_change (f := fun j => (if Function.update s.pend i true j = true then l + 1 else 0) + (s.todo j).length) (g := fun j => (if s.pend j = true then l + 1 else 0) + (s.todo j).length) i
      (fun j hj => by simp only [Function.update_of_ne hj])
    have s2 := sum_change (f := fun j => (l + 2) * (Function.update s.got i (s.got i ++ [q]) j).length) (g := fun j => (l + 2) * (s.got j).length) i (fun j hj => by simp only [Function.update_of_ne hj])
    simp only [Function.update_self, List.length_append, List.length_cons, List.length_nil, Nat.mul_add, if_true] at s1 s2
    unfold small big
    dsimp only
    omega
  | look i L size h1 h2 h3 =>
    obtain ⟨w0, -, -⟩ := wants_asks (B := fun _ => b) (L := fun _ => l) (M := fun _ => m) (hok i) (h.inv i) (hs.gotNodup i) h2 h3
    have w1 : (asks n L size).length ≤ l := by
      unfold asks
      split
      · rename_i hc; simp; omega
      · simpa using w0
    have s1 := sum_change (f := fun j => (if Function.update s.pend i false j = true then l + 1 else 0) + (Function.update s.todo i (s.todo i ++ asks n L size) j).length) (g := fun j => (if s.pend j = true then l + 1 else 0) + (s.todo j).length) i
      (fun j hj => by simp only [Function.update_of_ne hj])
    simp only [Function.update_self, List.length_append, h1, if_true] at s1
    unfold small big
    dsimp only
    simp at s1
    omega
  | skip i h1 h2 =>
    have s1 := sum_change (f := fun j => (if Function.update s.pend i false j = true then l + 1 else 0) + (s.todo j).length) (g := fun j => (if s.pend j = true then l + 1 else 0) + (s.todo j).length) i
      (fun j hj => by simp only [Function.update_of_ne hj])
    simp only [Function.update_self, h1, if_true] at s1
    unfold small big
    dsimp only
    simp at s1
    omega
  | one i a b' new h1 h2 h3 h4 =>
    have s1 := sum_change (f := fun j => (if s.pend j = true then l + 1 else 0) + (Function.update s.todo i (a ++ b') j).length) (g := fun j => (if s.pend j = true then l + 1 else 0) + (s.todo j).length) i
      (fun j hj => by simp only [Function.update_of_ne hj])
    simp only [Function.update_self, h1, List.length_append, List.length_cons] at s1
    unfold small big
    dsimp only
    omega
  | entry i el size a b' new h1 h2 h3 h4 =>
    have s1 := sum_change (f := fun j => (if s.pend j = true then l + 1 else 0) + (Function.update s.todo i (a ++ b') j).length) (g := fun j => (if s.pend j = true then l + 1 else 0) + (s.todo j).length) i
      (fun j hj => by simp only [Function.update_of_ne hj])
    simp only [Function.update_self, h1, List.length_append, List.length_cons] at s1
    unfold small big
    dsimp only
    omega

/-- the bound for the number of steps -/
def stepsMax (N b l m K : ℕ) : ℕ := probesMax N b l m K + N * ((l + 2) * probesMax N b l m K)

lemma Bounded.big_le [Fintype ι] {K : ℕ} {s : Fld F objs} {φ : ι → ℕ} {R : ι → Finset (List ℕ)} {e : ι → ℕ} (h : Bounded objs n J early b l m K s φ R e) (hs : Sound objs n good (fun _ => b) J early K s) :
    big l s ≤ stepsMax (Fintype.card ι) b l m K := by
  have h1 := h.few hs
  have h2 := (List.Nodup.subperm hs.compNodup (fun q hq => hs.compSub q hq)).length_le
  have h3 : ∑ i, (l + 2) * (s.got i).length ≤ Fintype.card ι * ((l + 2) * probesMax (Fintype.card ι) b l m K) := by
    refine le_trans (Finset.sum_le_card_nsmul _ _ ((l + 2) * probesMax (Fintype.card ι) b l m K) ?_) (by simp [Finset.card_univ])
    intro i _
    have h4 := (List.Nodup.subperm (hs.gotNodup i) (fun q hq => hs.gotProbes i q hq)).length_le
    exact Nat.mul_le_mul le_rfl (by omega)
  unfold big stepsMax
  omega

/-- new probes -/
lemma fresh_probes {probes : List (F × List ℕ)} (hnd : probes.Nodup) {o : List ℕ} {k : ℕ} {ts : List F} (hts : ts.Nodup) (hlen : cnt probes o + k ≤ ts.length) (hg : ∀ t ∈ ts, good (t, o)) :
    ∃ new : List (F × List ℕ), new.map Prod.snd = List.replicate k o ∧ (probes ++ new).Nodup ∧ ∀ q ∈ new, good q := by
  obtain ⟨free, hfree⟩ : ∃ free, ts.filter (fun t => decide ((t, o) ∉ probes)) = free := ⟨_, rfl⟩
  have h1 : ts.length ≤ cnt probes o + free.length := by
    rw [← hfree, List.length_eq_length_filter_add (l := ts) (fun t => decide ((t, o) ∈ probes))]
    have e1 : (ts.filter (fun t => decide ((t, o) ∈ probes))).length ≤ cnt probes o := by
      have : (ts.filter (fun t => decide ((t, o) ∈ probes))).length = ((ts.filter (fun t => decide ((t, o) ∈ probes))).map (fun t => (t, o))).length := by simp
      rw [this]
      unfold cnt
      refine (List.Nodup.subperm ((hts.filter _).map (fun a b hab => (Prod.mk.inj hab).1)) ?_).length_le
      intro q hq
      obtain ⟨t, ht, rfl⟩ := List.mem_map.mp hq
      have := (List.mem_filter.mp ht).2
      exact List.mem_filter.mpr ⟨by simpa using this, by simp⟩
    have e2 : ts.filter (fun t => !decide ((t, o) ∈ probes)) = ts.filter (fun t => decide ((t, o) ∉ probes)) := by
      apply List.filter_congr; intro t _; simp
    rw [e2]
    omega
  have hmem : ∀ t ∈ free.take k, t ∈ ts ∧ (t, o) ∉ probes := by
    intro t ht
    have := List.mem_of_mem_take ht
    rw [← hfree] at this
    obtain ⟨a, b⟩ := List.mem_filter.mp this
    exact ⟨a, by simpa using b⟩
  have hfnd : free.Nodup := by rw [← hfree]; exact hts.filter _
  refine ⟨(free.take k).map (fun t => (t, o)), ?_, ?_, ?_⟩
  · rw [List.map_map]
    apply List.eq_replicate_iff.mpr
    refine ⟨by simp; omega, ?_⟩
    intro x hx
    obtain ⟨t, -, rfl⟩ := List.mem_map.mp hx
    rfl
  · rw [List.nodup_append]
    refine ⟨hnd, (hfnd.sublist (List.take_sublist _ _)).map (fun a b hab => (Prod.mk.inj hab).1), ?_⟩
    intro a ha c hc hac
    obtain ⟨t, ht, rfl⟩ := List.mem_map.mp hc
    rw [hac] at ha
    exact (hmem t ht).2 ha
  · intro q hq
    obtain ⟨t, ht, rfl⟩ := List.mem_map.mp hq
    exact hg t (hmem t ht).1

lemma Sound.next {B L M : ι → ℕ} (hok : ∀ i, (objs i).OK n good (B i) (L i) (M i) (J i) (early i) (right i)) {K : ℕ} {s : Fld F objs} (h : Sound objs n good B J early K s)
    (hone : ∃ ts : List F, ts.Nodup ∧ cnt s.computed (List.replicate (n - 1) 1) + K ≤ ts.length ∧ ∀ t ∈ ts, good (t, List.replicate (n - 1) 1))
    (hmany : ∀ i o, ∃ ts : List F, ts.Nodup ∧ B i ≤ ts.length ∧ ∀ t ∈ ts, good (t, o)) (hq : ¬ s.Quiet) : ∃ s', Step objs n good s s' := by
  unfold Fld.Quiet at hq
  rw [not_and_or] at hq
  rcases hq with hq | hq
  · push Not at hq
    obtain ⟨q, h1, h2⟩ := hq
    exact ⟨_, Step.compute s q h1 h2⟩
  · obtain ⟨i, hi⟩ := not_forall.mp hq
    by_cases hp : s.pend i = true
    · cases hd : (objs i).done (s.st i) with
      | true => exact ⟨_, Step.skip s i hp hd⟩
      | false =>
        obtain ⟨φ, hφ⟩ := h.inv i
        obtain ⟨l, size, ho, -⟩ := (hok i).wants _ _ _ hφ (h.gotNodup i) hd
        exact ⟨_, Step.look s i l size hp hd ho⟩
    · have hp : s.pend i = false := by simpa using hp
      cases ht : s.todo i with
      | nil =>
        have : ∃ q ∈ s.computed, q ∉ s.got i := by
          by_contra hc
          push Not at hc
          exact hi ⟨hp, ht, hc⟩
        obtain ⟨q, h1, h2⟩ := this
        obtain ⟨φ, hφ⟩ := h.inv i
        have hnd : (s.got i ++ [q]).Nodup := by
          rw [List.nodup_append]
          exact ⟨h.gotNodup i, by simp, fun a ha b hb => by rw [List.mem_singleton] at hb; rintro rfl; exact h2 (hb ▸ ha)⟩
        obtain ⟨x, φ', e1, -⟩ := (hok i).feed _ q _ _ hφ hnd (by
          intro y hy
          rcases List.mem_append.mp hy with hy | hy
          · exact h.good y (h.gotProbes i y hy)
          · rw [List.mem_singleton.mp hy]; exact h.good q (h.compSub q h1))
        exact ⟨_, Step.feed s i q x h1 h2 e1⟩
      | cons a rest =>
        cases a with
        | one =>
          obtain ⟨ts, t1, t2, t3⟩ := hone
          obtain ⟨new, n1, n2, n3⟩ := fresh_probes (k := s.balance) h.nodup t1 (by rw [h.book]; exact t2) t3
          exact ⟨_, Step.one s i [] rest new (by rw [ht]; rfl) n1 n2 n3⟩
        | entry el size =>
          obtain ⟨f1, ⟨sv, f2, f3⟩, f4⟩ := h.asks i el size (by rw [ht]; simp)
          obtain ⟨g1, g2, g3⟩ := entry_spec (started := s.started) (by rw [h.started]; exact f2) f3
          rw [h.started] at g3
          obtain ⟨j, hj⟩ : ∃ j, max (cnt s.probes el.1) size ≤ B j := by
            rcases h.bound el.1 f1 with hb | ⟨j, hb⟩
            · exact ⟨i, by omega⟩
            · by_cases hle : cnt s.probes el.1 ≤ size
              · exact ⟨i, by omega⟩
              · exact ⟨j, by omega⟩
          obtain ⟨ts, t1, t2, t3⟩ := hmany j el.1
          obtain ⟨new, n1, n2, n3⟩ := fresh_probes (k := max (cnt s.probes el.1) size - cnt s.probes el.1) h.nodup t1 (by omega) t3
          exact ⟨_, Step.entry s i el size [] rest new (by rw [ht]; rfl) (by rw [g3]; exact n1) n2 n3⟩

end FireFly.First
