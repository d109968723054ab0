import Verif.Lemmas.RatMultiSide
/-! # The invariant of one side and the end of the interpolation of one degree -/
set_option linter.all false
namespace FireFly.RMulti
open MvPolynomial
variable {F : Type} [Field F] [DecidableEq F]

/-- the degrees that are open -/
def Side.open (s : Side F) : List ℕ := s.coefs.map Prod.fst

/-- The state of one side; `T` is the degree from which on the shift is removed. -/
structure SInv (c : Cfg F) (Q : MvPolynomial ℕ F) (m T : ℕ) (s : Side F) : Prop where
  keys : ∀ key ∈ s.solved.map Prod.fst, ∃ k, key = [k] ∧ part c.shift Q k ≠ 0 ∧ k ∉ s.open
  nodup : (s.solved.map Prod.fst).Nodup
  holds : ∀ k, part c.shift Q k ≠ 0 → k ∉ s.open → Holds c s.solved k (tgt c Q s.dense k)
  maxDeg : s.maxDeg = m
  count : s.count + s.coefs.length = m + 1
  desc : s.open.Pairwise (· > ·)
  el : ∀ k ∈ s.open, 1 ≤ k ∧ part c.shift Q k ≠ 0
  dense : ∀ k ∈ s.dense, part c.shift Q k ≠ 0
  plain : c.hasShift = false → ∀ k, part c.shift Q k ≠ 0 → k ∈ s.dense
  le : T ≤ m + 1
  sub : c.hasShift = true → SubOK c Q m T s.sub
  above : c.hasShift = true → ∀ k, T ≤ k → k ∉ s.dense ∧ k ∉ s.open
  below : c.hasShift = true → ∀ k < T, part c.shift Q k ≠ 0 → k ∈ s.dense ∨ (k + 1 = T ∧ k ∈ s.open)
  head : c.hasShift = true → ∀ k, s.open.head? = some k → k + 1 = T ∧ (k ∈ s.dense → T = m + 1)

variable {c : Cfg F} {bounds : Option (List ℕ)} {Q : MvPolynomial ℕ F} {m T : ℕ}

lemma SInv.congr {s s' : Side F} (h : SInv c Q m T s) (h1 : s'.open = s.open) (h2 : s'.dense = s.dense) (h3 : s'.solved = s.solved) (h4 : s'.sub = s.sub)
    (h5 : s'.count = s.count) (h6 : s'.maxDeg = s.maxDeg) : SInv c Q m T s' := by
  have hl : s'.coefs.length = s.coefs.length := by
    have := congrArg List.length h1
    simpa [Side.open] using this
  exact ⟨by rw [h3, h1]; exact h.keys, by rw [h3]; exact h.nodup, by rw [h1, h2, h3]; exact h.holds, by rw [h6]; exact h.maxDeg, by rw [h5, hl]; exact h.count,
    by rw [h1]; exact h.desc, by rw [h1]; exact h.el, by rw [h2]; exact h.dense, by rw [h2]; exact h.plain, h.le, by rw [h4]; exact h.sub, by rw [h1, h2]; exact h.above,
    by rw [h1, h2]; exact h.below, by rw [h1, h2]; exact h.head⟩

lemma SInv.isSome {s : Side F} (h : SInv c Q m T s) (k : ℕ) : (s.solved.find? [k]).isSome = true ↔ part c.shift Q k ≠ 0 ∧ k ∉ s.open := by
  constructor
  · intro h1
    obtain ⟨v, hv⟩ := Option.isSome_iff_exists.mp h1
    obtain ⟨k', e1, e2⟩ := h.keys [k] (List.mem_map.mpr ⟨_, FFMap.find?_mem hv, rfl⟩)
    have : k = k' := by simpa using e1
    rw [this]; exact e2
  · rintro ⟨h1, h2⟩
    obtain ⟨q, hq, -⟩ := h.holds k h1 h2
    rw [hq]; rfl

lemma set_nodup {α : Type} {m : FFMap α} (h : (m.map Prod.fst).Nodup) (k : List ℕ) (v : α) : ((m.set k v).map Prod.fst).Nodup := by
  rw [FFMap.keys_set]
  split_ifs with h1
  · exact h
  · rw [List.nodup_append]
    refine ⟨h, by simp, ?_⟩
    intro a ha b hb hab
    rw [List.mem_singleton] at hb
    exact h1 (by rw [← hb, ← hab]; exact ha)

/-- the state while the shift is removed from the degrees that are solved: those from `T` on are done, nothing is asked for about the open ones -/
structure BInv (c : Cfg F) (Q : MvPolynomial ℕ F) (m T : ℕ) (op : List ℕ) (s : Side F) : Prop where
  keys : ∀ key ∈ s.solved.map Prod.fst, ∃ k, key = [k] ∧ part c.shift Q k ≠ 0 ∧ k ∉ op
  nodup : (s.solved.map Prod.fst).Nodup
  holds : ∀ k, part c.shift Q k ≠ 0 → k ∉ op → Holds c s.solved k (tgt c Q s.dense k)
  dense : ∀ k ∈ s.dense, part c.shift Q k ≠ 0
  sub : SubOK c Q m T s.sub
  above : ∀ k, T ≤ k → k ∉ s.dense

lemma tgt_dense {dense : List ℕ} {k : ℕ} (h : k ∈ dense) : tgt c Q dense k = part c.shift Q k := by unfold tgt; rw [if_pos h]
lemma tgt_sparse {dense : List ℕ} {k : ℕ} (h : k ∉ dense) : tgt c Q dense k = homogeneousComponent k Q := by unfold tgt; rw [if_neg h]

lemma tgt_filter {dense : List ℕ} {k d : ℕ} (h : k ≠ d) : tgt c Q (dense.filter (· ≠ d)) k = tgt c Q dense k := by
  unfold tgt
  have : k ∈ dense.filter (· ≠ d) ↔ k ∈ dense := by simp [h]
  by_cases hk : k ∈ dense
  · rw [if_pos (this.mpr hk), if_pos hk]
  · rw [if_neg (fun h2 => hk (this.mp h2)), if_neg hk]

/-- one solved degree `T` loses its shift -/
lemma BInv.step (hs : c.shift.length = c.n) (hok : SideOK c bounds Q m) {op : List ℕ} {s : Side F} (h : BInv c Q m (T + 1) op s) (hT : 1 ≤ T) (hTm : T ≤ m)
    (hp : part c.shift Q T ≠ 0) (hop : T ∉ op) (hd : T ∈ s.dense) :
    ∃ sv sb, c.addSub { subtract s T with dense := s.dense.filter (· ≠ T) } T = some { s with solved := sv, sub := sb, dense := s.dense.filter (· ≠ T) } ∧
      BInv c Q m T op { s with solved := sv, sub := sb, dense := s.dense.filter (· ≠ T) } := by
  have hh := h.holds T hp hop
  rw [tgt_dense hd] at hh
  obtain ⟨g1, g2⟩ := subtract_spec hok hTm h.sub hh
  obtain ⟨sb, e1, e2⟩ := addSub_spec (s := { subtract s T with dense := s.dense.filter (· ≠ T) }) hs hok hT hTm h.sub g1
  refine ⟨(subtract s T).solved, sb, e1, ?_, ?_, ?_, ?_, e2, ?_⟩
  · intro key hk
    have : key ∈ (s.solved.set [T] (PolyFF.subAssign (polyAt s.solved T) (polyAt s.sub T))).map Prod.fst := hk
    rw [keys_set'] at this
    · exact h.keys key this
    · obtain ⟨q, hq, -⟩ := hh
      exact List.mem_map.mpr ⟨_, FFMap.find?_mem hq, rfl⟩
  · exact set_nodup h.nodup _ _
  · intro k hk1 hk2
    by_cases hkT : k = T
    · subst hkT
      rw [tgt_sparse (by simp)]
      exact g1
    · rw [tgt_filter hkT]
      exact g2 k _ hkT (h.holds k hk1 hk2)
  · intro k hk
    exact h.dense k (List.mem_of_mem_filter hk)
  · intro k hk hk2
    rw [List.mem_filter] at hk2
    have h3 : k ≠ T := by simpa using hk2.2
    exact h.above k (by omega) hk2.1

lemma range'_reverse_succ (d l : ℕ) : (List.range' d (l + 1)).reverse = (d + l) :: (List.range' d l).reverse := by
  rw [List.range'_concat]; simp

/-- all solved degrees between the open ones lose their shift -/
lemma between_spec (hs : c.shift.length = c.n) (hok : SideOK c bounds Q m) {op : List ℕ} (d : ℕ) (hd : 1 ≤ d) : ∀ (l : ℕ) (s : Side F), d + l ≤ m + 1 → BInv c Q m (d + l) op s →
    (∀ k, d ≤ k → k < d + l → k ∉ op) → (∀ k < d + l, part c.shift Q k ≠ 0 → k ∉ op → k ∈ s.dense) →
    ∃ sv sb dn, c.between s ((List.range' d l).reverse) = some { s with solved := sv, sub := sb, dense := dn } ∧
      BInv c Q m d op { s with solved := sv, sub := sb, dense := dn } ∧ ∀ k, k < d → (k ∈ dn ↔ k ∈ s.dense) := by
  intro l
  induction l with
  | zero =>
    intro s _ h _ _
    exact ⟨s.solved, s.sub, s.dense, by simp [Cfg.between], by simpa using h, fun k _ => Iff.rfl⟩
  | succ l ih =>
    intro s hm h hop hden
    rw [range'_reverse_succ]
    have hisSome : (s.solved.find? [d + l]).isSome = true ↔ part c.shift Q (d + l) ≠ 0 := by
      constructor
      · intro h1
        obtain ⟨v, hv⟩ := Option.isSome_iff_exists.mp h1
        obtain ⟨k', e1, e2, -⟩ := h.keys [d + l] (List.mem_map.mpr ⟨_, FFMap.find?_mem hv, rfl⟩)
        have : d + l = k' := by simpa using e1
        rw [this]; exact e2
      · intro h1
        obtain ⟨q, hq, -⟩ := h.holds _ h1 (hop (d + l) (by omega) (by omega))
        rw [hq]; rfl
    by_cases hp : part c.shift Q (d + l) = 0
    · have h2 : BInv c Q m (d + l) op s := ⟨h.keys, h.nodup, h.holds, h.dense, SubOK.skip hok (by omega) hp h.sub, by
        intro k hk hk2
        by_cases hkk : k = d + l
        · exact h.dense k hk2 (hkk ▸ hp)
        · exact h.above k (by omega) hk2⟩
      obtain ⟨sv, sb, dn, e1, e2, e3⟩ := ih s (by omega) h2 (fun k h1 h2 => hop k h1 (by omega)) (fun k h1 => hden k (by omega))
      refine ⟨sv, sb, dn, ?_, e2, e3⟩
      unfold Cfg.between at e1 ⊢
      rw [List.foldlM_cons, if_neg (by rw [hisSome]; exact fun h => h hp)]
      exact e1
    · obtain ⟨sv, sb, e1, e2⟩ := BInv.step (T := d + l) hs hok h (by omega) (by omega) hp (hop _ (by omega) (by omega)) (hden _ (by omega) hp (hop _ (by omega) (by omega)))
      obtain ⟨sv', sb', dn, f1, f2, f3⟩ := ih { s with solved := sv, sub := sb, dense := s.dense.filter (· ≠ d + l) } (by omega) e2 (fun k h1 h2 => hop k h1 (by omega)) (by
        intro k h1 h2 h3
        have := hden k (by omega) h2 h3
        show k ∈ s.dense.filter (· ≠ d + l)
        simp [this]; omega)
      refine ⟨sv', sb', dn, ?_, f2, ?_⟩
      · unfold Cfg.between at f1 ⊢
        rw [List.foldlM_cons, if_pos (hisSome.mpr hp), e1]
        exact f1
      · intro k hk
        rw [f3 k hk]
        show k ∈ s.dense.filter (· ≠ d + l) ↔ _
        simp; omega

lemma holds_set {solved : FFMap (FFMap F)} {k : ℕ} {pol : FFMap F} {p : MvPolynomial ℕ F} (hw : WFMap c.n pol) (hz : NZ pol) (hd : denote pol = p) : Holds c (solved.set [k] pol) k p :=
  ⟨pol, by rw [FFMap.find?_set, if_pos rfl], hw, hz, hd⟩

lemma holds_set_ne {solved : FFMap (FFMap F)} {k j : ℕ} {pol : FFMap F} {p : MvPolynomial ℕ F} (h : Holds c solved j p) (hj : j ≠ k) : Holds c (solved.set [k] pol) j p := by
  obtain ⟨q, h1, h2⟩ := h
  exact ⟨q, by rw [FFMap.find?_set, if_neg (by simpa using hj)]; exact h1, h2⟩

lemma keys_set_cases {α : Type} {m : FFMap α} {k : List ℕ} {v : α} {key : List ℕ} (h : key ∈ (m.set k v).map Prod.fst) : key ∈ m.map Prod.fst ∨ key = k := by
  obtain ⟨t, ht, rfl⟩ := List.mem_map.mp h
  rcases mem_set ht with ht | rfl
  · exact Or.inl (List.mem_map.mpr ⟨t, ht, rfl⟩)
  · exact Or.inr rfl

/-- The polynomial of degree `k` is known. -/
lemma polyDone_spec (hs : c.shift.length = c.n) (hok : SideOK c bounds Q m) {s : Side F} (h : SInv c Q m T s) {before rest : List (ℕ × MPoly.St F)} {k : ℕ} {st : MPoly.St F}
    (hc : s.coefs = before ++ (k, st) :: rest) {pol : FFMap F} (hw : WFMap c.n pol) (hz : NZ pol) (hd : denote pol = tgt c Q s.dense k) :
    ∃ T' s', c.polyDone s k pol = some s' ∧ SInv c Q m T' { s' with coefs := before ++ rest } ∧ s'.saved = s.saved ∧
      ((s'.restart = s.restart ∧ ∀ j ∈ (before ++ rest).map Prod.fst, j ∈ s'.dense ↔ j ∈ s.dense) ∨
       (c.hasShift = true ∧ before = [] ∧ s'.restart = true ∧ ∃ d st' rest', rest = (d, st') :: rest' ∧ d ∈ s.dense ∧ d ∉ s'.dense ∧ ∀ j ∈ rest'.map Prod.fst, j ∈ s'.dense ↔ j ∈ s.dense)) := by
  have hop : s.open = before.map Prod.fst ++ k :: rest.map Prod.fst := by unfold Side.open; rw [hc]; simp
  have hdesc := h.desc
  rw [hop, List.pairwise_append, List.pairwise_cons] at hdesc
  obtain ⟨hd1, ⟨hd2, hd3⟩, hd4⟩ := hdesc
  have hkop : k ∈ s.open := by rw [hop]; simp
  obtain ⟨hk1, hkp⟩ := h.el k hkop
  have hkm := hok.le hkp
  have hknot : k ∉ (before ++ rest).map Prod.fst := by
    intro hmem
    rw [List.map_append, List.mem_append] at hmem
    rcases hmem with h1 | h1
    · have := hd4 k h1 k (by simp); omega
    · have := hd2 k h1; omega
  have hsplit : ∀ j, j ∈ s.open ↔ j = k ∨ j ∈ (before ++ rest).map Prod.fst := by
    intro j; rw [hop]; simp; tauto
  have hdesc' : ((before ++ rest).map Prod.fst).Pairwise (· > ·) := by
    rw [List.map_append, List.pairwise_append]
    exact ⟨hd1, hd3, fun a ha b hb => hd4 a ha b (by simp [hb])⟩
  have hcount : s.count + 1 + (before ++ rest).length = m + 1 := by
    have := h.count
    rw [hc] at this
    simp at this ⊢; omega
  by_cases hfront : (c.hasShift && (s.coefs.headD (0, { ord := [], ais := [] })).1 == k) = true
  · rw [Bool.and_eq_true, beq_iff_eq] at hfront
    obtain ⟨hsh, hhead⟩ := hfront
    have hb : before = [] := by
      rcases before with _ | ⟨b, before⟩
      · rfl
      · exfalso
        rw [hc] at hhead
        have h1 : b.1 = k := hhead
        have := hd4 b.1 (by simp) k (by simp)
        omega
    subst hb
    rw [List.nil_append] at hc
    have hhd : s.open.head? = some k := by rw [hop]; rfl
    obtain ⟨hkT, htop⟩ := h.head hsh k hhd
    have hden : denote pol = homogeneousComponent k Q := by
      rw [hd]
      by_cases hk : k ∈ s.dense
      · rw [tgt_dense hk]
        have h1 : k = m := by have := htop hk; omega
        subst h1
        exact hok.top_eq
      · exact tgt_sparse hk
    subst hkT
    have hsub := h.sub hsh
    obtain ⟨sb, e1, e2⟩ := addSub_spec (s := { s with solved := s.solved.set [k] pol, count := s.count + 1 }) hs hok hk1 hkm hsub (holds_set hw hz hden)
    have hbelow : ∀ j < k, part c.shift Q j ≠ 0 → j ∈ s.dense := by
      intro j hj hp
      rcases h.below hsh j (by omega) hp with h1 | h1
      · exact h1
      · omega
    have hholds : ∀ dn : List ℕ, (∀ j, j ∉ rest.map Prod.fst → j ≠ k → (j ∈ dn ↔ j ∈ s.dense)) → k ∉ dn →
        ∀ j, part c.shift Q j ≠ 0 → j ∉ rest.map Prod.fst → Holds c (s.solved.set [k] pol) j (tgt c Q dn j) := by
      intro dn h1 h2 j hj1 hj2
      by_cases hjk : j = k
      · rw [hjk, tgt_sparse h2]
        exact holds_set hw hz hden
      · have : tgt c Q dn j = tgt c Q s.dense j := by
          unfold tgt; simp only [h1 j hj2 hjk]
        rw [this]
        exact holds_set_ne (h.holds j hj1 (by rw [hsplit]; simp at hj2 ⊢; exact ⟨hjk, hj2⟩)) hjk
    have hkeys : ∀ key ∈ (s.solved.set [k] pol).map Prod.fst, ∃ j, key = [j] ∧ part c.shift Q j ≠ 0 ∧ j ∉ rest.map Prod.fst := by
      intro key hkey
      rcases keys_set_cases hkey with h1 | h1
      · obtain ⟨j, g1, g2, g3⟩ := h.keys key h1
        exact ⟨j, g1, g2, fun h2 => g3 ((hsplit j).mpr (Or.inr (by simpa using h2)))⟩
      · exact ⟨k, h1, hkp, by simpa using hknot⟩
    rcases rest with _ | ⟨⟨d, st'⟩, rest'⟩
    · refine ⟨k, { s with solved := s.solved.set [k] pol, count := s.count + 1, sub := sb, dense := s.dense.filter (· ≠ k) }, ?_, ?_, ?_, ?_⟩
      · unfold Cfg.polyDone
        rw [if_pos (by simp [hsh, hc]), e1]
        simp only [Option.bind_eq_bind, Option.bind_some]
        rw [hc]
      · refine ⟨hkeys, set_nodup h.nodup _ _, ?_, h.maxDeg, ?_, by simp [Side.open], by simp [Side.open], ?_, by simp [hsh], by omega, fun _ => e2, ?_, ?_, by simp [Side.open]⟩
        · intro j hj1 hj2
          exact hholds _ (by intro j _ hjk; simp [hjk]) (by simp) j hj1 (by simp)
        · simpa using hcount
        · intro j hj
          exact h.dense j (List.mem_of_mem_filter hj)
        · intro _ j hj
          refine ⟨?_, by simp [Side.open]⟩
          intro h1
          rw [List.mem_filter] at h1
          have h2 : j ≠ k := by simpa using h1.2
          exact (h.above hsh j (by omega)).1 h1.1
        · intro _ j hj hp
          left
          have := hbelow j hj hp
          show j ∈ s.dense.filter (· ≠ k)
          simp [this]; omega
      · rfl
      · left; exact ⟨rfl, by simp⟩
    · have hdk : d < k := hd2 d (by simp)
      have hd1' : 1 ≤ d := (h.el d (by rw [hop]; simp)).1
      have hdp := (h.el d (by rw [hop]; simp)).2
      have hdd := hbelow d hdk hdp
      have hdr : ∀ j ∈ rest'.map Prod.fst, j < d := by
        intro j hj
        rw [List.map_cons, List.pairwise_cons] at hd3
        exact hd3.1 j hj
      let s2 : Side F := { s with solved := s.solved.set [k] pol, count := s.count + 1, sub := sb, dense := (s.dense.filter (· ≠ k)).filter (· ≠ d), restart := true }
      have hB : BInv c Q m (d + 1 + (k - 1 - d)) (((d, st') :: rest').map Prod.fst) s2 := by
        rw [show d + 1 + (k - 1 - d) = k by omega]
        refine ⟨hkeys, set_nodup h.nodup _ _, ?_, ?_, e2, ?_⟩
        · refine hholds ((s.dense.filter (· ≠ k)).filter (· ≠ d)) ?_ (by simp)
          intro j hj hjk
          have : j ≠ d := fun h1 => hj (by simp [h1])
          simp [this, hjk]
        · intro j hj
          exact h.dense j (List.mem_of_mem_filter (List.mem_of_mem_filter hj))
        · intro j hj h1
          have h1 := List.mem_of_mem_filter h1
          rw [List.mem_filter] at h1
          have h2 : j ≠ k := by simpa using h1.2
          exact (h.above hsh j (by omega)).1 h1.1
      obtain ⟨sv, sb', dn, f1, f2, f3⟩ := between_spec hs hok (d + 1) (by omega) (k - 1 - d) s2 (by omega) hB (by
        intro j hj1 hj2 hj3
        rw [List.map_cons, List.mem_cons] at hj3
        rcases hj3 with h1 | h1
        · have : j = d := h1
          omega
        · have := hdr j h1; omega) (by
        intro j hj hp hj2
        have h1 := hbelow j (by omega) hp
        have h2 : j ≠ d := fun h1 => hj2 (by simp [h1])
        show j ∈ (s.dense.filter (· ≠ k)).filter (· ≠ d)
        simp [h1, h2]; omega)
      have hdn : d ∉ dn := by
        intro h1
        have := (f3 d (by omega)).mp h1
        have : d ∈ (s.dense.filter (· ≠ k)).filter (· ≠ d) := this
        simp at this
      have hdnj : ∀ j < d, (j ∈ dn ↔ j ∈ s.dense) := by
        intro j hj
        rw [f3 j (by omega)]
        show j ∈ (s.dense.filter (· ≠ k)).filter (· ≠ d) ↔ _
        simp; intro _; omega
      refine ⟨d + 1, { s2 with solved := sv, sub := sb', dense := dn }, ?_, ?_, ?_, ?_⟩
      · unfold Cfg.polyDone
        rw [if_pos (by simp [hsh, hc]), e1]
        simp only [Option.bind_eq_bind, Option.bind_some]
        have f1' := f1
        simp only [s2, hc] at f1' ⊢
        exact f1'
      · refine ⟨?_, f2.nodup, ?_, h.maxDeg, ?_, ?_, ?_, f2.dense, by simp [hsh], by omega, fun _ => f2.sub, ?_, ?_, ?_⟩
        · exact f2.keys
        · exact f2.holds
        · simpa using hcount
        · simpa [Side.open] using hdesc'
        · intro j hj
          exact h.el j ((hsplit j).mpr (Or.inr (by simpa [Side.open] using hj)))
        · intro _ j hj
          refine ⟨f2.above j hj, ?_⟩
          intro h1
          have h1 : j = d ∨ j ∈ rest'.map Prod.fst := by simpa [Side.open] using h1
          rcases h1 with h1 | h1
          · omega
          · have := hdr j h1; omega
        · intro _ j hj hp
          by_cases hjd : j = d
          · right
            exact ⟨by omega, by simp [Side.open, hjd]⟩
          · left
            exact (hdnj j (by omega)).mpr (hbelow j (by omega) hp)
        · intro _ j hj
          have : j = d := by
            have : some d = some j := hj
            simpa using this.symm
          subst this
          exact ⟨rfl, fun h1 => absurd h1 hdn⟩
      · rfl
      · right
        exact ⟨hsh, rfl, rfl, d, st', rest', rfl, hdd, hdn, fun j hj => hdnj j (hdr j hj)⟩
  · refine ⟨T, { s with solved := s.solved.set [k] pol, count := s.count + 1 }, ?_, ?_, rfl, Or.inl ⟨rfl, fun j _ => Iff.rfl⟩⟩
    · unfold Cfg.polyDone
      rw [if_neg hfront]
    · have hopen : Side.open { s with solved := s.solved.set [k] pol, count := s.count + 1, coefs := before ++ rest } = (before ++ rest).map Prod.fst := rfl
      refine ⟨?_, set_nodup h.nodup _ _, ?_, h.maxDeg, hcount, hdesc', ?_, h.dense, h.plain, h.le, h.sub, ?_, ?_, ?_⟩
      · intro key hkey
        rcases keys_set_cases hkey with h1 | h1
        · obtain ⟨j, g1, g2, g3⟩ := h.keys key h1
          exact ⟨j, g1, g2, fun h2 => g3 ((hsplit j).mpr (Or.inr h2))⟩
        · exact ⟨k, h1, hkp, hknot⟩
      · intro j hj1 hj2
        by_cases hjk : j = k
        · subst hjk; exact holds_set hw hz hd
        · exact holds_set_ne (h.holds j hj1 (by rw [hsplit]; push Not; exact ⟨hjk, hj2⟩)) hjk
      · intro j hj
        exact h.el j ((hsplit j).mpr (Or.inr hj))
      · intro hsh j hj
        refine ⟨(h.above hsh j hj).1, fun h1 => (h.above hsh j hj).2 ((hsplit j).mpr (Or.inr h1))⟩
      · intro hsh j hj hp
        rcases h.below hsh j hj hp with h1 | ⟨h1, h2⟩
        · exact Or.inl h1
        · right
          refine ⟨h1, ?_⟩
          rcases (hsplit j).mp h2 with h3 | h3
          · exfalso
            subst h3
            apply hfront
            rw [hsh, hc]
            rcases before with _ | ⟨b, before⟩
            · simp
            · have h4 := h.head hsh b.1 (by rw [hop]; rfl)
              have h5 := hd4 b.1 (by simp) j (by simp)
              omega
          · exact h3
      · intro hsh j hj
        rcases before with _ | ⟨b, before⟩
        · exfalso
          apply hfront
          rw [hsh, hc]; simp
        · have : some b.1 = some j := hj
          exact h.head hsh j (by rw [hop]; exact this)

end FireFly.RMulti
