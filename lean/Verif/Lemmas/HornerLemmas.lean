import Verif.Lemmas.TextLemmas
import Verif.Spec.PolyText
/-! # The texts of the Horner generators -/
set_option linter.all false
namespace FireFly

section
variable {vars : List Str} {P N : ℕ}

/-- the sum over the remaining degrees -/
lemma sparseTail_txt {var : Str} (hvar : var ∈ vars) (coef : ℕ → Str) (cv : ℕ → Val) : ∀ (ds : List ℕ) (acc : Str) (u : Val),
    ds.Pairwise (· > ·) → (∀ d ∈ ds, d < P) → (∀ d ∈ ds, Txt vars P N 0 (coef d) (cv d)) → Txt vars P N 2 acc u →
    Txt vars P N 2 (List.replicate ds.length '(' ++ acc ++ sparseTail var coef ds)
      (fun K _ env => u K env * env var ^ (ds.headD 0) + (ds.map fun d => cv d K env * env var ^ d).sum)
  | [], acc, u, _, _, _, h => by
    refine Txt.congr (by simpa [sparseTail] using h) fun K _ env => by simp
  | [d], acc, u, _, hP, hc, h => by
    have h1 := ((h.mono (lv' := 0) (by norm_num)).add (hc d (by simp))).paren
    have h2 := (h1.mono (lv' := 2) (by norm_num)).mul ((txt_var hvar).powStr (hP d (by simp)))
    refine Txt.congr (v := _) (by simpa [sparseTail] using h2) fun K _ env => by simp; ring
  | d :: d' :: ds, acc, u, hs, hP, hc, h => by
    have hd : d' < d := by
      rw [List.pairwise_cons] at hs
      exact hs.1 d' (by simp)
    have h1 := ((h.mono (lv' := 0) (by norm_num)).add (hc d (by simp))).paren
    have h2 := (h1.mono (lv' := 2) (by norm_num)).mul ((txt_var hvar).powStr (k := d - d') (by have := hP d (by simp); omega))
    have h3 := sparseTail_txt hvar coef cv (d' :: ds) _ _ (List.pairwise_cons.mp hs).2 (fun e he => hP e (List.mem_cons_of_mem _ he))
      (fun e he => hc e (List.mem_cons_of_mem _ he)) h2
    have hr : List.replicate (d :: d' :: ds).length '(' = List.replicate (d' :: ds).length '(' ++ ['('] := by
      rw [← List.replicate_succ']; rfl
    refine Txt.congr (v := _) (by rw [hr]; simpa [sparseTail] using h3) fun K _ env => ?_
    have : env var ^ d = env var ^ (d - d') * env var ^ d' := by rw [← pow_add]; congr 1; omega
    simp only [List.headD_cons, List.map_cons, List.sum_cons]
    rw [this]; ring

lemma nzd_sorted (present : ℕ → Bool) (M : ℕ) : (nonZeroDegrees present M).Pairwise (· > ·) := by
  unfold nonZeroDegrees
  apply List.Pairwise.filter
  rw [List.pairwise_reverse, List.pairwise_map]
  exact List.pairwise_lt_range.imp (by intro a b h; omega)

lemma nzd_mem {present : ℕ → Bool} {M d : ℕ} : d ∈ nonZeroDegrees present M ↔ (0 < d ∧ d ≤ M) ∧ present d = true := by
  unfold nonZeroDegrees
  rw [List.mem_filter, List.mem_reverse, List.mem_map]
  simp only [List.mem_range]
  constructor
  · rintro ⟨⟨a, h, rfl⟩, h2⟩; exact ⟨⟨by omega, by omega⟩, h2⟩
  · rintro ⟨⟨h1, h3⟩, h2⟩; exact ⟨⟨d - 1, by omega, by omega⟩, h2⟩

lemma nzd_head {present : ℕ → Bool} {M : ℕ} (hM : 0 < M) (h : present M = true) : ∃ ds, nonZeroDegrees present M = M :: ds := by
  obtain ⟨m, rfl⟩ : ∃ m, M = m + 1 := ⟨M - 1, by omega⟩
  unfold nonZeroDegrees
  rw [List.range_succ, List.map_append, List.reverse_append]
  simp [h]

/-- the sum over all degrees of a variable -/
lemma nzd_sum {K : Type} [Field K] (present : ℕ → Bool) (M : ℕ) (f : ℕ → K) :
    ((nonZeroDegrees present M).map f).sum + (if present 0 = true then f 0 else 0) = ∑ d ∈ Finset.range (M + 1), if present d = true then f d else 0 := by
  have : ((nonZeroDegrees present M).map f).sum = ∑ d ∈ Finset.range M, if present (d + 1) = true then f (d + 1) else 0 := by
    unfold nonZeroDegrees
    rw [List.filter_reverse, List.map_reverse, List.sum_reverse]
    induction M with
    | zero => simp
    | succ M ih =>
      rw [List.range_succ, List.map_append, List.filter_append, List.map_append, List.sum_append, ih, Finset.sum_range_succ]
      congr 1
      by_cases h : present (M + 1) = true <;> simp [h]
  rw [this, Finset.sum_range_succ']

lemma sparseStr_txt {var lead : Str} (hvar : var ∈ vars) {present : ℕ → Bool} {coef : ℕ → Str} {cv : ℕ → Val} {M : ℕ}
    (hM : M < P) (hpres : present M = true) (hc : ∀ d, d ≤ M → present d = true → Txt vars P N 0 (coef d) (cv d))
    (hlead : ∀ h, h < P → Txt vars P N 2 (lead ++ var ++ powStr h) (fun K _ env => cv M K env * env var ^ h)) :
    Txt vars P N 0 (sparseStr var lead present coef M)
      (fun K _ env => ∑ d ∈ Finset.range (M + 1), if present d = true then cv d K env * env var ^ d else 0) := by
  unfold sparseStr
  by_cases h0 : M > 0
  · rw [if_pos h0]
    obtain ⟨ds, hds⟩ := nzd_head h0 hpres
    have hsort := nzd_sorted present M
    have hmem : ∀ d ∈ M :: ds, (0 < d ∧ d ≤ M) ∧ present d = true := fun d hd => nzd_mem.mp (by rw [hds]; exact hd)
    rw [hds] at hsort
    have hval : ∀ (K : Type) [Field K] (env : Str → K), cv M K env * env var ^ M + (ds.map fun d => cv d K env * env var ^ d).sum +
        (if present 0 = true then cv 0 K env else 0) = ∑ d ∈ Finset.range (M + 1), if present d = true then cv d K env * env var ^ d else 0 := by
      intro K _ env
      rw [← nzd_sum present M (fun d => cv d K env * env var ^ d), hds]
      simp
    have key : Txt vars P N 2 (List.replicate ds.length '(' ++ (match (M :: ds : List ℕ) with
        | [] => []
        | [d] => lead ++ var ++ powStr d
        | d :: d' :: ds => lead ++ var ++ powStr (d - d') ++ sparseTail var coef (d' :: ds)))
        (fun K _ env => cv M K env * env var ^ M + (ds.map fun d => cv d K env * env var ^ d).sum) := by
      cases ds with
      | nil =>
        refine Txt.congr (by simpa using hlead M hM) fun K _ env => by simp
      | cons d' ds =>
        have hd' : d' < M := by
          rw [List.pairwise_cons] at hsort
          exact hsort.1 d' (by simp)
        have h1 := sparseTail_txt hvar coef cv (d' :: ds) _ _ (List.pairwise_cons.mp hsort).2
          (fun d hd => by have := hmem d (List.mem_cons_of_mem _ hd); omega)
          (fun d hd => hc d (hmem d (List.mem_cons_of_mem _ hd)).1.2 (hmem d (List.mem_cons_of_mem _ hd)).2) (hlead (M - d') (by omega))
        refine Txt.congr (by simpa using h1) fun K _ env => ?_
        have : env var ^ M = env var ^ (M - d') * env var ^ d' := by rw [← pow_add]; congr 1; omega
        simp only [List.headD_cons, List.map_cons, List.sum_cons]
        rw [this]; ring
    simp only [hds, List.length_cons, Nat.add_sub_cancel]
    by_cases hp0 : present 0 = true
    · rw [if_pos hp0]
      refine (((key.mono (by norm_num)).add (hc 0 (by omega) hp0))).congr fun K _ env => ?_
      rw [← hval, if_pos hp0]
    · rw [if_neg hp0, List.append_nil]
      refine (key.mono (by norm_num)).congr fun K _ env => ?_
      rw [← hval, if_neg hp0, add_zero]
  · have hM0 : M = 0 := by omega
    subst hM0
    rw [if_neg h0, if_pos hpres]
    refine (hc 0 le_rfl hpres).congr fun K _ env => ?_
    simp [hpres]

lemma denseTail_txt {var : Str} (hvar : var ∈ vars) {present : ℕ → Bool} (coef : ℕ → Str) (cv : ℕ → Val) : ∀ (M : ℕ) (acc : Str) (u : Val),
    (∀ d, 0 < d → d ≤ M → present d = true → Txt vars P N 0 (coef d) (cv d)) → Txt vars P N 2 acc u →
    Txt vars P N 2 (List.replicate M '(' ++ acc ++ denseTail var present coef M)
      (fun K _ env => u K env * env var ^ M + ∑ d ∈ Finset.range M, if present (d + 1) = true then cv (d + 1) K env * env var ^ (d + 1) else 0)
  | 0, acc, u, _, h => by
    refine Txt.congr (by simpa [denseTail] using h) fun K _ env => by simp
  | M + 1, acc, u, hc, h => by
    have hr : List.replicate (M + 1) '(' = List.replicate M '(' ++ ['('] := by rw [← List.replicate_succ']
    rw [hr]
    by_cases hp : present (M + 1) = true
    · have h1 := ((h.mono (lv' := 0) (by norm_num)).add (hc (M + 1) (by omega) le_rfl hp)).paren
      have h2 := (h1.mono (lv' := 2) (by norm_num)).mul ((txt_var hvar).mono (by norm_num))
      have h3 := denseTail_txt hvar coef cv M _ _ (fun d h0 hd => hc d h0 (by omega)) h2
      refine Txt.congr (v := _) (by simpa [denseTail, hp] using h3) fun K _ env => ?_
      rw [Finset.sum_range_succ, if_pos hp]; ring
    · have h1 := (h.mono (lv' := 0) (by norm_num)).paren
      have h2 := (h1.mono (lv' := 2) (by norm_num)).mul ((txt_var hvar).mono (by norm_num))
      have h3 := denseTail_txt hvar coef cv M _ _ (fun d h0 hd => hc d h0 (by omega)) h2
      refine Txt.congr (v := _) (by simpa [denseTail, hp] using h3) fun K _ env => ?_
      rw [Finset.sum_range_succ, if_neg hp]; ring

lemma denseStr_txt {var lead : Str} (hvar : var ∈ vars) {present : ℕ → Bool} {coef : ℕ → Str} {cv : ℕ → Val} {M : ℕ}
    (hpres : present M = true) (hc : ∀ d, d ≤ M → present d = true → Txt vars P N 0 (coef d) (cv d))
    (hlead : Txt vars P N 2 (var ++ lead) (fun K _ env => cv M K env * env var)) :
    Txt vars P N 0 (denseStr var lead present coef M)
      (fun K _ env => ∑ d ∈ Finset.range (M + 1), if present d = true then cv d K env * env var ^ d else 0) := by
  unfold denseStr
  by_cases h0 : M > 0
  · rw [if_pos h0]
    obtain ⟨m, rfl⟩ : ∃ m, M = m + 1 := ⟨M - 1, by omega⟩
    have h1 := denseTail_txt hvar (present := present) coef cv m _ _ (fun d _ hd => hc d (by omega)) hlead
    have hval : ∀ (K : Type) [Field K] (env : Str → K), cv (m + 1) K env * env var * env var ^ m +
        (∑ d ∈ Finset.range m, if present (d + 1) = true then cv (d + 1) K env * env var ^ (d + 1) else 0) +
        (if present 0 = true then cv 0 K env else 0) = ∑ d ∈ Finset.range (m + 1 + 1), if present d = true then cv d K env * env var ^ d else 0 := by
      intro K _ env
      rw [Finset.sum_range_succ', Finset.sum_range_succ, if_pos hpres, pow_zero, mul_one]; ring
    simp only [Nat.add_sub_cancel]
    by_cases hp0 : present 0 = true
    · rw [if_pos hp0]
      have h2 := (h1.mono (lv' := 0) (by norm_num)).add (hc 0 (by omega) hp0)
      refine Txt.congr (v := _) (by simpa using h2) fun K _ env => ?_
      rw [← hval, if_pos hp0]
    · rw [if_neg hp0]
      refine Txt.congr (v := _) (by simpa using (h1.mono (lv' := 0) (by norm_num))) fun K _ env => ?_
      rw [← hval, if_neg hp0, add_zero]
  · have hM0 : M = 0 := by omega
    subst hM0
    rw [if_neg h0, if_pos hpres]
    refine (hc 0 le_rfl hpres).congr fun K _ env => ?_
    simp [hpres]

end

/-! ### grouping -/
section
variable {C : Type} {m : List (List ℕ × C)}

lemma group_wf {k : ℕ} (hm : WFMap (k + 1) m) (d : ℕ) : WFMap k (hornerGroup m d) := by
  unfold hornerGroup
  refine ⟨?_, ?_⟩
  · rw [List.map_map]
    have h1 : ((m.filter fun t => t.1.getD 0 0 = d).map Prod.fst).Nodup := hm.1.sublist (List.filter_sublist.map _)
    rw [show (Prod.fst ∘ fun t : List ℕ × C => (t.1.tail, t.2)) = List.tail ∘ Prod.fst from rfl, ← List.map_map]
    apply List.Nodup.map_on _ h1
    intro a ha b hb hab
    rw [List.mem_map] at ha hb
    obtain ⟨t, ht, rfl⟩ := ha
    obtain ⟨t', ht', rfl⟩ := hb
    rw [List.mem_filter] at ht ht'
    have l1 := hm.2 t ht.1
    have l2 := hm.2 t' ht'.1
    have e1 := ht.2
    have e2 := ht'.2
    rcases h1 : t.1 with _ | ⟨a, as⟩
    · rw [h1] at l1; simp at l1
    rcases h2 : t'.1 with _ | ⟨b, bs⟩
    · rw [h2] at l2; simp at l2
    simp only [h1, h2, List.getD_cons_zero, decide_eq_true_eq, List.tail_cons] at e1 e2 hab
    rw [e1, e2, hab]
  · intro t ht
    rw [List.mem_map] at ht
    obtain ⟨t', ht', rfl⟩ := ht
    rw [List.mem_filter] at ht'
    have := hm.2 t' ht'.1
    simp [this]

lemma group_mem {d : ℕ} {t : List ℕ × C} (h : t ∈ hornerGroup m d) : ∃ t' ∈ m, t'.1.getD 0 0 = d ∧ t = (t'.1.tail, t'.2) := by
  unfold hornerGroup at h
  rw [List.mem_map] at h
  obtain ⟨t', ht', rfl⟩ := h
  rw [List.mem_filter] at ht'
  exact ⟨t', ht'.1, by simpa using ht'.2, rfl⟩

lemma foldl_max_ge (d0 : ℕ) : d0 ≤ m.foldl (fun d t => max d (t.1.getD 0 0)) d0 ∧ ∀ t ∈ m, t.1.getD 0 0 ≤ m.foldl (fun d t => max d (t.1.getD 0 0)) d0 := by
  induction m generalizing d0 with
  | nil => simp
  | cons a m ih =>
    obtain ⟨h1, h2⟩ := ih (max d0 (a.1.getD 0 0))
    simp only [List.foldl_cons]
    refine ⟨by omega, ?_⟩
    intro t ht
    rw [List.mem_cons] at ht
    rcases ht with rfl | ht
    · omega
    · exact h2 t ht

lemma foldl_max_mem (d0 : ℕ) : m.foldl (fun d t => max d (t.1.getD 0 0)) d0 = d0 ∨ ∃ t ∈ m, t.1.getD 0 0 = m.foldl (fun d t => max d (t.1.getD 0 0)) d0 := by
  induction m generalizing d0 with
  | nil => simp
  | cons a m ih =>
    simp only [List.foldl_cons]
    rcases ih (max d0 (a.1.getD 0 0)) with h | ⟨t, ht, h⟩
    · rw [h]
      rcases le_total d0 (a.1.getD 0 0) with h' | h'
      · right; exact ⟨a, by simp, by omega⟩
      · left; omega
    · right; exact ⟨t, List.mem_cons_of_mem _ ht, h⟩

lemma hornerMax_mem (hm : m ≠ []) : ∃ t ∈ m, t.1.getD 0 0 = hornerMax m := by
  unfold hornerMax
  rcases foldl_max_mem (m := m) 0 with h | h
  · obtain ⟨a, m', rfl⟩ := List.exists_cons_of_ne_nil hm
    refine ⟨a, by simp, ?_⟩
    have := (foldl_max_ge (m := a :: m') 0).2 a (by simp)
    omega
  · exact h

lemma group_max (hm : m ≠ []) : hornerGroup m (hornerMax m) ≠ [] := by
  obtain ⟨t, ht, h⟩ := hornerMax_mem hm
  unfold hornerGroup
  intro h0
  rw [List.map_eq_nil_iff, List.filter_eq_nil_iff] at h0
  exact h0 t ht (by simpa using h)

/-- regrouping a sum -/
lemma group_sum {K : Type} [Field K] (g : List ℕ × C → K) (x : K) (M : ℕ) (hM : ∀ t ∈ m, t.1.getD 0 0 ≤ M) :
    (∑ d ∈ Finset.range (M + 1), ((hornerGroup m d).map g).sum * x ^ d) = (m.map fun t => g (t.1.tail, t.2) * x ^ (t.1.getD 0 0)).sum := by
  induction m with
  | nil => simp [hornerGroup]
  | cons a m ih =>
    have h1 : ∀ d, ((hornerGroup (a :: m) d).map g).sum * x ^ d = (if a.1.getD 0 0 = d then g (a.1.tail, a.2) * x ^ d else 0) + ((hornerGroup m d).map g).sum * x ^ d := by
      intro d
      unfold hornerGroup
      rw [List.filter_cons]
      by_cases h : a.1.getD 0 0 = d
      · rw [if_pos (by simpa using h), if_pos h]; simp; ring
      · rw [if_neg (by simpa using h), if_neg h]; simp
    simp only [h1]
    rw [Finset.sum_add_distrib, ih (fun t ht => hM t (List.mem_cons_of_mem _ ht)), List.map_cons, List.sum_cons]
    congr 1
    rw [Finset.sum_ite_eq, if_pos]
    rw [Finset.mem_range]
    have := hM a (by simp)
    omega

lemma group_uni (hm : WFMap 1 m) (d : ℕ) :
    (∀ c, m.lookup [d] = some c → hornerGroup m d = [([], c)]) ∧ (m.lookup [d] = none → hornerGroup m d = []) := by
  induction m with
  | nil => simp [hornerGroup]
  | cons a m ih =>
    obtain ⟨e, c0⟩ := a
    have hm' : WFMap 1 m := ⟨(List.nodup_cons.mp hm.1).2, fun t ht => hm.2 t (List.mem_cons_of_mem _ ht)⟩
    have hl := hm.2 (e, c0) (by simp)
    obtain ⟨b, rfl⟩ := List.length_eq_one_iff.mp hl
    obtain ⟨i1, i2⟩ := ih hm'
    have hnin : [b] ∉ m.map Prod.fst := (List.nodup_cons.mp hm.1).1
    rw [List.lookup_cons]
    unfold hornerGroup at i1 i2 ⊢
    rw [List.filter_cons]
    by_cases hbd : b = d
    · subst hbd
      have hnone : m.lookup [b] = none := by
        rw [List.lookup_eq_none_iff]
        intro p hp
        simp only [bne_iff_ne, ne_eq, beq_eq_false_iff_ne]
        intro h
        exact hnin (by rw [h]; exact List.mem_map_of_mem hp)
      refine ⟨fun c hc => ?_, fun hc => by simp at hc⟩
      rw [if_pos (by simp), List.map_cons, i2 hnone]
      have : c0 = c := by simpa using hc
      rw [this]; rfl
    · have : ([d] == [b]) = false := by simp; omega
      simp only [this, List.getD_cons_zero]
      rw [if_neg (by simpa using hbd)]
      exact ⟨i1, i2⟩

end

/-! ### the generators -/
section
variable {C : Type} {vars : List Str} {P N : ℕ} {str : C → Str} {isOne : C → Bool} {val : C → ∀ (K : Type) [Field K], K}

lemma monoVal_cons {K : Type} [Field K] (env : Str → K) (x : Str) (names : List Str) {k : ℕ} {e : List ℕ} (he : e.length = k + 1) :
    monoVal env (x :: names) e = env x ^ (e.getD 0 0) * monoVal env names e.tail := by
  cases e with
  | nil => simp at he
  | cons a e => simp [monoVal]

/-- the value of a map in the remaining variables, as a sum over the degrees of the first one -/
lemma polyVal_group {K : Type} [Field K] (env : Str → K) (x : Str) (names : List Str) (v : C → K) {k : ℕ} {m : List (List ℕ × C)} (hm : WFMap (k + 1) m) :
    (∑ d ∈ Finset.range (hornerMax m + 1), polyVal env names v (hornerGroup m d) * env x ^ d) = polyVal env (x :: names) v m := by
  unfold polyVal
  rw [group_sum (fun t => v t.2 * monoVal env names t.1) (env x) (hornerMax m) (fun t ht => (foldl_max_ge (m := m) 0).2 t ht)]
  congr 1
  apply List.map_congr_left
  intro t ht
  rw [monoVal_cons env x names (hm.2 t ht)]; ring

lemma nil_keys {m : List (List ℕ × C)} (hm : WFMap 0 m) (h : m ≠ []) : ∃ c, m = [([], c)] := by
  obtain ⟨⟨e, c⟩, m', rfl⟩ := List.exists_cons_of_ne_nil h
  have he := hm.2 (e, c) (by simp)
  have he : e = [] := by simpa using he
  subst he
  cases m' with
  | nil => exact ⟨c, rfl⟩
  | cons t m' =>
    have ht := hm.2 t (by simp)
    have ht : t.1 = [] := by simpa using ht
    have := hm.1
    simp [ht] at this

/-- the hypotheses on the coefficients and degrees of a map -/
def PrintOK (vars : List Str) (P N : ℕ) (str : C → Str) (val : C → ∀ (K : Type) [Field K], K) (m : List (List ℕ × C)) : Prop :=
  ∀ t ∈ m, (∀ d ∈ t.1, d < P) ∧ Txt vars P N 2 (str t.2) (fun K _ _ => val t.2 K)

lemma PrintOK.group {m : List (List ℕ × C)} (h : PrintOK vars P N str val m) (d : ℕ) : PrintOK vars P N str val (hornerGroup m d) := by
  intro t ht
  obtain ⟨t', h1, h2, rfl⟩ := group_mem ht
  exact ⟨fun e he => (h t' h1).1 e (List.mem_of_mem_tail he), (h t' h1).2⟩

lemma PrintOK.max_lt {m : List (List ℕ × C)} {k : ℕ} (hm : WFMap (k + 1) m) (h0 : m ≠ []) (h : PrintOK vars P N str val m) : hornerMax m < P := by
  obtain ⟨t, h1, h2⟩ := hornerMax_mem h0
  rw [← h2]
  apply (h t h1).1
  have := hm.2 t h1
  rcases ht : t.1 with _ | ⟨a, e⟩
  · rw [ht] at this; simp at this
  · simp

lemma uni_present {m : List (List ℕ × C)} (hm : WFMap 1 m) (d : ℕ) : (m.lookup [d]).isSome = decide (hornerGroup m d ≠ []) := by
  obtain ⟨h1, h2⟩ := group_uni hm d
  cases h : m.lookup [d] with
  | none => simp [h2 h]
  | some c => simp [h1 c h]

lemma uni_coef {m : List (List ℕ × C)} (hm : WFMap 1 m) (hok : PrintOK vars P N str val m) {d : ℕ} (hp : hornerGroup m d ≠ []) :
    ∃ c, m.lookup [d] = some c ∧ Txt vars P N 2 (str c) (fun K _ env => polyVal env [] (fun c => val c K) (hornerGroup m d)) ∧
      hornerGroup m d = [([], c)] := by
  obtain ⟨h1, h2⟩ := group_uni hm d
  cases h : m.lookup [d] with
  | none => exact absurd (h2 h) hp
  | some c =>
    have hg := h1 c h
    refine ⟨c, rfl, ?_, hg⟩
    have := (hok.group d) ([], c) (by rw [hg]; simp)
    refine this.2.congr fun K _ env => ?_
    rw [hg]; simp [polyVal, monoVal]

/-- value of a map at the variables from `index` on -/
def restVal (vars : List Str) (index : ℕ) (val : C → ∀ (K : Type) [Field K], K) (m : List (List ℕ × C)) : Val :=
  fun K _ env => polyVal env (vars.drop index) (fun c => val c K) m

lemma restVal_sum {m : List (List ℕ × C)} {k index : ℕ} (hm : WFMap (k + 1) m) (hi : index < vars.length) (K : Type) [Field K] (env : Str → K) :
    (∑ d ∈ Finset.range (hornerMax m + 1), if decide (hornerGroup m d ≠ []) = true then
      restVal vars (index + 1) val (hornerGroup m d) K env * env (vars.getD index []) ^ d else 0) = restVal vars index val m K env := by
  unfold restVal
  rw [List.drop_eq_getElem_cons hi, List.getD_eq_getElem _ _ hi, ← polyVal_group env _ _ (fun c => val c K) hm]
  apply Finset.sum_congr rfl
  intro d _
  by_cases h : hornerGroup m d = []
  · simp [h, polyVal]
  · simp [h]

lemma hornerSparse_txt (hone : ∀ c, isOne c = true → ∀ (K : Type) [Field K], val c K = 1) : ∀ (k index : ℕ) (m : List (List ℕ × C)), WFMap k m → m ≠ [] →
    index + k ≤ vars.length → PrintOK vars P N str val m →
    Txt vars P N 0 (hornerSparse str isOne vars k index m) (restVal vars index val m)
  | 0, index, m, hm, h0, hi, hok => by
    obtain ⟨c, rfl⟩ := nil_keys hm h0
    refine ((hok ([], c) (by simp)).2.mono (by norm_num)).congr fun K _ env => ?_
    simp [restVal, polyVal, monoVal]
  | 1, index, m, hm, h0, hi, hok => by
    have hvar : vars.getD index [] ∈ vars := by rw [List.getD_eq_getElem _ _ (by omega)]; exact List.getElem_mem _
    have hco : ∀ d, hornerGroup m d ≠ [] → ∃ c, m.lookup [d] = some c ∧ Txt vars P N 2 (str c) (restVal vars (index + 1) val (hornerGroup m d)) ∧
        hornerGroup m d = [([], c)] := by
      intro d hd
      obtain ⟨c, h1, h2, h3⟩ := uni_coef hm hok hd
      refine ⟨c, h1, h2.congr fun K _ env => ?_, h3⟩
      rw [h3]; simp [restVal, polyVal, monoVal]
    have key := sparseStr_txt (vars := vars) (P := P) (N := N) (var := vars.getD index [])
      (lead := match m.lookup [hornerMax m] with | some c => if isOne c then [] else str c ++ ['*'] | none => []) hvar
      (present := fun d => decide (hornerGroup m d ≠ [])) (coef := fun d => match m.lookup [d] with | some c => str c | none => [])
      (cv := fun d => restVal vars (index + 1) val (hornerGroup m d)) (M := hornerMax m) (hok.max_lt hm h0)
      (by simpa using group_max h0)
      (by
        intro d _ hp
        obtain ⟨c, h1, h2, -⟩ := hco d (by simpa using hp)
        simp only [h1]
        exact h2.mono (by norm_num))
      (by
        intro h hh
        obtain ⟨c, h1, h2, h3⟩ := hco _ (group_max h0)
        simp only [h1]
        cases ho : isOne c with
        | true =>
          simp only [if_true, List.nil_append]
          refine (((txt_var hvar).powStr hh).mono (by norm_num)).congr fun K _ env => ?_
          rw [h3]; simp [restVal, polyVal, monoVal, hone c ho K]
        | false =>
          simp only [Bool.false_eq_true, if_false]
          have := h2.mul ((txt_var hvar).powStr hh)
          simpa using this)
    have hpres : (fun d => (m.lookup [d]).isSome) = fun d => decide (hornerGroup m d ≠ []) := by
      funext d; exact uni_present hm d
    unfold hornerSparse
    simp only [hpres]
    exact key.congr fun K _ env => restVal_sum hm (by omega) K env
  | k + 2, index, m, hm, h0, hi, hok => by
    have hvar : vars.getD index [] ∈ vars := by rw [List.getD_eq_getElem _ _ (by omega)]; exact List.getElem_mem _
    have hco : ∀ d, hornerGroup m d ≠ [] → Txt vars P N 0 (hornerSparse str isOne vars (k + 1) (index + 1) (hornerGroup m d))
        (restVal vars (index + 1) val (hornerGroup m d)) := fun d hd =>
      hornerSparse_txt hone (k + 1) (index + 1) (hornerGroup m d) (group_wf hm d) hd (by omega) (hok.group d)
    have key := sparseStr_txt (vars := vars) (P := P) (N := N) (var := vars.getD index [])
      (lead := '(' :: hornerSparse str isOne vars (k + 1) (index + 1) (hornerGroup m (hornerMax m)) ++ [')', '*']) hvar
      (present := fun d => decide (hornerGroup m d ≠ [])) (coef := fun d => hornerSparse str isOne vars (k + 1) (index + 1) (hornerGroup m d))
      (cv := fun d => restVal vars (index + 1) val (hornerGroup m d)) (M := hornerMax m) (hok.max_lt hm h0)
      (by simpa using group_max h0)
      (by
        intro d _ hp
        exact hco d (by simpa using hp))
      (by
        intro h hh
        have := ((hco _ (group_max h0)).paren.mono (lv' := 2) (by norm_num)).mul ((txt_var hvar).powStr hh)
        simpa using this)
    unfold hornerSparse
    exact key.congr fun K _ env => restVal_sum hm (by omega) K env

lemma hornerDense_txt (hstr : ∀ c : C, Txt vars P N 3 (str c) (fun K _ _ => val c K)) (hone : ∀ c, isOne c = true → ∀ (K : Type) [Field K], val c K = 1) :
    ∀ (k index : ℕ) (m : List (List ℕ × C)), WFMap k m → m ≠ [] → index + k ≤ vars.length →
    Txt vars P N 0 (hornerDense str isOne vars k index m) (restVal vars index val m)
  | 0, index, m, hm, h0, hi => by
    obtain ⟨c, rfl⟩ := nil_keys hm h0
    refine ((hstr c).mono (by norm_num)).congr fun K _ env => ?_
    simp [restVal, polyVal, monoVal]
  | 1, index, m, hm, h0, hi => by
    have hvar : vars.getD index [] ∈ vars := by rw [List.getD_eq_getElem _ _ (by omega)]; exact List.getElem_mem _
    have hco : ∀ d, hornerGroup m d ≠ [] → ∃ c, m.lookup [d] = some c ∧ Txt vars P N 3 (str c) (restVal vars (index + 1) val (hornerGroup m d)) ∧
        hornerGroup m d = [([], c)] := by
      intro d hd
      obtain ⟨h1, h2⟩ := group_uni hm d
      cases h : m.lookup [d] with
      | none => exact absurd (h2 h) hd
      | some c =>
        refine ⟨c, rfl, (hstr c).congr fun K _ env => ?_, h1 c h⟩
        rw [h1 c h]; simp [restVal, polyVal, monoVal]
    have key := denseStr_txt (vars := vars) (P := P) (N := N) (var := vars.getD index [])
      (lead := match m.lookup [hornerMax m] with | some c => if isOne c then [] else '*' :: str c | none => []) hvar
      (present := fun d => decide (hornerGroup m d ≠ [])) (coef := fun d => match m.lookup [d] with | some c => str c | none => [])
      (cv := fun d => restVal vars (index + 1) val (hornerGroup m d)) (M := hornerMax m)
      (by simpa using group_max h0)
      (by
        intro d _ hp
        obtain ⟨c, h1, h2, -⟩ := hco d (by simpa using hp)
        simp only [h1]
        exact h2.mono (by norm_num))
      (by
        obtain ⟨c, h1, h2, h3⟩ := hco _ (group_max h0)
        simp only [h1]
        cases ho : isOne c with
        | true =>
          simp only [if_true, List.append_nil]
          refine ((txt_var hvar).mono (by norm_num)).congr fun K _ env => ?_
          rw [h3]; simp [restVal, polyVal, monoVal, hone c ho K]
        | false =>
          simp only [Bool.false_eq_true, if_false]
          exact (((txt_var hvar).mono (by norm_num)).mul h2).congr fun K _ env => mul_comm _ _)
    have hpres : (fun d => (m.lookup [d]).isSome) = fun d => decide (hornerGroup m d ≠ []) := by
      funext d; exact uni_present hm d
    unfold hornerDense
    simp only [hpres]
    exact key.congr fun K _ env => restVal_sum hm (by omega) K env
  | k + 2, index, m, hm, h0, hi => by
    have hvar : vars.getD index [] ∈ vars := by rw [List.getD_eq_getElem _ _ (by omega)]; exact List.getElem_mem _
    have hco : ∀ d, hornerGroup m d ≠ [] → Txt vars P N 0 (hornerDense str isOne vars (k + 1) (index + 1) (hornerGroup m d))
        (restVal vars (index + 1) val (hornerGroup m d)) := fun d hd =>
      hornerDense_txt hstr hone (k + 1) (index + 1) (hornerGroup m d) (group_wf hm d) hd (by omega)
    have key := denseStr_txt (vars := vars) (P := P) (N := N) (var := vars.getD index [])
      (lead := '*' :: '(' :: hornerDense str isOne vars (k + 1) (index + 1) (hornerGroup m (hornerMax m)) ++ [')']) hvar
      (present := fun d => decide (hornerGroup m d ≠ [])) (coef := fun d => hornerDense str isOne vars (k + 1) (index + 1) (hornerGroup m d))
      (cv := fun d => restVal vars (index + 1) val (hornerGroup m d)) (M := hornerMax m)
      (by simpa using group_max h0)
      (by
        intro d _ hp
        exact hco d (by simpa using hp))
      (by
        exact (((txt_var hvar).mono (by norm_num)).mul ((hco _ (group_max h0)).paren.mono (by norm_num))).congr fun K _ env => mul_comm _ _)
    unfold hornerDense
    exact key.congr fun K _ env => restVal_sum hm (by omega) K env

end
end FireFly
