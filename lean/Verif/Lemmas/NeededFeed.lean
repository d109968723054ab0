import Verif.Model.NeededFeed
import Verif.Spec.NeededFeed
/-! # The list of requests: the loops over the map of the sizes -/
set_option linter.all false
namespace FireFly.Needed

lemma bump_at (m : List (ℕ × ℕ)) (k x : ℕ) (hs : (m.map Prod.fst).Pairwise (· < ·)) : at? (bump m k) x = at? m x + if x = k then 1 else 0 := by
  induction m with
  | nil =>
    by_cases h : x = k
    · subst h; simp [bump, at?]
    · have : ¬ k = x := fun e => h e.symm
      simp [bump, at?, h, this]
  | cons el m ih =>
    rw [List.map_cons, List.pairwise_cons] at hs
    have ih := ih hs.2
    unfold bump
    by_cases h1 : k < el.1
    · rw [if_pos h1]
      by_cases h : x = k
      · subst h
        have : at? (el :: m) x = 0 := by
          unfold at?
          rw [List.find?_eq_none.mpr]; · rfl
          intro y hy
          rcases List.mem_cons.mp hy with rfl | hy
          · simp; omega
          · have := hs.1 y.1 (List.mem_map_of_mem hy); simp; omega
        rw [this]; simp [at?]
      · have : ¬ k = x := fun e => h e.symm
        simp [at?, h, this]
    · rw [if_neg h1]
      by_cases h2 : k = el.1
      · rw [if_pos h2]
        by_cases h : x = k
        · subst h; simp [at?, h2]
        · have : ¬ el.1 = x := fun e => h (by omega)
          simp [at?, h, this]
      · rw [if_neg h2]
        by_cases h : el.1 = x
        · have h' : ¬ x = k := by omega
          simp [at?, h, h']
        · have e1 : at? (el :: bump m k) x = at? (bump m k) x := by simp [at?, h]
          have e2 : at? (el :: m) x = at? m x := by simp [at?, h]
          rw [e1, e2, ih]

lemma bump_keys (m : List (ℕ × ℕ)) (k x : ℕ) : x ∈ (bump m k).map Prod.fst ↔ x ∈ m.map Prod.fst ∨ x = k := by
  induction m with
  | nil => simp [bump]
  | cons el m ih =>
    unfold bump
    split
    · simp; tauto
    · split
      · rename_i h; simp only [List.map_cons, List.mem_cons]; constructor
        · rintro (h1 | h1) <;> tauto
        · rintro ((h1 | h1) | h1)
          · exact Or.inl h1
          · exact Or.inr h1
          · exact Or.inl (by omega)
      · simp only [List.map_cons, List.mem_cons, ih]; tauto

lemma bump_sorted (m : List (ℕ × ℕ)) (k : ℕ) (hs : (m.map Prod.fst).Pairwise (· < ·)) : ((bump m k).map Prod.fst).Pairwise (· < ·) := by
  induction m with
  | nil => simp [bump]
  | cons el m ih =>
    have hs' := hs
    rw [List.map_cons, List.pairwise_cons] at hs
    unfold bump
    split
    · rename_i h1
      rw [List.map_cons, List.pairwise_cons]
      refine ⟨fun y hy => ?_, hs'⟩
      rcases List.mem_cons.mp hy with rfl | hy
      · exact h1
      · exact lt_trans h1 (hs.1 y hy)
    · split
      · exact hs'
      · rw [List.map_cons, List.pairwise_cons]
        refine ⟨fun y hy => ?_, ih hs.2⟩
        rcases (bump_keys m k y).mp hy with hy | rfl
        · exact hs.1 y hy
        · omega

lemma rMap_spec (L : List ℕ) : ((rMap L).map Prod.fst).Pairwise (· < ·) ∧ (∀ x, at? (rMap L) x = L.count x) ∧ ∀ x, x ∈ (rMap L).map Prod.fst ↔ x ∈ L := by
  have key : ∀ (L : List ℕ) (m : List (ℕ × ℕ)), (m.map Prod.fst).Pairwise (· < ·) → ((L.foldl bump m).map Prod.fst).Pairwise (· < ·) ∧ (∀ x, at? (L.foldl bump m) x = at? m x + L.count x) ∧
      ∀ x, x ∈ (L.foldl bump m).map Prod.fst ↔ x ∈ m.map Prod.fst ∨ x ∈ L := by
    intro L
    induction L with
    | nil => intro m h; exact ⟨h, by simp, by simp⟩
    | cons k L ih =>
      intro m h
      rw [List.foldl_cons]
      obtain ⟨h1, h2, h3⟩ := ih (bump m k) (bump_sorted m k h)
      refine ⟨h1, fun x => ?_, fun x => ?_⟩
      · rw [h2, bump_at m k x h, List.count_cons]
        by_cases hx : x = k
        · subst hx; simp; omega
        · have : ¬ k = x := fun e => hx e.symm
          simp [hx, this]
      · rw [h3, bump_keys]; simp only [List.mem_cons]; tauto
  obtain ⟨h1, h2, h3⟩ := key L [] (by simp)
  exact ⟨h1, fun x => by rw [rMap, h2]; simp [at?], fun x => by rw [rMap, h3]; simp⟩

lemma le_largest {E : List ℕ} {e : ℕ} (h : e ∈ E) : e ≤ largest E := by
  induction E with
  | nil => simp at h
  | cons x E ih =>
    unfold largest
    rw [List.foldr_cons]
    rcases List.mem_cons.mp h with rfl | h
    · exact le_max_left _ _
    · exact le_trans (ih h) (le_max_right _ _)

lemma largest_le {E : List ℕ} {b : ℕ} (h : ∀ e ∈ E, e ≤ b) : largest E ≤ b := by
  induction E with
  | nil => simp [largest]
  | cons x E ih =>
    unfold largest
    rw [List.foldr_cons]
    exact max_le (h x (by simp)) (ih (fun e he => h e (by simp [he])))

lemma largest_mem {E : List ℕ} (h : E ≠ []) : largest E ∈ E := by
  induction E with
  | nil => exact absurd rfl h
  | cons x E ih =>
    unfold largest
    rw [List.foldr_cons]
    by_cases hE : E = []
    · subst hE; simp
    · rcases max_choice x (List.foldr max 0 E) with h1 | h1
      · rw [h1]; simp
      · rw [h1]; exact List.mem_cons_of_mem _ (ih hE)

lemma atLeast_succ (E : List ℕ) (o : ℕ) : atLeast E (o + 1) + E.count o = atLeast E o := by
  induction E with
  | nil => simp [atLeast]
  | cons x E ih =>
    unfold atLeast at ih ⊢
    rw [List.filter_cons, List.filter_cons, List.count_cons]
    rcases lt_trichotomy x o with h | h | h
    · rw [if_neg (by simp; omega), if_neg (by simp; omega), if_neg (by simp; omega)]; exact ih
    · subst h
      rw [if_neg (by simp), if_pos (by simp), if_pos (by simp), List.length_cons]; omega
    · have h1 : ¬ x = o := by omega
      have h2 : o + 1 ≤ x := by omega
      have h3 : o ≤ x := by omega
      simp only [h1, h2, h3, decide_true, if_true, beq_iff_eq, if_false, List.length_cons]; omega

lemma atLeast_gap (E : List ℕ) {o k : ℕ} (hok : o ≤ k) (h : ∀ e ∈ E, o ≤ e → k ≤ e) : atLeast E o = atLeast E k := by
  unfold atLeast
  congr 1
  apply List.filter_congr
  intro e he
  have := h e he
  simp only [decide_eq_decide]
  constructor
  · exact this
  · intro h1; omega

/-- the list of requests from the order vector `last + 1` on -/
def from_ (E : List ℕ) (last : ℕ) : List (ℕ × ℕ) := (List.range (largest E - last)).map (fun i => (last + 1 + i, atLeast E (last + 1 + i)))

lemma from_step {E : List ℕ} {last k e : ℕ} (hlt : last < k) (hk : k ≤ largest E) (he : ∀ o, last < o → o ≤ k → atLeast E o = e) :
    (List.range (k - last)).map (fun i => (last + 1 + i, e)) ++ from_ E k = from_ E last := by
  unfold from_
  have : largest E - last = (k - last) + (largest E - k) := by omega
  rw [this, List.range_add, List.map_append]
  congr 1
  · apply List.map_congr_left
    intro i hi
    rw [List.mem_range] at hi
    rw [he (last + 1 + i) (by omega) (by omega)]
  · rw [List.map_map]
    apply List.map_congr_left
    intro i hi
    have : last + 1 + (k - last + i) = k + 1 + i := by omega
    simp only [Function.comp, this]

lemma from_nil {E : List ℕ} {last : ℕ} (h : ∀ e ∈ E, e ≤ last) : from_ E last = [] := by
  unfold from_
  rw [show largest E - last = 0 from Nat.sub_eq_zero_of_le (largest_le h)]; rfl

/-- the rest of the loop: what is known -/
structure Loop (E : List ℕ) (rest : List (ℕ × ℕ)) (last eqn : ℕ) : Prop where
  sorted : (rest.map Prod.fst).Pairwise (· < ·)
  above : ∀ k ∈ rest.map Prod.fst, last < k ∧ k ∈ E
  cover : ∀ e ∈ E, last < e → e ∈ rest.map Prod.fst
  eqn : eqn = atLeast E last

lemma Loop.val {E : List ℕ} {el : ℕ × ℕ} {rest : List (ℕ × ℕ)} {last eqn : ℕ} (h : Loop E (el :: rest) last eqn) :
    (∀ o, last < o → o ≤ el.1 → atLeast E o = eqn - E.count last) ∧ E.count last ≤ eqn ∧ last < el.1 ∧ el.1 ≤ largest E ∧ Loop E rest el.1 (eqn - E.count last) := by
  have hs := h.sorted
  rw [List.map_cons, List.pairwise_cons] at hs
  have h1 := h.above el.1 (by simp)
  have h2 := atLeast_succ E last
  have hg : ∀ o, last < o → o ≤ el.1 → atLeast E o = atLeast E (last + 1) := by
    intro o a b
    symm
    apply atLeast_gap _ (by omega)
    intro e he hle
    have := h.cover e he (by omega)
    rw [List.map_cons, List.mem_cons] at this
    rcases this with rfl | this
    · exact b
    · have := hs.1 e this; omega
  have he := h.eqn
  refine ⟨fun o a b => by rw [hg o a b]; omega, by omega, h1.1, le_largest h1.2, hs.2, fun k hk => ⟨hs.1 k hk, (h.above k (by simp only [List.map_cons, List.mem_cons]; exact Or.inr hk)).2⟩, fun e he hlt => ?_, ?_⟩
  · have := h.cover e he (by omega)
    rw [List.map_cons, List.mem_cons] at this
    rcases this with rfl | this
    · omega
    · exact this
  · rw [hg el.1 h1.1 le_rfl]; omega

lemma expand_cons (c : ℕ) (el : ℕ × ℕ) (l : List (ℕ × ℕ)) : expand c (el :: l) = (List.range el.1).map (fun i => (c + i, el.2)) ++ expand (c + el.1) l := rfl

lemma blocks_loop {rm : List (ℕ × ℕ)} {E : List ℕ} (hrm : ∀ x, at? rm x = E.count x) (h0 : 0 ∉ E) : ∀ (rest : List (ℕ × ℕ)) (last eqn : ℕ), Loop E rest last eqn →
    ∃ bs, blocks rm rest last eqn = some bs ∧ expand (last + 1) bs = from_ E last := by
  intro rest
  induction rest with
  | nil =>
    intro last eqn h
    refine ⟨[], rfl, ?_⟩
    rw [from_nil]
    · rfl
    · intro e he
      by_contra hh
      have := h.cover e he (by omega)
      simp at this
  | cons el rest ih =>
    intro last eqn h
    obtain ⟨h1, h2, h3, h4, h5⟩ := h.val
    obtain ⟨bs, e1, e2⟩ := ih _ _ h5
    refine ⟨(el.1 - last, eqn - E.count last) :: bs, ?_, ?_⟩
    · rw [blocks]
      have : step? rm last eqn = some (eqn - E.count last) := by
        unfold step?
        split
        · rename_i hl
          rw [hl, List.count_eq_zero_of_not_mem h0]; simp
        · rw [hrm, sub?, if_pos h2]
      rw [this]
      simp [e1]
    · rw [expand_cons]
      have : last + 1 + (el.1 - last) = el.1 + 1 := by omega
      simp only [this]
      rw [e2]
      exact from_step h3 h4 h1

lemma requests_from (E : List ℕ) : requests E = from_ E 0 := by
  unfold requests from_
  rw [Nat.sub_zero]
  apply List.map_congr_left
  intro i _
  rw [show 0 + 1 + i = i + 1 by omega]

lemma atLeast_zero (E : List ℕ) : atLeast E 0 = E.length := by simp [atLeast]

lemma blocks_spec (E : List ℕ) (h0 : 0 ∉ E) : (blocks (rMap E) (rMap E) 0 E.length).map (expand 1) = some (requests E) := by
  obtain ⟨h1, h2, h3⟩ := rMap_spec E
  obtain ⟨bs, e1, e2⟩ := blocks_loop h2 h0 (rMap E) 0 E.length ⟨h1, fun k hk => ⟨Nat.pos_of_ne_zero (fun e => h0 (e ▸ (h3 k).mp hk)), (h3 k).mp hk⟩, fun e he _ => (h3 e).mpr he, (atLeast_zero E).symm⟩
  rw [e1, requests_from, ← e2]; rfl

lemma blocksShift_loop {rm : List (ℕ × ℕ)} {num den : Tail} {E : List ℕ}
    (hrm : ∀ x, 0 < x → at? rm x + (if x = num.width then num.rest else 0) + (if x = den.width then den.rest else 0) = E.count x) (h0 : 0 ∉ E) :
    ∀ (rest : List (ℕ × ℕ)) (last eqn : ℕ) (a b : Bool), Loop E rest last eqn → (last = 0 → a = false ∧ b = false) → (0 < last → a = decide (last = num.width) ∧ b = decide (last = den.width)) →
    ∃ bs, blocksShift rm num den rest last eqn a b = some bs ∧ expand (last + 1) bs = from_ E last := by
  intro rest
  induction rest with
  | nil =>
    intro last eqn a b h _ _
    refine ⟨[], rfl, ?_⟩
    rw [from_nil]
    · rfl
    · intro e he
      by_contra hh
      have := h.cover e he (by omega)
      simp at this
  | cons el rest ih =>
    intro last eqn a b h ha hb
    obtain ⟨h1, h2, h3, h4, h5⟩ := h.val
    obtain ⟨bs, e1, e2⟩ := ih el.1 (eqn - E.count last) (decide (el.1 = num.width)) (decide (el.1 = den.width)) h5 (fun h => by omega) (fun _ => ⟨rfl, rfl⟩)
    refine ⟨(el.1 - last, eqn - E.count last) :: bs, ?_, ?_⟩
    · rw [blocksShift]
      by_cases hl : last = 0
      · obtain ⟨rfl, rfl⟩ := ha hl
        have hc : eqn - E.count last = eqn := by rw [hl, List.count_eq_zero_of_not_mem h0]; simp
        rw [hc] at e1 ⊢
        simp [step?, dropIf, hl, e1]
      · obtain ⟨rfl, rfl⟩ := hb (by omega)
        have hs := hrm last (by omega)
        have hcalc : ((step? rm last eqn).bind fun e => (dropIf (decide (last = num.width)) e num.rest).bind fun e => dropIf (decide (last = den.width)) e den.rest) = some (eqn - E.count last) := by
          have gen : ∀ (P Q : Prop) [Decidable P] [Decidable Q] (x c r t e : ℕ), x + (if P then r else 0) + (if Q then t else 0) = c → c ≤ e →
              ((if x ≤ e then some (e - x) else none).bind fun e => (if decide P = true then (if r ≤ e then some (e - r) else none) else some e).bind fun e =>
                if decide Q = true then (if t ≤ e then some (e - t) else none) else some e) = some (e - c) := by
            intro P Q _ _ x c r t e h1 h2
            rw [if_pos (by omega), Option.bind_some]
            by_cases hP : P <;> by_cases hQ : Q <;> simp only [hP, hQ, decide_true, decide_false, if_true, if_false, Bool.false_eq_true] at h1 ⊢
            · rw [if_pos (by omega), Option.bind_some, if_pos (by omega)]; congr 1; omega
            · rw [if_pos (by omega), Option.bind_some]; congr 1; omega
            · rw [Option.bind_some, if_pos (by omega)]; congr 1; omega
            · rw [Option.bind_some]; congr 1; omega
          unfold step? dropIf sub?
          rw [if_neg hl]
          exact gen _ _ _ _ _ _ _ hs h2
        simp only [hl, ne_eq, not_false_eq_true, decide_true, Bool.true_and, decide_false, Bool.false_and, Bool.false_or, Option.bind_eq_bind]
        obtain ⟨x, hx, hcalc⟩ := Option.bind_eq_some_iff.mp hcalc
        obtain ⟨y, hy, hcalc⟩ := Option.bind_eq_some_iff.mp hcalc
        rw [hx, Option.bind_some, hy, Option.bind_some, hcalc, Option.bind_some, e1, Option.bind_some]
    · rw [expand_cons]
      have : last + 1 + (el.1 - last) = el.1 + 1 := by omega
      simp only [this]
      rw [e2]
      exact from_step h3 h4 h1

lemma blocksShift_spec {L E : List ℕ} {num den : Tail} (h0 : 0 ∉ E) (hL : ∀ x, x ∈ L ↔ x ∈ E)
    (hrm : ∀ x, 0 < x → L.count x + (if x = num.width then num.rest else 0) + (if x = den.width then den.rest else 0) = E.count x) :
    (blocksShift (rMap L) num den (rMap L) 0 E.length false false).map (expand 1) = some (requests E) := by
  obtain ⟨h1, h2, h3⟩ := rMap_spec L
  obtain ⟨bs, e1, e2⟩ := blocksShift_loop (rm := rMap L) (num := num) (den := den) (E := E) (fun x hx => by rw [h2]; exact hrm x hx) h0 (rMap L) 0 E.length false false
    ⟨h1, fun k hk => ⟨Nat.pos_of_ne_zero (fun e => h0 (e ▸ (hL k).mp ((h3 k).mp hk))), (hL k).mp ((h3 k).mp hk)⟩, fun e he _ => (h3 e).mpr ((hL e).mpr he), (atLeast_zero E).symm⟩ (fun _ => ⟨rfl, rfl⟩) (fun h => by omega)
  rw [e1, requests_from, ← e2]; rfl

end FireFly.Needed
