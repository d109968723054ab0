import Verif.Spec.RatShift
import Verif.Lemmas.RatLaterRun
/-! # A further prime field with a shift: what is asked -/
set_option linter.all false
namespace FireFly.RShift
open MvPolynomial FFMap
variable {F : Type} [Field F] [DecidableEq F] {n : ℕ} {const : Bool} {p : Prior} {sh a : List F} {Q : MvPolynomial ℕ F}

lemma zero_of_sum {e : List ℕ} (h1 : e.length = n) (h2 : e.sum = 0) : e = List.replicate n 0 := by
  rw [List.eq_replicate_iff]
  refine ⟨h1, fun b hb => ?_⟩
  have := List.single_le_sum (fun _ _ => Nat.zero_le _) b hb
  omega

lemma toFinsupp_degree (e : List ℕ) : e.toFinsupp.degree = e.sum := by
  have := RMulti.hc_monomial (F := ℚ) e.toFinsupp.degree e 1
  rw [homogeneousComponent_of_mem (isHomogeneous_monomial 1 rfl), if_pos rfl] at this
  by_contra h0
  rw [if_neg (fun h => h0 h.symm)] at this
  exact one_ne_zero (monomial_eq_zero.mp this)

/-! ### all terms -/

/-- the state of the loop over the known monomials -/
structure AllInv (n : ℕ) (const : Bool) (p : Prior) (dn : List (List ℕ)) (m : FFMap (List (List ℕ))) : Prop where
  keys : (m.map Prod.fst).Nodup
  form : ∀ u ∈ m, ∃ d, u.1 = [d] ∧ u.2 ≠ [] ∧ u.2.Nodup ∧ (∀ e ∈ u.2, e.sum = d ∧ (e ∈ p.unknown.flatMap Prod.snd ∨ e ∈ dn)) ∧ ¬ (const = true ∧ d = 0)
  cover : ∀ e, e ∈ p.unknown.flatMap Prod.snd ∨ e ∈ dn → ¬ (const = true ∧ e = List.replicate n 0) → ∃ u ∈ m, u.1 = [e.sum] ∧ e ∈ u.2

lemma AllInv.start (h : PriorOK n sh a Q const p) : AllInv n const p [] p.unknown := by
  refine ⟨h.unknownKeys, ?_, ?_⟩
  · intro u hu
    obtain ⟨d, h1, h2, h3⟩ := h.unknownForm u hu
    have hm : ∀ e ∈ u.2, e ∈ p.unknown.flatMap Prod.snd := fun e he => List.mem_flatMap.mpr ⟨u, hu, he⟩
    refine ⟨d, h1, h2, ?_, fun e he => ⟨h3 e he, Or.inl (hm e he)⟩, ?_⟩
    · have := (List.nodup_append.mp h.nodup).1
      rw [List.nodup_flatMap] at this
      exact this.1 u hu
    · rintro ⟨hc, hd⟩
      obtain ⟨e, he⟩ := List.exists_mem_of_ne_nil _ h2
      exact h.const hc e (hm e he) (by rw [h3 e he, hd])
  · rintro e (he | he) _
    · obtain ⟨u, hu, he⟩ := List.mem_flatMap.mp he
      obtain ⟨d, h1, h2, h3⟩ := h.unknownForm u hu
      exact ⟨u, hu, by rw [h1, h3 e he], he⟩
    · simp at he

lemma AllInv.fold (h : PriorOK n sh a Q const p) : ∀ (l dn : List (List ℕ)) (m : FFMap (List (List ℕ))), dn ++ l = p.known → AllInv n const p dn m →
    AllInv n const p p.known (l.foldl (fun (m : FFMap (List (List ℕ))) e => if const = true ∧ e = List.replicate n 0 then m else m.set [e.sum] ((m.find? [e.sum]).getD [] ++ [e])) m) := by
  intro l
  induction l with
  | nil => intro dn m h1 h2; rw [← h1, List.append_nil]; exact h2
  | cons e l ih =>
    intro dn m h1 h2
    rw [List.foldl_cons]
    apply ih (dn ++ [e]) _ (by simpa using h1)
    have hen : e.length = n := h.length e (by unfold exps; rw [← h1]; simp)
    have hfresh : e ∉ p.unknown.flatMap Prod.snd ∧ e ∉ dn := by
      have := h.nodup
      unfold exps at this
      rw [← h1, List.nodup_append, List.nodup_append] at this
      exact ⟨fun hh => this.2.2 _ hh _ (by simp) rfl, fun hh => this.2.1.2.2 _ hh _ (by simp) rfl⟩
    split
    · rename_i hc
      refine ⟨h2.keys, ?_, ?_⟩
      · intro u hu
        obtain ⟨d, f1, f2, f3, f4, f5⟩ := h2.form u hu
        exact ⟨d, f1, f2, f3, fun x hx => ⟨(f4 x hx).1, (f4 x hx).2.imp id (fun hh => List.mem_append_left _ hh)⟩, f5⟩
      · rintro x (hx | hx) hx2
        · exact h2.cover x (Or.inl hx) hx2
        · rcases List.mem_append.mp hx with hx | hx
          · exact h2.cover x (Or.inr hx) hx2
          · rw [List.mem_singleton.mp hx] at hx2
            exact absurd hc hx2
    · rename_i hc
      have hold : ∀ x ∈ (m.find? [e.sum]).getD [], ∃ u ∈ m, u.1 = [e.sum] ∧ u.2 = (m.find? [e.sum]).getD [] := by
        intro x hx
        cases hf : m.find? [e.sum] with
        | none => rw [hf] at hx; simp at hx
        | some w => exact ⟨_, FFMap.find?_mem hf, rfl, rfl⟩
      refine ⟨?_, ?_, ?_⟩
      · rw [keys_set]
        split
        · exact h2.keys
        · rename_i hn
          rw [List.nodup_append]
          refine ⟨h2.keys, by simp, ?_⟩
          intro x hx y hy hxy
          rw [List.mem_singleton] at hy
          rw [hxy, hy] at hx
          exact hn hx
      · intro u hu
        rcases mem_set hu with hu | rfl
        · obtain ⟨d, f1, f2, f3, f4, f5⟩ := h2.form u hu
          exact ⟨d, f1, f2, f3, fun x hx => ⟨(f4 x hx).1, (f4 x hx).2.imp id (fun hh => List.mem_append_left _ hh)⟩, f5⟩
        · refine ⟨e.sum, rfl, by simp, ?_, ?_, ?_⟩
          · rw [List.nodup_append]
            refine ⟨?_, by simp, ?_⟩
            · cases hf : m.find? [e.sum] with
              | none => simp
              | some w =>
                obtain ⟨d, f1, f2, f3, -⟩ := h2.form _ (FFMap.find?_mem hf)
                exact f3
            · intro x hx y hy hxy
              obtain ⟨u, hu, -, hu2⟩ := hold x hx
              obtain ⟨d, f1, f2, f3, f4, -⟩ := h2.form u hu
              rw [List.mem_singleton] at hy
              have := (f4 x (by rw [hu2]; exact hx)).2
              rw [hxy, hy] at this
              exact this.elim hfresh.1 hfresh.2
          · intro x hx
            rcases List.mem_append.mp hx with hx | hx
            · obtain ⟨u, hu, hu1, hu2⟩ := hold x hx
              obtain ⟨d, f1, f2, f3, f4, -⟩ := h2.form u hu
              have hd : e.sum = d := by rw [hu1] at f1; simpa using f1
              obtain ⟨g1, g2⟩ := f4 x (by rw [hu2]; exact hx)
              exact ⟨by rw [g1, hd], g2.imp id (fun hh => List.mem_append_left _ hh)⟩
            · rw [List.mem_singleton.mp hx]
              exact ⟨rfl, Or.inr (by simp)⟩
          · rintro ⟨c1, c2⟩
            exact hc ⟨c1, zero_of_sum hen c2⟩
      · intro x hx hx2
        by_cases hxe : x = e
        · rw [hxe]
          exact ⟨_, FFMap.find?_mem (by rw [FFMap.find?_set, if_pos rfl]), rfl, by simp⟩
        · obtain ⟨u, hu, g1, g2⟩ := h2.cover x (by
            rcases hx with hx | hx
            · exact Or.inl hx
            · rcases List.mem_append.mp hx with hx | hx
              · exact Or.inr hx
              · exact absurd (List.mem_singleton.mp hx) hxe) hx2
          by_cases hk : x.sum = e.sum
          · refine ⟨_, FFMap.find?_mem (by rw [FFMap.find?_set, if_pos rfl]), by rw [hk], ?_⟩
            have : m.find? u.1 = some u.2 := FFMap.find?_of_mem h2.keys hu
            rw [g1, hk] at this
            rw [this]
            exact List.mem_append_left _ g2
          · refine ⟨u, ?_, g1, g2⟩
            have : (m.set [e.sum] ((m.find? [e.sum]).getD [] ++ [e])).find? u.1 = some u.2 := by
              rw [FFMap.find?_set, if_neg (by rw [g1]; simpa using hk)]
              exact FFMap.find?_of_mem h2.keys hu
            exact FFMap.find?_mem this

lemma allTerms_spec (h : PriorOK n sh a Q const p) : AllInv n const p p.known (allTerms n const p) := AllInv.fold h p.known [] _ rfl (AllInv.start h)

/-! ### the degree with most terms -/

lemma most_fold : ∀ (l m : FFMap (List (List ℕ))) (b : ℕ × ℕ), (∀ u ∈ l, ∃ d, u.1 = [d] ∧ u.2 ≠ []) →
    (b.2 = 0 ∨ ∃ u ∈ m, u.1 = [b.1] ∧ u.2.length = b.2) → (∀ u ∈ m, u.2.length ≤ b.2) →
    ((l.foldl (fun (b : ℕ × ℕ) el => if b.2 < el.2.length ∨ (el.2.length = b.2 ∧ b.1 < el.1.getD 0 0) then (el.1.getD 0 0, el.2.length) else b) b).2 = 0 ∨
      ∃ u ∈ m ++ l, u.1 = [(l.foldl (fun (b : ℕ × ℕ) el => if b.2 < el.2.length ∨ (el.2.length = b.2 ∧ b.1 < el.1.getD 0 0) then (el.1.getD 0 0, el.2.length) else b) b).1] ∧
        u.2.length = (l.foldl (fun (b : ℕ × ℕ) el => if b.2 < el.2.length ∨ (el.2.length = b.2 ∧ b.1 < el.1.getD 0 0) then (el.1.getD 0 0, el.2.length) else b) b).2) ∧
    ∀ u ∈ m ++ l, u.2.length ≤ (l.foldl (fun (b : ℕ × ℕ) el => if b.2 < el.2.length ∨ (el.2.length = b.2 ∧ b.1 < el.1.getD 0 0) then (el.1.getD 0 0, el.2.length) else b) b).2 := by
  intro l
  induction l with
  | nil => intro m b _ h2 h3; rw [List.append_nil, List.foldl_nil]; exact ⟨h2, h3⟩
  | cons u l ih =>
    intro m b h1 h2 h3
    rw [List.foldl_cons, show m ++ u :: l = (m ++ [u]) ++ l by simp]
    apply ih _ _ (fun x hx => h1 x (List.mem_cons_of_mem _ hx))
    · split
      · right
        obtain ⟨d, f1, f2⟩ := h1 u (by simp)
        exact ⟨u, by simp, by rw [f1]; rfl, rfl⟩
      · exact h2.imp id (fun ⟨x, g1, g2⟩ => ⟨x, List.mem_append_left _ g1, g2⟩)
    · intro x hx
      rcases List.mem_append.mp hx with hx | hx
      · have := h3 x hx
        split
        · rename_i hc; simp only; omega
        · exact this
      · rw [List.mem_singleton.mp hx]
        split
        · exact le_rfl
        · rename_i hc; omega

lemma mostTerms_spec {m : FFMap (List (List ℕ))} (h : ∀ u ∈ m, ∃ d, u.1 = [d] ∧ u.2 ≠ []) (hne : m ≠ []) :
    1 ≤ (mostTerms m).2 ∧ (∃ u ∈ m, u.1 = [(mostTerms m).1] ∧ u.2.length = (mostTerms m).2) ∧ ∀ u ∈ m, u.2.length ≤ (mostTerms m).2 := by
  obtain ⟨h1, h2⟩ := most_fold m [] (0, 0) h (Or.inl rfl) (by simp)
  rw [List.nil_append] at h1 h2
  obtain ⟨u, hu⟩ := List.exists_mem_of_ne_nil _ hne
  obtain ⟨d, f1, f2⟩ := h u hu
  have : 1 ≤ (mostTerms m).2 := le_trans (List.length_pos_iff.mpr f2) (h2 u hu)
  refine ⟨this, h1.resolve_left ?_, h2⟩
  unfold mostTerms at this
  omega

/-! ### what is asked -/

/-- what is asked in a degree -/
def Want (n : ℕ) (sh : List F) (Q : MvPolynomial ℕ F) (p : Prior) (dense : List ℕ) (M d : ℕ) (es : List (List ℕ)) : Prop :=
  (d ∈ dense ∧ es.length < M ∧ (∀ e ∈ es, e.length = n ∧ e.sum = d) ∧ ∀ x, coeff x (RMulti.part sh Q d) ≠ 0 → ∃ e ∈ es, e.toFinsupp = x) ∨
  (d ∉ dense ∧ es.length ≤ M ∧ (∀ e ∈ es, e.length = n) ∧ (d ∈ p.zeros ∨ ((∀ e ∈ es, e.sum = d) ∧ ∀ x, coeff x (homogeneousComponent d Q) ≠ 0 → ∃ e ∈ es, e.toFinsupp = x)))

/-- `set_singular_system_vars` -/
structure Set (n : ℕ) (sh a : List F) (Q : MvPolynomial ℕ F) (const : Bool) (p : Prior) (S : Side F) : Prop where
  keys : (S.unsolved.map Prod.fst).Nodup
  form : ∀ u ∈ S.unsolved, ∃ d, u.1 = [d] ∧ d ∈ asked n const p ∧ u.2 ≠ [] ∧ (u.2.map (vdmBase a)).Nodup ∧ Want n sh Q p S.dense S.most.2 d u.2
  cover : ∀ d ∈ asked n const p, [d] ∈ S.unsolved.map Prod.fst
  most : S.unsolved ≠ [] → 1 ≤ S.most.2 ∧ S.most.1 ∉ S.dense ∧ ∃ u ∈ S.unsolved, u.1 = [S.most.1] ∧ u.2.length = S.most.2
  matKeys : (S.mat.map Prod.fst).Nodup
  mat : ∀ x ∈ S.mat, x.1 ∈ S.unsolved.map Prod.fst ∧ x.2 = []
  sub : S.sub = zeroSub n p.maxDeg
  solved : S.solved = []
  count : S.count = 0
  wid : S.most.2 ≤ width const p

/-- the state of the loop over the degrees -/
structure SetInv (n : ℕ) (sh a : List F) (Q : MvPolynomial ℕ F) (const : Bool) (p : Prior) (all : FFMap (List (List ℕ))) (k : ℕ) (S : Side F) : Prop where
  most : S.most = mostTerms all
  dense : ∀ d ∈ S.dense, d < k ∧ d ≠ S.most.1
  keys : (S.unsolved.map Prod.fst).Nodup
  form : ∀ u ∈ S.unsolved, ∃ d, u.1 = [d] ∧ d ∈ asked n const p ∧ u.2 ≠ [] ∧ (u.2.map (vdmBase a)).Nodup ∧ Want n sh Q p S.dense S.most.2 d u.2
  same : ∀ d, k ≤ d ∨ d = S.most.1 → S.unsolved.find? [d] = all.find? [d]
  old : ∀ d, [d] ∈ all.map Prod.fst → [d] ∈ S.unsolved.map Prod.fst
  new : ∀ d < k, p.shifts d ≠ [] → ¬ (const = true ∧ d = 0) → [d] ∈ S.unsolved.map Prod.fst
  matKeys : (S.mat.map Prod.fst).Nodup
  mat : ∀ x ∈ S.mat, x.1 ∈ S.unsolved.map Prod.fst ∧ x.2 = []
  solved : S.solved = []
  count : S.count = 0

lemma base_nodup (ha : a.length + 1 = n) (h : PriorOK n sh a Q const p) {d : ℕ} {es : List (List ℕ)} (hnd : es.Nodup) (hm : ∀ e ∈ es, e ∈ exps p ++ p.shifts d) (hs : ∀ e ∈ es, e.length = n ∧ e.sum = d) :
    (es.map (vdmBase a)).Nodup := by
  apply List.Nodup.map_on _ hnd
  intro x hx y hy hxy
  apply h.distinct d x (hm x hx) y (hm y hy) (hs x hx).2 (hs y hy).2
  rw [RLater.eval_dir_mono ha (hs x hx).1, RLater.eval_dir_mono ha (hs y hy).1, hxy]

/-- the terms of a degree -/
lemma all_form (h : PriorOK n sh a Q const p) {u : List ℕ × List (List ℕ)} (hu : u ∈ allTerms n const p) :
    ∃ d, u.1 = [d] ∧ d ∈ asked n const p ∧ u.2 ≠ [] ∧ u.2.Nodup ∧ (∀ e ∈ u.2, e ∈ exps p ∧ e.length = n ∧ e.sum = d) ∧ ∀ x, coeff x (homogeneousComponent d Q) ≠ 0 → ∃ e ∈ u.2, e.toFinsupp = x := by
  have hA := allTerms_spec h
  obtain ⟨d, f1, f2, f3, f4, f5⟩ := hA.form u hu
  have hex : ∀ e ∈ u.2, e ∈ exps p := fun e he => by
    unfold exps
    exact List.mem_append.mpr (f4 e he).2
  refine ⟨d, f1, ?_, f2, f3, fun e he => ⟨hex e he, h.length e (hex e he), (f4 e he).1⟩, ?_⟩
  · obtain ⟨e, he⟩ := List.exists_mem_of_ne_nil _ f2
    unfold asked
    rw [Finset.mem_filter, Finset.mem_range]
    have := h.le e (hex e he)
    rw [(f4 e he).1] at this
    exact ⟨by omega, Or.inl (List.mem_map.mpr ⟨e, hex e he, (f4 e he).1⟩), f5⟩
  · intro x hx
    rw [coeff_homogeneousComponent] at hx
    split at hx
    · rename_i hd
      obtain ⟨e, he, rfl⟩ := h.support x hx
      rw [toFinsupp_degree] at hd
      obtain ⟨w, hw, g1, g2⟩ := hA.cover e (List.mem_append.mp he) (by
        rintro ⟨c1, c2⟩
        apply f5
        refine ⟨c1, ?_⟩
        rw [← hd, c2]; simp)
      have : w.2 = u.2 := by
        have e1 := FFMap.find?_of_mem hA.keys hw
        have e2 := FFMap.find?_of_mem hA.keys hu
        rw [g1, hd, ← f1, e2] at e1
        exact (Option.some.inj e1).symm
      exact ⟨e, this ▸ g2, rfl⟩
    · exact absurd rfl hx

lemma hc_none (h : PriorOK n sh a Q const p) {d : ℕ} (hd : d ∉ (exps p).map List.sum) : homogeneousComponent d Q = 0 := by
  ext x
  rw [coeff_zero]
  by_contra hx
  rw [coeff_homogeneousComponent] at hx
  split at hx
  · rename_i h1
    obtain ⟨e, he, rfl⟩ := h.support x hx
    rw [toFinsupp_degree] at h1
    exact hd (List.mem_map.mpr ⟨e, he, h1⟩)
  · exact hx rfl

lemma part_supp (h : PriorOK n sh a Q const p) {d : ℕ} (hd : d ≤ p.maxDeg) {x : ℕ →₀ ℕ} (hx : coeff x (RMulti.part sh Q d) ≠ 0) :
    coeff x (homogeneousComponent d Q) ≠ 0 ∨ ∃ e ∈ p.shifts d, e.toFinsupp = x := by
  by_cases h0 : coeff x (homogeneousComponent d Q) = 0
  · right
    apply h.shifts d hd
    rw [coeff_sub, h0, sub_zero]
    exact hx
  · exact Or.inl h0

lemma Want.mono {dense : List ℕ} {M d i : ℕ} {es : List (List ℕ)} (h : Want n sh Q p dense M d es) (hd : d ≠ i) : Want n sh Q p (dense ++ [i]) M d es := by
  rcases h with ⟨h1, h2⟩ | ⟨h1, h2⟩
  · exact Or.inl ⟨List.mem_append_left _ h1, h2⟩
  · refine Or.inr ⟨?_, h2⟩
    intro hm
    rcases List.mem_append.mp hm with hm | hm
    · exact h1 hm
    · exact hd (List.mem_singleton.mp hm)

lemma SetInv.start (ha : a.length + 1 = n) (h : PriorOK n sh a Q const p) :
    SetInv n sh a Q const p (allTerms n const p) 0 { unsolved := allTerms n const p, mat := (allTerms n const p).map (fun t => (t.1, [])), most := mostTerms (allTerms n const p) } := by
  have hA := allTerms_spec h
  refine ⟨rfl, by simp, hA.keys, ?_, fun _ _ => rfl, fun _ h => h, by simp, ?_, ?_, rfl, rfl⟩
  · intro u hu
    obtain ⟨d, f1, f2, f3, f4, f5, f6⟩ := all_form h hu
    refine ⟨d, f1, f2, f3, base_nodup ha h f4 (fun e he => List.mem_append_left _ (f5 e he).1) (fun e he => (f5 e he).2), Or.inr ⟨by simp, ?_, fun e he => (f5 e he).2.1, Or.inr ⟨fun e he => (f5 e he).2.2, f6⟩⟩⟩
    refine (mostTerms_spec (fun w hw => ?_) (List.ne_nil_of_mem hu)).2.2 u hu
    obtain ⟨d, f1, f2, f3, f4, f5, f6⟩ := all_form h hw
    exact ⟨d, f1, f3⟩
  · show (((allTerms n const p).map (fun t => (t.1, ([] : List F)))).map Prod.fst).Nodup
    rw [List.map_map]; exact hA.keys
  · intro x hx
    obtain ⟨u, hu, rfl⟩ := List.mem_map.mp hx
    exact ⟨List.mem_map_of_mem hu, rfl⟩

lemma nodup_set {V : Type} {m : FFMap V} (h : (m.map Prod.fst).Nodup) (k : List ℕ) (v : V) : ((m.set k v).map Prod.fst).Nodup := by
  rw [keys_set]
  split
  · exact h
  · rename_i hn
    rw [List.nodup_append]
    refine ⟨h, by simp, ?_⟩
    intro x hx y hy hxy
    rw [List.mem_singleton] at hy
    rw [hxy, hy] at hx
    exact hn hx

lemma mem_keys_set {V : Type} (m : FFMap V) (k : List ℕ) (v : V) (x : List ℕ) : x ∈ (m.set k v).map Prod.fst ↔ x ∈ m.map Prod.fst ∨ x = k := by
  rw [keys_set]
  split
  · rename_i h
    constructor
    · exact Or.inl
    · rintro (h1 | rfl)
      · exact h1
      · exact h
  · simp

lemma mem_set_key {V : Type} {m : FFMap V} (h : (m.map Prod.fst).Nodup) {k : List ℕ} {v : V} {x : List ℕ × V} (hx : x ∈ m.set k v) : (x ∈ m ∧ x.1 ≠ k) ∨ x = (k, v) := by
  by_cases hk : x.1 = k
  · right
    have h1 := FFMap.find?_of_mem (nodup_set h k v) hx
    rw [FFMap.find?_set, if_pos hk] at h1
    exact Prod.ext hk (Option.some.inj h1).symm
  · rcases mem_set hx with hx | rfl
    · exact Or.inl ⟨hx, hk⟩
    · exact absurd rfl hk

/-- a degree gets a new list -/
lemma SetInv.put {all : FFMap (List (List ℕ))} {i : ℕ} {S : Side F} (h : SetInv n sh a Q const p all i S) (hi : i ≠ S.most.1) {es : List (List ℕ)} {dense : List ℕ} {mat : FFMap (List F)}
    (hd : dense = S.dense ∨ dense = S.dense ++ [i]) (hm : mat = S.mat ∨ mat = S.mat.set [i] [])
    (h1 : i ∈ asked n const p) (h2 : es ≠ []) (h3 : (es.map (vdmBase a)).Nodup) (h4 : Want n sh Q p dense S.most.2 i es) :
    SetInv n sh a Q const p all (i + 1) { S with dense := dense, unsolved := S.unsolved.set [i] es, mat := mat } := by
  refine ⟨h.most, ?_, nodup_set h.keys _ _, ?_, ?_, ?_, ?_, ?_, ?_, h.solved, h.count⟩
  · intro d hdm
    rcases hd with rfl | rfl
    · exact ⟨Nat.lt_succ_of_lt (h.dense d hdm).1, (h.dense d hdm).2⟩
    · rcases List.mem_append.mp hdm with hdm | hdm
      · exact ⟨Nat.lt_succ_of_lt (h.dense d hdm).1, (h.dense d hdm).2⟩
      · rw [List.mem_singleton.mp hdm]
        exact ⟨Nat.lt_succ_self i, hi⟩
  · intro u hu
    rcases mem_set_key h.keys hu with ⟨hu, hne⟩ | rfl
    · obtain ⟨d, f1, f2, f3, f4, f5⟩ := h.form u hu
      have : d ≠ i := by rintro rfl; exact hne f1
      refine ⟨d, f1, f2, f3, f4, ?_⟩
      rcases hd with rfl | rfl
      · exact f5
      · exact f5.mono this
    · exact ⟨i, rfl, h1, h2, h3, h4⟩
  · intro d hdm
    show (S.unsolved.set [i] es).find? [d] = _
    rw [FFMap.find?_set, if_neg]
    · apply h.same
      rcases hdm with hdm | hdm
      · exact Or.inl (by omega)
      · exact Or.inr hdm
    · intro e
      have e : d = i := by simpa using e
      rcases hdm with hdm | hdm
      · omega
      · exact hi (e.symm.trans hdm)
  · intro d hdm
    exact (mem_keys_set _ _ _ _).mpr (Or.inl (h.old d hdm))
  · intro d hdm g1 g2
    apply (mem_keys_set _ _ _ _).mpr
    by_cases hdi : d = i
    · right; rw [hdi]
    · exact Or.inl (h.new d (by omega) g1 g2)
  · rcases hm with rfl | rfl
    · exact h.matKeys
    · exact nodup_set h.matKeys _ _
  · intro x hx
    have hx' : x ∈ S.mat ∨ x = ([i], []) := by
      rcases hm with rfl | rfl
      · exact Or.inl hx
      · exact mem_set hx
    rcases hx' with hx' | rfl
    · exact ⟨(mem_keys_set _ _ _ _).mpr (Or.inl (h.mat x hx').1), (h.mat x hx').2⟩
    · exact ⟨(mem_keys_set _ _ _ _).mpr (Or.inr rfl), rfl⟩

lemma SetInv.next {all : FFMap (List (List ℕ))} {i : ℕ} {S : Side F} (h : SetInv n sh a Q const p all i S) (hi : p.shifts i ≠ [] → ¬ (const = true ∧ i = 0) → [i] ∈ S.unsolved.map Prod.fst) :
    SetInv n sh a Q const p all (i + 1) S := by
  refine ⟨h.most, fun d hd => ⟨Nat.lt_succ_of_lt (h.dense d hd).1, (h.dense d hd).2⟩, h.keys, h.form, ?_, h.old, ?_, h.matKeys, h.mat, h.solved, h.count⟩
  · rintro d (hd | hd)
    · exact h.same d (Or.inl (by omega))
    · exact h.same d (Or.inr hd)
  · intro d hd g1 g2
    by_cases hdi : d = i
    · rw [hdi] at g1 g2 ⊢; exact hi g1 g2
    · exact h.new d (by omega) g1 g2

lemma SetInv.step (ha : a.length + 1 = n) (hp : PriorOK n sh a Q const p) (hne : allTerms n const p ≠ []) {i : ℕ} (him : i ≤ p.maxDeg) {S : Side F} (h : SetInv n sh a Q const p (allTerms n const p) i S) :
    SetInv n sh a Q const p (allTerms n const p) (i + 1) (setDeg n const p S i) := by
  have hA := allTerms_spec hp
  have hM := mostTerms_spec (fun w hw => by
    obtain ⟨d, f1, f2, f3, -⟩ := all_form hp hw
    exact ⟨d, f1, f3⟩) hne
  rw [← h.most] at hM
  unfold setDeg
  by_cases h1 : i = S.most.1
  · rw [if_pos h1]
    apply h.next
    intro _ _
    obtain ⟨u, hu, hu1, -⟩ := hM.2.1
    apply h.old
    rw [h1, ← hu1]
    exact List.mem_map_of_mem hu
  · rw [if_neg h1]
    have hsame := h.same i (Or.inl le_rfl)
    have hni : i ∉ S.dense := fun hh => absurd (h.dense i hh).1 (lt_irrefl i)
    obtain ⟨sn, sf⟩ := hp.shiftForm i
    cases hf : S.unsolved.find? [i] with
    | some l =>
      simp only
      rw [hsame] at hf
      obtain ⟨d, f1, f2, f3, f4, f5, f6⟩ := all_form hp (FFMap.find?_mem hf)
      have : d = i := by simpa using f1.symm
      subst this
      simp only at f3 f4 f5 f6
      split
      · rename_i hl
        apply h.put h1 (Or.inr rfl) (Or.inl rfl) f2
        · intro e; exact f3 (List.append_eq_nil_iff.mp e).1
        · apply base_nodup ha hp (d := d)
          · rw [List.nodup_append]
            refine ⟨f4, sn.filter _, ?_⟩
            intro x hx y hy hxy
            have := (List.mem_filter.mp hy).2
            simp only [decide_eq_true_eq] at this
            exact this.1 (hxy ▸ hx)
          · intro e he
            rcases List.mem_append.mp he with he | he
            · exact List.mem_append_left _ (f5 e he).1
            · exact List.mem_append_right _ (List.mem_filter.mp he).1
          · intro e he
            rcases List.mem_append.mp he with he | he
            · exact (f5 e he).2
            · exact sf e (List.mem_filter.mp he).1
        · refine Or.inl ⟨by simp, hl.2, ?_, ?_⟩
          · intro e he
            rcases List.mem_append.mp he with he | he
            · exact (f5 e he).2
            · exact sf e (List.mem_filter.mp he).1
          · intro x hx
            rcases part_supp hp him hx with hx | ⟨e, he, hx⟩
            · obtain ⟨e, he, hx⟩ := f6 x hx
              exact ⟨e, List.mem_append_left _ he, hx⟩
            · by_cases hel : e ∈ l
              · exact ⟨e, List.mem_append_left _ hel, hx⟩
              · refine ⟨e, List.mem_append_right _ (List.mem_filter.mpr ⟨he, ?_⟩), hx⟩
                rw [decide_eq_true_eq]
                refine ⟨hel, ?_⟩
                rintro rfl
                have hd0 : d = 0 := by have := (sf _ he).2; simpa using this.symm
                obtain ⟨x', hx'⟩ := List.exists_mem_of_ne_nil _ f3
                apply hel
                rw [← zero_of_sum (f5 x' hx').2.1 (by rw [(f5 x' hx').2.2, hd0])]
                exact hx'
      · apply h.next
        intro _ _
        apply h.old
        exact List.mem_map_of_mem (f := Prod.fst) (FFMap.find?_mem hf)
    | none =>
      simp only
      rw [hsame] at hf
      have hnone : i ∉ (exps p).map List.sum ∨ (const = true ∧ i = 0) := by
        by_contra hh
        rw [not_or, not_not] at hh
        obtain ⟨⟨e, he, hs⟩, hc⟩ := (⟨List.mem_map.mp hh.1, hh.2⟩ : _ ∧ _)
        obtain ⟨w, hw, g1, -⟩ := hA.cover e (List.mem_append.mp he) (by
          rintro ⟨c1, c2⟩
          apply hc
          refine ⟨c1, ?_⟩
          rw [← hs, c2]; simp)
        rw [FFMap.find?_eq_none] at hf
        apply hf
        rw [← hs, ← g1]
        exact List.mem_map_of_mem hw
      split
      · rename_i hc
        apply h.next
        intro g1 g2
        exact absurd hc (not_or.mpr ⟨g2, g1⟩)
      · rename_i hc
        rw [not_or] at hc
        have hno := hnone.resolve_right hc.1
        have hask : i ∈ asked n const p := by
          unfold asked
          rw [Finset.mem_filter, Finset.mem_range]
          exact ⟨by omega, Or.inr hc.2, hc.1⟩
        have hc0 := hc_none hp hno
        split
        · rename_i hl
          have hes : (if i ≠ 0 then (p.shifts i).filter (fun e => decide (e ≠ List.replicate n 0)) else p.shifts i) = p.shifts i := by
            split
            · rename_i hi0
              apply List.filter_eq_self.mpr
              intro e he
              rw [decide_eq_true_eq]
              rintro rfl
              apply hi0
              have := (sf _ he).2
              simpa using this.symm
            · rfl
          rw [hes]
          apply h.put h1 (Or.inr rfl) (Or.inr rfl) hask hc.2
          · exact base_nodup ha hp sn (fun e he => List.mem_append_right _ he) sf
          · refine Or.inl ⟨by simp, hl, sf, ?_⟩
            intro x hx
            rcases part_supp hp him hx with hx | hx
            · rw [hc0, coeff_zero] at hx; exact absurd rfl hx
            · exact hx
        · have := h.put h1 (es := [List.replicate n 0]) (dense := S.dense) (mat := S.mat) (Or.inl rfl) (Or.inl rfl) hask (by simp) (by simp) (Or.inr ⟨hni, by simpa using hM.1, by simp, Or.inl (hp.zeros i him hno hc.2)⟩)
          exact this

lemma setFold (ha : a.length + 1 = n) (hp : PriorOK n sh a Q const p) (hne : allTerms n const p ≠ []) : ∀ k ≤ p.maxDeg + 1,
    SetInv n sh a Q const p (allTerms n const p) k ((List.range k).foldl (setDeg n const p) { unsolved := allTerms n const p, mat := (allTerms n const p).map (fun t => (t.1, [])), most := mostTerms (allTerms n const p) }) := by
  intro k
  induction k with
  | zero => intro _; exact SetInv.start ha hp
  | succ k ih =>
    intro hk
    rw [List.range_succ, List.foldl_append, List.foldl_cons, List.foldl_nil]
    exact (ih (by omega)).step ha hp hne (by omega)

lemma all_width (h : PriorOK n sh a Q const p) {u : List ℕ × List (List ℕ)} (hu : u ∈ allTerms n const p) : u.2.length ≤ width const p := by
  obtain ⟨d, f1, f2, f3, f4, f5, f6⟩ := all_form h hu
  unfold asked at f2
  rw [Finset.mem_filter] at f2
  refine le_trans ?_ (Finset.le_sup (f := fun k => ((exps p).filter (fun e => decide (e.sum = k ∧ ¬ (const = true ∧ k = 0)))).length) f2.1)
  apply (List.Nodup.subperm f4 _).length_le
  intro e he
  rw [List.mem_filter]
  refine ⟨(f5 e he).1, ?_⟩
  rw [decide_eq_true_eq]
  exact ⟨(f5 e he).2.2, f2.2.2⟩

lemma setSide_spec (ha : a.length + 1 = n) (hp : PriorOK n sh a Q const p) : Set n sh a Q const p (setSide (F := F) n const p) := by
  by_cases hne : allTerms n const p = []
  · -- only the constant, which is normalized
    have hA := allTerms_spec hp
    obtain ⟨e, he, hs⟩ := List.mem_map.mp hp.lead
    have hz : const = true ∧ e = List.replicate n 0 := by
      by_contra hh
      obtain ⟨w, hw, -⟩ := hA.cover e (List.mem_append.mp he) hh
      rw [hne] at hw; simp at hw
    have hm : p.maxDeg = 0 := by rw [← hs, hz.2]; simp
    have h0 : setSide (F := F) n const p = { sub := zeroSub n p.maxDeg } := by
      unfold setSide
      simp only [hne, hm]
      have hr : List.range (0 + 1) = [0] := rfl
      have : setDeg (F := F) n const p { mat := List.map (fun t : List ℕ × List (List ℕ) => (t.1, ([] : List F))) [], most := mostTerms [] } 0 = {} := by
        unfold setDeg
        rw [if_pos (by rfl)]; rfl
      rw [hr, List.foldl_cons, List.foldl_nil, this]
    rw [h0]
    refine ⟨by simp, by simp, ?_, by simp, by simp, by simp, rfl, rfl, rfl, Nat.zero_le _⟩
    intro d hd
    unfold asked at hd
    rw [Finset.mem_filter, Finset.mem_range, hm] at hd
    exact absurd ⟨hz.1, by omega⟩ hd.2.2
  · have hM := mostTerms_spec (fun w hw => by
      obtain ⟨d, f1, f2, f3, -⟩ := all_form hp hw
      exact ⟨d, f1, f3⟩) hne
    have h := setFold (F := F) ha hp hne (p.maxDeg + 1) le_rfl
    unfold setSide
    obtain ⟨S, hS⟩ : ∃ S : Side F, S = (List.range (p.maxDeg + 1)).foldl (setDeg n const p) { unsolved := allTerms n const p, mat := (allTerms n const p).map (fun t => (t.1, [])), most := mostTerms (allTerms n const p) } := ⟨_, rfl⟩
    rw [← hS] at h
    simp only
    rw [← hS]
    rw [← h.most] at hM
    refine ⟨h.keys, h.form, ?_, ?_, h.matKeys, h.mat, rfl, h.solved, h.count, ?_⟩
    · intro d hd
      unfold asked at hd
      rw [Finset.mem_filter, Finset.mem_range] at hd
      rcases hd.2.1 with hd1 | hd1
      · obtain ⟨e, he, hs⟩ := List.mem_map.mp hd1
        obtain ⟨w, hw, g1, -⟩ := (allTerms_spec hp).cover e (List.mem_append.mp he) (by
          rintro ⟨c1, c2⟩
          apply hd.2.2
          refine ⟨c1, ?_⟩
          rw [← hs, c2]; simp)
        apply h.old
        rw [← hs, ← g1]
        exact List.mem_map_of_mem hw
      · exact h.new d hd.1 hd1 hd.2.2
    · intro _
      refine ⟨hM.1, fun hh => (h.dense _ hh).2 rfl, ?_⟩
      obtain ⟨u, hu, h1, h2⟩ := hM.2.1
      refine ⟨u, ?_, h1, h2⟩
      have := h.same S.most.1 (Or.inr rfl)
      rw [← h1, FFMap.find?_of_mem (allTerms_spec hp).keys hu] at this
      exact FFMap.find?_mem this
    · obtain ⟨u, hu, h1, h2⟩ := hM.2.1
      rw [← h2]
      exact all_width hp hu

end FireFly.RShift
