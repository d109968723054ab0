import Verif.Model.PolyFF
import Verif.Spec.Poly
namespace FireFly
open MvPolynomial
variable {F : Type}

lemma toFinsupp_inj {n : ℕ} {a b : List ℕ} (ha : a.length = n) (hb : b.length = n)
    (h : a.toFinsupp = b.toFinsupp) : a = b := by
  apply List.ext_getElem (by omega)
  intro i h1 h2
  have := DFunLike.congr_fun h i
  simpa [List.getD_eq_getElem, h1, h2] using this

namespace FFMap

lemma find?_eq_none {m : FFMap F} {k : List ℕ} : m.find? k = none ↔ k ∉ m.map Prod.fst := by
  unfold find?
  induction m with
  | nil => simp
  | cons t m ih =>
    obtain ⟨k', v⟩ := t
    rw [List.lookup_cons]
    by_cases h : k = k'
    · subst h; simp
    · have : (k == k') = false := by simpa using h
      simp [this, ih, h]

lemma find?_mem {m : FFMap F} {k : List ℕ} {v : F} (h : m.find? k = some v) : (k, v) ∈ m := by
  unfold find? at h
  induction m with
  | nil => simp at h
  | cons t m ih =>
    obtain ⟨k', v'⟩ := t
    rw [List.lookup_cons] at h
    by_cases hk : k = k'
    · subst hk; simp at h; simp [h]
    · have : (k == k') = false := by simpa using hk
      simp [this] at h
      simp [ih h]

lemma find?_of_mem {m : FFMap F} {k : List ℕ} {v : F} (hnd : (m.map Prod.fst).Nodup)
    (h : (k, v) ∈ m) : m.find? k = some v := by
  unfold find?
  induction m with
  | nil => simp at h
  | cons t m ih =>
    obtain ⟨k', v'⟩ := t
    rw [List.lookup_cons]
    rw [List.map_cons, List.nodup_cons] at hnd
    rcases List.mem_cons.mp h with h2 | h2
    · cases h2; simp
    · have hne : k ≠ k' := by
        rintro rfl
        exact hnd.1 (List.mem_map.mpr ⟨_, h2, rfl⟩)
      have : (k == k') = false := by simpa using hne
      simp [this, ih hnd.2 h2]

lemma find?_append (m₁ m₂ : FFMap F) (k : List ℕ) :
    FFMap.find? (m₁ ++ m₂) k = (FFMap.find? m₁ k).or (FFMap.find? m₂ k) := by
  unfold find?
  induction m₁ with
  | nil => simp
  | cons t m ih =>
    obtain ⟨k', v⟩ := t
    rw [List.cons_append, List.lookup_cons, List.lookup_cons]
    split
    · simp
    · exact ih

lemma find?_cons (k' : List ℕ) (v : F) (m : FFMap F) (k : List ℕ) :
    FFMap.find? ((k', v) :: m) k = if k = k' then some v else FFMap.find? m k := by
  unfold find?
  rw [List.lookup_cons]
  by_cases h : k = k'
  · simp [h]
  · have : (k == k') = false := by simpa using h
    simp [this, h]

@[simp] lemma find?_nil (k : List ℕ) : FFMap.find? ([] : FFMap F) k = none := rfl

lemma find?_single (k' : List ℕ) (v : F) (k : List ℕ) :
    FFMap.find? [(k', v)] k = if k = k' then some v else none := by
  rw [find?_cons]; simp

lemma find?_emplace (m : FFMap F) (k' : List ℕ) (v : F) (k : List ℕ) :
    (m.emplace k' v).find? k = if k = k' then some ((m.find? k).getD v) else m.find? k := by
  unfold emplace
  split
  · rename_i h
    obtain ⟨w, hw⟩ := Option.isSome_iff_exists.mp h
    split
    · rename_i hk; subst hk; rw [hw]; rfl
    · rfl
  · rename_i h
    rw [Option.not_isSome_iff_eq_none] at h
    rw [find?_append, find?_single]
    split
    · rename_i hk; subst hk; rw [h]; rfl
    · simp

lemma find?_map_update (m : FFMap F) (k' : List ℕ) (v : F) (k : List ℕ) :
    FFMap.find? (m.map (fun t => if t.1 = k' then (k', v) else t)) k =
      if k = k' then (m.find? k).map (fun _ => v) else m.find? k := by
  induction m with
  | nil => simp
  | cons t m ih =>
    obtain ⟨k'', w⟩ := t
    rw [List.map_cons, find?_cons]
    by_cases h : k'' = k'
    · subst h
      simp only [if_true]
      rw [find?_cons, ih]
      by_cases hk : k = k''
      · simp [hk]
      · simp [hk]
    · simp only [h, if_false]
      rw [find?_cons, ih]
      by_cases hk : k = k'
      · subst hk
        have : ¬ k = k'' := fun h' => h h'.symm
        simp [this]
      · simp [hk]

lemma find?_set (m : FFMap F) (k' : List ℕ) (v : F) (k : List ℕ) :
    (m.set k' v).find? k = if k = k' then some v else m.find? k := by
  unfold set
  split
  · rename_i h
    obtain ⟨w, hw⟩ := Option.isSome_iff_exists.mp h
    rw [find?_map_update]
    split
    · rename_i hk; subst hk; rw [hw]; rfl
    · rfl
  · rename_i h
    rw [Option.not_isSome_iff_eq_none] at h
    rw [find?_append, find?_single]
    split
    · rename_i hk; subst hk; rw [h]; rfl
    · simp

lemma find?_erase (m : FFMap F) (k' : List ℕ) (k : List ℕ) :
    (m.erase k').find? k = if k = k' then none else m.find? k := by
  unfold erase
  induction m with
  | nil => simp
  | cons t m ih =>
    obtain ⟨k'', w⟩ := t
    rw [List.filter_cons, find?_cons]
    by_cases h : k'' = k'
    · subst h
      simp only [ne_eq, not_true_eq_false, decide_false, Bool.false_eq_true, if_false] at ih ⊢
      rw [ih]
      by_cases hk : k = k'' <;> simp [hk]
    · simp only [ne_eq, h, not_false_eq_true, decide_true, if_true]
      rw [find?_cons, ih]
      by_cases hk : k = k'
      · subst hk
        have : ¬ k = k'' := fun h' => h h'.symm
        simp [this]
      · simp [hk]

lemma keys_map_update (m : FFMap F) (k' : List ℕ) (v : F) :
    (m.map (fun t => if t.1 = k' then (k', v) else t)).map Prod.fst = m.map Prod.fst := by
  rw [List.map_map]
  apply List.map_congr_left
  intro t _
  simp only [Function.comp]
  split
  · rename_i h; exact h.symm
  · rfl

lemma keys_emplace (m : FFMap F) (k' : List ℕ) (v : F) :
    ((m.emplace k' v).map Prod.fst) = if k' ∈ m.map Prod.fst then m.map Prod.fst
      else m.map Prod.fst ++ [k'] := by
  unfold emplace
  by_cases h : k' ∈ m.map Prod.fst
  · have : m.find? k' ≠ none := fun hh => (find?_eq_none.mp hh) h
    rw [if_pos (Option.isSome_iff_ne_none.mpr this), if_pos h]
  · rw [find?_eq_none.mpr h, if_neg h]; simp

lemma keys_set (m : FFMap F) (k' : List ℕ) (v : F) :
    ((m.set k' v).map Prod.fst) = if k' ∈ m.map Prod.fst then m.map Prod.fst
      else m.map Prod.fst ++ [k'] := by
  unfold set
  by_cases h : k' ∈ m.map Prod.fst
  · have : m.find? k' ≠ none := fun hh => (find?_eq_none.mp hh) h
    rw [if_pos (Option.isSome_iff_ne_none.mpr this), if_pos h, keys_map_update]
  · rw [find?_eq_none.mpr h, if_neg h]; simp

end FFMap

open FFMap

lemma WFMap.nil {α : Type} (n : ℕ) : WFMap n ([] : List (List ℕ × α)) := ⟨by simp, by simp⟩

lemma wf_iff {n : ℕ} {m : FFMap F} :
    WFMap n m ↔ (m.map Prod.fst).Nodup ∧ ∀ k ∈ m.map Prod.fst, k.length = n := by
  unfold WFMap
  simp only [List.mem_map, forall_exists_index, and_imp, forall_apply_eq_imp_iff₂]

lemma WFMap.emplace {n : ℕ} {m : FFMap F} (h : WFMap n m) {k : List ℕ} (hk : k.length = n) (v : F) :
    WFMap n (m.emplace k v) := by
  rw [wf_iff] at h ⊢
  rw [keys_emplace]
  split
  · exact h
  · rename_i hnot
    refine ⟨List.nodup_append.mpr ⟨h.1, by simp, ?_⟩, ?_⟩
    · intro a ha b hb; simp only [List.mem_singleton] at hb; subst hb; rintro rfl; exact hnot ha
    · intro a ha
      rcases List.mem_append.mp ha with ha | ha
      · exact h.2 a ha
      · rw [List.mem_singleton.mp ha]; exact hk

lemma WFMap.set {n : ℕ} {m : FFMap F} (h : WFMap n m) {k : List ℕ} (hk : k.length = n) (v : F) :
    WFMap n (m.set k v) := by
  have := h.emplace hk v
  rw [wf_iff, keys_emplace, ← keys_set m k v, ← wf_iff] at this
  exact this

lemma WFMap.erase {n : ℕ} {m : FFMap F} (h : WFMap n m) (k : List ℕ) : WFMap n (m.erase k) := by
  unfold FFMap.erase
  refine ⟨h.1.sublist (List.Sublist.map _ List.filter_sublist), ?_⟩
  intro t ht
  exact h.2 t (List.mem_of_mem_filter ht)

section
variable [CommRing F]

@[simp] lemma denote_nil : denote ([] : FFMap F) = 0 := rfl
lemma denote_cons (t : List ℕ × F) (m : FFMap F) :
    denote (t :: m) = monomial t.1.toFinsupp t.2 + denote m := by simp [denote]
lemma denote_append (a b : FFMap F) : denote (a ++ b) = denote a + denote b := by simp [denote]
lemma denote_perm {a b : FFMap F} (h : a.Perm b) : denote a = denote b := by
  unfold denote; exact (h.map _).sum_eq

/-- coefficients of the denoted polynomial -/
lemma coeff_denote {n : ℕ} {m : FFMap F} (h : WFMap n m) {k : List ℕ} (hk : k.length = n) :
    coeff k.toFinsupp (denote m) = (m.find? k).getD 0 := by
  induction m with
  | nil => simp
  | cons t m ih =>
    obtain ⟨k', v⟩ := t
    have h' : WFMap n m := by
      rw [wf_iff] at h ⊢
      rw [List.map_cons, List.nodup_cons] at h
      exact ⟨h.1.2, fun a ha => h.2 a (by simp [ha])⟩
    rw [denote_cons, coeff_add, coeff_monomial, ih h', find?_cons]
    by_cases hkk : k = k'
    · subst hkk
      have : FFMap.find? m k = none := find?_eq_none.mpr (by
        have := h.1; rw [List.map_cons, List.nodup_cons] at this; exact this.1)
      simp [this]
    · have : ¬ k'.toFinsupp = k.toFinsupp := fun he =>
        hkk (toFinsupp_inj hk (h.2 (k', v) (by simp)) he.symm)
      simp [hkk, this]

lemma coeff_denote_other {n : ℕ} {m : FFMap F} (h : WFMap n m) {d : ℕ →₀ ℕ}
    (hd : ∀ k : List ℕ, k.length = n → k.toFinsupp ≠ d) : coeff d (denote m) = 0 := by
  induction m with
  | nil => simp
  | cons t m ih =>
    have h' : WFMap n m := by
      rw [wf_iff] at h ⊢
      rw [List.map_cons, List.nodup_cons] at h
      exact ⟨h.1.2, fun a ha => h.2 a (by simp [ha])⟩
    rw [denote_cons, coeff_add, coeff_monomial, ih h', if_neg (hd t.1 (h.2 t (by simp)))]
    simp

lemma denote_ext {n : ℕ} {m : FFMap F} (h : WFMap n m) {p : MvPolynomial ℕ F}
    (h1 : ∀ k : List ℕ, k.length = n → coeff k.toFinsupp p = (m.find? k).getD 0)
    (h2 : ∀ d : ℕ →₀ ℕ, (∀ k : List ℕ, k.length = n → k.toFinsupp ≠ d) → coeff d p = 0) :
    denote m = p := by
  ext d
  by_cases hd : ∃ k : List ℕ, k.length = n ∧ k.toFinsupp = d
  · obtain ⟨k, hk, rfl⟩ := hd
    rw [coeff_denote h hk, h1 k hk]
  · push Not at hd
    rw [coeff_denote_other h hd, h2 d hd]

lemma denote_lin {n : ℕ} {a b m : FFMap F} (ha : WFMap n a) (hb : WFMap n b) (h : WFMap n m)
    (c : F) (hc : ∀ k : List ℕ, k.length = n →
      (m.find? k).getD 0 = (a.find? k).getD 0 + c * (b.find? k).getD 0) :
    denote m = denote a + C c * denote b := by
  apply denote_ext h
  · intro k hk
    rw [coeff_add, coeff_C_mul, coeff_denote ha hk, coeff_denote hb hk, hc k hk]
  · intro d hd
    rw [coeff_add, coeff_C_mul, coeff_denote_other ha hd, coeff_denote_other hb hd]; simp

end

/-- folding a step that acts on one key at a time -/
lemma find?_foldl_step {step : FFMap F → List ℕ × F → FFMap F} {g : Option F → F → Option F}
    (hstep : ∀ m el k, (step m el).find? k = if k = el.1 then g (m.find? k) el.2 else m.find? k) :
    ∀ (b : FFMap F) (a : FFMap F) (k : List ℕ), (b.map Prod.fst).Nodup →
      FFMap.find? (b.foldl step a) k = match b.find? k with
        | none => a.find? k
        | some w => g (a.find? k) w
  | [], a, k, _ => by simp
  | (k', w) :: b, a, k, hnd => by
    rw [List.map_cons, List.nodup_cons] at hnd
    rw [List.foldl_cons, find?_foldl_step hstep b _ k hnd.2, find?_cons, hstep]
    by_cases h : k = k'
    · subst h
      rw [find?_eq_none.mpr hnd.1]; simp
    · simp [h]

lemma wf_foldl_step {n : ℕ} {step : FFMap F → List ℕ × F → FFMap F}
    (hstep : ∀ m el, WFMap n m → el.1.length = n → WFMap n (step m el)) :
    ∀ (b a : FFMap F), (∀ t ∈ b, t.1.length = n) → WFMap n a → WFMap n (b.foldl step a)
  | [], a, _, h => h
  | el :: b, a, hb, h => by
    rw [List.foldl_cons]
    exact wf_foldl_step hstep b _ (fun t ht => hb t (by simp [ht])) (hstep a el h (hb el (by simp)))

end FireFly
