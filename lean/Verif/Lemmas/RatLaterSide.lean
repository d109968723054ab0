import Verif.Spec.RatLater
import Verif.Props.VandermondeProps
import Verif.Props.PolyProps
import Verif.Props.CombineProps
import Verif.Lemmas.RatMultiRun
/-! # The further prime fields: the parts of the numerator or the denominator -/
set_option linter.all false
namespace FireFly.RLater
open MvPolynomial FFMap
variable {F : Type} [Field F] [DecidableEq F]

/-- the value of the asked part for the order vector `(o, …, o)` -/
noncomputable def pv (a : List F) (N : MvPolynomial ℕ F) (es : List (List ℕ)) (o : ℕ) : F := (es.map (fun e => coeff e.toFinsupp N * vdmBase a e ^ o)).sum

lemma eval_mono (x : ℕ → F) (e : List ℕ) (c : F) : eval x (monomial e.toFinsupp c) = c * ∏ i ∈ Finset.range e.length, x i ^ e.getD i 0 := by
  rw [eval_monomial]
  congr 1
  rw [Finsupp.prod_of_support_subset (s := Finset.range e.length)]
  · apply Finset.prod_congr rfl
    intro i hi
    simp
  · intro i hi
    by_contra h
    rw [Finset.mem_range, not_lt] at h
    rw [Finsupp.mem_support_iff] at hi
    apply hi
    simp [h]
  · intro i _; exact pow_zero _

lemma eval_dir_mono {n : ℕ} {a : List F} (ha : a.length + 1 = n) {e : List ℕ} (he : e.length = n) (o : ℕ) (c : F) :
    eval (RMulti.dir a (List.replicate (n - 1) o)) (monomial e.toFinsupp c) = c * vdmBase a e ^ o := by
  rw [eval_mono, he, ← ha, Finset.prod_range_succ', vdmBase_eq, ← Finset.prod_pow]
  congr 1
  rw [show RMulti.dir a (List.replicate (a.length + 1 - 1) o) 0 = 1 from rfl, one_pow, mul_one]
  apply Finset.prod_congr rfl
  intro i hi
  rw [Finset.mem_range] at hi
  show (a.getD i 0 ^ (List.replicate (a.length + 1 - 1) o).getD i 0) ^ _ = _
  have : (List.replicate (a.length + 1 - 1) o).getD i 0 = o := by
    rw [List.getD_eq_getElem _ _ (by simpa using hi), List.getElem_replicate]
  rw [this, ← pow_mul, ← pow_mul, mul_comm]

lemma eval_at_mono (a : List F) (t : F) (ord : List ℕ) (e : List ℕ) (c : F) :
    eval (at_ a t ord) (monomial e.toFinsupp c) = t ^ e.sum * eval (RMulti.dir a ord) (monomial e.toFinsupp c) := by
  rw [eval_mono, eval_mono]
  have : ∀ i, at_ a t ord i ^ e.getD i 0 = t ^ e.getD i 0 * RMulti.dir a ord i ^ e.getD i 0 := fun i => by unfold at_; rw [mul_pow]
  simp only [this]
  rw [Finset.prod_mul_distrib, Finset.prod_pow_eq_pow_sum]
  have hs : ∑ i ∈ Finset.range e.length, e.getD i 0 = e.sum := by
    rw [Finset.sum_range, ← Fin.sum_univ_getElem e]
    apply Finset.sum_congr rfl
    intro i _
    exact List.getD_eq_getElem _ _ i.2
  rw [hs]; ring

/-- the parts are homogeneous -/
lemma eval_at_denote {d : ℕ} (a : List F) (t : F) (ord : List ℕ) : ∀ (m : FFMap F), (∀ x ∈ m, x.1.sum = d) →
    eval (at_ a t ord) (denote m) = t ^ d * eval (RMulti.dir a ord) (denote m) := by
  intro m
  induction m with
  | nil => intro _; simp
  | cons x m ih =>
    intro h
    rw [denote_cons, map_add, map_add, ih (fun y hy => h y (List.mem_cons_of_mem _ hy)), eval_at_mono, h x (by simp)]
    ring

lemma eval_terms {n d : ℕ} {a : List F} (ha : a.length + 1 = n) (N : MvPolynomial ℕ F) {es : List (List ℕ)} (h : ∀ e ∈ es, e.length = n ∧ e.sum = d) (t : F) (o : ℕ) :
    eval (at_ a t (List.replicate (n - 1) o)) (denote (terms N es)) = t ^ d * pv a N es o := by
  rw [eval_at_denote a t _ (d := d) _ (by
    intro x hx
    obtain ⟨e, he, rfl⟩ := List.mem_map.mp hx
    exact (h e he).2)]
  congr 1
  unfold terms pv
  induction es with
  | nil => simp
  | cons e es ih =>
    rw [List.map_cons, denote_cons, map_add, List.map_cons, List.sum_cons, ih (fun x hx => h x (List.mem_cons_of_mem _ hx)), eval_dir_mono ha (h e (by simp)).1]

/-! ### sums over maps -/

lemma sum_set {V M : Type} [AddCommGroup M] (f : V → M) (m : FFMap V) (hnd : (m.map Prod.fst).Nodup) (k : List ℕ) (v : V) :
    ((m.set k v).map (fun t => f t.2)).sum = (m.map (fun t => f t.2)).sum - ((m.find? k).map f).getD 0 + f v := by
  unfold FFMap.set
  cases hf : m.find? k with
  | none => simp
  | some w =>
    rw [Option.isSome_some, if_pos rfl]
    simp only [Option.map_some, Option.getD_some]
    induction m with
    | nil => simp at hf
    | cons t m ih =>
      rw [List.map_cons, List.nodup_cons] at hnd
      rw [find?_cons] at hf
      rw [List.map_cons, List.map_cons, List.sum_cons, List.map_cons, List.sum_cons]
      by_cases ht : k = t.1
      · rw [if_pos ht] at hf
        have : t.2 = w := by simpa using hf
        have hm : (m.map (fun t => if t.1 = k then (k, v) else t)) = m := by
          conv_rhs => rw [← List.map_id m]
          apply List.map_congr_left
          intro x hx
          rw [if_neg (by
            intro hxk
            apply hnd.1
            rw [← ht, ← hxk]
            exact List.mem_map.mpr ⟨x, hx, rfl⟩)]
          rfl
        rw [hm, if_pos ht.symm, this]
        abel
      · rw [if_neg ht] at hf
        rw [ih hnd.2 hf, if_neg (fun hh => ht hh.symm)]
        abel

/-- the parts that are known: a map from degrees to homogeneous polynomials -/
structure Parts (n : ℕ) (m : FFMap (FFMap F)) : Prop where
  nodup : (m.map Prod.fst).Nodup
  el : ∀ t ∈ m, ∃ d, t.1 = [d] ∧ WFMap n t.2 ∧ ∀ x ∈ t.2, x.1.sum = d

/-- their sum -/
noncomputable def psum (m : FFMap (FFMap F)) : MvPolynomial ℕ F := (m.map (fun t => denote t.2)).sum

lemma Parts.get {n : ℕ} {m : FFMap (FFMap F)} (h : Parts n m) (d : ℕ) : WFMap n ((m.find? [d]).getD []) ∧ ∀ x ∈ (m.find? [d]).getD [], x.1.sum = d := by
  cases hf : m.find? [d] with
  | none => exact ⟨WFMap.nil n, by simp⟩
  | some p =>
    obtain ⟨d', h1, h2, h3⟩ := h.el _ (FFMap.find?_mem hf)
    have : d = d' := by simpa using h1
    rw [this]
    exact ⟨h2, h3⟩

lemma Parts.set {n : ℕ} {m : FFMap (FFMap F)} (h : Parts n m) {d : ℕ} {p : FFMap F} (hw : WFMap n p) (hd : ∀ x ∈ p, x.1.sum = d) :
    Parts n (m.set [d] p) ∧ psum (m.set [d] p) = psum m - denote ((m.find? [d]).getD []) + denote p := by
  refine ⟨⟨?_, ?_⟩, ?_⟩
  · rw [keys_set]
    split
    · exact h.nodup
    · rename_i hn
      rw [List.nodup_append]
      refine ⟨h.nodup, by simp, ?_⟩
      intro x hx y hy hxy
      rw [List.mem_singleton] at hy
      rw [hxy, hy] at hx
      exact hn hx
  · intro t ht
    rcases mem_set ht with ht | rfl
    · exact h.el t ht
    · exact ⟨d, rfl, hw, hd⟩
  · unfold psum
    rw [sum_set denote m h.nodup]
    congr 2
    cases m.find? [d] <;> simp

lemma Parts.nil (n : ℕ) : Parts n ([] : FFMap (FFMap F)) := ⟨by simp, by simp⟩

lemma denote_zero_of {p : FFMap F} (h : PolyFF.zero p = true) : denote p = 0 := by
  unfold PolyFF.zero at h
  split at h
  · rfl
  · rename_i t
    rw [RMulti.denote_single]
    have : t.2 = 0 := by simpa using h
    rw [this, monomial_zero]
  · cases h

end FireFly.RLater
