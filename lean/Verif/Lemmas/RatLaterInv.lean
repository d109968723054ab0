import Verif.Lemmas.RatLaterAbsorb
/-! # The further prime fields: invariant of the numerator or the denominator -/
set_option linter.all false
namespace FireFly.RLater
open MvPolynomial FFMap
variable {F : Type} [Field F] [DecidableEq F] {c : Cfg F} {N D : MvPolynomial ℕ F} {k : FFMap F} {U : FFMap (List (List ℕ))}

/-- after the order vectors before `o` -/
structure SInv (c : Cfg F) (N : MvPolynomial ℕ F) (k : FFMap F) (U : FFMap (List (List ℕ))) (o : ℕ) (s : Side F) : Prop where
  unsolved : s.unsolved = U.filter (fun u => decide (o ≤ u.2.length))
  mat : s.mat = s.unsolved.map (vals c.anchor N (o - 1))
  parts : Parts c.n s.solved
  sum : psum s.solved = denote k + ((U.filter (fun u => !decide (o ≤ u.2.length))).map (fun u => denote (terms N u.2))).sum

lemma vdmBase_ne {a : List F} (h : ∀ x ∈ a, x ≠ 0) (e : List ℕ) : vdmBase a e ≠ 0 := by
  rw [vdmBase_eq, Finset.prod_ne_zero_iff]
  intro i hi
  rw [Finset.mem_range] at hi
  apply pow_ne_zero
  rw [List.getD_eq_getElem _ _ hi]
  exact h _ (List.getElem_mem hi)

lemma Split.ask (ha : c.anchor.length + 1 = c.n) (h : Split c.n c.anchor N k U) {u : List ℕ × List (List ℕ)} (hu : u ∈ U) : Ask c u := by
  obtain ⟨d, h1, h2, h3, h4⟩ := h.form u hu
  refine ⟨d, h1, h2, h4, ?_, ?_⟩
  · apply List.Nodup.map_on _ h3
    intro x hx y hy hxy
    apply h.distinct u hu x hx y hy
    rw [eval_dir_mono ha (h4 x hx).1, eval_dir_mono ha (h4 y hy).1, hxy]
  · intro h0
    obtain ⟨e, -, he⟩ := List.mem_map.mp h0
    exact vdmBase_ne h.anchor e he

lemma sum_filter_split {M : Type} [AddCommMonoid M] {α : Type} (p : α → Bool) (f : α → M) (l : List α) :
    ((l.filter p).map f).sum + ((l.filter (fun x => !p x)).map f).sum = (l.map f).sum := by
  induction l with
  | nil => simp
  | cons x l ih =>
    rw [List.filter_cons, List.filter_cons, List.map_cons, List.sum_cons, ← ih]
    cases p x
    · simp only [Bool.false_eq_true, if_false, Bool.not_false, if_true, List.map_cons, List.sum_cons]
      abel
    · simp only [if_true, Bool.not_true, Bool.false_eq_true, if_false, List.map_cons, List.sum_cons]
      abel

lemma sum_filter_next {M : Type} [AddCommMonoid M] {α : Type} (len : α → ℕ) (o : ℕ) (f : α → M) (l : List α) :
    ((l.filter (fun x => !decide (o ≤ len x))).map f).sum + (((l.filter (fun x => decide (o ≤ len x))).filter (fun x => !decide (o < len x))).map f).sum =
      ((l.filter (fun x => !decide (o + 1 ≤ len x))).map f).sum := by
  induction l with
  | nil => simp
  | cons x l ih =>
    by_cases h1 : o ≤ len x
    · by_cases h2 : o < len x
      · have h3 : o + 1 ≤ len x := h2
        simp only [List.filter_cons, h1, h2, h3, decide_true, Bool.not_true, Bool.false_eq_true, if_false, if_true]
        exact ih
      · have h3 : ¬ o + 1 ≤ len x := h2
        simp only [List.filter_cons, h1, h2, h3, decide_true, decide_false, Bool.not_true, Bool.not_false, Bool.false_eq_true, if_false, if_true, List.map_cons, List.sum_cons]
        rw [← ih]; abel
    · have h3 : ¬ o + 1 ≤ len x := by omega
      simp only [List.filter_cons, h1, h3, decide_false, Bool.not_false, Bool.false_eq_true, if_false, if_true, List.map_cons, List.sum_cons]
      rw [← ih]; abel

/-- the solution of a system is absorbed -/
lemma SInv.absorb (ha : c.anchor.length + 1 = c.n) (hsp : Split c.n c.anchor N k U) {o : ℕ} (ho : 1 ≤ o) {s : Side F} (h : SInv c N k U o s) :
    ∃ s', c.absorb s (s.unsolved.map (fun u => (u.1, pv c.anchor N u.2 o))) = some s' ∧ SInv c N k U (o + 1) s' := by
  obtain ⟨s', f1, f2, f3, f4, f5⟩ := absorb_fold (N := N) ha ho s.unsolved [] s (by
      rw [List.nil_append, h.unsolved]
      exact hsp.nodup.sublist (List.filter_sublist.map _)) (by
      intro u hu
      rw [h.unsolved] at hu
      exact ⟨hsp.ask ha (List.mem_filter.mp hu).1, by simpa using (List.mem_filter.mp hu).2⟩) rfl (by rw [h.mat]; rfl) h.parts
  have hu : s'.unsolved = U.filter (fun u => decide (o + 1 ≤ u.2.length)) := by
    rw [f2, List.nil_append, h.unsolved, List.filter_filter]
    apply List.filter_congr
    intro u _
    by_cases h1 : o < u.2.length
    · have h2 : o ≤ u.2.length := by omega
      have h3 : o + 1 ≤ u.2.length := h1
      simp [h1, h2, h3]
    · have h3 : ¬ o + 1 ≤ u.2.length := h1
      simp [h1, h3]
  refine ⟨s', f1, ⟨hu, by rw [Nat.add_sub_cancel]; exact f3, f4, ?_⟩⟩
  rw [f5, h.sum, h.unsolved, add_assoc, sum_filter_next (fun u : List ℕ × List (List ℕ) => u.2.length) o (fun u => denote (terms N u.2)) U]

lemma mapM_vals {α β : Type} (f : α → Option β) (g : α → β) (l : List α) (h : ∀ t ∈ l, f t = some (g t)) : l.mapM f = some (l.map g) := RMulti.mapM_some f g l h

/-- the values of the parts that are known -/
noncomputable def subOf (c : Cfg F) (s : Side F) (o : ℕ) : FFMap F := s.solved.map (fun t => (t.1, eval (RMulti.dir c.anchor (uni c o)) (denote t.2)))

lemma calcNM1_dir (hn : 1 ≤ c.n) {a : FFMap F} (ha : WFMap c.n a) (ord : List ℕ) :
    PolyFF.calcNM1 c.n a (c.point ord) = some (eval (RMulti.dir c.anchor ord) (denote a)) := by
  have := RMulti.calcNM1_dir (c := { n := c.n, shift := [], anchor := c.anchor, gt := c.gt, fuel := 0 }) hn ha ord
  exact this

lemma subVals_spec (hn : 1 ≤ c.n) {s : Side F} (h : Parts c.n s.solved) (o : ℕ) : c.subVals s (c.point (uni c o)) = some (subOf c s o) := by
  unfold Cfg.subVals subOf
  apply mapM_vals
  intro t ht
  obtain ⟨d, -, h2, -⟩ := h.el t ht
  rw [calcNM1_dir hn h2]; rfl

/-- the values of the parts add up to the value of the polynomial -/
lemma SInv.line (ha : c.anchor.length + 1 = c.n) (hsp : Split c.n c.anchor N k U) {o : ℕ} {s : Side F} (h : SInv c N k U o s) (t : F) :
    eval (at_ c.anchor t (uni c o)) N =
      ((s.unsolved.map (fun u => u.1.getD 0 0)).map (fun d => pv c.anchor N (((s.unsolved.find? [d]).getD [])) o * t ^ d)).sum + ((subOf c s o).map (fun u => u.2 * t ^ u.1.getD 0 0)).sum := by
  have e1 : N = (s.unsolved.map (fun u => denote (terms N u.2))).sum + psum s.solved := by
    rw [h.sum, h.unsolved]
    conv_lhs => rw [hsp.total, ← sum_filter_split (fun u : List ℕ × List (List ℕ) => decide (o ≤ u.2.length)) (fun u => denote (terms N u.2)) U]
    ring
  have e2 : eval (at_ c.anchor t (uni c o)) (psum s.solved) = ((subOf c s o).map (fun u => u.2 * t ^ u.1.getD 0 0)).sum := by
    unfold psum subOf
    rw [map_list_sum, List.map_map, List.map_map]
    congr 1
    apply List.map_congr_left
    intro x hx
    obtain ⟨d, h1, h2, h3⟩ := h.parts.el x hx
    show eval _ (denote x.2) = eval _ (denote x.2) * t ^ x.1.getD 0 0
    rw [eval_at_denote c.anchor t _ x.2 h3, h1]
    show t ^ d * _ = _ * t ^ d
    ring
  have hnd : (s.unsolved.map Prod.fst).Nodup := by
    rw [h.unsolved]; exact hsp.nodup.sublist (List.filter_sublist.map _)
  have e3 : eval (at_ c.anchor t (uni c o)) ((s.unsolved.map (fun u => denote (terms N u.2))).sum) =
      ((s.unsolved.map (fun u => u.1.getD 0 0)).map (fun d => pv c.anchor N (((s.unsolved.find? [d]).getD [])) o * t ^ d)).sum := by
    rw [map_list_sum, List.map_map, List.map_map]
    congr 1
    apply List.map_congr_left
    intro u hu
    have hu' := hu
    rw [h.unsolved] at hu'
    obtain ⟨d, h1, h2, h3, -⟩ := hsp.ask ha (List.mem_filter.mp hu').1
    show eval _ (denote (terms N u.2)) = pv c.anchor N ((s.unsolved.find? [u.1.getD 0 0]).getD []) o * t ^ u.1.getD 0 0
    have hf : s.unsolved.find? u.1 = some u.2 := FFMap.find?_of_mem hnd hu
    rw [h1] at hf ⊢
    show _ = pv c.anchor N ((s.unsolved.find? [d]).getD []) o * t ^ d
    rw [hf, uni, eval_terms ha N h3]
    show _ = pv c.anchor N u.2 o * t ^ d
    ring
  conv_lhs => rw [e1]
  rw [map_add, e2, e3]

/-- nothing is left to be solved -/
lemma SInv.collect (hsp : Split c.n c.anchor N k U) {o : ℕ} {s : Side F} (h : SInv c N k U o s) (hdone : s.mat = []) :
    WFMap c.n (c.collect s) ∧ denote (c.collect s) = N := by
  have hun : s.unsolved = [] := by
    have := h.mat
    rw [hdone] at this
    exact List.map_eq_nil_iff.mp this.symm
  have hall : N = psum s.solved := by
    rw [h.sum]
    conv_lhs => rw [hsp.total, ← sum_filter_split (fun u : List ℕ × List (List ℕ) => decide (o ≤ u.2.length)) (fun u => denote (terms N u.2)) U]
    rw [← h.unsolved, hun]; simp
  have hfold : ∀ (l : FFMap (FFMap F)) (m : FFMap F), WFMap c.n m → (∀ t ∈ l, WFMap c.n t.2) →
      WFMap c.n (l.foldl (fun (m : FFMap F) el => PolyFF.addAssign m el.2) m) ∧ denote (l.foldl (fun (m : FFMap F) el => PolyFF.addAssign m el.2) m) = denote m + (l.map (fun t => denote t.2)).sum := by
    intro l
    induction l with
    | nil => intro m h1 _; exact ⟨h1, by simp⟩
    | cons x l ih =>
      intro m h1 h2
      obtain ⟨b1, b2, -⟩ := C13_add_assign h1 (h2 x (by simp))
      obtain ⟨i1, i2⟩ := ih _ b1 (fun t ht => h2 t (List.mem_cons_of_mem _ ht))
      exact ⟨i1, by rw [List.foldl_cons, i2, b2, List.map_cons, List.sum_cons, add_assoc]⟩
  obtain ⟨a1, a2⟩ := hfold s.solved [(List.replicate c.n 0, 0)] ⟨by simp, by simp⟩ (fun t ht => by obtain ⟨d, -, h2, -⟩ := h.parts.el t ht; exact h2)
  rw [RMulti.denote_single, monomial_zero, zero_add] at a2
  unfold Cfg.collect
  simp only
  split
  · rename_i h0
    refine ⟨a1.erase _, ?_⟩
    rw [hall]; unfold psum; rw [← a2]
    apply denote_ext (a1.erase _)
    · intro e he
      rw [coeff_denote a1 he, FFMap.find?_erase]
      split
      · rename_i hee
        rw [hee, h0]; rfl
      · rfl
    · intro d hd; exact coeff_denote_other a1 hd
  · exact ⟨a1, by rw [a2, hall]; rfl⟩

end FireFly.RLater
