import Verif.Lemmas.RatMultiHandle
import Verif.Props.DenseProps
/-! # The systems of equations -/
set_option linter.all false
namespace FireFly.RMulti
open MvPolynomial
variable {F : Type} [Field F] [DecidableEq F] {c : Cfg F} {bounds : Option (List ℕ)} {Q N D : MvPolynomial ℕ F} {m T mN mD : ℕ}

/-- the value of the part of degree `k` -/
noncomputable def ev (c : Cfg F) (Q : MvPolynomial ℕ F) (ord : List ℕ) (k : ℕ) : F := eval (dir c.anchor ord) (part c.shift Q k)

lemma mapM_some {α β : Type} (f : α → Option β) (g : α → β) : ∀ l : List α, (∀ t ∈ l, f t = some (g t)) → l.mapM f = some (l.map g) := by
  intro l
  induction l with
  | nil => intro _; rfl
  | cons a l ih =>
    intro h
    rw [List.mapM_cons, h a (by simp), ih (fun t ht => h t (by simp [ht]))]
    rfl

lemma subSum_ge (c : Cfg F) (Q : MvPolynomial ℕ F) (m : ℕ) {T k : ℕ} (h : T ≤ k + 1) : subSum c Q m T k = subSum c Q m (k + 1) k := by
  unfold subSum
  apply Finset.sum_congr _ (fun _ _ => rfl)
  ext x
  simp only [Finset.mem_filter]
  constructor
  · rintro ⟨a, b⟩; exact ⟨a, by omega, b.2⟩
  · rintro ⟨a, b⟩; exact ⟨a, by omega, b.2⟩

/-- the values of the solved degrees -/
noncomputable def subOf (c : Cfg F) (Q : MvPolynomial ℕ F) (s : Side F) (ord : List ℕ) : FFMap F := s.solved.map (fun t => (t.1, ev c Q ord (t.1.getD 0 0)))

lemma SInv.subVals (hs : c.shift.length = c.n) (hn : 1 ≤ c.n) (hok : SideOK c bounds Q m) {s : Side F} (h : SInv c Q m T s) (ord : List ℕ) :
    c.subVals s (c.point ord) = some (subOf c Q s ord) := by
  unfold Cfg.subVals subOf
  apply mapM_some
  rintro ⟨key, q⟩ ht
  obtain ⟨k, rfl, hp, ho⟩ := h.keys key (List.mem_map.mpr ⟨_, ht, rfl⟩)
  obtain ⟨q', e1, w, nz, e2⟩ := h.holds k hp ho
  rw [FFMap.find?_of_mem h.nodup ht] at e1
  obtain rfl : q = q' := by simpa using e1
  simp only
  rw [calcNM1_dir hn w ord]
  simp only [Option.bind_eq_bind, Option.bind_some, List.getD_cons_zero]
  by_cases hd : k ∈ s.dense
  · rw [if_pos (by simpa using hd), e2, tgt_dense hd]; rfl
  · rw [if_neg (by simpa using hd)]
    have hsh : c.hasShift = true := by
      by_contra hne
      exact hd (h.plain (by simpa using hne) k hp)
    have hkT : T ≤ k := by
      by_contra hlt
      rcases h.below hsh k (by omega) hp with h1 | h1
      · exact hd h1
      · exact ho h1.2
    obtain ⟨g1, g2⟩ := h.sub hsh k (hok.le hp)
    rw [calcNM1_dir hn g1 ord]
    simp only [Option.bind_some]
    rw [e2, tgt_sparse hd, g2, subSum_ge c Q m (by omega), ← map_add, ← hok.unshift (hok.le hp)]
    rfl

/-- The value on the line: open and solved degrees. -/
lemma SInv.line (hok : SideOK c bounds Q m) {s : Side F} (h : SInv c Q m T s) (t : F) (ord : List ℕ) :
    eval (pt c.shift c.anchor t ord) Q = (s.open.map (fun k => ev c Q ord k * t ^ k)).sum + ((subOf c Q s ord).map (fun u => u.2 * t ^ u.1.getD 0 0)).sum := by
  rw [eval_pt c.shift c.anchor Q m hok.top]
  have e1 : (subOf c Q s ord).map (fun u => u.2 * t ^ u.1.getD 0 0) = (s.solved.map (fun u => u.1.getD 0 0)).map (fun k => ev c Q ord k * t ^ k) := by
    unfold subOf; rw [List.map_map, List.map_map]; rfl
  rw [e1, ← List.sum_append, ← List.map_append]
  have hnd1 : (s.solved.map (fun t => t.1.getD 0 0)).Nodup := by
    rw [show s.solved.map (fun t => t.1.getD 0 0) = (s.solved.map Prod.fst).map (fun key => key.getD 0 0) by rw [List.map_map]; rfl]
    apply List.Nodup.map_on _ h.nodup
    intro a ha b hb hab
    obtain ⟨k, rfl, -⟩ := h.keys a ha
    obtain ⟨k', rfl, -⟩ := h.keys b hb
    simpa using hab
  have hnd2 : s.open.Nodup := h.desc.imp (fun {a b} hab => by omega)
  have hnd : (s.open ++ s.solved.map (fun t => t.1.getD 0 0)).Nodup := by
    rw [List.nodup_append]
    refine ⟨hnd2, hnd1, ?_⟩
    rintro a ha b hb rfl
    obtain ⟨u, hu, hua⟩ := List.mem_map.mp hb
    obtain ⟨k, e1, -, e3⟩ := h.keys u.1 (List.mem_map.mpr ⟨u, hu, rfl⟩)
    rw [e1] at hua
    exact e3 (by rw [show k = a from hua]; exact ha)
  rw [← List.sum_toFinset _ hnd]
  symm
  apply Finset.sum_subset
  · intro k hk
    rw [List.mem_toFinset, List.mem_append] at hk
    rw [Finset.mem_range]
    have : part c.shift Q k ≠ 0 := by
      rcases hk with hk | hk
      · exact (h.el k hk).2
      · obtain ⟨u, hu, hua⟩ := List.mem_map.mp hk
        obtain ⟨k', e1, e2, -⟩ := h.keys u.1 (List.mem_map.mpr ⟨u, hu, rfl⟩)
        rw [e1] at hua
        rw [← show k' = k from hua]; exact e2
    have := hok.le this
    omega
  · intro k _ hk
    have : part c.shift Q k = 0 := by
      by_contra hp
      apply hk
      rw [List.mem_toFinset, List.mem_append]
      by_cases ho : k ∈ s.open
      · exact Or.inl ho
      · right
        obtain ⟨q, hq, -⟩ := h.holds k hp ho
        exact List.mem_map.mpr ⟨_, FFMap.find?_mem hq, rfl⟩
    unfold ev
    rw [this]; simp

/-! ### the rows -/

/-- the row of a probe -/
def rowOf (A B : List ℕ) (subN subD : FFMap F) (q : F × F) : List F :=
  A.map (fun k => q.1 ^ k) ++ B.map (fun k => -q.2 * q.1 ^ k) ++
    [subD.foldl (fun (res : F) el => res + el.2 * q.1 ^ el.1.getD 0 0 * q.2) (subN.foldl (fun (res : F) el => res - el.2 * q.1 ^ el.1.getD 0 0) 0)]

lemma foldl_sub_sum {α : Type} (f : α → F) : ∀ (l : List α) (a : F), l.foldl (fun r el => r - f el) a = a - (l.map f).sum := by
  intro l
  induction l with
  | nil => intro a; simp
  | cons x l ih => intro a; rw [List.foldl_cons, ih, List.map_cons, List.sum_cons]; ring

lemma foldl_add_sum {α : Type} (f : α → F) : ∀ (l : List α) (a : F), l.foldl (fun r el => r + f el) a = a + (l.map f).sum := by
  intro l
  induction l with
  | nil => intro a; simp
  | cons x l ih => intro a; rw [List.foldl_cons, ih, List.map_cons, List.sum_cons]; ring

/-- the right-hand side -/
lemma rowOf_rhs (A B : List ℕ) (subN subD : FFMap F) (q : F × F) :
    (rowOf A B subN subD q).getD (A.length + B.length) 0 = q.2 * (subD.map (fun u => u.2 * q.1 ^ u.1.getD 0 0)).sum - (subN.map (fun u => u.2 * q.1 ^ u.1.getD 0 0)).sum := by
  unfold rowOf
  rw [List.getD_eq_getElem?_getD, List.getElem?_append_right (by simp)]
  simp only [List.length_append, List.length_map, Nat.sub_self, List.getElem?_cons_zero, Option.getD_some]
  rw [foldl_sub_sum (fun el : List ℕ × F => el.2 * q.1 ^ el.1.getD 0 0), foldl_add_sum (fun el : List ℕ × F => el.2 * q.1 ^ el.1.getD 0 0 * q.2)]
  rw [List.sum_map_mul_right]
  ring

lemma rowOf_left (A B : List ℕ) (subN subD : FFMap F) (q : F × F) (z : ℕ → F) :
    ∑ j ∈ Finset.range (A.length + B.length), (rowOf A B subN subD q).getD j 0 * z j =
      ∑ i ∈ Finset.range A.length, z i * q.1 ^ A.getD i 0 - q.2 * ∑ i ∈ Finset.range B.length, z (A.length + i) * q.1 ^ B.getD i 0 := by
  rw [Finset.sum_range_add, sub_eq_add_neg]
  congr 1
  · apply Finset.sum_congr rfl
    intro i hi
    rw [Finset.mem_range] at hi
    unfold rowOf
    rw [List.getD_eq_getElem?_getD, List.append_assoc, List.getElem?_append_left (by simpa using hi), List.getElem?_map, List.getElem?_eq_getElem hi,
      List.getD_eq_getElem _ _ hi]
    simp [mul_comm]
  · rw [Finset.mul_sum, ← Finset.sum_neg_distrib]
    apply Finset.sum_congr rfl
    intro i hi
    rw [Finset.mem_range] at hi
    unfold rowOf
    rw [List.getD_eq_getElem?_getD, List.append_assoc, List.getElem?_append_right (by simp), List.getElem?_append_left (by simpa using hi)]
    simp only [List.length_map, Nat.add_sub_cancel_left, List.getElem?_map, List.getElem?_eq_getElem hi, List.getD_eq_getElem _ _ hi, Option.map_some, Option.getD_some]
    ring

lemma sum_index (l : List ℕ) (hl : l.Nodup) (z f : ℕ → F) : ∑ i ∈ Finset.range l.length, z i * f (l.getD i 0) = ∑ k ∈ l.toFinset, z (l.idxOf k) * f k := by
  apply Finset.sum_bij (fun i _ => l.getD i 0)
  · intro i hi
    rw [Finset.mem_range] at hi
    rw [List.mem_toFinset, List.getD_eq_getElem _ _ hi]
    exact List.getElem_mem hi
  · intro i hi j hj hij
    rw [Finset.mem_range] at hi hj
    rw [List.getD_eq_getElem _ _ hi, List.getD_eq_getElem _ _ hj] at hij
    exact (List.Nodup.getElem_inj_iff hl).mp hij
  · intro k hk
    rw [List.mem_toFinset] at hk
    refine ⟨l.idxOf k, by rw [Finset.mem_range]; exact List.idxOf_lt_length_of_mem hk, ?_⟩
    rw [List.getD_eq_getElem _ _ (List.idxOf_lt_length_of_mem hk), List.getElem_idxOf]
  · intro i hi
    rw [Finset.mem_range] at hi
    rw [List.getD_eq_getElem _ _ hi, hl.idxOf_getElem]

/-- The system is solved by the values of the parts, and by them only. -/
lemma solve_unique {G : F → List ℕ → Prop} (hG : GoodPts c N D G) {ord : List ℕ} {A B : List ℕ} (hA : A.Nodup) (hB : B.Nodup)
    (hA1 : ∀ k ∈ A, 1 ≤ k ∧ part c.shift N k ≠ 0) (hB1 : ∀ k ∈ B, 1 ≤ k ∧ part c.shift D k ≠ 0) {ts : List F} (hts : ts.Nodup) (hGt : ∀ t ∈ ts, G t ord)
    (hlen : ts.length = A.length + B.length) (z : ℕ → F)
    (hz : ∀ t ∈ ts, ∑ i ∈ Finset.range A.length, z i * t ^ A.getD i 0 - valueOf c.shift c.anchor N D t ord * ∑ i ∈ Finset.range B.length, z (A.length + i) * t ^ B.getD i 0 = 0) :
    ∀ i < A.length + B.length, z i = 0 := by
  have hcA : A.toFinset.card = A.length := List.toFinset_card_of_nodup hA
  have hcB : B.toFinset.card = B.length := List.toFinset_card_of_nodup hB
  obtain ⟨h1, h2⟩ := hG.det ord A.toFinset B.toFinset ts (by simpa using hA1) (by simpa using hB1) hts hGt (by rw [hcA, hcB]; exact hlen)
    (fun k => z (A.idxOf k)) (fun k => z (A.length + B.idxOf k)) (by
      intro t ht
      have := sub_eq_zero.mp (hz t ht)
      rw [sum_index A hA z (fun k => t ^ k)] at this
      rw [sum_index B hB (fun i => z (A.length + i)) (fun k => t ^ k)] at this
      exact this)
  intro i hi
  by_cases hiA : i < A.length
  · have := h1 (A[i]) (by simp)
    rw [hA.idxOf_getElem] at this
    exact this
  · have hj : i - A.length < B.length := by omega
    have := h2 (B[i - A.length]) (by simp)
    rw [hB.idxOf_getElem] at this
    rw [show A.length + (i - A.length) = i by omega] at this
    exact this

end FireFly.RMulti
