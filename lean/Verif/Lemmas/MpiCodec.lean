import Verif.Model.Mpi
import Mathlib.Tactic.Ring
import Mathlib.Tactic.Linarith
import Mathlib.Data.List.Basic
/-! # The messages of the MPI protocol are read as they were written -/
set_option linter.all false
namespace FireFly.Mpi

theorem getElem?_flatMap_const {α : Type} (g : α → List ℕ) (d : ℕ) : ∀ (ps : List α) (k j : ℕ), (∀ p ∈ ps, (g p).length = d) → j < d →
    (ps.flatMap g)[d * k + j]? = (ps[k]?).bind (fun p => (g p)[j]?)
  | [], k, j, _, _ => by simp
  | p :: ps, 0, j, h, hj => by
    have := h p (by simp)
    rw [List.flatMap_cons, List.getElem?_append_left (by omega)]
    simp
  | p :: ps, k + 1, j, h, hj => by
    have hp := h p (by simp)
    have hm : d * (k + 1) = d + d * k := by ring
    rw [List.flatMap_cons, List.getElem?_append_right (by omega)]
    have : d * (k + 1) + j - (g p).length = d * k + j := by omega
    rw [this, getElem?_flatMap_const g d ps k j (fun q hq => h q (by simp [hq])) hj]
    simp

theorem length_flatMap_const {α : Type} (g : α → List ℕ) (d : ℕ) (ps : List α) (h : ∀ p ∈ ps, (g p).length = d) : (ps.flatMap g).length = d * ps.length := by
  induction ps with
  | nil => simp
  | cons p ps ih =>
    rw [List.flatMap_cons, List.length_append, ih (fun q hq => h q (by simp [hq])), h p (by simp), List.length_cons]; ring

theorem mapM_some {α β : Type} (l : List α) (h : α → Option β) (r : α → β) (H : ∀ x ∈ l, h x = some (r x)) : l.mapM h = some (l.map r) := by
  induction l with
  | nil => simp
  | cons x l ih => rw [List.mapM_cons, H x (by simp), ih (fun y hy => H y (by simp [hy]))]; simp

theorem map_range_getD {α : Type} [Inhabited α] (l : List α) : (List.range l.length).map (fun j => (l[j]?).getD default) = l := by
  apply List.ext_getElem (by simp)
  intro i h1 h2
  simp at h1
  simp [h1]

theorem packValues_length (n : ℕ) (ps : List Probe) (h : ∀ p ∈ ps, p.2.length = n) : (packValues ps).length = (n + 1) * ps.length :=
  length_flatMap_const _ _ ps (fun p hp => by simp [h p hp])

theorem readProbe_pack (n : ℕ) (ps : List Probe) (h : ∀ p ∈ ps, p.2.length = n) (k : ℕ) (hk : k < ps.length) : readProbe n (packValues ps) k = some ps[k] := by
  have hl : ∀ p ∈ ps, ((fun p : Probe => p.1 :: p.2) p).length = n + 1 := fun p hp => by simp [h p hp]
  have h0 := getElem?_flatMap_const (fun p : Probe => p.1 :: p.2) (n + 1) ps k 0 hl (by omega)
  have hn : (ps[k]).2.length = n := h _ (List.getElem_mem hk)
  have e1 : (packValues ps)[(n + 1) * k]? = some (ps[k]).1 := by
    unfold packValues
    rw [Nat.add_zero] at h0
    rw [h0]; simp [hk]
  have e2 : (List.range n).mapM (fun j => (packValues ps)[(n + 1) * k + j + 1]?) = some (ps[k]).2 := by
    rw [mapM_some (r := fun j => ((ps[k]).2[j]?).getD default)]
    · rw [← hn, map_range_getD]
    · intro j hj
      have hj := List.mem_range.mp hj
      have h1 := getElem?_flatMap_const (fun p : Probe => p.1 :: p.2) (n + 1) ps k (j + 1) hl (by omega)
      unfold packValues
      rw [show (n + 1) * k + j + 1 = (n + 1) * k + (j + 1) by ring, h1]
      simp [hk, hn, hj]
  unfold readProbe
  simp only [e1, e2]
  simp

theorem readBunch (n : ℕ) (ps : List Probe) (h : ∀ p ∈ ps, p.2.length = n) (st b : ℕ) (hb : st + b ≤ ps.length) :
    (List.range b).mapM (fun j => readProbe n (packValues ps) (st + j)) = some ((ps.drop st).take b) := by
  rw [mapM_some (r := fun j => (ps[st + j]?).getD default)]
  · congr 1
    apply List.ext_getElem
    · simp; omega
    · intro i h1 h2
      simp at h1 h2 ⊢
      have : st + i < ps.length := by omega
      simp [this]
  · intro j hj
    have hj := List.mem_range.mp hj
    have : st + j < ps.length := by omega
    rw [readProbe_pack n ps h (st + j) this]
    simp [this]

/-- What the master stores for the probes `ps`: the indices and the residues of each function. -/
def stored (items : ℕ) (g : List ℕ → List ℕ) (ps : List Probe) : List ℕ × List (List ℕ) :=
  (ps.map Prod.fst, (List.range items).map (fun j => ps.map (fun p => ((g p.2)[j]?).getD 0)))

theorem packResults_length (items : ℕ) (g : List ℕ → List ℕ) (ps : List Probe) (h : ∀ p ∈ ps, (g p.2).length = items) :
    (packResults g ps).length = (items + 1) * ps.length :=
  length_flatMap_const _ _ ps (fun p hp => by simp [h p hp])

theorem map_range_eq {α β : Type} [Inhabited α] (ps : List α) (r : α → β) (H : ℕ → β) (h : ∀ i (hi : i < ps.length), H i = r ps[i]) :
    (List.range ps.length).map H = ps.map r := by
  apply List.ext_getElem (by simp)
  intro i h1 h2
  simp at h1
  simp [h i h1]

theorem unpack_pack (items : ℕ) (g : List ℕ → List ℕ) (ps : List Probe) (h : ∀ p ∈ ps, (g p.2).length = items) (hne : ps ≠ []) (w : ℕ) :
    unpackResults items (packResults g ps ++ [w]) = some (stored items g ps, w) := by
  have hl := packResults_length items g ps h
  have hpos : 0 < ps.length := List.length_pos_iff.mpr hne
  have hmul : 1 ≤ (items + 1) * ps.length := Nat.mul_pos (by omega) hpos
  have hrow : ∀ p ∈ ps, ((fun p : Probe => p.1 :: g p.2) p).length = items + 1 := fun p hp => by simp [h p hp]
  have hget : ∀ i j, i < ps.length → j < items + 1 → (packResults g ps ++ [w])[i * (items + 1) + j]? = (ps[i]?).bind (fun p => (p.1 :: g p.2)[j]?) := by
    intro i j hi hj
    have h1 : i * (items + 1) + j < (items + 1) * ps.length := by
      have : (i + 1) * (items + 1) ≤ ps.length * (items + 1) := Nat.mul_le_mul_right _ hi
      nlinarith
    rw [List.getElem?_append_left (by omega), Nat.mul_comm i]
    exact getElem?_flatMap_const _ _ ps i j hrow hj
  have hnew : ((items + 1) * ps.length) / (items + 1) = ps.length := Nat.mul_div_cancel_left _ (by omega)
  unfold unpackResults
  have hamt : (packResults g ps ++ [w]).length - 1 = (items + 1) * ps.length := by simp [hl]
  have hamt2 : ¬ ((packResults g ps ++ [w]).length < 2 ∨ ((packResults g ps ++ [w]).length - 1) % (items + 1) ≠ 0) := by
    rw [hamt]; simp [hl]; omega
  dsimp only
  rw [if_neg hamt2]
  simp only [hamt, hnew]
  have e1 : (List.range ps.length).mapM (fun i => (packResults g ps ++ [w])[i * (items + 1)]?) = some (ps.map Prod.fst) := by
    rw [mapM_some (r := fun i => ((ps[i]?).getD default).1)]
    · congr 1
      exact map_range_eq ps _ _ (fun i hi => by simp [hi])
    · intro i hi
      have hi := List.mem_range.mp hi
      have := hget i 0 hi (by omega)
      rw [Nat.add_zero] at this
      rw [this]; simp [hi]
  have e2 : (List.range' 1 items).mapM (fun j => (List.range ps.length).mapM (fun i => (packResults g ps ++ [w])[i * (items + 1) + j]?)) =
      some ((List.range items).map (fun j => ps.map (fun p => ((g p.2)[j]?).getD 0))) := by
    rw [mapM_some (r := fun j => ps.map (fun p => ((g p.2)[j - 1]?).getD 0))]
    · congr 1
      rw [List.range'_eq_map_range, List.map_map]
      apply List.map_congr_left
      intro j _
      simp
    · intro j hj
      have hj := List.mem_range'_1.mp hj
      rw [mapM_some (r := fun i => ((g ((ps[i]?).getD default).2)[j - 1]?).getD 0)]
      · congr 1
        exact map_range_eq ps _ _ (fun i hi => by simp [hi])
      · intro i hi
        have hi := List.mem_range.mp hi
        rw [hget i j hi (by omega)]
        obtain ⟨j', rfl⟩ : ∃ j', j = j' + 1 := ⟨j - 1, by omega⟩
        have hlen : (g (ps[i]).2).length = items := h _ (List.getElem_mem hi)
        have : j' < (g (ps[i]).2).length := by omega
        simp [hi, this]
  have e3 : (packResults g ps ++ [w])[(items + 1) * ps.length]? = some w := by
    rw [List.getElem?_append_right (by omega)]; simp [hl]
  rw [e1, e2, e3]
  rfl

end FireFly.Mpi
