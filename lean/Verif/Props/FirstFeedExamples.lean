import Verif.Props.FirstFeedProps
import Verif.Props.RatMultiExamples
/-!
# C66: examples
-/
set_option linter.all false
namespace FireFly.First
open RMulti MvPolynomial

/-- the values of `x / (x + y)` with the shift `(1, 0)` at the first order vector -/
def exf (t : ℚ) : ℚ := (t + 1) / (t + 1 + t * 2)

lemma exf_eq (t : ℚ) : valueOf exShift.shift exShift.anchor exNum exDen t (RMulti.ones exShift) = exf t := by
  rw [exShift_value]; simp [exf, RMulti.ones, exShift]

lemma exf_sub {t u : ℚ} (ht : 0 < t) (hu : 0 < u) : exf u - exf t = -2 * (u - t) / ((1 + 3 * t) * (1 + 3 * u)) := by
  have h1 : t + 1 + t * 2 ≠ 0 := by positivity
  have h2 : u + 1 + u * 2 ≠ 0 := by positivity
  have h3 : 1 + 3 * t ≠ 0 := by positivity
  have h4 : 1 + 3 * u ≠ 0 := by positivity
  unfold exf
  field_simp
  ring

lemma exf_ne {t u : ℚ} (ht : 0 < t) (hu : 0 < u) (h : t ≠ u) : exf u - exf t ≠ 0 := by
  rw [exf_sub ht hu]
  have h3 : 1 + 3 * t ≠ 0 := by positivity
  have h4 : 1 + 3 * u ≠ 0 := by positivity
  have : u - t ≠ 0 := sub_ne_zero.mpr h.symm
  positivity

lemma exf_rec {t u : ℚ} (ht : 0 < t) (hu : 0 < u) (h : t ≠ u) : (u - t) / (exf u - exf t) = -((1 + 3 * t) * (1 + 3 * u)) / 2 := by
  rw [exf_sub ht hu]
  have h3 : 1 + 3 * t ≠ 0 := by positivity
  have h4 : 1 + 3 * u ≠ 0 := by positivity
  have h5 : u - t ≠ 0 := sub_ne_zero.mpr h.symm
  field_simp

/-- the second coefficient -/
def exa1 (t u : ℚ) : ℚ := -((1 + 3 * t) * (1 + 3 * u)) / 2
/-- the third coefficient -/
def exa2 (t : ℚ) : ℚ := -2 / (3 * (1 + 3 * t))

lemma exa1_ne {t u : ℚ} (ht : 0 < t) (hu : 0 < u) : exa1 t u ≠ 0 := by
  unfold exa1
  have : 0 < (1 + 3 * t) * (1 + 3 * u) / 2 := by positivity
  intro h
  rw [neg_div] at h
  linarith

lemma ex_st1 (t : ℚ) : ({} : Thiele ℚ).addPointChecked (exf t) t = some ({ ai := [exf t], ti := [t] }, false) := by
  simp [Thiele.addPointChecked]

lemma ex_st2 {t u : ℚ} (ht : 0 < t) (hu : 0 < u) (h : t ≠ u) :
    ({ ai := [exf t], ti := [t] } : Thiele ℚ).addPointChecked (exf u) u = some ({ ai := [exf t, exa1 t u], ti := [t, u] }, false) := by
  have h1 := exf_ne ht hu h
  have h2 : exf u ≠ exf t := sub_ne_zero.mp h1
  simp [Thiele.addPointChecked, Thiele.compFyiChecked, Thiele.compAiChecked, h2, divChecked, h1, exf_rec ht hu h, exa1]

lemma ex_st3 {t u v : ℚ} (ht : 0 < t) (hu : 0 < u) (hv : 0 < v) (h : t ≠ u) (h' : t ≠ v) (h'' : u ≠ v) :
    ({ ai := [exf t, exa1 t u], ti := [t, u] } : Thiele ℚ).addPointChecked (exf v) v = some ({ ai := [exf t, exa1 t u, exa2 t], ti := [t, u, v] }, false) := by
  have h0 := exa1_ne ht hu
  have h1 := exf_ne ht hv h'
  have h3 : 1 + 3 * t ≠ 0 := by positivity
  have hne : exf v ≠ exf t + (-t + v) / exa1 t u := by
    intro hh
    have e1 : exf v - exf t = (v - t) / exa1 t u := by rw [hh]; ring
    have e2 : (v - t) / (exf v - exf t) = exa1 t u := by
      rw [e1]
      have : v - t ≠ 0 := sub_ne_zero.mpr h'.symm
      field_simp
    rw [exf_rec ht hv h'] at e2
    unfold exa1 at e2
    have e3 : (1 + 3 * t) * (1 + 3 * v) = (1 + 3 * t) * (1 + 3 * u) := by linarith
    have e4 := mul_left_cancel₀ h3 e3
    apply h''; linarith
  have h5 : exa1 t v - exa1 t u = -(3 * (1 + 3 * t) * (v - u)) / 2 := by unfold exa1; ring
  have h6 : exa1 t v - exa1 t u ≠ 0 := by
    rw [h5]
    have : v - u ≠ 0 := sub_ne_zero.mpr h''.symm
    intro hh
    have : 3 * (1 + 3 * t) * (v - u) = 0 := by linarith
    rcases mul_eq_zero.mp this with x | x
    · exact h3 (by linarith)
    · contradiction
  have h7 : (v - u) / (exa1 t v - exa1 t u) = exa2 t := by
    rw [h5]
    unfold exa2
    have : v - u ≠ 0 := sub_ne_zero.mpr h''.symm
    field_simp
  have h8 : (v - t) / (exf v - exf t) = exa1 t v := exf_rec ht hv h'
  simp [Thiele.addPointChecked, Thiele.compFyiChecked, Thiele.compAiChecked, divChecked, h0, hne, h1, h8, h6, h7, List.range'_succ, List.foldlM_cons]

lemma ex_st4 {t u v w : ℚ} (ht : 0 < t) (hu : 0 < u) (hw : 0 < w) (h' : t ≠ w) :
    ({ ai := [exf t, exa1 t u, exa2 t], ti := [t, u, v] } : Thiele ℚ).addPointChecked (exf w) w = some ({ ai := [exf t, exa1 t u, exa2 t], ti := [t, u, v, w] }, true) := by
  have h3 : 1 + 3 * t ≠ 0 := by positivity
  have h2 : exa2 t ≠ 0 := by
    unfold exa2
    have : (0 : ℚ) < 2 / (3 * (1 + 3 * t)) := by positivity
    intro hh
    rw [neg_div] at hh
    linarith
  have h4 : exa1 t u + (-u + w) / exa2 t = exa1 t w := by
    unfold exa1 exa2
    field_simp
    ring
  have h5 := exa1_ne ht hw
  have h6 : exf t + (-t + w) / exa1 t w = exf w := by
    have e := exf_rec ht hw h'
    have e1 := exf_ne ht hw h'
    have e2 : exa1 t w = (w - t) / (exf w - exf t) := e.symm
    have e3 : w - t ≠ 0 := sub_ne_zero.mpr h'.symm
    rw [e2]
    have : (-t + w) / ((w - t) / (exf w - exf t)) = exf w - exf t := by
      rw [show -t + w = w - t by ring]; field_simp
    rw [this]; ring
  simp [Thiele.addPointChecked, Thiele.compFyiChecked, divChecked, h2, h4, h5, h6, List.range'_succ, List.foldlM_cons]

/-- Thiele's method works on all positive values -/
lemma exThieleGood : ThieleGood exShift exNum exDen 1 1 (fun t ord => 0 < t) := by
  intro ts hnd hlen hpos
  have hlen : ts.length ≤ 4 := hlen
  have hcop := (exShift_thiele (k := 0) (by norm_num)).coprime
  have e : ts.map (fun t => (valueOf exShift.shift exShift.anchor exNum exDen t (RMulti.ones exShift), t)) = ts.map (fun t => (exf t, t)) := by
    apply List.map_congr_left; intro t _; rw [exf_eq]
  rw [e]
  have hf : ∀ t : ℚ, 0 < t → exf t ≠ 0 := fun t ht => by unfold exf; positivity
  refine ⟨?_, ?_, ?_, by rw [List.length_map]; omega, hcop⟩
  · match ts, hnd, hlen, hpos with
    | [], _, _, _ => exact ⟨_, rfl, by simp⟩
    | [t], _, _, _ => exact ⟨_, by simp only [List.map_cons, List.map_nil, Thiele.runChecked, ex_st1]; rfl, by simp⟩
    | [t, u], hnd, _, hpos =>
      have ht := hpos t (by simp)
      have hu := hpos u (by simp)
      simp only [List.nodup_cons, List.mem_cons, List.not_mem_nil, or_false, not_or] at hnd
      exact ⟨_, by simp [Thiele.runChecked, ex_st1, ex_st2 ht hu hnd.1]; rfl, by simp⟩
    | [t, u, v], hnd, _, hpos =>
      have ht := hpos t (by simp)
      have hu := hpos u (by simp)
      have hv := hpos v (by simp)
      simp only [List.nodup_cons, List.mem_cons, List.not_mem_nil, or_false, not_or] at hnd
      exact ⟨_, by simp [Thiele.runChecked, ex_st1, ex_st2 ht hu hnd.1.1, ex_st3 ht hu hv hnd.1.1 hnd.1.2 hnd.2.1]; rfl, by simp⟩
    | [t, u, v, w], hnd, _, hpos =>
      have ht := hpos t (by simp)
      have hu := hpos u (by simp)
      have hv := hpos v (by simp)
      have hw := hpos w (by simp)
      simp only [List.nodup_cons, List.mem_cons, List.not_mem_nil, or_false, not_or] at hnd
      exact ⟨_, by simp [Thiele.runChecked, ex_st1, ex_st2 ht hu hnd.1.1, ex_st3 ht hu hv hnd.1.1 hnd.1.2.1 hnd.2.1.1, ex_st4 ht hu hw hnd.1.2.2]; rfl, by simp⟩
    | _ :: _ :: _ :: _ :: _ :: _, _, hlen, _ => exfalso; simp at hlen; omega
  · intro q hq
    cases ts with
    | nil => simp at hq
    | cons t ts =>
      simp at hq
      rw [← hq]
      exact hf t (hpos t (by simp))
  · intro q hq
    obtain ⟨t, ht, rfl⟩ := List.mem_map.mp hq
    exact (hpos t ht).ne'

/-- `x / (x + y)` with the shift `(1, 0)`; all positive values are allowed -/
lemma exDescribed : Described 2 (fun q : ℚ × List ℕ => 0 < q.1) (RMulti.obj exShift (valueOf exShift.shift exShift.anchor exNum exDen)) 4 (fun s => ∃ r, s.result = some r ∧ RMulti.Good exShift exNum exDen r) :=
  Described.multi exShift exNum exDen 1 1 rfl exGtQ_spec exShift_prob (exShift_good _ (fun t ord h => h)) exThieleGood

/-- two such objects -/
noncomputable def exObjs : Fin 2 → Obj ℚ := fun _ => RMulti.obj exShift (valueOf exShift.shift exShift.anchor exNum exDen)

/-- a start with two threads; the bunch has one probe -/
lemma exStarts : ∃ s : Fld ℚ exObjs, Starts exObjs 2 (fun q => 0 < q.1) [1] [2] [3] s := by
  obtain ⟨x, hx, -⟩ := C66_request exDescribed [(1, [1])] (by simp) (by simp)
  refine ⟨Fld.start exObjs 2 [1] [2] [3] (fun _ => x), ⟨by simp, rfl, by decide +kernel, ?_, fun _ => hx, rfl⟩⟩
  intro t ht
  simp only [List.cons_append, List.nil_append, List.mem_cons, List.not_mem_nil, or_false] at ht
  rcases ht with rfl | rfl | rfl <;> norm_num

/-- there is a run to the end, and both objects have the right result there -/
example : ∃ s0 s : Fld ℚ exObjs, Starts exObjs 2 (fun q => 0 < q.1) [1] [2] [3] s0 ∧ Reaches exObjs 2 (fun q => 0 < q.1) s0 s ∧ s.Quiet ∧
    ∀ i, ∃ r, (s.st i : RMulti.St ℚ).result = some r ∧ RMulti.Good exShift exNum exDen r := by
  obtain ⟨s0, h0⟩ := exStarts
  obtain ⟨b, hb⟩ := C66_finishes (objs := exObjs) (size := fun _ => 4) (right := fun _ s => ∃ r, s.result = some r ∧ RMulti.Good exShift exNum exDen r) (fun _ => exDescribed) 3
  obtain ⟨s, h1, h2, h3⟩ := hb (fun o => ⟨(List.range b).map (fun i : ℕ => (i : ℚ) + 1), List.nodup_range.map (fun i j h => by simpa using h), by simp, fun t ht => by
    obtain ⟨i, -, rfl⟩ := List.mem_map.mp ht
    show (0 : ℚ) < i + 1
    positivity⟩) [1] [2] [3] s0 s0 h0 rfl Relation.ReflTransGen.refl
  exact ⟨s0, s, h0, h1, h2, fun i => (h3 i).2⟩

/-- At the start the list is `(1)` with one equation; after four probes `(1)` the degrees are known, and two probes for `(2)` are wanted; one of them is missing after the first of them. -/
example : exShift.orders exShift.init = some ([([1], 1)], 1) ∧
    (exShift.feedAll exShift.init (exRun.take 4)).bind exShift.orders = some ([([2], 2)], 2) ∧
    (exShift.feedAll exShift.init (exRun.take 5)).bind exShift.orders = some ([([2], 1)], 2) := by decide +kernel

/-- two values of the Vandermonde system are asked for at once -/
example : advance 4 [2, 3, 4] 5 = [7, 8, 4] := by decide

end FireFly.First
