import Verif.Model.PolyObj
import Verif.Props.PolyProps
/-! # C15 with the Horner cache; C34: leading and trailing degree -/
set_option linter.all false
namespace FireFly
open MvPolynomial FFMap
variable {F : Type} [Field F] [DecidableEq F]

/-- the arguments of a call are polynomials in `n` variables -/
def OpOK (n : ℕ) : PolyOp F → Prop
  | .addAssign b => WFMap n b
  | .subAssign b => WFMap n b
  | _ => True

/-- invariant: a Horner form that will be evaluated denotes the same polynomial -/
def ObjInv (n : ℕ) (o : PolyObj F) : Prop :=
  o.n = n ∧ WFMap n o.coefs ∧ (o.evalHorner = true → WFMap n o.horner ∧ denote o.horner = denote o.coefs)

lemma ObjInv.update {n : ℕ} {o : PolyObj F} (h : ObjInv n o) {c : FFMap F} (hc : WFMap n c) :
    ObjInv n (o.update c) := ⟨h.1, hc, by simp [PolyObj.update]⟩

lemma objInv_step {n : ℕ} (he : ℕ → FFMap F → List F → Option F) {o : PolyObj F} (h : ObjInv n o)
    (op : PolyOp F) (hop : OpOK n op) : ObjInv n (o.step he op) := by
  cases op with
  | addAssign b => exact h.update (C13_add_assign h.2.1 hop).1
  | subAssign b => exact h.update (C13_sub_assign h.2.1 hop).1
  | mulAssign c => exact h.update (wf_map_snd h.2.1 _)
  | divAssign c => exact h.update (wf_map_snd h.2.1 _)
  | removeZeroCoefs =>
    obtain ⟨g1, g2, _⟩ := C13_remove_zero_coefs h.2.1
    refine ⟨h.1, g1, ?_⟩
    intro hev
    obtain ⟨k1, k2⟩ := h.2.2 hev
    exact ⟨k1, k2.trans g2.symm⟩
  | maxDeg =>
    unfold PolyObj.step PolyObj.maxDeg
    simp only
    split <;> exact h
  | minDeg =>
    unfold PolyObj.step PolyObj.minDeg PolyObj.maxDeg
    simp only
    split <;> exact h
  | calcNM1 x =>
    unfold PolyObj.step PolyObj.calcNM1
    simp only
    split
    · exact ⟨h.1, h.2.1, fun _ => ⟨h.2.1, rfl⟩⟩
    · split <;> exact h

/-- C15: with the Horner cache. For every polynomial object in `n ≥ 1` variables, every history of
calls of `+=`, `-=`, `*=`, `/=`, `remove_zero_coefs`, `max_deg`, `min_deg` and `calc_n_m_1`, the next
`calc_n_m_1(x)` returns the value of the current polynomial at `(1, x)`, provided the Horner form of
a polynomial evaluates to its value (C25, C26). -/
theorem C15_calc_n_m_1_history {n : ℕ} (hn : 1 ≤ n) (he : ℕ → FFMap F → List F → Option F)
    (hhe : ∀ m x, WFMap n m → n - 1 ≤ x.length →
      he n m x = some (eval (fun i => (1 :: x).getD i 0) (denote m)))
    (a : FFMap F) (ha : WFMap n a) (ops : List (PolyOp F)) (hops : ∀ op ∈ ops, OpOK n op)
    (x : List F) (hx : n - 1 ≤ x.length) :
    let o := ops.foldl (PolyObj.step he) (PolyObj.mk' n a)
    (o.calcNM1 he x).2 = some (eval (fun i => (1 :: x).getD i 0) (denote o.coefs)) := by
  have key : ∀ (ops : List (PolyOp F)) (o : PolyObj F), (∀ op ∈ ops, OpOK n op) → ObjInv n o →
      ObjInv n (ops.foldl (PolyObj.step he) o) := by
    intro ops
    induction ops with
    | nil => intro o _ h; exact h
    | cons op ops ih =>
      intro o hok h
      rw [List.foldl_cons]
      exact ih _ (fun q hq => hok q (by simp [hq])) (objInv_step he h op (hok op (by simp)))
  have h0 : ObjInv n (PolyObj.mk' n a) := ⟨rfl, ha, by simp [PolyObj.mk']⟩
  have h := key ops _ hops h0
  intro o
  obtain ⟨h1, h2, h3⟩ : ObjInv n o := h
  unfold PolyObj.calcNM1
  split
  · rw [h1]; exact hhe _ x h2 hx
  · split
    · rename_i _ hev
      obtain ⟨g1, g2⟩ := h3 hev
      simp only
      rw [h1, hhe _ x g1 hx, g2]
    · simp only
      rw [h1]; exact C15_calc_n_m_1 h2 hn x hx

/-- the hypothesis on the Horner evaluation can be met -/
example : ∃ he : ℕ → FFMap ℚ → List ℚ → Option ℚ, ∀ m x, WFMap 2 m → 2 - 1 ≤ x.length →
      he 2 m x = some (eval (fun i => (1 :: x).getD i 0) (denote m)) :=
  ⟨fun n m x => PolyFF.calcNM1 n m x, fun m x h hx => C15_calc_n_m_1 h (by norm_num) x hx⟩

/-! ### C34: degrees -/

lemma totalDeg_eq (e : List ℕ) : totalDeg e = e.sum := by
  unfold totalDeg
  have : ∀ s, e.foldl (· + ·) s = s + e.sum := by
    induction e with
    | nil => simp
    | cons d e ih => intro s; rw [List.foldl_cons, ih, List.sum_cons]; omega
  simpa using this 0

/-- loop invariant of `max_deg` after the nonempty prefix `l` -/
def DegInv (l : List (List ℕ)) (s : DegState) : Prop :=
  s.maxDegree ∈ l ∧ s.minDegree ∈ l ∧ s.tmpMax = s.maxDegree.sum ∧ s.tmpMin = s.minDegree.sum ∧
  (∀ k ∈ l, k.sum ≤ s.tmpMax ∧ s.tmpMin ≤ k.sum)

lemma degs_loop : ∀ (r l : List (List ℕ)) (s : DegState), (∀ k ∈ r, k ≠ []) → (∀ k ∈ l, k ≠ []) →
    DegInv l s → DegInv (l ++ r) (r.foldl degStep s)
  | [], l, s, _, _, h => by simpa using h
  | c :: r, l, s, hr, hl, h => by
    rw [List.foldl_cons]
    have hstep : DegInv (l ++ [c]) (degStep s c) := by
      obtain ⟨h1, h2, h3, h4, h5⟩ := h
      have hne : s.maxDegree ≠ [] := hl _ h1
      unfold degStep DegInv
      simp only [hne, if_false, totalDeg_eq]
      refine ⟨?_, ?_, ?_, ?_, ?_⟩
      · split <;> simp [h1]
      · split <;> simp [h2]
      · split
        · rename_i h; exact h
        · rename_i h; rw [← h3]; omega
      · split
        · rename_i h; exact h
        · rename_i h; rw [← h4]; omega
      · intro k hk
        rcases List.mem_append.mp hk with hk | hk
        · have := h5 k hk; omega
        · rw [List.mem_singleton.mp hk]; omega
    have := degs_loop r (l ++ [c]) (degStep s c) (fun k hk => hr k (by simp [hk]))
      (by
        intro k hk
        rcases List.mem_append.mp hk with hk | hk
        · exact hl k hk
        · rw [List.mem_singleton.mp hk]; exact hr c (by simp)) hstep
    rwa [List.append_assoc] at this

/-- C34: on a fresh, nonempty polynomial in `n ≥ 1` variables `max_deg`/`min_deg` return the
exponent vector of a stored monomial whose total degree is maximal/minimal among all stored ones. -/
theorem C34_degs {n : ℕ} (hn : 1 ≤ n) {a : FFMap F} (ha : WFMap n a) (hne : a ≠ []) :
    let o := PolyObj.mk' n a
    o.maxDeg.2 ∈ a.map Prod.fst ∧ o.minDeg.2 ∈ a.map Prod.fst ∧
    (∀ t ∈ a, t.1.sum ≤ o.maxDeg.2.sum ∧ o.minDeg.2.sum ≤ t.1.sum) ∧
    (o.maxDeg.1.maxDeg.2 = o.maxDeg.2 ∧ o.maxDeg.1.minDeg.2 = o.minDeg.2) := by
  obtain ⟨t, l, rfl⟩ := List.exists_cons_of_ne_nil hne
  have hk : ∀ s ∈ t :: l, s.1 ≠ [] := fun s hs h => by
    have := ha.2 s hs; rw [h] at this; simp at this; omega
  have h0 : DegInv [t.1] (degStep ⟨0, 0, [], []⟩ t.1) := by
    unfold degStep DegInv
    simp [totalDeg_eq]
  have h := degs_loop (l.map Prod.fst) [t.1] _ (by
    intro k hk'
    obtain ⟨s, hs, rfl⟩ := List.mem_map.mp hk'
    exact hk s (by simp [hs])) (by simpa using hk t (by simp)) h0
  set s := (l.map Prod.fst).foldl degStep (degStep ⟨0, 0, [], []⟩ t.1) with hs
  have hd : PolyFF.degs (t :: l) = (s.maxDegree, s.minDegree) := rfl
  obtain ⟨h1, h2, h3, h4, h5⟩ := h
  have hmx : (PolyObj.mk' n (t :: l)).maxDeg =
      ({ PolyObj.mk' n (t :: l) with maxDegree := s.maxDegree, minDegree := s.minDegree }, s.maxDegree) := by
    unfold PolyObj.maxDeg PolyObj.mk'
    simp [hd]
  have hmn : (PolyObj.mk' n (t :: l)).minDeg =
      ({ PolyObj.mk' n (t :: l) with maxDegree := s.maxDegree, minDegree := s.minDegree }, s.minDegree) := by
    unfold PolyObj.minDeg
    rw [hmx]
  have hmne : s.maxDegree ≠ [] := by
    rcases List.mem_cons.mp h1 with h | h
    · rw [h]; exact hk t (by simp)
    · obtain ⟨q, hq, he⟩ := List.mem_map.mp h
      rw [← he]; exact hk q (by simp [hq])
  refine ⟨?_, ?_, ?_, ?_⟩
  · rw [hmx]; simpa using h1
  · rw [hmn]; simpa using h2
  · intro q hq
    have := h5 q.1 (by
      rcases List.mem_cons.mp hq with rfl | hq
      · simp
      · simp only [List.cons_append, List.nil_append, List.mem_cons]
        exact Or.inr (List.mem_map.mpr ⟨q, hq, rfl⟩))
    rw [hmx, hmn]
    simp only
    omega
  · rw [hmx, hmn]
    unfold PolyObj.minDeg PolyObj.maxDeg
    simp [hmne]

/-- C34 fails after a modification: the cached degree is not refreshed by `+=`. After asking
`1 + x` for its degree and adding `x^5`, `max_deg` still answers `x`. -/
theorem C34_violated : ∃ (a b : FFMap F), WFMap 1 a ∧ WFMap 1 b ∧
    let o := ((PolyObj.mk' 1 a).maxDeg.1).update (PolyFF.addAssign a b)
    ([5], 1) ∈ o.coefs ∧ o.maxDeg.2 = [1] := by
  refine ⟨[([0], 1), ([1], 1)], [([5], 1)], ⟨by simp, by simp⟩, ⟨by simp, by simp⟩, ?_⟩
  simp [PolyObj.update, PolyFF.addAssign, PolyFF.addAssignStep, FFMap.find?, FFMap.set,
    PolyObj.maxDeg, PolyObj.mk', PolyFF.degs, degStep, totalDeg, List.lookup]

example : (PolyObj.mk' 2 ([([1, 1], 2), ([0, 3], 3), ([0, 0], 5)] : FFMap ℚ)).maxDeg.2 = [0, 3] ∧
    (PolyObj.mk' 2 ([([1, 1], 2), ([0, 3], 3), ([0, 0], 5)] : FFMap ℚ)).minDeg.2 = [0, 0] := by
  decide +kernel

end FireFly
