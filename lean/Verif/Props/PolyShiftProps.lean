import Verif.Props.PolyProps
/-! # C16: variable shift -/
set_option linter.all false
namespace FireFly
open MvPolynomial FFMap
variable {F : Type} [Field F] [DecidableEq F]

/-- `bin_coef` is the binomial coefficient as long as the numbers up to `n` are invertible. -/
theorem C16_bin_coef (n k : ℕ) (hk : k ≤ n) (hn : ∀ i, 0 < i → i ≤ n → (i : F) ≠ 0) :
    (PolyFF.binCoef n k : F) = (n.choose k : F) := by
  have key : ∀ k, k ≤ n → (List.range k).foldl
      (fun (res : F) (i : ℕ) => res * ((n : F) - (i : F)) / ((i : F) + 1)) 1 = (n.choose k : F) := by
    intro k
    induction k with
    | zero => simp
    | succ k ih =>
      intro hk
      rw [List.range_succ, List.foldl_append, ih (by omega)]
      simp only [List.foldl_cons, List.foldl_nil]
      have h1 : ((k : F) + 1) ≠ 0 := by have := hn (k + 1) (by omega) hk; simpa using this
      rw [div_eq_iff h1]
      have h2 := Nat.choose_succ_right_eq n k
      have h3 : ((n.choose (k + 1) * (k + 1) : ℕ) : F) = ((n.choose k * (n - k) : ℕ) : F) := by
        exact_mod_cast congrArg (Nat.cast (R := F)) h2
      push_cast [Nat.cast_sub (show k ≤ n by omega)] at h3
      exact h3.symm
  unfold PolyFF.binCoef
  simp only
  split
  · rw [key (n - k) (by omega), Nat.choose_symm hk]
  · exact key k hk

lemma set_replicate_toFinsupp {n j : ℕ} (hj : j < n) (d : ℕ) :
    ((List.replicate n 0).set j d).toFinsupp = Finsupp.single j d := by
  ext i
  rw [List.toFinsupp_apply, List.getD_eq_getElem?_getD, List.getElem?_set]
  by_cases h : j = i
  · subst h; simp [hj]
  · simp [h, Finsupp.single_apply, List.getElem?_replicate]
    split <;> simp

/-- what is needed of the expansion of one power -/
structure TmpSpec (n j : ℕ) (deg : ℕ) (s : F) (m : FFMap F) : Prop where
  wf : WFMap n m
  keys : ∀ k ∈ m.map Prod.fst, ∃ d, k = (List.replicate n 0).set j d
  den : denote m = (X j + C s) ^ deg
  ne : ∃ v, v ≠ 0 ∧ v ∈ m.map Prod.snd

lemma tmpPowPoly_spec {n j deg : ℕ} (hj : j < n) (s : F)
    (hn : ∀ i, 0 < i → i ≤ deg → (i : F) ≠ 0) : TmpSpec n j deg s (PolyFF.tmpPowPoly n j deg s) := by
  unfold PolyFF.tmpPowPoly
  split
  · rename_i hs
    let l : FFMap F := (List.range (deg + 1)).map (fun k => ((List.replicate n 0).set j (deg - k),
      (if k = 0 then 1 else if k = deg then s ^ deg else PolyFF.binCoef deg k * s ^ k)))
    have hl : (List.range (deg + 1)).foldl (fun (m : FFMap F) k =>
      m.emplace ((List.replicate n 0).set j (deg - k))
        (if k = 0 then 1 else if k = deg then s ^ deg else PolyFF.binCoef deg k * s ^ k)) [] =
        l.foldl (fun (m : FFMap F) t => m.emplace t.1 t.2) [] := by
      simp only [l, List.foldl_map]
    have hnd : (l.map Prod.fst).Nodup := by
      simp only [l, List.map_map]
      refine List.Nodup.map_on ?_ List.nodup_range
      intro x hx y hy he
      simp only [Function.comp] at he
      have h1 := set_replicate_toFinsupp hj (deg - x)
      rw [he, set_replicate_toFinsupp hj] at h1
      have h2 := DFunLike.congr_fun h1 j
      simp at h2
      rw [List.mem_range] at hx hy
      omega
    rw [hl, foldl_emplace_eq_map Prod.fst l [] hnd (by simp), List.nil_append]
    simp only [Prod.mk.eta, List.map_id']
    refine ⟨⟨hnd, ?_⟩, ?_, ?_, ?_⟩
    · intro t ht
      obtain ⟨k, _, rfl⟩ := List.mem_map.mp ht
      simp
    · intro k hk
      obtain ⟨t, ht, rfl⟩ := List.mem_map.mp hk
      obtain ⟨i, _, rfl⟩ := List.mem_map.mp ht
      exact ⟨deg - i, rfl⟩
    · unfold denote
      simp only [l, List.map_map]
      rw [add_comm (X j : MvPolynomial ℕ F), add_pow]
      rw [← List.sum_toFinset _ List.nodup_range, List.toFinset_range]
      apply Finset.sum_congr rfl
      intro k hk
      rw [Finset.mem_range] at hk
      simp only [Function.comp]
      rw [set_replicate_toFinsupp hj]
      have hc : (if k = 0 then (1 : F) else if k = deg then s ^ deg else PolyFF.binCoef deg k * s ^ k)
          = (deg.choose k : F) * s ^ k := by
        split
        · rename_i h; subst h; simp
        · split
          · rename_i h; subst h; simp
          · rw [C16_bin_coef deg k (by omega) hn]
      rw [hc, ← C_pow, X_pow_eq_monomial, C_mul_monomial, mul_one]
      rw [show ((deg.choose k : ℕ) : MvPolynomial ℕ F) = C ((deg.choose k : ℕ) : F) by simp]
      rw [mul_comm _ (C _), C_mul_monomial]
    · refine ⟨1, one_ne_zero, ?_⟩
      simp only [l, List.map_map, List.mem_map, List.mem_range]
      exact ⟨0, by omega, by simp⟩
  · rename_i hs
    rw [not_not] at hs
    refine ⟨⟨by simp, by simp⟩, ?_, ?_, ⟨1, one_ne_zero, by simp⟩⟩
    · intro k hk
      simp at hk
      exact ⟨deg, hk⟩
    · rw [denote_cons]
      simp only [denote_nil, add_zero, hs, map_zero]
      rw [set_replicate_toFinsupp hj, X_pow_eq_monomial]

lemma mulShift_eq_fold (a b : FFMap F) (j : ℕ) :
    PolyFF.mulShift a b j = (a.flatMap (fun ta => b.map (fun tb => (ta, tb)))).foldl
      (fun (m : FFMap F) p => if p.1.2 * p.2.2 ≠ 0 then
        m.emplace (p.1.1.set j (p.2.1.getD j 0)) (p.1.2 * p.2.2) else m) [] := by
  unfold PolyFF.mulShift
  rw [List.foldl_flatMap]
  simp only [List.foldl_map]

lemma getD_set_replicate {n j : ℕ} (hj : j < n) (d : ℕ) : ((List.replicate n 0).set j d).getD j 0 = d := by
  have := DFunLike.congr_fun (set_replicate_toFinsupp hj d) j
  simpa using this

lemma mulShift_spec {n j deg : ℕ} (hj : j < n) {s : F} {a b : FFMap F} (ha : WFMap n a)
    (hz : ∀ k ∈ a.map Prod.fst, ∀ i, j ≤ i → k.getD i 0 = 0) (hb : TmpSpec n j deg s b) :
    WFMap n (PolyFF.mulShift a b j) ∧
    (∀ k ∈ (PolyFF.mulShift a b j).map Prod.fst, ∀ i, j + 1 ≤ i → k.getD i 0 = 0) ∧
    denote (PolyFF.mulShift a b j) = denote a * denote b := by
  rw [mulShift_eq_fold, denote_mul]
  set ps := a.flatMap (fun ta => b.map (fun tb => (ta, tb))) with hps
  have hmem : ∀ p ∈ ps, p.1 ∈ a ∧ p.2 ∈ b := by
    intro p hp
    obtain ⟨ta, h1, h2⟩ := List.mem_flatMap.mp hp
    obtain ⟨tb, h3, rfl⟩ := List.mem_map.mp h2
    exact ⟨h1, h3⟩
  have hset : ∀ k : List ℕ, k.length = n → k.getD j 0 = 0 → ∀ d,
      (k.set j d).toFinsupp = k.toFinsupp + ((List.replicate n 0).set j d).toFinsupp := by
    intro k hk h0 d
    rw [set_replicate_toFinsupp hj]
    ext i
    rw [Finsupp.add_apply, List.toFinsupp_apply, List.toFinsupp_apply, List.getD_eq_getElem?_getD,
      List.getElem?_set]
    by_cases h : j = i
    · subst h
      rw [h0]; simp [hk, hj]
    · simp [h, Finsupp.single_apply, List.getD_eq_getElem?_getD]
  have hnd : (ps.map (fun p => p.1.1.toFinsupp + p.2.1.toFinsupp)).Nodup := by
    have hpsnd : ps.Nodup := by
      have e : ps = a ×ˢ b := rfl
      rw [e]
      exact (List.Nodup.of_map _ ha.1).product (List.Nodup.of_map _ hb.wf.1)
    refine List.Nodup.map_on ?_ hpsnd
    intro p hp q hq he
    obtain ⟨p1, p2⟩ := hmem p hp
    obtain ⟨q1, q2⟩ := hmem q hq
    obtain ⟨dp, hdp⟩ := hb.keys p.2.1 (List.mem_map.mpr ⟨_, p2, rfl⟩)
    obtain ⟨dq, hdq⟩ := hb.keys q.2.1 (List.mem_map.mpr ⟨_, q2, rfl⟩)
    have z1 := hz p.1.1 (List.mem_map.mpr ⟨_, p1, rfl⟩)
    have z2 := hz q.1.1 (List.mem_map.mpr ⟨_, q1, rfl⟩)
    rw [hdp, hdq, set_replicate_toFinsupp hj, set_replicate_toFinsupp hj] at he
    have hd : dp = dq := by
      have := DFunLike.congr_fun he j
      rw [Finsupp.add_apply, Finsupp.add_apply, List.toFinsupp_apply, List.toFinsupp_apply,
        z1 j le_rfl, z2 j le_rfl] at this
      simpa using this
    subst hd
    have h1 := toFinsupp_inj (ha.2 _ p1) (ha.2 _ q1) (add_right_cancel he)
    have h2 : p.2.1 = q.2.1 := by rw [hdp, hdq]
    have e1 := find?_of_mem ha.1 (show (p.1.1, p.1.2) ∈ a from p1)
    have e2 := find?_of_mem ha.1 (show (q.1.1, q.1.2) ∈ a from q1)
    have e3 := find?_of_mem hb.wf.1 (show (p.2.1, p.2.2) ∈ b from p2)
    have e4 := find?_of_mem hb.wf.1 (show (q.2.1, q.2.2) ∈ b from q2)
    rw [h1, e2] at e1
    rw [h2, e4] at e3
    exact Prod.ext (Prod.ext h1 (Option.some.inj e1).symm) (Prod.ext h2 (Option.some.inj e3).symm)
  obtain ⟨h1, h2, h3⟩ := emplace_pairs (n := n) (fun p => p.1.1.set j (p.2.1.getD j 0)) ps [] (by
      intro p hp
      obtain ⟨p1, p2⟩ := hmem p hp
      obtain ⟨dp, hdp⟩ := hb.keys p.2.1 (List.mem_map.mpr ⟨_, p2, rfl⟩)
      refine ⟨?_, by simp only [List.length_set]; exact ha.2 _ p1⟩
      rw [hdp, getD_set_replicate hj]
      exact hset _ (ha.2 _ p1) (hz p.1.1 (List.mem_map.mpr ⟨_, p1, rfl⟩) j le_rfl) dp)
    (WFMap.nil n) hnd (by simp)
  refine ⟨h1, ?_, by rw [h3]; simp⟩
  intro k hk i hi
  rcases h2 k hk with h | ⟨p, hp, rfl⟩
  · simp at h
  · have z1 := hz p.1.1 (List.mem_map.mpr ⟨_, (hmem p hp).1, rfl⟩) i (by omega)
    rw [List.getD_eq_getElem?_getD, List.getElem?_set, if_neg (by omega), ← List.getD_eq_getElem?_getD]
    exact z1

/-- The substitution `x_i := x_i + s_i`. -/
noncomputable def shiftPoly (s : List F) (p : MvPolynomial ℕ F) : MvPolynomial ℕ F :=
  aeval (fun i : ℕ => (X i + C (s.getD i 0) : MvPolynomial ℕ F)) p

omit [DecidableEq F] in
lemma shiftPoly_monomial (s : List F) (e : List ℕ) (c : F) :
    shiftPoly s (monomial e.toFinsupp c) =
      C c * ∏ i ∈ Finset.range e.length, (X i + C (s.getD i 0)) ^ e.getD i 0 := by
  unfold shiftPoly
  rw [aeval_monomial, algebraMap_eq]
  congr 1
  rw [Finsupp.prod]
  refine Finset.prod_subset (List.toFinsupp_support_subset e) ?_
  intro i _ hi
  rw [Finsupp.notMem_support_iff] at hi
  rw [hi]; simp

/-- invariant of the loop over the variables -/
def PowInv (n : ℕ) (s : List F) (mon : List ℕ × F) (j : ℕ) (pow : FFMap F) : Prop :=
  ((∀ i, i < j → mon.1.getD i 0 = 0) ∧ pow = []) ∨
  ((∃ i, i < j ∧ mon.1.getD i 0 ≠ 0) ∧ WFMap n pow ∧
    (∀ k ∈ pow.map Prod.fst, ∀ i, j ≤ i → k.getD i 0 = 0) ∧
    denote pow = C mon.2 * ∏ i ∈ Finset.range j, (X i + C (s.getD i 0)) ^ mon.1.getD i 0 ∧
    (pow = [] → mon.2 = 0))

lemma powPoly_spec {n : ℕ} (s : List F) (mon : List ℕ × F) (hl : mon.1.length = n)
    (hn : ∀ j, ∀ i, 0 < i → i ≤ mon.1.getD j 0 → (i : F) ≠ 0) :
    PowInv n s mon n (PolyFF.powPoly n s mon) := by
  have key : ∀ j, j ≤ n → PowInv n s mon j ((List.range j).foldl (fun (pow : FFMap F) j =>
    let deg := mon.1.getD j 0
    if 0 < deg then
      let tmp := PolyFF.tmpPowPoly n j deg (s.getD j 0)
      if pow = [] then PolyFF.scale tmp mon.2 else PolyFF.mulShift pow tmp j
    else pow) []) := by
    intro j
    induction j with
    | zero => intro _; left; simp
    | succ j ih =>
      intro hj
      specialize ih (by omega)
      rw [List.range_succ, List.foldl_append, List.foldl_cons, List.foldl_nil]
      set pow := (List.range j).foldl (fun (pow : FFMap F) j =>
        let deg := mon.1.getD j 0
        if 0 < deg then
          let tmp := PolyFF.tmpPowPoly n j deg (s.getD j 0)
          if pow = [] then PolyFF.scale tmp mon.2 else PolyFF.mulShift pow tmp j
        else pow) [] with hpow
      clear_value pow
      simp only
      by_cases hd : 0 < mon.1.getD j 0
      · rw [if_pos hd]
        have ht := tmpPowPoly_spec (n := n) (j := j) (by omega) (s.getD j 0) (hn j)
        set tmp := PolyFF.tmpPowPoly n j (mon.1.getD j 0) (s.getD j 0) with htmp
        clear_value tmp
        right
        refine ⟨⟨j, by omega, by omega⟩, ?_⟩
        by_cases hp : pow = []
        · rw [if_pos hp]
          obtain ⟨w1, w2⟩ := C13_scale ht.wf mon.2
          refine ⟨w1, ?_, ?_, ?_⟩
          · intro k hk i hi
            unfold PolyFF.scale at hk
            rw [List.map_map] at hk
            obtain ⟨d, rfl⟩ := ht.keys k hk
            have := DFunLike.congr_fun (set_replicate_toFinsupp (show j < n by omega) d) i
            rw [List.toFinsupp_apply, Finsupp.single_apply, if_neg (by omega)] at this
            exact this
          · rw [w2, ht.den, Finset.prod_range_succ]
            rcases ih with ⟨h1, _⟩ | ⟨_, _, _, _, h5⟩
            · rw [Finset.prod_eq_one (fun i hi => by rw [h1 i (Finset.mem_range.mp hi)]; simp)]
              simp
            · rw [h5 hp]; simp
          · intro h
            unfold PolyFF.scale at h
            obtain ⟨v, _, hv⟩ := ht.ne
            rw [List.map_eq_nil_iff] at h
            rw [h] at hv; simp at hv
        · rw [if_neg hp]
          rcases ih with ⟨_, h2⟩ | ⟨_, h2, h3, h4, h5⟩
          · exact absurd h2 hp
          · obtain ⟨g1, g2, g3⟩ := mulShift_spec (show j < n by omega) h2 h3 ht
            refine ⟨g1, g2, ?_, ?_⟩
            · rw [g3, h4, ht.den, Finset.prod_range_succ]; ring
            · intro h
              by_contra hc
              rw [h, denote_nil] at g3
              rw [h4, ht.den] at g3
              have : ((C mon.2 * ∏ i ∈ Finset.range j, (X i + C (s.getD i 0)) ^ mon.1.getD i 0) *
                  (X j + C (s.getD j 0)) ^ mon.1.getD j 0 : MvPolynomial ℕ F) ≠ 0 := by
                have hx : ∀ i : ℕ, (X i + C (s.getD i 0) : MvPolynomial ℕ F) ≠ 0 := by
                  intro i h0
                  have := congrArg (coeff (Finsupp.single i 1)) h0
                  have hne : ¬ (0 : ℕ →₀ ℕ) = Finsupp.single i 1 := by
                    intro h'; have := DFunLike.congr_fun h' i; simp at this
                  rw [coeff_add, coeff_X, coeff_C, if_neg hne] at this
                  simp at this
                refine mul_ne_zero (mul_ne_zero (by simpa using hc) ?_) (pow_ne_zero _ (hx _))
                rw [Finset.prod_ne_zero_iff]
                intro i _
                exact pow_ne_zero _ (hx _)
              exact this g3.symm
      · rw [if_neg hd]
        have h0 : mon.1.getD j 0 = 0 := by omega
        rcases ih with ⟨h1, h2⟩ | ⟨⟨i, hi, hi'⟩, h2, h3, h4, h5⟩
        · left
          refine ⟨?_, h2⟩
          intro i hi
          rcases Nat.lt_succ_iff_lt_or_eq.mp hi with h | h
          · exact h1 i h
          · rw [h]; exact h0
        · right
          refine ⟨⟨i, by omega, hi'⟩, h2, fun k hk i hi => h3 k hk i (by omega), ?_, h5⟩
          rw [h4, Finset.prod_range_succ, h0]; simp
  exact key n le_rfl

/-- C16, partial: the shifted polynomial for every input, including the constant term that the code
loses: `add_shift(s)` denotes `g(x + s)` where `g` is the polynomial *without its constant
monomial*. The characteristic must exceed all exponents (true for the 63-bit primes in use).
Missing: the constant monomial, which the code drops (`C16_violated`). -/
theorem C16_add_shift_partial {n : ℕ} {a : FFMap F} (ha : WFMap n a) {s : List F} (hs : s.length = n)
    (hchar : ∀ t ∈ a, ∀ j, ∀ i, 0 < i → i ≤ t.1.getD j 0 → (i : F) ≠ 0) :
    ∃ r, PolyFF.addShift n a s = some r ∧ WFMap n r ∧
      denote r = shiftPoly s (denote a - C (coeff 0 (denote a))) := by
  unfold PolyFF.addShift
  rw [if_neg (by simp [hs])]
  refine ⟨_, rfl, ?_⟩
  have key : ∀ (l : FFMap F) (res : FFMap F), (∀ t ∈ l, t ∈ a) → WFMap n res →
      WFMap n (l.foldl (fun (res : FFMap F) mon =>
        let pow := PolyFF.powPoly n s mon
        if pow = [] then res else if res = [] then pow else PolyFF.addAssign res pow) res) ∧
      denote (l.foldl (fun (res : FFMap F) mon =>
        let pow := PolyFF.powPoly n s mon
        if pow = [] then res else if res = [] then pow else PolyFF.addAssign res pow) res) =
      denote res + shiftPoly s (denote l - C (coeff 0 (denote l))) := by
    intro l
    induction l with
    | nil => intro res _ h; refine ⟨h, ?_⟩; simp [shiftPoly]
    | cons t l ih =>
      intro res hl hres
      rw [List.foldl_cons]
      simp only
      have hta : t ∈ a := hl t (by simp)
      have hlen := ha.2 t hta
      have hsplit : shiftPoly s (denote (t :: l) - C (coeff 0 (denote (t :: l)))) =
          shiftPoly s (monomial t.1.toFinsupp t.2 - C (coeff 0 (monomial t.1.toFinsupp t.2))) +
          shiftPoly s (denote l - C (coeff 0 (denote l))) := by
        unfold shiftPoly
        rw [← map_add]
        congr 1
        rw [denote_cons, coeff_add, C_add]; ring
      rw [hsplit]
      rcases powPoly_spec s t hlen (hchar t hta) with ⟨h1, h2⟩ | ⟨⟨i, hi, hi'⟩, h2, h3, h4, h5⟩
      · rw [if_pos h2]
        obtain ⟨g1, g2⟩ := ih res (fun t ht => hl t (by simp [ht])) hres
        refine ⟨g1, ?_⟩
        rw [g2]
        have hz : t.1.toFinsupp = 0 := by
          ext i
          rw [List.toFinsupp_apply]
          by_cases hi : i < n
          · rw [h1 i hi]; rfl
          · rw [List.getD_eq_default _ _ (by omega)]; rfl
        rw [hz, coeff_monomial, if_pos rfl]
        have : (monomial (0 : ℕ →₀ ℕ) t.2 : MvPolynomial ℕ F) = C t.2 := rfl
        rw [this, sub_self]; simp [shiftPoly]
      · have hnz : t.1.toFinsupp ≠ 0 := by
          intro h
          have := DFunLike.congr_fun h i
          rw [List.toFinsupp_apply] at this
          exact hi' this
        have hmon : shiftPoly s (monomial t.1.toFinsupp t.2 -
            C (coeff 0 (monomial t.1.toFinsupp t.2))) = denote (PolyFF.powPoly n s t) := by
          rw [coeff_monomial, if_neg hnz, C_0, sub_zero, shiftPoly_monomial, hlen, h4]
        rw [hmon]
        by_cases hp : PolyFF.powPoly n s t = []
        · rw [if_pos hp]
          obtain ⟨g1, g2⟩ := ih res (fun t ht => hl t (by simp [ht])) hres
          refine ⟨g1, ?_⟩
          rw [g2, hp]; simp
        · rw [if_neg hp]
          by_cases hr : res = []
          · rw [if_pos hr]
            obtain ⟨g1, g2⟩ := ih _ (fun t ht => hl t (by simp [ht])) h2
            refine ⟨g1, ?_⟩
            rw [g2, hr]; simp
          · rw [if_neg hr]
            obtain ⟨w1, w2, _⟩ := C13_add_assign hres h2
            obtain ⟨g1, g2⟩ := ih _ (fun t ht => hl t (by simp [ht])) w1
            refine ⟨g1, ?_⟩
            rw [g2, w2]; ring
  have := key a [] (fun t h => h) (WFMap.nil n)
  simpa using this

/-- C16 for polynomials without constant monomial: `add_shift(s)` denotes `f(x + s)`. -/
theorem C16_add_shift_no_constant_partial {n : ℕ} {a : FFMap F} (ha : WFMap n a) {s : List F}
    (hs : s.length = n) (hchar : ∀ t ∈ a, ∀ j, ∀ i, 0 < i → i ≤ t.1.getD j 0 → (i : F) ≠ 0)
    (hconst : List.replicate n 0 ∉ a.map Prod.fst) :
    ∃ r, PolyFF.addShift n a s = some r ∧ WFMap n r ∧
      ∀ x : ℕ → F, eval x (denote r) = eval (fun i => x i + s.getD i 0) (denote a) := by
  obtain ⟨r, h1, h2, h3⟩ := C16_add_shift_partial ha hs hchar
  refine ⟨r, h1, h2, ?_⟩
  intro x
  have h0 : (List.replicate n 0).toFinsupp = (0 : ℕ →₀ ℕ) := by
    ext i
    rw [List.toFinsupp_apply, List.getD_eq_getElem?_getD, List.getElem?_replicate]
    split <;> simp
  have hc : coeff 0 (denote a) = 0 := by
    have := coeff_denote ha (k := List.replicate n 0) (by simp)
    rw [h0, find?_eq_none.mpr hconst] at this
    exact this
  rw [h3, hc, C_0, sub_zero]
  unfold shiftPoly
  have : (eval x) ((aeval fun i => (X i + C (s.getD i 0) : MvPolynomial ℕ F)) (denote a)) =
      eval (fun i => eval x (X i + C (s.getD i 0))) (denote a) := by
    rw [aeval_def, eval_eval₂]
    simp only [algebraMap_eq]
    rw [show ((eval x).comp (C : F →+* MvPolynomial ℕ F)) = RingHom.id F by ext; simp]
    rfl
  rw [this]
  congr 2
  funext i
  simp

/-- C16 fails for polynomials with a constant term: shifting `x + 1` by one gives `x + 1`, not
`x + 2`, over every field. -/
theorem C16_violated : ∃ (a : FFMap F) (s : List F), WFMap 1 a ∧ s.length = 1 ∧
    ∃ r, PolyFF.addShift 1 a s = some r ∧ denote r ≠ shiftPoly s (denote a) := by
  refine ⟨[([1], 1), ([0], 1)], [1], ⟨by simp, by simp⟩, rfl, ?_⟩
  obtain ⟨r, h1, _, h3⟩ := C16_add_shift_partial (F := F) (n := 1) (a := [([1], 1), ([0], 1)])
    ⟨by simp, by simp⟩ (s := [1]) rfl (by
      intro t ht j i hi hle
      have : i = 1 := by
        rcases List.mem_cons.mp ht with rfl | ht
        · rcases j with _ | j
          · simp at hle; omega
          · simp at hle; omega
        · rw [List.mem_singleton] at ht; subst ht
          rcases j with _ | j
          · simp at hle; omega
          · simp at hle; omega
      rw [this]; simp)
  refine ⟨r, h1, ?_⟩
  rw [h3]
  intro h
  unfold shiftPoly at h
  rw [map_sub, sub_eq_self, aeval_C, algebraMap_eq, C_eq_zero] at h
  rw [denote_cons, denote_cons] at h
  simp at h
  have h01 : ([0] : List ℕ).toFinsupp = 0 := by
    ext i; rw [List.toFinsupp_apply]; rcases i with _ | i <;> simp
  have h11 : ¬ ([1] : List ℕ).toFinsupp = 0 := by
    intro h'; have := DFunLike.congr_fun h' 0; simp at this
  rw [if_pos h01, if_neg h11] at h
  simp at h

/-- a mixed case: `(x y^2)` shifted by `(3, 1)` over the rationals -/
example : PolyFF.addShift 2 ([([1, 2], 1)] : FFMap ℚ) [3, 1] =
    some [([1, 2], 1), ([1, 1], 2), ([1, 0], 1), ([0, 2], 3), ([0, 1], 6), ([0, 0], 3)] := by
  decide +kernel

end FireFly
