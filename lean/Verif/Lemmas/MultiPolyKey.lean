import Verif.Model.MultiPoly
import Verif.Spec.MultiPoly
import Verif.Lemmas.MultiPolyAlg
import Verif.Props.NewtonProps
import Verif.Props.BTProps
/-! # Interpolation of the coefficient of one monomial -/
set_option linter.all false
namespace FireFly.MPoly
open Polynomial
variable {F : Type} [Field F] [DecidableEq F]

/-- the first `i` values -/
noncomputable def vals (y : F) (g : F[X]) (i : ℕ) : List F := (List.range i).map fun j => g.eval (y ^ (j + 1))

lemma vals_length (y : F) (g : F[X]) (i : ℕ) : (vals y g i).length = i := by simp [vals]
lemma vals_succ (y : F) (g : F[X]) (i : ℕ) : vals y g (i + 1) = vals y g i ++ [g.eval (y ^ (i + 1))] := by
  unfold vals; rw [List.range_succ, List.map_append]; rfl
lemma vals_get (y : F) (g : F[X]) (i j : ℕ) (h : j < (vals y g i).length) : (vals y g i)[j] = g.eval (y ^ (j + 1)) := by
  simp [vals]

lemma point_eq (c : Cfg F) (s : ℕ) : c.point (s + 1) = fun k => c.anchor.getD s 0 ^ k := rfl

/-- the Newton form of `i > deg g` values is `g` -/
lemma nested_vals (y : F) (g : F[X]) (i : ℕ) (hi : g.natDegree < i) (hd : DistinctPoints (fun k => y ^ k) i) :
    nested (fun k => y ^ k) 1 (newtonCoeffs (fun k => y ^ k) (vals y g i)) = g := by
  apply eq_of_points (fun k => y ^ k) i hd
  · have := nested_degree (fun k => y ^ k) (newtonCoeffs (fun k => y ^ k) (vals y g i)) 1
    rwa [newtonCoeffs_length, vals_length] at this
  · exact lt_of_le_of_lt degree_le_natDegree (by exact_mod_cast hi)
  · intro j hj
    rw [newton_interpolates (fun k => y ^ k) (vals y g i) (by rwa [vals_length]) j (by rwa [vals_length]), vals_get]

/-- before `g` is determined, the next coefficient does not vanish -/
lemma compAi_ne {y : F} {g : F[X]} (hN : NoLowerDegree y g) {i : ℕ} (hd : DistinctPoints (fun k => y ^ k) (i + 1)) (hi : i ≤ g.natDegree) :
    compAi (fun k => y ^ k) i (g.eval (y ^ (i + 1))) (newtonCoeffs (fun k => y ^ k) (vals y g i)) ≠ 0 := by
  intro h
  have hl : (newtonCoeffs (fun k => y ^ k) (vals y g i)).length = i := by rw [newtonCoeffs_length, vals_length]
  have h2 := (compAi_eq_zero_iff (fun k => y ^ k) (newtonCoeffs (fun k => y ^ k) (vals y g i)) (g.eval (y ^ (i + 1)))
    (by rw [hl]; exact hd)).mp (by rw [hl]; exact h)
  rw [hl] at h2
  obtain ⟨j, hj, hne⟩ := hN i hi (nested (fun k => y ^ k) 1 (newtonCoeffs (fun k => y ^ k) (vals y g i)))
    (by have := nested_degree (fun k => y ^ k) (newtonCoeffs (fun k => y ^ k) (vals y g i)) 1; rwa [hl] at this)
  apply hne
  rcases Nat.lt_or_ge j i with h3 | h3
  · have hd' : DistinctPoints (fun k => y ^ k) i := fun a b h1 h2 h3 h4 => hd a b h1 (by omega) h3 (by omega)
    rw [newton_interpolates (fun k => y ^ k) (vals y g i) (by rwa [vals_length]) j (by rwa [vals_length]), vals_get]
  · have : j = i := by omega
    subst this
    exact h2

lemma newtonPart_spec (c : Cfg F) (s i : ℕ) (key : List ℕ) (g : F[X]) (hd : DistinctPoints (fun k => c.anchor.getD s 0 ^ k) (i + 1))
    (hN : NoLowerDegree (c.anchor.getD s 0) g) (hdeg : ∀ d, c.deg = some d → key.sum + g.natDegree ≤ d ∧ d < 2 ^ 31)
    (hb : ∀ b, c.bounds = some b → g.natDegree ≤ b.getD s 0) :
    let y := c.anchor.getD s 0
    let r := c.newtonPart (s + 1) i key (g.eval (y ^ (i + 1))) (newtonCoeffs (fun k => y ^ k) (vals y g i))
    (r.2 = true → nested (fun k => y ^ k) 1 r.1 = g ∧ r.1.length ≤ i + 1) ∧
    (r.2 = false → r.1 = newtonCoeffs (fun k => y ^ k) (vals y g (i + 1)) ∧ i ≤ g.natDegree) := by
  intro y r
  have hd' : DistinctPoints (fun k => y ^ k) i := fun a b h1 h2 h3 h4 => hd a b h1 (by omega) h3 (by omega)
  have hl : (newtonCoeffs (fun k => y ^ k) (vals y g i)).length = i := by rw [newtonCoeffs_length, vals_length]
  have happ : newtonCoeffs (fun k => y ^ k) (vals y g (i + 1)) = newtonCoeffs (fun k => y ^ k) (vals y g i) ++
      [compAi (fun k => y ^ k) i (g.eval (y ^ (i + 1))) (newtonCoeffs (fun k => y ^ k) (vals y g i))] := by
    rw [vals_succ, newtonCoeffs_append, hl]
  have hfull : g.natDegree ≤ i → nested (fun k => y ^ k) 1 (newtonCoeffs (fun k => y ^ k) (vals y g (i + 1))) = g ∧
      (newtonCoeffs (fun k => y ^ k) (vals y g (i + 1))).length ≤ i + 1 := by
    intro h
    refine ⟨nested_vals y g (i + 1) (by omega) hd, ?_⟩
    rw [newtonCoeffs_length, vals_length]
  have hr : r = c.newtonPart (s + 1) i key (g.eval (y ^ (i + 1))) (newtonCoeffs (fun k => y ^ k) (vals y g i)) := rfl
  unfold Cfg.newtonPart at hr
  rw [point_eq] at hr
  have hyy : c.anchor.getD s 0 = y := rfl
  simp only [hyy, ← happ] at hr
  by_cases h0 : compAi (fun k => y ^ k) i (g.eval (y ^ (i + 1))) (newtonCoeffs (fun k => y ^ k) (vals y g i)) = 0
  · rw [if_pos h0] at hr
    rw [hr]
    refine ⟨fun _ => ?_, fun h => by simp at h⟩
    have hi : g.natDegree < i := by
      by_contra h
      exact compAi_ne hN hd (by omega) h0
    exact ⟨nested_vals y g i hi hd', by rw [hl]; omega⟩
  · rw [if_neg h0] at hr
    by_cases h1 : c.deg.any (fun d => ((d : ℤ) - key.sum) % 2 ^ 32 == (i : ℤ)) = true
    · rw [if_pos h1] at hr
      rw [hr]
      refine ⟨fun _ => hfull ?_, fun h => by simp at h⟩
      obtain ⟨d, hd1, hd2⟩ : ∃ d, c.deg = some d ∧ ((d : ℤ) - key.sum) % 2 ^ 32 = (i : ℤ) := by
        cases hc : c.deg with
        | none => rw [hc] at h1; simp at h1
        | some d => rw [hc] at h1; exact ⟨d, rfl, by simpa using h1⟩
      obtain ⟨h3, h4⟩ := hdeg d hd1
      rw [Int.emod_eq_of_lt (by omega) (by omega)] at hd2
      omega
    · rw [if_neg h1] at hr
      by_cases h2 : c.bounds.any (fun b => b.getD (s + 1 - 1) 0 == i) = true
      · rw [if_pos h2] at hr
        rw [hr]
        refine ⟨fun _ => hfull ?_, fun h => by simp at h⟩
        obtain ⟨b, hb1, hb2⟩ : ∃ b, c.bounds = some b ∧ b.getD s 0 = i := by
          cases hc : c.bounds with
          | none => rw [hc] at h2; simp at h2
          | some b => rw [hc] at h2; exact ⟨b, rfl, by simpa using h2⟩
        have := hb b hb1
        omega
      · rw [if_neg h2] at hr
        rw [hr]
        refine ⟨fun h => by simp at h, fun _ => ⟨rfl, ?_⟩⟩
        by_contra h
        apply h0
        have hz := (compAi_eq_zero_iff (fun k => y ^ k) (newtonCoeffs (fun k => y ^ k) (vals y g i)) (g.eval (y ^ (i + 1)))
          (by rw [hl]; exact hd)).mpr (by rw [hl, nested_vals y g i (by omega) hd'])
        rwa [hl] at hz

lemma expList_length (g : F[X]) : (expList g).length = g.support.card := by
  rw [← List.toFinset_card_of_nodup (expList_nodup g)]
  congr 1
  ext e
  rw [List.mem_toFinset, mem_expList, mem_support_iff]

/-- a step that reports the end has found the right recurrence -/
lemma step_flag {y : F} {g : F[X]} (hB : NoShortRecurrence y g) (h0 : g.eval y ≠ 0) (thr i : ℕ) {st : BMState F}
    (hst : (BMState.init : BMState F).feed thr (vals y g i) = some st) :
    ∃ r, st.step thr (g.eval (y ^ (i + 1))) = some r ∧ (BMState.init : BMState F).feed thr (vals y g (i + 1)) = some r.1 ∧
      (r.2 = true → 2 * g.support.card ≤ i) := by
  have hs0 : (fun j => g.eval (y ^ (j + 1))) 0 ≠ 0 := by simpa using h0
  have hfeed : ∀ r, st.step thr (g.eval (y ^ (i + 1))) = some r → (BMState.init : BMState F).feed thr (vals y g (i + 1)) = some r.1 := by
    intro r hr
    rw [vals_succ, feed_snoc, hst, Option.bind_some, hr]; rfl
  rcases i with _ | i
  · have hst' : st = BMState.init := by
      have : (BMState.init : BMState F).feed thr (vals y g 0) = some BMState.init := by simp [vals, BMState.feed]
      rw [this] at hst; exact (Option.some.inj hst).symm
    subst hst'
    obtain ⟨r, h1, -, h2, -⟩ := BMInv.first (s := fun j => g.eval (y ^ (j + 1))) hs0 thr
    refine ⟨r, by simpa using h1, hfeed r (by simpa using h1), fun h => by rw [h2] at h; cases h⟩
  · obtain ⟨st', h1, h2⟩ := feed_inv (s := fun j => g.eval (y ^ (j + 1))) hs0 thr i
    have : st' = st := by
      have hst2 : (BMState.init : BMState F).feed thr ((List.range (i + 1)).map fun j => g.eval (y ^ (j + 1))) = some st := hst
      rw [hst2] at h1; exact (Option.some.inj h1).symm
    subst this
    obtain ⟨r, h3, h4, h5, h6⟩ := h2.step thr
    refine ⟨r, h3, hfeed r h3, ?_⟩
    intro hflag
    have hz : cv (fun j => g.eval (y ^ (j + 1))) (toP st'.lambda) (i + 1) = 0 := by
      by_contra h
      rw [(h6 h).2] at hflag; cases hflag
    obtain ⟨-, -, h7⟩ := h5 hz
    rw [hflag] at h7
    have h8 : i + 1 + 1 > 2 * st'.l := by
      have := h7.symm
      rw [decide_eq_true_eq] at this
      exact this.2
    by_contra hlt
    have hl : st'.l < g.support.card := by omega
    obtain ⟨j, hj1, hj2, hne⟩ := hB st'.l hl (fun k => st'.lambda.getD k 0)
    apply hne
    have hgen : cv (fun j => g.eval (y ^ (j + 1))) (toP st'.lambda) j = 0 := by
      rcases Nat.lt_or_ge j (i + 1) with h | h
      · exact h2.lam_gen j hj1 h
      · have : j = i + 1 := by omega
        rw [this]; exact hz
    rw [cv_eq] at hgen
    have hlen := toP_natDegree h2.lam_len
    have h1 := h2.lam_one
    have e : ∑ x ∈ Finset.range (j + 1), (toP st'.lambda).coeff x * g.eval (y ^ (j - x + 1)) =
        g.eval (y ^ (j + 1)) + ∑ i ∈ Finset.Icc 1 st'.l, st'.lambda.getD i 0 * g.eval (y ^ (j + 1 - i)) := by
      rw [Finset.sum_range_succ', add_comm]
      congr 1
      · rw [h1]; simp
      · rw [← Finset.sum_subset (s₁ := Finset.range st'.l)]
        · rw [Finset.range_eq_Ico, Finset.sum_Ico_add' (fun x => (toP st'.lambda).coeff x * g.eval (y ^ (j - x + 1))) 0 st'.l 1]
          apply Finset.sum_congr
          · ext x; simp
          · intro x hx
            rw [Finset.mem_Icc] at hx
            rw [toP_coeff, show j - x + 1 = j + 1 - x by omega]
        · intro x hx; rw [Finset.mem_range] at hx ⊢; omega
        · intro x hx hx'
          rw [Finset.mem_range] at hx hx'
          rw [coeff_eq_zero_of_natDegree_lt (by omega), zero_mul]
    rw [← e]
    exact hgen

lemma btPart_spec (c : Cfg F) (s i : ℕ) (key : List ℕ) (g : F[X]) (hy : c.anchor.getD s 0 ≠ 0)
    (hord : ∀ j, 0 < j → j ≤ g.natDegree → c.anchor.getD s 0 ^ j ≠ 1) (hB : NoShortRecurrence (c.anchor.getD s 0) g) (hg : g ≠ 0)
    (hbound : g.natDegree ≤ c.rootBound key) (old : Option (BMState F))
    (hold : (BMState.init : BMState F).feed c.thr (vals (c.anchor.getD s 0) g i) = some (old.getD BMState.init)) :
    ∃ bm res, c.btPart (s + 1) key old (g.eval (c.anchor.getD s 0 ^ (i + 1))) = some (bm, res) ∧
      (res = none ∨ res = some ((expList g).map fun e => (e, g.coeff e))) ∧
      (res = none → (BMState.init : BMState F).feed c.thr (vals (c.anchor.getD s 0) g (i + 1)) = some bm ∧ i < 2 * g.support.card + c.thr) := by
  set y := c.anchor.getD s 0 with hydef
  have hcard : 0 < g.support.card := by
    rw [Finset.card_pos]; exact nonempty_support_iff.mpr hg
  have h0 : g.eval y ≠ 0 := by
    obtain ⟨j, h1, h2, h3⟩ := hB 0 hcard (fun _ => 0)
    have : j = 0 := by omega
    subst this
    simpa using h3
  obtain ⟨r, h1, h2, h3⟩ := step_flag hB h0 c.thr i hold
  unfold Cfg.btPart
  rw [h1]
  simp only [Option.bind_eq_bind, Option.bind_some]
  have hterm : 2 * g.support.card + c.thr ≤ i → r.2 = true := by
    intro hi
    obtain ⟨t, ht⟩ : ∃ t, (expList g).length = t + 1 := ⟨g.support.card - 1, by rw [expList_length]; omega⟩
    have hcf : ∀ k, g.eval (y ^ (k + 1)) = ∑ i : Fin (t + 1), g.coeff ((expList g)[i.1]'(by rw [ht]; exact i.2)) * (y ^ ((expList g)[i.1]'(by rw [ht]; exact i.2))) ^ (k + 1) := by
      intro k
      rw [eval_expList]
      refine Fintype.sum_equiv (finCongr ht) _ _ ?_
      intro x
      simp only [finCongr_apply, Fin.getElem_fin, Fin.val_cast]
      rw [← pow_mul, ← pow_mul, mul_comm (k + 1)]
    have hmem : ∀ k (hk : k < (expList g).length), g.coeff (expList g)[k] ≠ 0 := fun k hk => mem_expList.mp (List.getElem_mem hk)
    have hle : ∀ k (hk : k < (expList g).length), (expList g)[k] ≤ g.natDegree := fun k hk => le_natDegree_of_ne_zero (hmem k hk)
    obtain ⟨st, r', e1, e2, e3⟩ := C35_terminates c.thr (t := t) (fun i => g.coeff ((expList g)[i.1]'(by rw [ht]; exact i.2)))
      (fun i => y ^ ((expList g)[i.1]'(by rw [ht]; exact i.2))) (fun i => hmem _ _) (fun i => pow_ne_zero _ hy)
      (by
        intro i j hij
        simp only at hij
        have key : ∀ a b : ℕ, a < b → b ≤ g.natDegree → y ^ a ≠ y ^ b := by
          intro a b hab hb h
          have : y ^ (b - a) = 1 := by
            have h5 : y ^ b = y ^ a * y ^ (b - a) := by rw [← pow_add]; congr 1; omega
            rw [h5] at h
            exact (mul_left_cancel₀ (pow_ne_zero a hy) (by rw [mul_one]; exact h)).symm
          exact hord (b - a) (by omega) (by omega) this
        rcases Nat.lt_trichotomy ((expList g)[i.1]'(by rw [ht]; exact i.2)) ((expList g)[j.1]'(by rw [ht]; exact j.2)) with h | h | h
        · exact absurd hij (key _ _ h (hle _ _))
        · exact Fin.ext ((expList_nodup g).getElem_inj_iff.mp h)
        · exact absurd hij.symm (key _ _ h (hle _ _)))
      (by have := hcf 0; simp only [zero_add, pow_one] at this; rw [← this]; exact h0)
      (k := i - 2 * (t + 1)) (by rw [← expList_length, ht] at hi; omega)
    have hi' : 2 * (t + 1) + (i - 2 * (t + 1)) = i := by rw [← expList_length, ht] at hi; omega
    rw [hi'] at e1 e2
    have e4 : ((List.range i).map fun k => ∑ x : Fin (t + 1), g.coeff ((expList g)[x.1]'(by rw [ht]; exact x.2)) * (y ^ ((expList g)[x.1]'(by rw [ht]; exact x.2))) ^ (k + 1)) = vals y g i := by
      unfold vals
      apply List.map_congr_left
      intro k _
      rw [hcf]
    rw [e4, hold] at e1
    have e5 := Option.some.inj e1
    rw [← e5, ← hcf, h1] at e2
    rw [Option.some.inj e2]; exact e3
  by_cases hflag : r.2 = true
  · rw [if_pos hflag]
    have hi := h3 hflag
    obtain ⟨st, e1, e2⟩ := C35_recover c.thr g y (c.rootBound key) (i + 1) hy hord hbound h0 (by rw [expList_length]; omega)
    have : st = r.1 := by
      have e1' : (BMState.init : BMState F).feed c.thr (vals y g (i + 1)) = some st := e1
      rw [h2] at e1'; exact (Option.some.inj e1').symm
    subst this
    unfold btFinish at e2
    have hpt : c.point (s + 1) 1 = y := by rw [point_eq]; simp [hydef]
    rw [hpt]
    simp only at e2
    split at e2
    · rename_i hlen
      rw [if_pos hlen]
      obtain ⟨co, hco, e3⟩ := Option.map_eq_some_iff.mp e2
      rw [hco]
      refine ⟨r.1, some ((expList g).map fun e => (e, g.coeff e)), ?_, Or.inr rfl, fun h => by cases h⟩
      simp only [Option.bind_some]
      rw [e3]
    · cases e2
  · rw [if_neg hflag]
    refine ⟨r.1, none, rfl, Or.inl rfl, fun _ => ⟨h2, ?_⟩⟩
    by_contra h
    exact hflag (hterm (by omega))

end FireFly.MPoly
