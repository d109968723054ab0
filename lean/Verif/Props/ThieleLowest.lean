import Verif.Props.ThieleProps
import Mathlib.RingTheory.Coprime.Lemmas
import Mathlib.Algebra.Polynomial.FieldDivision
set_option linter.all false
/-! # C19: the result of the Thiele interpolation is in lowest terms and holds no zero coefficient -/
namespace FireFly
open Polynomial FFMap
variable {F : Type} [Field F] [DecidableEq F]

/-! ### lowest terms -/

/-- The continued fraction of a rational function in lowest terms, built from values of this function without a
division by zero, is in lowest terms. -/
lemma cf_coprime : ∀ (l : List (F × F)) (n d : F[X]), l ≠ [] → IsCoprime n d →
    (cfPoly l).1 * d = n * (cfPoly l).2 →
    (∀ l1 q l2, l = l1 ++ q :: l2 → d.eval q.2 ≠ 0 ∧ residual q.2 l1 (n.eval q.2 / d.eval q.2) = some q.1) →
    IsCoprime (cfPoly l).1 (cfPoly l).2
  | [], _, _, h, _, _, _ => absurd rfl h
  | p :: l, n, d, _, hnd, heq, hch => by
    by_cases hl : l = []
    · subst hl
      simp only [cfPoly]
      exact isCoprime_one_right
    obtain ⟨h0, h1⟩ := hch [] p l rfl
    have h1 : n.eval p.2 / d.eval p.2 = p.1 := Option.some.inj h1
    have hroot : (n - C p.1 * d).IsRoot p.2 := by
      simp only [IsRoot.def, eval_sub, eval_mul, eval_C]
      rw [← h1]; field_simp; ring
    obtain ⟨m, hm⟩ := dvd_iff_isRoot.mpr hroot
    have hX : (X - C p.2 : F[X]) ≠ 0 := X_sub_C_ne_zero _
    have hcop : IsCoprime d m := by
      have e : n = C p.1 * d + (X - C p.2) * m := by rw [← hm]; ring
      rw [e] at hnd
      have : IsCoprime ((X - C p.2) * m) d := by
        have := hnd
        rw [add_comm] at this
        exact (IsCoprime.add_mul_right_left_iff (z := C p.1)).mp (by simpa [mul_comm] using this)
      exact (IsCoprime.of_mul_left_right this).symm
    have heq' : (cfPoly l).1 * m = d * (cfPoly l).2 := by
      unfold cfPoly at heq
      apply mul_left_cancel₀ hX
      have e : (X - C p.2) * m = n - C p.1 * d := hm.symm
      linear_combination (cfPoly l).1 * e - heq
    have ih := cf_coprime l d m hl hcop heq' (by
      intro l1 q l2 e
      obtain ⟨g0, g1⟩ := hch (p :: l1) q l2 (by rw [e]; rfl)
      unfold residual at g1
      obtain ⟨w, hw, g1⟩ := Option.bind_eq_some_iff.mp g1
      obtain ⟨k0, rfl⟩ := divChecked_some hw
      have ev : (q.2 - p.2) * m.eval q.2 = n.eval q.2 - p.1 * d.eval q.2 := by
        have := congrArg (eval q.2) hm
        simpa using this.symm
      have hne : n.eval q.2 - p.1 * d.eval q.2 ≠ 0 := by
        intro hz
        apply k0
        field_simp
        linear_combination hz
      have hm0 : m.eval q.2 ≠ 0 := by
        intro hz; rw [hz, mul_zero] at ev; exact hne ev.symm
      refine ⟨hm0, ?_⟩
      rw [← g1]
      congr 1
      have hne2 : n.eval q.2 / d.eval q.2 - p.1 ≠ 0 := k0
      rw [div_eq_div_iff hm0 hne2]
      field_simp
      linear_combination -ev)
    have hN : (cfPoly l).1.eval p.2 ≠ 0 := by
      intro hz
      have e := congrArg (eval p.2) heq'
      rw [eval_mul, eval_mul, hz, zero_mul] at e
      have hD : (cfPoly l).2.eval p.2 = 0 := by
        rcases mul_eq_zero.mp e.symm with h | h
        · exact absurd h h0
        · exact h
      obtain ⟨a, b, hab⟩ := ih
      have := congrArg (eval p.2) hab
      simp [hz, hD] at this
    have hX2 : IsCoprime (X - C p.2) (cfPoly l).1 := by
      refine ((irreducible_X_sub_C p.2).coprime_iff_not_dvd).mpr ?_
      rw [dvd_iff_isRoot]; exact hN
    show IsCoprime (C p.1 * (cfPoly l).1 + (X - C p.2) * (cfPoly l).2) (cfPoly l).1
    have h3 : IsCoprime ((X - C p.2) * (cfPoly l).2) (cfPoly l).1 := hX2.mul_left ih.symm
    rw [add_comm, mul_comm (C p.1)]
    exact IsCoprime.add_mul_left_left h3 _

lemma Fed.splitAt' {l pts : List (F × F)} (h : Fed l pts) : ∀ l1 q l2, l = l1 ++ q :: l2 →
    ∃ f, (f, q.2) ∈ pts ∧ residual q.2 l1 f = some q.1 := by
  induction h with
  | nil => intro l1 q l2 e; simp at e
  | @snoc l pts f x b hf hr ih =>
    intro l1 q l2 e
    rcases List.eq_nil_or_concat l2 with rfl | ⟨l2', z, rfl⟩
    · obtain ⟨e1, e2⟩ := List.append_inj' e rfl
      have e2 : (b, x) = q := by simpa using e2
      subst e1; subst e2
      exact ⟨f, by simp, hr⟩
    · have e' : l ++ [(b, x)] = (l1 ++ q :: l2') ++ [z] := by rw [e]; simp
      obtain ⟨e1, -⟩ := List.append_inj' e' rfl
      obtain ⟨f', hf', hr'⟩ := ih l1 q l2' e1
      exact ⟨f', by simp [hf'], hr'⟩

/-! ### no zero coefficients -/

/-- no zero is stored -/
def NZ (m : FFMap F) : Prop := ∀ t ∈ m, t.2 ≠ 0

lemma mem_emplace {m : FFMap F} {k : List ℕ} {v : F} {t : List ℕ × F} (h : t ∈ m.emplace k v) : t ∈ m ∨ t = (k, v) := by
  unfold FFMap.emplace at h
  split at h
  · exact Or.inl h
  · rcases List.mem_append.mp h with h | h
    · exact Or.inl h
    · exact Or.inr (List.mem_singleton.mp h)

lemma NZ.emplace {m : FFMap F} (h : NZ m) {k : List ℕ} {v : F} (hv : v ≠ 0) : NZ (m.emplace k v) := by
  intro t ht
  rcases mem_emplace ht with ht | rfl
  · exact h t ht
  · exact hv

lemma NZ.addStep {m : FFMap F} (h : NZ m) {el : List ℕ × F} (hv : el.2 ≠ 0) : NZ (PolyFF.addStep m el) := by
  unfold PolyFF.addStep
  split
  · exact h.emplace hv
  · rename_i v _
    have hset : ∀ t ∈ m.set el.1 (v + el.2), t ∈ m ∨ t = (el.1, v + el.2) := by
      intro t ht
      unfold FFMap.set at ht
      split at ht
      · obtain ⟨s, hs, rfl⟩ := List.mem_map.mp ht
        split
        · exact Or.inr rfl
        · exact Or.inl hs
      · rcases List.mem_append.mp ht with ht | ht
        · exact Or.inl ht
        · exact Or.inr (List.mem_singleton.mp ht)
    split
    · intro t ht
      unfold FFMap.erase at ht
      obtain ⟨h1, h2⟩ := List.mem_filter.mp ht
      rcases hset t h1 with h1 | rfl
      · exact h t h1
      · simp at h2
    · rename_i hne
      intro t ht
      rcases hset t ht with h1 | rfl
      · exact h t h1
      · exact hne

lemma NZ.foldAdd {b : FFMap F} : ∀ (a m : FFMap F), NZ m → NZ a → NZ (a.foldl PolyFF.addStep m)
  | [], m, h, _ => h
  | t :: a, m, h, ha => by
    rw [List.foldl_cons]
    exact NZ.foldAdd (b := b) a _ (h.addStep (ha t (by simp))) (fun s hs => ha s (List.mem_cons_of_mem _ hs))

lemma NZ.add {a b : FFMap F} (ha : NZ a) (hb : NZ b) : NZ (PolyFF.add a b) := by
  unfold PolyFF.add
  split
  · exact NZ.foldAdd (b := b) a b hb ha
  · exact NZ.foldAdd (b := b) b a ha hb

lemma NZ.scale {a : FFMap F} (ha : NZ a) {c : F} (hc : c ≠ 0) : NZ (PolyFF.scale a c) := by
  intro t ht
  unfold PolyFF.scale at ht
  obtain ⟨s, hs, rfl⟩ := List.mem_map.mp ht
  exact mul_ne_zero (ha s hs) hc

lemma NZ.mulVar {a : FFMap F} (ha : NZ a) (z : ℕ) : NZ (PolyFF.mulVar a z) := by
  unfold PolyFF.mulVar
  have : ∀ (l m : FFMap F), NZ m → NZ l → NZ (l.foldl (fun m t => m.emplace (incrAt t.1 (z - 1)) t.2) m) := by
    intro l
    induction l with
    | nil => intro m h _; exact h
    | cons t l ih =>
      intro m h hl
      rw [List.foldl_cons]
      exact ih _ (h.emplace (hl t (by simp))) (fun s hs => hl s (List.mem_cons_of_mem _ hs))
  exact this a [] (by intro t h; simp at h) ha

lemma NZ.single {k : List ℕ} {v : F} (h : v ≠ 0) : NZ [(k, v)] := by
  intro t ht
  rw [List.mem_singleton] at ht
  subst ht
  exact h

lemma loop_nz (s : Thiele F) : ∀ (i : ℕ) (r : FFMap F × FFMap F), NZ r.1 → NZ r.2 →
    (∀ j, 1 ≤ j → j ≤ i → s.ai.getD j 0 ≠ 0 ∧ s.ti.getD j 0 ≠ 0) → NZ (s.loop i r).1 ∧ NZ (s.loop i r).2
  | 0, r, h1, h2, _ => ⟨h1, h2⟩
  | i + 1, r, h1, h2, h => by
    unfold Thiele.loop
    obtain ⟨ha, ht⟩ := h (i + 1) (by omega) le_rfl
    exact loop_nz s i _ (((h1.scale ha).add (h2.mulVar 1)).add (h2.scale (neg_ne_zero.mpr ht))) h1
      (fun j hj hji => h j hj (by omega))

lemma construct_nz (s : Thiele F) (h0 : s.ai ≠ []) (h : ∀ j, j < s.ai.length → s.ai.getD j 0 ≠ 0 ∧ s.ti.getD j 0 ≠ 0) :
    NZ s.construct.1 ∧ NZ s.construct.2 := by
  have hpos : 0 < s.ai.length := List.length_pos_of_ne_nil h0
  unfold Thiele.construct
  split
  · exact ⟨NZ.single (h 0 hpos).1, NZ.single one_ne_zero⟩
  · rename_i h1
    have hi : NZ s.iterate.1 ∧ NZ s.iterate.2 := by
      unfold Thiele.iterate
      exact loop_nz s _ _ (NZ.single (h _ (by omega)).1) (NZ.single one_ne_zero) (fun j h1 h2 => h j (by omega))
    simp only
    exact ⟨((hi.1.scale (h 0 hpos).1).add (hi.2.scale (neg_ne_zero.mpr (h 0 hpos).2))).add (hi.2.mulVar 1), hi.1⟩

lemma residual_ne_zero {x b : F} : ∀ (l : List (F × F)) (r : F), l ≠ [] → (∀ q ∈ l, q.2 ≠ x) → residual x l r = some b → b ≠ 0
  | [], _, h, _, _ => absurd rfl h
  | p :: l, r, _, hx, h => by
    unfold residual at h
    obtain ⟨w, hw, h⟩ := Option.bind_eq_some_iff.mp h
    obtain ⟨h0, rfl⟩ := divChecked_some hw
    by_cases hl : l = []
    · subst hl
      have : (x - p.2) / (r - p.1) = b := Option.some.inj h
      rw [← this]
      exact div_ne_zero (sub_ne_zero.mpr (hx p (by simp)).symm) h0
    · exact residual_ne_zero l _ hl (fun q hq => hx q (List.mem_cons_of_mem _ hq)) h

lemma Fed.snd {l pts : List (F × F)} (h : Fed l pts) : l.map Prod.snd = pts.map Prod.snd := by
  induction h with
  | nil => rfl
  | snoc _ _ ih => simp [ih]

/-- **C19 (lowest terms).** If in addition to the hypotheses of `C19_recover` the function is given in lowest terms `n/d`,
then the result is `n`, `d` up to a common nonzero constant. If moreover no point is zero and the first value is not
zero, no zero coefficient is stored: the monomials of the result are exactly those of `n` and `d`. -/
theorem C19_lowest_terms {pts : List (F × F)} (hlen : pts.length < 2 ^ 32) {s : Thiele F} {n d : F[X]} (hcop : IsCoprime n d)
    (hdata : ∀ pt ∈ pts, d.eval pt.2 ≠ 0 ∧ pt.1 = n.eval pt.2 / d.eval pt.2)
    (hdist : (pts.map Prod.snd).Nodup)
    (h : ({} : Thiele F).runChecked pts = some (s, true))
    (hm1 : 2 * d.natDegree ≤ s.ti.length) (hm2 : 2 * n.natDegree ≤ s.ti.length + 1) :
    WFMap 1 s.getResult.1 ∧ WFMap 1 s.getResult.2 ∧
    (∃ u : F, u ≠ 0 ∧ (∀ e, (s.getResult.1.find? [e]).getD 0 = u * n.coeff e) ∧ (∀ e, (s.getResult.2.find? [e]).getD 0 = u * d.coeff e)) ∧
    ((∀ pt ∈ pts, pt.2 ≠ 0) → (pts.headD (0, 0)).1 ≠ 0 →
      (∀ t ∈ s.getResult.1, t.2 ≠ 0) ∧ (∀ t ∈ s.getResult.2, t.2 ≠ 0)) := by
  obtain ⟨N, D, hD0, hcross, hN, hD⟩ := C19_recover hlen hdata hdist h hm1 hm2
  obtain ⟨used, f, y, rest, e, hf⟩ := (run_step pts {} [] running_initial _ h).2 rfl
  simp only [List.nil_append] at hf
  have hu : used.length < 2 ^ 32 := by rw [e] at hlen; simp at hlen; omega
  have hlev : ({ s with ti := s.ti.dropLast } : Thiele F).levels = s.ai.zip (used.map Prod.snd) := by
    simp only [Thiele.levels]
    rw [hf.ti, List.dropLast_concat]
  have hai : s.ai ≠ [] := by
    intro h0
    have : s.ai.length = 0 := by rw [h0]; rfl
    have := hf.len; have := hf.pos; omega
  have hc := construct_spec ({ s with ti := s.ti.dropLast } : Thiele F) hai
    (by simp only; rw [hf.ti, List.dropLast_concat, List.length_map, hf.len])
    (by simp only; rw [hf.len]; exact hu)
  rw [hlev] at hc
  set l := s.ai.zip (used.map Prod.snd) with hl
  have hll : l.length = used.length := by simp [hl, hf.len]
  have eN : N = (cfPoly l).1 := by ext k; rw [← hN]; exact hc.1.coeff k
  have eD : D = (cfPoly l).2 := by ext k; rw [← hD]; exact hc.2.coeff k
  have husd : ∀ pt ∈ used, pt ∈ pts := fun pt hpt => by rw [e]; simp [hpt]
  have hsplit := hf.fed.splitAt'
  have hcp : IsCoprime N D := by
    rw [eN, eD]
    apply cf_coprime l n d (by intro h0; rw [h0] at hll; have := hf.pos; simp at hll; omega) hcop
    · rw [← eN, ← eD]; exact hcross
    · intro l1 q l2 el
      obtain ⟨f', hf', hr⟩ := hsplit l1 q l2 el
      obtain ⟨a, b⟩ := hdata _ (husd _ hf')
      refine ⟨a, ?_⟩
      rw [← b]; exact hr
  refine ⟨hc.1.wf, hc.2.wf, ?_, ?_⟩
  · have hd0 : d ≠ 0 := by
      rintro rfl
      have : (f, y) ∈ pts := by rw [e]; simp
      exact (hdata _ this).1 (by simp)
    have dv1 : d ∣ D := by
      have : d ∣ n * D := ⟨N, by rw [← hcross]; ring⟩
      exact hcop.symm.dvd_of_dvd_mul_left this
    have dv2 : D ∣ d := by
      have : D ∣ N * d := ⟨n, by rw [hcross]; ring⟩
      exact hcp.symm.dvd_of_dvd_mul_left this
    obtain ⟨q, hq⟩ := dv1
    have hqu : IsUnit q := by
      obtain ⟨q', hq'⟩ := dv2
      rw [hq] at hq'
      have : d * (q * q' - 1) = 0 := by linear_combination -hq'
      rcases mul_eq_zero.mp this with h0 | h0
      · exact absurd h0 hd0
      · exact IsUnit.of_mul_eq_one q' (by linear_combination h0)
    obtain ⟨u, hu0, rfl⟩ := Polynomial.isUnit_iff.mp hqu
    refine ⟨u, hu0.ne_zero, ?_, ?_⟩
    · intro k
      rw [hN]
      have : N = n * C u := by
        apply mul_right_cancel₀ hd0
        rw [hcross, hq]; ring
      rw [this, coeff_mul_C, mul_comm]
    · intro k
      rw [hD, hq, coeff_mul_C, mul_comm]
  · intro ht0 hfst
    apply construct_nz ({ s with ti := s.ti.dropLast } : Thiele F) hai
    intro j hj
    have hj : j < s.ai.length := hj
    simp only
    rw [hf.ti, List.dropLast_concat]
    have hjl : j < l.length := by rw [hll, ← hf.len]; exact hj
    have hq : l.getD j (0, 0) = (s.ai.getD j 0, (used.map Prod.snd).getD j 0) := zip_getD hjl
    have hsp : l = l.take j ++ l.getD j (0, 0) :: l.drop (j + 1) := by
      rw [List.getD_eq_getElem _ _ hjl, ← List.drop_eq_getElem_cons hjl, List.take_append_drop]
    obtain ⟨f', hf', hr⟩ := hsplit _ _ _ hsp
    rw [hq] at hf' hr
    refine ⟨?_, ht0 _ (husd _ hf')⟩
    by_cases hj0 : j = 0
    · subst hj0
      have hh : f' = s.ai.getD 0 0 := Option.some.inj hr
      obtain ⟨u0, us, rfl⟩ : ∃ u0 us, used = u0 :: us := by
        rcases used with _ | ⟨u0, us⟩
        · have := hf.pos; simp at this
        · exact ⟨u0, us, rfl⟩
      have hnd : ((u0 :: us).map Prod.snd).Nodup := by
        rw [e, List.map_append] at hdist
        exact (List.nodup_append.mp hdist).1
      have h1 : f' = u0.1 := by
        simp only [List.map_cons, List.getD_cons_zero] at hf'
        rcases List.mem_cons.mp hf' with h2 | h2
        · rw [← h2]
        · rw [List.map_cons, List.nodup_cons] at hnd
          exact absurd (List.mem_map.mpr ⟨_, h2, rfl⟩) hnd.1
      rw [← hh, h1]
      rw [e] at hfst
      simpa using hfst
    · have hndl : (l.map Prod.snd).Nodup := by
        have hs := hf.fed.snd
        rw [hs]
        rw [e, List.map_append] at hdist
        exact (List.nodup_append.mp hdist).1
      apply residual_ne_zero _ _ _ _ hr
      · intro h0
        have := congrArg List.length h0
        rw [List.length_take, List.length_nil] at this
        omega
      · intro q hq' he
        rw [hsp, List.map_append, List.map_cons, hq] at hndl
        exact (List.nodup_append.mp hndl).2.2 q.2 (List.mem_map_of_mem hq') _ (by simp) he

end FireFly
