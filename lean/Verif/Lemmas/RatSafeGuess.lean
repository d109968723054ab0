import Verif.Spec.RatSafe
/-! # Safe interpolation: the guesses, whatever the modulus is -/
set_option linter.all false
namespace FireFly.RRun.Safe
open FFMap

lemma ctor_coprime {n d : ℤ} (hd : 0 < d) (hg : Int.gcd n d = 1) : RationalNumber.ctor n d = some ⟨n, d⟩ := by
  unfold RationalNumber.ctor
  simp only [hg]
  simp [not_lt.mpr hd.le]

/-- the end of both algorithms -/
lemma finish_coef {bad : Prop} [Decidable bad] {n d : ℤ} (h : ¬ bad → Int.gcd n d = 1 ∧ d ≠ 0) (k : RationalNumber → Option (Bool × RationalNumber)) :
    ∃ rn : RationalNumber, (if (if bad then 1 else d) < 0 then (RationalNumber.ctor (-(if bad then 1 else n)) (Int.natAbs (if bad then 1 else d))).bind k else (RationalNumber.ctor (if bad then 1 else n) (if bad then 1 else d)).bind k) = k rn ∧ rn.Valid := by
  suffices hs : ∃ rn : RationalNumber, (if (if bad then 1 else d) < 0 then RationalNumber.ctor (-(if bad then 1 else n)) (Int.natAbs (if bad then 1 else d)) else RationalNumber.ctor (if bad then 1 else n) (if bad then 1 else d)) = some rn ∧ rn.Valid by
    obtain ⟨rn, e, v⟩ := hs
    refine ⟨rn, ?_, v⟩
    by_cases hc : (if bad then 1 else d) < 0
    · rw [if_pos hc] at e ⊢; rw [e]; rfl
    · rw [if_neg hc] at e ⊢; rw [e]; rfl
  by_cases hb : bad
  · simp only [if_pos hb]
    exact ⟨⟨1, 1⟩, by rw [if_neg (by norm_num)]; exact ctor_coprime (by norm_num) (by simp), by norm_num [RationalNumber.Valid], by simp⟩
  · simp only [if_neg hb]
    obtain ⟨h1, h2⟩ := h hb
    by_cases hn : d < 0
    · rw [if_pos hn]
      have h3 : ((Int.natAbs d : ℕ) : ℤ) = -d := by omega
      have h4 : Int.gcd (-n) (-d) = 1 := by rw [Int.gcd_neg, Int.neg_gcd]; exact h1
      rw [h3]
      exact ⟨_, ctor_coprime (by omega) h4, by simp only; omega, h4⟩
    · rw [if_neg hn]
      exact ⟨_, ctor_coprime (by omega) h1, by simp only; omega, h1⟩

lemma ratLoop_total {p : ℤ} (hp : 0 ≤ p) (s : EuState) : ∃ s', ratLoop p s = some s' := by
  induction s using ratLoop.induct (p := p) with
  | case1 s h h0 => rw [h0] at h; simp at h; omega
  | case2 s h h0 ih =>
    rw [ratLoop]; simp only [if_pos h, dif_neg h0]; exact ih
  | case3 s h => rw [ratLoop]; simp only [if_neg h]; exact ⟨_, rfl⟩

lemma wang_below {a p : ℤ} (ha : 0 ≤ a) (hap : a < p) : ∃ ok rn, getRationalCoef a p = some (ok, rn) ∧ rn.Valid := by
  obtain ⟨ok, rn, h1, h2, h3⟩ := C09_sound a p ha hap
  refine ⟨ok, rn, h1, ?_⟩
  cases ok with
  | true => exact represents_valid (h2 rfl).1
  | false => rw [h3 rfl]; exact ⟨by norm_num, by simp⟩

lemma wang_total {a p : ℤ} (ha : 0 ≤ a) (hp : 0 ≤ p) : ∃ ok rn, getRationalCoef a p = some (ok, rn) ∧ rn.Valid := by
  rcases lt_or_ge a p with hlt | hge
  · exact wang_below ha hlt
  rcases eq_or_lt_of_le hp with hp0 | hp0
  · subst hp0
    rcases eq_or_lt_of_le ha with ha0 | ha0
    · subst ha0
      exact ⟨false, ⟨1, 1⟩, by decide +kernel, by norm_num, by decide⟩
    · have h1 : ratLoop 0 { t := 0, newt := 1, r := 0, newr := a } = some { t := 1, newt := 0, r := a, newr := 0 } := by
        rw [ratLoop, if_pos (by nlinarith), dif_neg (by simp only; omega)]
        have : EuState.step { t := 0, newt := 1, r := 0, newr := a } = { t := 1, newt := 0, r := a, newr := 0 } := by simp [EuState.step]
        rw [this, ratLoop, if_neg (by simp)]
      unfold getRationalCoef
      rw [h1]
      simp only [Option.bind_eq_bind, Option.bind_some]
      exact ⟨false, ⟨1, 1⟩, by simp [ctor_coprime], by norm_num, by decide⟩
  · rcases eq_or_lt_of_le hge with heq | hgt
    · subst heq
      have h1 : ratLoop p { t := 0, newt := 1, r := p, newr := p } = some { t := 1, newt := -1, r := p, newr := 0 } := by
        rw [ratLoop, if_pos (by simp only; nlinarith), dif_neg (by simp only; omega)]
        have : EuState.step { t := 0, newt := 1, r := p, newr := p } = { t := 1, newt := -1, r := p, newr := 0 } := by
          simp [EuState.step, Int.tdiv_self hp0.ne']
        rw [this, ratLoop, if_neg (by simp; omega)]
      unfold getRationalCoef
      rw [h1]
      simp only [Option.bind_eq_bind, Option.bind_some]
      obtain ⟨rn, e, v⟩ := finish_coef (bad := (2 * (-1 : ℤ) * -1 > p ∨ Int.gcd 0 (-1) ≠ 1)) (n := 0) (d := -1) (fun _ => by simp) (fun rn => some (!decide (2 * (-1 : ℤ) * -1 > p ∨ Int.gcd 0 (-1) ≠ 1), rn))
      rw [e]
      exact ⟨_, rn, rfl, v⟩
    · have h1 : ratLoop p { t := 0, newt := 1, r := p, newr := a } = ratLoop p { t := 0, newt := 1, r := p, newr := a % p } := by
        rw [ratLoop, if_pos (by simp only; nlinarith), dif_neg (by simp only; omega)]
        have e1 : EuState.step { t := 0, newt := 1, r := p, newr := a } = { t := 1, newt := 0, r := a, newr := p } := by
          have : Int.tdiv p a = 0 := Int.tdiv_eq_zero_of_lt hp hgt
          simp [EuState.step, this]
        rw [e1, ratLoop, if_pos (by simp only; nlinarith), dif_neg (by simp only; omega)]
        have e2 : EuState.step { t := 1, newt := 0, r := a, newr := p } = { t := 0, newt := 1, r := p, newr := a % p } := by
          have : a - Int.tdiv a p * p = a % p := by
            rw [Int.tdiv_eq_ediv_of_nonneg ha]; have := Int.emod_add_mul_ediv a p; linarith [mul_comm p (a / p)]
          simp [EuState.step, this]
        rw [e2]
      have h2 : getRationalCoef a p = getRationalCoef (a % p) p := by unfold getRationalCoef; rw [h1]
      rw [h2]
      exact wang_below (Int.emod_nonneg _ hp0.ne') (Int.emod_lt_of_pos _ hp0)

lemma mqrr_total (a p : ℤ) : ∃ ok rn, getRationalCoefMqrr a p = some (ok, rn) ∧ rn.Valid := by
  unfold getRationalCoefMqrr
  by_cases h0 : a = 0
  · simp only [if_pos h0]
    rw [ctor_coprime (by norm_num) (by simp)]
    exact ⟨_, _, rfl, by norm_num, by simp⟩
  · simp only [if_neg h0]
    obtain ⟨s, hs⟩ : ∃ s, s = mqLoop { n := 0, d := 0, t0 := 0, t1 := 1, r0 := p, r1 := a, T := 1024 * (sizeInBase2 p : ℤ) } := ⟨_, rfl⟩
    rw [← hs]
    simp only [Option.bind_eq_bind]
    obtain ⟨rn, e, v⟩ := finish_coef (bad := (s.d = 0 ∨ Int.gcd s.n s.d ≠ 1)) (n := s.n) (d := s.d) (fun h => by push Not at h; exact ⟨h.2, h.1⟩) (fun rn => some (!decide (s.d = 0 ∨ Int.gcd s.n s.d ≠ 1), rn))
    rw [e]
    exact ⟨_, rn, rfl, v⟩

lemma guessOne_total {r M : ℤ} (hr : 0 ≤ r) (hM : 0 ≤ M) : ∃ o, guessOne r M = some o ∧ ∀ rn, o = some rn → rn.Valid := by
  obtain ⟨ok, rn, e, v⟩ := wang_total hr hM
  obtain ⟨ok2, rn2, e2, v2⟩ := mqrr_total r M
  unfold guessOne
  rw [e, e2]
  simp only [Option.bind_eq_bind, Option.bind_some]
  cases ok
  · cases ok2
    · exact ⟨none, rfl, by simp⟩
    · exact ⟨some rn2, rfl, fun _ h => by cases h; exact v2⟩
  · exact ⟨some rn, rfl, fun _ h => by cases h; exact v⟩

/-- The guesses keep what is known, add the other monomials, and are valid fractions. -/
lemma recSide_total {M : ℤ} (hM : 0 ≤ M) : ∀ (comb : MpzMap) (g : RnMap), (g.map Prod.fst ++ comb.map Prod.fst).Nodup → (∀ t ∈ g, t.2.Valid) → (∀ t ∈ comb, 0 ≤ t.2) →
    ∃ g' ok, recSide M comb g = some (g', ok) ∧ (∀ t ∈ g', t.2.Valid) ∧ (g'.map Prod.fst).Nodup ∧ (∀ t ∈ g, t ∈ g') ∧ (∀ e ∈ g'.map Prod.fst, e ∈ g.map Prod.fst ++ comb.map Prod.fst)
  | [], g, hnd, hv, _ => ⟨g, true, rfl, hv, by simpa using hnd, fun _ h => h, fun e he => by simpa using he⟩
  | t :: ts, g, hnd, hv, hc => by
    obtain ⟨o, e, s1⟩ := guessOne_total (hc t (by simp)) hM
    unfold recSide
    rw [e]
    simp only [Option.bind_eq_bind, Option.bind_some]
    cases o with
    | none =>
      exact ⟨g, false, rfl, hv, (List.nodup_append.mp hnd).1, fun _ h => h, fun e he => List.mem_append_left _ he⟩
    | some rn =>
      have hk : t.1 ∉ g.map Prod.fst := fun hk => (List.nodup_append.mp hnd).2.2 _ hk t.1 (by simp) rfl
      have hset : g.set t.1 rn = g ++ [(t.1, rn)] := by
        unfold FFMap.set
        rw [find?_eq_none.mpr hk]
        rfl
      obtain ⟨g', ok, e', r1, r2, r3, r4⟩ := recSide_total hM ts (g.set t.1 rn) (by
          rw [keys_set, if_neg hk, List.append_assoc, List.singleton_append]
          simpa using hnd) (by
          intro s hs
          rcases mem_set hs with hs | rfl
          · exact hv s hs
          · exact s1 rn rfl) (fun s hs => hc s (List.mem_cons_of_mem _ hs))
      refine ⟨g', ok, e', r1, r2, fun s hs => r3 s ?_, fun x hx => ?_⟩
      · rw [hset]; exact List.mem_append_left _ hs
      · have := r4 x hx
        rw [keys_set, if_neg hk, List.append_assoc, List.singleton_append] at this
        simpa using this

end FireFly.RRun.Safe
