import Verif.Lemmas.FactorPrimes
set_option linter.all false
/-! # The rounds of the factor scan -/
namespace FireFly
open Polynomial FFMap

/-- a function has a factor -/
def HasFactor (hN hD : ℕ → ℚ[X]) (i : ℕ) : Prop := hN i ≠ 1 ∨ hD i ≠ 1

/-- what is known about a function -/
def ResBoth (M : ℤ) (hN hD : ℕ → ℚ[X]) (c : MpzMap × MpzMap) (i : ℕ) : Prop := ResSide M (hN i) c.1 ∧ ResSide M (hD i) c.2

section
variable {items : ℕ} {hN hD : ℕ → ℚ[X]} {rs : List FacRound}

lemma Reported.mono {rs' : List FacRound} (hp : rs <+: rs') {t : ℕ × RnMap × RnMap} (h : Reported items hN hD rs t) : Reported items hN hD rs' t := by
  rcases h with h | ⟨pre, r, h1, h2, h3⟩
  · exact Or.inl h
  · exact Or.inr ⟨pre, r, h1, h2.trans hp, h3⟩

lemma primeProduct_pos (rs : List FacRound) : 0 < primeProduct rs := by
  unfold primeProduct
  induction rs with
  | nil => simp
  | cons r rs ih => rw [List.map_cons, List.prod_cons]; have : (0 : ℤ) < r.p := by exact_mod_cast r.prime.out.pos
                    positivity

lemma primeProduct_append (rs : List FacRound) (r : FacRound) : primeProduct (rs ++ [r]) = primeProduct rs * r.p := by simp [primeProduct]

lemma primeProduct_coprime (rs : List FacRound) (r : FacRound) (h : r.p ∉ rs.map FacRound.p) : IsCoprime (primeProduct rs) (r.p : ℤ) := by
  unfold primeProduct
  induction rs with
  | nil => simpa using isCoprime_one_left
  | cons s rs ih =>
    rw [List.map_cons, List.prod_cons]
    simp only [List.map_cons, List.mem_cons, not_or] at h
    refine IsCoprime.mul_left ?_ (ih h.2)
    rw [Nat.isCoprime_iff_coprime, Nat.coprime_primes s.prime.out r.prime.out]
    exact fun e => h.1 e.symm

/-- the decision about one function -/
lemma decide_spec52 (r : FacRound) {M Mold : ℤ} (h0 : 0 < Mold) (hle : Mold ≤ M) (hdvd : Mold ∣ M) {c : MpzMap × MpzMap} {i : ℕ} (hc : ResBoth Mold hN hD c i)
    (ln : @ListsMod r.p r.prime (hN i) (r.canon i).1) (ld : @ListsMod r.p r.prime (hD i) (r.canon i).2) (gn : GoodPrime r.p (hN i)) (gd : GoodPrime r.p (hD i)) (mn : (hN i).Monic) (md : (hD i).Monic) :
    ∃ o, facDecide r M c i = some o ∧
      (∀ g, o = some g → (AgreesMod Mold (hN i) g.1 ∧ (hN i ≠ 1 → @valueAt r.p r.prime g.1 (r.rand i) = @trueAt r.p r.prime (hN i) (r.rand i))) ∧
        AgreesMod Mold (hD i) g.2 ∧ (hD i ≠ 1 → @valueAt r.p r.prime g.2 (r.rand i) = @trueAt r.p r.prime (hD i) (r.rand i))) ∧
      (M = Mold → SmallFor Mold (hN i) → SmallFor Mold (hD i) → ∃ g, o = some g ∧ Exactly (hN i) g.1 ∧ Exactly (hD i) g.2) := by
  haveI := r.prime
  obtain ⟨on, en, an, xn⟩ := guess_side hc.1 h0 hle hdvd
  obtain ⟨od, ed, ad, xd⟩ := guess_side hc.2 h0 hle hdvd
  unfold facDecide
  rw [en]
  cases on with
  | none =>
    refine ⟨none, by simp, by simp, fun h1 h2 _ => ?_⟩
    obtain ⟨g, h, -⟩ := xn h1 h2
    cases h
  | some ga =>
    cases od with
    | none =>
      refine ⟨none, by simp [ed], by simp, fun h1 _ h2 => ?_⟩
      obtain ⟨g, h, -⟩ := xd h1 h2
      cases h
    | some gb =>
      obtain ⟨b1, t1, v1⟩ := test_side ln gn mn ga (an ga rfl).2.1 (r.rand i)
      obtain ⟨b2, t2, v2⟩ := test_side ld gd md gb (ad gb rfl).2.1 (r.rand i)
      refine ⟨if b1 = true ∧ b2 = true then some (ga, gb) else none, ?_, ?_, ?_⟩
      · simp only [ed, Option.bind_eq_bind, Option.bind_some, t1, t2]
        cases b1 <;> cases b2 <;> simp
      · intro g hg
        split_ifs at hg with hb
        cases hg
        exact ⟨⟨an ga rfl, v1.1 hb.1⟩, ad gb rfl, v2.1 hb.2⟩
      · intro h1 h2 h3
        obtain ⟨g, h, hx⟩ := xn h1 h2
        obtain ⟨g', h', hx'⟩ := xd h1 h3
        cases h; cases h'
        rw [if_pos ⟨v1.2 fun h => exactly_value hx h _, v2.2 fun h => exactly_value hx' h _⟩]
        exact ⟨_, rfl, hx, hx'⟩

/-- the state within a round: `todo` are the functions not yet visited -/
structure FacRInv (items : ℕ) (hN hD : ℕ → ℚ[X]) (pre : List FacRound) (r : FacRound) (todo : List ℕ) (st : FacState) : Prop where
  lt : ∀ i ∈ st.active, i < items
  nodup : st.active.Nodup
  before : ∀ i ∈ st.active, i ∈ todo → ResBoth (primeProduct pre) hN hD (st.comb i) i
  after : ∀ i ∈ st.active, i ∉ todo → ResBoth (primeProduct (pre ++ [r])) hN hD (st.comb i) i ∧ st.M = primeProduct (pre ++ [r])
  modulus : st.M = primeProduct pre ∨ st.M = primeProduct (pre ++ [r])
  small : AllSmall items hN hD (primeProduct pre) → st.M = primeProduct pre
  out : ∀ t ∈ st.out, Reported items hN hD (pre ++ [r]) t
  once : ∀ i < items, (i ∈ st.active ∨ i ∈ st.out.map Prod.fst ↔ HasFactor hN hD i)
  disj : ∀ i ∈ st.active, i ∉ st.out.map Prod.fst
  outNodup : (st.out.map Prod.fst).Nodup
  outLt : ∀ i ∈ st.out.map Prod.fst, i < items

/-- the state between the rounds -/
structure FacSInv (items : ℕ) (hN hD : ℕ → ℚ[X]) (pre : List FacRound) (st : FacState) : Prop where
  lt : ∀ i ∈ st.active, i < items
  nodup : st.active.Nodup
  res : ∀ i ∈ st.active, ResBoth (primeProduct pre) hN hD (st.comb i) i
  modulus : st.active ≠ [] → st.M = primeProduct pre
  out : ∀ t ∈ st.out, Reported items hN hD pre t
  once : ∀ i < items, (i ∈ st.active ∨ i ∈ st.out.map Prod.fst ↔ HasFactor hN hD i)
  disj : ∀ i ∈ st.active, i ∉ st.out.map Prod.fst
  outNodup : (st.out.map Prod.fst).Nodup
  outLt : ∀ i ∈ st.out.map Prod.fst, i < items

lemma step_spec52 {inv : ℤ → ℤ → ℤ} (hinv : InvertSpec inv) {pre : List FacRound} {r : FacRound} (hpre : pre ≠ []) (hs : Sees items hN hD (pre ++ [r])) {i : ℕ} {todo : List ℕ} (hi : i ∉ todo) (hlt : i < items)
    {st : FacState} (h : FacRInv items hN hD pre r (i :: todo) st) :
    ∃ st', facStep inv r (primeProduct pre) st i = some st' ∧ FacRInv items hN hD pre r todo st' := by
  haveI := r.prime
  unfold facStep
  by_cases hact : i ∈ st.active
  swap
  · rw [if_neg hact]
    refine ⟨st, rfl, ⟨h.lt, h.nodup, fun j hj hj' => h.before j hj (by simp [hj']), fun j hj hj' => h.after j hj ?_, h.modulus, h.small, h.out, h.once, h.disj, h.outNodup, h.outLt⟩⟩
    simp only [List.mem_cons, not_or]
    exact ⟨by rintro rfl; exact hact hj, hj'⟩
  · rw [if_pos hact]
    have hmem : r ∈ pre ++ [r] := by simp
    have ln := hs.num r hmem i hlt
    have ld := hs.den r hmem i hlt
    have gn := hs.goodNum r hmem i hlt
    have gd := hs.goodDen r hmem i hlt
    have mn := hs.monicNum i hlt
    have md := hs.monicDen i hlt
    have hfac : HasFactor hN hD i := (h.once i hlt).1 (Or.inl hact)
    have hne : r.canon i ≠ ([], []) := by
      intro e
      rcases hfac with hf | hf
      · exact hf ((canon_nil ln gn mn).1 (by rw [e]))
      · exact hf ((canon_nil ld gd md).1 (by rw [e]))
    rw [if_neg hne]
    have h0 := primeProduct_pos pre
    have hp1 : (1 : ℤ) < r.p := by exact_mod_cast r.prime.out.one_lt
    have hle : primeProduct pre ≤ st.M := by
      rcases h.modulus with e | e
      · rw [e]
      · rw [e, primeProduct_append]; nlinarith
    have hdvd : primeProduct pre ∣ st.M := by
      rcases h.modulus with e | e
      · rw [e]
      · rw [e, primeProduct_append]; exact dvd_mul_right _ _
    obtain ⟨o, eo, pass, exact_⟩ := decide_spec52 r h0 hle hdvd (h.before i hact (by simp)) ln ld gn gd mn md
    rw [eo]
    simp only [Option.bind_eq_bind, Option.bind_some]
    cases o with
    | some g =>
      simp only
      refine ⟨_, rfl, ?_⟩
      have hp := pass g rfl
      refine ⟨fun j hj => h.lt j (List.mem_of_mem_erase hj), h.nodup.erase _, ?_, ?_, h.modulus, h.small, ?_, ?_, ?_, ?_, ?_⟩
      · intro j hj hj'
        have hji : j ≠ i := by rintro rfl; exact hi hj'
        simp only [Function.update_of_ne hji]
        exact h.before j (List.mem_of_mem_erase hj) (by simp [hj'])
      · intro j hj hj'
        have hji : j ≠ i := ((h.nodup.mem_erase_iff).mp hj).1
        simp only [Function.update_of_ne hji]
        exact h.after j (List.mem_of_mem_erase hj) (by simp [hj', hji])
      · intro t ht
        rcases List.mem_append.mp ht with ht | ht
        · exact h.out t ht
        · rw [List.mem_singleton] at ht
          subst ht
          by_cases hsm : AllSmall items hN hD (primeProduct pre)
          · obtain ⟨g', hg', x1, x2⟩ := exact_ (h.small hsm) (hsm i hlt).1 (hsm i hlt).2
            cases hg'
            exact Or.inl ⟨x1, x2⟩
          · exact Or.inr ⟨pre, r, hpre, List.prefix_rfl, hsm, hp.1, hp.2⟩
      · intro j hj
        simp only [List.map_append, List.map_cons, List.map_nil, List.mem_append, List.mem_singleton]
        rw [← h.once j hj, h.nodup.mem_erase_iff]
        by_cases hji : j = i
        · subst hji; simp [hact]
        · simp [hji]
      · intro j hj
        have hji : j ≠ i := ((h.nodup.mem_erase_iff).mp hj).1
        simp only [List.map_append, List.map_cons, List.map_nil, List.mem_append, List.mem_singleton, not_or]
        exact ⟨h.disj j (List.mem_of_mem_erase hj), hji⟩
      · simp only [List.map_append, List.map_cons, List.map_nil]
        rw [List.nodup_append]
        refine ⟨h.outNodup, by simp, ?_⟩
        intro a ha b hb
        rw [List.mem_singleton] at hb
        rintro rfl
        exact h.disj i hact (hb ▸ ha)
      · intro j hj
        simp only [List.map_append, List.map_cons, List.map_nil, List.mem_append, List.mem_singleton] at hj
        rcases hj with hj | rfl
        · exact h.outLt j hj
        · exact hlt
    | none =>
      simp only
      have hnp : r.p ∉ pre.map FacRound.p := by
        have := hs.distinct
        rw [List.map_append, List.nodup_append] at this
        intro hm
        exact this.2.2 _ hm r.p (by simp) rfl
      have hcop := primeProduct_coprime pre r hnp
      refine ⟨_, rfl, ?_⟩
      refine ⟨h.lt, h.nodup, ?_, ?_, Or.inr (by simp only; rw [primeProduct_append]), ?_, h.out, h.once, h.disj, h.outNodup, h.outLt⟩
      · intro j hj hj'
        have hji : j ≠ i := by rintro rfl; exact hi hj'
        simp only [Function.update_of_ne hji]
        exact h.before j hj (by simp [hj'])
      · intro j hj hj'
        by_cases hji : j = i
        · subst hji
          simp only [Function.update_self]
          rw [primeProduct_append]
          have hb := h.before j hact (by simp)
          exact ⟨⟨combine_side hinv h0 hcop ln gn hb.1, combine_side hinv h0 hcop ld gd hb.2⟩, rfl⟩
        · simp only [Function.update_of_ne hji]
          obtain ⟨a, b⟩ := h.after j hj (by simp [hj', hji])
          exact ⟨a, by rw [primeProduct_append]⟩
      · intro hsm
        obtain ⟨g, hg, -⟩ := exact_ (h.small hsm) (hsm i hlt).1 (hsm i hlt).2
        cases hg

lemma fold_spec52 {inv : ℤ → ℤ → ℤ} (hinv : InvertSpec inv) {pre : List FacRound} {r : FacRound} (hpre : pre ≠ []) (hs : Sees items hN hD (pre ++ [r])) :
    ∀ (todo : List ℕ) (st : FacState), todo.Nodup → (∀ i ∈ todo, i < items) → FacRInv items hN hD pre r todo st →
    ∃ st', todo.foldlM (facStep inv r (primeProduct pre)) st = some st' ∧ FacRInv items hN hD pre r [] st'
  | [], st, _, _, h => ⟨st, rfl, h⟩
  | i :: todo, st, hnd, hlt, h => by
    rw [List.nodup_cons] at hnd
    obtain ⟨st1, e1, h1⟩ := step_spec52 hinv hpre hs hnd.1 (hlt i (by simp)) h
    obtain ⟨st2, e2, h2⟩ := fold_spec52 hinv hpre hs todo st1 hnd.2 (fun j hj => hlt j (by simp [hj])) h1
    rw [List.foldlM_cons, e1]
    exact ⟨st2, e2, h2⟩

lemma round_spec52 {inv : ℤ → ℤ → ℤ} (hinv : InvertSpec inv) {pre : List FacRound} {r : FacRound} (hpre : pre ≠ []) (hs : Sees items hN hD (pre ++ [r])) {st : FacState} (h : FacSInv items hN hD pre st) (hne : st.active ≠ []) :
    ∃ st', facRound inv items st r = some st' ∧ FacSInv items hN hD (pre ++ [r]) st' ∧ (AllSmall items hN hD (primeProduct pre) → st'.active = []) := by
  have hM := h.modulus hne
  have h0 : FacRInv items hN hD pre r (List.range items) st := by
    refine ⟨h.lt, h.nodup, fun i hi _ => h.res i hi, fun i hi hi' => absurd (List.mem_range.mpr (h.lt i hi)) hi', Or.inl hM, fun _ => hM, fun t ht => (h.out t ht).mono (List.prefix_append _ _), h.once, h.disj, h.outNodup, h.outLt⟩
  obtain ⟨st', e, h'⟩ := fold_spec52 hinv hpre hs (List.range items) st List.nodup_range (fun i hi => List.mem_range.mp hi) h0
  unfold facRound
  rw [hM]
  refine ⟨st', e, ⟨h'.lt, h'.nodup, fun i hi => (h'.after i hi (by simp)).1, ?_, h'.out, h'.once, h'.disj, h'.outNodup, h'.outLt⟩, ?_⟩
  · intro hn
    obtain ⟨i, hi⟩ := List.exists_mem_of_ne_nil _ hn
    exact (h'.after i hi (by simp)).2
  · intro hsm
    by_contra hn
    obtain ⟨i, hi⟩ := List.exists_mem_of_ne_nil _ hn
    have e1 := (h'.after i hi (by simp)).2
    rw [h'.small hsm, primeProduct_append] at e1
    have := primeProduct_pos pre
    have hp1 : (1 : ℤ) < r.p := by exact_mod_cast r.prime.out.one_lt
    nlinarith

lemma Sees.prefix {rs' : List FacRound} (h : Sees items hN hD rs') (hp : rs <+: rs') : Sees items hN hD rs := by
  have sub := hp.sublist
  exact ⟨h.distinct.sublist (sub.map _), fun r hr => h.num r (sub.subset hr), fun r hr => h.den r (sub.subset hr), fun r hr => h.goodNum r (sub.subset hr), fun r hr => h.goodDen r (sub.subset hr), h.monicNum, h.monicDen⟩

lemma loop_spec52 {inv : ℤ → ℤ → ℤ} (hinv : InvertSpec inv) : ∀ (rs pre : List FacRound) (st : FacState), pre ≠ [] → Sees items hN hD (pre ++ rs) → FacSInv items hN hD pre st →
    ∃ st', facLoop inv items st rs = some st' ∧ (∀ t ∈ st'.out, Reported items hN hD (pre ++ rs) t) ∧ (∀ i < items, (i ∈ st'.active ∨ i ∈ st'.out.map Prod.fst ↔ HasFactor hN hD i)) ∧
      (∀ i ∈ st'.active, i < items ∧ i ∉ st'.out.map Prod.fst) ∧ (st'.out.map Prod.fst).Nodup ∧ (∀ i ∈ st'.out.map Prod.fst, i < items) ∧
      (rs ≠ [] → AllSmall items hN hD (primeProduct (pre ++ rs.dropLast)) → st'.active = [])
  | [], pre, st, hpre, hs, h => ⟨st, rfl, by simpa using h.out, h.once, fun i hi => ⟨h.lt i hi, h.disj i hi⟩, h.outNodup, h.outLt, by simp⟩
  | r :: rs, pre, st, hpre, hs, h => by
    unfold facLoop
    by_cases hne : st.active = []
    · rw [if_pos hne]
      exact ⟨st, rfl, fun t ht => (h.out t ht).mono (List.prefix_append _ _), h.once, fun i hi => ⟨h.lt i hi, h.disj i hi⟩, h.outNodup, h.outLt, fun _ _ => hne⟩
    · rw [if_neg hne]
      have eas : pre ++ r :: rs = (pre ++ [r]) ++ rs := by simp
      obtain ⟨st1, e1, h1, hsm⟩ := round_spec52 hinv hpre (hs.prefix (show pre ++ [r] <+: pre ++ r :: rs from ⟨rs, by simp⟩)) h hne
      rw [e1]
      obtain ⟨st2, e2, o1, o2, o3, o4, o4', o5⟩ := loop_spec52 hinv rs (pre ++ [r]) st1 (by simp) (eas ▸ hs) h1
      refine ⟨st2, e2, by rw [eas]; exact o1, o2, o3, o4, o4', ?_⟩
      intro _ hall
      rcases rs with _ | ⟨r', rs⟩
      · simp only [facLoop, Option.some.injEq] at e2
        rw [← e2]
        apply hsm
        simpa using hall
      · apply o5 (by simp)
        simpa using hall

lemma init_spec52 {r : FacRound} (hs : Sees items hN hD [r]) : FacSInv items hN hD [r] (facInit items r) := by
  haveI := r.prime
  have hmem : r ∈ [r] := by simp
  have hfac : ∀ i < items, (r.canon i ≠ ([], []) ↔ HasFactor hN hD i) := by
    intro i hi
    have e1 := canon_nil (hs.num r hmem i hi) (hs.goodNum r hmem i hi) (hs.monicNum i hi)
    have e2 := canon_nil (hs.den r hmem i hi) (hs.goodDen r hmem i hi) (hs.monicDen i hi)
    unfold HasFactor
    rw [Ne, Prod.ext_iff]
    simp only
    rw [e1, e2]
    tauto
  have hp1 : primeProduct [r] = r.p := by simp [primeProduct]
  refine ⟨?_, ?_, ?_, ?_, ?_, ?_, ?_, ?_, ?_⟩
  · intro i hi
    simp only [facInit, List.mem_filter, List.mem_range] at hi
    exact hi.1
  · exact List.nodup_range.filter _
  · intro i hi
    simp only [facInit, List.mem_filter, List.mem_range] at hi
    rw [hp1]
    exact ⟨init_side (hs.num r hmem i hi.1) (hs.goodNum r hmem i hi.1), init_side (hs.den r hmem i hi.1) (hs.goodDen r hmem i hi.1)⟩
  · intro _; rw [hp1]; rfl
  · intro t ht; simp [facInit] at ht
  · intro i hi
    rw [← hfac i hi]
    simp [facInit, hi]
  · intro i _; simp [facInit]
  · simp [facInit]
  · intro i hi; simp [facInit] at hi
end
end FireFly
