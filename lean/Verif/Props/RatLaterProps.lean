import Verif.Lemmas.RatLaterMain
/-!
# C45: rational functions in several variables, the further prime fields
-/
set_option linter.all false
namespace FireFly.RLater
open MvPolynomial
variable {F : Type} [Field F] [DecidableEq F] {c : Cfg F} {N D : MvPolynomial ℕ F} {UN UD : FFMap (List (List ℕ))}

lemma Inv.start (c : Cfg F) (N D : MvPolynomial ℕ F) (kN kD : FFMap F) (UN UD : FFMap (List (List ℕ))) (G : F → List ℕ → Prop) :
    Inv c N D kN kD UN UD G [] (c.init UN UD) (unknowns UN + unknowns UD) :=
  Or.inr (Or.inl ⟨⟨rfl, rfl, rfl, rfl, ⟨rfl, rfl⟩, ⟨rfl, rfl⟩, rfl, ⟨List.nodup_nil, by simp [Cfg.init], by simp [Cfg.init], by simp [Cfg.init]⟩, rfl, rfl, fun q hq => by simp at hq⟩, le_rfl⟩)

/-- **C45 (one prime field).** The monomials of `N` and `D` are known, some coefficients are known (`known`), the coefficients of the monomials in `UN` and `UD` are not. The probes
`(t, order vector)`, different from each other, arrive in any order. Then there is no undefined behaviour and no error of the linear solver. The object accepts its guess if and only if the
guess gives the value of `N/D` at the first probe with the order vector `(1, …, 1)`. If it does not accept it and returns coefficients, then it returns `N` and `D`. And as long as neither has happened, it has got fewer probes that it has asked for
than there are unknown coefficients. -/
theorem C45_prime (gtp : PivotOrder c.gt) (hlen : c.anchor.length + 1 = c.n) (hN : Split c.n c.anchor N c.known.1 UN) (hD : Split c.n c.anchor D c.known.2 UD)
    (hU : UN ≠ [] ∨ UD ≠ []) (hg : GuessOK c) (probes : List (F × List ℕ)) (hnd : probes.Nodup) (hG : GoodPts c.anchor N D UN UD (fun t ord => (t, ord) ∈ probes)) :
    ∃ s, c.feedAll (c.init UN UD) (withValues c.anchor N D probes) = some s ∧
      (s.out = some .accepted ↔ ∃ q, firstProbe c probes = some q ∧ Passes c N D q.1 q.2) ∧
      (∀ num den, s.out = some (.solved num den) → (∃ q, firstProbe c probes = some q ∧ ¬ Passes c N D q.1 q.2) ∧ WFMap c.n num ∧ WFMap c.n den ∧ denote num = N ∧ denote den = D) ∧
      (s.out = none → hits c (c.init UN UD) (withValues c.anchor N D probes) < unknowns UN + unknowns UD) := by
  have hU' : 1 ≤ UN.length + UD.length := by
    rcases hU with h | h <;> have := List.length_pos_iff.mpr h <;> omega
  obtain ⟨s, φ, e1, e2, e3⟩ := feedAll_spec gtp ⟨hlen, hN, hD⟩ hg hU' hG probes [] (c.init UN UD) _ (fun x hx => by simpa using hx) (by simpa using hnd)
    (Inv.start c N D c.known.1 c.known.2 UN UD _)
  rw [List.nil_append] at e2
  refine ⟨s, e1, ?_⟩
  rcases e2 with ⟨q, h1, ⟨h2, -, h3⟩ | ⟨num, den, h2, -, h3, h4⟩⟩ | ⟨h, hφ⟩ | ⟨o, pts, h, -, hφ⟩
  · exact ⟨⟨fun _ => ⟨q, h1, h3⟩, fun _ => h2⟩, by rw [h2]; simp, by rw [h2]; simp⟩
  · refine ⟨⟨by rw [h2]; simp, ?_⟩, ?_, by rw [h2]; simp⟩
    · rintro ⟨q', h1', h3'⟩
      rw [h1] at h1'
      rw [← Option.some.inj h1'] at h3'
      exact absurd h3' h3
    · intro n' d' hd
      rw [h2] at hd
      simp only [Option.some.injEq, Out.solved.injEq] at hd
      rw [← hd.1, ← hd.2]
      exact ⟨⟨q, h1, h3⟩, h4⟩
  · refine ⟨⟨by rw [h.out]; simp, ?_⟩, by rw [h.out]; simp, fun _ => ?_⟩
    · rintro ⟨q', h1', -⟩
      rw [h.first] at h1'
      simp at h1'
    · have h1 : rem UN 1 + rem UD 1 = unknowns UN + unknowns UD := by rw [rem_one, rem_one]
      have h2 := rem_next UN 1
      have h3 := rem_next UD 1
      rw [filter_all (fun u hu => by obtain ⟨d, -, h, -⟩ := hN.form u hu; exact h)] at h2
      rw [filter_all (fun u hu => by obtain ⟨d, -, h, -⟩ := hD.form u hu; exact h)] at h3
      omega
  · refine ⟨⟨by rw [h.run.both.out]; simp, ?_⟩, by rw [h.run.both.out]; simp, fun _ => ?_⟩
    · rintro ⟨q', h1', h3'⟩
      obtain ⟨q, h1, h2⟩ := h.first
      rw [h1] at h1'
      rw [← Option.some.inj h1'] at h3'
      exact absurd h3' h2
    · have := h.run.small
      unfold missing at hφ
      omega

/-- the number of degrees with at least `o` coefficients that are asked -/
def degrees (U : FFMap (List (List ℕ))) (o : ℕ) : ℕ := (U.filter (fun u => decide (o ≤ u.2.length))).length

lemma uni_ne {o o' : ℕ} (h : o' < o) (h0 : uni c o ≠ []) : uni c o' ≠ uni c o := by
  intro e
  unfold uni at h0 e
  have : c.n - 1 ≠ 0 := by rintro e0; rw [e0] at h0; exact h0 rfl
  obtain ⟨k, hk⟩ := Nat.exists_eq_succ_of_ne_zero this
  rw [hk, List.replicate_succ, List.replicate_succ] at e
  have := (List.cons.inj e).1
  omega

/-- **C45 (enough probes, any order).** In whatever order the probes arrive: if for every `o = 1, 2, …` there are as many probes with the order vector `(o, …, o)` as there are degrees with at least `o` unknown coefficients, then
the object accepts the guess or returns `N` and `D`. Precisely: as long as it does neither, there is such an `o` with too few probes. -/
theorem C45_enough (gtp : PivotOrder c.gt) (hlen : c.anchor.length + 1 = c.n) (hN : Split c.n c.anchor N c.known.1 UN) (hD : Split c.n c.anchor D c.known.2 UD)
    (hU : UN ≠ [] ∨ UD ≠ []) (hg : GuessOK c) (probes : List (F × List ℕ)) (hnd : probes.Nodup) (hG : GoodPts c.anchor N D UN UD (fun t ord => (t, ord) ∈ probes))
    {s : St F} (hs : c.feedAll (c.init UN UD) (withValues c.anchor N D probes) = some s) (hout : s.out = none) :
    ∃ o, 1 ≤ o ∧ (probes.filter (fun q => decide (q.2 = List.replicate (c.n - 1) o))).length < degrees UN o + degrees UD o := by
  have hU' : 1 ≤ UN.length + UD.length := by
    rcases hU with h | h <;> have := List.length_pos_iff.mpr h <;> omega
  obtain ⟨s', φ, e1, e2, e3⟩ := feedAll_spec gtp ⟨hlen, hN, hD⟩ hg hU' hG probes [] (c.init UN UD) _ (fun x hx => by simpa using hx) (by simpa using hnd)
    (Inv.start c N D c.known.1 c.known.2 UN UD _)
  rw [hs] at e1
  obtain rfl : s = s' := Option.some.inj e1
  rw [List.nil_append] at e2
  rcases e2 with h | ⟨h, hφ⟩ | ⟨o, pts, h, hn, hφ⟩
  · have := h.some
    rw [hout] at this; cases this
  · refine ⟨1, le_rfl, ?_⟩
    have hf := h.first
    unfold firstProbe at hf
    rw [List.find?_eq_none] at hf
    have hz : probes.filter (fun q => decide (q.2 = List.replicate (c.n - 1) 1)) = [] := List.filter_eq_nil_iff.mpr (fun x hx => hf x hx)
    rw [hz]
    unfold degrees
    rw [filter_all (fun u hu => by obtain ⟨d, -, h, -⟩ := hN.form u hu; exact h), filter_all (fun u hu => by obtain ⟨d, -, h, -⟩ := hD.form u hu; exact h)]
    exact hU'
  · refine ⟨o, h.run.both.pos, ?_⟩
    have hlt := h.run.lt
    rw [h.run.both.eqn, h.run.both.num.unsolved, h.run.both.den.unsolved] at hlt
    refine lt_of_le_of_lt ?_ hlt
    have hsub : ∀ q ∈ probes.filter (fun q => decide (q.2 = List.replicate (c.n - 1) o)), q.1 ∈ pts.map Prod.fst ∧ q.2 = List.replicate (c.n - 1) o := by
      intro q hq
      obtain ⟨h1, h2⟩ := List.mem_filter.mp hq
      have h2 : q.2 = uni c o := of_decide_eq_true h2
      refine ⟨?_, h2⟩
      rcases h.kept q h1 with (⟨o', h3, h4⟩ | ⟨-, h3⟩) | ⟨l, h3, -⟩
      · exact absurd (h4.symm.trans h2) (uni_ne h3 (by rw [← h2]; exact hG.ord _ _ h1))
      · exact h3
      · rw [h2, ← h.run.both.ord, hn] at h3; cases h3
    have hnd2 : ((probes.filter (fun q => decide (q.2 = List.replicate (c.n - 1) o))).map Prod.fst).Nodup := by
      refine List.Nodup.map_on ?_ (hnd.filter _)
      intro x hx y hy hxy
      exact Prod.ext hxy ((hsub x hx).2.trans (hsub y hy).2.symm)
    have := (List.Nodup.subperm hnd2 (fun t ht => by
      obtain ⟨q, hq, rfl⟩ := List.mem_map.mp ht
      exact (hsub q hq).1)).length_le
    simpa using this

/-- each probe has the order vector that the object wants -/
def Answers (c : Cfg F) : St F → List (F × F × List ℕ) → Prop
  | _, [] => True
  | s, q :: rest => (s.out = none → q.2.2 = s.ord) ∧ ∀ s', c.feed s q = some s' → Answers c s' rest

lemma probe_stay {x y : St F} {t v : F} {o : List ℕ} (hx : x.out.isSome = true) (hy : c.probe x t v o = some y) : y = x := by
  unfold Cfg.probe at hy
  rw [if_pos hx] at hy
  exact (Option.some.inj hy).symm

lemma drain_stay : ∀ (k : ℕ) (x y : St F), x.out.isSome = true → c.drain k x = some y → y.out.isSome = true := by
  intro k
  induction k with
  | zero =>
    intro x y hx hy
    rw [Cfg.drain] at hy
    split at hy
    · rw [← Option.some.inj hy]; exact hx
    · cases hy
    · cases hy
  | succ k ihk =>
    intro x y hx hy
    rw [Cfg.drain] at hy
    split at hy
    · rw [← Option.some.inj hy]; exact hx
    · cases hy
    · obtain ⟨z, hz, hy⟩ := Option.bind_eq_some_iff.mp hy
      have := probe_stay (by exact hx) hz
      exact ihk z y (by rw [this]; exact hx) hy

lemma feedAll_stay : ∀ (l : List (F × F × List ℕ)) (x y : St F), x.out.isSome = true → l.foldlM c.feed x = some y → y.out.isSome = true := by
  intro l
  induction l with
  | nil => intro x y hx hy; rw [← Option.some.inj hy]; exact hx
  | cons q l ihl =>
    intro x y hx hy
    rw [List.foldlM_cons] at hy
    obtain ⟨z, hz, hy⟩ := Option.bind_eq_some_iff.mp hy
    refine ihl z y ?_ hy
    unfold Cfg.feed at hz
    obtain ⟨w, hw, hz⟩ := Option.bind_eq_some_iff.mp hz
    have := probe_stay hx hw
    exact drain_stay _ w z (by rw [this]; exact hx) hz

lemma hits_answers (c : Cfg F) : ∀ (l : List (F × F × List ℕ)) (s s' : St F), c.feedAll s l = some s' → Answers c s l → s'.out = none → hits c s l = l.length := by
  intro l
  induction l with
  | nil => intro s s' _ _ _; rfl
  | cons q l ih =>
    intro s s' h1 h2 h3
    unfold Cfg.feedAll at h1
    have hres : s.out = none := by
      by_contra hr
      have := feedAll_stay (q :: l) s s' (Option.isSome_iff_ne_none.mpr hr) h1
      rw [h3] at this
      cases this
    rw [List.foldlM_cons] at h1
    obtain ⟨s1, e1, e2⟩ := Option.bind_eq_some_iff.mp h1
    rw [hits, e1, if_pos ⟨h2.1 hres, by rw [hres]; rfl⟩, List.length_cons]
    have := ih s1 s' e2 (h2.2 s1 e1) h3
    simp only [this]
    omega

/-- **C45 (complete).** If the probes have the order vectors the object wants, it needs at most as many probes as there are unknown coefficients; if the guess is wrong at the first one, it returns
`N` and `D`. -/
theorem C45_complete (gtp : PivotOrder c.gt) (hlen : c.anchor.length + 1 = c.n) (hN : Split c.n c.anchor N c.known.1 UN) (hD : Split c.n c.anchor D c.known.2 UD)
    (hU : UN ≠ [] ∨ UD ≠ []) (hg : GuessOK c) (probes : List (F × List ℕ)) (hnd : probes.Nodup) (hG : GoodPts c.anchor N D UN UD (fun t ord => (t, ord) ∈ probes))
    (hans : Answers c (c.init UN UD) (withValues c.anchor N D probes)) (hmany : unknowns UN + unknowns UD ≤ probes.length) (hno : ∀ q ∈ probes, ¬ Passes c N D q.1 q.2) :
    ∃ s num den, c.feedAll (c.init UN UD) (withValues c.anchor N D probes) = some s ∧ s.out = some (.solved num den) ∧ WFMap c.n num ∧ WFMap c.n den ∧ denote num = N ∧ denote den = D := by
  obtain ⟨s, e1, e2, e3, e4⟩ := C45_prime gtp hlen hN hD hU hg probes hnd hG
  cases hr : s.out with
  | none =>
    have := hits_answers c _ _ _ e1 hans hr
    have e4 := e4 hr
    unfold withValues at this e4
    rw [List.length_map] at this
    omega
  | some r =>
    cases r with
    | accepted =>
      obtain ⟨q, h1, h2⟩ := e2.mp hr
      exact absurd h2 (hno q (List.mem_of_find?_eq_some h1))
    | solved num den => exact ⟨s, num, den, e1, hr, (e3 num den hr).2⟩

/-- **C45 (nothing unknown).** If no coefficient is unknown and the guess gives the values of `N/D`, then the object accepts it at the first probe with the order vector `(1, …, 1)`. -/
theorem C45_known (hlen : c.anchor.length + 1 = c.n) (hg : GuessOK c) (UN UD : FFMap (List (List ℕ))) (probes : List (F × List ℕ)) (hord : ∀ q ∈ probes, q.2 ≠ [])
    (hpass : ∀ q ∈ probes, q.2 = List.replicate (c.n - 1) 1 → Passes c N D q.1 q.2) :
    ∃ s, c.feedAll (c.init UN UD) (withValues c.anchor N D probes) = some s ∧
      ((s.out = some .accepted ∧ ∃ q, firstProbe c probes = some q) ∨ (s.out = none ∧ firstProbe c probes = none)) := by
  have key : ∀ (probes : List (F × List ℕ)) (s : St F), (∀ q ∈ probes, q.2 ≠ []) → (∀ q ∈ probes, q.2 = uni c 1 → Passes c N D q.1 q.2) →
      ((s.out = some .accepted ∧ s.ord = [] ∧ s.savedTi.find? [] = none) ∨ (s.out = none ∧ s.newPrime = true ∧ s.ord = uni c 1 ∧ s.savedTi.find? [] = none ∧ s.savedTi.find? (uni c 1) = none)) →
      ∃ s', c.feedAll s (withValues c.anchor N D probes) = some s' ∧
        ((s'.out = some .accepted ∧ (s.out = some .accepted ∨ ∃ q, firstProbe c probes = some q)) ∨ (s'.out = none ∧ s.out = none ∧ firstProbe c probes = none)) := by
    intro probes
    induction probes with
    | nil =>
      intro s _ _ h
      refine ⟨s, rfl, ?_⟩
      rcases h with ⟨h, -⟩ | ⟨h, -⟩
      · exact Or.inl ⟨h, Or.inl h⟩
      · exact Or.inr ⟨h, h, rfl⟩
    | cons q probes ih =>
      intro s h1 h2 h
      have hdr : ∀ (x : St F), x.savedTi.find? x.ord = none → c.drain x.savedTi.length x = some x := by
        intro x hx
        cases hl : x.savedTi.length <;> rw [Cfg.drain, hx]
      have step : ∃ s1, c.feed s (q.1, value c.anchor N D q.1 q.2, q.2) = some s1 ∧
          ((s1.out = some .accepted ∧ s1.ord = [] ∧ s1.savedTi.find? [] = none ∧ (s.out = some .accepted ∨ q.2 = uni c 1)) ∨
           (s1.out = none ∧ s1.newPrime = true ∧ s1.ord = uni c 1 ∧ s1.savedTi.find? [] = none ∧ s1.savedTi.find? (uni c 1) = none ∧ s.out = none ∧ q.2 ≠ uni c 1)) := by
        unfold Cfg.feed
        rcases h with ⟨h, ho, hs⟩ | ⟨h, hn, ho, hs, hs1⟩
        · have : c.probe s q.1 (value c.anchor N D q.1 q.2) q.2 = some s := by unfold Cfg.probe; rw [h]; simp
          simp only [this, Option.bind_eq_bind, Option.bind_some]
          exact ⟨s, hdr s (by rw [ho]; exact hs), Or.inl ⟨h, ho, hs, Or.inl h⟩⟩
        · by_cases hq : q.2 = uni c 1
          · have hp := h2 q (by simp) hq
            have hchk := check_spec (N := N) (D := D) hlen hg h q.1
            rw [ho, ← hq, if_pos hp] at hchk
            have : c.probe s q.1 (value c.anchor N D q.1 q.2) q.2 = some { s with newPrime := false, ord := [], out := some .accepted } := by
              unfold Cfg.probe
              rw [h, ho, hn, hchk]; simp [hq]
            simp only [this, Option.bind_eq_bind, Option.bind_some]
            exact ⟨_, hdr { s with newPrime := false, ord := [], out := some .accepted } hs, Or.inl ⟨rfl, rfl, hs, Or.inr hq⟩⟩
          · have hp : c.probe s q.1 (value c.anchor N D q.1 q.2) q.2 =
                some { s with savedTi := s.savedTi.set q.2 ((s.savedTi.find? q.2).getD [] ++ [(q.1, value c.anchor N D q.1 q.2)]) } := by
              unfold Cfg.probe
              rw [h, ho]; simp [hq]
            simp only [hp, Option.bind_eq_bind, Option.bind_some]
            have f1 : (s.savedTi.set q.2 ((s.savedTi.find? q.2).getD [] ++ [(q.1, value c.anchor N D q.1 q.2)])).find? [] = none := by
              rw [FFMap.find?_set, if_neg (fun e => h1 q (by simp) e.symm)]; exact hs
            have f2 : (s.savedTi.set q.2 ((s.savedTi.find? q.2).getD [] ++ [(q.1, value c.anchor N D q.1 q.2)])).find? (uni c 1) = none := by
              rw [FFMap.find?_set, if_neg (fun e => hq e.symm)]; exact hs1
            exact ⟨_, hdr { s with savedTi := s.savedTi.set q.2 ((s.savedTi.find? q.2).getD [] ++ [(q.1, value c.anchor N D q.1 q.2)]) } (by simp only; rw [ho]; exact f2),
              Or.inr ⟨h, hn, ho, f1, f2, h, hq⟩⟩
      obtain ⟨s1, e1, e2⟩ := step
      have hfold : c.feedAll s (withValues c.anchor N D (q :: probes)) = c.feedAll s1 (withValues c.anchor N D probes) := by
        unfold Cfg.feedAll withValues
        rw [List.map_cons, List.foldlM_cons, e1]; rfl
      rw [hfold]
      obtain ⟨s2, f1, f2⟩ := ih s1 (fun x hx => h1 x (List.mem_cons_of_mem _ hx)) (fun x hx => h2 x (List.mem_cons_of_mem _ hx)) (by
        rcases e2 with ⟨a, b, d, -⟩ | ⟨a, b, d, e, f, -⟩
        · exact Or.inl ⟨a, b, d⟩
        · exact Or.inr ⟨a, b, d, e, f⟩)
      refine ⟨s2, f1, ?_⟩
      rcases e2 with ⟨a, b, d, hw⟩ | ⟨a, b, d, e, f, g1, g2⟩
      · rcases f2 with ⟨k1, -⟩ | ⟨-, k2, -⟩
        · refine Or.inl ⟨k1, hw.imp id (fun hw => ⟨q, ?_⟩)⟩
          unfold firstProbe
          rw [List.find?_cons_of_pos (by simp [hw])]
        · rw [a] at k2; cases k2
      · have hfp : firstProbe c (q :: probes) = firstProbe c probes := by
          unfold firstProbe
          rw [List.find?_cons_of_neg (by simp [g2])]
        rw [hfp]
        rcases f2 with ⟨k1, k2⟩ | ⟨k1, -, k3⟩
        · refine Or.inl ⟨k1, Or.inr ?_⟩
          rcases k2 with k2 | k2
          · rw [a] at k2; cases k2
          · exact k2
        · exact Or.inr ⟨k1, g1, k3⟩
  obtain ⟨s, e1, e2⟩ := key probes (c.init UN UD) hord hpass (Or.inr ⟨rfl, rfl, rfl, rfl, rfl⟩)
  refine ⟨s, e1, ?_⟩
  rcases e2 with ⟨a, b | b⟩ | ⟨a, -, b⟩
  · cases b
  · exact Or.inl ⟨a, b⟩
  · exact Or.inr ⟨a, b⟩

end FireFly.RLater
