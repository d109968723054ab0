import Verif.Lemmas.RatShiftMain
/-!
# C61: rational functions in several variables, the further prime fields with a shift
-/
set_option linter.all false
namespace FireFly.RShift
open MvPolynomial
variable {F : Type} [Field F] [DecidableEq F] {c : Cfg F} {N D : MvPolynomial ℕ F}

lemma Inv.start (c : Cfg F) (N D : MvPolynomial ℕ F) (G : F → List ℕ → Prop) : Inv c N D G [] c.init (missing c 1 0) :=
  Or.inr (Or.inl ⟨⟨rfl, rfl, rfl, rfl, rfl, rfl, rfl, ⟨List.nodup_nil, by simp [Cfg.init], by simp [Cfg.init], by simp [Cfg.init]⟩, rfl, rfl, fun q hq => by simp at hq⟩, le_rfl⟩)

lemma rem_le {const : Bool} {p : Prior} {Q : MvPolynomial ℕ F} {S : Side F} (hc : Ctx c Q const p S) : rem S 1 ≤ (asked c.n const p).card * width const p := by
  rw [← hc.card]
  have : ∀ l : FFMap (List (List ℕ)), (∀ u ∈ l, u ∈ S.unsolved) → (l.map (fun u => eff S (dg u) + 1 - 1)).sum ≤ l.length * width const p := by
    intro l
    induction l with
    | nil => intro _; simp
    | cons u l ih =>
      intro h
      rw [List.map_cons, List.sum_cons, List.length_cons, Nat.succ_mul]
      have h1 := ih (fun w hw => h w (List.mem_cons_of_mem _ hw))
      have h2 := eff_le hc (h u (by simp))
      have h3 := hc.set.wid
      omega
  exact this S.unsolved (fun _ h => h)

/-- **C61 (one prime field).** The monomials of `N` and `D` are known, and those which the shift produces. The probes `(t, order vector)`, different from each other, arrive in any order; the function is normalized to the constant
of the shifted denominator or numerator. Then there is no undefined behaviour and no error of the linear solver. The object accepts its guess if and only if the
guess gives the value of `N/D` at the first probe with the order vector `(1, …, 1)`. If it returns coefficients, then these are the coefficients of `N` and `D` without the shift that are not known, multiplied with the factor that makes
the chosen coefficient one. And as long as neither has happened, it has got fewer probes that it has asked for than the number of degrees times the largest number of monomials in one degree. -/
theorem C61_prime (gtp : PivotOrder c.gt) (hp : Prob c N D) (hg : GuessOK c) (probes : List (F × List ℕ)) (hnd : probes.Nodup) (hG : GoodPts c N D (fun t ord => (t, ord) ∈ probes)) :
    ∃ s, c.feedAll c.init (withValues c N D probes) = some s ∧
      (s.out = some .accepted ↔ ∃ q, firstProbe c probes = some q ∧ Passes c N D q.1 q.2) ∧
      (∀ num den, s.out = some (.solved num den) → (∃ q, firstProbe c probes = some q ∧ ¬ Passes c N D q.1 q.2) ∧ Right c N D num den) ∧
      (s.out = none → hits c c.init (withValues c N D probes) <
        (asked c.n (!c.normDen) c.num).card * width (!c.normDen) c.num + (asked c.n c.normDen c.den).card * width c.normDen c.den) := by
  obtain ⟨s, φ, e1, e2, e3⟩ := feedAll_spec gtp hp hg hG probes [] c.init _ (fun x hx => by simpa using hx) (by simpa using hnd) (Inv.start c N D _)
  have b1 := rem_le hp.ctxN
  have b2 := rem_le hp.ctxD
  rw [List.nil_append] at e2
  refine ⟨s, e1, ?_⟩
  rcases e2 with ⟨q, h1, ⟨h2, -, h3⟩ | ⟨num, den, h2, -, h3, h4⟩⟩ | ⟨h, hφ⟩ | ⟨o, pts, h, -, hφ⟩
  · exact ⟨⟨fun _ => ⟨q, h1, h3⟩, fun _ => h2⟩, by rw [h2]; simp, by rw [h2]; simp⟩
  · refine ⟨⟨by rw [h2]; simp, ?_⟩, ?_, by rw [h2]; simp⟩
    · rintro ⟨q', h1', h3'⟩
      rw [h1] at h1'
      rw [← Option.some.inj h1'] at h3'
      exact absurd h3' h3
    · intro n' d' hd
      rw [h2] at hd
      simp only [Option.some.injEq, Out.solved.injEq] at hd
      rw [← hd.1, ← hd.2]
      exact ⟨⟨q, h1, h3⟩, h4.1⟩
  · refine ⟨⟨by rw [h.out]; simp, ?_⟩, by rw [h.out]; simp, fun _ => ?_⟩
    · rintro ⟨q', h1', -⟩
      rw [h.first] at h1'
      simp at h1'
    · have hsm := (start_run (G := fun t ord => (t, ord) ∈ probes) hp h).small
      unfold missing at hφ e3
      simp only [List.length_nil] at hsm
      omega
  · refine ⟨⟨by rw [h.run.both.out]; simp, ?_⟩, by rw [h.run.both.out]; simp, fun _ => ?_⟩
    · rintro ⟨q', h1', h3'⟩
      obtain ⟨q, h1, h2⟩ := h.first
      rw [h1] at h1'
      rw [← Option.some.inj h1'] at h3'
      exact absurd h3' h2
    · have := h.run.small
      unfold missing at hφ e3
      omega

/-- `C61_prime` with the polynomials the object keeps at the end -/
theorem prime_ends (gtp : PivotOrder c.gt) (hp : Prob c N D) (hg : GuessOK c) (probes : List (F × List ℕ)) (hnd : probes.Nodup) (hG : GoodPts c N D (fun t ord => (t, ord) ∈ probes))
    {s : St F} (hs : c.feedAll c.init (withValues c N D probes) = some s) {num den : FFMap F} (ho : s.out = some (.solved num den)) : Fin c N D s num den := by
  obtain ⟨s', φ, e1, e2, e3⟩ := feedAll_spec gtp hp hg hG probes [] c.init _ (fun x hx => by simpa using hx) (by simpa using hnd) (Inv.start c N D _)
  rw [hs] at e1
  obtain rfl : s = s' := Option.some.inj e1
  rcases e2 with ⟨q, h1, ⟨h2, -, h3⟩ | ⟨n', d', h2, -, h3, h4⟩⟩ | ⟨h, hφ⟩ | ⟨o, pts, h, -, hφ⟩
  · rw [h2] at ho; cases ho
  · rw [h2] at ho
    simp only [Option.some.injEq, Out.solved.injEq] at ho
    rw [← ho.1, ← ho.2]; exact h4
  · rw [h.out] at ho; cases ho
  · rw [h.run.both.out] at ho; cases ho

lemma uni_ne {o o' : ℕ} (h : o' < o) (h0 : uni c o ≠ []) : uni c o' ≠ uni c o := by
  intro e
  unfold uni at h0 e
  have : c.n - 1 ≠ 0 := by rintro e0; rw [e0] at h0; exact h0 rfl
  obtain ⟨k, hk⟩ := Nat.exists_eq_succ_of_ne_zero this
  rw [hk, List.replicate_succ, List.replicate_succ] at e
  have := (List.cons.inj e).1
  omega

/-- **C61 (enough probes, any order).** In whatever order the probes arrive: if for every `o = 1, 2, …` up to the largest number of monomials in one degree there are as many probes with the order vector `(o, …, o)` as there are
degrees, then the object accepts the guess or returns the coefficients. Precisely: as long as it does neither, there is such an `o` with too few probes. -/
theorem C61_enough (gtp : PivotOrder c.gt) (hp : Prob c N D) (hg : GuessOK c) (probes : List (F × List ℕ)) (hnd : probes.Nodup) (hG : GoodPts c N D (fun t ord => (t, ord) ∈ probes))
    {s : St F} (hs : c.feedAll c.init (withValues c N D probes) = some s) (hout : s.out = none) :
    ∃ o, 1 ≤ o ∧ o ≤ max (width (!c.normDen) c.num) (width c.normDen c.den) ∧
      (probes.filter (fun q => decide (q.2 = List.replicate (c.n - 1) o))).length < (asked c.n (!c.normDen) c.num).card + (asked c.n c.normDen c.den).card := by
  obtain ⟨s', φ, e1, e2, e3⟩ := feedAll_spec gtp hp hg hG probes [] c.init _ (fun x hx => by simpa using hx) (by simpa using hnd) (Inv.start c N D _)
  rw [hs] at e1
  obtain rfl : s = s' := Option.some.inj e1
  rw [List.nil_append] at e2
  have hcard : ∀ {o : ℕ} {s : St F}, Both c N D o s → 1 ≤ s.numEqn → o ≤ max (width (!c.normDen) c.num) (width c.normDen c.den) ∧
      s.numEqn ≤ (asked c.n (!c.normDen) c.num).card + (asked c.n c.normDen c.den).card := by
    intro o s hb hpos
    have hne : ∀ {const : Bool} {p : Prior} {Q : MvPolynomial ℕ F} {S x : Side F}, Ctx c Q const p S → SInv c Q p S o x → (1 ≤ x.unsolved.length → o ≤ width const p) ∧ x.unsolved.length ≤ (asked c.n const p).card := by
      intro const p Q S x hc hx
      refine ⟨fun h => ?_, ?_⟩
      · obtain ⟨u, hu⟩ := List.exists_mem_of_ne_nil _ (List.length_pos_iff.mp h)
        obtain ⟨h1, h2⟩ := hx.mem.mp hu
        have h2 : ¬ eff S (dg u) < o := by simpa using h2
        have := eff_le hc h1
        have := hc.set.wid
        omega
      · have := hx.count
        rw [hc.card] at this
        omega
    obtain ⟨a1, a2⟩ := hne hp.ctxN hb.num
    obtain ⟨b1, b2⟩ := hne hp.ctxD hb.den
    have he := hb.eqn
    rw [he] at hpos ⊢
    refine ⟨?_, by omega⟩
    rcases Nat.eq_zero_or_pos s.num.unsolved.length with h0 | h0
    · exact le_max_of_le_right (b1 (by omega))
    · exact le_max_of_le_left (a1 h0)
  rcases e2 with h | ⟨h, hφ⟩ | ⟨o, pts, h, hn, hφ⟩
  · have := h.some
    rw [hout] at this; cases this
  · have hr := start_run (G := fun t ord => (t, ord) ∈ probes) hp h
    obtain ⟨k1, k2⟩ := hcard hr.both hr.lt
    refine ⟨1, le_rfl, k1, ?_⟩
    have hf := h.first
    unfold firstProbe at hf
    rw [List.find?_eq_none] at hf
    have hz : probes.filter (fun q => decide (q.2 = List.replicate (c.n - 1) 1)) = [] := List.filter_eq_nil_iff.mpr (fun x hx => hf x hx)
    rw [hz]
    have := hr.lt
    simp only [List.length_nil] at this ⊢
    omega
  · have hlt := h.run.lt
    obtain ⟨k1, k2⟩ := hcard h.run.both (by omega)
    refine ⟨o, h.run.both.pos, k1, ?_⟩
    refine lt_of_le_of_lt ?_ (lt_of_lt_of_le hlt k2)
    have hsub : ∀ q ∈ probes.filter (fun q => decide (q.2 = List.replicate (c.n - 1) o)), q.1 ∈ pts.map Prod.fst ∧ q.2 = List.replicate (c.n - 1) o := by
      intro q hq
      obtain ⟨h1, h2⟩ := List.mem_filter.mp hq
      have h2 : q.2 = uni c o := of_decide_eq_true h2
      refine ⟨?_, h2⟩
      rcases h.kept q h1 with (⟨o', h3, h4⟩ | ⟨-, h3⟩) | ⟨l, h3, -⟩
      · exact absurd (h4.symm.trans h2) (uni_ne h3 (by rw [← h2]; exact hG.ord _ _ h1))
      · exact h3
      · rw [h2, ← h.run.both.ord, hn] at h3; cases h3
    have hnd2 : ((probes.filter (fun q => decide (q.2 = List.replicate (c.n - 1) o))).map Prod.fst).Nodup := by
      refine List.Nodup.map_on ?_ (hnd.filter _)
      intro x hx y hy hxy
      exact Prod.ext hxy ((hsub x hx).2.trans (hsub y hy).2.symm)
    have := (List.Nodup.subperm hnd2 (fun t ht => by
      obtain ⟨q, hq, rfl⟩ := List.mem_map.mp ht
      exact (hsub q hq).1)).length_le
    simpa using this

/-- each probe has the order vector that the object wants -/
def Answers (c : Cfg F) : St F → List (F × F × List ℕ) → Prop
  | _, [] => True
  | s, q :: rest => (s.out = none → q.2.2 = s.ord) ∧ ∀ s', c.feed s q = some s' → Answers c s' rest

lemma probe_stay {x y : St F} {t v : F} {o : List ℕ} (hx : x.out.isSome = true) (hy : c.probe x t v o = some y) : y = x := by
  unfold Cfg.probe at hy
  rw [if_pos hx] at hy
  exact (Option.some.inj hy).symm

lemma drain_stay : ∀ (k : ℕ) (x y : St F), x.out.isSome = true → c.drain k x = some y → y.out.isSome = true := by
  intro k
  induction k with
  | zero =>
    intro x y hx hy
    rw [Cfg.drain] at hy
    split at hy
    · rw [← Option.some.inj hy]; exact hx
    · cases hy
    · cases hy
  | succ k ihk =>
    intro x y hx hy
    rw [Cfg.drain] at hy
    split at hy
    · rw [← Option.some.inj hy]; exact hx
    · cases hy
    · obtain ⟨z, hz, hy⟩ := Option.bind_eq_some_iff.mp hy
      have := probe_stay (by exact hx) hz
      exact ihk z y (by rw [this]; exact hx) hy

lemma feedAll_stay : ∀ (l : List (F × F × List ℕ)) (x y : St F), x.out.isSome = true → l.foldlM c.feed x = some y → y.out.isSome = true := by
  intro l
  induction l with
  | nil => intro x y hx hy; rw [← Option.some.inj hy]; exact hx
  | cons q l ihl =>
    intro x y hx hy
    rw [List.foldlM_cons] at hy
    obtain ⟨z, hz, hy⟩ := Option.bind_eq_some_iff.mp hy
    refine ihl z y ?_ hy
    unfold Cfg.feed at hz
    obtain ⟨w, hw, hz⟩ := Option.bind_eq_some_iff.mp hz
    have := probe_stay hx hw
    exact drain_stay _ w z (by rw [this]; exact hx) hz

lemma hits_answers (c : Cfg F) : ∀ (l : List (F × F × List ℕ)) (s s' : St F), c.feedAll s l = some s' → Answers c s l → s'.out = none → hits c s l = l.length := by
  intro l
  induction l with
  | nil => intro s s' _ _ _; rfl
  | cons q l ih =>
    intro s s' h1 h2 h3
    unfold Cfg.feedAll at h1
    have hres : s.out = none := by
      by_contra hr
      have := feedAll_stay (q :: l) s s' (Option.isSome_iff_ne_none.mpr hr) h1
      rw [h3] at this
      cases this
    rw [List.foldlM_cons] at h1
    obtain ⟨s1, e1, e2⟩ := Option.bind_eq_some_iff.mp h1
    rw [hits, e1, if_pos ⟨h2.1 hres, by rw [hres]; rfl⟩, List.length_cons]
    have := ih s1 s' e2 (h2.2 s1 e1) h3
    simp only [this]
    omega

/-- **C61 (complete).** If the probes have the order vectors the object wants, it needs at most as many probes as the number of degrees times the largest number of monomials in one degree; if the guess is wrong at the first one, it
returns the coefficients. -/
theorem C61_complete (gtp : PivotOrder c.gt) (hp : Prob c N D) (hg : GuessOK c) (probes : List (F × List ℕ)) (hnd : probes.Nodup) (hG : GoodPts c N D (fun t ord => (t, ord) ∈ probes))
    (hans : Answers c c.init (withValues c N D probes))
    (hmany : (asked c.n (!c.normDen) c.num).card * width (!c.normDen) c.num + (asked c.n c.normDen c.den).card * width c.normDen c.den ≤ probes.length) (hno : ∀ q ∈ probes, ¬ Passes c N D q.1 q.2) :
    ∃ s num den, c.feedAll c.init (withValues c N D probes) = some s ∧ s.out = some (.solved num den) ∧ Right c N D num den := by
  obtain ⟨s, e1, e2, e3, e4⟩ := C61_prime gtp hp hg probes hnd hG
  cases hr : s.out with
  | none =>
    have := hits_answers c _ _ _ e1 hans hr
    have e4 := e4 hr
    unfold withValues at this e4
    rw [List.length_map] at this
    omega
  | some r =>
    cases r with
    | accepted =>
      obtain ⟨q, h1, h2⟩ := e2.mp hr
      exact absurd h2 (hno q (List.mem_of_find?_eq_some h1))
    | solved num den => exact ⟨s, num, den, e1, hr, (e3 num den hr).2⟩

end FireFly.RShift
