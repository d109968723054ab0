import Verif.Lemmas.RatMultiMain
/-!
# C44: interpolation of multivariate rational functions over the first prime field
-/
set_option linter.all false
namespace FireFly.RMulti
open MvPolynomial
variable {F : Type} [Field F] [DecidableEq F] {c : Cfg F} {N D : MvPolynomial ℕ F} {mN mD : ℕ}

lemma Inv.start (c : Cfg F) (N D : MvPolynomial ℕ F) (mN mD : ℕ) (G : F → List ℕ → Prop) : Inv c N D mN mD G [] c.init (maxProbes c N D mN mD) := by
  refine Or.inr (Or.inl ⟨⟨rfl, rfl, rfl, rfl, rfl, ⟨List.nodup_nil, by simp [Cfg.init], by simp [Cfg.init], by simp [Cfg.init]⟩, rfl⟩, ?_⟩)
  unfold maxProbes first
  simp

lemma feedAll_spec (gtp : PivotOrder c.gt) (hp : Prob c N D mN mD) {G : F → List ℕ → Prop} (hG : GoodPts c N D G) :
    ∀ (probes past : List (F × List ℕ)) (s : St F) (φ : ℕ), (∀ x ∈ past ++ probes, G x.1 x.2) → (past ++ probes).Nodup → ThieleOK c N D mN mD (first c N D (past ++ probes)) →
    Inv c N D mN mD G past s φ → ∃ s' φ', c.feedAll s (withValues c N D probes) = some s' ∧ Inv c N D mN mD G (past ++ probes) s' φ' ∧ φ' + hits c s (withValues c N D probes) ≤ φ := by
  intro probes
  induction probes with
  | nil => intro past s φ _ _ _ h; exact ⟨s, φ, rfl, by simpa using h, by simp [withValues, hits]⟩
  | cons q probes ih =>
    intro past s φ h1 h2 h3 h4
    have e : past ++ q :: probes = (past ++ [q]) ++ probes := by simp
    obtain ⟨s1, φ1, e1, e2, e3⟩ := feed_spec gtp hp hG (past := past) (q := q) (more := probes) (fun x hx => h1 x (by rw [e]; exact List.mem_append_left _ hx))
      (by rw [e] at h2; exact (List.nodup_append.mp h2).1) h3 h4
    obtain ⟨s2, φ2, f1, f2, f3⟩ := ih (past ++ [q]) s1 φ1 (by rw [← e]; exact h1) (by rw [← e]; exact h2) (by rw [← e]; exact h3) e2
    refine ⟨s2, φ2, ?_, by rw [e]; exact f2, ?_⟩
    · unfold Cfg.feedAll withValues at f1 ⊢
      rw [List.map_cons, List.foldlM_cons, e1]
      exact f1
    · have : hits c s (withValues c N D (q :: probes)) = (if q.2 = s.ord ∧ s.result.isSome = false then 1 else 0) + hits c s1 (withValues c N D probes) := by
        unfold withValues
        rw [List.map_cons, hits, e1]
      omega

lemma Inv.good {G : F → List ℕ → Prop} {past : List (F × List ℕ)} {s : St F} {φ : ℕ} (h : Inv c N D mN mD G past s φ) {r : Result F} (hr : s.result = some r) : Ends c N D s r := by
  rcases h with h | ⟨h, -⟩ | ⟨pts, h, -⟩
  · obtain ⟨r', h1, h2⟩ := h.2
    rw [h1] at hr
    rw [← Option.some.inj hr]; exact h2
  · rw [h.result] at hr; cases hr
  · rw [h.run.both.result] at hr; cases hr

lemma Inv.pos {G : F → List ℕ → Prop} {past : List (F × List ℕ)} {s : St F} {φ : ℕ} (h : Inv c N D mN mD G past s φ) (hr : s.result = none) : 1 ≤ φ := by
  rcases h with h | ⟨h, h'⟩ | ⟨pts, h, -, h'⟩
  · obtain ⟨r', h1, h2⟩ := h.2
    rw [h1] at hr; cases hr
  · omega
  · have := h.run.small
    unfold lateMax at h'
    omega

/-- **C44 (correct and bounded, any order).** The probes `(t, order vector)`, different from each other, arrive in any order with the values of the rational function `N/D` in `n > 1` variables. Then there is no undefined
behaviour and no error of the linear solver; whenever the object has a result, it is `N/D`: its numerator and denominator are those of `N/D` up to one common factor, without terms that vanish, and the coefficient
the object has chosen for the normalization is one. And before it has a
result, it gets fewer than `maxProbes` probes that it has asked for. -/
theorem C44_reconstruct (gtp : PivotOrder c.gt) (hp : Prob c N D mN mD) (probes : List (F × List ℕ)) (hnd : probes.Nodup)
    (hG : GoodPts c N D (fun t ord => (t, ord) ∈ probes)) (hT : ThieleOK c N D mN mD (first c N D probes)) :
    ∃ s, c.feedAll c.init (withValues c N D probes) = some s ∧ (∀ r, s.result = some r → Good c N D r) ∧ (s.result = none → hits c c.init (withValues c N D probes) < maxProbes c N D mN mD) := by
  obtain ⟨s, φ, e1, e2, e3⟩ := feedAll_spec gtp hp hG probes [] c.init _ (fun x hx => by simpa using hx) (by simpa using hnd) (by simpa using hT) (Inv.start c N D mN mD _)
  exact ⟨s, e1, fun r hr => (e2.good hr).1, fun hr => by have := e2.pos hr; omega⟩

/-- `C44_reconstruct` with the polynomials the object keeps at the end -/
theorem reconstruct_ends (gtp : PivotOrder c.gt) (hp : Prob c N D mN mD) (probes : List (F × List ℕ)) (hnd : probes.Nodup)
    (hG : GoodPts c N D (fun t ord => (t, ord) ∈ probes)) (hT : ThieleOK c N D mN mD (first c N D probes)) :
    ∃ s, c.feedAll c.init (withValues c N D probes) = some s ∧ (∀ r, s.result = some r → Ends c N D s r) ∧ (s.result = none → hits c c.init (withValues c N D probes) < maxProbes c N D mN mD) := by
  obtain ⟨s, φ, e1, e2, e3⟩ := feedAll_spec gtp hp hG probes [] c.init _ (fun x hx => by simpa using hx) (by simpa using hnd) (by simpa using hT) (Inv.start c N D mN mD _)
  exact ⟨s, e1, fun r hr => e2.good hr, fun hr => by have := e2.pos hr; omega⟩

/-- each probe has the order vector that the object wants, until it has its result -/
def Answers (c : Cfg F) : St F → List (F × F × List ℕ) → Prop
  | _, [] => True
  | s, q :: rest => (s.result = none → q.2.2 = s.ord) ∧ ∀ s', c.feed s q = some s' → Answers c s' rest

lemma hits_answers (c : Cfg F) : ∀ (l : List (F × F × List ℕ)) (s s' : St F), c.feedAll s l = some s' → Answers c s l → s'.result = none → hits c s l = l.length := by
  intro l
  induction l with
  | nil => intro s s' _ _ _; rfl
  | cons q l ih =>
    intro s s' h1 h2 h3
    unfold Cfg.feedAll at h1
    rw [List.foldlM_cons] at h1
    obtain ⟨s1, e1, e2⟩ := Option.bind_eq_some_iff.mp h1
    have hres : s.result = none := by
      by_contra hr
      have hstay : ∀ (l : List (F × F × List ℕ)) (x y : St F), x.result.isSome = true → l.foldlM c.feed x = some y → y.result.isSome = true := by
        have hprobe : ∀ (x y : St F) (t v : F) (o : List ℕ), x.result.isSome = true → c.probe x t v o = some y → y = x := by
          intro x y t v o hx hy
          unfold Cfg.probe at hy
          rw [if_pos hx] at hy
          exact (Option.some.inj hy).symm
        have hdrain : ∀ (k : ℕ) (x y : St F), x.result.isSome = true → c.drain k x = some y → y.result.isSome = true := by
          intro k
          induction k with
          | zero =>
            intro x y hx hy
            rw [Cfg.drain] at hy
            split at hy
            · rw [← Option.some.inj hy]; exact hx
            · cases hy
            · cases hy
          | succ k ihk =>
            intro x y hx hy
            rw [Cfg.drain] at hy
            split at hy
            · rw [← Option.some.inj hy]; exact hx
            · cases hy
            · obtain ⟨z, hz, hy⟩ := Option.bind_eq_some_iff.mp hy
              have := hprobe _ _ _ _ _ (by exact hx) hz
              exact ihk z y (by rw [this]; exact hx) hy
        intro l
        induction l with
        | nil => intro x y hx hy; rw [← Option.some.inj hy]; exact hx
        | cons q l ihl =>
          intro x y hx hy
          rw [List.foldlM_cons] at hy
          obtain ⟨z, hz, hy⟩ := Option.bind_eq_some_iff.mp hy
          refine ihl z y ?_ hy
          unfold Cfg.feed at hz
          obtain ⟨w, hw, hz⟩ := Option.bind_eq_some_iff.mp hz
          have := hprobe _ _ _ _ _ hx hw
          exact hdrain _ w z (by rw [this]; exact hx) hz
      have := hstay (q :: l) s s' (Option.isSome_iff_ne_none.mpr hr) h1
      rw [h3] at this
      cases this
    rw [hits, e1, if_pos ⟨h2.1 hres, by rw [hres]; rfl⟩, List.length_cons]
    have := ih s1 s' e2 (h2.2 s1 e1) h3
    simp only [this]
    omega

/-- **C44 (complete).** If every probe has the order vector the object wants (with a new `t`), the object has its result after at most `maxProbes` probes, and it is `N/D`. -/
theorem C44_complete (gtp : PivotOrder c.gt) (hp : Prob c N D mN mD) (probes : List (F × List ℕ)) (hnd : probes.Nodup)
    (hG : GoodPts c N D (fun t ord => (t, ord) ∈ probes)) (hT : ThieleOK c N D mN mD (first c N D probes))
    (hans : Answers c c.init (withValues c N D probes)) (hlen : maxProbes c N D mN mD ≤ probes.length) :
    ∃ s r, c.feedAll c.init (withValues c N D probes) = some s ∧ s.result = some r ∧ Good c N D r := by
  obtain ⟨s, e1, e2, e3⟩ := C44_reconstruct gtp hp probes hnd hG hT
  cases hr : s.result with
  | none =>
    have := hits_answers c _ _ _ e1 hans hr
    have e3 := e3 hr
    unfold withValues at this e3
    rw [List.length_map] at this
    omega
  | some r => exact ⟨s, r, e1, hr, e2 r hr⟩

end FireFly.RMulti
