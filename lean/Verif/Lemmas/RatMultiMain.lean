import Verif.Lemmas.RatMultiThiele
import Verif.Props.ThieleLowest
/-! # Any sequence of probes -/
set_option linter.all false
namespace FireFly.RMulti
open MvPolynomial
variable {F : Type} [Field F] [DecidableEq F] {c : Cfg F} {bounds : Option (List ℕ)} {Q N D : MvPolynomial ℕ F} {m T mN mD : ℕ} {G : F → List ℕ → Prop}

/-! ### Thiele's method -/

lemma run_append : ∀ (a b : List (F × F)) (s s' : Thiele F), s.run a = (s', false) → s.run (a ++ b) = s'.run b := by
  intro a
  induction a with
  | nil => intro b s s' h; cases h; rfl
  | cons p a ih =>
    intro b s s' h
    rw [Thiele.run] at h
    rw [List.cons_append, Thiele.run]
    split at h
    · rename_i h1
      rw [h] at h1; simp at h1
    · rename_i h1
      rw [if_neg h1]
      exact ih b _ _ h

lemma runChecked_true : ∀ (a b : List (F × F)) (s r : Thiele F), s.runChecked a = some (r, true) → s.runChecked (a ++ b) = some (r, true) := by
  intro a
  induction a with
  | nil => intro b s r h; simp [Thiele.runChecked] at h
  | cons p a ih =>
    intro b s r h
    rw [Thiele.runChecked] at h
    rw [List.cons_append, Thiele.runChecked]
    obtain ⟨w, hw, h⟩ := Option.bind_eq_some_iff.mp h
    rw [hw]
    simp only [Option.bind_eq_bind, Option.bind_some] at h ⊢
    split at h
    · rename_i h1; rw [if_pos h1]; exact h
    · rename_i h1; rw [if_neg h1]; exact ih b _ _ h

lemma runChecked_prefix : ∀ (a b : List (F × F)) (s : Thiele F) (r : Thiele F × Bool), s.runChecked (a ++ b) = some r → ∃ r', s.runChecked a = some r' := by
  intro a
  induction a with
  | nil => intro b s r h; exact ⟨_, rfl⟩
  | cons p a ih =>
    intro b s r h
    rw [List.cons_append, Thiele.runChecked] at h
    rw [Thiele.runChecked]
    obtain ⟨w, hw, h⟩ := Option.bind_eq_some_iff.mp h
    rw [hw]
    simp only [Option.bind_eq_bind, Option.bind_some] at h ⊢
    split at h
    · rename_i h1; rw [if_pos h1]; exact ⟨_, rfl⟩
    · rename_i h1; rw [if_neg h1]; exact ih b _ _ h

lemma first_append (a b : List (F × List ℕ)) : first c N D (a ++ b) = first c N D a ++ first c N D b := by
  unfold first; simp

lemma line_natDegree (hok : SideOK c bounds Q m) : (line c.shift c.anchor (ones c) Q).natDegree = m := by
  apply Polynomial.natDegree_eq_of_le_of_coeff_ne_zero
  · rw [Polynomial.natDegree_le_iff_coeff_eq_zero]
    intro k hk
    rw [line_coeff, hok.top k hk, map_zero]
  · rw [line_coeff]
    exact hok.seen m hok.lead

lemma thiele_result (hp : Prob c N D mN mD) {pts more : List (F × F)} (hT : ThieleOK c N D mN mD (pts ++ more)) {th : Thiele F} (hrun : ({} : Thiele F).run pts = (th, true))
    (hdata : ∀ q ∈ pts, eval (pt c.shift c.anchor q.2 (ones c)) D ≠ 0 ∧ q.1 = valueOf c.shift c.anchor N D q.2 (ones c)) (hdist : (pts.map Prod.snd).Nodup) :
    ∃ u : F, u ≠ 0 ∧ CanonU c N u th.getResult.1 ∧ CanonU c D u th.getResult.2 := by
  obtain ⟨r, hr, hbig⟩ := hT.run
  obtain ⟨r', hr'⟩ := runChecked_prefix _ _ _ _ hr
  have e := run_checked _ _ _ hr'
  rw [hrun] at e
  subst e
  have e2 := runChecked_true _ more _ _ hr'
  rw [e2] at hr
  have hr : r = (th, true) := (Option.some.inj hr).symm
  subst hr
  obtain ⟨b1, b2⟩ := hbig rfl
  have hsub : ∀ q ∈ pts, q ∈ pts ++ more := fun q hq => List.mem_append_left _ hq
  have hne : pts ≠ [] := by rintro rfl; simp [Thiele.run] at hrun
  obtain ⟨h1, h2, ⟨u, hu, h3, h4⟩, h5⟩ := C19_lowest_terms (pts := pts) (s := th) (by have := hT.short; simp at this; omega) hT.coprime
    (by
      intro q hq
      rw [line_eval, line_eval]
      exact hdata q hq) hdist hr'
    (by rw [line_natDegree hp.okD]; exact b1) (by rw [line_natDegree hp.okN]; exact b2)
  obtain ⟨z1, z2⟩ := h5 (fun q hq => hT.nonzero q (hsub q hq)) (by
    cases pts with
    | nil => exact absurd rfl hne
    | cons q l => exact hT.head q (by simp))
  refine ⟨u, hu, ⟨h1, z1, ?_⟩, ⟨h2, z2, ?_⟩⟩
  · intro k; rw [h3, line_coeff]; rfl
  · intro k; rw [h4, line_coeff]; rfl

lemma thiele_short (hp : Prob c N D mN mD) {pts more : List (F × F)} (hT : ThieleOK c N D mN mD (pts ++ more)) {th : Thiele F} (hrun : ({} : Thiele F).run pts = (th, false))
    (hdata : ∀ q ∈ pts, eval (pt c.shift c.anchor q.2 (ones c)) D ≠ 0 ∧ q.1 = valueOf c.shift c.anchor N D q.2 (ones c)) :
    pts.length < thieleMax mN mD := by
  obtain ⟨r, hr, -⟩ := hT.run
  obtain ⟨r', hr'⟩ := runChecked_prefix _ _ _ _ hr
  have e := run_checked _ _ _ hr'
  rw [hrun] at e
  subst e
  by_contra hlen
  unfold thieleMax at hlen
  have := C19_terminates (pts := pts) (s := th) (b := false) (n := line c.shift c.anchor (ones c) N) (d := line c.shift c.anchor (ones c) D)
    (by
      intro q hq
      rw [line_eval, line_eval]
      exact hdata q hq)
    (by rw [line_natDegree hp.okD, line_natDegree hp.okN]; omega) hr'
  simp at this

/-! ### saved probes -/

/-- the saved probes -/
structure Pool (c : Cfg F) (N D : MvPolynomial ℕ F) (past : List (F × List ℕ)) (sv : FFMap (List (F × F))) : Prop where
  keys : (sv.map Prod.fst).Nodup
  ne : ∀ e ∈ sv, e.2 ≠ []
  right : ∀ e ∈ sv, ∀ q ∈ e.2, (q.1, e.1) ∈ past ∧ q.2 = valueOf c.shift c.anchor N D q.1 e.1
  nodup : ∀ e ∈ sv, (e.2.map Prod.fst).Nodup

lemma Pool.mono {past : List (F × List ℕ)} {sv : FFMap (List (F × F))} (h : Pool c N D past sv) (q : F × List ℕ) : Pool c N D (past ++ [q]) sv :=
  ⟨h.keys, h.ne, fun e he x hx => ⟨List.mem_append_left _ (h.right e he x hx).1, (h.right e he x hx).2⟩, h.nodup⟩

lemma Pool.erase {past : List (F × List ℕ)} {sv : FFMap (List (F × F))} (h : Pool c N D past sv) (k : List ℕ) : Pool c N D past (sv.erase k) := by
  have hsub : ∀ e ∈ sv.erase k, e ∈ sv := fun e he => (List.mem_filter.mp he).1
  refine ⟨?_, fun e he => h.ne e (hsub e he), fun e he => h.right e (hsub e he), fun e he => h.nodup e (hsub e he)⟩
  exact h.keys.sublist (List.Sublist.map _ List.filter_sublist)

lemma mem_set_cases {α : Type} {m : FFMap α} {k : List ℕ} {v : α} {e : List ℕ × α} (h : e ∈ m.set k v) : (e ∈ m ∧ e.1 ≠ k) ∨ e = (k, v) := by
  unfold FFMap.set at h
  split at h
  · obtain ⟨x, hx, rfl⟩ := List.mem_map.mp h
    by_cases hk : x.1 = k
    · right; rw [if_pos hk]
    · left; rw [if_neg hk]; exact ⟨hx, hk⟩
  · rename_i h0
    rcases List.mem_append.mp h with h | h
    · left
      refine ⟨h, fun hk => ?_⟩
      have : m.find? k = none := by
        cases hf : m.find? k
        · rfl
        · rw [hf] at h0; simp at h0
      exact FFMap.find?_eq_none.mp this (hk ▸ List.mem_map_of_mem h)
    · right; exact List.mem_singleton.mp h

lemma set_erase {α : Type} (m : FFMap α) (k : List ℕ) (v : α) : (m.set k v).erase k = m.erase k := by
  unfold FFMap.set FFMap.erase
  split
  · rename_i h
    clear h
    induction m with
    | nil => rfl
    | cons x m ih =>
      rw [List.map_cons, List.filter_cons, List.filter_cons, ih]
      by_cases hk : x.1 = k
      · simp [hk]
      · simp [hk]
  · simp

lemma Pool.set {past : List (F × List ℕ)} {sv : FFMap (List (F × F))} (h : Pool c N D past sv) {t : F} {ord : List ℕ} (hnew : (t, ord) ∉ past) :
    Pool c N D (past ++ [(t, ord)]) (sv.set ord ((sv.find? ord).getD [] ++ [(t, valueOf c.shift c.anchor N D t ord)])) := by
  have hold : ∀ q ∈ (sv.find? ord).getD [], (q.1, ord) ∈ past ∧ q.2 = valueOf c.shift c.anchor N D q.1 ord := by
    intro q hq
    cases hf : sv.find? ord with
    | none => rw [hf] at hq; simp at hq
    | some l => rw [hf] at hq; exact h.right _ (FFMap.find?_mem hf) q hq
  have hnd : (((sv.find? ord).getD []).map Prod.fst).Nodup := by
    cases hf : sv.find? ord with
    | none => simp
    | some l => exact h.nodup _ (FFMap.find?_mem hf)
  refine ⟨?_, ?_, ?_, ?_⟩
  · rw [FFMap.keys_set]
    split
    · exact h.keys
    · rename_i h0
      rw [List.nodup_append]
      refine ⟨h.keys, by simp, ?_⟩
      intro x hx y hy hxy
      rw [List.mem_singleton.mp hy] at hxy
      exact h0 (hxy ▸ hx)
  · intro e he
    rcases mem_set_cases he with ⟨he, -⟩ | rfl
    · exact h.ne e he
    · simp
  · intro e he q hq
    rcases mem_set_cases he with ⟨he, -⟩ | rfl
    · exact ⟨List.mem_append_left _ (h.right e he q hq).1, (h.right e he q hq).2⟩
    · rcases List.mem_append.mp hq with hq | hq
      · exact ⟨List.mem_append_left _ (hold q hq).1, (hold q hq).2⟩
      · rw [List.mem_singleton.mp hq]; simp
  · intro e he
    rcases mem_set_cases he with ⟨he, -⟩ | rfl
    · exact h.nodup e he
    · rw [List.map_append, List.nodup_append]
      refine ⟨hnd, by simp, ?_⟩
      intro x hx y hy hxy
      obtain ⟨q, hq, rfl⟩ := List.mem_map.mp hx
      simp at hy
      subst hy
      rw [hxy.symm] at hnew
      exact hnew (hold q hq).1

/-! ### the phases -/

/-- the end -/
def Done (c : Cfg F) (N D : MvPolynomial ℕ F) (s : St F) : Prop := s.savedTi = [] ∧ ∃ r, s.result = some r ∧ Ends c N D s r

/-- the degrees are not known -/
structure Early (c : Cfg F) (N D : MvPolynomial ℕ F) (past : List (F × List ℕ)) (s : St F) : Prop where
  known : s.known = false
  result : s.result = none
  ord : s.ord = ones c
  rows : s.rows = []
  run : ({} : Thiele F).run (first c N D past) = (s.thiele, false)
  pool : Pool c N D past s.savedTi
  none : s.savedTi.find? (ones c) = none

/-- the degrees are known -/
structure Late (c : Cfg F) (N D : MvPolynomial ℕ F) (mN mD : ℕ) (G : F → List ℕ → Prop) (past : List (F × List ℕ)) (s : St F) (pts : List (F × F)) : Prop where
  run : Run c N D mN mD G s pts
  pool : Pool c N D past s.savedTi
  past : ∀ q ∈ pts, (q.1, s.ord) ∈ past
  fresh : s.savedTi.find? s.ord ≠ none → pts = []

/-- the number of probes that are still missing at most when the degrees are known -/
noncomputable def lateMax (c : Cfg F) (N D : MvPolynomial ℕ F) (mN mD : ℕ) (s : St F) (k : ℕ) : ℕ := Missing c N D s * (mN + mD + 3) + (mN + mD + 2 - k)

lemma Run.small {s : St F} {pts : List (F × F)} (h : Run c N D mN mD G s pts) : pts.length < mN + mD + 2 := by
  obtain ⟨_, a⟩ := h.both.num.inv
  obtain ⟨_, b⟩ := h.both.den.inv
  have := h.lt
  rw [h.eqn] at this
  have := a.count
  have := b.count
  omega

lemma Run.saved {s : St F} {pts : List (F × F)} (h : Run c N D mN mD G s pts) (sv : FFMap (List (F × F))) : Run c N D mN mD G { s with savedTi := sv } pts :=
  ⟨⟨h.both.num, h.both.den, h.both.known, h.both.result⟩, h.asks, h.eqn, ⟨h.rows.rows, h.rows.sub, h.rows.right, h.rows.nodup⟩, h.lt⟩

/-- probes of the requested order vector are used -/
lemma late_use (gtp : PivotOrder c.gt) (hp : Prob c N D mN mD) (hG : GoodPts c N D G) {past : List (F × List ℕ)} (hpast : ∀ q ∈ past, G q.1 q.2)
    {s : St F} {pts food : List (F × F)} (h : Run c N D mN mD G s pts) {sv : FFMap (List (F × F))} (hpool : Pool c N D past sv) (hnone : sv.find? s.ord = none)
    (hne : food ≠ []) (hpts : ∀ q ∈ pts, (q.1, s.ord) ∈ past)
    (hfood : ∀ q ∈ food, (q.1, s.ord) ∈ past ∧ q.2 = valueOf c.shift c.anchor N D q.1 s.ord) (hnd : ((pts ++ food).map Prod.fst).Nodup) :
    ∃ s', c.use { s with savedTi := sv } food = some s' ∧ (Done c N D s' ∨
      ∃ pts', Late c N D mN mD G past s' pts' ∧ s'.savedTi = sv ∧ lateMax c N D mN mD s' pts'.length + 1 ≤ lateMax c N D mN mD s pts.length) := by
  obtain ⟨s', e1, e2⟩ := use_spec gtp hp hG (h.saved sv) (food := food) (fun q hq => ⟨hpast _ (hfood q hq).1, (hfood q hq).2⟩) hnd
  refine ⟨s', e1, ?_⟩
  rcases e2 with e2 | ⟨e3, e4⟩
  · exact Or.inl e2
  · right
    have e3 : s'.savedTi = sv := e3
    rcases e4 with ⟨f1, f2, f3⟩ | ⟨f1, f2⟩
    · refine ⟨pts ++ food, ⟨f2, e3 ▸ hpool, ?_, ?_⟩, e3, ?_⟩
      · intro q hq
        rw [f1]
        rcases List.mem_append.mp hq with hq | hq
        · exact hpts q hq
        · exact (hfood q hq).1
      · intro h0
        rw [e3, f1] at h0
        exact absurd hnone h0
      · have := f2.small
        have h1 : 1 ≤ food.length := List.length_pos_iff.mpr hne
        have h2 : Missing c N D s' = Missing c N D s := f3
        unfold lateMax
        rw [h2]
        rw [List.length_append] at this ⊢
        omega
    · refine ⟨[], ⟨f1, e3 ▸ hpool, by simp, fun _ => rfl⟩, e3, ?_⟩
      have h2 : Missing c N D s' + 1 ≤ Missing c N D s := f2
      have := h.small
      unfold lateMax
      have := Nat.mul_le_mul_right (mN + mD + 3) h2
      rw [Nat.add_mul] at this
      simp only [List.length_nil]
      omega

lemma probe_known {s : St F} (h1 : s.result = none) (h2 : s.known = true) (t v : F) :
    c.probe s t v s.ord = c.use { s with savedTi := s.savedTi.erase s.ord } ((s.savedTi.find? s.ord).getD [] ++ [(t, v)]) := by
  unfold Cfg.probe Cfg.use
  rw [h1]
  simp [h2]

lemma drain_spec (gtp : PivotOrder c.gt) (hp : Prob c N D mN mD) (hG : GoodPts c N D G) {past : List (F × List ℕ)} (hpast : ∀ q ∈ past, G q.1 q.2) :
    ∀ (k : ℕ) (s : St F) (pts : List (F × F)), s.savedTi.length ≤ k → Late c N D mN mD G past s pts →
    ∃ s', c.drain k s = some s' ∧ (Done c N D s' ∨ ∃ pts', Late c N D mN mD G past s' pts' ∧ s'.savedTi.find? s'.ord = none ∧
      lateMax c N D mN mD s' pts'.length ≤ lateMax c N D mN mD s pts.length) := by
  intro k
  induction k with
  | zero =>
    intro s pts hk h
    have h0 : s.savedTi = [] := List.length_eq_zero_iff.mp (by omega)
    rw [Cfg.drain, h0]
    exact ⟨s, rfl, Or.inr ⟨pts, h, by rw [h0]; rfl, le_rfl⟩⟩
  | succ k ih =>
    intro s pts hk h
    rw [Cfg.drain]
    cases hf : s.savedTi.find? s.ord with
    | none => exact ⟨s, rfl, Or.inr ⟨pts, h, hf, le_rfl⟩⟩
    | some l =>
      have hmem := FFMap.find?_mem hf
      cases l with
      | nil => exact absurd rfl (h.pool.ne _ hmem)
      | cons q rest =>
        simp only
        have hpts : pts = [] := h.fresh (by rw [hf]; simp)
        subst hpts
        have hp' := probe_known (c := c) (s := { s with savedTi := s.savedTi.set s.ord rest }) h.run.both.result h.run.both.known q.1 q.2
        simp only [set_erase, FFMap.find?_set, if_true, Option.getD_some] at hp'
        have hr := h.pool.right _ hmem
        have hnd := h.pool.nodup _ hmem
        obtain ⟨s', e1, e2⟩ := late_use gtp hp hG hpast (s := { s with savedTi := s.savedTi.set s.ord rest }) (pts := []) (food := rest ++ [q]) (h.run.saved _) (h.pool.erase s.ord)
          (by show (s.savedTi.erase s.ord).find? s.ord = none; rw [FFMap.find?_erase, if_pos rfl]) (by simp) (by simp)
          (by
            intro x hx
            refine hr x ?_
            rcases List.mem_append.mp hx with hx | hx
            · simp [hx]
            · rw [List.mem_singleton.mp hx]; simp)
          (by
            rw [List.nil_append]
            refine List.Perm.nodup ?_ hnd
            exact List.Perm.map _ (List.perm_append_singleton q rest).symm)
        rw [hp', e1]
        simp only [Option.bind_eq_bind, Option.bind_some]
        rcases e2 with e2 | ⟨pts', f1, f2, f3⟩
        · refine ⟨s', ?_, Or.inl e2⟩
          cases k <;> rw [Cfg.drain, e2.1] <;> rfl
        · have hlen : s'.savedTi.length ≤ k := by
            rw [f2]
            have : (s.savedTi.erase s.ord).length < s.savedTi.length := by
              unfold FFMap.erase
              apply List.length_filter_lt_length_iff_exists.mpr
              exact ⟨_, hmem, by simp⟩
            omega
          obtain ⟨s2, g1, g2⟩ := ih s' pts' hlen f1
          refine ⟨s2, g1, ?_⟩
          rcases g2 with g2 | ⟨pts2, g3, g4, g5⟩
          · exact Or.inl g2
          · refine Or.inr ⟨pts2, g3, g4, ?_⟩
            have f3 : lateMax c N D mN mD s' pts'.length + 1 ≤ lateMax c N D mN mD s 0 := f3
            simp only [List.length_nil]
            omega

/-- what holds between two probes; `φ` bounds the number of requested probes that are still missing -/
def Inv (c : Cfg F) (N D : MvPolynomial ℕ F) (mN mD : ℕ) (G : F → List ℕ → Prop) (past : List (F × List ℕ)) (s : St F) (φ : ℕ) : Prop :=
  Done c N D s ∨
  (Early c N D past s ∧ (needs c N mN + needs c D mD) * (mN + mD + 3) + (mN + mD + 2) + (thieleMax mN mD - (first c N D past).length) ≤ φ) ∨
  ∃ pts, Late c N D mN mD G past s pts ∧ s.savedTi.find? s.ord = none ∧ lateMax c N D mN mD s pts.length ≤ φ

lemma drain_done {s : St F} (h : Done c N D s) (k : ℕ) : c.drain k s = some s := by
  cases k <;> rw [Cfg.drain, h.1] <;> rfl

lemma drain_early {past : List (F × List ℕ)} {s : St F} (h : Early c N D past s) (k : ℕ) : c.drain k s = some s := by
  cases k <;> rw [Cfg.drain, h.ord, h.none]

lemma feed_late (gtp : PivotOrder c.gt) (hp : Prob c N D mN mD) (hG : GoodPts c N D G) {past : List (F × List ℕ)} {q : F × List ℕ}
    (hpast : ∀ x ∈ past ++ [q], G x.1 x.2) (hnd : (past ++ [q]).Nodup) {s : St F} {φ : ℕ}
    (h : Done c N D s ∨ ∃ pts, Late c N D mN mD G past s pts ∧ s.savedTi.find? s.ord = none ∧ lateMax c N D mN mD s pts.length ≤ φ) :
    ∃ s' φ', c.feed s (q.1, valueOf c.shift c.anchor N D q.1 q.2, q.2) = some s' ∧
      (Done c N D s' ∨ ∃ pts, Late c N D mN mD G (past ++ [q]) s' pts ∧ s'.savedTi.find? s'.ord = none ∧ lateMax c N D mN mD s' pts.length ≤ φ') ∧
      φ' + (if q.2 = s.ord ∧ s.result.isSome = false then 1 else 0) ≤ φ := by
  obtain ⟨t, ord⟩ := q
  have hnew : (t, ord) ∉ past := by
    rw [List.nodup_append] at hnd
    intro hmem
    exact hnd.2.2 _ hmem _ (by simp) rfl
  unfold Cfg.feed
  rcases h with h | ⟨pts, h, hn, hφ⟩
  · obtain ⟨r, hr, hg⟩ := h.2
    refine ⟨s, φ, ?_, Or.inl h, ?_⟩
    · have : c.probe s t (valueOf c.shift c.anchor N D t ord) ord = some s := by unfold Cfg.probe; rw [hr]; rfl
      simp only [this, Option.bind_eq_bind, Option.bind_some]
      exact drain_done h _
    · rw [hr]; simp
  · by_cases hord : ord = s.ord
    · subst hord
      have hprobe := probe_known (c := c) h.run.both.result h.run.both.known t (valueOf c.shift c.anchor N D t s.ord)
      rw [hn, Option.getD_none, List.nil_append] at hprobe
      obtain ⟨s1, e1, e2⟩ := late_use gtp hp hG hpast (food := [(t, valueOf c.shift c.anchor N D t s.ord)]) h.run ((h.pool.mono (t, s.ord)).erase s.ord)
        (by rw [FFMap.find?_erase, if_pos rfl]) (by simp) (fun x hx => List.mem_append_left _ (h.past x hx)) (by simp)
        (by
          rw [List.map_append, List.nodup_append]
          refine ⟨h.run.rows.nodup, by simp, ?_⟩
          intro x hx y hy hxy
          obtain ⟨z, hz, rfl⟩ := List.mem_map.mp hx
          simp at hy
          subst hy
          have := h.past z hz
          rw [hxy] at this
          exact hnew this)
      rw [← hprobe] at e1
      simp only [e1, Option.bind_eq_bind, Option.bind_some]
      rcases e2 with e2 | ⟨pts', f1, f2, f3⟩
      · refine ⟨s1, φ - 1, drain_done e2 _, Or.inl e2, ?_⟩
        have : 1 ≤ lateMax c N D mN mD s pts.length := by
          have := h.run.small
          unfold lateMax; omega
        split <;> omega
      · obtain ⟨s2, g1, g2⟩ := drain_spec gtp hp hG hpast _ s1 pts' le_rfl f1
        rcases g2 with g2 | ⟨pts2, g3, g4, g5⟩
        · exact ⟨s2, φ - 1, g1, Or.inl g2, by split <;> omega⟩
        · exact ⟨s2, φ - 1, g1, Or.inr (⟨pts2, g3, g4, by omega⟩), by split <;> omega⟩
    · have hprobe : c.probe s t (valueOf c.shift c.anchor N D t ord) ord =
          some { s with savedTi := s.savedTi.set ord ((s.savedTi.find? ord).getD [] ++ [(t, valueOf c.shift c.anchor N D t ord)]) } := by
        unfold Cfg.probe
        rw [h.run.both.result]
        simp [hord]
      have hnone : (s.savedTi.set ord ((s.savedTi.find? ord).getD [] ++ [(t, valueOf c.shift c.anchor N D t ord)])).find? s.ord = none := by
        rw [FFMap.find?_set, if_neg (fun e => hord e.symm)]; exact hn
      have hL : Late c N D mN mD G (past ++ [(t, ord)]) { s with savedTi := s.savedTi.set ord ((s.savedTi.find? ord).getD [] ++ [(t, valueOf c.shift c.anchor N D t ord)]) } pts :=
        ⟨h.run.saved _, h.pool.set hnew, fun x hx => List.mem_append_left _ (h.past x hx), fun h0 => absurd hnone h0⟩
      refine ⟨_, φ, ?_, Or.inr (⟨pts, hL, hnone, hφ⟩), ?_⟩
      · simp only [hprobe, Option.bind_eq_bind, Option.bind_some]
        have : ∀ k, c.drain k { s with savedTi := s.savedTi.set ord ((s.savedTi.find? ord).getD [] ++ [(t, valueOf c.shift c.anchor N D t ord)]) } =
            some { s with savedTi := s.savedTi.set ord ((s.savedTi.find? ord).getD [] ++ [(t, valueOf c.shift c.anchor N D t ord)]) } := by
          intro k
          cases k <;> rw [Cfg.drain] <;> simp only [hnone]
        exact this _
      · simp [hord]

lemma feed_spec (gtp : PivotOrder c.gt) (hp : Prob c N D mN mD) (hG : GoodPts c N D G) {past : List (F × List ℕ)} {q : F × List ℕ} {more : List (F × List ℕ)}
    (hpast : ∀ x ∈ past ++ [q], G x.1 x.2) (hnd : (past ++ [q]).Nodup) (hT : ThieleOK c N D mN mD (first c N D (past ++ q :: more)))
    {s : St F} {φ : ℕ} (h : Inv c N D mN mD G past s φ) :
    ∃ s' φ', c.feed s (q.1, valueOf c.shift c.anchor N D q.1 q.2, q.2) = some s' ∧ Inv c N D mN mD G (past ++ [q]) s' φ' ∧
      φ' + (if q.2 = s.ord ∧ s.result.isSome = false then 1 else 0) ≤ φ := by
  have late : (Done c N D s ∨ ∃ pts, Late c N D mN mD G past s pts ∧ s.savedTi.find? s.ord = none ∧ lateMax c N D mN mD s pts.length ≤ φ) →
      ∃ s' φ', c.feed s (q.1, valueOf c.shift c.anchor N D q.1 q.2, q.2) = some s' ∧ Inv c N D mN mD G (past ++ [q]) s' φ' ∧
      φ' + (if q.2 = s.ord ∧ s.result.isSome = false then 1 else 0) ≤ φ := by
    intro hcase
    obtain ⟨s', φ', e1, e2, e3⟩ := feed_late gtp hp hG hpast hnd hcase
    refine ⟨s', φ', e1, ?_, e3⟩
    rcases e2 with e2 | e2
    · exact Or.inl e2
    · exact Or.inr (Or.inr e2)
  rcases h with h | ⟨h, hφ⟩ | h
  · exact late (Or.inl h)
  · obtain ⟨t, ord⟩ := q
    have hnew : (t, ord) ∉ past := by
      rw [List.nodup_append] at hnd
      intro hmem
      exact hnd.2.2 _ hmem _ (by simp) rfl
    unfold Cfg.feed
    -- Thiele's method
    by_cases hord : ord = ones c
    · subst hord
      have hf : first c N D (past ++ [(t, ones c)]) = first c N D past ++ [(valueOf c.shift c.anchor N D t (ones c), t)] := by
        rw [first_append]; congr 1; unfold first; simp
      have hdata : ∀ x ∈ first c N D (past ++ [(t, ones c)]), eval (pt c.shift c.anchor x.2 (ones c)) D ≠ 0 ∧ x.1 = valueOf c.shift c.anchor N D x.2 (ones c) := by
        intro x hx
        unfold first at hx
        obtain ⟨y, hy, rfl⟩ := List.mem_map.mp hx
        obtain ⟨hy1, hy2⟩ := List.mem_filter.mp hy
        have hy2 : y.2 = ones c := by simpa using hy2
        have := hG.den _ _ (hpast y hy1)
        rw [hy2] at this
        exact ⟨this, rfl⟩
      have hT' : ThieleOK c N D mN mD (first c N D (past ++ [(t, ones c)]) ++ first c N D more) := by
        rw [← first_append]; simpa using hT
      have hdist : ((first c N D (past ++ [(t, ones c)])).map Prod.snd).Nodup := by
        unfold first
        rw [List.map_map]
        refine List.Nodup.map_on ?_ (hnd.filter _)
        intro x hx y hy hxy
        have h1 : x.2 = ones c := by simpa using (List.mem_filter.mp hx).2
        have h2 : y.2 = ones c := by simpa using (List.mem_filter.mp hy).2
        exact Prod.ext hxy (h1.trans h2.symm)
      have hrun := run_append _ [(valueOf c.shift c.anchor N D t (ones c), t)] _ _ h.run
      rw [← hf] at hrun
      have hlen : (first c N D past).length + 1 = (first c N D (past ++ [(t, ones c)])).length := by rw [hf]; simp
      cases hadd : s.thiele.addPoint (valueOf c.shift c.anchor N D t (ones c)) t with
      | mk th b =>
        have hstep : s.thiele.run [(valueOf c.shift c.anchor N D t (ones c), t)] = (th, b) := by
          rw [Thiele.run, hadd]
          cases b <;> rfl
        rw [hstep] at hrun
        have hsT : (first c N D past).length < thieleMax mN mD :=
          thiele_short hp (pts := first c N D past) (more := first c N D ((t, ones c) :: more)) (by rw [← first_append]; exact hT) h.run
            (fun x hx => hdata x (by rw [hf]; exact List.mem_append_left _ hx))
        cases b with
        | false =>
          have hprobe : c.probe s t (valueOf c.shift c.anchor N D t (ones c)) (ones c) = some { s with thiele := th } := by
            unfold Cfg.probe
            rw [h.result, h.ord, h.known, hadd]
            simp
          have hE : Early c N D (past ++ [(t, ones c)]) { s with thiele := th } := ⟨h.known, h.result, h.ord, h.rows, hrun, h.pool.mono _, h.none⟩
          refine ⟨{ s with thiele := th }, φ - 1, ?_, Or.inr (Or.inl ⟨hE, ?_⟩), ?_⟩
          · simp only [hprobe, Option.bind_eq_bind, Option.bind_some]
            exact drain_early hE _
          · omega
          · split <;> omega
        | true =>
          obtain ⟨u, hu, k1, k2⟩ := thiele_result hp hT' hrun hdata hdist
          obtain ⟨s1, e1, e2⟩ := start_spec (G := G) hp (s := { s with thiele := th }) h.ord h.rows h.result hu k1 k2
          have hprobe : c.probe s t (valueOf c.shift c.anchor N D t (ones c)) (ones c) = some s1 := by
            unfold Cfg.probe
            rw [h.result, h.ord, h.known, hadd]
            simpa [h.ord, h.result, h.known] using e1
          simp only [hprobe, Option.bind_eq_bind, Option.bind_some]
          rcases e2 with e2 | ⟨f1, f2, f3⟩
          · exact ⟨s1, φ - 1, drain_done e2 _, Or.inl e2, by split <;> omega⟩
          · have f2 : s1.savedTi = s.savedTi := f2
            have hL : Late c N D mN mD G (past ++ [(t, ones c)]) s1 [] := ⟨f1, f2 ▸ h.pool.mono _, by simp, fun _ => rfl⟩
            obtain ⟨s2, g1, g2⟩ := drain_spec gtp hp hG hpast _ s1 [] le_rfl hL
            have hb : lateMax c N D mN mD s1 0 ≤ (needs c N mN + needs c D mD) * (mN + mD + 3) + (mN + mD + 2) := by
              unfold lateMax
              have := Nat.mul_le_mul_right (mN + mD + 3) f3
              omega
            rcases g2 with g2 | ⟨pts2, g3, g4, g5⟩
            · exact ⟨s2, φ - 1, g1, Or.inl g2, by split <;> omega⟩
            · simp only [List.length_nil] at g5
              exact ⟨s2, φ - 1, g1, Or.inr (Or.inr ⟨pts2, g3, g4, by omega⟩), by split <;> omega⟩
    · have hprobe : c.probe s t (valueOf c.shift c.anchor N D t ord) ord =
          some { s with savedTi := s.savedTi.set ord ((s.savedTi.find? ord).getD [] ++ [(t, valueOf c.shift c.anchor N D t ord)]) } := by
        unfold Cfg.probe
        rw [h.result, h.ord]
        simp [hord]
      have hf : first c N D (past ++ [(t, ord)]) = first c N D past := by
        rw [first_append]; unfold first; simp [hord]
      have hE : Early c N D (past ++ [(t, ord)]) { s with savedTi := s.savedTi.set ord ((s.savedTi.find? ord).getD [] ++ [(t, valueOf c.shift c.anchor N D t ord)]) } :=
        ⟨h.known, h.result, h.ord, h.rows, by rw [hf]; exact h.run, h.pool.set hnew, by rw [FFMap.find?_set, if_neg (fun e => hord e.symm)]; exact h.none⟩
      refine ⟨_, φ, ?_, Or.inr (Or.inl ⟨hE, by rw [hf]; exact hφ⟩), ?_⟩
      · simp only [hprobe, Option.bind_eq_bind, Option.bind_some]
        exact drain_early hE _
      · rw [h.ord]; simp [hord]
  · exact late (Or.inr h)

end FireFly.RMulti
