import Verif.Lemmas.FirstFeedBooks
import Verif.Spec.FirstFeed
/-! # Every probe an object has got is counted -/
set_option linter.all false
namespace FireFly.RMulti
open MvPolynomial
variable {F : Type} [Field F] [DecidableEq F] {c : Cfg F} {bounds : Option (List ℕ)} {Q N D : MvPolynomial ℕ F} {m T mN mD : ℕ} {G : F → List ℕ → Prop}

/-- the degrees are known; all probes are counted -/
structure Late2 (c : Cfg F) (N D : MvPolynomial ℕ F) (mN mD : ℕ) (G : F → List ℕ → Prop) (past : List (F × List ℕ)) (s : St F) (pts : List (F × F)) : Prop where
  late : Late c N D mN mD G past s pts
  fresh : Fresh s
  acc : Acc c s pts past s.savedTi
  first : Used c s (ones c)

lemma Used.saved {s : St F} {o : List ℕ} (h : Used c s o) (sv : FFMap (List (F × F))) : Used c { s with savedTi := sv } o := h

lemma late_use2 (gtp : PivotOrder c.gt) (hp : Prob c N D mN mD) (hG : GoodPts c N D G) {past : List (F × List ℕ)} (hpast : ∀ q ∈ past, G q.1 q.2)
    {s : St F} {pts food : List (F × F)} (h : Run c N D mN mD G s pts) {sv : FFMap (List (F × F))} (hpool : Pool c N D past sv) (hnone : sv.find? s.ord = none)
    (hne : food ≠ []) (hpts : ∀ q ∈ pts, (q.1, s.ord) ∈ past)
    (hfood : ∀ q ∈ food, (q.1, s.ord) ∈ past ∧ q.2 = valueOf c.shift c.anchor N D q.1 s.ord) (hnd : ((pts ++ food).map Prod.fst).Nodup)
    (hfr : Fresh s) (hacc : Acc c s (pts ++ food) past sv) (h1 : Used c s (ones c)) :
    ∃ s', c.use { s with savedTi := sv } food = some s' ∧ (Done c N D s' ∨
      ∃ pts', Late2 c N D mN mD G past s' pts' ∧ s'.savedTi = sv ∧ lateMax c N D mN mD s' pts'.length + 1 ≤ lateMax c N D mN mD s pts.length) := by
  obtain ⟨s', e1, e2⟩ := late_use gtp hp hG hpast h hpool hnone hne hpts hfood hnd
  refine ⟨s', e1, ?_⟩
  rcases e2 with e2 | ⟨pts', f1, f2, f3⟩
  · exact Or.inl e2
  · obtain ⟨b1, b2, b3⟩ := use_books gtp hp hG (h.saved sv) hfr (food := food) (fun q hq => ⟨hpast _ (hfood q hq).1, (hfood q hq).2⟩) hnd e1 f1.run.both.result
    -- the probes of `use_spec` are those of `late_use`
    obtain ⟨s2, g1, g2⟩ := use_spec gtp hp hG (h.saved sv) (food := food) (fun q hq => ⟨hpast _ (hfood q hq).1, (hfood q hq).2⟩) hnd
    have : s2 = s' := Option.some.inj (g1.symm.trans e1)
    subst this
    rcases g2 with ⟨-, r, g2, -⟩ | ⟨g3, g4⟩
    · rw [f1.run.both.result] at g2; simp at g2
    · right
      rcases g4 with ⟨k1, k2, k3⟩ | ⟨k1, k2⟩
      · have k1 : s2.ord = s.ord := k1
        refine ⟨pts ++ food, ⟨⟨k2, f1.pool, ?_, ?_⟩, b1, ?_, b2 _ h1⟩, f2, ?_⟩
        · intro q hq
          rw [k1]
          rcases List.mem_append.mp hq with hq | hq
          · exact hpts q hq
          · exact (hfood q hq).1
        · intro h0
          rw [f2, k1] at h0
          exact absurd hnone h0
        · intro t o ht
          rw [k1, f2]
          rcases hacc t o ht with x | x | x
          · exact Or.inl x
          · exact Or.inr (Or.inl x)
          · exact Or.inr (Or.inr (b2 o x))
        · have := k2.small
          have h1 : 1 ≤ food.length := List.length_pos_iff.mpr hne
          have h2 : Missing c N D s2 = Missing c N D s := k3
          unfold lateMax
          rw [h2]
          rw [List.length_append] at this ⊢
          omega
      · refine ⟨[], ⟨⟨k1, f1.pool, by simp, fun _ => rfl⟩, b1, ?_, b2 _ h1⟩, f2, ?_⟩
        · have hu : Used c s2 s.ord := by
            rcases b3 with ⟨x1, x2⟩ | ⟨-, x⟩
            · have hr : s2.rows = [] := k1.rows.rows
              rw [hr] at x2
              have : 1 ≤ food.length := List.length_pos_iff.mpr hne
              simp at x2; omega
            · exact x
          intro t o ht
          rw [f2]
          rcases hacc t o ht with ⟨x, -⟩ | x | x
          · right; right; rw [x]; exact hu
          · exact Or.inr (Or.inl x)
          · exact Or.inr (Or.inr (b2 o x))
        · have h2 : Missing c N D s2 + 1 ≤ Missing c N D s := k2
          have := h.small
          unfold lateMax
          have := Nat.mul_le_mul_right (mN + mD + 3) h2
          rw [Nat.add_mul] at this
          simp only [List.length_nil]
          omega

lemma drain2 (gtp : PivotOrder c.gt) (hp : Prob c N D mN mD) (hG : GoodPts c N D G) {past : List (F × List ℕ)} (hpast : ∀ q ∈ past, G q.1 q.2) :
    ∀ (k : ℕ) (s : St F) (pts : List (F × F)), s.savedTi.length ≤ k → Late2 c N D mN mD G past s pts →
    ∃ s', c.drain k s = some s' ∧ (Done c N D s' ∨ ∃ pts', Late2 c N D mN mD G past s' pts' ∧ s'.savedTi.find? s'.ord = none ∧
      lateMax c N D mN mD s' pts'.length ≤ lateMax c N D mN mD s pts.length) := by
  intro k
  induction k with
  | zero =>
    intro s pts hk h
    have h0 : s.savedTi = [] := List.length_eq_zero_iff.mp (by omega)
    rw [Cfg.drain, h0]
    exact ⟨s, rfl, Or.inr ⟨pts, h, by rw [h0]; rfl, le_rfl⟩⟩
  | succ k ih =>
    intro s pts hk h2
    have h := h2.late
    rw [Cfg.drain]
    cases hf : s.savedTi.find? s.ord with
    | none => exact ⟨s, rfl, Or.inr ⟨pts, h2, hf, le_rfl⟩⟩
    | some l =>
      have hmem := FFMap.find?_mem hf
      cases l with
      | nil => exact absurd rfl (h.pool.ne _ hmem)
      | cons q rest =>
        simp only
        have hpts : pts = [] := h.fresh (by rw [hf]; simp)
        subst hpts
        have hp' := probe_known (c := c) (s := { s with savedTi := s.savedTi.set s.ord rest }) h.run.both.result h.run.both.known q.1 q.2
        simp only [set_erase, FFMap.find?_set, if_true, Option.getD_some] at hp'
        have hr := h.pool.right _ hmem
        have hnd := h.pool.nodup _ hmem
        obtain ⟨s', e1, e2⟩ := late_use2 gtp hp hG hpast (s := { s with savedTi := s.savedTi.set s.ord rest }) (pts := []) (food := rest ++ [q]) (h.run.saved _) (h.pool.erase s.ord)
          (by show (s.savedTi.erase s.ord).find? s.ord = none; rw [FFMap.find?_erase, if_pos rfl]) (by simp) (by simp)
          (by
            intro x hx
            refine hr x ?_
            rcases List.mem_append.mp hx with hx | hx
            · simp [hx]
            · rw [List.mem_singleton.mp hx]; simp)
          (by
            rw [List.nil_append]
            refine List.Perm.nodup ?_ hnd
            exact List.Perm.map _ (List.perm_append_singleton q rest).symm)
          h2.fresh
          (by
            intro t o ht
            rcases h2.acc t o ht with ⟨-, x⟩ | ⟨l', x1, x2⟩ | x
            · simp at x
            · by_cases ho : o = s.ord
              · left
                rw [ho, hf] at x1
                rw [← Option.some.inj x1] at x2
                refine ⟨ho, ?_⟩
                simp only [List.nil_append, List.map_append, List.mem_append, List.map_cons, List.mem_cons, List.map_nil] at x2 ⊢
                tauto
              · right; left
                exact ⟨l', by rw [FFMap.find?_erase, if_neg ho]; exact x1, x2⟩
            · exact Or.inr (Or.inr x))
          h2.first
        rw [hp', e1]
        simp only [Option.bind_eq_bind, Option.bind_some]
        rcases e2 with e2 | ⟨pts', f1, f2, f3⟩
        · refine ⟨s', ?_, Or.inl e2⟩
          cases k <;> rw [Cfg.drain, e2.1] <;> rfl
        · have hlen : s'.savedTi.length ≤ k := by
            rw [f2]
            have : (s.savedTi.erase s.ord).length < s.savedTi.length := by
              unfold FFMap.erase
              apply List.length_filter_lt_length_iff_exists.mpr
              exact ⟨_, hmem, by simp⟩
            omega
          obtain ⟨s2, g1, g2⟩ := ih s' pts' hlen f1
          refine ⟨s2, g1, ?_⟩
          rcases g2 with g2 | ⟨pts2, g3, g4, g5⟩
          · exact Or.inl g2
          · refine Or.inr ⟨pts2, g3, g4, ?_⟩
            have f3 : lateMax c N D mN mD s' pts'.length + 1 ≤ lateMax c N D mN mD s 0 := f3
            simp only [List.length_nil]
            omega

/-- in Thiele's method the other probes are saved -/
def EAcc (c : Cfg F) (past : List (F × List ℕ)) (sv : FFMap (List (F × F))) : Prop :=
  ∀ t o, (t, o) ∈ past → o ≠ ones c → ∃ l, sv.find? o = some l ∧ t ∈ l.map Prod.fst

/-- between two probes, all probes are counted -/
def Inv2 (c : Cfg F) (N D : MvPolynomial ℕ F) (mN mD : ℕ) (G : F → List ℕ → Prop) (past : List (F × List ℕ)) (s : St F) (φ : ℕ) : Prop :=
  Done c N D s ∨
  (Early c N D past s ∧ EAcc c past s.savedTi ∧ (s.zi < 3 ∧ (first c N D past).length < thieleMax mN mD) ∧
    (needs c N mN + needs c D mD) * (mN + mD + 3) + (mN + mD + 2) + (thieleMax mN mD - (first c N D past).length) ≤ φ) ∨
  ∃ pts, Late2 c N D mN mD G past s pts ∧ s.savedTi.find? s.ord = none ∧ lateMax c N D mN mD s pts.length ≤ φ

/-- the request is the same -/
def SameReq (s s' : St F) : Prop := s'.known = s.known ∧ s'.num = s.num ∧ s'.den = s.den ∧ s'.zi = s.zi ∧ s'.ord = s.ord ∧ s'.numEqn = s.numEqn ∧ s'.result = s.result

lemma EAcc.set {past : List (F × List ℕ)} {sv : FFMap (List (F × F))} (h : EAcc c past sv) (t v : F) (ord : List ℕ) :
    EAcc c (past ++ [(t, ord)]) (sv.set ord ((sv.find? ord).getD [] ++ [(t, v)])) := by
  intro t' o ht ho
  rw [FFMap.find?_set]
  rcases List.mem_append.mp ht with ht | ht
  · obtain ⟨l, h1, h2⟩ := h t' o ht ho
    by_cases hh : o = ord
    · rw [if_pos hh]
      refine ⟨_, rfl, ?_⟩
      rw [← hh, h1]
      simp only [Option.getD_some, List.map_append, List.mem_append]
      exact Or.inl h2
    · rw [if_neg hh]; exact ⟨l, h1, h2⟩
  · simp at ht
    rw [if_pos ht.2]
    exact ⟨_, rfl, by simp [ht.1]⟩

lemma Acc.set {s : St F} {pts : List (F × F)} {past : List (F × List ℕ)} {sv : FFMap (List (F × F))} (h : Acc c s pts past sv) (t v : F) (ord : List ℕ) :
    Acc c s pts (past ++ [(t, ord)]) (sv.set ord ((sv.find? ord).getD [] ++ [(t, v)])) := by
  intro t' o ht
  rw [FFMap.find?_set]
  rcases List.mem_append.mp ht with ht | ht
  · rcases h t' o ht with x | ⟨l, h1, h2⟩ | x
    · exact Or.inl x
    · right; left
      by_cases hh : o = ord
      · rw [if_pos hh]
        refine ⟨_, rfl, ?_⟩
        rw [← hh, h1]
        simp only [Option.getD_some, List.map_append, List.mem_append]
        exact Or.inl h2
      · rw [if_neg hh]; exact ⟨l, h1, h2⟩
    · exact Or.inr (Or.inr x)
  · simp at ht
    right; left
    rw [if_pos ht.2]
    exact ⟨_, rfl, by simp [ht.1]⟩

lemma first_eq (past : List (F × List ℕ)) : first c N D past =
    ((past.filter (fun q => decide (q.2 = ones c))).map Prod.fst).map (fun t => (valueOf c.shift c.anchor N D t (ones c), t)) := by
  unfold first; rw [List.map_map]; rfl

lemma feed_late2 (gtp : PivotOrder c.gt) (hp : Prob c N D mN mD) (hG : GoodPts c N D G) {past : List (F × List ℕ)} {q : F × List ℕ}
    (hpast : ∀ x ∈ past ++ [q], G x.1 x.2) (hnd : (past ++ [q]).Nodup) {s : St F} {φ : ℕ} {pts : List (F × F)}
    (h2 : Late2 c N D mN mD G past s pts) (hn : s.savedTi.find? s.ord = none) (hφ : lateMax c N D mN mD s pts.length ≤ φ) :
    ∃ s' φ', c.feed s (q.1, valueOf c.shift c.anchor N D q.1 q.2, q.2) = some s' ∧ Inv2 c N D mN mD G (past ++ [q]) s' φ' ∧
      (φ' < φ ∨ (φ' ≤ φ ∧ SameReq s s')) := by
  obtain ⟨t, ord⟩ := q
  have hnew : (t, ord) ∉ past := by
    rw [List.nodup_append] at hnd
    intro hmem
    exact hnd.2.2 _ hmem _ (by simp) rfl
  have h := h2.late
  unfold Cfg.feed
  by_cases hord : ord = s.ord
  · subst hord
    have hprobe := probe_known (c := c) h.run.both.result h.run.both.known t (valueOf c.shift c.anchor N D t s.ord)
    rw [hn, Option.getD_none, List.nil_append] at hprobe
    have h1max : 1 ≤ lateMax c N D mN mD s pts.length := by
      have := h.run.small
      unfold lateMax; omega
    obtain ⟨s1, e1, e2⟩ := late_use2 gtp hp hG hpast (food := [(t, valueOf c.shift c.anchor N D t s.ord)]) h.run ((h.pool.mono (t, s.ord)).erase s.ord)
      (by rw [FFMap.find?_erase, if_pos rfl]) (by simp) (fun x hx => List.mem_append_left _ (h.past x hx)) (by simp)
      (by
        rw [List.map_append, List.nodup_append]
        refine ⟨h.run.rows.nodup, by simp, ?_⟩
        intro x hx y hy hxy
        obtain ⟨z, hz, rfl⟩ := List.mem_map.mp hx
        simp at hy
        subst hy
        have := h.past z hz
        rw [hxy] at this
        exact hnew this)
      h2.fresh
      (by
        intro t' o ht
        rcases List.mem_append.mp ht with ht | ht
        · rcases h2.acc t' o ht with ⟨x1, x2⟩ | ⟨l, x1, x2⟩ | x
          · left
            refine ⟨x1, ?_⟩
            rw [List.map_append]; exact List.mem_append_left _ x2
          · right; left
            refine ⟨l, ?_, x2⟩
            rw [FFMap.find?_erase, if_neg]
            · exact x1
            · intro ho; rw [ho, hn] at x1; simp at x1
          · exact Or.inr (Or.inr x)
        · simp at ht
          left
          exact ⟨ht.2, by simp [ht.1]⟩)
      h2.first
    rw [← hprobe] at e1
    simp only [e1, Option.bind_eq_bind, Option.bind_some]
    rcases e2 with e2 | ⟨pts', f1, f2, f3⟩
    · exact ⟨s1, φ - 1, drain_done e2 _, Or.inl e2, Or.inl (by omega)⟩
    · obtain ⟨s2, g1, g2⟩ := drain2 gtp hp hG hpast _ s1 pts' le_rfl f1
      rcases g2 with g2 | ⟨pts2, g3, g4, g5⟩
      · exact ⟨s2, φ - 1, g1, Or.inl g2, Or.inl (by omega)⟩
      · exact ⟨s2, φ - 1, g1, Or.inr (Or.inr ⟨pts2, g3, g4, by omega⟩), Or.inl (by omega)⟩
  · have hprobe : c.probe s t (valueOf c.shift c.anchor N D t ord) ord =
        some { s with savedTi := s.savedTi.set ord ((s.savedTi.find? ord).getD [] ++ [(t, valueOf c.shift c.anchor N D t ord)]) } := by
      unfold Cfg.probe
      rw [h.run.both.result]
      simp [hord]
    have hnone : (s.savedTi.set ord ((s.savedTi.find? ord).getD [] ++ [(t, valueOf c.shift c.anchor N D t ord)])).find? s.ord = none := by
      rw [FFMap.find?_set, if_neg (fun e => hord e.symm)]; exact hn
    have hL : Late c N D mN mD G (past ++ [(t, ord)]) { s with savedTi := s.savedTi.set ord ((s.savedTi.find? ord).getD [] ++ [(t, valueOf c.shift c.anchor N D t ord)]) } pts :=
      ⟨h.run.saved _, h.pool.set hnew, fun x hx => List.mem_append_left _ (h.past x hx), fun h0 => absurd hnone h0⟩
    refine ⟨_, φ, ?_, Or.inr (Or.inr ⟨pts, ⟨hL, h2.fresh, h2.acc.set t _ ord, h2.first⟩, hnone, hφ⟩), Or.inr ⟨le_rfl, rfl, rfl, rfl, rfl, rfl, rfl, rfl⟩⟩
    simp only [hprobe, Option.bind_eq_bind, Option.bind_some]
    have : ∀ k, c.drain k { s with savedTi := s.savedTi.set ord ((s.savedTi.find? ord).getD [] ++ [(t, valueOf c.shift c.anchor N D t ord)]) } =
        some { s with savedTi := s.savedTi.set ord ((s.savedTi.find? ord).getD [] ++ [(t, valueOf c.shift c.anchor N D t ord)]) } := by
      intro k
      cases k <;> rw [Cfg.drain] <;> simp only [hnone]
    exact this _

lemma feed2 (gtp : PivotOrder c.gt) (hp : Prob c N D mN mD) (hG : GoodPts c N D G) (hTG : ThieleGood c N D mN mD G) {past : List (F × List ℕ)} {q : F × List ℕ}
    (hpast : ∀ x ∈ past ++ [q], G x.1 x.2) (hnd : (past ++ [q]).Nodup) {s : St F} {φ : ℕ} (h : Inv2 c N D mN mD G past s φ) :
    ∃ s' φ', c.feed s (q.1, valueOf c.shift c.anchor N D q.1 q.2, q.2) = some s' ∧ Inv2 c N D mN mD G (past ++ [q]) s' φ' ∧
      (φ' < φ ∨ (φ' ≤ φ ∧ SameReq s s' ∧ (s.result = none → s.known = false → q.2 ≠ ones c))) := by
  rcases h with h | ⟨h, hacc, ⟨hzi, hlt⟩, hφ⟩ | ⟨pts, h, hn, hφ⟩
  · obtain ⟨r, hr, hg⟩ := h.2
    refine ⟨s, φ, ?_, Or.inl h, Or.inr ⟨le_rfl, ⟨rfl, rfl, rfl, rfl, rfl, rfl, rfl⟩, fun h0 => by rw [hr] at h0; simp at h0⟩⟩
    unfold Cfg.feed
    have : c.probe s q.1 (valueOf c.shift c.anchor N D q.1 q.2) q.2 = some s := by unfold Cfg.probe; rw [hr]; rfl
    simp only [this, Option.bind_eq_bind, Option.bind_some]
    exact drain_done h _
  · obtain ⟨t, ord⟩ := q
    have hnew : (t, ord) ∉ past := by
      rw [List.nodup_append] at hnd
      intro hmem
      exact hnd.2.2 _ hmem _ (by simp) rfl
    unfold Cfg.feed
    by_cases hord : ord = ones c
    · subst hord
      have hf : first c N D (past ++ [(t, ones c)]) = first c N D past ++ [(valueOf c.shift c.anchor N D t (ones c), t)] := by
        rw [first_append]; congr 1; unfold first; simp
      have hlen : (first c N D past).length + 1 = (first c N D (past ++ [(t, ones c)])).length := by rw [hf]; simp
      have hdata : ∀ x ∈ first c N D (past ++ [(t, ones c)]), eval (pt c.shift c.anchor x.2 (ones c)) D ≠ 0 ∧ x.1 = valueOf c.shift c.anchor N D x.2 (ones c) := by
        intro x hx
        unfold first at hx
        obtain ⟨y, hy, rfl⟩ := List.mem_map.mp hx
        obtain ⟨hy1, hy2⟩ := List.mem_filter.mp hy
        have hy2 : y.2 = ones c := by simpa using hy2
        have := hG.den _ _ (hpast y hy1)
        rw [hy2] at this
        exact ⟨this, rfl⟩
      have hdist : ((first c N D (past ++ [(t, ones c)])).map Prod.snd).Nodup := by
        unfold first
        rw [List.map_map]
        refine List.Nodup.map_on ?_ (hnd.filter _)
        intro x hx y hy hxy
        have h1 : x.2 = ones c := by simpa using (List.mem_filter.mp hx).2
        have h2 : y.2 = ones c := by simpa using (List.mem_filter.mp hy).2
        exact Prod.ext hxy (h1.trans h2.symm)
      have hT : ThieleOK c N D mN mD (first c N D (past ++ [(t, ones c)])) := by
        rw [first_eq]
        refine hTG _ ?_ ?_ ?_
        · have := hdist
          rw [first_eq, List.map_map] at this
          simpa [Function.comp_def] using this
        · have : (((past ++ [(t, ones c)]).filter (fun q => decide (q.2 = ones c))).map Prod.fst).length = (first c N D (past ++ [(t, ones c)])).length := by
            unfold first; simp only [List.length_map]
          rw [this]; omega
        · intro x hx
          obtain ⟨y, hy, rfl⟩ := List.mem_map.mp hx
          obtain ⟨hy1, hy2⟩ := List.mem_filter.mp hy
          have hy2 : y.2 = ones c := by simpa using hy2
          rw [← hy2]; exact hpast y hy1
      have hT' : ThieleOK c N D mN mD (first c N D (past ++ [(t, ones c)]) ++ []) := by rw [List.append_nil]; exact hT
      have hrun := run_append _ [(valueOf c.shift c.anchor N D t (ones c), t)] _ _ h.run
      rw [← hf] at hrun
      cases hadd : s.thiele.addPoint (valueOf c.shift c.anchor N D t (ones c)) t with
      | mk th b =>
        have hstep : s.thiele.run [(valueOf c.shift c.anchor N D t (ones c), t)] = (th, b) := by
          rw [Thiele.run, hadd]
          cases b <;> rfl
        rw [hstep] at hrun
        cases b with
        | false =>
          have hprobe : c.probe s t (valueOf c.shift c.anchor N D t (ones c)) (ones c) = some { s with thiele := th } := by
            unfold Cfg.probe
            rw [h.result, h.ord, h.known, hadd]
            simp
          have hE : Early c N D (past ++ [(t, ones c)]) { s with thiele := th } := ⟨h.known, h.result, h.ord, h.rows, hrun, h.pool.mono _, h.none⟩
          have hs := thiele_short hp hT' hrun hdata
          refine ⟨{ s with thiele := th }, φ - 1, ?_, Or.inr (Or.inl ⟨hE, ?_, ⟨hzi, hs⟩, ?_⟩), Or.inl ?_⟩
          · simp only [hprobe, Option.bind_eq_bind, Option.bind_some]
            exact drain_early hE _
          · intro t' o ht ho
            rcases List.mem_append.mp ht with ht | ht
            · exact hacc t' o ht ho
            · simp at ht; exact absurd ht.2 ho
          · omega
          · omega
        | true =>
          obtain ⟨u, hu, k1, k2⟩ := thiele_result hp hT' hrun hdata hdist
          obtain ⟨s1, e1, e2⟩ := start_spec (G := G) hp (s := { s with thiele := th }) h.ord h.rows h.result hu k1 k2
          have hprobe : c.probe s t (valueOf c.shift c.anchor N D t (ones c)) (ones c) = some s1 := by
            unfold Cfg.probe
            rw [h.result, h.ord, h.known, hadd]
            simpa [h.ord, h.result, h.known] using e1
          simp only [hprobe, Option.bind_eq_bind, Option.bind_some]
          rcases e2 with e2 | ⟨f1, f2, f3⟩
          · exact ⟨s1, φ - 1, drain_done e2 _, Or.inl e2, Or.inl (by omega)⟩
          · have f2 : s1.savedTi = s.savedTi := f2
            obtain ⟨b1, b2⟩ := start_books hp (s := { s with thiele := th }) h.ord h.result hu k1 k2 e1 f1.both.result
            have hL : Late c N D mN mD G (past ++ [(t, ones c)]) s1 [] := ⟨f1, f2 ▸ h.pool.mono _, by simp, fun _ => rfl⟩
            have hL2 : Late2 c N D mN mD G (past ++ [(t, ones c)]) s1 [] := ⟨hL, b1, by
              intro t' o ht
              by_cases ho : o = ones c
              · right; right; rw [ho]; exact b2
              · right; left
                rw [f2]
                rcases List.mem_append.mp ht with ht | ht
                · exact hacc t' o ht ho
                · simp at ht; exact absurd ht.2 ho, b2⟩
            obtain ⟨s2, g1, g2⟩ := drain2 gtp hp hG hpast _ s1 [] le_rfl hL2
            have hb : lateMax c N D mN mD s1 0 ≤ (needs c N mN + needs c D mD) * (mN + mD + 3) + (mN + mD + 2) := by
              unfold lateMax
              have := Nat.mul_le_mul_right (mN + mD + 3) f3
              omega
            rcases g2 with g2 | ⟨pts2, g3, g4, g5⟩
            · exact ⟨s2, φ - 1, g1, Or.inl g2, Or.inl (by omega)⟩
            · simp only [List.length_nil] at g5
              exact ⟨s2, φ - 1, g1, Or.inr (Or.inr ⟨pts2, g3, g4, by omega⟩), Or.inl (by omega)⟩
    · have hprobe : c.probe s t (valueOf c.shift c.anchor N D t ord) ord =
          some { s with savedTi := s.savedTi.set ord ((s.savedTi.find? ord).getD [] ++ [(t, valueOf c.shift c.anchor N D t ord)]) } := by
        unfold Cfg.probe
        rw [h.result, h.ord]
        simp [hord]
      have hf : first c N D (past ++ [(t, ord)]) = first c N D past := by
        rw [first_append]; unfold first; simp [hord]
      have hE : Early c N D (past ++ [(t, ord)]) { s with savedTi := s.savedTi.set ord ((s.savedTi.find? ord).getD [] ++ [(t, valueOf c.shift c.anchor N D t ord)]) } :=
        ⟨h.known, h.result, h.ord, h.rows, by rw [hf]; exact h.run, h.pool.set hnew, by rw [FFMap.find?_set, if_neg (fun e => hord e.symm)]; exact h.none⟩
      refine ⟨_, φ, ?_, Or.inr (Or.inl ⟨hE, hacc.set t _ ord, ⟨hzi, by rw [hf]; exact hlt⟩, by rw [hf]; exact hφ⟩), Or.inr ⟨le_rfl, ⟨rfl, rfl, rfl, rfl, rfl, rfl, rfl⟩, fun _ _ => hord⟩⟩
      simp only [hprobe, Option.bind_eq_bind, Option.bind_some]
      exact drain_early hE _
  · obtain ⟨s', φ', e1, e2, e3⟩ := feed_late2 gtp hp hG hpast hnd h hn hφ
    refine ⟨s', φ', e1, e2, ?_⟩
    rcases e3 with e3 | ⟨e3, e4⟩
    · exact Or.inl e3
    · exact Or.inr ⟨e3, e4, fun _ hk => by rw [h.late.run.both.known] at hk; simp at hk⟩

lemma Inv2.start (c : Cfg F) (N D : MvPolynomial ℕ F) (mN mD : ℕ) (G : F → List ℕ → Prop) : Inv2 c N D mN mD G [] c.init (maxProbes c N D mN mD) := by
  right; left
  refine ⟨⟨rfl, rfl, rfl, rfl, rfl, ⟨by simp [Cfg.init], by simp [Cfg.init], by simp [Cfg.init], by simp [Cfg.init]⟩, rfl⟩, ?_, ⟨by simp [Cfg.init], ?_⟩, ?_⟩
  · intro t o h; simp at h
  · simp [first, thieleMax]
  · simp [first, maxProbes]

end FireFly.RMulti
