import Verif.Lemmas.NeededFeed
import Verif.Props.RatLaterProps
import Verif.Props.RatShiftProps
import Verif.Spec.NeededFeedRun
/-! # The requests of one object suffice -/
set_option linter.all false
namespace FireFly.Needed

/-- what the system needs of an object; `R` are its requests -/
structure Obj.OK {F : Type} (ob : Obj F) (n : ℕ) (good : F × List ℕ → Prop) (R : List (ℕ × ℕ)) : Prop where
  run : ∀ past : List (F × List ℕ), past.Nodup → (∀ q ∈ past, good q) → ∃ s, past.foldlM ob.feed ob.init = some s
  adds : ∀ (past : List (F × List ℕ)) q s s', (past ++ [q]).Nodup → (∀ x ∈ past ++ [q], good x) → past.foldlM ob.feed ob.init = some s → ob.feed s q = some s' →
    ob.adds s q = some [] ∨ (ob.adds s q = some R ∧ count n past 1 = 0 ∧ q.2 = List.replicate (n - 1) 1)
  first : ∀ (past : List (F × List ℕ)) q s s', (past ++ [q]).Nodup → (∀ x ∈ past ++ [q], good x) → past.foldlM ob.feed ob.init = some s → ob.feed s q = some s' →
    count n past 1 = 0 → q.2 = List.replicate (n - 1) 1 → ob.adds s q = some R ∨ ob.done s' = true
  stay : ∀ s q s', ob.done s = true → ob.feed s q = some s' → ob.done s' = true
  enough : ∀ (past : List (F × List ℕ)) s, past.Nodup → (∀ q ∈ past, good q) → past.foldlM ob.feed ob.init = some s → (∀ el ∈ R, el.2 ≤ count n past el.1) → 1 ≤ count n past 1 → ob.done s = true

end FireFly.Needed

namespace FireFly.RLater
open MvPolynomial Needed
variable {F : Type} [Field F] [DecidableEq F] {c : Cfg F} {N D : MvPolynomial ℕ F} {UN UD : FFMap (List (List ℕ))}

/-- the numbers of unknown coefficients by degree -/
def lens (UN UD : FFMap (List (List ℕ))) : List ℕ := UN.map (fun u => u.2.length) ++ UD.map (fun u => u.2.length)

lemma sizes_self {U : FFMap (List (List ℕ))} {V : Type} (v : V) (hnd : (U.map Prod.fst).Nodup) : sizes U (U.map (fun t => (t.1, v))) = U.map (fun u => u.2.length) := by
  unfold sizes
  rw [List.map_map]
  apply List.map_congr_left
  intro u hu
  simp only [Function.comp]
  rw [FFMap.find?_of_mem hnd hu]; rfl

lemma needed_spec {s : St F} (hN : (UN.map Prod.fst).Nodup) (hD : (UD.map Prod.fst).Nodup) (h0 : 0 ∉ lens UN UD) (hn : s.num.unsolved = UN ∧ s.num.mat = UN.map (fun t => (t.1, [])))
    (hd : s.den.unsolved = UD ∧ s.den.mat = UD.map (fun t => (t.1, []))) (he : s.numEqn = UN.length + UD.length) : needed s = some (requests (lens UN UD)) := by
  unfold needed
  rw [hn.1, hn.2, hd.1, hd.2, sizes_self _ hN, sizes_self _ hD, he]
  have := blocks_spec (lens UN UD) h0
  rw [← this]
  unfold lens
  simp

lemma lens_pos {a : List F} {n : ℕ} {kN kD : FFMap F} (hN : Split n a N kN UN) (hD : Split n a D kD UD) : 0 ∉ lens UN UD := by
  intro h
  unfold lens at h
  rw [List.mem_append, List.mem_map, List.mem_map] at h
  rcases h with ⟨u, hu, h⟩ | ⟨u, hu, h⟩
  · obtain ⟨d, -, h2, -⟩ := hN.form u hu; exact h2 (List.length_eq_zero_iff.mp h)
  · obtain ⟨d, -, h2, -⟩ := hD.form u hu; exact h2 (List.length_eq_zero_iff.mp h)

lemma atLeast_lens (o : ℕ) : atLeast (lens UN UD) o = degrees UN o + degrees UD o := by
  unfold atLeast lens degrees
  rw [List.filter_append, List.length_append, List.filter_map, List.filter_map, List.length_map, List.length_map]
  rfl

lemma feedAll_obj (past : List (F × List ℕ)) (s : St F) : past.foldlM (obj c UN UD (value c.anchor N D)).feed s = c.feedAll s (withValues c.anchor N D past) := by
  unfold Cfg.feedAll withValues
  rw [List.foldlM_map]; rfl

lemma first_count (past : List (F × List ℕ)) : firstProbe c past = none ↔ count c.n past 1 = 0 := by
  unfold firstProbe count
  rw [List.find?_eq_none, List.length_eq_zero_iff, List.filter_eq_nil_iff]; rfl

theorem obj_ok (gtp : PivotOrder c.gt) (hlen : c.anchor.length + 1 = c.n) (hN : Split c.n c.anchor N c.known.1 UN) (hD : Split c.n c.anchor D c.known.2 UD)
    (hU : UN ≠ [] ∨ UD ≠ []) (hg : GuessOK c) {good : F × List ℕ → Prop} (hG : GoodPts c.anchor N D UN UD (fun t ord => good (t, ord))) :
    (obj c UN UD (value c.anchor N D)).OK c.n good (requests (lens UN UD)) := by
  have hU' : 1 ≤ UN.length + UD.length := by
    rcases hU with h | h <;> have := List.length_pos_iff.mpr h <;> omega
  have sub : ∀ past : List (F × List ℕ), (∀ q ∈ past, good q) → GoodPts c.anchor N D UN UD (fun t ord => (t, ord) ∈ past) := fun past hp =>
    ⟨fun t o h => hG.ord t o (hp _ h), fun t o h => hG.den t o (hp _ h), fun o A B ts h1 h2 h3 h4 => hG.det o A B ts h1 h2 h3 (fun t ht => hp _ (h4 t ht))⟩
  have inv : ∀ past : List (F × List ℕ), past.Nodup → (∀ q ∈ past, good q) → ∃ s φ, past.foldlM (obj c UN UD (value c.anchor N D)).feed (c.init UN UD) = some s ∧
      Inv c N D c.known.1 c.known.2 UN UD (fun t ord => good (t, ord)) past s φ := by
    intro past h1 h2
    obtain ⟨s, φ, e1, e2, e3⟩ := feedAll_spec gtp ⟨hlen, hN, hD⟩ hg hU' hG past [] (c.init UN UD) _ (fun x hx => h2 x (by simpa using hx)) (by simpa using h1) (Inv.start c N D c.known.1 c.known.2 UN UD _)
    exact ⟨s, φ, by rw [feedAll_obj]; exact e1, by simpa using e2⟩
  have fresh : ∀ (past : List (F × List ℕ)) (s : St F) (q : F × List ℕ), Fresh c N D UN UD past s → q.2 = uni c 1 → ∀ s', c.feed s (q.1, value c.anchor N D q.1 q.2, q.2) = some s' →
      c.adds s q.1 (value c.anchor N D q.1 q.2) q.2 = some (requests (lens UN UD)) ∨ (c.adds s q.1 (value c.anchor N D q.1 q.2) q.2 = some [] ∧ s'.out.isSome = true) := by
    intro past s q hf hq s' hs'
    have hchk := check_spec (N := N) (D := D) hlen hg hf.out q.1
    rw [hf.ord] at hchk
    have hcond : (s.out.isSome = false ∧ uni c 1 = s.ord ∧ s.newPrime = true) := ⟨by rw [hf.out]; rfl, hf.ord.symm, hf.np⟩
    by_cases hp : Passes c N D q.1 (uni c 1)
    · right
      rw [if_pos hp] at hchk
      unfold Cfg.adds
      rw [hq, if_pos hcond, hchk]
      refine ⟨by simp, ?_⟩
      rw [hq] at hs'
      unfold Cfg.feed at hs'
      obtain ⟨x, hx, hs'⟩ := Option.bind_eq_some_iff.mp hs'
      refine drain_stay _ x s' ?_ hs'
      unfold Cfg.probe at hx
      rw [hf.out, hf.ord, hf.np, hchk] at hx
      simp at hx
      rw [← hx]; rfl
    · left
      rw [if_neg hp] at hchk
      unfold Cfg.adds
      rw [hq, if_pos hcond, hchk]
      have := needed_spec (s := { s with newPrime := false, ord := uni c 1, num := { s.num with solved := c.group c.known.1 }, den := { s.den with solved := c.group c.known.2 } }) hN.nodup hD.nodup (lens_pos hN hD) hf.num hf.den hf.eqn
      rw [Option.bind_some]
      simp only [hf.out, Option.isSome_none, Bool.false_eq_true, if_false]
      rw [← this]; rfl
  refine ⟨?_, ?_, ?_, ?_, ?_⟩
  · intro past h1 h2
    obtain ⟨s, φ, e, -⟩ := inv past h1 h2
    exact ⟨s, e⟩
  · intro past q s s' h1 h2 hs hs'
    obtain ⟨s2, φ, e, hi⟩ := inv past (h1.sublist (by simp)) (fun x hx => h2 x (by simp [hx]))
    obtain rfl : s = s2 := Option.some.inj (hs.symm.trans e)
    show c.adds s q.1 (value c.anchor N D q.1 q.2) q.2 = some [] ∨ _
    have hnot : ¬ (s.out.isSome = false ∧ q.2 = s.ord ∧ s.newPrime = true) → c.adds s q.1 (value c.anchor N D q.1 q.2) q.2 = some [] := by
      intro h; unfold Cfg.adds; rw [if_neg h]
    rcases hi with h | ⟨h, -⟩ | ⟨o, pts, h, -⟩
    · left; exact hnot (fun hh => by have := h.some; rw [hh.1] at this; cases this)
    · by_cases hq : q.2 = uni c 1
      · rcases fresh past s q h hq s' hs' with h1 | ⟨h1, -⟩
        · exact Or.inr ⟨h1, (first_count past).mp h.first, hq⟩
        · exact Or.inl h1
      · left; exact hnot (fun hh => hq (by rw [hh.2.1]; exact h.ord))
    · left; exact hnot (fun hh => by have := h.run.both.np; rw [hh.2.2] at this; cases this)
  · intro past q s s' h1 h2 hs hs' h0 hq
    obtain ⟨s2, φ, e, hi⟩ := inv past (h1.sublist (by simp)) (fun x hx => h2 x (by simp [hx]))
    obtain rfl : s = s2 := Option.some.inj (hs.symm.trans e)
    have hnone := (first_count (c := c) past).mpr h0
    rcases hi with ⟨q', h, -⟩ | ⟨h, -⟩ | ⟨o, pts, h, -⟩
    · rw [hnone] at h; cases h
    · rcases fresh past s q h hq s' hs' with h1 | ⟨-, h1⟩
      · exact Or.inl h1
      · exact Or.inr h1
    · obtain ⟨q', h, -⟩ := h.first; rw [hnone] at h; cases h
  · intro s q s' hd hs'
    have hs' : c.feed s (q.1, value c.anchor N D q.1 q.2, q.2) = some s' := hs'
    unfold Cfg.feed at hs'
    obtain ⟨x, hx, hs'⟩ := Option.bind_eq_some_iff.mp hs'
    have := probe_stay hd hx
    exact drain_stay _ x s' (by rw [this]; exact hd) hs'
  · intro past s h1 h2 hs hR hone
    by_contra hh
    have hout : s.out = none := by
      cases ho : s.out with
      | none => rfl
      | some r => exact absurd (show (s.out).isSome = true by rw [ho]; rfl) hh
    have hs := (feedAll_obj past (c.init UN UD)).symm.trans hs
    obtain ⟨o, k1, k2⟩ := C45_enough gtp hlen hN hD hU hg past h1 (sub past h2) hs hout
    rw [← atLeast_lens] at k2
    by_cases hle : o ≤ largest (lens UN UD)
    · have := hR (o, atLeast (lens UN UD) o) (List.mem_map.mpr ⟨o - 1, List.mem_range.mpr (by omega), by rw [show o - 1 + 1 = o by omega]⟩)
      simp only at this
      unfold count at this
      omega
    · have : atLeast (lens UN UD) o = 0 := by
        unfold atLeast
        rw [List.length_eq_zero_iff, List.filter_eq_nil_iff]
        intro e he
        have := le_largest he
        simp; omega
      omega

/-- nothing is unknown: the guess is accepted with the first probe `(1, …, 1)`; nothing is requested -/
theorem known_ok (hlen : c.anchor.length + 1 = c.n) (hg : GuessOK c) {good : F × List ℕ → Prop} (hp : ∀ q, good q → q.2 ≠ [] ∧ Passes c N D q.1 q.2) :
    (obj c [] [] (value c.anchor N D)).OK c.n good [] := by
  have inv : ∀ past : List (F × List ℕ), (∀ q ∈ past, good q) → ∃ s, past.foldlM (obj c [] [] (value c.anchor N D)).feed (c.init [] []) = some s ∧
      ((s.out = some .accepted ∧ ∃ q, firstProbe c past = some q) ∨ (s.out = none ∧ firstProbe c past = none)) := by
    intro past h
    obtain ⟨s, e1, e2⟩ := C45_known (N := N) (D := D) hlen hg [] [] past (fun q hq => (hp q (h q hq)).1) (fun q hq _ => (hp q (h q hq)).2)
    exact ⟨s, by rw [feedAll_obj]; exact e1, e2⟩
  have fold : ∀ (ob : Needed.Obj F) (past : List (F × List ℕ)) q s s', past.foldlM ob.feed ob.init = some s → ob.feed s q = some s' → (past ++ [q]).foldlM ob.feed ob.init = some s' := by
    intro ob past q s s' h1 h2
    rw [List.foldlM_append, h1]
    simpa using h2
  refine ⟨?_, ?_, ?_, ?_, ?_⟩
  · intro past h1 h2
    obtain ⟨s, e, -⟩ := inv past h2
    exact ⟨s, e⟩
  · intro past q s s' h1 h2 hs hs'
    left
    show c.adds s q.1 (value c.anchor N D q.1 q.2) q.2 = some []
    unfold Cfg.adds
    by_cases hc : s.out.isSome = false ∧ q.2 = s.ord ∧ s.newPrime = true
    · rw [if_pos hc]
      have ho : s.out = none := by
        have := hc.1
        cases hh : s.out with
        | none => rfl
        | some r => rw [hh] at this; cases this
      have hchk := check_spec (N := N) (D := D) hlen hg ho q.1
      rw [← hc.2.1, if_pos (hp q (h2 q (by simp))).2] at hchk
      rw [hchk]
      simp
    · rw [if_neg hc]
  · intro past q s s' h1 h2 hs hs' h0 hq
    right
    obtain ⟨s2, e1, e2⟩ := inv _ h2
    obtain rfl := Option.some.inj ((fold _ past q s s' hs hs').symm.trans e1)
    rcases e2 with ⟨e2, -⟩ | ⟨-, e2⟩
    · show s'.out.isSome = true
      rw [e2]; rfl
    · unfold firstProbe at e2
      rw [List.find?_eq_none] at e2
      exact absurd (decide_eq_true hq) (e2 q (by simp))
  · intro s q s' hd hs'
    have hs' : c.feed s (q.1, value c.anchor N D q.1 q.2, q.2) = some s' := hs'
    unfold Cfg.feed at hs'
    obtain ⟨x, hx, hs'⟩ := Option.bind_eq_some_iff.mp hs'
    have := probe_stay hd hx
    exact drain_stay _ x s' (by rw [this]; exact hd) hs'
  · intro past s h1 h2 hs hR hone
    obtain ⟨s2, e1, e2⟩ := inv past h2
    obtain rfl := Option.some.inj (hs.symm.trans e1)
    rcases e2 with ⟨e2, -⟩ | ⟨-, e2⟩
    · show s.out.isSome = true
      rw [e2]; rfl
    · rw [(first_count past).mp e2] at hone
      omega

end FireFly.RLater
