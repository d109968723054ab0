import Verif.Spec.WholeUni
import Verif.Lemmas.FirstFeedEnd
import Verif.Lemmas.NeededFeedEnd
/-! # A whole run with one variable: one object in one field -/
set_option linter.all false
namespace FireFly
open Polynomial

section
variable {p : ℕ} [hp : Fact p.Prime]

lemma loop_short (inv : ℤ → ℤ → ℤ) (gt : ZMod p → ZMod p → Bool) (ord : List ℕ → List ℕ) : ∀ (pts : List (ZMod p × ZMod p)) (s : UniState p),
    s.cross.known = true → s.newPrime = false → s.coefMat.length + pts.length < s.cross.numEqn →
    ∃ u, uniLoop inv gt ord s pts = some (.running u) ∧ u.cross = s.cross ∧ u.newPrime = false
  | [], s, hk, hn, h2 => ⟨s, rfl, rfl, hn⟩
  | pt :: pts, s, hk, hn, h2 => by
    simp only [List.length_cons] at h2
    unfold uniLoop uniProbe
    simp only [hn, hk, if_true, Bool.false_eq_true, if_false, Option.bind_eq_bind, Option.bind_some]
    rw [if_neg (by simp; omega)]
    simp only [Option.bind_some]
    obtain ⟨u, h3, h4, h5⟩ := loop_short inv gt ord pts { s with coefMat := s.coefMat ++ [uniRow s.cross pt.1 pt.2], newPrime := false } hk rfl (by simp; omega)
    exact ⟨u, h3, h4, h5⟩

lemma loop_first_running (inv : ℤ → ℤ → ℤ) (gt : ZMod p → ZMod p → Bool) (ord : List ℕ → List ℕ) : ∀ (pts : List (ZMod p × ZMod p)) (s : UniState p),
    s.cross.known = false → s.newPrime = false → ∀ t, s.thiele.run (pts.map Prod.swap) = (t, false) →
    ∃ u, uniLoop inv gt ord s pts = some (.running u) ∧ u.cross = s.cross ∧ u.newPrime = false
  | [], s, _, hn, t, h => ⟨s, rfl, rfl, hn⟩
  | pt :: pts, s, hk, hn, t, h => by
    unfold uniLoop uniProbe
    simp only [hn, hk, Bool.false_eq_true, if_false, Option.bind_eq_bind, Option.bind_some]
    rw [List.map_cons] at h
    unfold Thiele.run at h
    simp only [Prod.fst_swap, Prod.snd_swap] at h
    by_cases hb : (s.thiele.addPoint pt.2 pt.1).2 = true
    · rw [if_pos hb] at h
      rw [h] at hb; cases hb
    · rw [if_neg hb] at h ⊢
      simp only [Option.bind_some]
      exact loop_first_running inv gt ord pts { s with thiele := (s.thiele.addPoint pt.2 pt.1).1, newPrime := false } hk rfl t h

end

namespace WholeUni
section
variable {inv : ℤ → ℤ → ℤ} {p : ℕ} [hp : Fact p.Prime] {gt : ZMod p → ZMod p → Bool} {ord : List ℕ → List ℕ} {nextP : ℕ}

lemma feed_done {s : St p} (h : s.done = true) (t v : ZMod p) : feed inv gt ord nextP s t v = some { first := false, out := s.out } := by
  unfold feed
  unfold St.done at h
  split at h
  · cases h
  · rfl

lemma zero_done {c : UniCross} {o : UniOut p} (h : feedZero nextP c = some o) : St.done { first := false, out := o } = true := by
  unfold feedZero at h
  simp only at h
  by_cases h1 : c.primeNumber + 1 = 300
  · rw [if_pos h1] at h; cases h
  · rw [if_neg h1] at h
    by_cases h2 : c.zeroCounter + 1 = 3 ∧ c.primeNumber + 1 = 3
    · rw [if_pos h2] at h; obtain rfl := Option.some.inj h; rfl
    · rw [if_neg h2] at h; obtain rfl := Option.some.inj h; rfl

lemma fold_done (value : ZMod p → ZMod p) : ∀ (l : List (ZMod p × List ℕ)) {s : St p}, s.done = true → (l.foldlM (fun s q => feed inv gt ord nextP s q.1 (value q.1)) s).map St.out = some s.out
  | [], s, h => rfl
  | q :: l, s, h => by
    rw [List.foldlM_cons, feed_done h]
    simp only [Option.bind_eq_bind, Option.bind_some]
    exact fold_done value l (s := { first := false, out := s.out }) h

lemma fold_loop (value : ZMod p → ZMod p) : ∀ (l : List (ZMod p × List ℕ)) (u : UniState p),
    (l.foldlM (fun s q => feed inv gt ord nextP s q.1 (value q.1)) ({ first := false, out := .running u } : St p)).map St.out = uniLoop inv gt ord u (l.map (fun q => (q.1, value q.1)))
  | [], u => rfl
  | q :: l, u => by
    rw [List.foldlM_cons, List.map_cons]
    unfold uniLoop
    have e : feed inv gt ord nextP ({ first := false, out := .running u } : St p) q.1 (value q.1) = (uniProbe inv gt ord u q.1 (value q.1)).map (fun o => { first := false, out := o }) := by
      unfold feed; simp
    rw [e]
    cases uniProbe inv gt ord u q.1 (value q.1) with
    | none => rfl
    | some o =>
      simp only [Option.map_some, Option.bind_eq_bind, Option.bind_some]
      cases o with
      | running u' => exact fold_loop value l u'
      | finished N D => exact fold_done value l (s := { first := false, out := .finished N D }) rfl
      | nextPrime c => exact fold_done value l (s := { first := false, out := .nextPrime c }) rfl

/-- An object that has been fed one probe after the other has got as far as `uniPrime` says. -/
lemma fold_prime (value : ZMod p → ZMod p) (c : UniCross) (l : List (ZMod p × List ℕ)) :
    (l.foldlM (fun s q => feed inv gt ord nextP s q.1 (value q.1)) (start p c)).map St.out = uniPrime inv gt ord nextP c (l.map (fun q => (q.1, value q.1))) := by
  cases l with
  | nil => rfl
  | cons q l =>
    rw [List.foldlM_cons, List.map_cons]
    unfold uniPrime feed start
    simp only [true_and]
    by_cases hv : value q.1 = 0
    · simp only [if_pos hv]
      cases hz : feedZero (p := p) nextP c with
      | none => rfl
      | some o =>
        simp only [Option.map_some, Option.bind_eq_bind, Option.bind_some]
        exact fold_done value l (zero_done hz)
    · simp only [if_neg hv]
      have := fold_loop (inv := inv) (gt := gt) (ord := ord) (nextP := nextP) value (q :: l) { cross := c, newPrime := c.checkInterpolation }
      rw [List.foldlM_cons, List.map_cons] at this
      rw [← this]
      unfold feed
      simp

lemma fold_first (value : ZMod p → ZMod p) (c : UniCross) : ∀ (l : List (ZMod p × List ℕ)) (s : St p), l.foldlM (fun s q => feed inv gt ord nextP s q.1 (value q.1)) (start p c) = some s → s.first = decide (l = []) := by
  intro l s h
  rcases List.eq_nil_or_concat l with rfl | ⟨l, q, rfl⟩
  · have : start p c = s := by simpa using h
    subst this; rfl
  · rw [List.concat_eq_append, List.foldlM_append] at h
    cases hl : l.foldlM (fun s q => feed inv gt ord nextP s q.1 (value q.1)) (start p c) with
    | none => rw [hl] at h; cases h
    | some s0 =>
      rw [hl] at h
      have h : feed inv gt ord nextP s0 q.1 (value q.1) = some s := by simpa using h
      have : s.first = false := by
        unfold feed at h
        split at h
        · rw [Option.map_eq_some_iff] at h
          obtain ⟨o, -, rfl⟩ := h
          rfl
        · obtain rfl := Option.some.inj h; rfl
      rw [this]; simp

/-- the values of probes without order vector are different -/
lemma fst_nodup {l : List (ZMod p × List ℕ)} (h : l.Nodup) (h0 : ∀ q ∈ l, q.2 = []) : (l.map Prod.fst).Nodup :=
  h.map_on (fun a ha b hb e => Prod.ext e ((h0 a ha).trans (h0 b hb).symm))

lemma back {l : List (ZMod p × List ℕ)} (h0 : ∀ q ∈ l, q.2 = []) : ∀ t ∈ l.map Prod.fst, (t, []) ∈ l := by
  intro t ht
  obtain ⟨q, hq, rfl⟩ := List.mem_map.mp ht
  have := h0 q hq
  rw [← this]; exact hq

end
end WholeUni
end FireFly
