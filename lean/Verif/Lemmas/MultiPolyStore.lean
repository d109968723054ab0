import Verif.Lemmas.MultiPolyKey
import Verif.Lemmas.PolyLemmas
/-! # The maps of finished monomials -/
set_option linter.all false
namespace FireFly.MPoly
open Polynomial
variable {F : Type} [Field F] [DecidableEq F]

/-- the coordinates of the anchor point -/
def Cfg.a (c : Cfg F) (j : ℕ) : F := c.anchor.getD j 0

/-- A polynomial and an anchor point that is generic for it, in terms of slices. -/
structure Ctx (c : Cfg F) (S : Finset (List ℕ)) (co : List ℕ → F) : Prop where
  len : ∀ m ∈ S, m.length = c.n
  deg : ∀ d, c.deg = some d → d < 2 ^ 31 ∧ ∀ m ∈ S, m.sum ≤ d
  bounds : ∀ b, c.bounds = some b → ∀ m ∈ S, ∀ j < c.n, m.getD j 0 ≤ b.getD j 0
  size : ∀ m ∈ S, m.sum + 2 < 2 ^ 32
  nonzero : ∀ s < c.n, c.a s ≠ 0
  nodes : ∀ s < c.n, ∀ k ∈ KK c.n S s, ∀ k' ∈ KK c.n S s, hd c.a s (fun _ => 1) k = hd c.a s (fun _ => 1) k' → k = k'
  order : ∀ s < c.n, ∀ m ∈ S, ∀ j, 0 < j → j ≤ m.getD s 0 + 1 → c.a s ^ j ≠ 1
  keeps : ∀ s < c.n, ∀ k ∈ KK c.n S (s + 1), CC c.n c.a S co (s + 1) k ≠ 0
  newton : c.newton = true → ∀ s < c.n, ∀ k ∈ KK c.n S s, NoLowerDegree (c.a s) (slc c.n c.a S co s k)
  bt : c.bt = true → ∀ s < c.n, ∀ k ∈ KK c.n S s, NoShortRecurrence (c.a s) (slc c.n c.a S co s k)
  some : c.newton = true ∨ c.bt = true

section
variable {c : Cfg F} {S : Finset (List ℕ)} {co : List ℕ → F}

lemma nd_cut_succ {n s : ℕ} (hs : s < n) {k : List ℕ} (hk : k.length = n) (e : ℕ) : cut n (s + 1) (nd n s k e) = nd n s k e := by
  unfold cut
  rw [nd_take_succ hs hk]
  unfold nd
  simp [Nat.sub_sub]

lemma Ctx.nd_mem (h : Ctx c S co) {s : ℕ} (hs : s < c.n) {k : List ℕ} (hk : k ∈ KK c.n S s) {e : ℕ}
    (he : (slc c.n c.a S co s k).coeff e ≠ 0) : nd c.n s k e ∈ KK c.n S (s + 1) := by
  obtain ⟨hl, -, -⟩ := KK_spec h.len (by omega) hk
  rw [slc_coeff h.len hs hl] at he
  unfold CC at he
  obtain ⟨m, hm, -⟩ := Finset.exists_ne_zero_of_sum_ne_zero he
  rw [Finset.mem_filter] at hm
  rw [← nd_cut_succ hs hl e, ← (cut_inj (h.len m hm.1) (nd_length hs hl e) (by omega)).mpr hm.2]
  exact cut_mem_KK hm.1

lemma sum_take_le (m : List ℕ) (s : ℕ) : (m.take s).sum ≤ m.sum := by
  conv_rhs => rw [← List.take_append_drop s m]
  rw [List.sum_append]; omega

lemma cut_sum (n s : ℕ) (m : List ℕ) : (cut n s m).sum = (m.take s).sum := by
  unfold cut; simp

lemma nd_sum {n s : ℕ} {k : List ℕ} (hk : cut n s k = k) (e : ℕ) : (nd n s k e).sum = k.sum + e := by
  have : k.sum = (k.take s).sum := by rw [← cut_sum n s k, hk]
  unfold nd; rw [this]; simp

lemma Ctx.key_mem (h : Ctx c S co) {s : ℕ} (hs : s < c.n) {k : List ℕ} (hk : k ∈ KK c.n S s) {e : ℕ}
    (he : (slc c.n c.a S co s k).coeff e ≠ 0) : ∃ m ∈ S, m.getD s 0 = e ∧ k.sum + e ≤ m.sum := by
  obtain ⟨hl, hkc, -⟩ := KK_spec h.len (by omega) hk
  obtain ⟨-, -, m, hm, h1, h2⟩ := KK_spec h.len (by omega) (h.nd_mem hs hk he)
  refine ⟨m, hm, ?_, ?_⟩
  · rw [← nd_getD hs hl e, ← h2, cut_getD (h.len m hm) (by omega), if_pos (by omega)]
  · rw [← nd_sum hkc e, ← h2, cut_sum]; exact sum_take_le _ _

lemma Ctx.slc_ne (h : Ctx c S co) {s : ℕ} (hs : s < c.n) {k : List ℕ} (hk : k ∈ KK c.n S s) : slc c.n c.a S co s k ≠ 0 := by
  obtain ⟨hl, hkc, m, hm, h1, h2⟩ := KK_spec h.len (by omega) hk
  intro h0
  have h3 : (slc c.n c.a S co s k).coeff (m.getD s 0) = 0 := by rw [h0, coeff_zero]
  rw [slc_coeff h.len hs hl, nd_eq_cut hs (h.len m hm) h1] at h3
  exact h.keeps s hs _ (cut_mem_KK hm) h3

lemma Ctx.top (h : Ctx c S co) {s : ℕ} (hs : s < c.n) {k : List ℕ} (hk : k ∈ KK c.n S s) :
    ∃ m ∈ S, m.getD s 0 = (slc c.n c.a S co s k).natDegree ∧ k.sum + (slc c.n c.a S co s k).natDegree ≤ m.sum := by
  apply h.key_mem hs hk
  rw [coeff_natDegree, Ne, leadingCoeff_eq_zero]
  exact h.slc_ne hs hk

/-! ### maps -/

lemma emplace_fold {T m : FFMap F} (hT : (T.map Prod.fst).Nodup) (hd : ∀ k ∈ T.map Prod.fst, k ∉ m.map Prod.fst) :
    T.foldl (fun (m : FFMap F) t => m.emplace t.1 t.2) m = m ++ T := by
  induction T generalizing m with
  | nil => simp
  | cons t T ih =>
    rw [List.foldl_cons]
    have h1 : m.emplace t.1 t.2 = m ++ [t] := by
      unfold FFMap.emplace
      have : m.find? t.1 = none := FFMap.find?_eq_none.mpr (hd t.1 (by simp))
      rw [this]; simp
    rw [h1, ih]
    · simp
    · rw [List.map_cons, List.nodup_cons] at hT; exact hT.2
    · intro k hk
      rw [List.map_append, List.mem_append, not_or]
      refine ⟨hd k (by simp at hk ⊢; right; exact hk), ?_⟩
      intro h
      simp at h
      subst h
      rw [List.map_cons, List.nodup_cons] at hT
      exact hT.1 hk

lemma emplace_fold_if {α : Type} (L : List α) (p : α → Bool) (k : α → List ℕ) (v : α → F) (m : FFMap F) :
    L.foldl (fun (m : FFMap F) t => if p t = true then m.emplace (k t) (v t) else m) m =
      ((L.filter p).map fun t => (k t, v t)).foldl (fun (m : FFMap F) t => m.emplace t.1 t.2) m := by
  induction L generalizing m with
  | nil => rfl
  | cons t L ih =>
    rw [List.foldl_cons, ih]
    by_cases h : p t = true
    · rw [if_pos h, List.filter_cons_of_pos h]; rfl
    · rw [if_neg h, List.filter_cons_of_neg h]

/-- `T` holds the terms of the polynomial `g` in variable `s`, for the key `key` -/
def Rep (n s : ℕ) (key : List ℕ) (g : F[X]) (T : FFMap F) : Prop :=
  (T.map Prod.fst).Nodup ∧ ∀ k v, (k, v) ∈ T ↔ ∃ e, g.coeff e ≠ 0 ∧ k = nd n s key e ∧ v = g.coeff e

lemma tmpCanonical_rep (c : Cfg F) {s : ℕ} (hs : s < c.n) {key : List ℕ} (hk : key.length = c.n) (hcut : cut c.n s key = key) {ai : List F} {g : F[X]}
    (hg : g ≠ 0) (hlen : ai.length < 2 ^ 32) (hn : nested (c.point (s + 1)) 1 ai = g) : Rep c.n s key g (c.tmpCanonical (s + 1) key ai) := by
  have hai : ai ≠ [] := by
    rintro rfl
    exact hg (by rw [← hn]; rfl)
  unfold Cfg.tmpCanonical
  split
  · rename_i h
    obtain ⟨a, rfl⟩ := List.length_eq_one_iff.mp h.1
    rw [nested_single] at hn
    have ha : a ≠ 0 := by rintro rfl; exact hg (by rw [← hn, C_0])
    have hkey : nd c.n s key 0 = key := by
      conv_rhs => rw [← hcut]
      unfold nd cut
      have : c.n - s = 1 := by omega
      simp [this]
    refine ⟨by simp, ?_⟩
    intro k v
    simp only [List.getD_cons_zero, List.mem_singleton, Prod.mk.injEq]
    constructor
    · rintro ⟨rfl, rfl⟩
      exact ⟨0, by rw [← hn]; simpa using ha, hkey.symm, by rw [← hn]; simp⟩
    · rintro ⟨e, h1, rfl, rfl⟩
      rw [← hn] at h1 ⊢
      rw [coeff_C] at h1 ⊢
      split at h1
      · rename_i he
        subst he
        exact ⟨hkey, by simp⟩
      · exact absurd rfl h1
  · have hu := canonical_umap c.n (c.point (s + 1)) ai hai hlen
    rw [hn] at hu
    set M := constructCanonical c.n (c.point (s + 1)) ai with hM
    have hfun : ∀ el : List ℕ × F, ((List.range c.n).map fun j => if j + 1 = s + 1 then el.1.getD 0 0 else if j + 1 < s + 1 then key.getD j 0 else 0) =
        nd c.n s key (el.1.getD 0 0) := by
      intro el
      apply List.ext_getElem
      · rw [nd_length hs hk]; simp
      · intro j h1 h2
        rw [← List.getD_eq_getElem _ 0 h2]
        simp only [List.getElem_map, List.getElem_range]
        rcases Nat.lt_trichotomy j s with h | h | h
        · rw [if_neg (by omega), if_pos (by omega)]
          have : (cut c.n s (nd c.n s key (el.1.getD 0 0))).getD j 0 = (cut c.n s key).getD j 0 := by rw [cut_nd hs hk]
          rw [cut_getD (nd_length hs hk _) (by omega), cut_getD hk (by omega), if_pos h, if_pos h] at this
          exact this.symm
        · subst h; rw [if_pos rfl, nd_getD hs hk]
        · rw [if_neg (by omega), if_neg (by omega)]
          have := nd_cut_succ hs hk (el.1.getD 0 0)
          rw [← this, cut_getD (nd_length hs hk _) (by omega), if_neg (by omega)]
    simp only [hfun]
    have hdec : ∀ el : List ℕ × F, (el.2 ≠ 0) = (decide (el.2 ≠ 0) = true) := by intro el; simp
    have e1 := emplace_fold_if M (fun el => decide (el.2 ≠ 0)) (fun el => nd c.n s key (el.1.getD 0 0)) Prod.snd ([] : FFMap F)
    have e2 : (M.foldl (fun (tmp : FFMap F) el => if el.2 ≠ 0 then tmp.emplace (nd c.n s key (el.1.getD 0 0)) el.2 else tmp) []) =
        M.foldl (fun (m : FFMap F) t => if (fun el : List ℕ × F => decide (el.2 ≠ 0)) t = true then m.emplace ((fun el => nd c.n s key (el.1.getD 0 0)) t) (Prod.snd t) else m) [] := by
      congr 1
      funext tmp el
      by_cases h : el.2 = 0 <;> simp [h]
    rw [e2, e1]
    have hkeylen : ∀ t ∈ M, t.1 = [t.1.getD 0 0] := by
      intro t ht
      have := hu.wf.2 t ht
      obtain ⟨x, hx⟩ := List.length_eq_one_iff.mp this
      rw [hx]; rfl
    have hnd : (((M.filter fun el => decide (el.2 ≠ 0)).map fun t => (nd c.n s key (t.1.getD 0 0), t.2)).map Prod.fst).Nodup := by
      rw [List.map_map]
      have h1 : ((M.filter fun el => decide (el.2 ≠ 0)).map Prod.fst).Nodup := List.Nodup.sublist ((List.filter_sublist).map _) hu.wf.1
      have h2 : ∀ L : FFMap F, (∀ t ∈ L, t.1 = [t.1.getD 0 0]) → (L.map Prod.fst).Nodup → (L.map (Prod.fst ∘ fun t => (nd c.n s key (t.1.getD 0 0), t.2))).Nodup := by
        intro L
        induction L with
        | nil => intro _ _; simp
        | cons t L ih =>
          intro hL hN
          rw [List.map_cons, List.nodup_cons] at hN ⊢
          refine ⟨?_, ih (fun t ht => hL t (by simp [ht])) hN.2⟩
          intro hmem
          apply hN.1
          rw [List.mem_map] at hmem ⊢
          obtain ⟨u, hu1, hu2⟩ := hmem
          refine ⟨u, hu1, ?_⟩
          have := nd_inj hs hk hu2
          rw [hL t (by simp), hL u (by simp [hu1]), this]
      exact h2 _ (fun t ht => hkeylen t (List.mem_of_mem_filter ht)) h1
    rw [emplace_fold hnd (by simp)]
    refine ⟨by simpa using hnd, ?_⟩
    intro k v
    rw [List.nil_append, List.mem_map]
    constructor
    · rintro ⟨t, ht, he⟩
      rw [List.mem_filter] at ht
      have h1 := hkeylen t ht.1
      have h2 := hu.coeff (t.1.getD 0 0)
      rw [FFMap.find?_of_mem hu.wf.1 (v := t.2) (by rw [← h1]; exact ht.1)] at h2
      simp only [Option.getD_some] at h2
      injection he with he1 he2
      refine ⟨t.1.getD 0 0, ?_, he1.symm, ?_⟩
      · rw [← h2]; simpa using ht.2
      · rw [← h2, he2]
    · rintro ⟨e, h1, rfl, rfl⟩
      have h2 := hu.coeff e
      cases hf : M.find? [e] with
      | none => rw [hf] at h2; exact absurd h2.symm h1
      | some v =>
        rw [hf] at h2
        simp only [Option.getD_some] at h2
        refine ⟨([e], v), ?_, by simp [h2]⟩
        rw [List.mem_filter]
        exact ⟨FFMap.find?_mem hf, by simpa [h2] using h1⟩

lemma btTerms_rep {n s : ℕ} (hs : s < n) {key : List ℕ} (hk : key.length = n) (hcut : cut n s key = key) {g : F[X]} (hg : g ≠ 0) :
    let terms := (expList g).map fun e => (e, g.coeff e)
    terms.length ≠ 0 ∧ Rep n s key g (terms.foldl (fun (tmp : FFMap F) t => tmp.emplace (key.set s t.1) t.2) []) := by
  intro terms
  have hset : ∀ e, key.set s e = nd n s key e := by
    intro e
    conv_lhs => rw [← hcut]
    unfold cut nd
    rw [List.set_append_right (h := by simp)]
    have h1 : s - (key.take s).length = 0 := by simp; omega
    have h2 : n - s = n - s - 1 + 1 := by omega
    rw [h1, h2, List.replicate_succ, List.set_cons_zero]; simp
  have e1 : terms.foldl (fun (tmp : FFMap F) t => tmp.emplace (key.set s t.1) t.2) [] =
      ((expList g).map fun e => (nd n s key e, g.coeff e)).foldl (fun (m : FFMap F) t => m.emplace t.1 t.2) [] := by
    rw [List.foldl_map, List.foldl_map]
    simp only [hset]
  have hnd : (((expList g).map fun e => (nd n s key e, g.coeff e)).map Prod.fst).Nodup := by
    rw [List.map_map]
    exact (expList_nodup g).map (fun a b h => nd_inj hs hk h)
  rw [e1, emplace_fold hnd (by simp), List.nil_append]
  refine ⟨?_, hnd, ?_⟩
  · simp only [terms, List.length_map]
    rw [expList_length]
    have := Finset.card_pos.mpr (nonempty_support_iff.mpr hg)
    omega
  · intro k v
    rw [List.mem_map]
    constructor
    · rintro ⟨e, he, h⟩
      injection h with h1 h2
      exact ⟨e, mem_expList.mp he, h1.symm, h2.symm⟩
    · rintro ⟨e, h1, rfl, rfl⟩
      exact ⟨e, mem_expList.mpr h1, rfl⟩

end
end FireFly.MPoly
