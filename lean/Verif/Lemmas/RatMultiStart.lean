import Verif.Lemmas.RatMultiLine
import Verif.Props.ShiftProps
import Verif.Props.PolyObjProps
/-! # The end of Thiele's method -/
set_option linter.all false
namespace FireFly.RMulti
open MvPolynomial
variable {F : Type} [Field F] [DecidableEq F] {c : Cfg F} {bounds : Option (List ℕ)} {Q N D : MvPolynomial ℕ F} {m T mN mD : ℕ} {G : F → List ℕ → Prop}

/-- the coefficients of the powers of `t` at the first order vector -/
structure Canon (c : Cfg F) (Q : MvPolynomial ℕ F) (canon : FFMap F) : Prop where
  wf : WFMap 1 canon
  nz : NZ canon
  val : ∀ k, (canon.find? [k]).getD 0 = ev c Q (ones c) k

lemma Canon.mem {canon : FFMap F} (h : Canon c Q canon) {t : List ℕ × F} (ht : t ∈ canon) : ∃ k, t.1 = [k] ∧ t.2 = ev c Q (ones c) k ∧ ev c Q (ones c) k ≠ 0 := by
  obtain ⟨key, v⟩ := t
  obtain ⟨k, rfl⟩ := List.length_eq_one_iff.mp (h.wf.2 _ ht)
  have h1 := h.val k
  rw [FFMap.find?_of_mem h.wf.1 ht, Option.getD_some] at h1
  exact ⟨k, rfl, h1, by rw [← h1]; exact h.nz _ ht⟩

lemma SideOK.ev_ne (hok : SideOK c bounds Q m) (k : ℕ) : ev c Q (ones c) k ≠ 0 ↔ part c.shift Q k ≠ 0 := by
  constructor
  · intro h h0
    apply h; unfold ev; rw [h0]; simp
  · exact hok.seen k

lemma Canon.find (hok : SideOK c bounds Q m) {canon : FFMap F} (h : Canon c Q canon) (k : ℕ) :
    canon.find? [k] = if part c.shift Q k = 0 then none else some (ev c Q (ones c) k) := by
  by_cases hp : part c.shift Q k = 0
  · rw [if_pos hp]
    cases hf : canon.find? [k] with
    | none => rfl
    | some v =>
      obtain ⟨k', e1, -, e3⟩ := h.mem (FFMap.find?_mem hf)
      have : k = k' := by simpa using e1
      subst this
      exact absurd hp ((hok.ev_ne k).mp e3)
  · rw [if_neg hp]
    have h1 := h.val k
    cases hf : canon.find? [k] with
    | none => rw [hf] at h1; exact absurd h1.symm ((hok.ev_ne k).mpr hp)
    | some v => rw [hf] at h1; exact congrArg some h1

/-- the degrees in the list -/
def degList (canon : FFMap F) : List ℕ := ((canon.erase [0]).filter (fun t => t.2 ≠ 0)).map (fun t => t.1.getD 0 0)

lemma Canon.mem_degs (hok : SideOK c bounds Q m) {canon : FFMap F} (h : Canon c Q canon) (k : ℕ) : k ∈ degList canon ↔ 1 ≤ k ∧ part c.shift Q k ≠ 0 := by
  unfold degList
  rw [List.mem_map]
  constructor
  · rintro ⟨t, ht, rfl⟩
    rw [List.mem_filter] at ht
    unfold FFMap.erase at ht
    rw [List.mem_filter] at ht
    obtain ⟨k, e1, e2, e3⟩ := h.mem ht.1.1
    have h2 := ht.1.2
    rw [e1] at h2 ⊢
    simp only [List.getD_cons_zero]
    refine ⟨?_, (hok.ev_ne k).mp e3⟩
    have : k ≠ 0 := by rintro rfl; simp at h2
    omega
  · rintro ⟨h1, h2⟩
    have h3 := h.find hok k
    rw [if_neg h2] at h3
    refine ⟨([k], ev c Q (ones c) k), ?_, rfl⟩
    rw [List.mem_filter]
    unfold FFMap.erase
    rw [List.mem_filter]
    refine ⟨⟨FFMap.find?_mem h3, by simp; omega⟩, ?_⟩
    simp [(hok.ev_ne k).mpr h2]

lemma Canon.nodup_degs {canon : FFMap F} (h : Canon c Q canon) : (degList canon).Nodup := by
  unfold degList
  have h1 : ((canon.erase [0]).filter (fun t => t.2 ≠ 0)).map (fun t => t.1.getD 0 0) = (((canon.erase [0]).filter (fun t => t.2 ≠ 0)).map Prod.fst).map (fun k => k.getD 0 0) := by
    rw [List.map_map]; rfl
  rw [h1]
  have hsub : (((canon.erase [0]).filter (fun t => t.2 ≠ 0)).map Prod.fst).Sublist (canon.map Prod.fst) := by
    unfold FFMap.erase
    exact (List.filter_sublist.trans List.filter_sublist).map _
  apply List.Nodup.map_on _ (hsub.nodup h.wf.1)
  intro a ha b hb hab
  obtain ⟨t, ht, rfl⟩ := List.mem_map.mp (hsub.subset ha)
  obtain ⟨u, hu, rfl⟩ := List.mem_map.mp (hsub.subset hb)
  obtain ⟨k, e1, -⟩ := h.mem ht
  obtain ⟨k', e2, -⟩ := h.mem hu
  rw [e1, e2] at hab ⊢
  simpa using hab

lemma startSide_open (canon : FFMap F) (m : ℕ) : (c.startSide bounds canon m).open = stdSort (fun a b => decide (b < a)) (degList canon) := by
  unfold Side.open Cfg.startSide degList
  simp only [List.map_map]
  rw [show (Prod.fst ∘ fun d => (d, (c.poly bounds d).init)) = id from rfl, List.map_id]

lemma startSide_spec (hs : c.shift.length = c.n) (hn : 2 ≤ c.n) (hok : SideOK c bounds Q m) {canon : FFMap F} (h : Canon c Q canon) :
    Half c bounds Q m (c.startSide bounds canon m) ∧ total c bounds Q (c.startSide bounds canon m).dense (c.startSide bounds canon m).coefs ≤ needs c Q m ∧
      ValsOK c Q (ones c) (c.startSide bounds canon m).open ((canon.erase [0]).filter (fun t => t.2 ≠ 0)) ∧
      ∀ e ∈ (c.startSide bounds canon m).coefs, e.2.zi = 1 ∧ e.2.ord = ones c := by
  have hopen := startSide_open (c := c) (bounds := bounds) canon m
  have hperm := stdSort_perm (fun a b : ℕ => decide (b < a)) (degList canon)
  have hmem : ∀ k, k ∈ (c.startSide bounds canon m).open ↔ 1 ≤ k ∧ part c.shift Q k ≠ 0 := by
    intro k
    rw [hopen, hperm.mem_iff, h.mem_degs hok]
  have hnd : (c.startSide bounds canon m).open.Nodup := by
    rw [hopen]; exact hperm.nodup_iff.mpr h.nodup_degs
  have hdesc : (c.startSide bounds canon m).open.Pairwise (· > ·) := by
    rw [hopen]
    have := stdSort_sorted (lt := fun a b : ℕ => decide (b < a)) (P := fun _ => True) (by intro a b c _ _ _ h1 h2; simp at *; omega)
      (by intro a b _ _ hab; simp; omega) (degList canon) (by simp) h.nodup_degs
    exact this.imp (fun {a b} hab => by simpa using hab)
  have hdense : ∀ k, k ∈ (c.startSide bounds canon m).dense ↔ part c.shift Q k ≠ 0 := by
    intro k
    show k ∈ (List.range (m + 1)).filter (fun i => (canon.find? [i]).isSome) ↔ _
    rw [List.mem_filter, List.mem_range, h.find hok k]
    by_cases hp : part c.shift Q k = 0
    · simp [hp]
    · simp only [if_neg hp, Option.isSome_some, and_true]
      have := hok.le hp
      constructor
      · intro _; exact hp
      · intro _; omega
  have hev0 : part c.shift Q 0 = C (ev c Q (ones c) 0) := by
    unfold ev
    rw [part_zero, eval_C]
  have hsolved : (c.startSide bounds canon m).solved = if part c.shift Q 0 = 0 then [] else [([0], [(List.replicate c.n 0, ev c Q (ones c) 0)])] := by
    show (match canon.find? [0] with
      | some v => [([0], [(List.replicate c.n 0, v)])]
      | none => []) = _
    rw [h.find hok 0]
    by_cases hp : part c.shift Q 0 = 0
    · rw [if_pos hp, if_pos hp]
    · rw [if_neg hp, if_neg hp]
  have hcoefs : ∀ e ∈ (c.startSide bounds canon m).coefs, e.2 = (c.poly bounds e.1).init := by
    intro e he
    have : e ∈ (stdSort (fun a b : ℕ => decide (b < a)) (degList canon)).map (fun d => (d, (c.poly bounds d).init)) := he
    obtain ⟨d, -, rfl⟩ := List.mem_map.mp this
    rfl
  have hel : ∀ e ∈ (c.startSide bounds canon m).coefs, ElOK c bounds Q (c.startSide bounds canon m).dense e := by
    intro e he
    have h1 := (hmem e.1).mp (List.mem_map.mpr ⟨e, he, rfl⟩)
    unfold ElOK
    rw [hcoefs e he, tgt_dense ((hdense e.1).mpr h1.2)]
    exact Rec.init (hok.target e.1 h1.1 h1.2).1
  have hlen : (c.startSide bounds canon m).count + (c.startSide bounds canon m).coefs.length = m + 1 := by
    have h1 : (c.startSide bounds canon m).coefs.length = (degList canon).length := by
      have : (c.startSide bounds canon m).open.length = (degList canon).length := by rw [hopen]; exact hperm.length_eq
      rw [← this]; unfold Side.open; simp
    have h2 : (c.startSide bounds canon m).count = ((List.range (m + 1)).filter (fun i => decide (i = 0 ∧ (canon.find? [i]).isSome ∨ canon.find? [i] = none))).length := rfl
    have h3 : (degList canon).Perm ((List.range (m + 1)).filter (fun i => !decide (i = 0 ∧ (canon.find? [i]).isSome ∨ canon.find? [i] = none))) := by
      rw [List.perm_ext_iff_of_nodup h.nodup_degs (List.nodup_range.filter _)]
      intro k
      rw [h.mem_degs hok, List.mem_filter, List.mem_range]
      have hfk := h.find hok k
      by_cases hp : part c.shift Q k = 0
      · rw [if_pos hp] at hfk
        simp [hp, hfk]
      · have := hok.le hp
        rw [if_neg hp] at hfk
        simp only [hp, hfk]
        simp only [ne_eq, not_false_eq_true, and_true, Option.isSome_some, reduceCtorEq, or_false, Bool.not_eq_true', decide_eq_false_iff_not]
        constructor
        · rintro ⟨h1, -⟩; omega
        · rintro ⟨h1, h2⟩; exact ⟨by omega, hp⟩
    rw [h1, h2, h3.length_eq]
    have := List.length_eq_length_filter_add (l := List.range (m + 1)) (fun i => decide (i = 0 ∧ (canon.find? [i]).isSome ∨ canon.find? [i] = none))
    rw [List.length_range] at this
    exact this.symm
  have hinv : SInv c Q m (m + 1) (c.startSide bounds canon m) := by
    refine ⟨?_, ?_, ?_, rfl, hlen, hdesc, fun k hk => (hmem k).mp hk, fun k hk => (hdense k).mp hk, fun _ k hk => (hdense k).mpr hk, le_rfl, ?_, ?_, ?_, ?_⟩
    · intro key hkey
      rw [hsolved] at hkey
      by_cases hp : part c.shift Q 0 = 0
      · rw [if_pos hp] at hkey; simp at hkey
      · rw [if_neg hp] at hkey
        have : key = [0] := by simpa using hkey
        exact ⟨0, this, hp, fun h0 => by have := ((hmem 0).mp h0).1; omega⟩
    · rw [hsolved]
      split <;> simp
    · intro k hp hk
      have hk0 : k = 0 := by
        by_contra hne
        exact hk ((hmem k).mpr ⟨by omega, hp⟩)
      subst hk0
      rw [tgt_dense ((hdense 0).mpr hp)]
      refine ⟨[(List.replicate c.n 0, ev c Q (ones c) 0)], ?_, ?_, ?_, ?_⟩
      · rw [hsolved, if_neg hp]
        rw [FFMap.find?_cons, if_pos rfl]
      · exact wf_single _ (by simp)
      · intro t ht
        rw [List.mem_singleton.mp ht]
        exact (hok.ev_ne 0).mpr hp
      · rw [denote_single, zeros_toFinsupp, hev0]; rfl
    · intro hsh j hj
      have hsub : (c.startSide bounds canon m).sub = (List.range (m + 1)).map (fun i => ([i], c.zeroPoly)) := by
        show (if c.hasShift then _ else _) = _
        rw [hsh]; rfl
      rw [hsub, subSum_top]
      exact polyAt_zeros c (m + 1) j
    · intro _ k hk
      refine ⟨?_, ?_⟩
      · rw [hdense]; exact fun hp => hp (hok.top k (by omega))
      · rw [hmem]; exact fun hp => hp.2 (hok.top k (by omega))
    · intro _ k hk hp
      exact Or.inl ((hdense k).mpr hp)
    · intro _ k hk
      have hkm : k ∈ (c.startSide bounds canon m).open := List.mem_of_head? hk
      have hm1 := (hmem k).mp hkm
      have hle := hok.le hm1.2
      have hmo : m ∈ (c.startSide bounds canon m).open := (hmem m).mpr ⟨by omega, hok.lead⟩
      have : k = m := by
        obtain ⟨l, hl⟩ : ∃ l, (c.startSide bounds canon m).open = k :: l := by
          cases ho : (c.startSide bounds canon m).open with
          | nil => rw [ho] at hk; simp at hk
          | cons x l => rw [ho] at hk; exact ⟨l, by simpa using hk⟩
        rw [hl] at hmo hdesc
        rcases List.mem_cons.mp hmo with h1 | h1
        · exact h1.symm
        · have := (List.pairwise_cons.mp hdesc).1 m h1
          omega
      exact ⟨by omega, fun _ => rfl⟩
  refine ⟨⟨⟨_, hinv⟩, hel, by intro k z o v hf; simp [Cfg.startSide, FFMap.find?] at hf, rfl⟩, ?_, ⟨?_, ?_⟩, ?_⟩
  · have h1 : total c bounds Q (c.startSide bounds canon m).dense (c.startSide bounds canon m).coefs ≤
        ((c.startSide bounds canon m).open.map (fun k => bnd c k (part c.shift Q k) + bnd c k (homogeneousComponent k Q) + 2)).sum := by
      unfold total Side.open
      rw [List.map_map]
      apply List.sum_le_sum
      intro e he
      have hr := hel e he
      have hm1 := (hmem e.1).mp (List.mem_map.mpr ⟨e, he, rfl⟩)
      have hd := (hdense e.1).mpr hm1.2
      unfold ElOK at hr
      rw [tgt_dense hd] at hr
      have h2 : sInf {mm | Rec (c.poly bounds e.1) (tgt c Q (c.startSide bounds canon m).dense e.1) mm e.2} ≤ bnd c e.1 (part c.shift Q e.1) := by
        rw [tgt_dense hd]; exact Nat.sInf_le hr
      unfold cost
      rw [if_pos hd]
      show _ ≤ bnd c e.1 (part c.shift Q e.1) + bnd c e.1 (homogeneousComponent e.1 Q) + 2
      omega
    refine h1.trans ?_
    rw [← List.sum_toFinset _ hnd]
    unfold needs
    apply Finset.sum_le_sum_of_subset
    intro k hk
    rw [List.mem_toFinset] at hk
    have := hok.le ((hmem k).mp hk).2
    rw [Finset.mem_range]; omega
  · intro t ht
    rw [List.mem_filter] at ht
    unfold FFMap.erase at ht
    rw [List.mem_filter] at ht
    obtain ⟨k, e1, e2, -⟩ := h.mem ht.1.1
    exact ⟨k, e1, e2⟩
  · intro k hk
    have h1 := (h.mem_degs hok k).mpr ((hmem k).mp hk)
    unfold degList at h1
    obtain ⟨t, ht, rfl⟩ := List.mem_map.mp h1
    refine ⟨t, ht, ?_⟩
    rw [List.mem_filter] at ht
    unfold FFMap.erase at ht
    rw [List.mem_filter] at ht
    obtain ⟨k', e1, -⟩ := h.mem ht.1.1
    rw [e1]; rfl
  · intro e he
    rw [hcoefs e he]
    exact ⟨rfl, rfl⟩

end FireFly.RMulti
