import Verif.Lemmas.RatShiftAllStep
import Verif.Props.RatRunProps
/-! # The first prime field of a reconstruction that keeps its shift -/
set_option linter.all false
namespace FireFly.RRun.Shifted
open MvPolynomial FFMap

section
variable {p : ℕ} [Fact p.Prime] {k : ℕ} {f : MvPolynomial ℕ ℚ} {S : ℕ → Finset (ℕ →₀ ℕ)} {u : ZMod p}

lemma hc_zero_iff (hu : u ≠ 0) (hc : ∀ m ∈ f.support, ((coeff m f : ℚ) : ZMod p) ≠ 0) (j : ℕ) : homogeneousComponent j (C u * red p f) = 0 ↔ ∀ m ∈ f.support, m.degree ≠ j := by
  constructor
  · intro h m hm hj
    have h1 : coeff m (homogeneousComponent j (C u * red p f)) = 0 := by rw [h, coeff_zero]
    rw [coeff_homogeneousComponent, if_pos hj, coeff_C_mul, red_coeff] at h1
    exact mul_ne_zero hu (hc m hm) h1
  · intro h
    ext m
    rw [coeff_homogeneousComponent, coeff_zero]
    split
    · rename_i hj
      rw [coeff_C_mul]
      by_contra h0
      exact h m (red_support (p := p) (fun h1 => h0 (by rw [h1, mul_zero]))) hj
    · rfl

/-- what is known about one polynomial after the first field -/
structure FirstSide (k : ℕ) (f : MvPolynomial ℕ ℚ) (S : ℕ → Finset (ℕ →₀ ℕ)) (s : RMulti.Side (ZMod p)) : Prop where
  shape : Shape k f S (firstSide s)
  nodup : ∀ j, (shiftExps s.sub s.maxDeg j).Nodup
  mem : ∀ j e, e ∈ shiftExps s.sub s.maxDeg j ↔ e.length = k ∧ e.toFinsupp ∈ S j

lemma part_ne_iff {c : RMulti.Cfg (ZMod p)} {s : RMulti.Side (ZMod p)} (hE : RMulti.EndSide c (C u * red p f) s) (hu : u ≠ 0) (hc : ∀ m ∈ f.support, ((coeff m f : ℚ) : ZMod p) ≠ 0)
    (hS : ∀ j, (RMulti.part c.shift (red p f) j - homogeneousComponent j (red p f)).support = S j) (j : ℕ) :
    RMulti.part c.shift (C u * red p f) j ≠ 0 ↔ (∃ m ∈ f.support, m.degree = j) ∨ S j ≠ ∅ := by
  have hS' : (RMulti.part c.shift (C u * red p f) j - homogeneousComponent j (C u * red p f)).support = S j := by rw [diff_scale _ hu, hS]
  have hz := hc_zero_iff hu hc j
  constructor
  · intro h
    by_contra hn
    push Not at hn
    have h1 := hz.mpr hn.1
    rw [hn.2, support_eq_empty, h1, sub_zero] at hS'
    exact h hS'
  · rintro (⟨m, hm, hj⟩ | h) h0
    · exact hz.mp (hE.keep j h0) m hm hj
    · rw [h0, hE.keep j h0, sub_zero, support_zero] at hS'
      exact h hS'.symm

lemma first_side {c : RMulti.Cfg (ZMod p)} {s : RMulti.Side (ZMod p)} (hE : RMulti.EndSide c (C u * red p f) s) (hsh : c.hasShift = true) (hk : c.n = k) (hu : u ≠ 0)
    (hc : ∀ m ∈ f.support, ((coeff m f : ℚ) : ZMod p) ≠ 0) (hS : ∀ j, (RMulti.part c.shift (red p f) j - homogeneousComponent j (red p f)).support = S j) : FirstSide (p := p) k f S s := by
  have hS' : ∀ j, (RMulti.part c.shift (C u * red p f) j - homogeneousComponent j (C u * red p f)).support = S j := fun j => by rw [diff_scale _ hu, hS]
  have hz := hc_zero_iff hu hc
  have htop : ∀ j, s.maxDeg < j → homogeneousComponent j (C u * red p f) = 0 := fun j hj => hE.keep j (hE.top j hj)
  have hsub : ∀ j ≤ s.maxDeg, WFMap k (RMulti.polyAt s.sub j) ∧ denote (RMulti.polyAt s.sub j) = RMulti.part c.shift (C u * red p f) j - homogeneousComponent j (C u * red p f) := by
    intro j hj
    obtain ⟨h1, h2⟩ := hE.final.sub hsh j hj
    refine ⟨by rw [← hk]; exact h1, ?_⟩
    rw [h2, RMulti.part_sum _ _ s.maxDeg htop hj, add_sub_cancel_left]
    unfold RMulti.subSum
    apply Finset.sum_congr _ (fun _ _ => rfl)
    ext x
    simp only [Finset.mem_filter]
    constructor
    · rintro ⟨a, b⟩; exact ⟨a, b.2⟩
    · rintro ⟨a, b⟩; exact ⟨a, by omega, b⟩
  have hpm : RMulti.part c.shift (C u * red p f) s.maxDeg = homogeneousComponent s.maxDeg (C u * red p f) := by
    rw [RMulti.part_sum _ _ s.maxDeg htop le_rfl, Finset.sum_eq_zero, add_zero]
    intro x hx
    rw [Finset.mem_filter, Finset.mem_range] at hx
    omega
  have hSt : ∀ j, s.maxDeg ≤ j → S j = ∅ := by
    intro j hj
    rw [← hS' j, support_eq_empty]
    rcases Nat.eq_or_lt_of_le hj with rfl | hj
    · rw [hpm, sub_self]
    · rw [hE.top j hj, htop j hj, sub_zero]
  have hmem : ∀ j e, e ∈ shiftExps s.sub s.maxDeg j ↔ e.length = k ∧ e.toFinsupp ∈ S j := by
    intro j e
    by_cases hj : j ≤ s.maxDeg
    · rw [mem_shiftExps (hsub j hj).1, (hsub j hj).2, ← mem_support_iff, hS' j]
      simp [hj]
    · rw [hSt j (by omega)]
      unfold shiftExps
      rw [if_neg hj]; simp
  refine ⟨⟨?_, ?_, hSt, ?_, ?_⟩, fun j => shiftExps_nodup (fun hj => (hsub j hj).1), hmem⟩
  · by_contra hn
    push Not at hn
    exact hE.lead (by rw [hpm]; exact (hz _).mpr hn)
  · intro m hm
    by_contra hn
    have hn : s.maxDeg < m.degree := not_le.mp hn
    exact (hz _).mp (htop _ hn) m hm rfl
  · intro j m hm
    have hj : j < s.maxDeg := by
      by_contra hj
      rw [hSt j (by omega)] at hm
      simp at hm
    have hm' := hm
    rw [← hS' j] at hm
    constructor
    · have hh : (RMulti.part c.shift (C u * red p f) j - homogeneousComponent j (C u * red p f)).IsHomogeneous j := by
        apply IsHomogeneous.sub
        · exact homogeneousComponent_isHomogeneous j _
        · exact homogeneousComponent_isHomogeneous j _
      have := hh (mem_support_iff.mp hm)
      rw [Finsupp.degree_eq_weight_one]
      exact this
    · rw [← (hsub j hj.le).2] at hm
      intro i hi
      by_contra h0
      have hw := (hsub j hj.le).1
      have hmc := mem_support_iff.mp hm
      unfold denote at hmc
      obtain ⟨t, ht, hte⟩ : ∃ t ∈ RMulti.polyAt s.sub j, t.1.toFinsupp = m := by
        by_contra hn
        push Not at hn
        apply hmc
        have : ∀ l : FFMap (ZMod p), (∀ t ∈ l, t.1.toFinsupp ≠ m) → coeff m (denote l) = 0 := by
          intro l
          induction l with
          | nil => intro _; simp [denote]
          | cons t l ih =>
            intro hl
            unfold denote at ih ⊢
            rw [List.map_cons, List.sum_cons, coeff_add, coeff_monomial, if_neg (hl t (by simp)), ih (fun t ht => hl t (List.mem_cons_of_mem _ ht)), add_zero]
        exact this _ hn
      rw [← hte, List.toFinsupp_apply, List.getD_eq_default _ _ (by rw [hw.2 t ht]; exact hi)] at h0
      exact h0 rfl
  · intro j
    show j ∈ zeroDegs s.solved ↔ _
    have hpn := part_ne_iff hE hu hc hS j
    unfold zeroDegs
    rw [List.mem_map]
    constructor
    · rintro ⟨t, ht, rfl⟩
      obtain ⟨h1, h2⟩ := List.mem_filter.mp ht
      obtain ⟨i, hi, hi2⟩ := hE.final.keys t.1 (List.mem_map_of_mem h1)
      have hti : t.1.getD 0 0 = i := by rw [hi]; rfl
      obtain ⟨q, q1, q2, q3, q4⟩ := hE.final.holds i hi2
      have : q = t.2 := by
        rw [← hi, find?_of_mem hE.final.nodup h1] at q1
        exact (Option.some.inj q1).symm
      subst this
      have h2 := of_decide_eq_true h2
      have hnil : t.2 = [] := by
        rcases h2 with h2 | ⟨h2, h3⟩
        · exact List.length_eq_zero_iff.mp h2
        · obtain ⟨a, ha⟩ := List.length_eq_one_iff.mp h2
          rw [ha] at h3
          exact absurd h3 (q3 a (by rw [ha]; simp))
      rw [hnil, denote_nil] at q4
      rw [hti] at hpn ⊢
      have hno := (hz i).mp q4.symm
      refine ⟨?_, hno⟩
      rcases hpn.mp hi2 with ⟨m, hm, hmi⟩ | h
      · exact absurd hmi (hno m hm)
      · exact h
    · rintro ⟨h1, h2⟩
      have hp := hpn.mpr (Or.inr h1)
      obtain ⟨q, q1, q2, q3, q4⟩ := hE.final.holds j hp
      rw [(hz j).mpr h2] at q4
      have hq : q = [] := by
        cases hq : q with
        | nil => rfl
        | cons a l =>
          exfalso
          have ha : a ∈ q := by rw [hq]; simp
          have := coeff_denote q2 (q2.2 a ha)
          rw [q4, coeff_zero, find?_of_mem q2.1 ha] at this
          exact q3 a ha this.symm
      refine ⟨([j], q), List.mem_filter.mpr ⟨find?_mem q1, by simp [hq]⟩, rfl⟩

open Classical in
/-- the number of degrees -/
lemma first_count {c : RMulti.Cfg (ZMod p)} {s : RMulti.Side (ZMod p)} (hE : RMulti.EndSide c (C u * red p f) s) (hu : u ≠ 0)
    (hc : ∀ m ∈ f.support, ((coeff m f : ℚ) : ZMod p) ≠ 0) (hS : ∀ j, (RMulti.part c.shift (red p f) j - homogeneousComponent j (red p f)).support = S j) :
    s.solved.length = ((Finset.range (s.maxDeg + 1)).filter (fun j => (∃ m ∈ f.support, m.degree = j) ∨ S j ≠ ∅)).card := by
  have hpn := part_ne_iff hE hu hc hS
  have hset : ((s.solved.map Prod.fst).toFinset) = ((Finset.range (s.maxDeg + 1)).filter (fun j => (∃ m ∈ f.support, m.degree = j) ∨ S j ≠ ∅)).image (fun j => [j]) := by
    ext key
    rw [List.mem_toFinset, Finset.mem_image]
    constructor
    · intro hk
      obtain ⟨j, rfl, hj⟩ := hE.final.keys key hk
      refine ⟨j, ?_, rfl⟩
      rw [Finset.mem_filter, Finset.mem_range]
      refine ⟨?_, (hpn j).mp hj⟩
      by_contra h0
      exact hj (hE.top j (by omega))
    · rintro ⟨j, hj, rfl⟩
      obtain ⟨q, q1, -⟩ := hE.final.holds j ((hpn j).mpr (Finset.mem_filter.mp hj).2)
      exact List.mem_map_of_mem (find?_mem q1)
  rw [← List.length_map (f := Prod.fst), ← List.toFinset_card_of_nodup hE.final.nodup, hset, Finset.card_image_of_injective _ (fun a b h => (List.cons.inj h).1)]

end
end FireFly.RRun.Shifted
