import Verif.Model.RatReconst
import Verif.Props.RationalProps
import Verif.Lemmas.PolyLemmas
import Mathlib.Data.Rat.Cast.Lemmas
import Mathlib.Data.ZMod.Basic
import Mathlib.Algebra.Field.ZMod
import Mathlib.Tactic.LinearCombination
set_option linter.all false
/-! # C36, first part: the coefficients over several prime fields (any number of variables) -/
namespace FireFly
open FFMap

/-! ## Specification -/

/-- Specification: `r` is the residue of the rational number `c` modulo `M`. -/
def Reduces (c : ℚ) (r M : ℤ) : Prop := 0 ≤ r ∧ r < M ∧ c.num ≡ r * c.den [ZMOD M]

/-- Specification: there is a fraction other than `c` that agrees with `c` modulo `M'` although it is small
compared to `M` (or an integer in `[0, M)`). Only such a fraction can be mistaken for `c`. -/
def Deceptive (c : ℚ) (M M' : ℤ) : Prop :=
  ∃ g : ℚ, g ≠ c ∧ g.num * c.den ≡ c.num * g.den [ZMOD M'] ∧
    ((2 * g.num ^ 2 ≤ M ∧ 2 * (g.den : ℤ) ^ 2 ≤ M) ∨ |g.num| * g.den * 1024 ≤ M ∨ (g.den = 1 ∧ 0 ≤ g.num ∧ g.num < M))

/-- Specification: the monomials of one side (numerator or denominator) are `K`, with coefficients `c`. The
known ones are exact, for the others the residue modulo `M` is stored. -/
structure SideOK (c : List ℕ → ℚ) (K : List (List ℕ)) (M : ℤ) (g : RnMap) (comb : MpzMap) : Prop where
  perm : (g.map Prod.fst ++ comb.map Prod.fst).Perm K
  nodup : K.Nodup
  known : ∀ t ∈ g, t.2.Valid ∧ t.2.val = c t.1
  unknown : ∀ t ∈ comb, Reduces (c t.1) t.2 M

/-- Specification: a coefficient is small enough for the modulus `M` to be determined by its residue. -/
def Small (c : ℚ) (M : ℤ) : Prop := 2 * c.num ^ 2 < M ∧ 2 * (c.den : ℤ) ^ 2 < M

/-! ## fractions -/

lemma valid_num_den {a : RationalNumber} (h : a.Valid) : a.val.num = a.num ∧ (a.val.den : ℤ) = a.den := by
  obtain ⟨h1, h2⟩ := h
  have h3 : a.num.natAbs.Coprime a.den.natAbs := h2
  unfold RationalNumber.val
  exact ⟨Rat.num_div_eq_of_coprime h1 h3, Rat.den_div_eq_of_coprime h1 h3⟩

lemma represents_valid {n d a p : ℤ} (h : Represents n d a p) : (⟨n, d⟩ : RationalNumber).Valid := ⟨h.1, h.2.1⟩

lemma reduces_represents {c : ℚ} {r M : ℤ} (h : Reduces c r M) : Represents c.num c.den r M :=
  ⟨by exact_mod_cast c.den_pos, by exact_mod_cast c.reduced, h.2.2⟩

lemma val_of_num_den {c : ℚ} : (⟨c.num, c.den⟩ : RationalNumber).Valid ∧ (⟨c.num, c.den⟩ : RationalNumber).val = c :=
  ⟨⟨by simp only; exact_mod_cast c.den_pos, by simp only; exact_mod_cast c.reduced⟩, by unfold RationalNumber.val; simp only; exact_mod_cast c.num_div_den⟩

lemma reduces_unique {c : ℚ} {r s M : ℤ} (hc : IsCoprime (c.den : ℤ) M) (h1 : Reduces c r M) (h2 : Reduces c s M) : r = s := by
  have h3 : r * c.den ≡ s * c.den [ZMOD M] := h1.2.2.symm.trans h2.2.2
  have h4 : r ≡ s [ZMOD M] := by
    rw [Int.modEq_iff_dvd] at h3 ⊢
    rw [← sub_mul] at h3
    exact hc.symm.dvd_of_dvd_mul_right h3
  have h5 := h4.eq
  rw [Int.emod_eq_of_lt h1.1 h1.2.1, Int.emod_eq_of_lt h2.1 h2.2.1] at h5
  exact h5

/-- the agreement of two fractions with the same residue -/
lemma agree {c : ℚ} {r M n d : ℤ} (h : Reduces c r M) (hr : n ≡ r * d [ZMOD M]) : n * c.den ≡ c.num * d [ZMOD M] := by
  have h1 : n * c.den ≡ r * d * c.den [ZMOD M] := hr.mul_right _
  have h2 : c.num * d ≡ r * c.den * d [ZMOD M] := h.2.2.mul_right _
  have : r * d * (c.den : ℤ) = r * c.den * d := by ring
  rw [this] at h1
  exact h1.trans h2.symm

/-- a fraction in a finite field and its residue -/
lemma reduces_cast (p : ℕ) [hp : Fact p.Prime] (c : ℚ) (hd : ¬ (p : ℤ) ∣ c.den) :
    Reduces c (((c : ZMod p).val : ℕ) : ℤ) p := by
  refine ⟨by positivity, by exact_mod_cast ZMod.val_lt _, ?_⟩
  rw [← ZMod.intCast_eq_intCast_iff]
  have h0 : ((c.den : ℕ) : ZMod p) ≠ 0 := by
    intro h
    rw [ZMod.natCast_eq_zero_iff] at h
    exact hd (by exact_mod_cast h)
  push_cast
  rw [ZMod.natCast_zmod_val, Rat.cast_def]
  field_simp

lemma mqrr_sound {u p : ℤ} (hu : 0 ≤ u) (hup : u < p) :
    ∃ ok rn, getRationalCoefMqrr u p = some (ok, rn) ∧
      (ok = true → Represents rn.num rn.den u p ∧ |rn.num| * rn.den * 1024 ≤ p) := by
  obtain ⟨ok, rn, h1, h2, h3, -⟩ := C11_mqrr_sound u p hu hup
  refine ⟨ok, rn, h1, fun hok => ?_⟩
  by_cases h0 : u = 0
  · obtain ⟨rfl, -⟩ := h2 h0
    subst h0
    exact ⟨⟨by norm_num, by decide, by simp [Int.ModEq.refl]⟩, by simp; omega⟩
  · obtain ⟨h4, h5⟩ := h3 h0 hok
    refine ⟨h4, le_trans ?_ h5⟩
    have h6 : (0 : ℤ) ≤ |rn.num| * rn.den := mul_nonneg (abs_nonneg _) h4.1.le
    have h7 : (1024 : ℤ) ≤ 1024 * (Nat.log2 p.natAbs + 1 : ℕ) + 1 := by push_cast; omega
    exact mul_le_mul_of_nonneg_left h7 h6

/-! ## one coefficient -/

/-- What the decision about one coefficient yields: nothing, the true coefficient, or a deceptive fraction. -/
lemma promoteOne_spec {c : ℚ} {r M r' M' : ℤ} (hr : 0 ≤ r ∧ r < M) (h' : Reduces c r' M') :
    ∃ o, promoteOne r M r' M' = some o ∧ ∀ rn, o = some rn → rn.Valid ∧ (rn.val = c ∨ Deceptive c M M') := by
  obtain ⟨b1, w1, e1, s1, -⟩ := C09_sound r M hr.1 hr.2
  obtain ⟨b2, w2, e2, s2, -⟩ := C09_sound r' M' h'.1 h'.2.1
  obtain ⟨b3, w3, e3, s3⟩ := mqrr_sound hr.1 hr.2
  obtain ⟨b4, w4, e4, s4⟩ := mqrr_sound h'.1 h'.2.1
  unfold promoteOne
  rw [e1, e2, e3, e4]
  simp only [Option.bind_eq_bind, Option.bind_some]
  have dec : ∀ rn : RationalNumber, Represents rn.num rn.den r' M' →
      ((2 * rn.num ^ 2 ≤ M ∧ 2 * rn.den ^ 2 ≤ M) ∨ |rn.num| * rn.den * 1024 ≤ M ∨ (rn.den = 1 ∧ 0 ≤ rn.num ∧ rn.num < M)) →
      rn.Valid ∧ (rn.val = c ∨ Deceptive c M M') := by
    intro rn h1 h2
    have hv : rn.Valid := ⟨h1.1, h1.2.1⟩
    refine ⟨hv, ?_⟩
    by_cases he : rn.val = c
    · exact Or.inl he
    · right
      obtain ⟨v1, v2⟩ := valid_num_den hv
      refine ⟨rn.val, he, ?_, ?_⟩
      · rw [v1, v2]; exact agree h' h1.2.2
      · rw [v1, v2]
        rcases h2 with h2 | h2 | h2
        · exact Or.inl h2
        · exact Or.inr (Or.inl h2)
        · exact Or.inr (Or.inr ⟨by have := h2.1; rw [← v2] at this; exact_mod_cast this, h2.2⟩)
  have eqf : ∀ a b : RationalNumber, RationalNumber.eq a b = true → a = b := by
    intro a b h
    unfold RationalNumber.eq at h
    simp only [Bool.and_eq_true, beq_iff_eq] at h
    cases a; cases b; simp_all
  split_ifs with c1 c2 c3
  · simp only [Bool.and_eq_true] at c1
    refine ⟨_, rfl, fun rn h => ?_⟩
    cases h
    have e := eqf _ _ c1.2
    apply dec _ (s2 c1.1.2).1
    left
    have := s1 c1.1.1
    rw [← e]; exact this.2
  · simp only [Bool.and_eq_true] at c2
    refine ⟨_, rfl, fun rn h => ?_⟩
    cases h
    have e := eqf _ _ c2.2
    apply dec _ (s4 c2.1.2).1
    right; left
    have := s3 c2.1.1
    rw [← e]; exact this.2
  · have : RationalNumber.ctor r 1 = some ⟨r, 1⟩ := by
      unfold RationalNumber.ctor
      simp
    rw [this]
    refine ⟨_, rfl, fun rn h => ?_⟩
    cases h
    apply dec
    · refine ⟨by norm_num, by simp, by simp only [mul_one]; rw [c3]⟩
    · right; right; exact ⟨rfl, hr.1, hr.2⟩
  · exact ⟨_, rfl, fun rn h => by cases h⟩

/-- A coefficient that is small for the modulus before is found. -/
lemma promoteOne_small {c : ℚ} {r M r' M' : ℤ} (h : Reduces c r M) (h' : Reduces c r' M') (hM : M ≤ M') (hs : Small c M) :
    promoteOne r M r' M' = some (some ⟨c.num, c.den⟩) := by
  have e1 := C10_complete r M _ _ h.1 h.2.1 (reduces_represents h) hs.1 hs.2
  have e2 := C10_complete r' M' _ _ h'.1 h'.2.1 (reduces_represents h') (lt_of_lt_of_le hs.1 hM) (lt_of_lt_of_le hs.2 hM)
  obtain ⟨b3, w3, e3, -⟩ := mqrr_sound h.1 h.2.1
  obtain ⟨b4, w4, e4, -⟩ := mqrr_sound h'.1 h'.2.1
  unfold promoteOne
  rw [e1, e2, e3, e4]
  simp [RationalNumber.eq]

/-- **C36 (no deception).** A coefficient whose numerator and denominator are below half of the new prime
cannot be mistaken. -/
theorem C36_not_deceptive (c : ℚ) (M p : ℤ) (hM : 1 ≤ M) (hn : 2 * |c.num| < p) (hd : 2 * (c.den : ℤ) < p) :
    ¬ Deceptive c M (M * p) := by
  rintro ⟨g, hne, hmod, hsm⟩
  have hgd : (1 : ℤ) ≤ g.den := by exact_mod_cast g.den_pos
  have hcd : (1 : ℤ) ≤ c.den := by exact_mod_cast c.den_pos
  have hbound : |g.num| ≤ M ∧ (g.den : ℤ) ≤ M := by
    rcases hsm with ⟨h1, h2⟩ | h1 | ⟨h1, h2, h3⟩
    · refine ⟨?_, by nlinarith⟩
      have : |g.num| ^ 2 = g.num ^ 2 := sq_abs _
      nlinarith [abs_nonneg g.num]
    · by_cases h0 : g.num = 0
      · have : g = 0 := Rat.num_eq_zero.mp h0
        subst this
        simp; omega
      · have h1' : 1 ≤ |g.num| := Int.one_le_abs h0
        constructor <;> nlinarith
    · rw [h1, abs_of_nonneg h2]; push_cast; omega
  rw [Int.modEq_iff_dvd] at hmod
  have habs : |c.num * g.den - g.num * c.den| < M * p := by
    have h1 : |c.num * g.den - g.num * c.den| ≤ |c.num| * g.den + |g.num| * c.den := by
      refine (abs_sub _ _).trans ?_
      rw [abs_mul, abs_mul, abs_of_nonneg (by omega : (0:ℤ) ≤ g.den), abs_of_nonneg (by omega : (0:ℤ) ≤ c.den)]
    have h2 : |c.num| * g.den ≤ |c.num| * M := mul_le_mul_of_nonneg_left hbound.2 (abs_nonneg _)
    have h3 : |g.num| * c.den ≤ M * c.den := mul_le_mul_of_nonneg_right hbound.1 (by omega)
    have h4 : 2 * |c.num| * M < p * M := mul_lt_mul_of_pos_right hn (by omega)
    have h5 : 2 * (c.den : ℤ) * M < p * M := mul_lt_mul_of_pos_right hd (by omega)
    nlinarith
  have h0 := Int.eq_zero_of_abs_lt_dvd hmod habs
  apply hne
  have h1 : g.num * c.den = c.num * g.den := by linarith
  rw [Rat.eq_iff_mul_eq_mul]
  exact h1

/-! ## one side -/

lemma keys_erase {V : Type} (m : FFMap V) (k : List ℕ) (hnd : (m.map Prod.fst).Nodup) (hk : k ∈ m.map Prod.fst) :
    (m.map Prod.fst).Perm (k :: (m.erase k).map Prod.fst) := by
  unfold FFMap.erase
  induction m with
  | nil => simp at hk
  | cons t m ih =>
    rw [List.map_cons, List.nodup_cons] at hnd
    by_cases h : t.1 = k
    · subst h
      have : (t :: m).filter (fun s => decide (s.1 ≠ t.1)) = m := by
        rw [List.filter_cons_of_neg (by simp), List.filter_eq_self]
        intro s hs
        simp only [decide_eq_true_eq]
        intro e
        exact hnd.1 (e ▸ List.mem_map_of_mem hs)
      rw [this]; rfl
    · rw [List.filter_cons_of_pos (by simpa using h), List.map_cons, List.map_cons]
      have hk' : k ∈ m.map Prod.fst := by
        rcases List.mem_cons.mp hk with h2 | h2
        · exact absurd h2.symm h
        · exact h2
      exact ((ih hnd.2 hk').cons _).trans (List.Perm.swap _ _ _)

lemma mem_set {V : Type} {m : FFMap V} {k : List ℕ} {v : V} {t : List ℕ × V} (h : t ∈ m.set k v) : t ∈ m ∨ t = (k, v) := by
  unfold FFMap.set at h
  split at h
  · obtain ⟨s, hs, rfl⟩ := List.mem_map.mp h
    split
    · exact Or.inr rfl
    · exact Or.inl hs
  · rcases List.mem_append.mp h with h | h
    · exact Or.inl h
    · exact Or.inr (List.mem_singleton.mp h)

lemma mem_erase {V : Type} {m : FFMap V} {k : List ℕ} {t : List ℕ × V} (h : t ∈ m.erase k) : t ∈ m := by
  unfold FFMap.erase at h
  exact (List.mem_filter.mp h).1

/-- a coefficient becomes known -/
lemma SideOK.promote {c : List ℕ → ℚ} {K : List (List ℕ)} {M : ℤ} {g : RnMap} {comb : MpzMap} (h : SideOK c K M g comb)
    {k : List ℕ} (hk : k ∈ comb.map Prod.fst) {rn : RationalNumber} (h1 : rn.Valid) (h2 : rn.val = c k) :
    SideOK c K M (g.set k rn) (comb.erase k) ∧ ∀ k', k' ≠ k → (comb.erase k).find? k' = comb.find? k' := by
  have hnd : (g.map Prod.fst ++ comb.map Prod.fst).Nodup := h.perm.nodup_iff.mpr h.nodup
  have hng : k ∉ g.map Prod.fst := fun hg => (List.nodup_append.mp hnd).2.2 k hg k hk rfl
  refine ⟨⟨?_, h.nodup, ?_, fun t ht => h.unknown t (mem_erase ht)⟩, fun k' hk' => by rw [find?_erase, if_neg hk']⟩
  · rw [keys_set, if_neg hng, List.append_assoc, List.singleton_append]
    refine List.Perm.trans ?_ h.perm
    exact (keys_erase comb k (List.nodup_append.mp hnd).2.1 hk).symm.append_left _
  · intro t ht
    rcases mem_set ht with ht | rfl
    · exact h.known t ht
    · exact ⟨h1, h2⟩

lemma SideOK.notMem {c : List ℕ → ℚ} {K : List (List ℕ)} {M : ℤ} {g : RnMap} {comb : MpzMap} (h : SideOK c K M g comb)
    {k : List ℕ} (hk : k ∈ comb.map Prod.fst) : g.find? k = none := by
  rw [find?_eq_none]
  intro hg
  have hnd : (g.map Prod.fst ++ comb.map Prod.fst).Nodup := h.perm.nodup_iff.mpr h.nodup
  exact (List.nodup_append.mp hnd).2.2 k hg k hk rfl

lemma promote_fold {c : List ℕ → ℚ} {K : List (List ℕ)} {M M' : ℤ} :
    ∀ (l : MpzMap) (st : RnMap × MpzMap), SideOK c K M' st.1 st.2 → (l.map Prod.fst).Nodup →
      (∀ t ∈ l, t.1 ∈ st.2.map Prod.fst ∧ (0 ≤ t.2 ∧ t.2 < M) ∧ ¬ Deceptive (c t.1) M M') →
      ∃ st', l.foldlM (promoteStep M M') st = some st' ∧ SideOK c K M' st'.1 st'.2 ∧
        (∀ k, k ∉ l.map Prod.fst → st'.1.find? k = st.1.find? k ∧ st'.2.find? k = st.2.find? k) ∧
        (M ≤ M' → ∀ t ∈ l, Reduces (c t.1) t.2 M → Small (c t.1) M → st'.2.find? t.1 = none)
  | [], st, h, _, _ => ⟨st, rfl, h, fun _ _ => ⟨rfl, rfl⟩, by simp⟩
  | t :: l, st, h, hnd, hl => by
    rw [List.map_cons, List.nodup_cons] at hnd
    obtain ⟨hk, hr, hdec⟩ := hl t (by simp)
    obtain ⟨r', hr'⟩ : ∃ r', st.2.find? t.1 = some r' := by
      rcases hf : st.2.find? t.1 with _ | r'
      · exact absurd hk (find?_eq_none.mp hf)
      · exact ⟨r', rfl⟩
    have hred : Reduces (c t.1) r' M' := h.unknown _ (find?_mem hr')
    have hstep : ∀ o, promoteOne t.2 M r' M' = some o → promoteStep M M' st t = some (match o with
        | some rn => (st.1.set t.1 rn, st.2.erase t.1)
        | none => st) := by
      intro o ho
      unfold promoteStep
      rw [h.notMem hk, hr']
      cases o <;> simp [ho]
    obtain ⟨o, ho, hspec⟩ := promoteOne_spec (c := c t.1) hr hred
    rw [List.foldlM_cons, hstep o ho]
    simp only [Option.bind_eq_bind, Option.bind_some]
    cases o with
    | none =>
      simp only
      obtain ⟨st', e1, e2, e3, e4⟩ := promote_fold l st h hnd.2 (fun s hs => hl s (List.mem_cons_of_mem _ hs))
      refine ⟨st', e1, e2, fun k hkn => e3 k (fun hk' => hkn (by rw [List.map_cons]; exact List.mem_cons_of_mem _ hk')), ?_⟩
      intro hM s hs hsr hss
      rcases List.mem_cons.mp hs with rfl | hs
      · rw [promoteOne_small hsr hred hM hss] at ho
        exact absurd (Option.some.inj ho) (by simp)
      · exact e4 hM s hs hsr hss
    | some rn =>
      simp only
      obtain ⟨v1, v2⟩ := hspec rn rfl
      have v2 : rn.val = c t.1 := v2.resolve_right hdec
      obtain ⟨p1, p2⟩ := h.promote hk v1 v2
      obtain ⟨st', e1, e2, e3, e4⟩ := promote_fold l (st.1.set t.1 rn, st.2.erase t.1) p1 hnd.2 (by
        intro s hs
        obtain ⟨a, b⟩ := hl s (List.mem_cons_of_mem _ hs)
        have hne : s.1 ≠ t.1 := fun e => hnd.1 (e ▸ List.mem_map_of_mem hs)
        refine ⟨?_, b⟩
        by_contra hc
        rw [← find?_eq_none, p2 _ hne, find?_eq_none] at hc
        exact hc a)
      have hrest : ∀ k, k ∉ (t :: l).map Prod.fst → st'.1.find? k = st.1.find? k ∧ st'.2.find? k = st.2.find? k := by
        intro k hkn
        rw [List.map_cons, List.mem_cons, not_or] at hkn
        obtain ⟨a, b⟩ := e3 k hkn.2
        rw [a, b]
        simp only
        rw [find?_set, find?_erase, if_neg hkn.1, if_neg hkn.1]
        exact ⟨rfl, rfl⟩
      refine ⟨st', e1, e2, hrest, ?_⟩
      intro hM s hs hsr hss
      rcases List.mem_cons.mp hs with rfl | hs
      · rw [(e3 s.1 hnd.1).2]
        simp only
        rw [find?_erase, if_pos rfl]
      · exact e4 hM s hs hsr hss

/-- the Chinese remainders of one side -/
lemma combineSide_ok {c : List ℕ → ℚ} {K : List (List ℕ)} {M : ℤ} {g : RnMap} {comb : MpzMap} (h : SideOK c K M g comb)
    {inv : ℤ → ℤ → ℤ} (hinv : InvertSpec inv) {p : ℕ} [hp : Fact p.Prime] (hM : 0 < M) (hpM : ¬ (p : ℤ) ∣ M)
    {res : FFMap (ZMod p)} (hden : ∀ t ∈ comb, ¬ (p : ℤ) ∣ (c t.1).den)
    (hres : ∀ t ∈ comb, (res.find? t.1).getD 0 = ((c t.1 : ℚ) : ZMod p)) :
    SideOK c K (M * p) g (combineSide inv comb M res) := by
  have hpp : (0 : ℤ) < p := by exact_mod_cast hp.out.pos
  have hco : IsCoprime M (p : ℤ) :=
    ((Nat.prime_iff_prime_int.mp hp.out).coprime_iff_not_dvd.mpr hpM).symm
  refine ⟨?_, h.nodup, h.known, ?_⟩
  · unfold combineSide; rw [List.map_map]; exact h.perm
  · intro t ht
    unfold combineSide at ht
    obtain ⟨s, hs, rfl⟩ := List.mem_map.mp ht
    have hr := h.unknown s hs
    have hr2 := reduces_cast p (c s.1) (hden s hs)
    rw [hres s hs]
    obtain ⟨-, a1, a2, a3, a4, -⟩ := C08_crt inv hinv s.2 M _ p hM hpp (Int.isCoprime_iff_gcd_eq_one.mp hco) hr.1 hr2.1
    refine ⟨a1, a2, ?_⟩
    rw [Int.modEq_iff_dvd]
    apply hco.mul_dvd
    · rw [← Int.modEq_iff_dvd]
      exact hr.2.2.trans (a3.symm.mul_right _)
    · rw [← Int.modEq_iff_dvd]
      exact hr2.2.2.trans (a4.symm.mul_right _)

/-! ## C36 -/

/-- **C36 (a further prime field).** Let the monomials and coefficients of a function be `K1`, `c1` (numerator) and
`K2`, `c2` (denominator), each stored as an exact fraction or as residue modulo `M`, and let the interpolation
over the prime field `p` deliver the unknown coefficients modulo `p`. If no unknown coefficient is deceptive, then
`combine_primes` leaves each coefficient as exact fraction or as residue modulo `M * p`, no monomial is lost or
duplicated, and every coefficient that is small for `M` is known afterwards. -/
theorem C36_combine_next {c1 c2 : List ℕ → ℚ} {K1 K2 : List (List ℕ)} (s : RatCoefs) {inv : ℤ → ℤ → ℤ} (hinv : InvertSpec inv)
    {p : ℕ} [hp : Fact p.Prime] (hM : 0 < s.combPrime) (hpM : ¬ (p : ℤ) ∣ s.combPrime) (hne : s.combNi ++ s.combDi ≠ [])
    (h1 : SideOK c1 K1 s.combPrime s.gNi s.combNi) (h2 : SideOK c2 K2 s.combPrime s.gDi s.combDi) {num den : FFMap (ZMod p)}
    (hd1 : ∀ t ∈ s.combNi, ¬ (p : ℤ) ∣ (c1 t.1).den) (hd2 : ∀ t ∈ s.combDi, ¬ (p : ℤ) ∣ (c2 t.1).den)
    (hr1 : ∀ t ∈ s.combNi, (num.find? t.1).getD 0 = ((c1 t.1 : ℚ) : ZMod p))
    (hr2 : ∀ t ∈ s.combDi, (den.find? t.1).getD 0 = ((c2 t.1 : ℚ) : ZMod p))
    (hx1 : ∀ t ∈ s.combNi, ¬ Deceptive (c1 t.1) s.combPrime (s.combPrime * p))
    (hx2 : ∀ t ∈ s.combDi, ¬ Deceptive (c2 t.1) s.combPrime (s.combPrime * p)) :
    ∃ s', s.combineNext inv num den = some s' ∧ s'.combPrime = s.combPrime * p ∧
      SideOK c1 K1 (s.combPrime * p) s'.gNi s'.combNi ∧ SideOK c2 K2 (s.combPrime * p) s'.gDi s'.combDi ∧
      (∀ t ∈ s.combNi, Small (c1 t.1) s.combPrime → s'.combNi.find? t.1 = none) ∧
      (∀ t ∈ s.combDi, Small (c2 t.1) s.combPrime → s'.combDi.find? t.1 = none) ∧
      (∀ k, s.combNi.find? k = none → s'.combNi.find? k = none) ∧ (∀ k, s.combDi.find? k = none → s'.combDi.find? k = none) := by
  have o1 := combineSide_ok h1 hinv hM hpM hd1 hr1
  have o2 := combineSide_ok h2 hinv hM hpM hd2 hr2
  have hMM : s.combPrime ≤ s.combPrime * p := by
    have : (1 : ℤ) ≤ p := by exact_mod_cast hp.out.pos
    nlinarith
  have keys : ∀ (comb : MpzMap) (res : FFMap (ZMod p)), (combineSide inv comb s.combPrime res).map Prod.fst = comb.map Prod.fst := by
    intro comb res; unfold combineSide; rw [List.map_map]; rfl
  have nd1 : (s.combNi.map Prod.fst).Nodup := (List.nodup_append.mp (h1.perm.nodup_iff.mpr h1.nodup)).2.1
  have nd2 : (s.combDi.map Prod.fst).Nodup := (List.nodup_append.mp (h2.perm.nodup_iff.mpr h2.nodup)).2.1
  obtain ⟨a, ea, oa, ka, sa⟩ := promote_fold (M := s.combPrime) s.combNi (s.gNi, combineSide inv s.combNi s.combPrime num) o1 nd1 (by
    intro t ht
    refine ⟨?_, ⟨(h1.unknown t ht).1, (h1.unknown t ht).2.1⟩, hx1 t ht⟩
    simp only; rw [keys]; exact List.mem_map_of_mem ht)
  obtain ⟨b, eb, ob, kb, sb⟩ := promote_fold (M := s.combPrime) s.combDi (s.gDi, combineSide inv s.combDi s.combPrime den) o2 nd2 (by
    intro t ht
    refine ⟨?_, ⟨(h2.unknown t ht).1, (h2.unknown t ht).2.1⟩, hx2 t ht⟩
    simp only; rw [keys]; exact List.mem_map_of_mem ht)
  unfold RatCoefs.combineNext
  simp only [if_neg hne]
  rw [ea, eb]
  simp only [Option.bind_eq_bind, Option.bind_some]
  refine ⟨_, rfl, rfl, oa, ob, fun t ht hs => sa hMM t ht (h1.unknown t ht) hs, fun t ht hs => sb hMM t ht (h2.unknown t ht) hs, ?_, ?_⟩
  · intro k hk
    simp only
    rw [find?_eq_none] at hk
    rw [(ka k hk).2, find?_eq_none]
    simp only; rw [keys]; exact hk
  · intro k hk
    simp only
    rw [find?_eq_none] at hk
    rw [(kb k hk).2, find?_eq_none]
    simp only; rw [keys]; exact hk

/-! ## the guesses -/

lemma guessOne_spec {c : ℚ} {r M : ℤ} (h : Reduces c r M) :
    ∃ o, guessOne r M = some o ∧ (∀ rn, o = some rn → Represents rn.num rn.den r M) ∧ (Small c M → o = some ⟨c.num, c.den⟩) := by
  obtain ⟨b1, w1, e1, s1, -⟩ := C09_sound r M h.1 h.2.1
  obtain ⟨b3, w3, e3, s3⟩ := mqrr_sound h.1 h.2.1
  unfold guessOne
  by_cases hs : Small c M
  · rw [C10_complete r M _ _ h.1 h.2.1 (reduces_represents h) hs.1 hs.2]
    exact ⟨some ⟨c.num, c.den⟩, rfl, fun rn h' => by cases h'; exact reduces_represents h, fun _ => rfl⟩
  · rw [e1, e3]
    cases b1
    · cases b3
      · exact ⟨none, rfl, by simp, fun h => absurd h hs⟩
      · exact ⟨some w3, rfl, fun rn h => (by cases h; exact (s3 rfl).1), fun h => absurd h hs⟩
    · exact ⟨some w1, rfl, fun rn h => (by cases h; exact (s1 rfl).1), fun h => absurd h hs⟩

/-- Specification of a guess for one side: the monomials are those of the function, each fraction is reduced and agrees
with the coefficient modulo `M`. -/
def GuessOK (c : List ℕ → ℚ) (K : List (List ℕ)) (M : ℤ) (g : RnMap) : Prop :=
  (g.map Prod.fst).Perm K ∧ ∀ t ∈ g, t.2.Valid ∧ t.2.num * (c t.1).den ≡ (c t.1).num * t.2.den [ZMOD M]

/-- Specification: the side is known exactly. -/
def SideExact (c : List ℕ → ℚ) (K : List (List ℕ)) (g : RnMap) : Prop :=
  (g.map Prod.fst).Perm K ∧ ∀ t ∈ g, t.2.Valid ∧ t.2.val = c t.1

lemma recSide_spec {c : List ℕ → ℚ} {K : List (List ℕ)} {M : ℤ} : ∀ (comb : MpzMap) (g : RnMap),
    (g.map Prod.fst ++ comb.map Prod.fst).Perm K → K.Nodup →
    (∀ t ∈ g, t.2.Valid ∧ t.2.num * (c t.1).den ≡ (c t.1).num * t.2.den [ZMOD M]) →
    (∀ t ∈ comb, Reduces (c t.1) t.2 M) →
    ∃ g' b, recSide M comb g = some (g', b) ∧ (b = true → GuessOK c K M g') ∧
      ((∀ t ∈ g, t.2.val = c t.1) → (∀ t ∈ comb, Small (c t.1) M) → b = true ∧ SideExact c K g')
  | [], g, hp, hnd, hg, _ => by
    refine ⟨g, true, rfl, fun _ => ⟨by simpa using hp, hg⟩, fun h _ => ⟨rfl, by simpa using hp, fun t ht => ⟨(hg t ht).1, h t ht⟩⟩⟩
  | t :: ts, g, hp, hnd, hg, hc => by
    obtain ⟨o, e, s1, s2⟩ := guessOne_spec (hc t (by simp))
    unfold recSide
    rw [e]
    simp only [Option.bind_eq_bind, Option.bind_some]
    cases o with
    | none =>
      simp only
      exact ⟨g, false, rfl, by simp, fun _ h => by
        have := s2 (h t (by simp)); cases this⟩
    | some rn =>
      simp only
      have hk : t.1 ∉ g.map Prod.fst := by
        intro hk
        have := hp.nodup_iff.mpr hnd
        exact (List.nodup_append.mp this).2.2 _ hk t.1 (by simp) rfl
      have hrep := s1 rn rfl
      obtain ⟨g', b, e', r1, r2⟩ := recSide_spec (c := c) (K := K) (M := M) ts (g.set t.1 rn) (by
          rw [keys_set, if_neg hk, List.append_assoc, List.singleton_append]
          simpa using hp) hnd (by
          intro s hs
          rcases mem_set hs with hs | rfl
          · exact hg s hs
          · exact ⟨⟨hrep.1, hrep.2.1⟩, agree (hc t (by simp)) hrep.2.2⟩) (fun s hs => hc s (List.mem_cons_of_mem _ hs))
      refine ⟨g', b, e', r1, fun h1 h2 => ?_⟩
      apply r2
      · intro s hs
        rcases mem_set hs with hs | rfl
        · exact h1 s hs
        · have := s2 (h2 t (by simp))
          simp only
          rw [Option.some.inj this]
          exact val_of_num_den.2
      · exact fun s hs => h2 s (List.mem_cons_of_mem _ hs)

/-- **C36 (the guess).** The candidate built from the stored residues has exactly the monomials of the function, each of its
coefficients is a reduced fraction that agrees with the true coefficient modulo the product of the primes, and it is
the function itself as soon as all unknown coefficients are small for this product. -/
theorem C36_guess {c1 c2 : List ℕ → ℚ} {K1 K2 : List (List ℕ)} (s : RatCoefs)
    (h1 : SideOK c1 K1 s.combPrime s.gNi s.combNi) (h2 : SideOK c2 K2 s.combPrime s.gDi s.combDi) :
    ∃ o, s.recRatCoef = some o ∧
      (∀ g, o = some g → GuessOK c1 K1 s.combPrime g.1 ∧ GuessOK c2 K2 s.combPrime g.2) ∧
      ((∀ t ∈ s.combNi, Small (c1 t.1) s.combPrime) → (∀ t ∈ s.combDi, Small (c2 t.1) s.combPrime) →
        ∃ g, o = some g ∧ SideExact c1 K1 g.1 ∧ SideExact c2 K2 g.2) := by
  have cong : ∀ (c : List ℕ → ℚ) (K : List (List ℕ)) (g : RnMap) (comb : MpzMap), SideOK c K s.combPrime g comb →
      ∀ t ∈ g, t.2.Valid ∧ t.2.num * (c t.1).den ≡ (c t.1).num * t.2.den [ZMOD s.combPrime] := by
    intro c K g comb h t ht
    obtain ⟨a, b⟩ := h.known t ht
    refine ⟨a, ?_⟩
    obtain ⟨v1, v2⟩ := valid_num_den a
    rw [← b, ← v1, v2, v1]
  obtain ⟨g1, b1, e1, r1, x1⟩ := recSide_spec s.combNi s.gNi h1.perm h1.nodup (cong _ _ _ _ h1) h1.unknown
  obtain ⟨g2, b2, e2, r2, x2⟩ := recSide_spec s.combDi s.gDi h2.perm h2.nodup (cong _ _ _ _ h2) h2.unknown
  have k1 : ∀ t ∈ s.gNi, t.2.val = c1 t.1 := fun t ht => (h1.known t ht).2
  have k2 : ∀ t ∈ s.gDi, t.2.val = c2 t.1 := fun t ht => (h2.known t ht).2
  unfold RatCoefs.recRatCoef
  rw [e1]
  simp only [Option.bind_eq_bind, Option.bind_some]
  cases b1 with
  | false =>
    refine ⟨none, by simp, by simp, fun y1 _ => ?_⟩
    exact absurd (x1 k1 y1).1 (by simp)
  | true =>
    rw [e2]
    cases b2 with
    | false =>
      refine ⟨none, by simp, by simp, fun _ y2 => ?_⟩
      exact absurd (x2 k2 y2).1 (by simp)
    | true =>
      refine ⟨some (g1, g2), by simp, ?_, fun y1 y2 => ⟨_, rfl, (x1 k1 y1).2, (x2 k2 y2).2⟩⟩
      intro g hg
      cases hg
      exact ⟨r1 rfl, r2 rfl⟩

/-- **C36 (deception happens).** The residues of the integer `1 + M * p` are those of `1`; the coefficient is set to `1`
after the second prime field. -/
theorem C36_deceived_violated (M p : ℤ) (hM : 3 ≤ M) (hp : 1 ≤ p) :
    Reduces (1 + M * p : ℤ) 1 M ∧ Reduces (1 + M * p : ℤ) 1 (M * p) ∧
    promoteOne 1 M 1 (M * p) = some (some ⟨1, 1⟩) ∧ (⟨1, 1⟩ : RationalNumber).val ≠ ((1 + M * p : ℤ) : ℚ) := by
  have h1 : Reduces ((1 : ℤ) : ℚ) 1 M := ⟨by norm_num, by omega, by simp [Int.ModEq.refl]⟩
  have h2 : Reduces ((1 : ℤ) : ℚ) 1 (M * p) := ⟨by norm_num, by nlinarith, by simp [Int.ModEq.refl]⟩
  have h3 := promoteOne_small h1 h2 (by nlinarith) ⟨by simp; omega, by simp; omega⟩
  refine ⟨⟨by norm_num, by omega, ?_⟩, ⟨by norm_num, by nlinarith, ?_⟩, ?_, ?_⟩
  · simp only [Rat.num_intCast, Rat.den_intCast]
    rw [Int.modEq_iff_dvd]; exact ⟨-p, by push_cast; ring⟩
  · simp only [Rat.num_intCast, Rat.den_intCast]
    rw [Int.modEq_iff_dvd]; exact ⟨-1, by push_cast; ring⟩
  · rw [h3]; simp
  · unfold RationalNumber.val
    simp only [Int.cast_one, div_one]
    intro h
    have : (1 : ℤ) = 1 + M * p := by exact_mod_cast h
    nlinarith

end FireFly
