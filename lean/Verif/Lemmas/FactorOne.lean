import Verif.Spec.FactorScan
import Mathlib.RingTheory.Polynomial.UniqueFactorization
import Mathlib.Algebra.Polynomial.FieldDivision
import Mathlib.Algebra.Field.ZMod
import Mathlib.RingTheory.Coprime.Lemmas
set_option linter.all false
/-! # The common factor of two factorizations -/
namespace FireFly
open Polynomial
variable {p : ℕ} [hp : Fact p.Prime]

lemma mem_commonPos (first second : Factorization p) (t : ((ZMod p)[X] × ℕ) × ℕ) (ht : t ∈ second.zipIdx) :
    t.2 ∈ commonPos first second ↔ t.1 ∈ first := by
  unfold commonPos
  simp only [List.mem_map, List.mem_filter, decide_eq_true_eq]
  constructor
  · rintro ⟨s, ⟨hs, h1⟩, h2⟩
    obtain ⟨a, i⟩ := s
    obtain ⟨b, j⟩ := t
    simp only at h2 h1 ⊢
    subst h2
    rw [List.mem_zipIdx_iff_getElem?] at hs ht
    simp only at hs ht
    rw [hs] at ht
    cases ht
    exact h1
  · intro h
    exact ⟨t, ⟨ht, h⟩, rfl⟩

lemma foldl_pow (f : (ZMod p)[X]) (e : ℕ) (c : (ZMod p)[X]) : (List.range e).foldl (fun a _ => a * f) c = c * f ^ e := by
  induction e with
  | zero => simp
  | succ e ih => rw [List.range_succ, List.foldl_append, ih]; simp [pow_succ, mul_assoc]

open Classical in
lemma canonical_foldl (first : Factorization p) (pos : List ℕ) : ∀ (l : List (((ZMod p)[X] × ℕ) × ℕ)) (c : (ZMod p)[X]),
    (∀ t ∈ l, t.2 ∈ pos ↔ t.1 ∈ first) →
    l.foldl (fun c t => if t.2 ∈ pos then (List.range t.1.2).foldl (fun a _ => a * t.1.1) c else c) c
      = c * (((l.map Prod.fst).filter fun t => decide (t ∈ first)).map fun t => t.1 ^ t.2).prod
  | [], c, _ => by simp
  | t :: l, c, h => by
    rw [List.foldl_cons, canonical_foldl first pos l _ (fun s hs => h s (List.mem_cons_of_mem _ hs))]
    have h1 := h t (by simp)
    by_cases ht : t.1 ∈ first
    · rw [if_pos (h1.2 ht), foldl_pow]
      simp [ht, mul_assoc]
    · rw [if_neg (fun h' => ht (h1.1 h'))]
      simp [ht]

open Classical in
lemma canonicalProduct_eq (first second : Factorization p) :
    canonicalProduct second (commonPos first second) = ((second.filter fun t => decide (t ∈ first)).map fun t => t.1 ^ t.2).prod := by
  unfold canonicalProduct
  rw [canonical_foldl first _ _ _ (fun t ht => mem_commonPos first second t ht), one_mul, List.zipIdx_map_fst]

lemma commonPos_nil (first second : Factorization p) : commonPos first second = [] ↔ ∀ t ∈ second, t ∉ first := by
  unfold commonPos
  rw [List.map_eq_nil_iff, List.filter_eq_nil_iff]
  simp only [decide_eq_true_eq]
  constructor
  · intro h t ht
    obtain ⟨i, hi⟩ := List.mem_iff_getElem?.mp ht
    exact h (t, i) (by rw [List.mem_zipIdx_iff_getElem?]; exact hi)
  · rintro h ⟨t, i⟩ ht
    rw [List.mem_zipIdx_iff_getElem?] at ht
    exact h t (List.mem_of_getElem? ht)

open Classical in
/-- the product over a part of a factorization divides the polynomial -/
lemma filter_prod_dvd {N : (ZMod p)[X]} {l : Factorization p} (h : IsFactorization N l) (P : (ZMod p)[X] × ℕ → Bool) :
    ((l.filter P).map fun t => t.1 ^ t.2).prod ∣ N := by
  obtain ⟨c, hc, e⟩ := h.prod
  rw [e]
  exact Dvd.dvd.mul_left ((List.filter_sublist.map _).prod_dvd_prod) _

/-- distinct monic irreducible polynomials are coprime -/
lemma coprime_of_ne {f g : (ZMod p)[X]} (hf : Irreducible f) (hg : Irreducible g) (mf : f.Monic) (mg : g.Monic) (h : f ≠ g) : IsCoprime f g := by
  rw [hf.coprime_iff_not_dvd]
  intro hd
  have : Associated f g := hf.associated_of_dvd hg hd
  exact h (eq_of_monic_of_associated mf mg this)

lemma prod_dvd_of_pairwise (N : (ZMod p)[X]) : ∀ l : List ((ZMod p)[X]), l.Pairwise IsCoprime → (∀ f ∈ l, f ∣ N) → l.prod ∣ N
  | [], _, _ => by simp
  | f :: l, h, hd => by
    rw [List.prod_cons]
    rw [List.pairwise_cons] at h
    refine IsCoprime.mul_dvd ?_ (hd f (by simp)) (prod_dvd_of_pairwise N l h.2 fun g hg => hd g (by simp [hg]))
    have : ∀ l : List ((ZMod p)[X]), (∀ g ∈ l, IsCoprime f g) → IsCoprime f l.prod := by
      intro l
      induction l with
      | nil => intro _; simp [isCoprime_one_right]
      | cons a l ih => intro h; rw [List.prod_cons]; exact (h a (by simp)).mul_right (ih fun g hg => h g (by simp [hg]))
    exact this l h.1

lemma coprime_prod {f : (ZMod p)[X]} : ∀ l : List ((ZMod p)[X]), (∀ g ∈ l, IsCoprime f g) → IsCoprime f l.prod := by
  intro l
  induction l with
  | nil => intro _; simp [isCoprime_one_right]
  | cons a l ih => intro h; rw [List.prod_cons]; exact (h a (by simp)).mul_right (ih fun g hg => h g (by simp [hg]))

/-- the factors of a factorization are pairwise coprime -/
lemma IsFactorization.pairwise {N : (ZMod p)[X]} {l : Factorization p} (h : IsFactorization N l) (s : Factorization p) (hs : s.Sublist l) : (s.map fun t => t.1 ^ t.2).Pairwise IsCoprime := by
  rw [List.pairwise_map]
  have h1 : (s.map Prod.fst).Nodup := h.nodup.sublist (hs.map _)
  rw [List.Nodup, List.pairwise_map] at h1
  refine h1.imp_of_mem ?_
  intro a b ha hb hab
  exact (coprime_of_ne (h.irred a (hs.subset ha)) (h.irred b (hs.subset hb)) (h.monic a (hs.subset ha)) (h.monic b (hs.subset hb)) hab).pow

lemma unitC {c : ZMod p} (hc : c ≠ 0) : IsUnit (C c : (ZMod p)[X]) := isUnit_C.mpr (isUnit_iff_ne_zero.mpr hc)

lemma IsFactorization.ne_zero {N : (ZMod p)[X]} {l : Factorization p} (h : IsFactorization N l) : N ≠ 0 := by
  obtain ⟨c, hc, e⟩ := h.prod
  rw [e]
  refine mul_ne_zero (by simpa using hc) ?_
  rw [Ne, List.prod_eq_zero_iff]
  intro h0
  obtain ⟨t, ht, e⟩ := List.mem_map.mp h0
  exact pow_ne_zero _ (h.irred t ht).ne_zero e

lemma IsFactorization.dvd {N : (ZMod p)[X]} {l : Factorization p} (h : IsFactorization N l) {t : (ZMod p)[X] × ℕ} (ht : t ∈ l) : t.1 ^ t.2 ∣ N := by
  obtain ⟨c, hc, e⟩ := h.prod
  rw [e]
  exact Dvd.dvd.mul_left (List.dvd_prod (List.mem_map.mpr ⟨t, ht, rfl⟩)) _

lemma IsFactorization.not_dvd {N : (ZMod p)[X]} {l : Factorization p} (h : IsFactorization N l) {t : (ZMod p)[X] × ℕ} (ht : t ∈ l) : ¬ t.1 ^ (t.2 + 1) ∣ N := by
  obtain ⟨c, hc, e⟩ := h.prod
  obtain ⟨l1, l2, rfl⟩ := List.append_of_mem ht
  intro hd
  have hcop : IsCoprime t.1 ((l1 ++ l2).map fun t => t.1 ^ t.2).prod := by
    apply coprime_prod
    intro g hg
    obtain ⟨s, hs, rfl⟩ := List.mem_map.mp hg
    have hs' : s ∈ l1 ++ t :: l2 := by simp at hs ⊢; tauto
    refine (coprime_of_ne (h.irred t ht) (h.irred s hs') (h.monic t ht) (h.monic s hs') ?_).pow_right
    have := h.nodup
    rw [List.map_append, List.map_cons, List.nodup_middle, List.nodup_cons] at this
    intro e
    exact this.1 (by rw [← List.map_append, e]; exact List.mem_map.mpr ⟨s, hs, rfl⟩)
  have e2 : N = t.1 ^ t.2 * (C c * ((l1 ++ l2).map fun t => t.1 ^ t.2).prod) := by
    rw [e]; simp only [List.map_append, List.map_cons, List.prod_append, List.prod_cons]; ring
  rw [e2, pow_succ] at hd
  have hd' : t.1 ∣ C c * ((l1 ++ l2).map fun t => t.1 ^ t.2).prod := (mul_dvd_mul_iff_left (pow_ne_zero _ (h.irred t ht).ne_zero)).mp hd
  rw [(unitC hc).dvd_mul_left] at hd'
  exact (h.irred t ht).not_isUnit (hcop.isUnit_of_dvd' dvd_rfl hd')

lemma IsFactorization.mem_of_dvd {N f : (ZMod p)[X]} {l : Factorization p} (h : IsFactorization N l) (hf : Irreducible f) (mf : f.Monic) (hd : f ∣ N) : ∃ e, (f, e) ∈ l := by
  obtain ⟨c, hc, e⟩ := h.prod
  by_contra hno
  push Not at hno
  rw [e, (unitC hc).dvd_mul_left] at hd
  have hcop : IsCoprime f (l.map fun t => t.1 ^ t.2).prod := by
    apply coprime_prod
    intro g hg
    obtain ⟨s, hs, rfl⟩ := List.mem_map.mp hg
    refine (coprime_of_ne hf (h.irred s hs) mf (h.monic s hs) ?_).pow_right
    rintro rfl
    exact hno s.2 hs
  exact hf.not_isUnit (hcop.isUnit_of_dvd' dvd_rfl hd)

lemma pow_dvd_iff {N h G f : (ZMod p)[X]} {c : ZMod p} (hc : c ≠ 0) (e : N = C c * h * G) (hG : IsCoprime h G) (hd : f ∣ h) (k : ℕ) : f ^ k ∣ N ↔ f ^ k ∣ h := by
  rw [e, mul_assoc, (unitC hc).dvd_mul_left]
  have : IsCoprime (f ^ k) G := (hG.of_isCoprime_of_dvd_left hd).pow_left
  exact ⟨fun h' => this.dvd_of_dvd_mul_right h', fun h' => h'.mul_right _⟩

lemma exponent_unique {h f : (ZMod p)[X]} {k d : ℕ} (a1 : f ^ d ∣ h) (a2 : ¬ f ^ (d + 1) ∣ h) (b1 : f ^ k ∣ h) (b2 : ¬ f ^ (k + 1) ∣ h) : k = d := by
  have h1 : ¬ k + 1 ≤ d := fun hm => b2 ((pow_dvd_pow f hm).trans a1)
  have h2 : ¬ d + 1 ≤ k := fun hm => a2 ((pow_dvd_pow f hm).trans b1)
  omega

lemma IsFactorization.dvd2 {N f : (ZMod p)[X]} {d : ℕ} {l : Factorization p} (h : IsFactorization N l) (ht : (f, d) ∈ l) : f ^ d ∣ N ∧ ¬ f ^ (d + 1) ∣ N := by
  have h1 := h.dvd ht
  have h2 := h.not_dvd ht
  simp only at h1 h2
  exact ⟨h1, h2⟩

/-- the multiplicity: a factorization of `h * G` lists a factor of `h` with the exponent that it has in `h` if `G` is coprime to `h` -/
lemma exponent_eq {N N' h G G' : (ZMod p)[X]} {c c' : ZMod p} {l l' : Factorization p} (hl : IsFactorization N l) (hl' : IsFactorization N' l') (hc : c ≠ 0) (hc' : c' ≠ 0)
    (e : N = C c * h * G) (e' : N' = C c' * h * G') (hG : IsCoprime h G) (hG' : IsCoprime h G') (f : (ZMod p)[X]) (d : ℕ) (ht : (f, d) ∈ l) (hd : f ∣ h) : (f, d) ∈ l' := by
  have hd' : f ∣ N' := by rw [e']; exact (hd.mul_left _).mul_right _
  obtain ⟨k, hk⟩ := hl'.mem_of_dvd (hl.irred _ ht) (hl.monic _ ht) hd'
  have x := hl.dvd2 ht
  have y := hl'.dvd2 hk
  rw [pow_dvd_iff hc e hG hd, pow_dvd_iff hc e hG hd] at x
  rw [pow_dvd_iff hc' e' hG' hd, pow_dvd_iff hc' e' hG' hd] at y
  rw [exponent_unique x.1 x.2 y.1 y.2] at hk
  exact hk

open Classical in
lemma canonical_eq {Na Nb h Ga Gb : (ZMod p)[X]} {a b : ZMod p} {la lb : Factorization p} (hla : IsFactorization Na la) (hlb : IsFactorization Nb lb) (ha : a ≠ 0) (hb : b ≠ 0)
    (ea : Na = C a * h * Ga) (eb : Nb = C b * h * Gb) (hm : h.Monic) (hGa : IsCoprime h Ga) (hGb : IsCoprime h Gb) (hG : IsCoprime Ga Gb) :
    canonicalProduct lb (commonPos la lb) = h := by
  rw [canonicalProduct_eq]
  have hmon : ∀ s : Factorization p, s.Sublist lb → Monic ((s.map fun (t : (ZMod p)[X] × ℕ) => t.1 ^ t.2).prod) := by
    intro s hs
    have hg : ∀ l : List ((ZMod p)[X]), (∀ f ∈ l, f.Monic) → l.prod.Monic := by
      intro l
      induction l with
      | nil => intro _; simp [monic_one]
      | cons a l ih => intro h; rw [List.prod_cons]; exact (h a (by simp)).mul (ih fun g hg => h g (by simp [hg]))
    apply hg
    intro f hf
    obtain ⟨t, ht, rfl⟩ := List.mem_map.mp hf
    exact (hlb.monic t (hs.subset ht)).pow _
  apply eq_of_monic_of_associated (hmon _ List.filter_sublist) hm
  apply associated_of_dvd_dvd
  · apply prod_dvd_of_pairwise
    · exact hlb.pairwise _ List.filter_sublist
    · intro f hf
      obtain ⟨t, ht, rfl⟩ := List.mem_map.mp hf
      simp only [List.mem_filter, decide_eq_true_eq] at ht
      have hdh : t.1 ∣ h := by
        have irr := hlb.irred t ht.1
        have d1 : t.1 ∣ Na := (dvd_pow_self _ (hla.pos t ht.2).ne').trans (hla.dvd ht.2)
        have d2 : t.1 ∣ Nb := (dvd_pow_self _ (hlb.pos t ht.1).ne').trans (hlb.dvd ht.1)
        rw [ea, mul_assoc, (unitC ha).dvd_mul_left] at d1
        rw [eb, mul_assoc, (unitC hb).dvd_mul_left] at d2
        by_contra hno
        have d3 := (irr.prime.dvd_or_dvd d1).resolve_left hno
        have d4 := (irr.prime.dvd_or_dvd d2).resolve_left hno
        exact irr.not_isUnit (hG.isUnit_of_dvd' d3 d4)
      exact (pow_dvd_iff hb eb hGb hdh _).1 (hlb.dvd ht.1)
  · have hcop : IsCoprime h ((lb.filter fun t => !decide (t ∈ la)).map fun t => t.1 ^ t.2).prod := by
      apply coprime_prod
      intro f hf
      obtain ⟨t, ht, rfl⟩ := List.mem_map.mp hf
      simp only [List.mem_filter, Bool.not_eq_true', decide_eq_false_iff_not] at ht
      refine IsCoprime.pow_right ?_
      rw [isCoprime_comm, (hlb.irred t ht.1).coprime_iff_not_dvd]
      intro hd
      exact ht.2 (exponent_eq hlb hla hb ha eb ea hGb hGa t.1 t.2 ht.1 hd)
    obtain ⟨c, hc, e⟩ := hlb.prod
    have hd : h ∣ Nb := by rw [eb]; exact (dvd_mul_left _ _).mul_right _
    rw [e, (unitC hc).dvd_mul_left] at hd
    have split : (lb.map fun t => t.1 ^ t.2).prod = ((lb.filter fun t => decide (t ∈ la)).map fun t => t.1 ^ t.2).prod * ((lb.filter fun t => !decide (t ∈ la)).map fun t => t.1 ^ t.2).prod := by
      rw [← List.prod_append, ← List.map_append]
      exact ((List.filter_append_perm _ lb).map _).prod_eq.symm
    rw [split] at hd
    exact hcop.dvd_of_dvd_mul_right hd

lemma canonicalMap_lists (fac : Factorization p) (pos : List ℕ) (h : (ZMod p)[X]) (e : canonicalProduct fac pos = h) (hpos : pos = [] ↔ h = 1) : Lists h (canonicalMap fac pos) := by
  unfold Lists canonicalMap
  rw [e]
  by_cases h1 : h = 1
  · rw [if_pos (hpos.2 h1)]
    exact ⟨by simp, fun k v => by simp [h1]⟩
  · rw [if_neg (fun h' => h1 (hpos.1 h'))]
    constructor
    · rw [List.map_map]
      refine (List.nodup_range.filter _).map ?_
      intro i j hij
      simpa using hij
    · intro k v
      simp only [List.mem_map, List.mem_filter, List.mem_range, decide_eq_true_eq, Prod.mk.injEq]
      constructor
      · rintro ⟨i, ⟨h2, h3⟩, rfl, rfl⟩
        exact ⟨h1, i, rfl, rfl, h3⟩
      · rintro ⟨-, i, rfl, rfl, h3⟩
        exact ⟨i, ⟨Nat.lt_succ_of_le (le_natDegree_of_ne_zero h3), h3⟩, rfl, rfl⟩

open Classical in
lemma commonPos_one {N : (ZMod p)[X]} (la lb : Factorization p) (hlb : IsFactorization N lb) : commonPos la lb = [] ↔ canonicalProduct lb (commonPos la lb) = 1 := by
  rw [canonicalProduct_eq, commonPos_nil]
  constructor
  · intro h
    have : lb.filter (fun t => decide (t ∈ la)) = [] := by
      rw [List.filter_eq_nil_iff]; simpa using h
    rw [this]; simp
  · intro h t ht hta
    have hd : t.1 ∣ ((lb.filter fun t => decide (t ∈ la)).map fun t => t.1 ^ t.2).prod :=
      (dvd_pow_self _ (hlb.pos t ht).ne').trans (List.dvd_prod (List.mem_map.mpr ⟨t, by simp [ht, hta], rfl⟩))
    rw [h] at hd
    exact (hlb.irred t ht).not_isUnit (isUnit_of_dvd_one hd)

lemma maxPower_foldl (m : FFMap (ZMod p)) : ∀ a, m.foldl (fun m t => max m (t.1.getD 0 0)) a = max a (m.foldl (fun m t => max m (t.1.getD 0 0)) 0) := by
  induction m with
  | nil => simp
  | cons t m ih => intro a; rw [List.foldl_cons, List.foldl_cons, ih, ih (max 0 _)]; simp [max_assoc]

lemma maxPower_le (m : FFMap (ZMod p)) (d : ℕ) (h : ∀ t ∈ m, t.1.getD 0 0 ≤ d) : m.foldl (fun m t => max m (t.1.getD 0 0)) 0 ≤ d := by
  induction m with
  | nil => simp
  | cons t m ih =>
    rw [List.foldl_cons, maxPower_foldl]
    have := h t (by simp)
    have := ih fun s hs => h s (by simp [hs])
    omega

lemma le_maxPower (m : FFMap (ZMod p)) (t) (ht : t ∈ m) : t.1.getD 0 0 ≤ m.foldl (fun m t => max m (t.1.getD 0 0)) 0 := by
  induction m with
  | nil => simp at ht
  | cons s m ih =>
    rw [List.foldl_cons, maxPower_foldl]
    rcases List.mem_cons.mp ht with rfl | h
    · simp
    · have := ih h; omega

lemma maxPower_lists {h : (ZMod p)[X]} {m : FFMap (ZMod p)} (hm : Lists h m) (hmon : h.Monic) : m.foldl (fun m t => max m (t.1.getD 0 0)) 0 = h.natDegree := by
  apply le_antisymm
  · apply maxPower_le
    rintro ⟨k, v⟩ ht
    obtain ⟨-, e, rfl, rfl, h0⟩ := (hm.2 k v).1 ht
    simpa using le_natDegree_of_ne_zero h0
  · by_cases h1 : h = 1
    · rw [h1]; simp
    · exact le_maxPower m ([h.natDegree], 1) ((hm.2 _ _).2 ⟨h1, h.natDegree, rfl, by simpa using hmon.coeff_natDegree.symm, one_ne_zero⟩)
end FireFly
