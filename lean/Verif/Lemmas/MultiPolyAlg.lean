import Verif.Tac
import Mathlib.Data.List.GetD
import Mathlib.Algebra.Polynomial.Eval.Defs
import Mathlib.Algebra.Polynomial.BigOperators
import Mathlib.Algebra.BigOperators.Intervals
/-! # Slices of a multivariate polynomial -/
set_option linter.all false
namespace FireFly.MPoly
open Polynomial
variable {F : Type} [Field F] [DecidableEq F]

/-- the first `s` exponents, padded with zeros -/
def cut (n s : ℕ) (m : List ℕ) : List ℕ := m.take s ++ List.replicate (n - s) 0

/-- the key of `key` in the next stage -/
def nd (n s : ℕ) (k : List ℕ) (e : ℕ) : List ℕ := k.take s ++ e :: List.replicate (n - s - 1) 0

/-- value of the variables from `s` on at the anchor -/
def tl (n : ℕ) (a : ℕ → F) (s : ℕ) (m : List ℕ) : F := ∏ j ∈ Finset.Ico s n, a j ^ m.getD j 0

/-- value of the first `s` variables at the orders `o` -/
def hd (a : ℕ → F) (s : ℕ) (o : ℕ → ℕ) (m : List ℕ) : F := ∏ j ∈ Finset.range s, (a j ^ o j) ^ m.getD j 0

/-- the coefficient of a monomial in the first `s` variables, the other variables at the anchor -/
def CC (n : ℕ) (a : ℕ → F) (S : Finset (List ℕ)) (co : List ℕ → F) (s : ℕ) (k : List ℕ) : F :=
  ∑ m ∈ S with m.take s = k.take s, co m * tl n a s m

/-- the same as a polynomial in the variable `s` -/
noncomputable def slc (n : ℕ) (a : ℕ → F) (S : Finset (List ℕ)) (co : List ℕ → F) (s : ℕ) (k : List ℕ) : F[X] :=
  ∑ m ∈ S with m.take s = k.take s, C (co m * tl n a (s + 1) m) * X ^ m.getD s 0

/-- the keys of stage `s` -/
def KK (n : ℕ) (S : Finset (List ℕ)) (s : ℕ) : Finset (List ℕ) := S.image (cut n s)

section
variable {n : ℕ} {a : ℕ → F} {S : Finset (List ℕ)} {co : List ℕ → F}

lemma cut_length {s : ℕ} {m : List ℕ} (hm : m.length = n) (hs : s ≤ n) : (cut n s m).length = n := by
  simp [cut]; omega

lemma cut_take {s : ℕ} {m : List ℕ} (hm : m.length = n) (hs : s ≤ n) {t : ℕ} (ht : t ≤ s) : (cut n s m).take t = m.take t := by
  unfold cut
  rw [List.take_append_of_le_length (by simp; omega), List.take_take, min_eq_left ht]

lemma cut_cut {s t : ℕ} {m : List ℕ} (hm : m.length = n) (hs : s ≤ n) (ht : t ≤ s) : cut n t (cut n s m) = cut n t m := by
  unfold cut
  rw [List.take_append_of_le_length (by simp; omega), List.take_take, min_eq_left ht]

lemma cut_self {m : List ℕ} (hm : m.length = n) : cut n n m = m := by
  unfold cut; rw [List.take_of_length_le (by omega)]; simp

lemma cut_inj {s : ℕ} {m m' : List ℕ} (hm : m.length = n) (hm' : m'.length = n) (hs : s ≤ n) :
    cut n s m = cut n s m' ↔ m.take s = m'.take s := by
  constructor
  · intro h
    have := congrArg (List.take s) h
    rwa [cut_take hm hs le_rfl, cut_take hm' hs le_rfl] at this
  · intro h; unfold cut; rw [h]

lemma cut_getD {s : ℕ} {m : List ℕ} (hm : m.length = n) (hs : s ≤ n) (j : ℕ) :
    (cut n s m).getD j 0 = if j < s then m.getD j 0 else 0 := by
  unfold cut
  split
  · rename_i h
    rw [List.getD_append _ _ _ _ (by simp; omega)]
    simp [List.getD_eq_getElem?_getD, List.getElem?_take, h]
  · rename_i h
    rw [List.getD_append_right _ _ _ _ (by simp; omega)]
    simp only [List.getD_eq_getElem?_getD, List.getElem?_replicate]
    split <;> rfl

lemma KK_spec {s : ℕ} (hlen : ∀ m ∈ S, m.length = n) (hs : s ≤ n) {k : List ℕ} (hk : k ∈ KK n S s) :
    k.length = n ∧ cut n s k = k ∧ ∃ m ∈ S, m.take s = k.take s ∧ cut n s m = k := by
  unfold KK at hk
  rw [Finset.mem_image] at hk
  obtain ⟨m, hm, rfl⟩ := hk
  have h := hlen m hm
  refine ⟨cut_length h hs, cut_cut h hs le_rfl, m, hm, (cut_take h hs le_rfl).symm, rfl⟩

lemma cut_mem_KK {s : ℕ} {m : List ℕ} (hm : m ∈ S) : cut n s m ∈ KK n S s := Finset.mem_image_of_mem _ hm

lemma cut_KK {s t : ℕ} (hlen : ∀ m ∈ S, m.length = n) (hs : s ≤ n) (ht : t ≤ s) {k : List ℕ} (hk : k ∈ KK n S s) :
    cut n t k ∈ KK n S t := by
  obtain ⟨h1, h2, m, hm, h3, rfl⟩ := KK_spec hlen hs hk
  rw [cut_cut (hlen m hm) hs ht]
  exact cut_mem_KK hm

lemma KK_n (hlen : ∀ m ∈ S, m.length = n) : KK n S n = S := by
  ext k
  unfold KK
  rw [Finset.mem_image]
  constructor
  · rintro ⟨m, hm, rfl⟩; rwa [cut_self (hlen m hm)]
  · intro hk; exact ⟨k, hk, cut_self (hlen k hk)⟩

lemma tl_succ {s : ℕ} (hs : s < n) (m : List ℕ) : tl n a s m = a s ^ m.getD s 0 * tl n a (s + 1) m := by
  unfold tl
  rw [Finset.prod_eq_prod_Ico_succ_bot hs]

lemma tl_n (m : List ℕ) : tl n a n m = 1 := by simp [tl]

lemma CC_n (hlen : ∀ m ∈ S, m.length = n) {k : List ℕ} (hk : k ∈ S) : CC n a S co n k = co k := by
  unfold CC
  rw [Finset.sum_eq_single_of_mem k (by simp [hk])]
  · rw [tl_n, mul_one]
  · intro m hm hne
    rw [Finset.mem_filter] at hm
    exfalso; apply hne
    have := hm.2
    rwa [List.take_of_length_le (by rw [hlen m hm.1]), List.take_of_length_le (by rw [hlen k hk])] at this

lemma slc_eval_anchor {s : ℕ} (hs : s < n) (k : List ℕ) : (slc n a S co s k).eval (a s) = CC n a S co s k := by
  unfold slc CC
  rw [eval_finset_sum]
  apply Finset.sum_congr rfl
  intro m _
  rw [eval_mul, eval_C, eval_pow, eval_X, tl_succ hs]
  ring

lemma nd_length {s : ℕ} (hs : s < n) {k : List ℕ} (hk : k.length = n) (e : ℕ) : (nd n s k e).length = n := by
  unfold nd; simp; omega

lemma nd_take_succ {s : ℕ} (hs : s < n) {k : List ℕ} (hk : k.length = n) (e : ℕ) : (nd n s k e).take (s + 1) = k.take s ++ [e] := by
  unfold nd
  rw [List.take_append, List.take_of_length_le (by simp)]
  have : s + 1 - (k.take s).length = 1 := by simp; omega
  rw [this]; simp

lemma nd_getD {s : ℕ} (hs : s < n) {k : List ℕ} (hk : k.length = n) (e : ℕ) : (nd n s k e).getD s 0 = e := by
  unfold nd
  rw [List.getD_append_right _ _ _ _ (by simp), ]
  have : s - (k.take s).length = 0 := by simp; omega
  rw [this]; simp

lemma take_succ_eq {s : ℕ} (hs : s < n) {m : List ℕ} (hm : m.length = n) : m.take (s + 1) = m.take s ++ [m.getD s 0] := by
  rw [List.take_succ, List.getElem?_eq_getElem (by omega), List.getD_eq_getElem _ _ (by omega)]; simp

lemma take_eq_of_succ {s : ℕ} {m m' : List ℕ} (h : m.take (s + 1) = m'.take (s + 1)) : m.take s = m'.take s := by
  have := congrArg (List.take s) h
  rwa [List.take_take, List.take_take, min_eq_left (by omega)] at this

lemma slc_coeff (hlen : ∀ m ∈ S, m.length = n) {s : ℕ} (hs : s < n) {k : List ℕ} (hk : k.length = n) (e : ℕ) :
    (slc n a S co s k).coeff e = CC n a S co (s + 1) (nd n s k e) := by
  unfold slc CC
  rw [finset_sum_coeff]
  simp only [coeff_C_mul, coeff_X_pow]
  have : (S.filter fun m => m.take (s + 1) = (nd n s k e).take (s + 1)) = (S.filter fun m => m.take s = k.take s).filter (fun m => e = m.getD s 0) := by
    ext m
    simp only [Finset.mem_filter]
    constructor
    · rintro ⟨h1, h2⟩
      rw [nd_take_succ hs hk, take_succ_eq hs (hlen m h1)] at h2
      have := List.append_inj h2 (by simp [hlen m h1, hk])
      exact ⟨⟨h1, this.1⟩, by simpa using this.2.symm⟩
    · rintro ⟨⟨h1, h2⟩, h3⟩
      refine ⟨h1, ?_⟩
      rw [nd_take_succ hs hk, take_succ_eq hs (hlen m h1), h2, h3]
  rw [this]
  conv_rhs => rw [Finset.sum_filter]
  apply Finset.sum_congr rfl
  intro m _
  split <;> simp_all

lemma nd_eq_cut {s : ℕ} (hs : s < n) {m k : List ℕ} (hm : m.length = n) (h : m.take s = k.take s) :
    nd n s k (m.getD s 0) = cut n (s + 1) m := by
  unfold nd cut
  rw [take_succ_eq hs hm, h]
  simp [Nat.sub_sub]

lemma nd_cut_self {s : ℕ} (hs : s < n) {k k' : List ℕ} (hk : k'.length = n) (h : cut n (s + 1) k' = k') (h' : cut n s k' = cut n s k) (hk2 : k.length = n) :
    nd n s k (k'.getD s 0) = k' := by
  rw [nd_eq_cut hs hk ((cut_inj hk hk2 (by omega)).mp h'), h]

lemma cut_nd {s : ℕ} (hs : s < n) {k : List ℕ} (hk : k.length = n) (e : ℕ) : cut n s (nd n s k e) = cut n s k := by
  rw [cut_inj (nd_length hs hk e) hk (by omega)]
  have := nd_take_succ hs hk e
  have h2 := congrArg (List.take s) this
  rw [List.take_take, min_eq_left (by omega)] at h2
  rw [h2, List.take_append_of_le_length (by simp; omega), List.take_take, min_self]

lemma nd_inj {s : ℕ} (hs : s < n) {k : List ℕ} (hk : k.length = n) {e e' : ℕ} (h : nd n s k e = nd n s k e') : e = e' := by
  rw [← nd_getD hs hk e, h, nd_getD hs hk]

lemma hd_succ (s : ℕ) (o : ℕ → ℕ) (m : List ℕ) : hd a (s + 1) o m = hd a s o m * (a s ^ o s) ^ m.getD s 0 := by
  unfold hd; rw [Finset.prod_range_succ]

lemma hd_cut {s t : ℕ} (hst : s ≤ t) (ht : t ≤ n) (o : ℕ → ℕ) {m : List ℕ} (hm : m.length = n) : hd a s o (cut n t m) = hd a s o m := by
  unfold hd
  apply Finset.prod_congr rfl
  intro j hj
  rw [Finset.mem_range] at hj
  rw [cut_getD hm ht, if_pos (by omega)]

/-- (4) the slice as a sum over the keys of the next stage -/
lemma slc_eval (hlen : ∀ m ∈ S, m.length = n) {s : ℕ} (hs : s < n) {k : List ℕ} (hk : k ∈ KK n S s) (x : F) :
    (slc n a S co s k).eval x = ∑ k' ∈ KK n S (s + 1) with cut n s k' = k, CC n a S co (s + 1) k' * x ^ k'.getD s 0 := by
  obtain ⟨hkl, hkc, -⟩ := KK_spec hlen (by omega) hk
  unfold slc
  rw [eval_finset_sum]
  rw [← Finset.sum_fiberwise_of_maps_to (t := (KK n S (s + 1)).filter (fun k' => cut n s k' = k)) (g := cut n (s + 1))]
  · apply Finset.sum_congr rfl
    intro k' hk'
    rw [Finset.mem_filter] at hk'
    obtain ⟨h1, h2, -⟩ := KK_spec hlen (by omega) hk'.1
    unfold CC
    rw [Finset.sum_mul]
    have : (S.filter fun m => m.take s = k.take s).filter (fun m => cut n (s + 1) m = k') = S.filter (fun m => m.take (s + 1) = k'.take (s + 1)) := by
      ext m
      simp only [Finset.mem_filter]
      constructor
      · rintro ⟨⟨h3, h4⟩, h5⟩
        exact ⟨h3, (cut_inj (hlen m h3) h1 (by omega)).mp (by rw [h5, h2])⟩
      · rintro ⟨h3, h4⟩
        refine ⟨⟨h3, ?_⟩, ?_⟩
        · rw [take_eq_of_succ h4]
          exact (cut_inj h1 hkl (by omega)).mp (by rw [hk'.2, hkc])
        · rw [(cut_inj (hlen m h3) h1 (by omega)).mpr h4, h2]
    rw [this]
    apply Finset.sum_congr rfl
    intro m hm
    rw [Finset.mem_filter] at hm
    rw [eval_mul, eval_C, eval_pow, eval_X]
    have h6 := congrArg (fun l : List ℕ => l.getD s 0) hm.2
    simp only [List.getD_eq_getElem?_getD, List.getElem?_take] at h6
    rw [if_pos (by omega), if_pos (by omega)] at h6
    rw [List.getD_eq_getElem?_getD, List.getD_eq_getElem?_getD, h6]
  · intro m hm
    rw [Finset.mem_filter] at hm ⊢
    refine ⟨cut_mem_KK hm.1, ?_⟩
    rw [cut_cut (hlen m hm.1) (by omega) (by omega), ← hkc]
    exact (cut_inj (hlen m hm.1) hkl (by omega)).mpr hm.2

/-- value of the polynomial at the orders `o` -/
def val (n : ℕ) (a : ℕ → F) (S : Finset (List ℕ)) (co : List ℕ → F) (o : ℕ → ℕ) : F := ∑ m ∈ S, co m * hd a n o m

/-- (3) the value at orders that are 1 from `s` on, as a sum over the keys of stage `s` -/
lemma val_keys (hlen : ∀ m ∈ S, m.length = n) {s : ℕ} (hs : s ≤ n) (o : ℕ → ℕ) (ho : ∀ j, s ≤ j → j < n → o j = 1) :
    val n a S co o = ∑ k ∈ KK n S s, CC n a S co s k * hd a s o k := by
  unfold val
  rw [← Finset.sum_fiberwise_of_maps_to (t := KK n S s) (g := cut n s) (fun m hm => cut_mem_KK hm)]
  apply Finset.sum_congr rfl
  intro k hk
  obtain ⟨h1, h2, -⟩ := KK_spec hlen hs hk
  unfold CC
  rw [Finset.sum_mul]
  have : S.filter (fun m => cut n s m = k) = S.filter (fun m => m.take s = k.take s) := by
    ext m
    simp only [Finset.mem_filter]
    constructor
    · rintro ⟨h3, h4⟩
      exact ⟨h3, (cut_inj (hlen m h3) h1 hs).mp (by rw [h4, h2])⟩
    · rintro ⟨h3, h4⟩
      exact ⟨h3, by rw [(cut_inj (hlen m h3) h1 hs).mpr h4, h2]⟩
  rw [this]
  apply Finset.sum_congr rfl
  intro m hm
  rw [Finset.mem_filter] at hm
  have hml := hlen m hm.1
  have e1 : hd a s o k = hd a s o m := by
    rw [← hd_cut (a := a) (le_refl s) hs o hml, ← hd_cut (a := a) (le_refl s) hs o h1]
    rw [(cut_inj hml h1 hs).mpr hm.2]
  rw [e1, mul_assoc]
  congr 1
  have : hd a n o m = hd a s o m * ∏ j ∈ Finset.Ico s n, (a j ^ o j) ^ m.getD j 0 := by
    unfold hd
    rw [Finset.prod_range_mul_prod_Ico _ hs]
  rw [this, mul_comm]
  congr 1
  unfold tl
  apply Finset.prod_congr rfl
  intro j hj
  rw [Finset.mem_Ico] at hj
  rw [ho j hj.1 hj.2, pow_one]

/-- what remains of the value when the finished keys are subtracted -/
lemma residual (hlen : ∀ m ∈ S, m.length = n) {s : ℕ} (hs : s < n) (o : ℕ → ℕ) (ho : ∀ j, s + 1 ≤ j → j < n → o j = 1)
    (R : Finset (List ℕ)) (hR : R ⊆ KK n S s) :
    val n a S co o - ∑ k' ∈ KK n S (s + 1) with cut n s k' ∉ R, CC n a S co (s + 1) k' * hd a (s + 1) o k' =
      ∑ k ∈ R, hd a s o k * (slc n a S co s k).eval (a s ^ o s) := by
  rw [val_keys hlen (show s + 1 ≤ n by omega) o ho, ← Finset.sum_filter_add_sum_filter_not (KK n S (s + 1)) (fun k' => cut n s k' ∉ R),
    add_sub_cancel_left]
  rw [← Finset.sum_fiberwise_of_maps_to (t := R) (g := cut n s)]
  · apply Finset.sum_congr rfl
    intro k hk
    obtain ⟨h1, h2, -⟩ := KK_spec hlen (by omega) (hR hk)
    rw [slc_eval hlen hs (hR hk), Finset.mul_sum]
    have : ((KK n S (s + 1)).filter (fun k' => ¬ (cut n s k' ∉ R))).filter (fun k' => cut n s k' = k) =
        (KK n S (s + 1)).filter (fun k' => cut n s k' = k) := by
      ext k'
      simp only [Finset.mem_filter, not_not]
      constructor
      · rintro ⟨⟨h3, -⟩, h4⟩; exact ⟨h3, h4⟩
      · rintro ⟨h3, h4⟩; exact ⟨⟨h3, h4 ▸ hk⟩, h4⟩
    rw [this]
    apply Finset.sum_congr rfl
    intro k' hk'
    rw [Finset.mem_filter] at hk'
    obtain ⟨h3, h4, -⟩ := KK_spec hlen (by omega) hk'.1
    rw [hd_succ]
    have : hd a s o k' = hd a s o k := by
      rw [← hk'.2, hd_cut le_rfl (by omega) o h3]
    rw [this]
    ring
  · intro k' hk'
    rw [Finset.mem_filter] at hk'
    simpa using hk'.2

lemma slc_zero_val (hlen : ∀ m ∈ S, m.length = n) (hn : 0 < n) (o : ℕ → ℕ) (ho : ∀ j, 1 ≤ j → j < n → o j = 1) (k : List ℕ) :
    val n a S co o = (slc n a S co 0 k).eval (a 0 ^ o 0) := by
  unfold val slc
  rw [eval_finset_sum]
  have : S.filter (fun m => m.take 0 = k.take 0) = S := by simp
  rw [this]
  apply Finset.sum_congr rfl
  intro m hm
  rw [eval_mul, eval_C, eval_pow, eval_X, mul_assoc]
  congr 1
  unfold hd tl
  rw [Finset.range_eq_Ico, Finset.prod_eq_prod_Ico_succ_bot hn, mul_comm]
  congr 1
  apply Finset.prod_congr rfl
  intro j hj
  rw [Finset.mem_Ico] at hj
  rw [ho j (by omega) hj.2, pow_one]

end
end FireFly.MPoly
