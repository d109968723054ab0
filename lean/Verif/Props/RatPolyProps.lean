import Verif.Model.RatPoly
import Verif.Props.CompareProps
import Verif.Props.ShiftProps
import Verif.Props.RationalProps
import Verif.Props.PolyProps
set_option linter.all false
/-! # C70: monomials and polynomials with rational coefficients -/
namespace FireFly.RatPoly
open MvPolynomial

/-! ## Specification -/

/-- Specification: the polynomial over the rational numbers that is denoted. -/
noncomputable def polyOf (f : Polynomial) : MvPolynomial ℕ ℚ :=
  denote (f.coefs.map fun t => (t.1, t.2.val))

/-- Specification: a well-formed polynomial in `n` variables: exponent vectors of length `n`, none
twice, and every coefficient a fraction in lowest terms with positive denominator. -/
def WF (n : ℕ) (f : Polynomial) : Prop := WFMap n f.coefs ∧ ∀ t ∈ f.coefs, t.2.Valid

/-- Specification: at the first position where the vectors differ, `a` has the larger entry. -/
def LexGt (a b : List ℕ) : Prop :=
  ∃ i < a.length, a.getD i 0 > b.getD i 0 ∧ ∀ j < i, a.getD j 0 = b.getD j 0

/-- Specification: what `std::sort` may return: the elements in an order in which no element is
smaller than an earlier one, for the comparison that `sort` passes. -/
def SortResult (l l' : List Mono) : Prop :=
  l'.Perm l ∧ l'.Pairwise fun a b => aGrtB a.1 b.1 = false

/-! ## Comparison of monomials -/

lemma lexLt_irrefl (a : List ℕ) : lexLt a a = false := by
  induction a with
  | nil => rfl
  | cons x xs ih => simp [lexLt, ih]

lemma lexLt_trans : ∀ a b c : List ℕ, lexLt a b = true → lexLt b c = true → lexLt a c = true
  | _, [], _, h, _ => by simp [lexLt] at h
  | _, _ :: _, [], _, h => by simp [lexLt] at h
  | [], _ :: _, _ :: _, _, _ => rfl
  | a :: as, b :: bs, c :: cs, h1, h2 => by
    simp only [lexLt] at h1 h2 ⊢
    split_ifs at h1 h2 ⊢ <;> first | rfl | omega | exact lexLt_trans as bs cs h1 h2 | simp_all

lemma lexLt_connected : ∀ a b : List ℕ, a ≠ b → lexLt a b = true ∨ lexLt b a = true
  | [], [], h => absurd rfl h
  | [], _ :: _, _ => Or.inl rfl
  | _ :: _, [], _ => Or.inr rfl
  | a :: as, b :: bs, h => by
    simp only [lexLt]
    rcases lt_trichotomy a b with hab | rfl | hab
    · simp [hab]
    · simp only [lt_irrefl, if_false]
      exact lexLt_connected as bs fun e => h (by rw [e])
    · simp [hab]

lemma lexLt_iff : ∀ a b : List ℕ, a.length = b.length → (lexLt b a = true ↔ LexGt a b)
  | [], [], _ => by simp [lexLt, LexGt]
  | a :: as, b :: bs, h => by
    have ih := lexLt_iff as bs (by simpa using h)
    simp only [lexLt]
    constructor
    · intro h1
      rcases lt_trichotomy b a with hab | rfl | hab
      · exact ⟨0, by simp, by simpa using hab, by simp⟩
      · simp only [lt_irrefl, if_false] at h1
        obtain ⟨i, hi, h2, h3⟩ := ih.mp h1
        refine ⟨i + 1, by simpa using hi, by simpa using h2, fun j hj => ?_⟩
        cases j with
        | zero => simp
        | succ j => simpa using h3 j (by omega)
      · rw [if_neg (by omega), if_pos hab] at h1; cases h1
    · rintro ⟨i, hi, h2, h3⟩
      cases i with
      | zero => simp only [List.getD_cons_zero] at h2; simp [h2]
      | succ i =>
        have h0 : a = b := by simpa using h3 0 (by omega)
        subst h0
        simp only [lt_irrefl, if_false]
        refine ih.mpr ⟨i, by simpa using hi, by simpa using h2, fun j hj => ?_⟩
        simpa using h3 (j + 1) (by omega)

lemma degs2_eq {a b : List ℕ} (h : a.length = b.length) : degs2 a b = some (degSum a, degSum b) := by
  unfold degs2; rw [if_neg (by omega), h, List.take_length]

lemma lt_eq {a b : Mono} (h : a.1.length = b.1.length) :
    lt a b = some (if degSum a.1 < degSum b.1 then true else degSum a.1 == degSum b.1 && lexLt b.1 a.1) := by
  unfold lt; rw [degs2_eq h]; rfl

/-- C70: on exponent vectors of one length the comparison `<` of monomials is defined and a strict
total order that does not look at the coefficients — also when the sums of the degrees overflow. -/
theorem C70_less_strict_total (n : ℕ) (c : List ℕ → RationalNumber) :
    (∀ a b : Mono, a.1.length = n → b.1.length = n →
      ∃ v, lt a b = some v ∧ lt (a.1, c a.1) (b.1, c b.1) = some v) ∧
    StrictTotalOn n (fun a b => lt (a, c a) (b, c b) == some true) := by
  refine ⟨fun a b ha hb => ⟨_, lt_eq (by omega), lt_eq (by simp only; omega)⟩, ?_, ?_, ?_⟩
  · intro a ha
    simp only [lt_eq (a := (a, c a)) (b := (a, c a)) rfl]
    simp [lexLt_irrefl]
  · intro x y z hx hy hz h1 h2
    simp only [lt_eq (a := (x, c x)) (b := (y, c y)) (by simp only; omega),
      lt_eq (a := (y, c y)) (b := (z, c z)) (by simp only; omega),
      lt_eq (a := (x, c x)) (b := (z, c z)) (by simp only; omega), beq_iff_eq, Option.some.injEq] at h1 h2 ⊢
    split_ifs at h1 h2 ⊢ <;> try omega
    all_goals simp only [Bool.and_eq_true, beq_iff_eq] at h1 h2 ⊢
    all_goals try omega
    exact ⟨by omega, lexLt_trans z y x h2.2 h1.2⟩
  · intro x y hx hy hne
    simp only [lt_eq (a := (x, c x)) (b := (y, c y)) (by simp only; omega),
      lt_eq (a := (y, c y)) (b := (x, c x)) (by simp only; omega), beq_iff_eq, Option.some.injEq]
    rcases lt_trichotomy (degSum x) (degSum y) with h | h | h
    · left; simp [h]
    · rcases lexLt_connected x y hne with h1 | h1
      · right; simp [h, h1]
      · left; simp [h, h1]
    · right; simp [h]

/-- C70: `>` is `<` with the operands exchanged. -/
theorem C70_greater (a b : Mono) (h : a.1.length = b.1.length) : gt a b = lt b a := by
  unfold gt lt
  rw [degs2_eq h, degs2_eq h.symm]
  simp only [Option.map_some, Option.some.injEq]
  rcases lt_trichotomy (degSum a.1) (degSum b.1) with h1 | h1 | h1
  · have h3 : ¬ degSum b.1 < degSum a.1 := by omega
    rw [if_neg (by omega), if_neg h3, beq_false_of_ne h1.ne, beq_false_of_ne h1.ne']
  · simp [h1]
  · simp [h1]

lemma degSum_small {a : List ℕ} (h : a.sum < 2 ^ 32) : degSum a = a.sum := by
  have : ∀ (l : List ℕ) (s : ℕ), s + l.sum < 2 ^ 32 →
      l.foldl (fun s e => (s + e) % 2 ^ 32) s = s + l.sum := by
    intro l
    induction l with
    | nil => intro s _; rfl
    | cons x xs ih =>
      intro s hs
      simp only [List.sum_cons] at hs
      rw [List.foldl_cons, Nat.mod_eq_of_lt (by omega), ih _ (by omega), List.sum_cons]; omega
  simpa [degSum] using this a 0 (by simpa using h)

/-- C70: when the total degrees fit into 32 bits, the smaller monomial is the one of smaller total
degree, and among equal degrees the one whose exponent is larger at the first difference. -/
theorem C70_less_means (a b : Mono) (h : a.1.length = b.1.length) (ha : a.1.sum < 2 ^ 32)
    (hb : b.1.sum < 2 ^ 32) :
    lt a b = some true ↔ a.1.sum < b.1.sum ∨ a.1.sum = b.1.sum ∧ LexGt a.1 b.1 := by
  rw [lt_eq h, degSum_small ha, degSum_small hb, Option.some.injEq, ← lexLt_iff _ _ h]
  split_ifs with h1
  · simp [h1]
  · simp [h1]

/-! ## Arithmetic of monomials -/

lemma polyOf_ofMono (a : Mono) : polyOf (ofMono a) = monomial a.1.toFinsupp a.2.val := by
  simp [polyOf, ofMono, denote]

lemma toFinsupp_add_list {a b : List ℕ} (h : a.length = b.length) :
    ((List.range a.length).map fun i => a.getD i 0 + b.getD i 0).toFinsupp = a.toFinsupp + b.toFinsupp := by
  ext i
  simp only [List.toFinsupp_apply, Finsupp.add_apply]
  rcases Nat.lt_or_ge i a.length with hi | hi
  · rw [List.getD_eq_getElem _ _ (by simpa using hi)]; simp
  · rw [List.getD_eq_default _ _ (by simpa using hi), List.getD_eq_default _ _ hi,
      List.getD_eq_default _ _ (by omega), Nat.add_zero]

/-- C70: without overflow of an exponent, `*` is the product of the monomials. -/
theorem C70_mul (a b : Mono) (h : a.1.length = b.1.length) (ha : a.2.Valid) (hb : b.2.Valid)
    (hov : ∀ i < a.1.length, a.1.getD i 0 + b.1.getD i 0 < 2 ^ 32) :
    ∃ r, mul a b = some r ∧ WF a.1.length (ofMono r) ∧
      polyOf (ofMono r) = polyOf (ofMono a) * polyOf (ofMono b) := by
  obtain ⟨c, h1, h2, h3⟩ := C12_mul ha hb
  have hl : (List.range a.1.length).map (fun i => (a.1.getD i 0 + b.1.getD i 0) % 2 ^ 32) =
      (List.range a.1.length).map (fun i => a.1.getD i 0 + b.1.getD i 0) := by
    apply List.map_congr_left
    intro i hi
    exact Nat.mod_eq_of_lt (hov i (List.mem_range.mp hi))
  refine ⟨_, by unfold mul; rw [if_neg (by omega), h1]; rfl, ⟨⟨by simp [ofMono], by simp [ofMono]⟩, by simpa [ofMono] using h2⟩, ?_⟩
  rw [polyOf_ofMono, polyOf_ofMono, polyOf_ofMono, monomial_mul, h3]
  show monomial (List.toFinsupp _) _ = _
  rw [hl, toFinsupp_add_list h]

/-- C70: the unary minus. -/
theorem C70_neg (a : Mono) (ha : a.2.Valid) :
    ∃ r, neg a = some r ∧ WF a.1.length (ofMono r) ∧ polyOf (ofMono r) = -polyOf (ofMono a) := by
  obtain ⟨c, h1, h2, h3⟩ := C12_ctor (-a.2.num) a.2.den ha.1.ne'
  refine ⟨(a.1, c), by unfold neg RationalNumber.neg; rw [h1]; rfl, ⟨⟨by simp [ofMono], by simp [ofMono]⟩, by simpa [ofMono] using h2⟩, ?_⟩
  rw [polyOf_ofMono, polyOf_ofMono, ← map_neg]
  congr 1
  rw [h3]; simp [RationalNumber.val, neg_div]

/-! ## Construction, sorting, scaling, the test for zero -/

/-- C70: the constructors. The polynomial built from a map is that of the map, whatever the order of
iteration, and its number of variables is the length of the exponents. -/
theorem C70_of_map {n : ℕ} (m : List (List ℕ × RationalNumber)) (hm : WFMap n m) (hne : m ≠ [])
    (hv : ∀ t ∈ m, t.2.Valid) :
    (ofMap m).n = n ∧ WF n (ofMap m) ∧ polyOf (ofMap m) = denote (m.map fun t => (t.1, t.2.val)) ∧
    ∀ m', m'.Perm m → polyOf (ofMap m') = polyOf (ofMap m) := by
  refine ⟨?_, ⟨hm, hv⟩, rfl, fun m' hp => denote_perm (hp.map _)⟩
  cases m with
  | nil => exact absurd rfl hne
  | cons t ts => exact hm.2 t (by simp)

lemma grt_total (n : ℕ) : StrictTotalOn n aGrtB := C27_a_grt_b_strict_total n

lemma nodup_of_keys {α : Type} {l : List (List ℕ × α)} (h : (l.map Prod.fst).Nodup) : l.Nodup := h.of_map _

lemma key_inj {α : Type} {l : List (List ℕ × α)} (h : (l.map Prod.fst).Nodup) {a b : List ℕ × α} (ha : a ∈ l)
    (hb : b ∈ l) (e : a.1 = b.1) : a = b := List.inj_on_of_nodup_map h ha hb e

/-- The sort of a well-formed list is strictly increasing. -/
lemma sorted_coefs {n : ℕ} {l : List Mono} (h : WFMap n l) :
    (stdSort (fun a b : Mono => aGrtB b.1 a.1) l).Pairwise fun a b => aGrtB b.1 a.1 = true := by
  refine stdSort_sorted (P := fun a => a ∈ l) ?_ ?_ l (fun a ha => ha) (nodup_of_keys h.1)
  · intro a b c ha hb hc h1 h2
    exact (grt_total n).trans c.1 b.1 a.1 (h.2 c hc) (h.2 b hb) (h.2 a ha) h2 h1
  · intro a b ha hb hne
    exact (grt_total n).connected b.1 a.1 (h.2 b hb) (h.2 a ha)
      fun e => hne (key_inj h.1 ha hb e.symm)

/-- C70: `sort` keeps the polynomial, the number of variables and the well-formedness, and puts the
monomials into the strictly increasing order in which the last differing exponent decides. -/
theorem C70_sort {n : ℕ} (f : Polynomial) (h : WF n f) :
    WF n (sort f) ∧ (sort f).n = f.n ∧ polyOf (sort f) = polyOf f ∧ (sort f).coefs.Perm f.coefs ∧
    (sort f).coefs.Pairwise fun a b => ColexGt b.1 a.1 := by
  have hp : (sort f).coefs.Perm f.coefs := stdSort_perm _ _
  refine ⟨⟨⟨(hp.map _).nodup_iff.mpr h.1.1, fun t ht => h.1.2 t (hp.mem_iff.mp ht)⟩,
    fun t ht => h.2 t (hp.mem_iff.mp ht)⟩, rfl, denote_perm (hp.map _), hp, ?_⟩
  exact (sorted_coefs h.1).imp fun hab => (C27_a_grt_b_colex _ _).mp hab

/-- C70: whatever `std::sort` does within its contract, it returns that list. -/
theorem C70_sort_unique {n : ℕ} (f : Polynomial) (h : WF n f) (l : List Mono)
    (hl : SortResult f.coefs l) : l = (sort f).coefs := by
  have hs := sorted_coefs h.1
  have hp : (sort f).coefs.Perm f.coefs := stdSort_perm _ _
  have hnd : l.Nodup := hl.1.nodup_iff.mpr (nodup_of_keys h.1.1)
  have hs' : l.Pairwise fun a b => aGrtB b.1 a.1 = true := by
    refine (hl.2.and hnd).imp_of_mem fun {a b} ha hb hab => ?_
    have ha' := hl.1.mem_iff.mp ha
    have hb' := hl.1.mem_iff.mp hb
    rcases (grt_total n).connected a.1 b.1 (h.1.2 a ha') (h.1.2 b hb')
      (fun e => hab.2 (key_inj h.1.1 ha' hb' e)) with h1 | h1
    · rw [hab.1] at h1; cases h1
    · exact h1
  refine List.Perm.eq_of_pairwise (le := fun a b : Mono => aGrtB b.1 a.1 = true) ?_ hs' hs (hl.1.trans hp.symm)
  intro a b ha hb h1 h2
  have ha' := hl.1.mem_iff.mp ha
  have := (grt_total n).trans a.1 b.1 a.1 (h.1.2 a ha') (h.1.2 b (hp.mem_iff.mp hb)) (h.1.2 a ha') h2 h1
  rw [(grt_total n).irrefl a.1 (h.1.2 a ha')] at this; cases this

/-- C70: the order of the monomials after `sort` does not depend on the order before. -/
theorem C70_sort_order {n : ℕ} (f g : Polynomial) (h : WF n f) (hp : f.coefs.Perm g.coefs) :
    (sort f).coefs = (sort g).coefs := by
  have hg : WF n g := ⟨⟨(hp.map _).nodup_iff.mp h.1.1, fun t ht => h.1.2 t (hp.mem_iff.mpr ht)⟩,
    fun t ht => h.2 t (hp.mem_iff.mpr ht)⟩
  obtain ⟨hw, -, -, hq, hs⟩ := C70_sort f h
  refine C70_sort_unique g hg _ ⟨hq.trans hp, hs.imp_of_mem fun {a b} ha hb hab => ?_⟩
  have ha' := hw.1.2 a ha
  have hb' := hw.1.2 b hb
  by_contra hc
  rw [Bool.not_eq_false] at hc
  have := (grt_total n).trans a.1 b.1 a.1 ha' hb' ha' hc ((C27_a_grt_b_colex _ _).mpr hab)
  rw [(grt_total n).irrefl a.1 ha'] at this; cases this

/-- C70: `clear` leaves the zero polynomial. -/
theorem C70_clear (f : Polynomial) : polyOf (clear f) = 0 ∧ zero (clear f) = true := ⟨rfl, rfl⟩

/-- C70: `*=` multiplies every coefficient, keeps the monomials in their order, and leaves reduced
fractions. -/
theorem C70_scale {n : ℕ} (f : Polynomial) (h : WF n f) (r : RationalNumber) (hr : r.Valid) :
    ∃ g, scale f r = some g ∧ WF n g ∧ g.n = f.n ∧ g.coefs.map Prod.fst = f.coefs.map Prod.fst ∧
      polyOf g = C r.val * polyOf f := by
  have key : ∀ l : List Mono, (∀ t ∈ l, t.2.Valid) →
      ∃ l', (l.mapM fun t : Mono => (t.2.mulAssign r).map fun c => (t.1, c)) = some l' ∧
        l'.map Prod.fst = l.map Prod.fst ∧ (∀ t ∈ l', t.2.Valid) ∧
        denote (l'.map fun t => (t.1, t.2.val)) = C r.val * denote (l.map fun t => (t.1, t.2.val)) := by
    intro l
    induction l with
    | nil => intro _; exact ⟨[], rfl, rfl, by simp, by simp [denote]⟩
    | cons t ts ih =>
      intro hv
      obtain ⟨l', h1, h2, h3, h4⟩ := ih fun t ht => hv t (by simp [ht])
      obtain ⟨c, e1, e2, e3⟩ := C12_mul (hv t (by simp)) hr
      refine ⟨(t.1, c) :: l', by simp [List.mapM_cons, e1, h1], by simp [h2], ?_, ?_⟩
      · intro u hu
        rcases List.mem_cons.mp hu with rfl | hu
        · exact e2
        · exact h3 u hu
      · simp only [denote, List.map_cons, List.sum_cons, List.map_map] at h4 ⊢
        rw [h4, mul_add, C_mul_monomial, e3, mul_comm r.val]
  obtain ⟨l', h1, h2, h3, h4⟩ := key f.coefs h.2
  refine ⟨{ f with coefs := l' }, by unfold scale; rw [h1]; rfl, ⟨⟨by rw [h2]; exact h.1.1, fun t ht => ?_⟩, h3⟩, rfl, h2, h4⟩
  have : t.1 ∈ f.coefs.map Prod.fst := by rw [← h2]; exact List.mem_map_of_mem ht
  obtain ⟨u, hu, e⟩ := List.mem_map.mp this
  rw [← e]; exact h.1.2 u hu

lemma coeff_polyOf {n : ℕ} {f : Polynomial} (h : WF n f) {t : Mono} (ht : t ∈ f.coefs) :
    coeff t.1.toFinsupp (polyOf f) = t.2.val := by
  have hn := h.1.1
  have hlen := h.1.2
  unfold polyOf denote
  clear h
  obtain ⟨n', cf, vp⟩ := f
  simp only at ht hn hlen ⊢
  induction cf with
  | nil => simp at ht
  | cons u us ih =>
    simp only [List.map_cons, List.nodup_cons] at hn
    have hinj : ∀ v ∈ us, v.1.toFinsupp = u.1.toFinsupp → v.1 = u.1 := by
      intro v hv e
      have hl : v.1.length = u.1.length := by
        rw [hlen v (by simp [hv]), hlen u (by simp)]
      refine List.ext_getElem hl fun i h1 h2 => ?_
      have := DFunLike.congr_fun e i
      simpa [List.toFinsupp_apply, h1, h2] using this
    rw [List.map_cons, List.map_cons, List.sum_cons, coeff_add]
    rcases List.mem_cons.mp ht with rfl | ht'
    · have hz : ∀ l : List Mono, (∀ v ∈ l, v.1.toFinsupp ≠ t.1.toFinsupp) →
          coeff t.1.toFinsupp ((l.map fun t => (t.1, t.2.val)).map fun t => monomial t.1.toFinsupp t.2).sum = 0 := by
        intro l
        induction l with
        | nil => intro _; simp
        | cons v vs ihv =>
          intro hh
          simp only [List.map_cons, List.sum_cons, coeff_add]
          rw [ihv fun w hw => hh w (by simp [hw]), coeff_monomial, if_neg (hh v (by simp)), zero_add]
      rw [hz us fun v hv e => hn.1 (by rw [← hinj v hv e]; exact List.mem_map_of_mem hv), coeff_monomial, if_pos rfl, add_zero]
    · rw [ih ht' hn.2 fun v hv => hlen v (by simp [hv]), coeff_monomial, if_neg, zero_add]
      intro e
      exact hn.1 (by rw [← hinj t ht' e.symm]; exact List.mem_map_of_mem ht')

/-- C70: `zero()` is only said of the zero polynomial, and it is said of it whenever no monomial with
coefficient zero is stored, or at most one monomial. -/
theorem C70_zero {n : ℕ} (f : Polynomial) (h : WF n f) :
    (zero f = true → polyOf f = 0) ∧
    ((∀ t ∈ f.coefs, t.2.num ≠ 0) → (zero f = true ↔ polyOf f = 0)) ∧
    (f.coefs.length ≤ 1 → (zero f = true ↔ polyOf f = 0)) := by
  have h1 : zero f = true → polyOf f = 0 := by
    unfold zero polyOf
    cases hc : f.coefs with
    | nil => intro _; simp [denote]
    | cons t ts =>
      cases ts with
      | nil => intro h; simp [denote, RationalNumber.val, eq_of_beq h]
      | cons _ _ => intro h; cases h
  have h2 : ∀ t ∈ f.coefs, polyOf f = 0 → t.2.num = 0 := by
    intro t ht h0
    have := coeff_polyOf h ht
    rw [h0, coeff_zero] at this
    have hd := (h.2 t ht).1
    unfold RationalNumber.val at this
    rcases div_eq_zero_iff.mp this.symm with h2 | h2
    · exact_mod_cast h2
    · exact absurd (by exact_mod_cast h2) hd.ne'
  refine ⟨h1, fun hnz => ⟨h1, fun h0 => ?_⟩, fun hlen => ⟨h1, fun h0 => ?_⟩⟩
  rotate_left
  · cases hc : f.coefs with
    | nil => unfold zero; rw [hc]
    | cons t ts =>
      rw [hc] at hlen
      obtain rfl : ts = [] := List.length_eq_zero_iff.mp (by simpa using hlen)
      have h3 := h2 t (by rw [hc]; exact List.mem_cons_self) h0
      unfold zero; rw [hc]
      simp [h3]
  cases hc : f.coefs with
  | nil => unfold zero; rw [hc]
  | cons t ts =>
    exfalso
    have ht : t ∈ f.coefs := by rw [hc]; simp
    have := coeff_polyOf h ht
    rw [h0, coeff_zero] at this
    have hd := (h.2 t ht).1
    unfold RationalNumber.val at this
    rcases div_eq_zero_iff.mp this.symm with h2 | h2
    · exact hnz t ht (by exact_mod_cast h2)
    · exact hd.ne' (by exact_mod_cast h2)

/-- C70: setting the position of the variable of a univariate factor changes nothing else: it can be read back, and neither the
polynomial nor its well-formedness depends on it. -/
theorem C70_var_pos {n : ℕ} (f : Polynomial) (v : Option ℕ) :
    (setVarPos f v).varPos = v ∧ polyOf (setVarPos f v) = polyOf f ∧ (setVarPos f v).n = f.n ∧
      (WF n (setVarPos f v) ↔ WF n f) := ⟨rfl, rfl, rfl, Iff.rfl⟩

/-- C70, defect: a polynomial of two monomials multiplied by zero is zero, but `zero()` says no. -/
theorem C70_zero_missed :
    ∃ f g : Polynomial, WF 1 f ∧ scale f ⟨0, 1⟩ = some g ∧ WF 1 g ∧ polyOf g = 0 ∧ zero g = false := by
  refine ⟨⟨1, [([0], ⟨1, 1⟩), ([1], ⟨1, 1⟩)], none⟩, ⟨1, [([0], ⟨0, 1⟩), ([1], ⟨0, 1⟩)], none⟩, ?_, by rfl, ?_, ?_, rfl⟩
  · exact ⟨⟨by decide, by decide⟩, by intro t ht; simp at ht; rcases ht with rfl | rfl <;> exact ⟨by decide, by decide⟩⟩
  · exact ⟨⟨by decide, by decide⟩, by intro t ht; simp at ht; rcases ht with rfl | rfl <;> exact ⟨by decide, by decide⟩⟩
  · simp [polyOf, denote, RationalNumber.val]

/-! ## The image in a prime field -/

section Field
variable (p : ℕ) [hp : Fact p.Prime]

/-- The image of a stored coefficient. -/
def im (c : RationalNumber) : ZMod p := (c.num : ZMod p) / (c.den : ZMod p)

lemma emplace_fold (l : List Mono) : ∀ m : FFMap (ZMod p), (∀ t ∈ l, m.find? t.1 = none) →
    (l.map Prod.fst).Nodup →
    l.foldl (fun m c =>
      let v : ZMod p := (c.2.num : ZMod p) / (c.2.den : ZMod p)
      if v ≠ 0 then m.emplace c.1 v else m) m =
    m ++ (l.filter fun c => im p c.2 ≠ 0).map fun c => (c.1, im p c.2) := by
  induction l with
  | nil => intro m _ _; simp
  | cons c cs ih =>
    intro m hm hn
    simp only [List.map_cons, List.nodup_cons] at hn
    rw [List.foldl_cons]
    by_cases hv : im p c.2 ≠ 0
    · have e1 : (let v : ZMod p := (c.2.num : ZMod p) / (c.2.den : ZMod p)
          if v ≠ 0 then m.emplace c.1 v else m) = m ++ [(c.1, im p c.2)] := by
        show (if im p c.2 ≠ 0 then m.emplace c.1 (im p c.2) else m) = _
        rw [if_pos hv]
        unfold FFMap.emplace
        rw [hm c (by simp)]; rfl
      rw [e1, ih _ _ hn.2, List.filter_cons_of_pos (by simpa using hv), List.map_cons, List.append_assoc]
      · rfl
      · intro t ht
        have h1 := hm t (by simp [ht])
        unfold FFMap.find? at h1 ⊢
        rw [List.lookup_append, h1]
        have : t.1 ≠ c.1 := fun e => hn.1 (by rw [← e]; exact List.mem_map_of_mem ht)
        simp [List.lookup, beq_false_of_ne this]
    · have e1 : (let v : ZMod p := (c.2.num : ZMod p) / (c.2.den : ZMod p)
          if v ≠ 0 then m.emplace c.1 v else m) = m := by
        show (if im p c.2 ≠ 0 then m.emplace c.1 (im p c.2) else m) = _
        rw [if_neg hv]
      rw [e1, ih _ (fun t ht => hm t (by simp [ht])) hn.2, List.filter_cons_of_neg (by simpa using hv)]

lemma denote_filter (l : List Mono) :
    denote ((l.filter fun c => im p c.2 ≠ 0).map fun c => (c.1, im p c.2)) =
      denote (l.map fun c => (c.1, im p c.2)) := by
  unfold denote
  induction l with
  | nil => rfl
  | cons c cs ih =>
    by_cases hv : im p c.2 ≠ 0
    · rw [List.filter_cons_of_pos (by simpa using hv)]
      simp only [List.map_cons, List.sum_cons, ih]
    · rw [List.filter_cons_of_neg (by simpa using hv)]
      simp only [List.map_cons, List.sum_cons, ih]
      rw [not_not.mp hv]; simp

/-- Clearing the denominators of both polynomials at once. -/
lemma clear_den (l : List Mono) (hd : ∀ t ∈ l, (t.2.den : ZMod p) ≠ 0) :
    ∃ (D : ℤ) (P : MvPolynomial ℕ ℤ), (D : ZMod p) ≠ 0 ∧ (D : ℚ) ≠ 0 ∧
      C (D : ℚ) * denote (l.map fun t => (t.1, t.2.val)) = map (Int.castRingHom ℚ) P ∧
      C (D : ZMod p) * denote (l.map fun t => (t.1, im p t.2)) = map (Int.castRingHom (ZMod p)) P := by
  induction l with
  | nil => exact ⟨1, 0, by simp, by simp, by simp [denote], by simp [denote]⟩
  | cons c cs ih =>
    obtain ⟨D, P, h1, h2, h3, h4⟩ := ih fun t ht => hd t (by simp [ht])
    have hc := hd c (by simp)
    have hcz : c.2.den ≠ 0 := by rintro e; rw [e] at hc; simp at hc
    have hcq : (c.2.den : ℚ) ≠ 0 := by exact_mod_cast hcz
    refine ⟨D * c.2.den, C c.2.den * P + monomial c.1.toFinsupp (D * c.2.num), by push_cast; exact mul_ne_zero h1 hc,
      by push_cast; exact mul_ne_zero h2 hcq, ?_, ?_⟩
    · have e : (D : ℚ) * c.2.den * c.2.val = D * c.2.num := by
        unfold RationalNumber.val; field_simp
      simp only [denote, List.map_cons, List.sum_cons] at h3 ⊢
      rw [map_add, map_mul, ← h3, map_C, map_monomial, mul_add, C_mul_monomial]
      push_cast
      simp only [eq_intCast, Int.cast_mul]
      rw [e, C_mul]
      ring
    · have e : (D : ZMod p) * c.2.den * im p c.2 = D * c.2.num := by
        unfold im; field_simp
      simp only [denote, List.map_cons, List.sum_cons] at h4 ⊢
      rw [map_add, map_mul, ← h4, map_C, map_monomial, mul_add, C_mul_monomial]
      push_cast
      simp only [eq_intCast, Int.cast_mul]
      rw [e, C_mul]
      ring

lemma div_transfer {D N a d : ℤ} (hD : (D : ZMod p) ≠ 0) (hDq : (D : ℚ) ≠ 0) (hd : (d : ZMod p) ≠ 0)
    {v : ℚ} {w : ZMod p} (hv : (D : ℚ) * v = N) (hw : (D : ZMod p) * w = N) (h : v = (a : ℚ) / d) :
    w = (a : ZMod p) / d := by
  have hdz : (d : ℚ) ≠ 0 := by
    intro e
    have : d = 0 := by exact_mod_cast e
    rw [this] at hd; simp at hd
  rw [h] at hv
  have h1 : (D : ℚ) * a = N * d := by rw [← hv]; field_simp
  have h2 : D * a = N * d := by exact_mod_cast h1
  have h3 : (D : ZMod p) * a = N * d := by exact_mod_cast congrArg (Int.cast : ℤ → ZMod p) h2
  rw [eq_div_iff hd]
  apply mul_left_cancel₀ hD
  rw [← mul_assoc, hw, h3]

/-- C70: the conversion of a polynomial into the prime field. If `p` divides no denominator, the
result is a well-formed map without zeros over the same variables; every coefficient and every value
at an integer point is the image of the rational one. -/
theorem C70_convert {n : ℕ} (f : Polynomial) (h : WF n f) (hne : f.coefs ≠ [])
    (hd : ∀ t ∈ f.coefs, ¬ (p : ℤ) ∣ t.2.den) :
    ∃ m, toFF p f = some (n, m) ∧ WFMap n m ∧ (∀ t ∈ m, t.2 ≠ 0) ∧
      (∀ (e : ℕ →₀ ℕ) (a d : ℤ), ¬ (p : ℤ) ∣ d → coeff e (polyOf f) = (a : ℚ) / d →
        coeff e (denote m) = (a : ZMod p) / d) ∧
      (∀ (x : List ℤ) (a d : ℤ), n ≤ x.length → ¬ (p : ℤ) ∣ d →
        eval (fun i => ((x.getD i 0 : ℤ) : ℚ)) (polyOf f) = (a : ℚ) / d →
        PolyFF.calc n m (x.map fun z : ℤ => (z : ZMod p)) = some ((a : ZMod p) / d)) := by
  have hz : ∀ z : ℤ, ¬ (p : ℤ) ∣ z → (z : ZMod p) ≠ 0 := fun z hz e => hz ((ZMod.intCast_zmod_eq_zero_iff_dvd z p).mp e)
  obtain ⟨m, hm⟩ : ∃ m, (f.coefs.filter fun c => im p c.2 ≠ 0).map (fun c => (c.1, im p c.2)) = m := ⟨_, rfl⟩
  have hto : toFF p f = some (n, m) := by
    unfold toFF
    cases hc : f.coefs with
    | nil => exact absurd hc hne
    | cons t ts =>
      have h1 := emplace_fold p f.coefs [] (by intro t _; rfl) h.1.1
      rw [hm, List.nil_append, hc] at h1
      simp only
      rw [h1, h.1.2 t (by rw [hc]; simp)]
  have hwf : WFMap n m := by
    rw [← hm]
    refine ⟨?_, ?_⟩
    · rw [List.map_map]
      show ((f.coefs.filter fun c => im p c.2 ≠ 0).map Prod.fst).Nodup
      exact List.Sublist.nodup (List.filter_sublist.map _) h.1.1
    · intro t ht
      obtain ⟨c, hc, rfl⟩ := List.mem_map.mp ht
      exact h.1.2 c (List.mem_of_mem_filter hc)
  have hden : denote m = denote (f.coefs.map fun c => (c.1, im p c.2)) := by rw [← hm]; exact denote_filter p _
  obtain ⟨D, P, h1, h2, h3, h4⟩ := clear_den p f.coefs fun t ht => hz _ (hd t ht)
  rw [← hden] at h4
  change C (D : ℚ) * polyOf f = _ at h3
  refine ⟨m, hto, hwf, ?_, ?_, ?_⟩
  · intro t ht
    rw [← hm] at ht
    obtain ⟨c, hc, rfl⟩ := List.mem_map.mp ht
    simpa using (List.mem_filter.mp hc).2
  · intro e a d hdd hv
    have e1 := congrArg (coeff e) h3
    have e2 := congrArg (coeff e) h4
    rw [coeff_C_mul, coeff_map] at e1 e2
    exact div_transfer p h1 h2 (hz _ hdd) (by simpa using e1) (by simpa using e2) hv
  · intro x a d hx hdd hv
    rw [C15_calc hwf _ (by simpa using hx)]
    congr 1
    have e1 := congrArg (eval (fun i => ((x.getD i 0 : ℤ) : ℚ))) h3
    have e2 := congrArg (eval (fun i => ((x.getD i 0 : ℤ) : ZMod p))) h4
    have q1 : eval (fun i => ((x.getD i 0 : ℤ) : ℚ)) (map (Int.castRingHom ℚ) P) = ((eval (fun i => x.getD i 0) P : ℤ) : ℚ) := by
      have := eval₂_comp_left (Int.castRingHom ℚ) (RingHom.id ℤ) (fun i => x.getD i 0) P
      rw [eval_map]
      exact this.symm
    have q2 : eval (fun i => ((x.getD i 0 : ℤ) : ZMod p)) (map (Int.castRingHom (ZMod p)) P) = ((eval (fun i => x.getD i 0) P : ℤ) : ZMod p) := by
      have := eval₂_comp_left (Int.castRingHom (ZMod p)) (RingHom.id ℤ) (fun i => x.getD i 0) P
      rw [eval_map]
      exact this.symm
    rw [map_mul, eval_C, q1] at e1
    rw [map_mul, eval_C, q2] at e2
    have q3 : (fun i => (x.map fun z : ℤ => (z : ZMod p)).getD i 0) = fun i => ((x.getD i 0 : ℤ) : ZMod p) := by
      funext i
      rcases Nat.lt_or_ge i x.length with hi | hi
      · rw [List.getD_eq_getElem _ _ (by simpa using hi), List.getD_eq_getElem _ _ hi]; simp
      · rw [List.getD_eq_default _ _ (by simpa using hi), List.getD_eq_default _ _ hi]; simp
    rw [q3]
    exact div_transfer p h1 h2 (hz _ hdd) e1 e2 hv

/-- C70, defect: the conversion of a polynomial without monomials — the zero polynomial as the
reconstruction returns it — reads beyond the end of the vector. -/
theorem C70_convert_empty (f : Polynomial) (h : f.coefs = []) : toFF p f = none := by
  unfold toFF; rw [h]

end Field

/-! ## Concrete cases -/

/-- `2/3 + 5 x y^2 - 7 x^2` as `rn_map` in some order. -/
def exMap : List (List ℕ × RationalNumber) := [([1, 2], ⟨5, 1⟩), ([0, 0], ⟨2, 3⟩), ([2, 0], ⟨-7, 1⟩)]

example : WF 2 (ofMap exMap) ∧ (ofMap exMap).coefs ≠ [] ∧ zero (ofMap exMap) = false := by
  refine ⟨⟨⟨by decide, by decide⟩, ?_⟩, by decide, rfl⟩
  intro t ht
  simp [ofMap, exMap] at ht
  rcases ht with rfl | rfl | rfl <;> exact ⟨by decide, by decide⟩

example : (sort (ofMap exMap)).coefs = [([0, 0], ⟨2, 3⟩), ([2, 0], ⟨-7, 1⟩), ([1, 2], ⟨5, 1⟩)] := by decide +kernel

instance : Fact (Nat.Prime 7) := ⟨by decide⟩

/-- In `ℤ/7` the monomial with coefficient `-7` disappears; `2/3` becomes `3`. -/
example : toFF 7 (ofMap exMap) = some (2, [([1, 2], 5), ([0, 0], 3)]) := by decide +kernel

example : (∀ t ∈ (ofMap exMap).coefs, ¬ ((7 : ℕ) : ℤ) ∣ t.2.den) := by
  intro t ht
  simp [ofMap, exMap] at ht
  rcases ht with rfl | rfl | rfl <;> decide

/-- The two orders differ: `x^2 < x y` for `<`, and the other way round for `sort` is not the case. -/
example : lt ([2, 0], ⟨1, 1⟩) ([1, 1], ⟨1, 1⟩) = some true ∧ lt ([1, 1], ⟨1, 1⟩) ([0, 1], ⟨1, 1⟩) = some false ∧
    mul ([2, 0], ⟨2, 3⟩) ([1, 1], ⟨3, 4⟩) = some ([3, 1], ⟨1, 2⟩) := by decide +kernel

/-- An exponent that leaves 32 bits: the bound of `C70_mul` is needed. -/
example : mul ([4294967295], ⟨1, 1⟩) ([1], ⟨1, 1⟩) = some ([0], ⟨1, 1⟩) := by decide +kernel

end FireFly.RatPoly
