import Verif.Spec.RatShiftAll
import Verif.Lemmas.RatShiftAllSet
import Verif.Props.RatShiftProps
/-! # What is known between two prime fields fits to the next field with a shift -/
set_option linter.all false
namespace FireFly.RRun.Shifted
open MvPolynomial FFMap

section
variable {F : Type} [Field F]

lemma part_scale (s : List F) (u : F) (Q : MvPolynomial ℕ F) (j : ℕ) : RMulti.part s (C u * Q) j = C u * RMulti.part s Q j := by
  unfold RMulti.part
  rw [map_mul, ← algebraMap_eq, AlgHom.commutes, algebraMap_eq, homogeneousComponent_C_mul]

lemma diff_scale (s : List F) {u : F} (hu : u ≠ 0) (Q : MvPolynomial ℕ F) (j : ℕ) :
    (RMulti.part s (C u * Q) j - homogeneousComponent j (C u * Q)).support = (RMulti.part s Q j - homogeneousComponent j Q).support := by
  rw [part_scale, homogeneousComponent_C_mul, ← mul_sub]
  ext m
  rw [mem_support_iff, mem_support_iff, coeff_C_mul]
  simp [hu]

end

/-- the degree of a polynomial -/
lemma totalDegree_of {f : MvPolynomial ℕ ℚ} {m : ℕ} (h1 : ∃ x ∈ f.support, x.degree = m) (h2 : ∀ x ∈ f.support, x.degree ≤ m) : f.totalDegree = m := by
  apply le_antisymm
  · exact Finset.sup_le (fun x hx => h2 x hx)
  · obtain ⟨x, hx, rfl⟩ := h1
    exact le_totalDegree hx

lemma Shape.total {k : ℕ} {f : MvPolynomial ℕ ℚ} {S : ℕ → Finset (ℕ →₀ ℕ)} {x : Side} (h : Shape k f S x) : f.totalDegree = x.maxDeg := totalDegree_of h.lead h.le

section
variable {k : ℕ} {f : MvPolynomial ℕ ℚ} {S : ℕ → Finset (ℕ →₀ ℕ)} {x : Side} {M : ℤ} {g : RnMap} {comb : MpzMap} {un : FFMap (List (List ℕ))}

/-- the exponents are the monomials -/
lemma prior_exps (h : SideOK (coefOf f) (monos k f) M g comb) (hU : Grouped (comb.map Prod.fst) un) : (RShift.exps (x.prior un g)).Perm (monos k f) := by
  refine List.Perm.trans ?_ h.perm
  unfold RShift.exps Side.prior
  exact (List.perm_append_comm).trans ((List.Perm.refl _).append hU.perm)

lemma mem_prior_exps (hf : InVars k f) (h : SideOK (coefOf f) (monos k f) M g comb) (hU : Grouped (comb.map Prod.fst) un) (e : List ℕ) :
    e ∈ RShift.exps (x.prior un g) ↔ e.length = k ∧ e.toFinsupp ∈ f.support := by
  rw [(prior_exps h hU).mem_iff, mem_monos hf, mem_support_iff]

lemma mem_degrees (hf : InVars k f) (h : SideOK (coefOf f) (monos k f) M g comb) (hU : Grouped (comb.map Prod.fst) un) (j : ℕ) :
    j ∈ (RShift.exps (x.prior un g)).map List.sum ↔ ∃ m ∈ f.support, m.degree = j := by
  rw [List.mem_map]
  constructor
  · rintro ⟨e, he, rfl⟩
    exact ⟨_, ((mem_prior_exps hf h hU e).mp he).2, RShift.toFinsupp_degree e⟩
  · rintro ⟨m, hm, rfl⟩
    have := toFinsupp_exps (hf m hm)
    refine ⟨exps k m, (mem_prior_exps hf h hU _).mpr ⟨by simp [exps], by rw [this]; exact hm⟩, ?_⟩
    rw [← RShift.toFinsupp_degree, this]

lemma shifts_nil {const : Bool} (hS : Shape k f S x) (hs : Shifts k const S un g x) (j : ℕ) : x.shifts j = [] ↔ S j = ∅ := by
  constructor
  · intro h0
    apply Finset.eq_empty_of_forall_notMem
    intro m hm
    have := toFinsupp_exps (hS.mem j m hm).2
    have h1 := (hs.mem j (exps k m)).mpr ⟨by simp [exps], by rw [this]; exact hm⟩
    rw [h0] at h1
    simp at h1
  · intro h0
    apply List.eq_nil_iff_forall_not_mem.mpr
    intro e he
    have := ((hs.mem j e).mp he).2
    rw [h0] at this
    simp at this

variable {p : ℕ} [hp : Fact p.Prime]

lemma red_support {m : ℕ →₀ ℕ} (h : coeff m (red p f) ≠ 0) : m ∈ f.support := by
  rw [red_coeff] at h
  rw [mem_support_iff]
  rintro h0
  rw [h0] at h
  simp at h

lemma prior_ok {sh a : List (ZMod p)} {const : Bool} {u : ZMod p} (hf : InVars k f) (h : SideOK (coefOf f) (monos k f) M g comb) (hU : Grouped (comb.map Prod.fst) un)
    (hS : Shape k f S x) (hs : Shifts k const S un g x) (hu : u ≠ 0) (hconst : const = true → comb.find? (List.replicate k 0) = none)
    (hsame : ∀ j, (RMulti.part sh (red p f) j - homogeneousComponent j (red p f)).support = S j)
    (hdist : ∀ j, ∀ m ∈ f.support ∪ S j, ∀ m' ∈ f.support ∪ S j, m.degree = j → m'.degree = j →
      eval (RMulti.dir a (List.replicate (k - 1) 1)) (monomial m (1 : ZMod p)) = eval (RMulti.dir a (List.replicate (k - 1) 1)) (monomial m' 1) → m = m')
    (ha : ∀ y ∈ a, y ≠ 0) (hl : ∀ m ∈ f.support, m.degree < p) :
    RShift.PriorOK k sh a (C u * red p f) const (x.prior un g) := by
  have hex := mem_prior_exps (x := x) hf h hU
  have hdeg := mem_degrees (x := x) hf h hU
  have hcoef : ∀ {m}, coeff m (C u * red p f) ≠ 0 → m ∈ f.support := by
    intro m hm
    rw [coeff_C_mul] at hm
    exact red_support (right_ne_zero_of_mul hm)
  have hsh : ∀ j e, e ∈ x.shifts j → e.length = k ∧ e.sum = j := by
    intro j e he
    have h1 := (hs.mem j e).mp he
    exact ⟨h1.1, by rw [← RShift.toFinsupp_degree]; exact (hS.mem j _ h1.2).1⟩
  refine ⟨fun w hw => hU.form w hw, hU.nodup, fun e he => ((hex e).mp he).1, (prior_exps h hU).nodup_iff.mpr (monos_nodup hf), ?_, (hdeg _).mpr hS.lead, fun j => ⟨hs.nodup j, fun e he => hsh j e he⟩,
    (shifts_nil hS hs _).mpr (hS.top _ le_rfl), ?_, ?_, ?_, ?_, ?_, ?_, ha, ?_⟩
  · intro e he
    rw [← RShift.toFinsupp_degree]
    exact hS.le _ ((hex e).mp he).2
  · intro hc e he h0
    have h1 := hU.perm.mem_iff.mp he
    have h2 := ((side_keys hf h).2.2 e h1).1
    rw [RShift.zero_of_sum h2 h0] at h1
    exact find?_eq_none.mp (hconst hc) h1
  · intro m hm
    have hm := hcoef hm
    have := toFinsupp_exps (hf m hm)
    exact ⟨exps k m, (hex _).mpr ⟨by simp [exps], by rw [this]; exact hm⟩, this⟩
  · intro j _ m hm
    have hm : m ∈ S j := by
      rw [← hsame j, ← diff_scale sh hu, mem_support_iff]; exact hm
    have := toFinsupp_exps (hS.mem j m hm).2
    exact ⟨exps k m, (hs.mem j _).mpr ⟨by simp [exps], by rw [this]; exact hm⟩, this⟩
  · intro j _ h1 h2
    refine (hS.zeros j).mpr ⟨fun h0 => h2 ((shifts_nil hS hs j).mpr h0), ?_⟩
    intro m hm hmj
    exact h1 ((hdeg j).mpr ⟨m, hm, hmj⟩)
  · intro j hj
    have h1 := ((hS.zeros j).mp hj).2
    ext m
    rw [coeff_homogeneousComponent, coeff_zero]
    split
    · rename_i hm
      by_contra h0
      exact h1 m (hcoef h0) hm
    · rfl
  · intro j e he e' he' h1 h2 h3
    have key : ∀ e ∈ RShift.exps (x.prior un g) ++ (x.prior un g).shifts j, e.length = k ∧ e.toFinsupp ∈ f.support ∪ S j := by
      intro e he
      rcases List.mem_append.mp he with he | he
      · exact ⟨((hex e).mp he).1, Finset.mem_union_left _ ((hex e).mp he).2⟩
      · have he := (hs.mem j e).mp he
        exact ⟨he.1, Finset.mem_union_right _ he.2⟩
    obtain ⟨a1, a2⟩ := key e he
    obtain ⟨b1, b2⟩ := key e' he'
    exact toFinsupp_inj a1 b1 (hdist j _ a2 _ b2 (by rw [RShift.toFinsupp_degree, h1]) (by rw [RShift.toFinsupp_degree, h2]) h3)
  · intro i h1 h2 h0
    obtain ⟨m, hm, hmx⟩ := hS.lead
    have := hl m hm
    have h2 : i ≤ x.maxDeg := h2
    rw [ZMod.natCast_eq_zero_iff] at h0
    have := Nat.le_of_dvd h1 h0
    omega

/-- the degrees that are asked for -/
lemma prior_asked {n d : MvPolynomial ℕ ℚ} {S : Bool → ℕ → Finset (ℕ →₀ ℕ)} {nd b : Bool} {const : Bool} (hcb : const = true ↔ b = nd) (hf : InVars k (side n d b)) (h : SideOK (coefOf (side n d b)) (monos k (side n d b)) M g comb)
    (hU : Grouped (comb.map Prod.fst) un) (hS : Shape k (side n d b) (S b) x) (hs : Shifts k const (S b) un g x) (m : ℕ) :
    RShift.asked m const (x.prior un g) = askedDegs n d S nd b ∧ ∀ j, j ∈ askedDegs n d S nd b → Asked n d S nd b j := by
  classical
  refine ⟨?_, fun j hj => by unfold askedDegs at hj; rw [Finset.mem_filter] at hj; exact hj.2⟩
  unfold RShift.asked askedDegs
  rw [hS.total]
  ext j
  rw [Finset.mem_filter, Finset.mem_filter]
  show _ ∧ ((j ∈ (RShift.exps (x.prior un g)).map List.sum ∨ x.shifts j ≠ []) ∧ _) ↔ _
  rw [mem_degrees hf h hU, ne_eq, shifts_nil hS hs, hcb]
  rfl

lemma prior_width {const : Bool} (hf : InVars k f) (h : SideOK (coefOf f) (monos k f) M g comb) (hU : Grouped (comb.map Prod.fst) un) {o : ℕ} (h1 : 1 ≤ o) (ho : o ≤ RShift.width const (x.prior un g)) :
    ∃ j, o ≤ (f.support.filter (fun m => m.degree = j)).card := by
  classical
  unfold RShift.width at ho
  obtain ⟨j, hj, h2⟩ := (Finset.le_sup_iff (by show 0 < o; omega)).mp ho
  refine ⟨j, le_trans h2 ?_⟩
  have hnd : ((RShift.exps (x.prior un g)).filter (fun e => decide (e.sum = j ∧ ¬ (const = true ∧ j = 0)))).Nodup := ((prior_exps h hU).nodup_iff.mpr (monos_nodup hf)).filter _
  have hmem := fun e => mem_prior_exps (x := x) hf h hU e
  have hnd2 : (((RShift.exps (x.prior un g)).filter (fun e => decide (e.sum = j ∧ ¬ (const = true ∧ j = 0)))).map (fun e => e.toFinsupp)).Nodup := by
    apply List.Nodup.map_on _ hnd
    intro a ha b hb hab
    exact toFinsupp_inj ((hmem a).mp (List.mem_filter.mp ha).1).1 ((hmem b).mp (List.mem_filter.mp hb).1).1 hab
  rw [← List.length_map (f := fun e : List ℕ => e.toFinsupp), ← List.toFinset_card_of_nodup hnd2]
  apply Finset.card_le_card
  intro m hm
  rw [List.mem_toFinset] at hm
  obtain ⟨e, he, rfl⟩ := List.mem_map.mp hm
  obtain ⟨e1, e2⟩ := List.mem_filter.mp he
  rw [Finset.mem_filter]
  refine ⟨((hmem e).mp e1).2, ?_⟩
  rw [RShift.toFinsupp_degree]
  exact (of_decide_eq_true e2).1

end

end FireFly.RRun.Shifted
