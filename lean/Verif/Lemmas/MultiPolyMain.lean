import Verif.Lemmas.MultiPolyEnd
/-! # From the first value to the polynomial; generic anchor points -/
set_option linter.all false
namespace FireFly.MPoly
open Polynomial
variable {F : Type} [Field F] [DecidableEq F]
variable {c : Cfg F} {S : Finset (List ℕ)} {co : List ℕ → F}

/-- an upper bound of the number of values per key -/
def ibound (c : Cfg F) (S : Finset (List ℕ)) : ℕ := 2 * (S.sup List.sum + 1) + c.thr

/-- the number of values that may still be needed -/
def mu (c : Cfg F) (S : Finset (List ℕ)) (s i j : ℕ) : ℕ :=
  (c.n - 1 - s) * ((ibound c S + 1) * S.card) + (ibound c S - i) * S.card + (S.card - j)

inductive Inv (c : Cfg F) (S : Finset (List ℕ)) (co : List ℕ → F) : ℕ → St F → Prop
  | first {i st} (h : FirstI c S co i st) : Inv c S co (mu c S 0 i 1) st
  | later {s i j R st} (h : Later c S co s i j R st) : Inv c S co (mu c S s i j) st

lemma Inv.result {m : ℕ} {st : St F} (h : Inv c S co m st) : st.result = none := by
  cases h with
  | first h => exact h.result
  | later h => exact h.result

lemma slc_bounds (h : Ctx c S co) {s : ℕ} (hs : s < c.n) {k : List ℕ} (hk : k ∈ KK c.n S s) :
    (slc c.n c.a S co s k).natDegree ≤ S.sup List.sum ∧ (slc c.n c.a S co s k).support.card ≤ S.sup List.sum + 1 := by
  obtain ⟨m, hm, h1, h2⟩ := h.top hs hk
  have h3 : m.sum ≤ S.sup List.sum := Finset.le_sup (f := List.sum) hm
  have h4 : (slc c.n c.a S co s k).natDegree ≤ S.sup List.sum := by omega
  exact ⟨h4, le_trans (card_supp_le_succ_natDegree _) (by omega)⟩

lemma ibound_le (h : Ctx c S co) {s : ℕ} (hs : s < c.n) {k : List ℕ} (hk : k ∈ KK c.n S s) {i : ℕ}
    (h1 : c.newton = true → i ≤ (slc c.n c.a S co s k).natDegree + 1)
    (h2 : c.newton = false → i ≤ 2 * (slc c.n c.a S co s k).support.card + c.thr) : i ≤ ibound c S := by
  obtain ⟨h3, h4⟩ := slc_bounds h hs hk
  unfold ibound
  rcases hn : c.newton with _ | _
  · have := h2 hn; omega
  · have := h1 hn; omega

lemma mu_j {s i j : ℕ} (hj : j + 1 ≤ S.card) : mu c S s i (j + 1) < mu c S s i j := by
  unfold mu; omega

lemma mu_i {s i j : ℕ} (hi : i + 1 ≤ ibound c S) (hj : j ≤ S.card) (hT : 1 ≤ S.card) : mu c S s (i + 1) 1 < mu c S s i j := by
  unfold mu
  obtain ⟨d, hd⟩ : ∃ d, ibound c S - i = d + 1 := ⟨ibound c S - i - 1, by omega⟩
  have : ibound c S - (i + 1) = d := by omega
  rw [hd, this, add_mul d 1 S.card]
  omega

lemma mu_s {s i j : ℕ} (hs : s + 1 < c.n) (hT : 1 ≤ S.card) : mu c S (s + 1) 1 1 < mu c S s i j := by
  unfold mu
  obtain ⟨d, hd⟩ : ∃ d, c.n - 1 - s = d + 1 := ⟨c.n - 1 - s - 1, by omega⟩
  have h1 : c.n - 1 - (s + 1) = d := by omega
  rw [hd, h1, add_mul d 1, one_mul]
  have h2 : (ibound c S - 1) * S.card ≤ ibound c S * S.card := Nat.mul_le_mul_right _ (by omega)
  rw [add_mul (ibound c S) 1 S.card, one_mul]
  omega

lemma Later.card_le (h : Ctx c S co) {s i j : ℕ} {R : List (List ℕ)} {st : St F} (hL : Later c S co s i j R st) : R.length ≤ S.card := by
  rw [← List.toFinset_card_of_nodup hL.nodup]
  have h1 : R.toFinset ⊆ KK c.n S s := fun k hk => hL.sub k (List.mem_toFinset.mp hk)
  exact le_trans (Finset.card_le_card h1) Finset.card_image_le

/-- one value -/
lemma Inv.step (h : Ctx c S co) (hn : 0 < c.n) (hS : S.Nonempty) {m : ℕ} {st : St F} (hI : Inv c S co m st) :
    ∃ st', c.interpolate st (val c.n c.a S co (fun t => st.ord.getD t 0)) st.ord = some st' ∧ (Done S co st' ∨ ∃ m' < m, Inv c S co m' st') := by
  have hT : 1 ≤ S.card := Finset.card_pos.mpr hS
  unfold Cfg.interpolate
  rw [if_pos ⟨rfl, hI.result⟩]
  simp only [Option.bind_eq_bind]
  cases hI with
  | @first i _ hF =>
    have hz : st.zi = 1 := hF.zi
    simp only [if_pos hz]
    obtain ⟨st', b, e1, e2⟩ := hF.step h hn hS
    rw [e1, Option.bind_some]
    rcases e2 with ⟨rfl, e2⟩ | ⟨rfl, st'', e2, e3⟩
    · refine ⟨st', rfl, Or.inr ⟨_, ?_, Inv.first e2⟩⟩
      exact mu_i (ibound_le h hn (zv_KK hS c.n) (fun hw => (e2.le1 hw).1) e2.le2) hT hT
    · rw [if_pos rfl, e2]
      refine ⟨st'', rfl, ?_⟩
      rcases e3 with e3 | ⟨R, e3⟩
      · exact Or.inl e3
      · refine Or.inr ⟨_, ?_, Inv.later e3⟩
        exact mu_s e3.lt hT
  | @later s i j R _ hL =>
    have hz : ¬ st.zi = 1 := by rw [hL.zi]; have := hL.pos; omega
    simp only [if_neg hz]
    obtain ⟨st', b, e1, e2⟩ := hL.step h
    rw [e1, Option.bind_some]
    have hc := hL.card_le h
    have hjle := hL.jle
    rcases e2 with ⟨rfl, e2⟩ | ⟨rfl, e2⟩ | ⟨rfl, R', e2⟩
    · rw [if_pos rfl, combine_later hL.pos e2]
      obtain ⟨st'', e3, e4⟩ := e2.next h
      refine ⟨st'', e3, ?_⟩
      rcases e4 with e4 | ⟨R', e4⟩
      · exact Or.inl e4
      · exact Or.inr ⟨_, mu_s e4.lt hT, Inv.later e4⟩
    · refine ⟨st', rfl, Or.inr ⟨_, ?_, Inv.later e2⟩⟩
      apply mu_j
      have := e2.card_le h
      have := e2.jle
      omega
    · refine ⟨st', rfl, Or.inr ⟨_, ?_, Inv.later e2⟩⟩
      refine mu_i ?_ (by omega) hT
      have hne : R' ≠ [] := by
        rintro rfl
        have := e2.jle; simp at this
      obtain ⟨k, hk⟩ := List.exists_mem_of_ne_nil R' hne
      have := e2.keys k hk
      exact ibound_le h e2.lt (e2.sub k hk) (fun hw => (this.le1 hw).1) this.le2

/-- all right probes -/
lemma feedAll_inv (h : Ctx c S co) (hn : 0 < c.n) (hS : S.Nonempty) (probes : List (F × List ℕ))
    (hp : ∀ q ∈ probes, q.1 = val c.n c.a S co (fun t => q.2.getD t 0)) : ∀ {st : St F}, (Done S co st ∨ ∃ m, Inv c S co m st) →
    ∃ st', c.feedAll st probes = some st' ∧ (Done S co st' ∨ ∃ m, Inv c S co m st') := by
  induction probes with
  | nil => intro st hst; exact ⟨st, rfl, hst⟩
  | cons q probes ih =>
    intro st hst
    have h1 : ∃ st1, c.interpolate st q.1 q.2 = some st1 ∧ (Done S co st1 ∨ ∃ m, Inv c S co m st1) := by
      by_cases hc : q.2 = st.ord ∧ st.result = none
      · rcases hst with ⟨r, hr, -⟩ | ⟨m, hm⟩
        · rw [hc.2] at hr; cases hr
        · obtain ⟨st1, e1, e2⟩ := hm.step h hn hS
          rw [hp q (by simp), hc.1]
          refine ⟨st1, e1, ?_⟩
          rcases e2 with e2 | ⟨m', -, e2⟩
          · exact Or.inl e2
          · exact Or.inr ⟨m', e2⟩
      · refine ⟨st, ?_, hst⟩
        unfold Cfg.interpolate
        rw [if_neg hc]
    obtain ⟨st1, e1, e2⟩ := h1
    obtain ⟨st2, e3, e4⟩ := ih (fun q hq => hp q (by simp [hq])) e2
    refine ⟨st2, ?_, e4⟩
    show List.foldlM _ st (q :: probes) = _
    rw [List.foldlM_cons, e1]
    exact e3

/-! ### generic anchor points -/

section
variable {n : ℕ} {f : FFMap F}

/-- the monomials and coefficients of a map -/
def keysOf (f : FFMap F) : Finset (List ℕ) := (f.map Prod.fst).toFinset
def coefOf (f : FFMap F) (k : List ℕ) : F := (f.find? k).getD 0

lemma f_eq (hf : (f.map Prod.fst).Nodup) : f = (f.map Prod.fst).map fun k => (k, coefOf f k) := by
  rw [List.map_map]
  conv_lhs => rw [← List.map_id f]
  apply List.map_congr_left
  rintro ⟨k, v⟩ ht
  simp only [id, Function.comp_apply, coefOf]
  rw [FFMap.find?_of_mem hf ht]; rfl

lemma list_sum_eq {M : Type} [AddCommMonoid M] (hf : (f.map Prod.fst).Nodup) (p : List ℕ → Bool) (g : List ℕ × F → M) :
    ((f.filter fun t => p t.1).map g).sum = ∑ k ∈ keysOf f with p k = true, g (k, coefOf f k) := by
  have h1 : (f.filter fun t => p t.1) = ((f.map Prod.fst).filter p).map fun k => (k, coefOf f k) := by
    conv_lhs => rw [f_eq hf]
    rw [List.filter_map]; rfl
  rw [h1, List.map_map, ← List.sum_toFinset _ (hf.filter p), List.toFinset_filter]
  rfl

lemma slice_eq (hf : (f.map Prod.fst).Nodup) (a : List F) (s : ℕ) (k : List ℕ) :
    slice n a f s (k.take s) = slc n (fun j => a.getD j 0) (keysOf f) (coefOf f) s k := by
  unfold slice slc
  rw [list_sum_eq hf (fun m => decide (m.take s = k.take s))]
  apply Finset.sum_congr
  · ext m; simp
  · intro m _; rfl

lemma valueAt_eq (hf : WFMap n f) (a : List F) (ord : List ℕ) :
    valueAt a f ord = val n (fun j => a.getD j 0) (keysOf f) (coefOf f) (fun t => ord.getD t 0) := by
  unfold valueAt denote val
  rw [map_list_sum, List.map_map]
  have := list_sum_eq hf.1 (fun _ => true) (fun t => MvPolynomial.eval (fun j => a.getD j 0 ^ ord.getD j 0) (MvPolynomial.monomial t.1.toFinsupp t.2))
  simp only [List.filter_true, Finset.filter_true] at this
  show (f.map fun t => MvPolynomial.eval (fun j => a.getD j 0 ^ ord.getD j 0) (MvPolynomial.monomial t.1.toFinsupp t.2)).sum = _
  rw [this]
  apply Finset.sum_congr rfl
  intro m hm
  have hml : m.length = n := by
    unfold keysOf at hm
    rw [List.mem_toFinset, fst_mem_iff] at hm
    obtain ⟨v, hv⟩ := hm
    exact hf.2 _ hv
  rw [MvPolynomial.eval_monomial]
  congr 1
  unfold hd
  rw [Finsupp.prod_of_support_subset (s := Finset.range n)]
  · apply Finset.prod_congr rfl
    intro j _
    rw [List.toFinsupp_apply]
  · intro j hj
    rw [Finset.mem_range]
    by_contra hge
    rw [Finsupp.mem_support_iff, List.toFinsupp_apply, List.getD_eq_default _ _ (by omega)] at hj
    exact hj rfl
  · intro j _; rw [pow_zero]

lemma mem_keysOf {k : List ℕ} : k ∈ keysOf f ↔ ∃ t ∈ f, t.1 = k := by
  unfold keysOf
  rw [List.mem_toFinset, List.mem_map]

/-- a generic anchor point in terms of the slices -/
lemma Generic.ctx {c : Cfg F} {f : FFMap F} (hf : WFMap c.n f) (hg : Generic c.n c.anchor f c.newton c.bt) (hsome : c.newton = true ∨ c.bt = true)
    (hdeg : ∀ d, c.deg = some d → d < 2 ^ 31 ∧ ∀ t ∈ f, t.1.sum ≤ d) (hb : ∀ b, c.bounds = some b → ∀ t ∈ f, ∀ j < c.n, t.1.getD j 0 ≤ b.getD j 0)
    (hsize : ∀ t ∈ f, t.1.sum + 2 < 2 ^ 32) : Ctx c (keysOf f) (coefOf f) := by
  have hlen : ∀ m ∈ keysOf f, m.length = c.n := by
    intro m hm
    obtain ⟨t, ht, rfl⟩ := mem_keysOf.mp hm
    exact hf.2 t ht
  have hkk : ∀ s ≤ c.n, ∀ k ∈ KK c.n (keysOf f) s, ∃ t ∈ f, cut c.n s t.1 = k ∧ t.1.take s = k.take s := by
    intro s hs k hk
    obtain ⟨h1, h2, m, hm, h3, h4⟩ := KK_spec hlen hs hk
    obtain ⟨t, ht, rfl⟩ := mem_keysOf.mp hm
    exact ⟨t, ht, h4, h3⟩
  have hnode : ∀ s ≤ c.n, ∀ t ∈ f, hd c.a s (fun _ => 1) (cut c.n s t.1) = node c.anchor s t.1 := by
    intro s hs t ht
    rw [hd_cut le_rfl hs _ (hf.2 t ht)]
    unfold hd node
    apply Finset.prod_congr rfl
    intro j _
    rw [pow_one]; rfl
  refine ⟨hlen, ?_, ?_, ?_, hg.nonzero, ?_, ?_, ?_, ?_, ?_, hsome⟩
  · intro d hd
    refine ⟨(hdeg d hd).1, ?_⟩
    intro m hm
    obtain ⟨t, ht, rfl⟩ := mem_keysOf.mp hm
    exact (hdeg d hd).2 t ht
  · intro b hb' m hm j hj
    obtain ⟨t, ht, rfl⟩ := mem_keysOf.mp hm
    exact hb b hb' t ht j hj
  · intro m hm
    obtain ⟨t, ht, rfl⟩ := mem_keysOf.mp hm
    exact hsize t ht
  · intro s hs k hk k' hk' he
    obtain ⟨t, ht, rfl, -⟩ := hkk s (by omega) k hk
    obtain ⟨t', ht', rfl, -⟩ := hkk s (by omega) k' hk'
    rw [hnode s (by omega) t ht, hnode s (by omega) t' ht'] at he
    rw [(cut_inj (hf.2 t ht) (hf.2 t' ht') (by omega)).mpr (hg.nodes s hs t ht t' ht' he)]
  · intro s hs m hm j h1 h2
    obtain ⟨t, ht, rfl⟩ := mem_keysOf.mp hm
    exact hg.order s hs t ht j h1 h2
  · intro s hs k hk
    obtain ⟨t, ht, rfl, -⟩ := hkk (s + 1) (by omega) k hk
    have := hg.keeps s hs t ht
    rw [slice_eq hf.1] at this
    have h2 := slc_coeff (a := c.a) (co := coefOf f) hlen hs (hf.2 t ht) (t.1.getD s 0)
    rw [nd_eq_cut hs (hf.2 t ht) rfl] at h2
    rw [← h2]
    exact this
  · intro hn s hs k hk
    obtain ⟨t, ht, -, e⟩ := hkk s (by omega) k hk
    have := hg.newton hn s hs t ht
    rw [e, slice_eq hf.1] at this
    exact this
  · intro hn s hs k hk
    obtain ⟨t, ht, -, e⟩ := hkk s (by omega) k hk
    have := hg.bt hn s hs t ht
    rw [e, slice_eq hf.1] at this
    exact this

end

end FireFly.MPoly
