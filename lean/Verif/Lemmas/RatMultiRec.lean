import Verif.Model.RatMulti
import Verif.Lemmas.RatMultiAlg
import Verif.Spec.RatMultiHyps
import Verif.Props.MultiPolyProps
import Verif.Props.ThieleLowest
/-! # The polynomials within the interpolation of a rational function -/
set_option linter.all false
namespace FireFly.RMulti
open MvPolynomial
variable {F : Type} [Field F] [DecidableEq F]

/-- `zi` and the orders of a value that is asked for -/
structure ZiOrd (n zi : ℕ) (ord : List ℕ) : Prop where
  pos : 1 ≤ zi
  le : zi ≤ n
  len : ord.length = n
  one : ∀ j, zi ≤ j → j < n → ord.getD j 0 = 1
  ge : ∀ j < n, 1 ≤ ord.getD j 0
  two : zi = 1 ∨ 2 ≤ ord.getD (zi - 1) 0

lemma ZiOrd.unique {n z z' : ℕ} {o : List ℕ} (h : ZiOrd n z o) (h' : ZiOrd n z' o) : z = z' := by
  have key : ∀ {z z'}, ZiOrd n z o → ZiOrd n z' o → z' ≤ z := by
    intro z z' h h'
    by_contra hlt
    rcases h'.two with h1 | h1
    · have := h.pos; omega
    · have := h.one (z' - 1) (by omega) (by have := h'.le; omega)
      omega
  exact le_antisymm (key h' h) (key h h')

lemma ZiOrd.ones {n : ℕ} (hn : 1 ≤ n) : ZiOrd n 1 (List.replicate n 1) := by
  have hg : ∀ j < n, (List.replicate n 1).getD j 0 = 1 := by
    intro j hj
    rw [List.getD_eq_getElem _ _ (by simpa using hj)]; simp
  exact ⟨le_rfl, hn, by simp, fun j _ hj => hg j hj, fun j hj => (hg j hj).ge, Or.inl rfl⟩

lemma ziOrd_ords {n s i j : ℕ} (hs : s < n) (hi : 1 ≤ i ∨ s = 0) (hj : 1 ≤ j) : ZiOrd n (s + 1) (MPoly.ords n s i j) := by
  refine ⟨by omega, by omega, ?_, ?_, ?_, ?_⟩
  · unfold MPoly.ords; simp; omega
  · intro t h1 h2
    rw [MPoly.ords_getD hs t h2, if_neg (by omega), if_neg (by omega)]
  · intro t h2
    rw [MPoly.ords_getD hs t h2]
    split_ifs <;> omega
  · rcases hi with hi | hi
    · right
      rw [Nat.add_sub_cancel, MPoly.ords_getD hs s hs, if_neg (by omega), if_pos rfl]; omega
    · left; omega

/-- a state on the way to `p`, at most `m + 1` values are missing -/
def Rec (pc : MPoly.Cfg F) (p : MvPolynomial ℕ F) (m : ℕ) (st : MPoly.St F) : Prop :=
  ∃ f : FFMap F, denote f = dehomogenize p ∧ ((f = [] ∧ st = pc.init) ∨
    (MPoly.Fits pc f ∧ ∃ m' ≤ m, MPoly.Inv pc (MPoly.keysOf f) (MPoly.coefOf f) m' st))

lemma support_card {n : ℕ} {f : FFMap F} (hf : WFMap n f) (hz : ∀ t ∈ f, t.2 ≠ 0) : f.length = (denote f).support.card := by
  rw [← MPoly.keysOf_card hf.1]
  apply Finset.card_bij (fun k _ => k.toFinsupp)
  · intro k hk
    obtain ⟨t, ht, rfl⟩ := MPoly.mem_keysOf.mp hk
    rw [mem_support_iff, coeff_denote hf (hf.2 t ht), FFMap.find?_of_mem hf.1 (v := t.2) ht]
    exact hz t ht
  · intro a ha b hb h
    obtain ⟨t, ht, rfl⟩ := MPoly.mem_keysOf.mp ha
    obtain ⟨t', ht', rfl⟩ := MPoly.mem_keysOf.mp hb
    exact toFinsupp_inj (hf.2 t ht) (hf.2 t' ht') h
  · intro d hd
    rw [mem_support_iff] at hd
    by_contra hne
    push Not at hne
    apply hd
    apply coeff_denote_other hf
    intro k hk hkd
    by_cases h1 : k ∈ f.map Prod.fst
    · obtain ⟨t, ht, rfl⟩ := List.mem_map.mp h1
      exact hne t.1 (MPoly.mem_keysOf.mpr ⟨t, ht, rfl⟩) hkd
    · apply hd
      rw [← hkd, coeff_denote hf hk, FFMap.find?_eq_none.mpr h1]; rfl

lemma mu_bnd {c : Cfg F} {bounds : Option (List ℕ)} {k : ℕ} {p : MvPolynomial ℕ F} {f : FFMap F} (hd : denote f = dehomogenize p)
    (h : MPoly.Fits (c.poly bounds k) f) : MPoly.mu (c.poly bounds k) (MPoly.keysOf f) 0 0 1 ≤ bnd c k p := by
  have hS := MPoly.keysOf_ne h.ne
  have hsup : (MPoly.keysOf f).sup List.sum ≤ k := by
    apply Finset.sup_le
    intro m hm
    obtain ⟨t, ht, rfl⟩ := MPoly.mem_keysOf.mp hm
    exact (h.deg k rfl).2 t ht
  have hT : 1 ≤ (MPoly.keysOf f).card := Finset.card_pos.mpr hS
  unfold bnd MPoly.mu
  rw [← hd, ← support_card h.wf h.nonzero]
  rw [MPoly.keysOf_card h.wf.1] at hT ⊢
  have hI : MPoly.ibound (c.poly bounds k) (MPoly.keysOf f) + 1 ≤ 2 * (k + 1) + c.thr + 1 := by
    unfold MPoly.ibound
    show 2 * ((MPoly.keysOf f).sup List.sum + 1) + c.thr + 1 ≤ _
    omega
  have hv : 0 < c.n - 1 := h.vars
  obtain ⟨n', hn'⟩ : ∃ n', c.n - 1 = n' + 1 := ⟨c.n - 1 - 1, by omega⟩
  have hn2 : (c.poly bounds k).n = n' + 1 := hn'
  have h1 : (MPoly.ibound (c.poly bounds k) (MPoly.keysOf f) + 1) * f.length ≤ (2 * (k + 1) + c.thr + 1) * f.length := Nat.mul_le_mul_right _ hI
  have h2 : n' * ((MPoly.ibound (c.poly bounds k) (MPoly.keysOf f) + 1) * f.length) ≤ n' * ((2 * (k + 1) + c.thr + 1) * f.length) := Nat.mul_le_mul_left _ h1
  rw [hn2, hn', Nat.add_sub_cancel, Nat.sub_zero, Nat.sub_zero, add_mul n' 1, one_mul]
  rw [add_mul (MPoly.ibound (c.poly bounds k) (MPoly.keysOf f)) 1] at h1
  omega

lemma Rec.init {c : Cfg F} {bounds : Option (List ℕ)} {k : ℕ} {p : MvPolynomial ℕ F} (h : Target (c.poly bounds k) p) :
    Rec (c.poly bounds k) p (bnd c k p) (c.poly bounds k).init := by
  obtain ⟨f, h1, h2⟩ := h
  refine ⟨f, h1, ?_⟩
  rcases h2 with h2 | h2
  · exact Or.inl ⟨h2, rfl⟩
  · exact Or.inr ⟨h2, _, mu_bnd h1 h2, MPoly.Inv.first (MPoly.FirstI.init _ _ _ h2.vars)⟩

lemma Rec.mono {pc : MPoly.Cfg F} {p : MvPolynomial ℕ F} {m m' : ℕ} {st : MPoly.St F} (h : Rec pc p m st) (hm : m ≤ m') : Rec pc p m' st := by
  obtain ⟨f, h1, h2⟩ := h
  refine ⟨f, h1, ?_⟩
  rcases h2 with h2 | ⟨h2, m1, h3, h4⟩
  · exact Or.inl h2
  · exact Or.inr ⟨h2, m1, by omega, h4⟩

lemma Rec.result {pc : MPoly.Cfg F} {p : MvPolynomial ℕ F} {m : ℕ} {st : MPoly.St F} (h : Rec pc p m st) : st.result = none := by
  obtain ⟨f, h1, h2⟩ := h
  rcases h2 with ⟨-, rfl⟩ | ⟨h2, m1, h3, h4⟩
  · rfl
  · exact h4.result

lemma Rec.ziOrd {pc : MPoly.Cfg F} (hn : 1 ≤ pc.n) {p : MvPolynomial ℕ F} {m : ℕ} {st : MPoly.St F} (h : Rec pc p m st) : ZiOrd pc.n st.zi st.ord := by
  obtain ⟨f, h1, h2⟩ := h
  rcases h2 with ⟨-, rfl⟩ | ⟨h2, m1, h3, h4⟩
  · exact ZiOrd.ones hn
  · cases h4 with
    | first h => rw [h.zi, h.ord]; exact ziOrd_ords hn (Or.inr rfl) le_rfl
    | later h => rw [h.zi, h.ord]; exact ziOrd_ords h.lt (Or.inl h.ipos) h.jpos

lemma Rec.order {pc : MPoly.Cfg F} (hn : 1 ≤ pc.n) (hN : pc.newton = true) {k : ℕ} (hk : pc.deg = some k) {p : MvPolynomial ℕ F} {m : ℕ} {st : MPoly.St F}
    (h : Rec pc p m st) : st.ord.getD (st.zi - 1) 0 ≤ k + 1 := by
  obtain ⟨f, h1, h2⟩ := h
  rcases h2 with ⟨-, rfl⟩ | ⟨h2, m1, h3, h4⟩
  · show (List.replicate pc.n 1).getD 0 0 ≤ k + 1
    rw [List.getD_eq_getElem _ _ (by simp; omega)]; simp
  · cases h4 with
    | first h =>
      have := (h.le1 hN).2 k hk
      rw [h.zi, h.ord, MPoly.ords_getD hn _ hn]; simp; omega
    | @later s i j R _ h =>
      have hne : R ≠ [] := by
        rintro rfl
        have := h.jle; have := h.jpos; simp at *; omega
      obtain ⟨key, hkey⟩ := List.exists_mem_of_ne_nil R hne
      have := ((h.keys key hkey).le1 hN).2 k hk
      rw [h.zi, h.ord, Nat.add_sub_cancel, MPoly.ords_getD h.lt s h.lt, if_neg (by omega), if_pos rfl]
      omega

lemma mem_set {α : Type} {m : FFMap α} {k : List ℕ} {v : α} {t : List ℕ × α} (h : t ∈ m.set k v) : t ∈ m ∨ t = (k, v) := by
  unfold FFMap.set at h
  split_ifs at h with h1
  · obtain ⟨t', ht', rfl⟩ := List.mem_map.mp h
    split_ifs
    · exact Or.inr rfl
    · exact Or.inl ht'
  · rcases List.mem_append.mp h with h | h
    · exact Or.inl h
    · exact Or.inr (by simpa using h)

lemma nz_homogenize {r : FFMap F} (k : ℕ) (h : NZ r) : NZ (PolyFF.homogenize r k) := by
  unfold PolyFF.homogenize
  have key : ∀ (l m : FFMap F), NZ l → NZ m → NZ (l.foldl (fun m t =>
      let old := t.1.foldl (fun s p => (s + p) % 2 ^ 32) 0
      m.set (((k + 2 ^ 32 - old) % 2 ^ 32) :: t.1) t.2) m) := by
    intro l
    induction l with
    | nil => intro m _ h; exact h
    | cons t l ih =>
      intro m hl hm
      refine ih _ (fun x hx => hl x (by simp [hx])) ?_
      intro x hx
      rcases mem_set hx with hx | rfl
      · exact hm x hx
      · exact hl t (by simp)
  exact key r [] h (by intro t ht; simp at ht)

/-- one value -/
lemma Rec.step {pc : MPoly.Cfg F} (hn : 1 ≤ pc.n) (hN : pc.newton = true) {k : ℕ} (hk : pc.deg = some k) (hk32 : k < 2 ^ 31) {p : MvPolynomial ℕ F} (hp : p.IsHomogeneous k)
    {m : ℕ} {st : MPoly.St F} (h : Rec pc p m st) :
    ∃ st', pc.interpolate st (eval (dir pc.anchor st.ord) p) st.ord = some st' ∧
      ((∃ r, st'.result = some r ∧ WFMap (pc.n + 1) (PolyFF.homogenize r k) ∧ NZ (PolyFF.homogenize r k) ∧ denote (PolyFF.homogenize r k) = p) ∨
        ∃ m' < m, Rec pc p m' st') := by
  obtain ⟨f, h1, h2⟩ := h
  have hval : eval (dir pc.anchor st.ord) p = MPoly.valueAt pc.anchor f st.ord := by
    unfold MPoly.valueAt
    rw [h1, eval_dehom, dir_eq]
  rw [hval]
  rcases h2 with ⟨rfl, rfl⟩ | ⟨h2, m1, h3, h4⟩
  · have hv : MPoly.valueAt pc.anchor ([] : FFMap F) pc.init.ord = 0 := by simp [MPoly.valueAt, denote]
    rw [hv]
    obtain ⟨st', e1, e2⟩ := MPoly.C43_zero (c := pc) hn hN
    refine ⟨st', e1, Or.inl ⟨[], e2, WFMap.nil _, by intro t ht; simp [PolyFF.homogenize] at ht, ?_⟩⟩
    apply dehom_inj (k := k) _ hp
    · rw [← h1]
      simp [PolyFF.homogenize, denote, dehomogenize]
    · simp [PolyFF.homogenize, denote, isHomogeneous_zero]
  · obtain ⟨st', e1, e2⟩ := h4.step h2.ctx h2.vars (MPoly.keysOf_ne h2.ne)
    rw [MPoly.valueAt_eq h2.wf]
    refine ⟨st', e1, ?_⟩
    rcases e2 with e2 | ⟨m', hm', e2⟩
    · obtain ⟨r, g1, g2, g3, g4⟩ := MPoly.done_isPoly h2.wf e2
      obtain ⟨k1, k2, k3⟩ := C17_homogenize g2 (d := k) (by omega) (by
        rintro ⟨key, v⟩ ht
        have := FFMap.find?_of_mem g2.1 ht
        rw [g3] at this
        exact (h2.deg k hk).2 _ (FFMap.find?_mem this))
      refine Or.inl ⟨r, g1, k1, nz_homogenize k ?_, dehom_inj k2 hp ?_⟩
      · rintro ⟨key, v⟩ ht
        have := FFMap.find?_of_mem g2.1 ht
        rw [g3] at this
        exact h2.nonzero _ (FFMap.find?_mem this)
      · rw [k3, g4, h1]
    · exact Or.inr ⟨m', by omega, f, h1, Or.inr ⟨h2, m', le_rfl, e2⟩⟩

end FireFly.RMulti
