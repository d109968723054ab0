import Verif.Lemmas.RatMultiUnshift
/-! # The normalization at the end -/
set_option linter.all false
namespace FireFly.RMulti
open MvPolynomial
variable {F : Type} [Field F] [DecidableEq F] {c : Cfg F} {bounds : Option (List ℕ)} {Q N D : MvPolynomial ℕ F} {m T : ℕ}

lemma zeros_toFinsupp (n : ℕ) : (List.replicate n 0).toFinsupp = 0 := by
  ext i
  rw [List.toFinsupp_apply, List.getD_eq_getElem?_getD, List.getElem?_replicate, Finsupp.zero_apply]
  split <;> rfl

lemma part_zero (s : List F) (Q : MvPolynomial ℕ F) : part s Q 0 = C (eval (fun i => s.getD i 0) Q) := by
  rw [part_eq, homogeneousComponent_zero]
  congr 1
  rw [← constantCoeff_eq, ← eval_zero, eval_shiftPoly]
  have : (fun i => (0 : ℕ → F) i + s.getD i 0) = fun i => s.getD i 0 := by funext i; simp
  rw [this]

lemma find_coeff {n : ℕ} {p : FFMap F} (hw : WFMap n p) (hz : NZ p) {k : List ℕ} (hk : k.length = n) (h : coeff k.toFinsupp (denote p) ≠ 0) : p.find? k = some (coeff k.toFinsupp (denote p)) := by
  rw [coeff_denote hw hk] at h ⊢
  cases hf : p.find? k with
  | none => rw [hf] at h; exact absurd rfl h
  | some v => rfl

lemma find_scale (p : FFMap F) (k : List ℕ) (x : F) : (PolyFF.scale p x).find? k = (p.find? k).map (fun v => v * x) := by
  induction p with
  | nil => rfl
  | cons t p ih =>
    obtain ⟨a, v⟩ := t
    have e : PolyFF.scale ((a, v) :: p) x = (a, v * x) :: PolyFF.scale p x := rfl
    rw [e, FFMap.find?_cons, FFMap.find?_cons]
    by_cases h : k = a
    · rw [if_pos h, if_pos h]; rfl
    · rw [if_neg h, if_neg h]; exact ih

/-- the constant that is found with the subtraction terms -/
lemma Final.const (hs : c.shift.length = c.n) (hok : SideOK c bounds Q m) {s : Side F} (h : Final c Q m s) (hsh : c.hasShift = true) (h1 : eval (fun i => c.shift.getD i 0) Q = 1) :
    1 - ((polyAt s.sub 0).find? (List.replicate c.n 0)).getD 0 = coeff 0 Q := by
  obtain ⟨g1, g2⟩ := h.sub hsh 0 (by omega)
  have h2 := hok.unshift (Nat.zero_le m)
  rw [part_zero, h1, homogeneousComponent_zero] at h2
  rw [← coeff_denote g1 (k := List.replicate c.n 0) (by simp), zeros_toFinsupp, g2, subSum_zero_one]
  have h3 := congrArg (coeff 0) h2
  rw [coeff_add, coeff_zero_C, coeff_zero_C] at h3
  rw [show (subSum c Q m 1 0) = subSum c Q m (0 + 1) 0 from rfl]
  rw [h3]; ring

lemma low_mem : ∀ (ks : List (List ℕ)) (l : List ℕ), ks.foldl (fun (l : List ℕ) k => if l = [] then k else if aGrtB l k then k else l) l ∈ l :: ks := by
  intro ks
  induction ks with
  | nil => intro l; simp
  | cons k ks ih =>
    intro l
    rw [List.foldl_cons]
    by_cases h : l = []
    · rw [if_pos h]
      have := ih k
      rw [List.mem_cons] at this ⊢
      right; simpa using this
    · rw [if_neg h]
      split_ifs
      · have := ih k
        rw [List.mem_cons] at this ⊢
        right; simpa using this
      · have := ih l
        rw [List.mem_cons] at this ⊢
        rcases this with h | h
        · left; exact h
        · right; simp [h]

lemma low_mem' {ks : List (List ℕ)} (hne : ks ≠ []) : ks.foldl (fun (l : List ℕ) k => if l = [] then k else if aGrtB l k then k else l) [] ∈ ks := by
  rcases ks with _ | ⟨k, ks⟩
  · exact absurd rfl hne
  · rw [List.foldl_cons, if_pos rfl]
    exact low_mem ks k

lemma normalizer_spec {num den : FFMap F} (hwn : WFMap c.n num) (hzn : NZ num) (hwd : WFMap c.n den) (hzd : NZ den) (hD : den ≠ []) {k0 : F}
    (hk : k0 ≠ 1 → coeff 0 (denote (if c.normDen then den else num)) = 1 - k0) :
    let t := c.normalizer num den k0
    (t.1 ≠ 0 ∧ (if t.2.1 then den else num).find? t.2.2.1 = some t.1) ∧
    (t.2.2.2 = false → ∀ u ∈ (if t.2.1 then den else num), u.1.sum = t.2.2.1.sum → u.1 = t.2.2.1) ∧
    (t.2.2.2 = true → ∀ m ∈ [num, den], ∀ t ∈ m, ∃ u ∈ m, u.1 ≠ t.1 ∧ u.1.sum = t.1.sum) := by
  have const : ∀ {m : FFMap F}, WFMap c.n m → ∀ u ∈ m, u.1.sum = (List.replicate c.n 0).sum → u.1 = List.replicate c.n 0 := by
    intro m hm u hu hs
    rw [List.sum_replicate, smul_zero, List.sum_eq_zero_iff] at hs
    exact List.eq_replicate_iff.mpr ⟨hm.2 u hu, hs⟩
  have constIf : ∀ b : Bool, ∀ u ∈ (if b then den else num), u.1.sum = (List.replicate c.n 0).sum → u.1 = List.replicate c.n 0 := by
    intro b; cases b
    · exact const hwn
    · exact const hwd
  have lon : ∀ {m : FFMap F} {t : List ℕ × F}, lonely m = some t → ∀ u ∈ m, u.1.sum = t.1.sum → u.1 = t.1 := by
    intro m t h u hu hs
    have := List.find?_some h
    have := of_decide_eq_true (List.all_eq_true.mp this u hu)
    tauto
  have lonN : ∀ {m : FFMap F}, lonely m = none → ∀ t ∈ m, ∃ u ∈ m, u.1 ≠ t.1 ∧ u.1.sum = t.1.sum := by
    intro m h t ht
    have := List.find?_eq_none.mp h t ht
    rw [Bool.not_eq_true, List.all_eq_false] at this
    obtain ⟨u, hu, h⟩ := this
    refine ⟨u, hu, ?_⟩
    simpa [not_or] using h
  unfold Cfg.normalizer
  simp only
  by_cases h1 : k0 ≠ 1
  · rw [if_pos h1]
    have hne : (1 : F) - k0 ≠ 0 := sub_ne_zero.mpr (Ne.symm h1)
    refine ⟨⟨hne, ?_⟩, fun _ => constIf _, by simp⟩
    have h2 := hk h1
    rw [← zeros_toFinsupp c.n] at h2
    cases hb : c.normDen
    · rw [hb] at h2
      simp only [Bool.false_eq_true, if_false] at h2 ⊢
      rw [find_coeff hwn hzn (by simp) (by rw [h2]; exact hne), h2]
    · rw [hb] at h2
      simp only [if_true] at h2 ⊢
      rw [find_coeff hwd hzd (by simp) (by rw [h2]; exact hne), h2]
  · rw [if_neg h1]
    by_cases h2 : c.normDen = false ∧ (num.find? (List.replicate c.n 0)).isSome
    · rw [if_pos h2]
      obtain ⟨v, hv⟩ := Option.isSome_iff_exists.mp h2.2
      simp only [hv, Option.getD_some, Bool.false_eq_true, if_false, and_true]
      exact ⟨hzn _ (FFMap.find?_mem hv), fun _ => const hwn, by simp⟩
    · rw [if_neg h2]
      by_cases h3 : c.normDen = true ∧ (den.find? (List.replicate c.n 0)).isSome
      · rw [if_pos h3]
        obtain ⟨v, hv⟩ := Option.isSome_iff_exists.mp h3.2
        simp only [hv, Option.getD_some, if_true, and_true]
        exact ⟨hzd _ (FFMap.find?_mem hv), fun _ => const hwd, by simp⟩
      · rw [if_neg h3]
        cases hl : lonely den with
        | some t =>
          have ht : t ∈ den := List.mem_of_find?_eq_some hl
          simp only [if_true]
          exact ⟨⟨hzd t ht, FFMap.find?_of_mem hwd.1 ht⟩, fun _ => lon hl, by simp⟩
        | none =>
          simp only
          cases hl' : lonely num with
          | some t =>
            have ht : t ∈ num := List.mem_of_find?_eq_some hl'
            simp only [Bool.false_eq_true, if_false]
            exact ⟨⟨hzn t ht, FFMap.find?_of_mem hwn.1 ht⟩, fun _ => lon hl', by simp⟩
          | none =>
            simp only [if_true]
            have hm := low_mem' (ks := den.map Prod.fst) (by simpa using hD)
            obtain ⟨⟨key, v⟩, ht, hte⟩ := List.mem_map.mp hm
            have hf := FFMap.find?_of_mem hwd.1 ht
            rw [← hte]
            simp only
            rw [hf]
            exact ⟨⟨hzd _ ht, rfl⟩, by simp, fun _ m hm => by
              rcases List.mem_cons.mp hm with rfl | hm
              · exact lonN hl'
              · rw [List.mem_singleton.mp hm]; exact lonN hl⟩

lemma denote_ne {n : ℕ} {p : FFMap F} (h : denote p ≠ 0) : p ≠ [] := by
  rintro rfl; exact h (by simp [denote])

lemma SideOK.ne (h : SideOK c bounds Q m) : Q ≠ 0 := by
  rintro rfl; exact h.lead (by simp [part])

lemma scale_nz {p : FFMap F} (h : NZ p) {x : F} (hx : x ≠ 0) : NZ (PolyFF.scale p x) := by
  intro t ht
  unfold PolyFF.scale at ht
  obtain ⟨u, hu, rfl⟩ := List.mem_map.mp ht
  exact mul_ne_zero (h u hu) hx

/-- one side at the end -/
structure EndSide (c : Cfg F) (Q : MvPolynomial ℕ F) (s : Side F) : Prop where
  final : Final c Q s.maxDeg s
  lead : part c.shift Q s.maxDeg ≠ 0
  top : ∀ k, s.maxDeg < k → part c.shift Q k = 0
  keep : ∀ k, part c.shift Q k = 0 → homogeneousComponent k Q = 0

/-- the result and the two sides at the end -/
def Ends (c : Cfg F) (N D : MvPolynomial ℕ F) (s : St F) (r : Result F) : Prop := Good c N D r ∧ EndSide c N s.num ∧ EndSide c D s.den ∧
  ((r.normDen = c.normDen ∧ r.normDeg = List.replicate c.n 0) ∨ (if c.normDen then r.den else r.num).find? (List.replicate c.n 0) = none)

lemma normalizer_const (num den : FFMap F) (k0 : F) :
    ((c.normalizer num den k0).2.1 = c.normDen ∧ (c.normalizer num den k0).2.2.1 = List.replicate c.n 0) ∨ (if c.normDen then den else num).find? (List.replicate c.n 0) = none := by
  unfold Cfg.normalizer
  simp only
  by_cases h1 : k0 ≠ 1
  · rw [if_pos h1]; exact Or.inl ⟨rfl, rfl⟩
  · rw [if_neg h1]
    cases hb : c.normDen
    · by_cases h2 : (num.find? (List.replicate c.n 0)).isSome
      · rw [if_pos ⟨rfl, h2⟩]; exact Or.inl ⟨rfl, rfl⟩
      · right; simpa using h2
    · by_cases h2 : (den.find? (List.replicate c.n 0)).isSome
      · rw [if_neg (by simp), if_pos ⟨rfl, h2⟩]; exact Or.inl ⟨rfl, rfl⟩
      · right; simpa using h2

lemma finish_spec {TN TD mN mD : ℕ} (hs : c.shift.length = c.n) (hN : SideOK c c.boundsNum N mN) (hD : SideOK c c.boundsDen D mD)
    (hnorm : eval (fun i => c.shift.getD i 0) (if c.normDen then D else N) = 1) {s : St F} (h1 : SInv c N mN TN s.num) (h2 : SInv c D mD TD s.den)
    (e1 : s.num.coefs = []) (e2 : s.den.coefs = []) : ∃ s' r, c.finish s = some s' ∧ s'.savedTi = [] ∧ s'.result = some r ∧ Ends c N D s' r := by
  have key : ∀ (num den : Side F), Final c N mN num → Final c D mD den → num.maxDeg = mN → den.maxDeg = mD →
      (c.hasShift = true → c.unshift s.num = some num ∧ c.unshift s.den = some den) → (c.hasShift = false → num = s.num ∧ den = s.den) →
      ∃ s' r, c.finish s = some s' ∧ s'.savedTi = [] ∧ s'.result = some r ∧ Ends c N D s' r := by
    intro num den f1 f2 w1 w2 u1 u2
    obtain ⟨a1, a2, a3⟩ := f1.collect hN
    obtain ⟨b1, b2, b3⟩ := f2.collect hD
    have hden : RMulti.collect den ≠ [] := denote_ne (n := c.n) (by rw [b3]; exact hD.ne)
    set k0 : F := if c.hasShift then ((polyAt (if c.normDen then den else num).sub 0).find? (List.replicate c.n 0)).getD 0 else 0 with hk0
    have hcoef : k0 ≠ 1 → coeff 0 (denote (if c.normDen then RMulti.collect den else RMulti.collect num)) = 1 - k0 := by
      intro _
      cases hsh : c.hasShift
      · rw [hk0, hsh]
        simp only [Bool.false_eq_true, if_false, sub_zero]
        have hz : (fun i => c.shift.getD i 0) = (0 : ℕ → F) := by
          unfold Cfg.hasShift at hsh
          rw [decide_eq_false_iff_not, not_not] at hsh
          funext i
          rw [hsh, List.getD_eq_getElem?_getD, List.getElem?_replicate]
          split <;> rfl
        rw [hz, show (eval (0 : ℕ → F)) = constantCoeff from eval_zero] at hnorm
        cases hb : c.normDen
        · rw [hb] at hnorm
          simp only [Bool.false_eq_true, if_false] at hnorm ⊢
          rw [a3, ← constantCoeff_eq]; exact hnorm
        · rw [hb] at hnorm
          simp only [if_true] at hnorm ⊢
          rw [b3, ← constantCoeff_eq]; exact hnorm
      · rw [hk0, hsh]
        simp only [if_true]
        cases hb : c.normDen
        · rw [hb] at hnorm
          simp only [Bool.false_eq_true, if_false] at hnorm ⊢
          rw [a3, f1.const hs hN hsh hnorm]
        · rw [hb] at hnorm
          simp only [if_true] at hnorm ⊢
          rw [b3, f2.const hs hD hsh hnorm]
    obtain ⟨⟨t1, t2⟩, t3, t4⟩ := normalizer_spec (c := c) a1 a2 b1 b2 hden hcoef
    set t := c.normalizer (RMulti.collect num) (RMulti.collect den) k0 with ht
    have hfin : c.finish s = some { s with num := num, den := den, savedTi := [], result := some { num := PolyFF.scale (RMulti.collect num) (1 / t.1), den := PolyFF.scale (RMulti.collect den) (1 / t.1), normDen := t.2.1, normDeg := t.2.2.1, singular := t.2.2.2 } } := by
      unfold Cfg.finish
      cases hsh : c.hasShift
      · obtain ⟨q1, q2⟩ := u2 hsh
        simp only [Bool.false_eq_true, if_false, Option.bind_eq_bind, Option.bind_some]
        rw [ht, hk0, hsh, q1, q2]
        simp only [Bool.false_eq_true, if_false]
      · obtain ⟨q1, q2⟩ := u1 hsh
        simp only [if_true, Option.bind_eq_bind, q1, q2, Option.bind_some]
        rw [ht, hk0, hsh]
        simp only [if_true]
    refine ⟨_, _, hfin, rfl, rfl, ?_, ⟨by simpa [w1] using f1, by simpa [w1] using hN.lead, by simpa [w1] using hN.top, hN.keep⟩, ⟨by simpa [w2] using f2, by simpa [w2] using hD.lead, by simpa [w2] using hD.top, hD.keep⟩, ?_⟩
    rotate_left
    · rcases normalizer_const (c := c) (RMulti.collect num) (RMulti.collect den) k0 with h | h
      · exact Or.inl h
      · right
        cases hb : c.normDen <;> rw [hb] at h <;> simp only [Bool.false_eq_true, if_false, if_true] at h ⊢ <;> rw [find_scale, h] <;> rfl
    refine ⟨(C13_scale a1 _).1, (C13_scale b1 _).1, scale_nz a2 (one_div_ne_zero t1), scale_nz b2 (one_div_ne_zero t1),
      ⟨1 / t.1, one_div_ne_zero t1, by rw [(C13_scale a1 _).2, a3], by rw [(C13_scale b1 _).2, b3]⟩, ?_, ?_, ?_⟩
    rotate_left
    · intro h t' ht' hs
      simp only at h ht' hs ⊢
      have ht2 : t' ∈ PolyFF.scale (if t.2.1 then RMulti.collect den else RMulti.collect num) (1 / t.1) := by
        cases hb : t.2.1 <;> rw [hb] at ht' <;> simpa using ht'
      unfold PolyFF.scale at ht2
      obtain ⟨u, hu, rfl⟩ := List.mem_map.mp ht2
      exact t3 h u hu hs
    · intro h m hm t' ht'
      have : ∃ m0 ∈ [RMulti.collect num, RMulti.collect den], m = PolyFF.scale m0 (1 / t.1) := by
        rcases List.mem_cons.mp hm with rfl | hm
        · exact ⟨_, by simp, rfl⟩
        · rw [List.mem_singleton.mp hm]; exact ⟨_, by simp, rfl⟩
      obtain ⟨m0, hm0, rfl⟩ := this
      unfold PolyFF.scale at ht' ⊢
      obtain ⟨u, hu, rfl⟩ := List.mem_map.mp ht'
      obtain ⟨w, hw, h1, h2⟩ := t4 h m0 hm0 u hu
      exact ⟨_, List.mem_map_of_mem hw, h1, h2⟩
    simp only
    cases hb : t.2.1
    · rw [hb] at t2
      simp only [Bool.false_eq_true, if_false] at t2 ⊢
      rw [find_scale, t2, Option.map_some, mul_one_div, div_self t1]
    · rw [hb] at t2
      simp only [if_true] at t2 ⊢
      rw [find_scale, t2, Option.map_some, mul_one_div, div_self t1]
  cases hsh : c.hasShift
  · exact key s.num s.den (h1.final hs e1 hsh) (h2.final hs e2 hsh) h1.maxDeg h2.maxDeg (by simp [hsh]) (fun _ => ⟨rfl, rfl⟩)
  · obtain ⟨n', g1, g2, g5⟩ := h1.unshift hs hN e1 hsh
    obtain ⟨d', g3, g4, g6⟩ := h2.unshift hs hD e2 hsh
    exact key n' d' g2 g4 g5 g6 (fun _ => ⟨g1, g3⟩) (by simp [hsh])

end FireFly.RMulti
