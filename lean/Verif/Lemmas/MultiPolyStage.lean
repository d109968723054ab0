import Verif.Lemmas.MultiPolyRound
/-! # The later stages of the interpolation -/
set_option linter.all false
namespace FireFly.MPoly
open Polynomial
variable {F : Type} [Field F] [DecidableEq F]
variable {c : Cfg F} {S : Finset (List ℕ)} {co : List ℕ → F}

lemma foldl_range'_mul (f : ℕ → F) (k : ℕ) (x : F) : (List.range' 1 k).foldl (fun p t => p * f t) x = x * ∏ j ∈ Finset.range k, f (j + 1) := by
  induction k with
  | zero => simp
  | succ k ih => rw [List.range'_concat, List.foldl_append, ih, Finset.prod_range_succ]; simp [add_comm, mul_assoc]

lemma foldl_sub {α : Type} (w : α → F) (m : List α) (r : F) : m.foldl (fun res el => res - w el) r = r - (m.map w).sum := by
  induction m generalizing r with
  | nil => simp
  | cons t m ih => rw [List.foldl_cons, ih, List.map_cons, List.sum_cons]; ring

lemma subTerms_eq (c : Cfg F) (s : ℕ) (ord : List ℕ) (m : FFMap F) (r : F) :
    c.subTerms s ord m r = r - (m.map fun el => el.2 * hd c.a s (fun j => ord.getD j 0) el.1).sum := by
  unfold Cfg.subTerms
  have : ∀ el : List ℕ × F, (List.range' 1 s).foldl (fun p t => p * c.point t (ord.getD (t - 1) 0) ^ el.1.getD (t - 1) 0) el.2 =
      el.2 * hd c.a s (fun j => ord.getD j 0) el.1 := by
    intro el
    rw [foldl_range'_mul]
    rfl
  simp only [this]
  exact foldl_sub _ _ _

lemma map_sum_eq {m : FFMap F} (hn : (m.map Prod.fst).Nodup) {A : Finset (List ℕ)} {w h : List ℕ → F}
    (hm : ∀ k v, (k, v) ∈ m ↔ k ∈ A ∧ v = w k) : (m.map fun el => el.2 * h el.1).sum = ∑ k ∈ A, w k * h k := by
  have h1 : (m.map Prod.fst).toFinset = A := by
    ext k
    rw [List.mem_toFinset, fst_mem_iff]
    constructor
    · rintro ⟨v, hv⟩; exact ((hm k v).mp hv).1
    · intro hk; exact ⟨w k, (hm k _).mpr ⟨hk, rfl⟩⟩
  have h2 : (m.map fun el => el.2 * h el.1) = (m.map Prod.fst).map fun k => w k * h k := by
    rw [List.map_map]
    apply List.map_congr_left
    rintro ⟨k, v⟩ hkv
    rw [((hm k v).mp hkv).2]; rfl
  rw [h2, ← List.sum_toFinset _ hn, h1]

lemma hd_pow {a : ℕ → F} {s j : ℕ} {o : ℕ → ℕ} (ho : ∀ t < s, o t = j) (k : List ℕ) : hd a s o k = hd a s (fun _ => 1) k ^ j := by
  unfold hd
  rw [← Finset.prod_pow]
  apply Finset.prod_congr rfl
  intro t ht
  rw [Finset.mem_range] at ht
  rw [ho t ht, pow_one, ← pow_mul, ← pow_mul, mul_comm]

/-- the orders in a later stage -/
def ords (n s i j : ℕ) : List ℕ := List.replicate s j ++ (i + 1) :: List.replicate (n - s - 1) 1

lemma ords_getD {n s i j : ℕ} (hs : s < n) (t : ℕ) (ht : t < n) : (ords n s i j).getD t 0 = if t < s then j else if t = s then i + 1 else 1 := by
  unfold ords
  split
  · rename_i h
    rw [List.getD_append _ _ _ _ (by simpa using h)]; simp [h]
  · rename_i h
    rw [List.getD_append_right _ _ _ _ (by simp; omega)]
    rw [List.length_replicate]
    split
    · rename_i h'; subst h'; simp
    · rename_i h'
      obtain ⟨u, hu⟩ : ∃ u, t - s = u + 1 := ⟨t - s - 1, by omega⟩
      rw [hu, List.getD_cons_succ]
      simp only [List.getD_eq_getElem?_getD, List.getElem?_replicate]
      rw [if_pos (by omega)]; rfl

lemma ords_length {n s i j : ℕ} (hs : s < n) : (ords n s i j).length = n := by unfold ords; simp; omega

lemma ords_set {n s i : ℕ} (hs : s < n) : (List.replicate n 1).set s (i + 1) = ords n s i 1 := by
  apply List.ext_getElem
  · rw [ords_length hs]; simp
  · intro t h1 h2
    have hl := ords_length (i := i) (j := 1) hs
    rw [← List.getD_eq_getElem _ 0 h2, ords_getD hs t (by omega), List.getElem_set]
    simp only [List.getElem_replicate]
    rcases Nat.lt_trichotomy t s with h | h | h
    · rw [if_neg (by omega), if_pos h]
    · rw [if_pos h.symm, if_neg (by omega), if_pos h]
    · rw [if_neg (by omega), if_neg (by omega), if_neg (by omega)]

lemma ords_up {n s i j : ℕ} (hs : s < n) : (ords n s i j).mapIdx (fun t o => if t + 1 < s + 1 then o + 1 else o) = ords n s i (j + 1) := by
  apply List.ext_getElem
  · rw [List.length_mapIdx, ords_length hs, ords_length hs]
  · intro t h1 h2
    have hl := ords_length (i := i) (j := j + 1) hs
    rw [← List.getD_eq_getElem _ 0 h2, ords_getD hs t (by omega), List.getElem_mapIdx]
    have h3 : t < (ords n s i j).length := by rw [ords_length hs]; omega
    rw [← List.getD_eq_getElem _ 0 h3, ords_getD hs t (by omega)]
    rcases Nat.lt_trichotomy t s with h | h | h
    · simp [h]
    · subst h; simp
    · have h4 : ¬ t < s := by omega
      have h5 : ¬ t = s := by omega
      simp [h4, h5]

/-- a state of stage `s + 1`: `i` values of every open key are known and `j - 1` of the values for the next one -/
structure Later (c : Cfg F) (S : Finset (List ℕ)) (co : List ℕ → F) (s i j : ℕ) (R : List (List ℕ)) (st : St F) : Prop where
  pos : 0 < s
  lt : s < c.n
  ipos : 1 ≤ i
  jpos : 1 ≤ j
  jle : j ≤ R.length
  zi : st.zi = s + 1
  ord : st.ord = ords c.n s i j
  nums : st.nums = (List.range (j - 1)).map fun t => (R.map fun k => hd c.a s (fun _ => 1) k ^ (t + 1) * (slc c.n c.a S co s k).eval (c.a s ^ (i + 1))).sum
  recDegs : st.recDegs = R
  nodup : R.Nodup
  sub : ∀ k ∈ R, k ∈ KK c.n S s
  maps : Maps c S co s R st.solved st.tmpSolved
  keys : ∀ k ∈ R, KeyInv c (slc c.n c.a S co s k) s i k (st.ais.find? k) (st.bms.find? k)
  result : st.result = none

/-- a state at the end of stage `s + 1` -/
structure StageEnd (c : Cfg F) (S : Finset (List ℕ)) (co : List ℕ → F) (s : ℕ) (st : St F) : Prop where
  lt : s < c.n
  zi : st.zi = s + 1
  nums : st.nums = []
  maps : Maps c S co s [] st.solved st.tmpSolved
  result : st.result = none

/-- the new residual -/
lemma Later.value (h : Ctx c S co) {s i j : ℕ} {R : List (List ℕ)} {st : St F} (hL : Later c S co s i j R st) :
    c.subTerms st.zi st.ord st.tmpSolved (c.subTerms st.zi st.ord st.solved (val c.n c.a S co (fun t => st.ord.getD t 0))) =
      (R.map fun k => hd c.a s (fun _ => 1) k ^ j * (slc c.n c.a S co s k).eval (c.a s ^ (i + 1))).sum := by
  have hs := hL.lt
  rw [subTerms_eq, subTerms_eq, hL.zi]
  set o : ℕ → ℕ := fun t => st.ord.getD t 0 with ho
  have ho1 : ∀ t < s, o t = j := fun t ht => by
    rw [ho]; simp only; rw [hL.ord, ords_getD hs t (by omega), if_pos ht]
  have ho2 : o s = i + 1 := by
    rw [ho]; simp only; rw [hL.ord, ords_getD hs s hs, if_neg (by omega), if_pos rfl]
  have ho3 : ∀ t, s + 1 ≤ t → t < c.n → o t = 1 := fun t h1 h2 => by
    rw [ho]; simp only; rw [hL.ord, ords_getD hs t h2, if_neg (by omega), if_neg (by omega)]
  have hres := residual (a := c.a) (co := co) h.len hs o ho3 R.toFinset (fun k hk => hL.sub k (List.mem_toFinset.mp hk))
  rw [ho2] at hres
  have e1 := map_sum_eq (A := (KK c.n S (s + 1)).filter fun k => cut c.n s k ∉ R ∧ some k.sum = c.deg) (w := CC c.n c.a S co (s + 1)) (h := hd c.a (s + 1) o)
    hL.maps.nd1 (fun k v => by rw [hL.maps.mem1, Finset.mem_filter]; tauto)
  have e2 := map_sum_eq (A := (KK c.n S (s + 1)).filter fun k => cut c.n s k ∉ R ∧ some k.sum ≠ c.deg) (w := CC c.n c.a S co (s + 1)) (h := hd c.a (s + 1) o)
    hL.maps.nd2 (fun k v => by rw [hL.maps.mem2, Finset.mem_filter]; tauto)
  rw [e1, e2]
  have e3 : ∑ k ∈ (KK c.n S (s + 1)).filter (fun k => cut c.n s k ∉ R ∧ some k.sum = c.deg), CC c.n c.a S co (s + 1) k * hd c.a (s + 1) o k +
      ∑ k ∈ (KK c.n S (s + 1)).filter (fun k => cut c.n s k ∉ R ∧ some k.sum ≠ c.deg), CC c.n c.a S co (s + 1) k * hd c.a (s + 1) o k =
      ∑ k' ∈ KK c.n S (s + 1) with cut c.n s k' ∉ R.toFinset, CC c.n c.a S co (s + 1) k' * hd c.a (s + 1) o k' := by
    rw [← Finset.sum_filter_add_sum_filter_not ((KK c.n S (s + 1)).filter fun k' => cut c.n s k' ∉ R.toFinset) (fun k => some k.sum = c.deg)]
    rw [Finset.filter_filter, Finset.filter_filter]
    simp only [List.mem_toFinset]
  have e4 : ∑ k ∈ R.toFinset, hd c.a s o k * (slc c.n c.a S co s k).eval (c.a s ^ (i + 1)) =
      (R.map fun k => hd c.a s (fun _ => 1) k ^ j * (slc c.n c.a S co s k).eval (c.a s ^ (i + 1))).sum := by
    rw [List.sum_toFinset _ hL.nodup]
    congr 1
    apply List.map_congr_left
    intro k _
    rw [hd_pow ho1]
  rw [← e4, ← hres, ← e3]
  ring

lemma hd_one_ne (h : Ctx c S co) {s : ℕ} (hs : s < c.n) (k : List ℕ) : hd c.a s (fun _ => 1) k ≠ 0 := by
  unfold hd
  rw [Finset.prod_ne_zero_iff]
  intro t ht
  rw [Finset.mem_range] at ht
  exact pow_ne_zero _ (pow_ne_zero _ (h.nonzero t (by omega)))

/-- the solution of the linear system -/
lemma solve_spec (h : Ctx c S co) {s : ℕ} (hs : s < c.n) {R : List (List ℕ)} (hR : R ≠ []) (hnd : R.Nodup) (hsub : ∀ k ∈ R, k ∈ KK c.n S s)
    (ev : List ℕ → F) {st : St F} (hz : st.zi = s + 1) (hr : st.recDegs = R)
    (hn : st.nums = (List.range R.length).map fun t => (R.map fun k => hd c.a s (fun _ => 1) k ^ (t + 1) * ev k).sum) :
    c.solve st = some (R.map fun k => (k, ev k)) := by
  unfold Cfg.solve
  have hvis : (st.recDegs.map fun el => (List.range' 1 (st.zi - 1)).foldl (fun p t => p * c.point t (el.getD (t - 1) 0)) 1) = R.map (hd c.a s (fun _ => 1)) := by
    rw [hr, hz]
    apply List.map_congr_left
    intro k _
    rw [foldl_range'_mul, one_mul]
    unfold hd
    apply Finset.prod_congr (by simp)
    intro t _
    rw [pow_one]; rfl
  rw [hvis, hr]
  have hinj : ∀ k ∈ R, ∀ k' ∈ R, hd c.a s (fun _ => 1) k = hd c.a s (fun _ => 1) k' → k = k' := fun k hk k' hk' e => h.nodes s hs k (hsub k hk) k' (hsub k' hk') e
  have hsol : solveTransposedVandermonde (R.map (hd c.a s (fun _ => 1))) st.nums = some (R.map ev) := by
    rw [C20_transposed]
    · refine ⟨by simp, ?_⟩
      intro k hk
      rw [List.length_map] at hk
      rw [hn, List.getD_eq_getElem _ _ (by simpa using hk), List.getElem_map, List.getElem_range]
      rw [← Equiv.sum_comp (finCongr (by simp : R.length = (R.map (hd c.a s (fun _ => 1))).length))]
      rw [← List.sum_ofFn]
      congr 1
      apply List.ext_getElem
      · simp
      · intro t h1 h2
        simp only [List.length_ofFn] at h1
        rw [List.getElem_ofFn]
        simp only [finCongr_apply, Fin.val_cast, Fin.getElem_fin, List.getElem_map]
        rw [List.getD_eq_getElem _ _ (by simpa using h1), List.getElem_map, mul_comm]
    · simpa using hR
    · rw [hn]; simp
    · exact (List.nodup_map_iff_inj_on hnd).mpr (fun k hk k' hk' e => hinj k hk k' hk' e)
    · intro h0
      obtain ⟨k, -, hk⟩ := List.mem_map.mp h0
      exact hd_one_ne h hs k hk
  simp only [hsol, Option.bind_eq_bind, Option.bind_some]
  congr 1
  have hz' := List.zip_map' (f := fun k : List ℕ => k) (g := ev) (l := R)
  rw [List.map_id'] at hz'
  exact hz'

/-- one value in a later stage -/
lemma Later.step (h : Ctx c S co) {s i j : ℕ} {R : List (List ℕ)} {st : St F} (hL : Later c S co s i j R st) :
    ∃ st' b, c.later st (val c.n c.a S co (fun t => st.ord.getD t 0)) = some (st', b) ∧
      ((b = true ∧ StageEnd c S co s st') ∨
       (b = false ∧ Later c S co s i (j + 1) R st') ∨
       (b = false ∧ ∃ R', Later c S co s (i + 1) 1 R' st')) := by
  have hs := hL.lt
  have hRne : R ≠ [] := by
    rintro rfl
    have := hL.jpos; have := hL.jle; simp at this; omega
  unfold Cfg.later
  rw [hL.value h]
  have hi : st.ord.getD (st.zi - 1) 0 = i + 1 := by
    rw [hL.zi, hL.ord, Nat.add_sub_cancel, ords_getD hs s hs, if_neg (by omega), if_pos rfl]
  rw [hi]
  have hnums : st.nums ++ [(R.map fun k => hd c.a s (fun _ => 1) k ^ j * (slc c.n c.a S co s k).eval (c.a s ^ (i + 1))).sum] =
      (List.range j).map fun t => (R.map fun k => hd c.a s (fun _ => 1) k ^ (t + 1) * (slc c.n c.a S co s k).eval (c.a s ^ (i + 1))).sum := by
    rw [hL.nums]
    obtain ⟨j', hj⟩ : ∃ j', j = j' + 1 := ⟨j - 1, by have := hL.jpos; omega⟩
    subst hj
    rw [Nat.add_sub_cancel, List.range_succ, List.map_append]; rfl
  simp only [hnums, Option.bind_eq_bind]
  by_cases hj : j = R.length
  · have hc : (List.map (fun t => (R.map fun k => hd c.a s (fun _ => 1) k ^ (t + 1) * (slc c.n c.a S co s k).eval (c.a s ^ (i + 1))).sum) (List.range j)).length = st.recDegs.length := by
      rw [hL.recDegs]; simp [hj]
    rw [if_pos hc]
    obtain ⟨s1, hs1⟩ : ∃ s1 : St F, s1 = { st with nums := (List.range j).map fun t => (R.map fun k => hd c.a s (fun _ => 1) k ^ (t + 1) * (slc c.n c.a S co s k).eval (c.a s ^ (i + 1))).sum } := ⟨_, rfl⟩
    have hsv := solve_spec h hs hRne hL.nodup hL.sub (fun k => (slc c.n c.a S co s k).eval (c.a s ^ (i + 1))) (st := s1) (by rw [hs1]; exact hL.zi) (by rw [hs1]; exact hL.recDegs)
      (by rw [hs1, hj])
    rw [hs1] at hsv
    rw [hsv, Option.bind_some]
    have hI : RoundInv c S co s i { st with ord := (List.replicate c.n 1).set (st.zi - 1) (i + 1 + 1), nums := [] } [] R
        ({ st with ord := (List.replicate c.n 1).set (st.zi - 1) (i + 1 + 1), nums := [] }, 0, 0) :=
      { zi := hL.zi, ord := rfl, nums := rfl, result := rfl, recDegs := by simpa using hL.recDegs, nodup := by simpa using hL.nodup,
        sub := by simpa using hL.sub, maps := by simpa using hL.maps, done := by simp, todo := by simpa using hL.keys,
        nb := by simp, nn := by simp, nn' := by simp }
    obtain ⟨st', U, e1, e2⟩ := round_spec h hs hL.pos R [] _ hI
    rw [Nat.add_sub_cancel]
    refine ⟨st'.1, (st'.2.1 == 0 && c.newton) || (st'.2.2 == 0 && c.bt), ?_, ?_⟩
    · show ((R.map fun k => (k, (slc c.n c.a S co s k).eval (c.a s ^ (i + 1)))).foldlM (c.keyStep i) _).bind _ = _
      rw [hi, e1]; rfl
    · have hnil : U ++ [] = U := by simp
      have hzi := e2.zi
      have hord := e2.ord
      have hres := e2.result
      have hmaps := e2.maps
      rw [hnil] at hmaps
      by_cases hU : U = []
      · left
        subst hU
        refine ⟨?_, hs, hzi, e2.nums, hmaps, ?_⟩
        · rcases hb : c.bt with _ | _
          · have hnew : c.newton = true := by
              rcases h.some with h1 | h1
              · exact h1
              · rw [hb] at h1; cases h1
            have := e2.nn' hnew hb
            rw [this, hnew]; rfl
          · have := e2.nb hb
            rw [this]; simp
        · rw [hres]; exact hL.result
      · right; right
        have hpos : 0 < U.length := List.length_pos_iff.mpr hU
        refine ⟨?_, U, ?_⟩
        · rw [Bool.or_eq_false_iff]
          constructor
          · rcases hn : c.newton with _ | _
            · simp
            · have := e2.nn hn
              simp; omega
          · rcases hb : c.bt with _ | _
            · simp
            · have := e2.nb hb
              simp; omega
        · refine ⟨hL.pos, hs, by omega, le_rfl, hpos, hzi, ?_, ?_, by rw [e2.recDegs]; simp, by simpa using e2.nodup, by simpa using e2.sub, hmaps, e2.done, ?_⟩
          · rw [hord]
            show (List.replicate c.n 1).set (st.zi - 1) (i + 1 + 1) = _
            rw [hL.zi, Nat.add_sub_cancel, ords_set hs]
          · rw [e2.nums]; rfl
          · rw [hres]; exact hL.result
  · have hlt : j < R.length := lt_of_le_of_ne hL.jle hj
    have hc : ¬ (List.map (fun t => (R.map fun k => hd c.a s (fun _ => 1) k ^ (t + 1) * (slc c.n c.a S co s k).eval (c.a s ^ (i + 1))).sum) (List.range j)).length = st.recDegs.length := by
      rw [hL.recDegs]; simp; omega
    rw [if_neg hc]
    refine ⟨_, _, rfl, Or.inr (Or.inl ⟨rfl, ?_⟩)⟩
    refine ⟨hL.pos, hs, hL.ipos, by omega, by omega, hL.zi, ?_, ?_, hL.recDegs, hL.nodup, hL.sub, hL.maps, hL.keys, hL.result⟩
    · show st.ord.mapIdx _ = _
      rw [hL.zi, hL.ord, ords_up hs]
    · rfl

end FireFly.MPoly
