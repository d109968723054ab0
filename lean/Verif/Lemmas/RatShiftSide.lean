import Verif.Lemmas.RatShiftSet
/-! # A further prime field with a shift: polynomials and their shifts -/
set_option linter.all false
namespace FireFly.RShift
open MvPolynomial FFMap
open FireFly.RMulti (polyAt part dir sh subSum tgt addShifts)
variable {F : Type} [Field F] [DecidableEq F] {c : Cfg F} {const : Bool} {p : Prior} {Q : MvPolynomial ℕ F}

/-! ### polynomials of degree `k` -/

/-- zero coefficients only for the constant -/
def Zc (n : ℕ) (m : FFMap F) : Prop := ∀ t ∈ m, t.2 = 0 → t.1 = List.replicate n 0

lemma Zc.addAssign {n : ℕ} {a b : FFMap F} (ha : WFMap n a) (hb : WFMap n b) (hz : Zc n a) : Zc n (PolyFF.addAssign a b) := by
  have hw := (C13_add_assign ha hb).1
  rintro ⟨k, v⟩ ht hv
  simp only at hv ⊢
  subst hv
  have h := find?_of_mem hw.1 ht
  unfold PolyFF.addAssign at h
  rw [find?_foldl_step find?_addAssignStep b a k hb.1] at h
  cases hb' : b.find? k with
  | none => rw [hb'] at h; exact hz _ (find?_mem h) rfl
  | some w =>
    rw [hb'] at h
    simp only [mergeAssign] at h
    split_ifs at h with hw
    · exact hz _ (find?_mem h) rfl
    · cases ha' : a.find? k with
      | none => rw [ha'] at h; simp [mergeAdd] at h; exact absurd h hw
      | some v => rw [ha'] at h; exact absurd h (mergeAdd_ne v w)

lemma zero_exact {n : ℕ} {m : FFMap F} (hw : WFMap n m) (hz : Zc n m) (h0 : denote m = 0) : PolyFF.zero m = true := by
  have hall : ∀ t ∈ m, t = (List.replicate n 0, 0) := by
    intro t ht
    have h1 : t.2 = 0 := by
      have := coeff_denote hw (hw.2 t ht)
      rw [h0, coeff_zero, FFMap.find?_of_mem hw.1 (v := t.2) ht] at this
      exact this.symm
    exact Prod.ext (hz t ht h1) h1
  match m, hw, hall with
  | [], _, _ => rfl
  | [t], _, hall => rw [hall t (by simp)]; simp [PolyFF.zero]
  | t :: u :: m, hw, hall =>
    exfalso
    have := hw.1
    rw [hall t (by simp), hall u (by simp)] at this
    simp at this

lemma part_above (s : List F) {m : ℕ} (hm : ∀ k, m < k → homogeneousComponent k Q = 0) {k : ℕ} (hk : m < k) : part s Q k = 0 := by
  rw [RMulti.part_sum s Q k (fun l hl => hm l (by omega)) le_rfl, hm k hk, zero_add]
  apply Finset.sum_eq_zero
  intro l hl
  rw [Finset.mem_filter, Finset.mem_range] at hl
  omega

lemma part_homog (s : List F) (Q : MvPolynomial ℕ F) (k : ℕ) : (part s Q k).IsHomogeneous k := homogeneousComponent_isHomogeneous _ _

lemma part_unshift {m : ℕ} (hm : ∀ k, m < k → homogeneousComponent k Q = 0) {k : ℕ} (hk : k ≤ m) : part c.shift Q k = homogeneousComponent k Q + subSum c.multi Q m (k + 1) k := by
  rw [RMulti.part_sum c.shift Q m hm hk]
  congr 1
  unfold subSum
  apply Finset.sum_congr _ (fun _ _ => rfl)
  ext x
  simp only [Finset.mem_filter]
  constructor
  · rintro ⟨a, b⟩; exact ⟨a, by omega, b⟩
  · rintro ⟨a, -, b⟩; exact ⟨a, b⟩

/-- the monomials of a polynomial are in the list -/
lemma terms_denote {n : ℕ} {P : MvPolynomial ℕ F} {es : List (List ℕ)} (hnd : es.Nodup) (hl : ∀ e ∈ es, e.length = n) (hs : ∀ x, coeff x P ≠ 0 → ∃ e ∈ es, e.toFinsupp = x) :
    WFMap n (RLater.terms P es) ∧ denote (RLater.terms P es) = P := by
  have hw : WFMap n (RLater.terms P es) := by
    refine ⟨?_, ?_⟩
    · unfold RLater.terms
      rw [List.map_map, show (Prod.fst ∘ fun e : List ℕ => (e, coeff e.toFinsupp P)) = id from rfl, List.map_id]
      exact hnd
    · intro x hx
      obtain ⟨e, he, rfl⟩ := List.mem_map.mp hx
      exact hl e he
  refine ⟨hw, denote_ext hw ?_ ?_⟩
  · intro k hk
    by_cases hke : k ∈ es
    · rw [FFMap.find?_of_mem hw.1 (v := coeff k.toFinsupp P) (List.mem_map.mpr ⟨k, hke, rfl⟩)]; rfl
    · rw [FFMap.find?_eq_none.mpr]
      · by_contra h0
        obtain ⟨e, he, hee⟩ := hs _ h0
        apply hke
        have : e = k := by
          apply List.ext_getElem ((hl e he).trans hk.symm)
          intro i h1 h2
          have := DFunLike.congr_fun hee i
          simpa [h1, h2] using this
        rw [← this]; exact he
      · intro hm
        obtain ⟨x, hx, rfl⟩ := List.mem_map.mp hm
        obtain ⟨e, he, rfl⟩ := List.mem_map.mp hx
        exact hke he
  · intro d hd
    by_contra h0
    obtain ⟨e, he, hee⟩ := hs _ h0
    exact hd e (hl e he) hee

/-- a polynomial from its values for the order vectors `(1, …, 1), (2, …, 2), …` -/
lemma van {n d : ℕ} {a : List F} (ha : a.length + 1 = n) (h0 : ∀ x ∈ a, x ≠ 0) {P : MvPolynomial ℕ F} {es : List (List ℕ)} (hne : es ≠ []) (hl : ∀ e ∈ es, e.length = n ∧ e.sum = d)
    (hnd : (es.map (vdmBase a)).Nodup) (hs : ∀ x, coeff x P ≠ 0 → ∃ e ∈ es, e.toFinsupp = x) :
    solveVandermondeSystem es ((List.range es.length).map (fun i : ℕ => eval (dir a (List.replicate (n - 1) (i + 1))) P)) a = some (RLater.terms P es) := by
  rw [← RLater.vdm_terms ha (N := P) hne hl hnd (by
    intro hz
    obtain ⟨e, -, he⟩ := List.mem_map.mp hz
    exact RLater.vdmBase_ne h0 e he)]
  congr 1
  apply List.map_congr_left
  intro i hi
  conv_lhs => rw [← (terms_denote (hnd.of_map _) (fun e he => (hl e he).1) hs).2]
  unfold RLater.terms RLater.pv
  clear hne hnd hs hi
  induction es with
  | nil => simp
  | cons e es ih =>
    rw [List.map_cons, denote_cons, map_add, List.map_cons, List.sum_cons, ih (fun x hx => hl x (List.mem_cons_of_mem _ hx)), RLater.eval_dir_mono ha (hl e (by simp)).1]

/-- the contributions of a polynomial of degree `k` to the lower degrees -/
lemma addShift_spec (hs : c.shift.length = c.n) {m T : ℕ} (hT : 1 ≤ T) (hTm : T ≤ m) (hchar : ∀ i, 0 < i → i ≤ m → (i : F) ≠ 0) {s : Side F} {P : FFMap F}
    (hw : WFMap c.n P) (hle : ∀ t ∈ P, t.1.sum ≤ T) (hP : denote P = homogeneousComponent T Q)
    (hsub : ∀ j ≤ m, WFMap c.n (polyAt s.sub j) ∧ Zc c.n (polyAt s.sub j) ∧ denote (polyAt s.sub j) = subSum c.multi Q m (T + 1) j) :
    ∃ sub', c.addShift s P T = some { s with sub := sub' } ∧ ∀ j ≤ m, WFMap c.n (polyAt sub' j) ∧ Zc c.n (polyAt sub' j) ∧ denote (polyAt sub' j) = subSum c.multi Q m T j := by
  have hh : (denote P).IsHomogeneous T := by rw [hP]; exact homogeneousComponent_isHomogeneous T Q
  obtain ⟨r, h1, h2, h3⟩ := C16_add_shift_partial hw hs (by
    intro t ht j i hi hji
    have h1 := RMulti.getD_le_sum t.1 j
    have h2 := hle t ht
    exact hchar i hi (by omega))
  have h0 : coeff 0 (denote P) = 0 := by
    by_contra h
    have := RMulti.homog_deg hh h
    simp at this; omega
  rw [h0, C_0, sub_zero] at h3
  have hkeys : ((List.range T).map fun i => (([i] : List ℕ), c.multi.zeroPoly)).map Prod.fst = (List.range T).map fun i => [i] := by
    rw [List.map_map]; rfl
  obtain ⟨i1, i2, i3⟩ := RMulti.shiftFold_spec (n := c.n) (deg := T) r ((List.range T).map fun i => ([i], c.multi.zeroPoly)) h2.2
    (by intro i hi; rw [hkeys]; exact List.mem_map.mpr ⟨i, List.mem_range.mpr hi, rfl⟩) (fun i => (RMulti.polyAt_zeros c.multi T i).1)
  obtain ⟨ms, hms⟩ : ∃ ms, ms = RMulti.shiftFold T ((List.range T).map fun i => ([i], c.multi.zeroPoly)) r := ⟨_, rfl⟩
  rw [← hms] at i1 i2 i3
  have e1 : c.multi.shiftPolys P T = some ms := by
    unfold RMulti.Cfg.shiftPolys
    rw [show c.multi.n = c.n from rfl, show c.multi.shift = c.shift from rfl, h1, hms]; rfl
  have e2 : (ms.map Prod.fst).Nodup := by
    rw [i1, hkeys]
    exact List.nodup_range.map (fun a b h => by simpa using h)
  have e3 : ∀ key, key ∈ ms.map Prod.fst ↔ ∃ i < T, key = [i] := by
    intro key
    rw [i1, hkeys, List.mem_map]
    simp only [List.mem_range]
    exact ⟨fun ⟨i, h, e⟩ => ⟨i, h, e.symm⟩, fun ⟨i, h, e⟩ => ⟨i, h, e.symm⟩⟩
  have e5 : ∀ i < T, denote (polyAt ms i) = sh c.shift Q i T := by
    intro i hi
    rw [i3 i hi, (RMulti.polyAt_zeros c.multi T i).2, zero_add, h3, hP]; rfl
  have ew : ∀ t ∈ ms, WFMap c.n t.2 := by
    rintro ⟨key, v⟩ ht
    obtain ⟨i, hi, rfl⟩ := (e3 key).mp (List.mem_map.mpr ⟨_, ht, rfl⟩)
    have := i2 i
    unfold polyAt at this
    rw [FFMap.find?_of_mem e2 ht] at this
    exact this
  refine ⟨addShifts s.sub ms, by unfold Cfg.addShift; rw [e1]; rfl, ?_⟩
  intro j hj
  obtain ⟨g1, g2, g3⟩ := hsub j hj
  obtain ⟨k1, k2⟩ := RMulti.addShifts_spec (n := c.n) ms s.sub e2 ew j g1
  refine ⟨k1, ?_, ?_⟩
  · -- zero coefficients
    have : ∀ (ms sub : FFMap (FFMap F)), (∀ t ∈ ms, WFMap c.n t.2) → WFMap c.n (polyAt sub j) → Zc c.n (polyAt sub j) → Zc c.n (polyAt (addShifts sub ms) j) := by
      intro ms
      induction ms with
      | nil => intro sub _ _ h; exact h
      | cons t ms ih =>
        intro sub hw hj hz
        have hstep : addShifts sub (t :: ms) = addShifts (sub.set t.1 (PolyFF.addAssign ((sub.find? t.1).getD []) t.2)) ms := rfl
        rw [hstep]
        by_cases h : t.1 = [j]
        · have hpj : polyAt (sub.set t.1 (PolyFF.addAssign ((sub.find? t.1).getD []) t.2)) j = PolyFF.addAssign (polyAt sub j) t.2 := by
            rw [h, RMulti.polyAt_set, if_pos rfl]; rfl
          apply ih _ (fun x hx => hw x (by simp [hx]))
          · rw [hpj]; exact (C13_add_assign hj (hw t (by simp))).1
          · rw [hpj]; exact hz.addAssign hj (hw t (by simp))
        · have hpj : polyAt (sub.set t.1 (PolyFF.addAssign ((sub.find? t.1).getD []) t.2)) j = polyAt sub j := by
            unfold polyAt
            rw [FFMap.find?_set, if_neg (fun h2 => h h2.symm)]
          apply ih _ (fun x hx => hw x (by simp [hx]))
          · rw [hpj]; exact hj
          · rw [hpj]; exact hz
    exact this ms s.sub ew g1 g2
  · rw [k2, g3, RMulti.subSum_step c.multi Q hTm]
    congr 1
    by_cases hjT : j < T
    · rw [if_pos hjT, e5 j hjT]; rfl
    · rw [if_neg hjT]
      unfold polyAt
      rw [FFMap.find?_eq_none.mpr]
      · simp [denote]
      · intro hmem
        obtain ⟨i, hi, hii⟩ := (e3 [j]).mp hmem
        have : j = i := by simpa using hii
        omega

/-! ### the invariant -/

/-- the setting for the numerator or the denominator; `S` is the result of `set_singular_system_vars` -/
structure Ctx (c : Cfg F) (Q : MvPolynomial ℕ F) (const : Bool) (p : Prior) (S : Side F) : Prop where
  two : 2 ≤ c.n
  lenShift : c.shift.length = c.n
  lenAnchor : c.anchor.length + 1 = c.n
  prior : PriorOK c.n c.shift c.anchor Q const p
  set : Set c.n c.shift c.anchor Q const p S

/-- the value of the part of degree `d` for the order vector `(o, …, o)` -/
noncomputable def val (c : Cfg F) (Q : MvPolynomial ℕ F) (o d : ℕ) : F := eval (dir c.anchor (uni c o)) (part c.shift Q d)

/-- the values for the first `k` order vectors -/
noncomputable def valsTo (c : Cfg F) (Q : MvPolynomial ℕ F) (k d : ℕ) : List F := (List.range k).map (fun i : ℕ => val c Q (i + 1) d)

/-- the degree of an entry -/
def dg {V : Type} (u : List ℕ × V) : ℕ := u.1.getD 0 0

/-- the state of the numerator or the denominator: the degrees in `dn` are finished, `r` values are stored, the shifts of the degrees from `T` on are known -/
structure MInv (c : Cfg F) (Q : MvPolynomial ℕ F) (p : Prior) (S : Side F) (dn : ℕ → Bool) (r T : ℕ) (s : Side F) : Prop where
  dense : s.dense = S.dense
  most : s.most = S.most
  unsolved : s.unsolved = S.unsolved.filter (fun u => !dn (dg u))
  matKeys : ∀ x ∈ s.mat.map Prod.fst, x ∈ s.unsolved.map Prod.fst
  mat : ∀ u ∈ s.unsolved, (s.mat.find? u.1).getD [] = valsTo c Q (min r u.2.length) (dg u) ∧ (0 < r → (s.mat.find? u.1).isSome)
  solvedKeys : (s.solved.map Prod.fst).Nodup
  solved : ∀ x ∈ s.solved, ∃ u ∈ S.unsolved, x.1 = u.1 ∧ dn (dg u) = true ∧ WFMap c.n x.2 ∧ (∀ t ∈ x.2, t.1.sum ≤ dg u) ∧ denote x.2 = tgt c.multi Q S.dense (dg u)
  solvedAll : ∀ u ∈ S.unsolved, dn (dg u) = true → u.1 ∈ s.solved.map Prod.fst
  sub : ∀ j ≤ p.maxDeg, WFMap c.n (polyAt s.sub j) ∧ Zc c.n (polyAt s.sub j) ∧ denote (polyAt s.sub j) = subSum c.multi Q p.maxDeg T j
  count : s.count + s.unsolved.length = S.unsolved.length

variable {S : Side F} {dn dn' : ℕ → Bool} {r T : ℕ} {s : Side F}

lemma Ctx.key (h : Ctx c Q const p S) {u : List ℕ × List (List ℕ)} (hu : u ∈ S.unsolved) : u.1 = [dg u] ∧ dg u ∈ asked c.n const p ∧ dg u ≤ p.maxDeg ∧ u.2 ≠ [] ∧
    (u.2.map (vdmBase c.anchor)).Nodup ∧ Want c.n c.shift Q p S.dense S.most.2 (dg u) u.2 := by
  obtain ⟨d, h1, h2, h3, h4, h5⟩ := h.set.form u hu
  have : dg u = d := by unfold dg; rw [h1]; rfl
  rw [this]
  refine ⟨h1, h2, ?_, h3, h4, h5⟩
  unfold asked at h2
  have := (Finset.mem_filter.mp h2).1
  rw [Finset.mem_range] at this
  omega

lemma Ctx.inj (h : Ctx c Q const p S) {u w : List ℕ × List (List ℕ)} (hu : u ∈ S.unsolved) (hw : w ∈ S.unsolved) (he : dg u = dg w) : u = w := by
  have h1 := (h.key hu).1
  have h2 := (h.key hw).1
  have e1 := FFMap.find?_of_mem h.set.keys hu
  have e2 := FFMap.find?_of_mem h.set.keys hw
  rw [h1, he, ← h2, e2] at e1
  exact Prod.ext (by rw [h1, he, ← h2]) (Option.some.inj e1).symm

lemma Ctx.hcTop (h : Ctx c Q const p S) : ∀ k, p.maxDeg < k → homogeneousComponent k Q = 0 := by
  intro k hk
  apply hc_none h.prior
  intro hm
  obtain ⟨e, he, hs⟩ := List.mem_map.mp hm
  have := h.prior.le e he
  omega

lemma MInv.congr (h : MInv c Q p S dn r T s) (hd : ∀ u ∈ S.unsolved, dn (dg u) = dn' (dg u)) : MInv c Q p S dn' r T s := by
  refine ⟨h.dense, h.most, ?_, h.matKeys, h.mat, h.solvedKeys, ?_, ?_, h.sub, h.count⟩
  · rw [h.unsolved]
    apply List.filter_congr
    intro u hu
    rw [hd u hu]
  · intro x hx
    obtain ⟨u, h1, h2, h3, h4⟩ := h.solved x hx
    exact ⟨u, h1, h2, by rw [← hd u h1]; exact h3, h4⟩
  · intro u hu hh
    exact h.solvedAll u hu (by rw [hd u hu]; exact hh)

lemma MInv.mem (h : MInv c Q p S dn r T s) {u : List ℕ × List (List ℕ)} : u ∈ s.unsolved ↔ u ∈ S.unsolved ∧ dn (dg u) = false := by
  rw [h.unsolved, List.mem_filter]; simp

lemma MInv.nodup (hc : Ctx c Q const p S) (h : MInv c Q p S dn r T s) : (s.unsolved.map Prod.fst).Nodup := by
  rw [h.unsolved]; exact hc.set.keys.sublist (List.filter_sublist.map _)

lemma MInv.find (hc : Ctx c Q const p S) (h : MInv c Q p S dn r T s) {u : List ℕ × List (List ℕ)} (hu : u ∈ s.unsolved) : s.unsolved.find? u.1 = some u.2 :=
  FFMap.find?_of_mem (h.nodup hc) hu

lemma length_erase {V : Type} : ∀ {m : FFMap V}, (m.map Prod.fst).Nodup → ∀ {k : List ℕ}, k ∈ m.map Prod.fst → (m.erase k).length + 1 = m.length := by
  intro m hnd k hk
  obtain ⟨x, hx, rfl⟩ := List.mem_map.mp hk
  obtain ⟨l, r, rfl⟩ := List.append_of_mem hx
  rw [List.map_append, List.map_cons, List.nodup_append, List.nodup_cons] at hnd
  rw [show x = (x.1, x.2) from rfl, RLater.erase_mid l r x.1 x.2 (fun h => hnd.2.2 _ h _ (by simp) rfl) hnd.2.1.1]
  simp; omega

/-- a degree is finished -/
lemma MInv.close (hc : Ctx c Q const p S) (h : MInv c Q p S dn r T s) {u : List ℕ × List (List ℕ)} (hu : u ∈ s.unsolved) {P : FFMap F} (hw : WFMap c.n P) (hs : ∀ t ∈ P, t.1.sum ≤ dg u)
    (hP : denote P = tgt c.multi Q S.dense (dg u)) : MInv c Q p S (fun k => dn k || decide (k = dg u)) r T (close s (dg u) P) := by
  have hu0 := h.mem.mp hu
  have hk := (hc.key hu0.1).1
  have hun : s.unsolved.erase [dg u] = S.unsolved.filter (fun w => !(dn (dg w) || decide (dg w = dg u))) := by
    unfold FFMap.erase
    rw [h.unsolved, List.filter_filter]
    apply List.filter_congr
    intro w hw
    have hwk := (hc.key hw).1
    rw [Bool.not_or, Bool.and_comm]
    congr 1
    rw [hwk]
    by_cases he : dg w = dg u
    · simp [he]
    · simp [he]
  refine ⟨h.dense, h.most, hun, ?_, ?_, nodup_set h.solvedKeys _ _, ?_, ?_, h.sub, ?_⟩
  · intro x hx
    obtain ⟨y, hy, rfl⟩ := List.mem_map.mp hx
    have hy2 := List.mem_filter.mp hy
    obtain ⟨w, hw1, hw2⟩ := List.mem_map.mp (h.matKeys y.1 (List.mem_map_of_mem hy2.1))
    refine List.mem_map.mpr ⟨w, List.mem_filter.mpr ⟨hw1, ?_⟩, hw2⟩
    rw [hw2]; exact hy2.2
  · intro w hw1
    have hw2 := List.mem_filter.mp hw1
    have hne : w.1 ≠ [dg u] := by simpa using hw2.2
    have := h.mat w hw2.1
    show ((s.mat.erase [dg u]).find? w.1).getD [] = _ ∧ (_ → ((s.mat.erase [dg u]).find? w.1).isSome)
    rw [FFMap.find?_erase, if_neg hne]
    exact this
  · intro x hx
    rcases mem_set hx with hx | rfl
    · obtain ⟨w, h1, h2, h3, h4⟩ := h.solved x hx
      exact ⟨w, h1, h2, by rw [h3]; rfl, h4⟩
    · exact ⟨u, hu0.1, hk.symm, by simp, hw, hs, hP⟩
  · intro w hw1 hw2
    apply (mem_keys_set _ _ _ _).mpr
    rw [Bool.or_eq_true, decide_eq_true_eq] at hw2
    rcases hw2 with hw2 | hw2
    · exact Or.inl (h.solvedAll w hw1 hw2)
    · right; rw [(hc.key hw1).1, hw2]
  · show s.count + 1 + (s.unsolved.erase [dg u]).length = _
    have := length_erase (h.nodup hc) (k := [dg u]) (by rw [← hk]; exact List.mem_map_of_mem hu)
    have := h.count
    omega

end FireFly.RShift
