import Verif.Lemmas.RatShiftSide
/-! # A further prime field with a shift: the solution of a system is absorbed -/
set_option linter.all false
namespace FireFly.RShift
open MvPolynomial FFMap
open FireFly.RMulti (polyAt part dir sh subSum tgt addShifts)
variable {F : Type} [Field F] [DecidableEq F] {c : Cfg F} {const : Bool} {p : Prior} {Q : MvPolynomial ℕ F} {S : Side F} {dn dn' : ℕ → Bool} {r T : ℕ} {s : Side F}

/-! ### the values are stored -/

lemma valsTo_succ (c : Cfg F) (Q : MvPolynomial ℕ F) (k d : ℕ) : valsTo c Q (k + 1) d = valsTo c Q k d ++ [val c Q (k + 1) d] := by
  unfold valsTo; rw [List.range_succ, List.map_append]; rfl

lemma valsTo_length (c : Cfg F) (Q : MvPolynomial ℕ F) (k d : ℕ) : (valsTo c Q k d).length = k := by unfold valsTo; simp

lemma store_fold (hc : Ctx c Q const p S) (h : MInv c Q p S dn r T s) : ∀ (l : FFMap (List (List ℕ))) (s1 : Side F), (∀ u ∈ l, u ∈ s.unsolved) → (l.map Prod.fst).Nodup →
    s1.unsolved = s.unsolved → (∀ u ∈ l, (s1.mat.find? u.1).getD [] = valsTo c Q (min r u.2.length) (dg u)) →
    ∃ mat, (l.map (fun u => (u.1, val c Q (r + 1) (dg u)))).foldl store s1 = { s1 with mat := mat } ∧ (∀ k, k ∉ l.map Prod.fst → mat.find? k = s1.mat.find? k) ∧
      ∀ u ∈ l, mat.find? u.1 = some (valsTo c Q (min (r + 1) u.2.length) (dg u)) := by
  intro l
  induction l with
  | nil => intro s1 _ _ _ _; exact ⟨s1.mat, rfl, fun _ _ => rfl, by simp⟩
  | cons u l ih =>
    intro s1 h1 h2 h3 h4
    rw [List.map_cons, List.nodup_cons] at h2
    have e1 : ((s1.unsolved.find? u.1).getD []) = u.2 := by rw [h3, h.find hc (h1 u (by simp))]; rfl
    have e2 := h4 u (by simp)
    have hst : store s1 (u.1, val c Q (r + 1) (dg u)) = { s1 with mat := s1.mat.set u.1 (valsTo c Q (min (r + 1) u.2.length) (dg u)) } := by
      unfold store
      simp only [e1, e2]
      rw [valsTo_length]
      congr 2
      split
      · rename_i hlt
        have a1 : min r u.2.length = r := by omega
        have a2 : min (r + 1) u.2.length = r + 1 := by omega
        rw [a1, a2, valsTo_succ]
      · rename_i hlt
        have a1 : min (r + 1) u.2.length = min r u.2.length := by omega
        rw [a1]
    rw [List.map_cons, List.foldl_cons, hst]
    obtain ⟨mat, f1, f2, f3⟩ := ih { s1 with mat := s1.mat.set u.1 (valsTo c Q (min (r + 1) u.2.length) (dg u)) } (fun x hx => h1 x (List.mem_cons_of_mem _ hx)) h2.2 h3 (by
      intro x hx
      show ((s1.mat.set u.1 _).find? x.1).getD [] = _
      rw [FFMap.find?_set, if_neg]
      · exact h4 x (List.mem_cons_of_mem _ hx)
      · intro e; exact h2.1 (e ▸ List.mem_map_of_mem hx))
    refine ⟨mat, f1, ?_, ?_⟩
    · intro k hk
      rw [List.map_cons, List.mem_cons, not_or] at hk
      rw [f2 k hk.2]
      show (s1.mat.set u.1 _).find? k = _
      rw [FFMap.find?_set, if_neg hk.1]
    · intro x hx
      rcases List.mem_cons.mp hx with rfl | hx
      · rw [f2 _ h2.1]
        show (s1.mat.set x.1 _).find? x.1 = _
        rw [FFMap.find?_set, if_pos rfl]
      · exact f3 x hx

lemma MInv.store (hc : Ctx c Q const p S) (h : MInv c Q p S dn r T s) :
    MInv c Q p S dn (r + 1) T ((s.unsolved.map (fun u => (u.1, val c Q (r + 1) (dg u)))).foldl store s) := by
  obtain ⟨mat, f1, f2, f3⟩ := store_fold hc h s.unsolved s (fun _ h => h) (h.nodup hc) rfl (fun u hu => (h.mat u hu).1)
  rw [f1]
  refine ⟨h.dense, h.most, h.unsolved, ?_, ?_, h.solvedKeys, h.solved, h.solvedAll, h.sub, h.count⟩
  · intro x hx
    by_contra hn
    have := f2 x hn
    have h0 : s.mat.find? x = none := FFMap.find?_eq_none.mpr (fun hh => hn (h.matKeys x hh))
    rw [h0, FFMap.find?_eq_none] at this
    exact this hx
  · intro u hu
    have := f3 u hu
    show (mat.find? u.1).getD [] = _ ∧ (_ → (mat.find? u.1).isSome)
    rw [this]
    exact ⟨rfl, fun _ => rfl⟩

/-! ### the parts with few monomials -/

/-- the number of monomials of a part -/
def len (S : Side F) (d : ℕ) : ℕ := ((S.unsolved.find? [d]).getD []).length

/-- the number of values that is needed until a part is solved -/
def eff (S : Side F) (d : ℕ) : ℕ := if d ∈ S.dense then len S d else S.most.2

lemma Ctx.len (hc : Ctx c Q const p S) {u : List ℕ × List (List ℕ)} (hu : u ∈ S.unsolved) : len S (dg u) = u.2.length := by
  unfold RShift.len
  rw [← (hc.key hu).1, FFMap.find?_of_mem hc.set.keys hu]; rfl

lemma Ctx.dense_lt (hc : Ctx c Q const p S) {u : List ℕ × List (List ℕ)} (hu : u ∈ S.unsolved) (hd : dg u ∈ S.dense) : u.2.length < S.most.2 := by
  rcases (hc.key hu).2.2.2.2.2 with h | h
  · exact h.2.1
  · exact absurd hd h.1

lemma Ctx.le_most (hc : Ctx c Q const p S) {u : List ℕ × List (List ℕ)} (hu : u ∈ S.unsolved) : u.2.length ≤ S.most.2 := by
  rcases (hc.key hu).2.2.2.2.2 with h | h
  · exact h.2.1.le
  · exact h.2.1

lemma Ctx.mostMem (hc : Ctx c Q const p S) (hne : S.unsolved ≠ []) : 1 ≤ S.most.2 ∧ S.most.1 ∉ S.dense ∧ ∃ u ∈ S.unsolved, dg u = S.most.1 ∧ u.2.length = S.most.2 := by
  obtain ⟨h1, h2, u, hu, h3, h4⟩ := hc.set.most hne
  exact ⟨h1, h2, u, hu, by unfold dg; rw [h3]; rfl, h4⟩

lemma dense_loop (hc : Ctx c Q const p S) (isDen : Bool) {o : ℕ} (ho : 1 ≤ o) (hoM : o < S.most.2) : ∀ (l : FFMap (List (List ℕ))) (s : Side F) (dn : ℕ → Bool),
    (∀ u ∈ l, u ∈ S.unsolved ∧ dn (dg u) = false ∧ (dg u ∈ S.dense → o ≤ u.2.length)) → (l.map Prod.fst).Nodup → MInv c Q p S dn o T s →
    ∃ s', c.solveLoop p isDen (l.map (fun u => (u.1, val c Q o (dg u)))) s = some s' ∧
      MInv c Q p S (fun d => dn d || decide (d ∈ l.map dg ∧ d ∈ S.dense ∧ len S d = o)) o T s' := by
  intro l
  induction l with
  | nil => intro s dn _ _ h; exact ⟨s, rfl, h.congr (fun u _ => by simp)⟩
  | cons u l ih =>
    intro s dn h1 h2 h
    rw [List.map_cons, List.nodup_cons] at h2
    obtain ⟨hu, hdn, hlen⟩ := h1 u (by simp)
    obtain ⟨k1, k2, k3, k4, k5, k6⟩ := hc.key hu
    have hus : u ∈ s.unsolved := h.mem.mpr ⟨hu, hdn⟩
    have hother : ∀ w ∈ l, dg w ≠ dg u := by
      intro w hw he
      have := hc.inj (h1 w (by simp [hw])).1 hu he
      rw [this] at hw
      exact h2.1 (List.mem_map_of_mem hw)
    have e1 : ((s.unsolved.find? u.1).getD []) = u.2 := by rw [h.find hc hus]; rfl
    have e2 := (h.mat u hus).1
    rw [List.map_cons, Cfg.solveLoop]
    simp only [e1, e2]
    rw [valsTo_length, show u.1.getD 0 0 = dg u from rfl, h.dense, h.most]
    by_cases hcase : dg u ∈ S.dense ∧ u.2.length = o
    · have hm : dg u ≠ S.most.1 := by
        intro e
        exact (hc.mostMem (List.ne_nil_of_mem hu)).2.1 (e ▸ hcase.1)
      rw [if_pos ⟨Or.inl (by simpa using hcase.1), by rw [hcase.2]; simp⟩, if_neg hm]
      rcases k6 with k6 | k6
      · obtain ⟨-, -, w1, w2⟩ := k6
        have hv : solveVandermondeSystem u.2 (valsTo c Q (min o u.2.length) (dg u)) c.anchor = some (RLater.terms (part c.shift Q (dg u)) u.2) := by
          rw [show min o u.2.length = u.2.length by omega]
          exact van hc.lenAnchor hc.prior.anchor k4 w1 k5 w2
        rw [hv]
        simp only [Option.bind_eq_bind, Option.bind_some]
        obtain ⟨t1, t2⟩ := terms_denote (k5.of_map _) (fun e he => (w1 e he).1) w2
        have hcl := h.close hc hus t1 (by
          intro t ht
          obtain ⟨e, he, rfl⟩ := List.mem_map.mp ht
          exact (w1 e he).2.le) (by rw [t2]; unfold tgt; rw [if_pos hcase.1]; rfl)
        obtain ⟨s', f1, f2⟩ := ih _ _ (by
          intro w hw
          obtain ⟨g1, g2, g3⟩ := h1 w (by simp [hw])
          refine ⟨g1, ?_, g3⟩
          rw [g2, Bool.false_or, decide_eq_false_iff_not]
          exact hother w hw) h2.2 hcl
        refine ⟨s', f1, f2.congr ?_⟩
        intro w hw
        by_cases he : dg w = dg u
        · have hl := hc.len hu
          simp [he, hcase.1, hl, hcase.2]
        · have hmm : (dg w ∈ (u :: l).map dg) ↔ dg w ∈ l.map dg := by rw [List.map_cons, List.mem_cons]; exact or_iff_right he
          simp only [hmm, he, decide_false, Bool.or_false]
      · exact absurd hcase.1 k6.1
    · rw [if_neg]
      · obtain ⟨s', f1, f2⟩ := ih s dn (fun w hw => h1 w (by simp [hw])) h2.2 h
        refine ⟨s', f1, f2.congr ?_⟩
        intro w hw
        by_cases he : dg w = dg u
        · have hl := hc.len hu
          have : ¬ (dg u ∈ S.dense ∧ len S (dg u) = o) := by rw [hl]; exact hcase
          rw [he]
          congr 1
          rw [decide_eq_decide]
          constructor
          · rintro ⟨-, h⟩; exact absurd h this
          · rintro ⟨-, h⟩; exact absurd h this
        · have hmm : (dg w ∈ (u :: l).map dg) ↔ dg w ∈ l.map dg := by rw [List.map_cons, List.mem_cons]; exact or_iff_right he
          simp only [hmm, he, decide_false, Bool.or_false]
      · rintro ⟨g1, g2⟩
        have hle : u.2.length ≤ o := by omega
        rcases g1 with g1 | g1
        · have g1 : dg u ∈ S.dense := by simpa using g1
          have := hlen g1
          exact hcase ⟨g1, by omega⟩
        · obtain ⟨-, -, w, hw, g3, g4⟩ := hc.mostMem (List.ne_nil_of_mem hu)
          have := hc.inj hu hw (g1.trans g3.symm)
          rw [this] at hle
          omega

/-! ### the other parts -/

lemma MInv.skip (h : MInv c Q p S dn r (T + 1) s) (hT : T ≤ p.maxDeg) (hz : homogeneousComponent T Q = 0) : MInv c Q p S dn r T s := by
  refine ⟨h.dense, h.most, h.unsolved, h.matKeys, h.mat, h.solvedKeys, h.solved, h.solvedAll, ?_, h.count⟩
  intro j hj
  obtain ⟨g1, g2, g3⟩ := h.sub j hj
  refine ⟨g1, g2, ?_⟩
  rw [g3, RMulti.subSum_step c.multi Q hT, RMulti.sh_zero hz]
  simp

lemma MInv.addShift (hc : Ctx c Q const p S) (h : MInv c Q p S dn r (T + 1) s) (hT1 : 1 ≤ T) (hT : T ≤ p.maxDeg) {P : FFMap F} (hw : WFMap c.n P) (hle : ∀ t ∈ P, t.1.sum ≤ T)
    (hP : denote P = homogeneousComponent T Q) : ∃ s', c.addShift s P T = some s' ∧ MInv c Q p S dn r T s' := by
  obtain ⟨sub', e1, e2⟩ := addShift_spec hc.lenShift hT1 hT (fun i h1 h2 => hc.prior.char i h1 h2) hw hle hP h.sub
  exact ⟨_, e1, ⟨h.dense, h.most, h.unsolved, h.matKeys, h.mat, h.solvedKeys, h.solved, h.solvedAll, e2, h.count⟩⟩

lemma MInv.mat_none (hc : Ctx c Q const p S) (h : MInv c Q p S dn r T s) {i : ℕ} (hi : ∀ u ∈ S.unsolved, dg u = i → dn i = true) : s.mat.find? [i] = none := by
  rw [FFMap.find?_eq_none]
  intro hm
  obtain ⟨w, hw1, hw2⟩ := List.mem_map.mp (h.matKeys _ hm)
  obtain ⟨hw, hwd⟩ := h.mem.mp hw1
  have : dg w = i := by unfold dg; rw [hw2]; rfl
  rw [this] at hwd
  rw [hi w hw this] at hwd
  cases hwd

lemma MInv.solved_none (hc : Ctx c Q const p S) (h : MInv c Q p S dn r T s) {i : ℕ} (hi : ∀ u ∈ S.unsolved, dg u ≠ i) : s.solved.find? [i] = none := by
  rw [FFMap.find?_eq_none]
  intro hm
  obtain ⟨x, hx, hx2⟩ := List.mem_map.mp hm
  obtain ⟨u, h1, h2, -⟩ := h.solved x hx
  apply hi u h1
  unfold dg; rw [← h2, hx2]; rfl

/-- a degree that is not asked has no part -/
lemma Ctx.not_asked (hc : Ctx c Q const p S) {i : ℕ} (him : i ≤ p.maxDeg) (h0 : ¬ (const = true ∧ i = 0)) (hi : ∀ u ∈ S.unsolved, dg u ≠ i) :
    homogeneousComponent i Q = 0 ∧ part c.shift Q i = 0 := by
  have hna : i ∉ asked c.n const p := by
    intro ha
    obtain ⟨u, hu, hk⟩ := List.mem_map.mp (hc.set.cover i ha)
    apply hi u hu
    unfold dg; rw [hk]; rfl
  unfold asked at hna
  rw [Finset.mem_filter, Finset.mem_range] at hna
  have h1 : ¬ (i ∈ (exps p).map List.sum ∨ p.shifts i ≠ []) := fun hh => hna ⟨by omega, hh, h0⟩
  rw [not_or, not_not] at h1
  have h2 := hc_none hc.prior h1.1
  refine ⟨h2, ?_⟩
  ext x
  rw [coeff_zero]
  by_contra hx
  rcases part_supp hc.prior him hx with hx | ⟨e, he, -⟩
  · rw [h2, coeff_zero] at hx; exact hx rfl
  · rw [h1.2] at he; simp at he

lemma calcNM1_dir' (hc : Ctx c Q const p S) {a : FFMap F} (ha : WFMap c.n a) (ord : List ℕ) : PolyFF.calcNM1 c.n a (c.point ord) = some (eval (dir c.anchor ord) (denote a)) :=
  RMulti.calcNM1_dir (c := c.multi) (by have := hc.two; show 1 ≤ c.n; omega) ha ord

/-- the degrees that are finished in the loop: those that are solved with their shift, and those from `i` on -/
def above (S : Side F) (i : ℕ) (d : ℕ) : Bool := decide (d ∈ S.dense) || decide (i ≤ d)

lemma passDeg_spec (hc : Ctx c Q const p S) {i : ℕ} (hi1 : 1 ≤ i) (him : i ≤ p.maxDeg) (hM : 1 ≤ S.most.2) (h : MInv c Q p S (above S (i + 1)) S.most.2 (i + 1) s) :
    ∃ s', c.passDeg p s i = some s' ∧ MInv c Q p S (above S i) S.most.2 i s' := by
  unfold Cfg.passDeg
  by_cases hex : ∃ u ∈ S.unsolved, dg u = i
  · obtain ⟨u, hu, hui⟩ := hex
    obtain ⟨k1, k2, k3, k4, k5, k6⟩ := hc.key hu
    by_cases hd : i ∈ S.dense
    · -- solved with its shift
      have hsame : ∀ w ∈ S.unsolved, above S (i + 1) (dg w) = above S i (dg w) := by
        intro w hw
        unfold above
        by_cases he : dg w = i
        · simp [he, hd]
        · congr 1
          rw [decide_eq_decide]; omega
      have hmat : s.mat.find? [i] = none := h.mat_none hc (by intro w _ _; unfold above; simp [hd])
      have hsk : [i] ∈ s.solved.map Prod.fst := by
        rw [← hui, ← k1]; exact h.solvedAll u hu (by rw [hui]; unfold above; simp [hd])
      obtain ⟨x, hx, hxk⟩ := List.mem_map.mp hsk
      obtain ⟨w, w1, w2, -, w4, w5, w6⟩ := h.solved x hx
      have hwi : dg w = i := by unfold dg; rw [← w2, hxk]; rfl
      rw [hwi] at w5 w6
      have hfs : s.solved.find? [i] = some x.2 := by rw [← hxk]; exact FFMap.find?_of_mem h.solvedKeys hx
      have hpa : polyAt s.solved i = x.2 := by unfold polyAt; rw [hfs]; rfl
      rw [hmat]
      simp only [hfs, hpa]
      by_cases hz : p.zeros.contains i = true
      · rw [if_neg (fun h => h.2 hz), if_neg (by simp)]
        exact ⟨s, rfl, (h.skip him (hc.prior.zero i (by simpa using hz))).congr hsame⟩
      · rw [if_pos ⟨rfl, hz⟩]
        obtain ⟨g1, g2, g3⟩ := h.sub i him
        obtain ⟨b1, b2, -⟩ := C13_sub_assign w4 g1
        have htg : tgt c.multi Q S.dense i = part c.shift Q i := by unfold tgt; rw [if_pos hd]; rfl
        obtain ⟨s', e1, e2⟩ := h.addShift hc hi1 him b1 (by
          -- the degrees of the monomials
          intro t ht
          have hsum : ∀ (b a : FFMap F), (∀ x ∈ a, x.1.sum ≤ i) → (∀ x ∈ b, x.1.sum ≤ i) → ∀ x ∈ PolyFF.subAssign a b, x.1.sum ≤ i := by
            intro b
            induction b with
            | nil => intro a h1 _ x hx; exact h1 x hx
            | cons y b ihb =>
              intro a h1 h2 x hx
              unfold PolyFF.subAssign at hx ihb
              rw [List.foldl_cons] at hx
              refine ihb _ ?_ (fun z hz => h2 z (List.mem_cons_of_mem _ hz)) x hx
              intro z hz
              have hset : ∀ v, ∀ z ∈ a.set y.1 v, z.1.sum ≤ i := by
                intro v z hz
                rcases mem_set hz with hz | rfl
                · exact h1 z hz
                · exact h2 y (by simp)
              unfold PolyFF.subAssignStep at hz
              split at hz
              · split at hz
                · exact hset _ z hz
                · split at hz
                  · exact hset _ z (mem_erase hz)
                  · exact hset _ z hz
              · exact h1 z hz
          refine hsum _ _ w5 ?_ t ht
          intro y hy
          by_cases hy0 : y.2 = 0
          · rw [g2 y hy hy0]; simp
          · have hco : coeff y.1.toFinsupp (denote (polyAt s.sub i)) ≠ 0 := by
              rw [coeff_denote g1 (g1.2 y hy), FFMap.find?_of_mem g1.1 (v := y.2) hy]; exact hy0
            have hho : (denote (polyAt s.sub i)).IsHomogeneous i := by
              have : denote (polyAt s.sub i) = part c.shift Q i - homogeneousComponent i Q := by
                rw [g3, part_unshift hc.hcTop him]; ring
              rw [this]
              exact (part_homog _ _ _).sub (homogeneousComponent_isHomogeneous _ _)
            have := RMulti.homog_deg hho hco
            rw [toFinsupp_degree] at this
            exact this.le) (by
          rw [b2, w6, g3, htg, part_unshift hc.hcTop him]; ring)
        exact ⟨s', e1, e2.congr hsame⟩
    · -- solved now
      have hus : u ∈ s.unsolved := h.mem.mpr ⟨hu, by rw [hui]; unfold above; simp [hd]⟩
      obtain ⟨m1, m2⟩ := h.mat u hus
      obtain ⟨vals, hvals⟩ := Option.isSome_iff_exists.mp (m2 hM)
      rw [hvals, Option.getD_some, show min S.most.2 u.2.length = u.2.length by have := hc.le_most hu; omega, hui] at m1
      rw [k1, hui] at hvals
      rw [hvals]
      simp only
      have hup : ∀ w ∈ S.unsolved, (above S (i + 1) (dg w) || decide (dg w = i)) = above S i (dg w) := by
        intro w hw
        unfold above
        rw [Bool.or_assoc]
        congr 1
        rw [← Bool.decide_or, decide_eq_decide]; omega
      have htg : tgt c.multi Q S.dense (dg u) = homogeneousComponent i Q := by unfold tgt; rw [hui, if_neg hd]
      by_cases hz : p.zeros.contains i = true
      · rw [if_pos hz]
        have hz0 := hc.prior.zero i (by simpa using hz)
        have hcl := h.close hc hus (P := [(List.replicate c.n 0, 0)]) ⟨by simp, by simp⟩ (by simp) (by
          rw [htg, hz0, RMulti.denote_single, monomial_zero])
        rw [hui] at hcl
        exact ⟨_, rfl, (hcl.skip him hz0).congr hup⟩
      · rw [if_neg hz]
        rcases k6 with k6 | ⟨-, -, q1, q2⟩
        · exact absurd (hui ▸ k6.1) hd
        · have q2 := q2.resolve_left (by rw [hui]; simpa using hz)
          rw [hui] at q2
          have hv : (if i < p.maxDeg then c.unshiftVals s i vals else some vals) =
              some ((List.range u.2.length).map (fun j : ℕ => eval (dir c.anchor (List.replicate (c.n - 1) (j + 1))) (homogeneousComponent i Q))) := by
            rw [m1]
            split
            · obtain ⟨g1, g2, g3⟩ := h.sub i him
              unfold Cfg.unshiftVals
              rw [RLater.mapM_vals _ (fun v : F × ℕ => v.1 - eval (dir c.anchor (List.replicate (c.n - 1) (v.2 + 1))) (subSum c.multi Q p.maxDeg (i + 1) i)) _ (by
                intro v _
                rw [calcNM1_dir' hc g1, g3]; rfl)]
              congr 1
              unfold valsTo
              apply List.ext_getElem (by simp)
              intro j h1 h2
              simp only [List.getElem_map, List.getElem_zipIdx, List.getElem_range, zero_add]
              unfold val
              rw [part_unshift hc.hcTop him, map_add]
              unfold uni
              ring
            · have : i = p.maxDeg := by omega
              congr 1
              unfold valsTo val
              apply List.map_congr_left
              intro j _
              rw [part_unshift hc.hcTop him, this, RMulti.subSum_top, add_zero]; rfl
          have hpush : ∀ (x : Option (List F)) (k : List F → Option (Side F)), (if i < p.maxDeg then x.bind k else (some vals).bind k) = (if i < p.maxDeg then x else some vals).bind k := by
            intro x k; split <;> rfl
          simp only [Option.bind_eq_bind]
          rw [hpush, hv]
          simp only [Option.bind_some]
          have hf : (s.unsolved.find? [i]).getD [] = u.2 := by rw [← hui, ← k1, h.find hc hus]; rfl
          rw [hf, van hc.lenAnchor hc.prior.anchor k4 (fun e he => ⟨q1 e he, q2.1 e he⟩) k5 q2.2]
          simp only [Option.bind_some]
          obtain ⟨t1, t2⟩ := terms_denote (k5.of_map _) q1 q2.2
          have hts : ∀ t ∈ RLater.terms (homogeneousComponent i Q) u.2, t.1.sum ≤ i := by
            intro t ht
            obtain ⟨e, he, rfl⟩ := List.mem_map.mp ht
            exact (q2.1 e he).le
          have hcl := h.close hc hus t1 (by rw [hui]; exact hts) (by rw [t2, htg])
          rw [hui] at hcl
          obtain ⟨s', e1, e2⟩ := hcl.addShift hc hi1 him t1 hts t2
          exact ⟨s', e1, e2.congr hup⟩
  · have hno : ∀ u ∈ S.unsolved, dg u ≠ i := fun u hu he => hex ⟨u, hu, he⟩
    obtain ⟨z1, z2⟩ := hc.not_asked him (by omega) hno
    have hmat : s.mat.find? [i] = none := h.mat_none hc (by intro w hw e; exact absurd e (hno w hw))
    have hsol := h.solved_none hc hno
    obtain ⟨g1, g2, g3⟩ := h.sub i him
    have hzero : PolyFF.zero (polyAt s.sub i) = true := by
      apply zero_exact g1 g2
      rw [g3]
      have := part_unshift (c := c) hc.hcTop him
      rw [z1, z2, zero_add] at this
      exact this.symm
    rw [hmat]
    simp only
    rw [if_neg (by rw [hsol]; simp), if_neg (by rw [hzero]; simp)]
    refine ⟨s, rfl, (h.skip him z1).congr ?_⟩
    intro w hw
    have := hno w hw
    unfold above
    congr 1
    rw [decide_eq_decide]; omega

lemma passZero_id (hc : Ctx c Q const p S) (h : MInv c Q p S dn r T s) (h0 : ∀ u ∈ S.unsolved, dg u = 0 → dn 0 = true) : c.passZero p s = some s := by
  unfold Cfg.passZero
  rw [h.mat_none hc h0]

lemma passZero_spec (hc : Ctx c Q const p S) (hM : 1 ≤ S.most.2) (h : MInv c Q p S (above S 1) S.most.2 1 s) :
    ∃ s', c.passZero p s = some s' ∧ MInv c Q p S (above S 0) S.most.2 1 s' := by
  by_cases hex : ∃ u ∈ S.unsolved, dg u = 0 ∧ 0 ∉ S.dense
  · obtain ⟨u, hu, hui, hd⟩ := hex
    obtain ⟨k1, k2, k3, k4, k5, k6⟩ := hc.key hu
    have hus : u ∈ s.unsolved := h.mem.mpr ⟨hu, by rw [hui]; unfold above; simp [hd]⟩
    obtain ⟨m1, m2⟩ := h.mat u hus
    obtain ⟨vals, hvals⟩ := Option.isSome_iff_exists.mp (m2 hM)
    rw [hvals, Option.getD_some, show min S.most.2 u.2.length = u.2.length by have := hc.le_most hu; omega, hui] at m1
    rw [k1, hui] at hvals
    unfold Cfg.passZero
    rw [hvals]
    simp only
    have hup : ∀ w ∈ S.unsolved, (above S 1 (dg w) || decide (dg w = 0)) = above S 0 (dg w) := by
      intro w hw
      unfold above
      rw [Bool.or_assoc]
      congr 1
      rw [← Bool.decide_or, decide_eq_decide]; omega
    have htg : tgt c.multi Q S.dense (dg u) = homogeneousComponent 0 Q := by unfold tgt; rw [hui, if_neg hd]
    by_cases hz : p.zeros.contains 0 = true
    · rw [if_pos hz]
      have hz0 := hc.prior.zero 0 (by simpa using hz)
      have hcl := h.close hc hus (P := [(List.replicate c.n 0, 0)]) ⟨by simp, by simp⟩ (by simp) (by
        rw [htg, hz0, RMulti.denote_single, monomial_zero])
      rw [hui] at hcl
      exact ⟨_, rfl, hcl.congr hup⟩
    · rw [if_neg hz]
      rcases k6 with k6 | ⟨-, -, q1, q2⟩
      · exact absurd (hui ▸ k6.1) hd
      · have q2 := q2.resolve_left (by rw [hui]; simpa using hz)
        rw [hui] at q2
        have hone : u.2 = [List.replicate c.n 0] := by
          have hall : ∀ e ∈ u.2, e = List.replicate c.n 0 := fun e he => zero_of_sum (q1 e he) (q2.1 e he)
          have hnd : u.2.Nodup := k5.of_map _
          match h2 : u.2 with
          | [] => exact absurd h2 k4
          | [e] => rw [hall e (by rw [h2]; simp)]
          | e :: e' :: es =>
            rw [h2] at hnd
            rw [hall e (by rw [h2]; simp), hall e' (by rw [h2]; simp)] at hnd
            simp at hnd
        obtain ⟨g1, g2, g3⟩ := h.sub 0 (Nat.zero_le _)
        have hu0 := part_unshift (c := c) hc.hcTop (Nat.zero_le p.maxDeg)
        have hco : ∀ {P : MvPolynomial ℕ F} (x y : ℕ → F), P.IsHomogeneous 0 → eval x P = eval y P := by
          intro P x y hP
          have : P = C (coeff 0 P) := by
            have := homogeneousComponent_zero P
            rwa [homogeneousComponent_of_mem hP, if_pos rfl] at this
          rw [this, eval_C, eval_C]
        have hss : (subSum c.multi Q p.maxDeg 1 0).IsHomogeneous 0 := by
          have : subSum c.multi Q p.maxDeg 1 0 = part c.shift Q 0 - homogeneousComponent 0 Q := by rw [hu0]; ring
          rw [this]
          exact (part_homog _ _ _).sub (homogeneousComponent_isHomogeneous _ _)
        have hb : (if 0 < p.maxDeg then PolyFF.calcNM1 c.n (polyAt s.sub 0) (List.replicate (c.n - 1) 0) else some 0) = some (eval (dir c.anchor (List.replicate (c.n - 1) 1)) (subSum c.multi Q p.maxDeg 1 0)) := by
          split
          · rw [C15_calc_n_m_1 g1 (by have := hc.two; omega) _ (by simp), g3]
            congr 1
            exact hco _ _ hss
          · have h0 : p.maxDeg = 0 := by omega
            rw [h0, show (1 : ℕ) = 0 + 1 from rfl, RMulti.subSum_top, map_zero]
        have hpush : ∀ (x : Option F) (k : F → Option (Side F)), (if 0 < p.maxDeg then x.bind k else (some 0).bind k) = (if 0 < p.maxDeg then x else some 0).bind k := by
          intro x k; split <;> rfl
        simp only [Option.bind_eq_bind]
        rw [hpush, hb]
        simp only [Option.bind_some]
        have hf : (s.unsolved.find? [0]).getD [] = u.2 := by rw [← hui, ← k1, h.find hc hus]; rfl
        have hv : vals.set 0 (vals.getD 0 0 - eval (dir c.anchor (List.replicate (c.n - 1) 1)) (subSum c.multi Q p.maxDeg 1 0)) =
            (List.range u.2.length).map (fun j : ℕ => eval (dir c.anchor (List.replicate (c.n - 1) (j + 1))) (homogeneousComponent 0 Q)) := by
          rw [m1, hone]
          show [val c Q 1 0 - _] = [_]
          unfold val
          rw [hu0, map_add]
          simp [uni]
        rw [hf, hv, van hc.lenAnchor hc.prior.anchor k4 (fun e he => ⟨q1 e he, q2.1 e he⟩) k5 q2.2]
        simp only [Option.bind_some]
        obtain ⟨t1, t2⟩ := terms_denote (k5.of_map _) q1 q2.2
        have hts : ∀ t ∈ RLater.terms (homogeneousComponent 0 Q) u.2, t.1.sum ≤ 0 := by
          intro t ht
          obtain ⟨e, he, rfl⟩ := List.mem_map.mp ht
          exact (q2.1 e he).le
        have hcl := h.close hc hus t1 (by rw [hui]; exact hts) (by rw [t2, htg])
        rw [hui] at hcl
        exact ⟨_, rfl, hcl.congr hup⟩
  · have hno : ∀ u ∈ S.unsolved, dg u = 0 → 0 ∈ S.dense := fun u hu he => by
      by_contra hh
      exact hex ⟨u, hu, he, hh⟩
    refine ⟨s, passZero_id hc h ?_, h.congr ?_⟩
    · intro u hu he
      unfold above
      simp [hno u hu he]
    · intro w hw
      unfold above
      by_cases he : dg w = 0
      · simp [he, hno w hw he]
      · congr 1
        rw [decide_eq_decide]; omega

lemma passFold (hc : Ctx c Q const p S) (hM : 1 ≤ S.most.2) (f : Side F → ℕ → Option (Side F))
    (hf : ∀ i s, 1 ≤ i → i ≤ p.maxDeg → MInv c Q p S (above S (i + 1)) S.most.2 (i + 1) s → ∃ s', f s i = some s' ∧ MInv c Q p S (above S i) S.most.2 i s') :
    ∀ (k : ℕ) (s : Side F), k ≤ p.maxDeg → MInv c Q p S (above S (k + 1)) S.most.2 (k + 1) s →
    ∃ s', ((List.range' 1 k).reverse).foldlM f s = some s' ∧ MInv c Q p S (above S 1) S.most.2 1 s' := by
  intro k
  induction k with
  | zero => intro s _ h; exact ⟨s, rfl, h⟩
  | succ k ih =>
    intro s hk h
    rw [List.range'_concat, List.reverse_append, List.reverse_singleton, List.singleton_append, List.foldlM_cons, show 1 + 1 * k = k + 1 by omega]
    obtain ⟨s1, e1, e2⟩ := hf (k + 1) s (by omega) hk h
    obtain ⟨s2, f1, f2⟩ := ih s1 (by omega) e2
    exact ⟨s2, by rw [e1]; exact f1, f2⟩

/-- all parts are solved -/
lemma pass_spec (hc : Ctx c Q const p S) (isDen : Bool) (h0 : isDen = true → 0 ∉ asked c.n const p) (hM : 1 ≤ S.most.2) (h : MInv c Q p S (above S (p.maxDeg + 1)) S.most.2 (p.maxDeg + 1) s) :
    ∃ s', c.pass p isDen s = some s' ∧ MInv c Q p S (fun _ => true) S.most.2 1 s' := by
  have hall : ∀ {s}, MInv c Q p S (above S 0) S.most.2 1 s → MInv c Q p S (fun _ => true) S.most.2 1 s := fun h => h.congr (fun u _ => by unfold above; simp)
  unfold Cfg.pass
  cases isDen with
  | false =>
    rw [if_neg (by simp)]
    obtain ⟨s1, e1, e2⟩ := passFold hc hM (c.passDeg p) (fun i s h1 h2 h3 => passDeg_spec hc h1 h2 hM h3) p.maxDeg s le_rfl h
    obtain ⟨s2, f1, f2⟩ := passZero_spec hc hM e2
    exact ⟨s2, by rw [e1]; exact f1, hall f2⟩
  | true =>
    rw [if_pos rfl]
    have hno : ∀ u ∈ S.unsolved, dg u ≠ 0 := by
      intro u hu he
      have := (hc.key hu).2.1
      rw [he] at this
      exact h0 rfl this
    obtain ⟨s1, e1, e2⟩ := passFold hc hM (fun s i => do c.passZero p (← c.passDeg p s i)) (fun i s h1 h2 h3 => by
      obtain ⟨s', g1, g2⟩ := passDeg_spec hc h1 h2 hM h3
      refine ⟨s', ?_, g2⟩
      show (c.passDeg p s i).bind _ = _
      rw [g1, Option.bind_some]
      exact passZero_id hc g2 (fun u hu he => absurd he (hno u hu))) p.maxDeg s le_rfl h
    refine ⟨s1, e1, e2.congr ?_⟩
    intro u hu
    have := hno u hu
    unfold above
    rw [Bool.or_eq_true, decide_eq_true_eq, decide_eq_true_eq]
    right; omega

lemma loop_pass (hc : Ctx c Q const p S) (isDen : Bool) (hM : 1 ≤ S.most.2) : ∀ (l : FFMap (List (List ℕ))) (s : Side F), (∀ u ∈ l, u ∈ S.unsolved ∧ dg u ∉ S.dense ∧ dn (dg u) = false) →
    MInv c Q p S dn S.most.2 T s → (∃ u ∈ l, dg u = S.most.1) → c.solveLoop p isDen (l.map (fun u => (u.1, val c Q S.most.2 (dg u)))) s = c.pass p isDen s := by
  intro l
  induction l with
  | nil => rintro s _ _ ⟨u, hu, -⟩; simp at hu
  | cons u l ih =>
    intro s h1 h hex
    obtain ⟨hu, hd, hdn⟩ := h1 u (by simp)
    have hus : u ∈ s.unsolved := h.mem.mpr ⟨hu, hdn⟩
    have e1 : ((s.unsolved.find? u.1).getD []) = u.2 := by rw [h.find hc hus]; rfl
    have e2 := (h.mat u hus).1
    rw [List.map_cons, Cfg.solveLoop]
    simp only [e1, e2]
    rw [valsTo_length, show u.1.getD 0 0 = dg u from rfl, h.dense, h.most]
    by_cases he : dg u = S.most.1
    · have hlen : u.2.length = S.most.2 := by
        obtain ⟨-, -, w, hw, g3, g4⟩ := hc.mostMem (List.ne_nil_of_mem hu)
        rw [hc.inj hu hw (he.trans g3.symm)]; exact g4
      rw [if_pos ⟨Or.inr he, by omega⟩, if_pos he]
    · rw [if_neg (by
        rintro ⟨g1 | g1, -⟩
        · exact hd (by simpa using g1)
        · exact he g1)]
      apply ih s (fun w hw => h1 w (by simp [hw])) h
      obtain ⟨w, hw, hwe⟩ := hex
      rcases List.mem_cons.mp hw with rfl | hw
      · exact absurd hwe he
      · exact ⟨w, hw, hwe⟩

/-! ### one system -/

/-- after the order vectors before `o` -/
def SInv (c : Cfg F) (Q : MvPolynomial ℕ F) (p : Prior) (S : Side F) (o : ℕ) (s : Side F) : Prop :=
  MInv c Q p S (fun d => decide (eff S d < o)) (o - 1) (if o ≤ S.most.2 then p.maxDeg + 1 else 1) s

lemma Ctx.nil (hc : Ctx c Q const p S) (h0 : S.unsolved = []) : p.maxDeg = 0 ∧ const = true := by
  have hna : p.maxDeg ∉ asked c.n const p := by
    intro ha
    have := hc.set.cover _ ha
    rw [h0] at this; simp at this
  unfold asked at hna
  rw [Finset.mem_filter, Finset.mem_range] at hna
  by_contra hh
  exact hna ⟨by omega, Or.inl hc.prior.lead, fun h => hh ⟨h.2, h.1⟩⟩

lemma SInv.absorb (hc : Ctx c Q const p S) (isDen : Bool) (h0 : isDen = true → 0 ∉ asked c.n const p) {o : ℕ} (ho : 1 ≤ o) (h : SInv c Q p S o s) :
    ∃ s', c.absorb p isDen s (s.unsolved.map (fun u => (u.1, val c Q o (dg u)))) = some s' ∧ SInv c Q p S (o + 1) s' := by
  have hst := MInv.store hc h
  rw [show o - 1 + 1 = o by omega] at hst
  unfold Cfg.absorb
  obtain ⟨s1, hs1⟩ : ∃ s1, s1 = (s.unsolved.map (fun u => (u.1, val c Q o (dg u)))).foldl RShift.store s := ⟨_, rfl⟩
  rw [← hs1] at hst ⊢
  unfold SInv
  rw [Nat.add_sub_cancel]
  by_cases hne : s.unsolved = []
  · -- nothing is left
    rw [hne]
    refine ⟨s1, rfl, ?_⟩
    have hall : ∀ u ∈ S.unsolved, eff S (dg u) < o := by
      intro u hu
      by_contra hh
      have : u ∈ s.unsolved := h.mem.mpr ⟨hu, by simpa using hh⟩
      rw [hne] at this; simp at this
    have hT : (if o ≤ S.most.2 then p.maxDeg + 1 else 1) = if o + 1 ≤ S.most.2 then p.maxDeg + 1 else 1 := by
      by_cases hS : S.unsolved = []
      · rw [(hc.nil hS).1]; simp
      · obtain ⟨-, g2, w, hw, g3, g4⟩ := hc.mostMem hS
        have := hall w hw
        unfold eff at this
        rw [g3, if_neg g2] at this
        rw [if_neg (by omega), if_neg (by omega)]
    rw [← hT]
    apply hst.congr
    intro u hu
    have := hall u hu
    rw [decide_eq_decide]; omega
  · obtain ⟨w0, hw0⟩ := List.exists_mem_of_ne_nil _ hne
    have hS : S.unsolved ≠ [] := List.ne_nil_of_mem (h.mem.mp hw0).1
    obtain ⟨g1, g2, w, hw, g3, g4⟩ := hc.mostMem hS
    have heff : ∀ u ∈ S.unsolved, eff S (dg u) ≤ S.most.2 := by
      intro u hu
      unfold eff
      split
      · rw [hc.len hu]; exact hc.le_most hu
      · exact le_rfl
    have hoM : o ≤ S.most.2 := by
      have h1 := h.mem.mp hw0
      have h2 := heff _ h1.1
      have h3 : ¬ eff S (dg w0) < o := by simpa using h1.2
      omega
    rw [if_pos hoM] at hst
    rcases Nat.lt_or_ge o S.most.2 with hlt | hge
    · rw [if_pos (by omega : o + 1 ≤ S.most.2)]
      obtain ⟨s', e1, e2⟩ := dense_loop hc isDen ho hlt s.unsolved s1 _ (by
        intro u hu
        obtain ⟨a1, a2⟩ := h.mem.mp hu
        refine ⟨a1, a2, fun hd => ?_⟩
        rw [decide_eq_false_iff_not] at a2
        unfold eff at a2
        rw [if_pos hd, hc.len a1] at a2
        omega) (h.nodup hc) hst
      refine ⟨s', e1, e2.congr ?_⟩
      intro u hu
      rw [← Bool.decide_or, decide_eq_decide]
      constructor
      · rintro (h1 | ⟨-, h2, h3⟩)
        · omega
        · unfold eff; rw [if_pos h2, h3]; omega
      · intro h1
        by_cases h2 : eff S (dg u) < o
        · exact Or.inl h2
        · right
          have h3 : eff S (dg u) = o := by omega
          have hd : dg u ∈ S.dense := by
            by_contra hh
            unfold eff at h3
            rw [if_neg hh] at h3
            omega
          refine ⟨List.mem_map_of_mem (h.mem.mpr ⟨hu, by simpa using h2⟩), hd, ?_⟩
          unfold eff at h3
          rwa [if_pos hd] at h3
    · have hoe : o = S.most.2 := by omega
      subst hoe
      rw [if_neg (by omega)]
      have hdl : ∀ u ∈ S.unsolved, decide (eff S (dg u) < S.most.2) = decide (dg u ∈ S.dense) := by
        intro u hu
        rw [decide_eq_decide]
        constructor
        · intro h1
          by_contra hh
          unfold eff at h1
          rw [if_neg hh] at h1
          omega
        · intro h1
          unfold eff
          rw [if_pos h1, hc.len hu]
          exact hc.dense_lt hu h1
      rw [loop_pass hc isDen g1 s.unsolved s1 (dn := fun d => decide (eff S d < S.most.2)) (T := p.maxDeg + 1) (by
          intro u hu
          obtain ⟨a1, a2⟩ := h.mem.mp hu
          refine ⟨a1, ?_, a2⟩
          rw [hdl u a1, decide_eq_false_iff_not] at a2
          exact a2) hst ⟨w, h.mem.mpr ⟨hw, by rw [hdl w hw, g3]; simpa using g2⟩, g3⟩]
      obtain ⟨s', e1, e2⟩ := pass_spec hc isDen h0 g1 (s := s1) (hst.congr (fun u hu => by
        rw [hdl u hu]
        have := (hc.key hu).2.2.1
        unfold above
        rw [show decide (p.maxDeg + 1 ≤ dg u) = false by simp; omega, Bool.or_false]))
      refine ⟨s', e1, e2.congr ?_⟩
      intro u hu
      have := heff u hu
      symm
      rw [decide_eq_true_eq]; omega

end FireFly.RShift
