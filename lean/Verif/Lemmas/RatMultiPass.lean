import Verif.Lemmas.RatMultiFinish
/-! # The interpolation of the degrees with the saved values -/
set_option linter.all false
namespace FireFly.RMulti
open MvPolynomial
variable {F : Type} [Field F] [DecidableEq F] {c : Cfg F} {bounds : Option (List ℕ)} {Q N D : MvPolynomial ℕ F} {m T : ℕ}

lemma eval_denote_congr {n : ℕ} {a : FFMap F} (ha : WFMap n a) {x y : ℕ → F} (h : ∀ i < n, x i = y i) : eval x (denote a) = eval y (denote a) := by
  have key : ∀ l : FFMap F, (∀ t ∈ l, t.1.length = n) → eval x (denote l) = eval y (denote l) := by
    intro l
    induction l with
    | nil => intro _; simp [denote]
    | cons t l ih =>
      intro hl
      rw [denote_cons, map_add, map_add, ih (fun u hu => hl u (by simp [hu])), eval_monomial, eval_monomial]
      congr 2
      apply Finsupp.prod_congr
      intro i hi
      have : i < n := by
        rw [Finsupp.mem_support_iff, List.toFinsupp_apply] at hi
        by_contra hlt
        exact hi (List.getD_eq_default _ _ (by rw [hl t (by simp)]; omega))
      rw [h i this]
  exact key a ha.2

lemma calcNM1_dir (hn : 1 ≤ c.n) {a : FFMap F} (ha : WFMap c.n a) (ord : List ℕ) :
    PolyFF.calcNM1 c.n a (c.point ord) = some (eval (dir c.anchor ord) (denote a)) := by
  rw [C15_calc_n_m_1 ha hn _ (by simp [Cfg.point])]
  congr 1
  apply eval_denote_congr ha
  intro i hi
  rcases i with _ | i
  · rfl
  · rw [List.getD_cons_succ]
    unfold Cfg.point dir
    rw [List.getD_eq_getElem _ _ (by simp; omega)]
    simp

/-- the saved values are right -/
def SavedOK (c : Cfg F) (Q : MvPolynomial ℕ F) (saved : FFMap F) : Prop :=
  ∀ k z ord v, saved.find? (k :: z :: ord) = some v → v = eval (dir c.anchor ord) (part c.shift Q k)

lemma feedLoop_spec {pc : MPoly.Cfg F} (hn : 1 ≤ pc.n) (hN : pc.newton = true) {k : ℕ} (hk : pc.deg = some k) (hk32 : k < 2 ^ 31) {p : MvPolynomial ℕ F} (hp : p.IsHomogeneous k)
    {s : Side F} {sparse : Bool}
    (hval : ∀ z ord v, s.saved.find? (k :: z :: ord) = some v → ∃ sb, (if sparse && c.hasShift then PolyFF.calcNM1 c.n (polyAt s.sub k) (c.point ord) else some 0) = some sb ∧
      v - sb = eval (dir pc.anchor ord) p) : ∀ (fuel mm : ℕ) (st : MPoly.St F), mm + 2 ≤ fuel → Rec pc p mm st →
    ∃ st' done, c.feedLoop pc s k sparse fuel st = some (st', done) ∧
      (done = true → ∃ r, st'.result = some r ∧ WFMap (pc.n + 1) (PolyFF.homogenize r k) ∧ NZ (PolyFF.homogenize r k) ∧ denote (PolyFF.homogenize r k) = p) ∧
      (done = false → ∃ m' ≤ mm, Rec pc p m' st' ∧ ((s.saved.find? (k :: (st.zi + 1) :: st.ord)).isSome = true → m' < mm)) := by
  intro fuel
  induction fuel with
  | zero => intro mm st h; omega
  | succ fuel ih =>
    intro mm st hf hr
    rw [Cfg.feedLoop]
    rw [if_neg (by rw [hr.result]; simp)]
    cases hsv : s.saved.find? (k :: (st.zi + 1) :: st.ord) with
    | none => exact ⟨st, false, rfl, by simp, fun _ => ⟨mm, le_rfl, hr, by simp⟩⟩
    | some food =>
      obtain ⟨sb, e1, e2⟩ := hval _ _ _ hsv
      obtain ⟨st', f1, f2⟩ := hr.step hn hN hk hk32 hp
      simp only []
      have hstep : (do
          let sub ← if (sparse && c.hasShift) = true then PolyFF.calcNM1 c.n (polyAt s.sub k) (c.point st.ord) else some 0
          let st' ← pc.interpolate st (food - sub) st.ord
          c.feedLoop pc s k sparse fuel st') = c.feedLoop pc s k sparse fuel st' := by
        by_cases hb : (sparse && c.hasShift) = true
        · rw [if_pos hb] at e1
          rw [if_pos hb, e1]
          simp only [Option.bind_eq_bind, Option.bind_some]
          rw [e2, f1]; rfl
        · rw [if_neg hb] at e1
          rw [if_neg hb]
          have : sb = 0 := by simpa using e1.symm
          rw [this] at e2
          simp only [Option.bind_eq_bind, Option.bind_some]
          rw [e2, f1]; rfl
      rw [hstep]
      rcases f2 with ⟨r, g1, g2⟩ | ⟨m', hm', g⟩
      · obtain ⟨fuel', rfl⟩ : ∃ f, fuel = f + 1 := ⟨fuel - 1, by omega⟩
        rw [Cfg.feedLoop, if_pos (by rw [g1]; rfl)]
        exact ⟨st', true, rfl, fun _ => ⟨r, g1, g2⟩, by simp⟩
      · obtain ⟨st2, dn, h1, h2, h3⟩ := ih m' st' (by omega) g
        refine ⟨st2, dn, h1, h2, ?_⟩
        intro hd
        obtain ⟨m2, hm2, k1, -⟩ := h3 hd
        exact ⟨m2, by omega, k1, fun _ => by omega⟩

/-- the state of a polynomial -/
def ElOK (c : Cfg F) (bounds : Option (List ℕ)) (Q : MvPolynomial ℕ F) (dense : List ℕ) (e : ℕ × MPoly.St F) : Prop :=
  Rec (c.poly bounds e.1) (tgt c Q dense e.1) (bnd c e.1 (tgt c Q dense e.1)) e.2

/-- the values that are missing, at most -/
noncomputable def cost (c : Cfg F) (bounds : Option (List ℕ)) (Q : MvPolynomial ℕ F) (dense : List ℕ) (e : ℕ × MPoly.St F) : ℕ :=
  sInf {mm | Rec (c.poly bounds e.1) (tgt c Q dense e.1) mm e.2} + (if e.1 ∈ dense then bnd c e.1 (homogeneousComponent e.1 Q) + 1 else 0) + 1

noncomputable def total (c : Cfg F) (bounds : Option (List ℕ)) (Q : MvPolynomial ℕ F) (dense : List ℕ) (l : List (ℕ × MPoly.St F)) : ℕ := (l.map (cost c bounds Q dense)).sum

lemma cost_congr {dense dense' : List ℕ} {e : ℕ × MPoly.St F} (h : e.1 ∈ dense' ↔ e.1 ∈ dense) : cost c bounds Q dense' e = cost c bounds Q dense e := by
  unfold cost tgt; simp only [h]

lemma elOK_congr {dense dense' : List ℕ} {e : ℕ × MPoly.St F} (h : e.1 ∈ dense' ↔ e.1 ∈ dense) (h2 : ElOK c bounds Q dense e) : ElOK c bounds Q dense' e := by
  unfold ElOK tgt at *; simp only [h]; exact h2

lemma total_congr {dense dense' : List ℕ} {l : List (ℕ × MPoly.St F)} (h : ∀ j ∈ l.map Prod.fst, j ∈ dense' ↔ j ∈ dense) : total c bounds Q dense' l = total c bounds Q dense l := by
  unfold total
  congr 1
  apply List.map_congr_left
  intro e he
  exact cost_congr (h e.1 (List.mem_map.mpr ⟨e, he, rfl⟩))

lemma total_append (dense : List ℕ) (l l' : List (ℕ × MPoly.St F)) : total c bounds Q dense (l ++ l') = total c bounds Q dense l + total c bounds Q dense l' := by
  unfold total; rw [List.map_append, List.sum_append]

lemma total_cons (dense : List ℕ) (e : ℕ × MPoly.St F) (l : List (ℕ × MPoly.St F)) : total c bounds Q dense (e :: l) = cost c bounds Q dense e + total c bounds Q dense l := by
  unfold total; rw [List.map_cons, List.sum_cons]

/-- the sum with a restart of the next polynomial -/
noncomputable def pot (c : Cfg F) (bounds : Option (List ℕ)) (Q : MvPolynomial ℕ F) (restart : Bool) (dense : List ℕ) (rest : List (ℕ × MPoly.St F)) : ℕ :=
  match restart, rest with
  | true, (d, _) :: rest' => bnd c d (homogeneousComponent d Q) + 1 + total c bounds Q dense rest'
  | _, rest => total c bounds Q dense rest

lemma tgt_homog (dense : List ℕ) (k : ℕ) : (tgt c Q dense k).IsHomogeneous k := by
  unfold tgt
  split
  · exact homogeneousComponent_isHomogeneous k _
  · exact homogeneousComponent_isHomogeneous k _

/-- the values that are fed -/
lemma SInv.values (hs : c.shift.length = c.n) (hn : 1 ≤ c.n) (hok : SideOK c bounds Q m) {s : Side F} (h : SInv c Q m T s) (hv : SavedOK c Q s.saved) {k : ℕ} (hk : k ∈ s.open) :
    ∀ z ord v, s.saved.find? (k :: z :: ord) = some v → ∃ sb, (if (!s.dense.contains k) && c.hasShift then PolyFF.calcNM1 c.n (polyAt s.sub k) (c.point ord) else some 0) = some sb ∧
      v - sb = eval (dir c.anchor ord) (tgt c Q s.dense k) := by
  intro z ord v hf
  have hv1 := hv k z ord v hf
  obtain ⟨hk1, hkp⟩ := h.el k hk
  by_cases hd : k ∈ s.dense
  · refine ⟨0, by rw [if_neg (by simp [hd])], ?_⟩
    rw [sub_zero, hv1, tgt_dense hd]
  · have hsh : c.hasShift = true := by
      by_contra hne
      exact hd (h.plain (by simpa using hne) k hkp)
    have hkT : k + 1 = T := by
      have hlt : k < T := by
        by_contra hlt
        exact (h.above hsh k (by omega)).2 hk
      rcases h.below hsh k hlt hkp with h1 | h1
      · exact absurd h1 hd
      · exact h1.1
    subst hkT
    obtain ⟨g1, g2⟩ := h.sub hsh k (hok.le hkp)
    refine ⟨_, by rw [if_pos (by simp [hd, hsh])]; exact calcNM1_dir hn g1 ord, ?_⟩
    rw [hv1, tgt_sparse hd, g2, hok.unshift (hok.le hkp), map_add]; ring

lemma SideOK.tgt_fuel (hok : SideOK c bounds Q m) (dense : List ℕ) {k : ℕ} (hk : k ≤ m) : bnd c k (tgt c Q dense k) + 2 ≤ c.fuel := by
  unfold tgt
  split
  · exact (hok.fuel k hk).1
  · exact (hok.fuel k hk).2

lemma pass_spec (hs : c.shift.length = c.n) (hn : 2 ≤ c.n) (hok : SideOK c bounds Q m) (ord : List ℕ) : ∀ (rest before : List (ℕ × MPoly.St F)) (s : Side F) (T : ℕ),
    s.coefs = before ++ rest → SInv c Q m T s → SavedOK c Q s.saved → (∀ e ∈ before, ElOK c bounds Q s.dense e) → (s.restart = false → ∀ e ∈ rest, ElOK c bounds Q s.dense e) →
    (s.restart = true → before = [] ∧ ∃ d st rest', rest = (d, st) :: rest' ∧ d ∉ s.dense ∧ ∀ e ∈ rest', ElOK c bounds Q s.dense e) →
    ∃ T' s', c.pass bounds ord before rest s = some s' ∧ SInv c Q m T' s' ∧ s'.saved = s.saved ∧ s'.restart = false ∧ (∀ e ∈ s'.coefs, ElOK c bounds Q s'.dense e) ∧
      total c bounds Q s'.dense s'.coefs ≤ total c bounds Q s.dense before + pot c bounds Q s.restart s.dense rest ∧
      (s.restart = false → (∃ e ∈ rest, e.2.ord = ord ∧ (s.saved.find? (e.1 :: (e.2.zi + 1) :: e.2.ord)).isSome = true) →
        total c bounds Q s'.dense s'.coefs < total c bounds Q s.dense before + pot c bounds Q s.restart s.dense rest) := by
  intro rest
  induction rest with
  | nil =>
    intro before s T hc h hv hb _ hr
    have hrf : s.restart = false := by
      by_contra hne
      obtain ⟨-, d, st, rest', hx, -⟩ := hr (by simpa using hne)
      simp at hx
    rw [Cfg.pass]
    refine ⟨T, s, rfl, h, rfl, hrf, by rw [hc]; simpa using hb, ?_, ?_⟩
    · rw [hc, List.append_nil]; exact Nat.le_add_right _ _
    · intro _ hx
      obtain ⟨e, he, -⟩ := hx
      simp at he
  | cons e rest ih =>
    obtain ⟨k, st⟩ := e
    intro before s T hc h hv hb hr1 hr2
    rw [Cfg.pass]
    have hkop : k ∈ s.open := by unfold Side.open; rw [hc]; simp
    obtain ⟨hk1, hkp⟩ := h.el k hkop
    have hkm := hok.le hkp
    by_cases hcond : st.ord = ord ∨ s.restart = true
    · rw [if_pos hcond]
      -- the state with which the interpolation continues
      let st0 : MPoly.St F := if s.restart then (c.poly bounds k).init else st
      let s0 : Side F := { s with restart := false }
      have hs0 : SInv c Q m T s0 := h.congr rfl rfl rfl rfl rfl rfl
      obtain ⟨mm, hmm1, hmm2, hmm3, hmm4⟩ : ∃ mm, mm ≤ bnd c k (tgt c Q s.dense k) ∧ Rec (c.poly bounds k) (tgt c Q s.dense k) mm st0 ∧
          mm + (if k ∈ s.dense then bnd c k (homogeneousComponent k Q) + 1 else 0) + 1 + total c bounds Q s.dense rest ≤ pot c bounds Q s.restart s.dense ((k, st) :: rest) ∧
          (∀ e ∈ rest, ElOK c bounds Q s.dense e) := by
        by_cases hrs : s.restart = true
        · obtain ⟨-, d, st', rest', hx, hd, hel⟩ := hr2 hrs
          rw [List.cons.injEq, Prod.mk.injEq] at hx
          obtain ⟨⟨rfl, rfl⟩, rfl⟩ := hx
          refine ⟨bnd c k (homogeneousComponent k Q), by rw [tgt_sparse hd], ?_, ?_, hel⟩
          · rw [tgt_sparse hd]
            simp only [st0, hrs, if_true]
            exact Rec.init (hok.target k hk1 hkp).2
          · rw [if_neg hd, hrs]; unfold pot; simp
        · have hrf : s.restart = false := by simpa using hrs
          have hel := hr1 hrf
          have hst0 : st0 = st := by simp only [st0, hrf]; rfl
          have hmem : (bnd c k (tgt c Q s.dense k)) ∈ {mm | Rec (c.poly bounds k) (tgt c Q s.dense k) mm st} := hel (k, st) (by simp)
          refine ⟨sInf {mm | Rec (c.poly bounds k) (tgt c Q s.dense k) mm st}, Nat.sInf_le hmem, ?_, ?_, fun e he => hel e (by simp [he])⟩
          · rw [hst0]; exact Nat.sInf_mem ⟨_, hmem⟩
          · rw [hrf]; unfold pot; simp only; rw [total_cons]; unfold cost; exact le_rfl
      have hpc : (c.poly bounds k).n = c.n - 1 := rfl
      obtain ⟨st', dn, f1, f2, f3⟩ := feedLoop_spec (c := c) (pc := c.poly bounds k) (by rw [hpc]; omega) rfl (k := k) rfl (by have := hok.small; omega) (tgt_homog s.dense k)
        (s := s0) (sparse := !s0.dense.contains k) (h.values hs (by omega) hok hv hkop) c.fuel mm st0 (by have := hok.tgt_fuel s.dense hkm; omega) hmm2
      show ∃ T' s', (do
        let r ← c.feedLoop (c.poly bounds k) s0 k (!s0.dense.contains k) c.fuel st0
        if r.2 then
          let s ← c.polyDone s0 k (PolyFF.homogenize (r.1.result.getD []) k)
          c.pass bounds ord before rest { s with coefs := before ++ rest }
        else c.pass bounds ord (before ++ [(k, r.1)]) rest { s0 with coefs := before ++ (k, r.1) :: rest }) = some s' ∧ _
      rw [f1]
      simp only [Option.bind_eq_bind, Option.bind_some]
      cases dn with
      | true =>
        obtain ⟨r, g1, g2, g3, g4⟩ := f2 rfl
        rw [hpc, show c.n - 1 + 1 = c.n by omega] at g2
        simp only [if_true, g1, Option.getD_some]
        obtain ⟨T1, s1, p1, p2, p3, p4⟩ := polyDone_spec hs hok hs0 (before := before) (rest := rest) (k := k) (st := st) hc g2 g3 g4
        rw [p1]
        simp only [Option.bind_some]
        rcases p4 with ⟨q1, q2⟩ | ⟨hsh, q1, q2, d, st2, rest2, q3, q4, q5, q6⟩
        · obtain ⟨T', s', i1, i2, i3, i4, i5, i6, i7⟩ := ih before { s1 with coefs := before ++ rest } T1 rfl p2 (by rw [show (Side.saved { s1 with coefs := before ++ rest }) = s1.saved from rfl, p3]; exact hv)
            (fun e he => elOK_congr (q2 e.1 (by simp; left; exact ⟨e.2, he⟩)) (hb e he))
            (fun _ e he => elOK_congr (q2 e.1 (by simp; right; exact ⟨e.2, he⟩)) (hmm4 e he))
            (by intro hx; exact absurd (show s1.restart = true from hx) (by rw [q1]; simp [s0]))
          have hlt : total c bounds Q s'.dense s'.coefs < total c bounds Q s.dense before + pot c bounds Q s.restart s.dense ((k, st) :: rest) := by
            have e1 : total c bounds Q s1.dense before = total c bounds Q s.dense before := total_congr (fun j hj => q2 j (by rw [List.map_append]; exact List.mem_append_left _ hj))
            have e2 : pot c bounds Q s1.restart s1.dense rest = total c bounds Q s.dense rest := by
              rw [q1]; unfold pot; simp only [s0]
              exact total_congr (fun j hj => q2 j (by rw [List.map_append]; exact List.mem_append_right _ hj))
            have i6' : total c bounds Q s'.dense s'.coefs ≤ total c bounds Q s1.dense before + pot c bounds Q s1.restart s1.dense rest := i6
            omega
          exact ⟨T', s', i1, i2, i3.trans p3, i4, i5, hlt.le, fun _ _ => hlt⟩
        · subst q1
          obtain ⟨T', s', i1, i2, i3, i4, i5, i6, i7⟩ := ih [] { s1 with coefs := [] ++ rest } T1 rfl p2 (by rw [show (Side.saved { s1 with coefs := [] ++ rest }) = s1.saved from rfl, p3]; exact hv)
            (by simp) (by intro hx; exact absurd (show s1.restart = false from hx) (by rw [q2]; simp))
            (by
              intro _
              refine ⟨rfl, d, st2, rest2, q3, q5, ?_⟩
              intro e he
              exact elOK_congr (q6 e.1 (List.mem_map.mpr ⟨e, he, rfl⟩)) (hmm4 e (by rw [q3]; simp [he])))
          have hlt : total c bounds Q s'.dense s'.coefs < total c bounds Q s.dense [] + pot c bounds Q s.restart s.dense ((k, st) :: rest) := by
            have e2 : pot c bounds Q s1.restart s1.dense rest ≤ total c bounds Q s.dense rest := by
              rw [q2, q3, total_cons]; unfold pot; simp only
              have e3 : total c bounds Q s1.dense rest2 = total c bounds Q s.dense rest2 := total_congr q6
              have e4 : bnd c d (homogeneousComponent d Q) + 1 + 1 ≤ cost c bounds Q s.dense (d, st2) := by
                unfold cost
                rw [if_pos (show (d, st2).1 ∈ s.dense from q4)]
                have : (d, st2).1 = d := rfl
                rw [this]; omega
              omega
            have i6' : total c bounds Q s'.dense s'.coefs ≤ total c bounds Q s1.dense [] + pot c bounds Q s1.restart s1.dense rest := i6
            have e5 : total c bounds Q s1.dense [] = 0 := rfl
            omega
          exact ⟨T', s', i1, i2, i3.trans p3, i4, i5, hlt.le, fun _ _ => hlt⟩
      | false =>
        obtain ⟨m', hm', hrec, hstrict⟩ := f3 rfl
        rw [if_neg (by simp)]
        let s1 : Side F := { s0 with coefs := before ++ (k, st') :: rest }
        have hs1 : SInv c Q m T s1 := hs0.congr (by simp [Side.open, s1, s0, hc]) rfl rfl rfl rfl rfl
        have hel : ElOK c bounds Q s.dense (k, st') := hrec.mono (hm'.trans hmm1)
        obtain ⟨T', s', i1, i2, i3, i4, i5, i6, i7⟩ := ih (before ++ [(k, st')]) s1 T (by simp [s1]) hs1 hv
          (by
            intro e he
            rcases List.mem_append.mp he with he | he
            · exact hb e he
            · rw [List.mem_singleton.mp he]; exact hel)
          (fun _ => hmm4) (by intro hx; exact absurd hx (by simp [s1, s0]))
        have hcost : cost c bounds Q s.dense (k, st') ≤ m' + (if k ∈ s.dense then bnd c k (homogeneousComponent k Q) + 1 else 0) + 1 := by
          have : sInf {mm | Rec (c.poly bounds k) (tgt c Q s.dense k) mm st'} ≤ m' := Nat.sInf_le hrec
          unfold cost
          simp only
          omega
        have i6' : total c bounds Q s'.dense s'.coefs ≤ total c bounds Q s.dense (before ++ [(k, st')]) + total c bounds Q s.dense rest := i6
        rw [total_append, total_cons, show total c bounds Q s.dense ([] : List (ℕ × MPoly.St F)) = 0 from rfl] at i6'
        refine ⟨T', s', i1, i2, i3, i4, i5, by omega, ?_⟩
        intro hrf hex
        obtain ⟨e, he, he1, he2⟩ := hex
        rw [List.mem_cons] at he
        rcases he with he | he
        · subst he
          have hst0 : st0 = st := by simp only [st0, hrf]; rfl
          have := hstrict (by rw [hst0]; exact he2)
          omega
        · have i7' : total c bounds Q s'.dense s'.coefs < total c bounds Q s.dense (before ++ [(k, st')]) + total c bounds Q s.dense rest := i7 rfl ⟨e, he, he1, he2⟩
          rw [total_append, total_cons, show total c bounds Q s.dense ([] : List (ℕ × MPoly.St F)) = 0 from rfl] at i7'
          omega
    · rw [if_neg hcond]
      have hrf : s.restart = false := by
        by_contra hne
        exact hcond (Or.inr (by simpa using hne))
      have hel := hr1 hrf
      obtain ⟨T', s', i1, i2, i3, i4, i5, i6, i7⟩ := ih (before ++ [(k, st)]) s T (by rw [hc]; simp) h hv
        (by
          intro e he
          rcases List.mem_append.mp he with he | he
          · exact hb e he
          · rw [List.mem_singleton.mp he]; exact hel _ (by simp))
        (fun _ e he => hel e (by simp [he])) (by intro hx; rw [hrf] at hx; simp at hx)
      have hsum : total c bounds Q s.dense (before ++ [(k, st)]) + pot c bounds Q s.restart s.dense rest = total c bounds Q s.dense before + pot c bounds Q s.restart s.dense ((k, st) :: rest) := by
        rw [hrf]; unfold pot; simp only
        rw [total_append, total_cons, total_cons, show total c bounds Q s.dense ([] : List (ℕ × MPoly.St F)) = 0 from rfl]
        omega
      refine ⟨T', s', i1, i2, i3, i4, i5, by omega, ?_⟩
      intro _ hex
      obtain ⟨e, he, he1, he2⟩ := hex
      rw [List.mem_cons] at he
      rcases he with he | he
      · subst he; exact absurd (Or.inl he1) hcond
      · have := i7 hrf ⟨e, he, he1, he2⟩
        omega

end FireFly.RMulti
