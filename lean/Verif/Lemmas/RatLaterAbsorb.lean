import Verif.Lemmas.RatLaterSide
/-! # The further prime fields: the Vandermonde systems -/
set_option linter.all false
namespace FireFly.RLater
open MvPolynomial FFMap
variable {F : Type} [Field F] [DecidableEq F]

/-! ### the known coefficients -/

lemma group_fold {n : ℕ} : ∀ (l done : FFMap F) (r : FFMap (FFMap F)), ((done ++ l).map Prod.fst).Nodup → (∀ x ∈ l, x.1.length = n) → Parts n r → psum r = denote done →
    (∀ t ∈ r, ∀ x ∈ t.2, x.1 ∈ done.map Prod.fst) →
    Parts n (l.foldl (fun (r : FFMap (FFMap F)) el =>
      if PolyFF.zero (RMulti.polyAt r el.1.sum) then r.set [el.1.sum] [el] else r.set [el.1.sum] ((RMulti.polyAt r el.1.sum).emplace el.1 el.2)) r) ∧
    psum (l.foldl (fun (r : FFMap (FFMap F)) el =>
      if PolyFF.zero (RMulti.polyAt r el.1.sum) then r.set [el.1.sum] [el] else r.set [el.1.sum] ((RMulti.polyAt r el.1.sum).emplace el.1 el.2)) r) = denote (done ++ l) := by
  intro l
  induction l with
  | nil => intro done r _ _ h2 h3 _; simp only [List.foldl_nil, List.append_nil]; exact ⟨h2, h3⟩
  | cons el l ih =>
    intro done r h0 h1 h2 h3 h4
    rw [List.foldl_cons, show done ++ el :: l = (done ++ [el]) ++ l by simp]
    obtain ⟨w, wd⟩ := h2.get el.1.sum
    have hel := h1 el (by simp)
    have hnew : el.1 ∉ done.map Prod.fst := by
      rw [List.map_append, List.map_cons, List.nodup_append] at h0
      exact fun h => h0.2.2 _ h _ (by simp) rfl
    have hnp : el.1 ∉ ((r.find? [el.1.sum]).getD []).map Prod.fst := by
      intro hx
      obtain ⟨x, hx, he⟩ := List.mem_map.mp hx
      cases hf : r.find? [el.1.sum] with
      | none => rw [hf] at hx; simp at hx
      | some p =>
        rw [hf] at hx
        have := h4 _ (FFMap.find?_mem hf) x hx
        rw [he] at this
        exact hnew this
    have key : ∀ p : FFMap F, WFMap n p → (∀ x ∈ p, x.1.sum = el.1.sum) → denote p = denote ((r.find? [el.1.sum]).getD []) + monomial el.1.toFinsupp el.2 →
        (∀ x ∈ p, x = el ∨ x ∈ (r.find? [el.1.sum]).getD []) →
        Parts n (r.set [el.1.sum] p) ∧ psum (r.set [el.1.sum] p) = denote (done ++ [el]) ∧ ∀ t ∈ r.set [el.1.sum] p, ∀ x ∈ t.2, x.1 ∈ (done ++ [el]).map Prod.fst := by
      intro p p1 p2 p3 p4
      obtain ⟨a1, a2⟩ := h2.set p1 p2
      refine ⟨a1, ?_, ?_⟩
      · rw [a2, h3, p3, denote_append, RMulti.denote_single]; ring
      · intro t ht x hx
        rw [List.map_append]
        rcases mem_set ht with ht | rfl
        · exact List.mem_append_left _ (h4 t ht x hx)
        · rcases p4 x hx with rfl | hx
          · simp
          · cases hf : r.find? [el.1.sum] with
            | none => rw [hf] at hx; simp at hx
            | some p => rw [hf] at hx; exact List.mem_append_left _ (h4 _ (FFMap.find?_mem hf) x hx)
    have step : Parts n (if PolyFF.zero (RMulti.polyAt r el.1.sum) then r.set [el.1.sum] [el] else r.set [el.1.sum] ((RMulti.polyAt r el.1.sum).emplace el.1 el.2)) ∧
        psum (if PolyFF.zero (RMulti.polyAt r el.1.sum) then r.set [el.1.sum] [el] else r.set [el.1.sum] ((RMulti.polyAt r el.1.sum).emplace el.1 el.2)) = denote (done ++ [el]) ∧
        ∀ t ∈ (if PolyFF.zero (RMulti.polyAt r el.1.sum) then r.set [el.1.sum] [el] else r.set [el.1.sum] ((RMulti.polyAt r el.1.sum).emplace el.1 el.2)), ∀ x ∈ t.2,
          x.1 ∈ (done ++ [el]).map Prod.fst := by
      split
      · rename_i hz
        apply key
        · exact ⟨by simp, by simpa using hel⟩
        · simp
        · rw [show denote ((r.find? [el.1.sum]).getD []) = 0 from denote_zero_of hz, zero_add]
          exact RMulti.denote_single _ _
        · intro x hx; exact Or.inl (by simpa using hx)
      · unfold RMulti.polyAt
        have he : ((r.find? [el.1.sum]).getD []).emplace el.1 el.2 = ((r.find? [el.1.sum]).getD []) ++ [el] := by
          unfold FFMap.emplace
          rw [find?_eq_none.mpr hnp]; rfl
        apply key
        · exact w.emplace hel _
        · intro x hx
          rw [he] at hx
          rcases List.mem_append.mp hx with hx | hx
          · exact wd x hx
          · rw [List.mem_singleton.mp hx]
        · rw [he, denote_append, RMulti.denote_single]
        · intro x hx
          rw [he] at hx
          rcases List.mem_append.mp hx with hx | hx
          · exact Or.inr hx
          · exact Or.inl (by simpa using hx)
    exact ih (done ++ [el]) _ (by simpa using h0) (fun x hx => h1 x (List.mem_cons_of_mem _ hx)) step.1 step.2.1 step.2.2

lemma group_spec (c : Cfg F) {g : FFMap F} (hg : WFMap c.n g) : Parts c.n (c.group g) ∧ psum (c.group g) = denote g := by
  unfold Cfg.group
  have hw : WFMap c.n (g.foldl (fun (m : FFMap F) el => m.set el.1 el.2) [(List.replicate c.n 0, 0)]) := by
    apply wf_foldl_step (fun m el h1 h2 => h1.set h2 _) g _ hg.2
    exact ⟨by simp, by simp⟩
  have hf : denote (g.foldl (fun (m : FFMap F) el => m.set el.1 el.2) [(List.replicate c.n 0, (0 : F))]) = denote g := by
    apply denote_ext hw
    · intro k hk
      rw [coeff_denote hg hk, find?_foldl_step (g := fun _ w => some w) (fun m el k => find?_set m el.1 el.2 k) g _ k hg.1]
      cases hgk : g.find? k with
      | some w => rfl
      | none =>
        rw [find?_single]
        by_cases hz : k = List.replicate c.n 0
        · simp [hz]
        · simp [hz]
    · intro d hd; exact coeff_denote_other hg hd
  obtain ⟨a, b⟩ := group_fold (n := c.n) _ [] [] (by simpa using hw.1) hw.2 (Parts.nil _) rfl (by simp)
  exact ⟨a, by rw [b, List.nil_append, hf]⟩

/-! ### the systems -/

lemma vdm_terms {n d : ℕ} {a : List F} (ha : a.length + 1 = n) {N : MvPolynomial ℕ F} {es : List (List ℕ)} (hne : es ≠ []) (hes : ∀ e ∈ es, e.length = n ∧ e.sum = d)
    (hnd : (es.map (vdmBase a)).Nodup) (h0 : (0 : F) ∉ es.map (vdmBase a)) :
    solveVandermondeSystem es ((List.range es.length).map (fun i : ℕ => pv a N es (i + 1))) a = some (terms N es) := by
  obtain ⟨poly, e1, -, -, e4⟩ := C20_system es ((List.range es.length).map (fun i : ℕ => pv a N es (i + 1))) a hne (by simp) (fun el hel => by rw [(hes el hel).1]; exact ha) hnd h0
  rw [e1, (e4 (terms N es) (by unfold terms; rw [List.map_map]; exact List.map_id _)).mp]
  intro k hk
  rw [List.getD_eq_getElem _ _ (by simpa using hk), List.getElem_map, List.getElem_range]
  unfold pv terms
  rw [List.map_map]
  congr 1
  apply List.map_congr_left
  intro e _
  show _ * (∏ i ∈ _, _) ^ _ = _
  rw [vdmBase_eq]

/-- the values for the first `j` order vectors -/
noncomputable def vals (a : List F) (N : MvPolynomial ℕ F) (j : ℕ) (u : List ℕ × List (List ℕ)) : List ℕ × List F := (u.1, (List.range j).map (fun i : ℕ => pv a N u.2 (i + 1)))

lemma find_mid {V : Type} (l r : FFMap V) (k : List ℕ) (v : V) (hl : k ∉ l.map Prod.fst) : FFMap.find? (l ++ (k, v) :: r) k = some v := by
  rw [FFMap.find?_append, FFMap.find?_eq_none.mpr hl, FFMap.find?_cons, if_pos rfl]; rfl

lemma erase_mid {V : Type} (l r : FFMap V) (k : List ℕ) (v : V) (hl : k ∉ l.map Prod.fst) (hr : k ∉ r.map Prod.fst) : FFMap.erase (l ++ (k, v) :: r) k = l ++ r := by
  unfold FFMap.erase
  rw [List.filter_append, List.filter_cons]
  simp only [ne_eq, not_true_eq_false, decide_false, Bool.false_eq_true, if_false]
  rw [List.filter_eq_self.mpr, List.filter_eq_self.mpr]
  · intro x hx
    have : x.1 ≠ k := fun h => hr (h ▸ List.mem_map.mpr ⟨x, hx, rfl⟩)
    simpa using this
  · intro x hx
    have : x.1 ≠ k := fun h => hl (h ▸ List.mem_map.mpr ⟨x, hx, rfl⟩)
    simpa using this

lemma set_mid {V : Type} (l r : FFMap V) (k : List ℕ) (v w : V) (hl : k ∉ l.map Prod.fst) (hr : k ∉ r.map Prod.fst) : FFMap.set (l ++ (k, v) :: r) k w = l ++ (k, w) :: r := by
  unfold FFMap.set
  rw [find_mid l r k v hl, Option.isSome_some, if_pos rfl, List.map_append, List.map_cons, if_pos rfl]
  have : ∀ m : FFMap V, k ∉ m.map Prod.fst → m.map (fun t => if t.1 = k then (k, w) else t) = m := by
    intro m hm
    conv_rhs => rw [← List.map_id m]
    apply List.map_congr_left
    intro x hx
    rw [if_neg (by intro h; exact hm (h ▸ List.mem_map.mpr ⟨x, hx, rfl⟩))]
    rfl
  rw [this l hl, this r hr]

variable {c : Cfg F} {N : MvPolynomial ℕ F}

/-- what the asked degrees satisfy -/
def Ask (c : Cfg F) (u : List ℕ × List (List ℕ)) : Prop :=
  ∃ d, u.1 = [d] ∧ u.2 ≠ [] ∧ (∀ e ∈ u.2, e.length = c.n ∧ e.sum = d) ∧ (u.2.map (vdmBase c.anchor)).Nodup ∧ (0 : F) ∉ u.2.map (vdmBase c.anchor)

lemma absorb_fold (ha : c.anchor.length + 1 = c.n) {o : ℕ} (ho : 1 ≤ o) : ∀ (rest pre : FFMap (List (List ℕ))) (s : Side F), ((pre ++ rest).map Prod.fst).Nodup → (∀ u ∈ rest, Ask c u ∧ o ≤ u.2.length) →
    s.unsolved = pre ++ rest → s.mat = pre.map (vals c.anchor N o) ++ rest.map (vals c.anchor N (o - 1)) → Parts c.n s.solved →
    ∃ s', (rest.map (fun u => (u.1, pv c.anchor N u.2 o))).foldlM c.absorbOne s = some s' ∧
      s'.unsolved = pre ++ rest.filter (fun u => decide (o < u.2.length)) ∧ s'.mat = s'.unsolved.map (vals c.anchor N o) ∧ Parts c.n s'.solved ∧
      psum s'.solved = psum s.solved + ((rest.filter (fun u => !decide (o < u.2.length))).map (fun u => denote (terms N u.2))).sum := by
  intro rest
  induction rest with
  | nil =>
    intro pre s _ _ h2 h3 h4
    refine ⟨s, rfl, h2, ?_, h4, by simp⟩
    rw [h2, h3]; simp
  | cons u rest ih =>
    intro pre s h0 h1 h2 h3 h4
    obtain ⟨⟨d, hk, hne, hes, hnd, hz⟩, hlen⟩ := h1 u (by simp)
    obtain ⟨k, es⟩ := u
    simp only at hk hne hes hnd hz hlen
    have hn := h0
    rw [List.map_append, List.map_cons, List.nodup_append, List.nodup_cons] at hn
    have hkl : k ∉ pre.map Prod.fst := fun h => hn.2.2 _ h _ (by simp) rfl
    have hkr : k ∉ rest.map Prod.fst := hn.2.1.1
    have fstv : ∀ (j : ℕ) (l : FFMap (List (List ℕ))), (l.map (vals c.anchor N j)).map Prod.fst = l.map Prod.fst := by
      intro j l; rw [List.map_map]; rfl
    have hkl' : k ∉ (pre.map (vals c.anchor N o)).map Prod.fst := by rw [fstv]; exact hkl
    have hkr' : k ∉ (rest.map (vals c.anchor N (o - 1))).map Prod.fst := by rw [fstv]; exact hkr
    have hmat : s.mat = pre.map (vals c.anchor N o) ++ (k, (List.range (o - 1)).map (fun i : ℕ => pv c.anchor N es (i + 1))) :: rest.map (vals c.anchor N (o - 1)) := by
      rw [h3, List.map_cons]; rfl
    have e1 : (s.unsolved.find? k).getD [] = es := by rw [h2, find_mid _ _ _ _ hkl]; rfl
    have e2 : (s.mat.find? k).getD [] = (List.range (o - 1)).map (fun i : ℕ => pv c.anchor N es (i + 1)) := by rw [hmat, find_mid _ _ _ _ hkl']; rfl
    have e3 : (if ((List.range (o - 1)).map (fun i : ℕ => pv c.anchor N es (i + 1))).length < es.length then (List.range (o - 1)).map (fun i : ℕ => pv c.anchor N es (i + 1)) ++ [pv c.anchor N es o]
        else (List.range (o - 1)).map (fun i : ℕ => pv c.anchor N es (i + 1))) = (List.range o).map (fun i : ℕ => pv c.anchor N es (i + 1)) := by
      rw [if_pos (by simp; omega)]
      obtain ⟨j, rfl⟩ : ∃ j, o = j + 1 := ⟨o - 1, by omega⟩
      rw [Nat.add_sub_cancel, List.range_succ, List.map_append]; rfl
    rw [List.map_cons, List.foldlM_cons]
    by_cases hlt : o < es.length
    · -- more values are needed
      have hstep : c.absorbOne s (k, pv c.anchor N es o) = some { s with mat := s.mat.set k ((List.range o).map (fun i : ℕ => pv c.anchor N es (i + 1))) } := by
        unfold Cfg.absorbOne
        simp only [e1, e2, e3]
        rw [if_neg (by simp; omega)]
      rw [hstep]
      simp only [Option.bind_eq_bind, Option.bind_some]
      obtain ⟨s', f1, f2, f3, f4, f5⟩ := ih (pre ++ [(k, es)]) { s with mat := s.mat.set k ((List.range o).map (fun i : ℕ => pv c.anchor N es (i + 1))) } (by simpa using h0)
        (fun x hx => h1 x (List.mem_cons_of_mem _ hx)) (by show s.unsolved = _; rw [h2]; simp) (by
          show s.mat.set k _ = _
          rw [hmat, set_mid _ _ _ _ _ hkl' hkr', List.map_append]
          simp [vals]) h4
      refine ⟨s', f1, ?_, f3, f4, ?_⟩
      · rw [f2, List.filter_cons, if_pos (by simpa using hlt)]; simp
      · rw [f5, List.filter_cons, if_neg (by simpa using hlt)]
    · -- the coefficients of this degree
      have heq : es.length = o := by omega
      obtain ⟨w1, w2⟩ := h4.get d
      have hv : solveVandermondeSystem es ((List.range o).map (fun i : ℕ => pv c.anchor N es (i + 1))) c.anchor = some (terms N es) := by
        rw [← heq]; exact vdm_terms ha hne hes hnd hz
      have tw : WFMap c.n (terms N es) := by
        refine ⟨?_, ?_⟩
        · unfold terms; rw [List.map_map]
          rw [show (Prod.fst ∘ fun e : List ℕ => (e, coeff e.toFinsupp N)) = id from rfl, List.map_id]
          exact hnd.of_map _
        · intro x hx
          obtain ⟨e, he, rfl⟩ := List.mem_map.mp hx
          exact (hes e he).1
      have td : ∀ x ∈ terms N es, x.1.sum = d := by
        intro x hx
        obtain ⟨e, he, rfl⟩ := List.mem_map.mp hx
        exact (hes e he).2
      obtain ⟨new, hnewd⟩ : ∃ new : FFMap F, new = if PolyFF.zero ((s.solved.find? k).getD []) then terms N es else PolyFF.addAssign ((s.solved.find? k).getD []) (terms N es) := ⟨_, rfl⟩
      have hnew : WFMap c.n new ∧ (∀ x ∈ new, x.1.sum = d) ∧ denote new = denote ((s.solved.find? k).getD []) + denote (terms N es) := by
        rw [hk] at hnewd ⊢
        rw [hnewd]
        split
        · rename_i h0'
          refine ⟨tw, td, ?_⟩
          rw [denote_zero_of h0', zero_add]
        · obtain ⟨b1, b2, -⟩ := C13_add_assign w1 tw
          refine ⟨b1, ?_, b2⟩
          intro x hx
          have : ∀ (b a : FFMap F), (∀ x ∈ a, x.1.sum = d) → (∀ x ∈ b, x.1.sum = d) → ∀ x ∈ PolyFF.addAssign a b, x.1.sum = d := by
            intro b
            induction b with
            | nil => intro a h1 _ x hx; exact h1 x hx
            | cons y b ihb =>
              intro a h1 h2 x hx
              unfold PolyFF.addAssign at hx ihb
              rw [List.foldl_cons] at hx
              refine ihb _ ?_ (fun z hz => h2 z (List.mem_cons_of_mem _ hz)) x hx
              intro z hz
              have hset : ∀ v, ∀ z ∈ a.set y.1 v, z.1.sum = d := by
                intro v z hz
                rcases mem_set hz with hz | rfl
                · exact h1 z hz
                · exact h2 y (by simp)
              unfold PolyFF.addAssignStep at hz
              split at hz
              · split at hz
                · exact hset _ z hz
                · split at hz
                  · exact hset _ z (mem_erase hz)
                  · exact hset _ z hz
              · exact h1 z hz
          exact this _ _ w2 td x hx
      have hstep : c.absorbOne s (k, pv c.anchor N es o) = some { unsolved := s.unsolved.erase k, mat := s.mat.erase k, solved := s.solved.set k new } := by
        unfold Cfg.absorbOne
        simp only [e1, e2, e3]
        rw [if_pos (by simp; omega), hv, hnewd]
        rfl
      rw [hstep]
      simp only [Option.bind_eq_bind, Option.bind_some]
      have hp := h4.set hnew.1 hnew.2.1
      rw [← hk] at hp
      obtain ⟨s', f1, f2, f3, f4, f5⟩ := ih pre { unsolved := s.unsolved.erase k, mat := s.mat.erase k, solved := s.solved.set k new }
        (h0.sublist ((List.Sublist.refl pre).append (List.sublist_cons_self _ _) |>.map _))
        (fun x hx => h1 x (List.mem_cons_of_mem _ hx)) (by show s.unsolved.erase k = _; rw [h2, erase_mid _ _ _ _ hkl hkr]) (by
          show s.mat.erase k = _
          rw [hmat, erase_mid _ _ _ _ hkl' hkr']) hp.1
      refine ⟨s', f1, ?_, f3, f4, ?_⟩
      · rw [f2, List.filter_cons, if_neg (by simpa using hlt)]
      · rw [f5, List.filter_cons, if_pos (by simpa using hlt), List.map_cons, List.sum_cons]
        show psum (s.solved.set k new) + _ = _
        rw [hp.2, hnew.2.2]
        ring

end FireFly.RLater
