import Verif.Lemmas.RatMultiPass
import Verif.Props.CompareProps
/-! # All degrees after a solved system -/
set_option linter.all false
namespace FireFly.RMulti
open MvPolynomial
variable {F : Type} [Field F] [DecidableEq F] {c : Cfg F} {bounds : Option (List ℕ)} {Q N D : MvPolynomial ℕ F} {m T mN mD : ℕ}

/-- the values that are saved are the values of the parts -/
structure ValsOK (c : Cfg F) (Q : MvPolynomial ℕ F) (ord : List ℕ) (op : List ℕ) (vals : FFMap F) : Prop where
  right : ∀ t ∈ vals, ∃ k, t.1 = [k] ∧ t.2 = eval (dir c.anchor ord) (part c.shift Q k)
  all : ∀ k ∈ op, ∃ t ∈ vals, t.1 = [k]

/-- the loop of `saveValues` -/
def saveFold (zi : ℕ) (ord : List ℕ) (saved : FFMap F) (vals : FFMap F) : FFMap F :=
  vals.foldl (fun (m : FFMap F) el => if ord.getD (zi - 2) 0 < el.1.getD 0 0 + 2 then m.set (el.1.getD 0 0 :: zi :: ord) el.2 else m) saved

lemma saveFold_spec (zi : ℕ) (ord : List ℕ) : ∀ (vals saved : FFMap F), SavedOK c Q saved → (∀ t ∈ vals, ∃ k, t.1 = [k] ∧ t.2 = eval (dir c.anchor ord) (part c.shift Q k)) →
    SavedOK c Q (saveFold zi ord saved vals) ∧ (∀ key, (saved.find? key).isSome = true → ((saveFold zi ord saved vals).find? key).isSome = true) ∧
    ∀ k, (∃ t ∈ vals, t.1 = [k]) → ord.getD (zi - 2) 0 < k + 2 → ((saveFold zi ord saved vals).find? (k :: zi :: ord)).isSome = true := by
  intro vals
  induction vals with
  | nil => intro saved h _; exact ⟨h, fun _ h => h, by rintro k ⟨t, ht, -⟩; simp at ht⟩
  | cons t vals ih =>
    intro saved h hv
    obtain ⟨k, hk, hkv⟩ := hv t (by simp)
    by_cases hlt : ord.getD (zi - 2) 0 < t.1.getD 0 0 + 2
    · have hstep : saveFold zi ord saved (t :: vals) = saveFold zi ord (saved.set (k :: zi :: ord) t.2) vals := by
        unfold saveFold; rw [List.foldl_cons, if_pos hlt, hk]; rfl
      obtain ⟨i1, i2, i3⟩ := ih (saved.set (k :: zi :: ord) t.2) (by
        intro k' z' o' v' hf
        rw [FFMap.find?_set] at hf
        split_ifs at hf with he
        · rw [List.cons.injEq, List.cons.injEq] at he
          obtain ⟨rfl, rfl, rfl⟩ := he
          rw [← Option.some.inj hf, hkv]
        · exact h k' z' o' v' hf) (fun u hu => hv u (by simp [hu]))
      rw [hstep]
      refine ⟨i1, ?_, ?_⟩
      · intro key hkey
        apply i2
        rw [FFMap.find?_set]
        split_ifs
        · rfl
        · exact hkey
      · rintro k' ⟨u, hu, huk⟩ hlt'
        rcases List.mem_cons.mp hu with rfl | hu
        · apply i2
          have : k' = k := by rw [hk] at huk; simpa using huk.symm
          rw [this, FFMap.find?_set, if_pos rfl]; rfl
        · exact i3 k' ⟨u, hu, huk⟩ hlt'
    · have hstep : saveFold zi ord saved (t :: vals) = saveFold zi ord saved vals := by
        unfold saveFold; rw [List.foldl_cons, if_neg hlt]
      obtain ⟨i1, i2, i3⟩ := ih saved h (fun u hu => hv u (by simp [hu]))
      rw [hstep]
      refine ⟨i1, i2, ?_⟩
      rintro k' ⟨u, hu, huk⟩ hlt'
      rcases List.mem_cons.mp hu with rfl | hu
      · exfalso; rw [huk] at hlt; exact hlt hlt'
      · exact i3 k' ⟨u, hu, huk⟩ hlt'

/-! ### the next order vector -/

lemma pickNext_cases : ∀ (l : List (ℕ × MPoly.St F)) (b : ℕ × List ℕ),
    (pickNext l b = b ∧ ∀ e ∈ l, ¬ b.1 < e.2.zi + 1 ∧ ¬ (b.1 = e.2.zi + 1 ∧ aGrtB e.2.ord b.2 = true)) ∨ ∃ e ∈ l, pickNext l b = (e.2.zi + 1, e.2.ord) := by
  intro l
  induction l with
  | nil => intro b; left; exact ⟨rfl, by simp⟩
  | cons e l ih =>
    intro b
    have hstep : ∀ b', (if b.1 < e.2.zi + 1 then (e.2.zi + 1, e.2.ord) else if b.1 = e.2.zi + 1 ∧ aGrtB e.2.ord b.2 = true then (b.1, e.2.ord) else b) = b' → pickNext (e :: l) b = pickNext l b' := by
      intro b' hb'
      unfold pickNext; rw [List.foldl_cons, hb']
    by_cases h1 : b.1 < e.2.zi + 1
    · rw [hstep _ (if_pos h1)]
      right
      rcases ih (e.2.zi + 1, e.2.ord) with ⟨h, -⟩ | ⟨e', he', h⟩
      · exact ⟨e, by simp, h⟩
      · exact ⟨e', by simp [he'], h⟩
    · by_cases h2 : b.1 = e.2.zi + 1 ∧ aGrtB e.2.ord b.2 = true
      · rw [hstep (b.1, e.2.ord) (by rw [if_neg h1, if_pos h2])]
        right
        rcases ih (b.1, e.2.ord) with ⟨h, -⟩ | ⟨e', he', h⟩
        · exact ⟨e, by simp, by rw [h, h2.1]⟩
        · exact ⟨e', by simp [he'], h⟩
      · rw [hstep b (by rw [if_neg h1, if_neg h2])]
        rcases ih b with ⟨h, h'⟩ | ⟨e', he', h⟩
        · left
          refine ⟨h, ?_⟩
          intro x hx
          rcases List.mem_cons.mp hx with rfl | hx
          · exact ⟨h1, h2⟩
          · exact h' x hx
        · right; exact ⟨e', by simp [he'], h⟩

lemma ziOrd_one_eq {n : ℕ} {o : List ℕ} (hn : 1 ≤ n) (h : ZiOrd n 1 o) (hg : ¬ aGrtB o (List.replicate n 1) = true) : o = List.replicate n 1 := by
  have hr : ∀ j < n, (List.replicate n 1).getD j 0 = 1 := by
    intro j hj
    rw [List.getD_eq_getElem _ _ (by simpa using hj)]; simp
  have h0 : o.getD 0 0 = 1 := by
    by_contra hne
    apply hg
    rw [C27_a_grt_b_colex]
    refine ⟨0, by rw [h.len]; omega, ?_, ?_⟩
    · rw [hr 0 (by omega)]
      have := h.ge 0 (by omega)
      omega
    · intro j hj hjl
      rw [h.len] at hjl
      rw [h.one j (by omega) hjl, hr j hjl]
  apply List.ext_getElem
  · simp [h.len]
  · intro j h1 h2
    have hj : j < n := by rw [← h.len]; exact h1
    have e1 : o.getD j 0 = 1 := by
      rcases j with _ | j
      · exact h0
      · exact h.one _ (by omega) hj
    rw [List.getD_eq_getElem _ _ h1] at e1
    simp [e1]

lemma pickNext_mem {l : List (ℕ × MPoly.St F)} (hn : 2 ≤ c.n) (hl : ∀ e ∈ l, ZiOrd (c.n - 1) e.2.zi e.2.ord) (hne : l ≠ []) :
    ∃ e ∈ l, pickNext l (2, List.replicate (c.n - 1) 1) = (e.2.zi + 1, e.2.ord) := by
  rcases pickNext_cases l (2, List.replicate (c.n - 1) 1) with ⟨h, h'⟩ | h
  · obtain ⟨e, he⟩ := List.exists_mem_of_ne_nil l hne
    refine ⟨e, he, ?_⟩
    obtain ⟨h1, h2⟩ := h' e he
    have hz := hl e he
    have hzi : e.2.zi = 1 := by have := hz.pos; simp at h1; omega
    rw [h, hzi, ziOrd_one_eq (by omega) (hzi ▸ hz) (fun hg => h2 ⟨by rw [hzi], hg⟩)]
  · exact h

lemma pickNext_append (l l' : List (ℕ × MPoly.St F)) (b : ℕ × List ℕ) : pickNext l' (pickNext l b) = pickNext (l ++ l') b := by
  unfold pickNext; rw [List.foldl_append]

/-! ### both sides -/

/-- one side between two systems -/
structure Half (c : Cfg F) (bounds : Option (List ℕ)) (Q : MvPolynomial ℕ F) (m : ℕ) (s : Side F) : Prop where
  inv : ∃ T, SInv c Q m T s
  el : ∀ e ∈ s.coefs, ElOK c bounds Q s.dense e
  saved : SavedOK c Q s.saved
  restart : s.restart = false

lemma Half.ziOrd (hn : 2 ≤ c.n) {s : Side F} (h : Half c bounds Q m s) {e : ℕ × MPoly.St F} (he : e ∈ s.coefs) : ZiOrd (c.n - 1) e.2.zi e.2.ord :=
  Rec.ziOrd (pc := c.poly bounds e.1) (by show 1 ≤ c.n - 1; omega) (h.el e he)

lemma Half.order (hn : 2 ≤ c.n) {s : Side F} (h : Half c bounds Q m s) {e : ℕ × MPoly.St F} (he : e ∈ s.coefs) : e.2.ord.getD (e.2.zi - 1) 0 ≤ e.1 + 1 :=
  Rec.order (pc := c.poly bounds e.1) (by show 1 ≤ c.n - 1; omega) rfl rfl (h.el e he)

/-- one side with the values of a system -/
lemma Half.step (hs : c.shift.length = c.n) (hn : 2 ≤ c.n) (hok : SideOK c bounds Q m) {s : Side F} (h : Half c bounds Q m s) {zi : ℕ} {ord : List ℕ} {vals : FFMap F}
    (hv : ValsOK c Q ord s.open vals) : ∃ s', c.pass bounds ord [] s.coefs (saveValues zi ord vals s) = some s' ∧ Half c bounds Q m s' ∧
      total c bounds Q s'.dense s'.coefs ≤ total c bounds Q s.dense s.coefs ∧
      ((∃ e ∈ s.coefs, zi = e.2.zi + 1 ∧ ord = e.2.ord) → total c bounds Q s'.dense s'.coefs < total c bounds Q s.dense s.coefs) := by
  obtain ⟨T, hT⟩ := h.inv
  obtain ⟨v1, -, v3⟩ := saveFold_spec (c := c) (Q := Q) zi ord vals s.saved h.saved hv.right
  let s0 : Side F := saveValues zi ord vals s
  have hs0 : SInv c Q m T s0 := hT.congr rfl rfl rfl rfl rfl rfl
  have hres : s0.restart = false := h.restart
  obtain ⟨T', s', e1, e2, e3, e4, e5, e6, e7⟩ := pass_spec hs hn hok ord s.coefs [] s0 T rfl hs0 v1 (by simp) (fun _ => h.el) (by intro hx; rw [hres] at hx; simp at hx)
  have hpot : total c bounds Q s0.dense [] + pot c bounds Q s0.restart s0.dense s.coefs = total c bounds Q s.dense s.coefs := by
    rw [hres]; unfold pot; simp only
    have e1 : total c bounds Q s0.dense [] = 0 := rfl
    have e2 : s0.dense = s.dense := rfl
    rw [e1, e2, zero_add]
  rw [hpot] at e6 e7
  refine ⟨s', e1, ⟨⟨T', e2⟩, e5, by rw [e3]; exact v1, e4⟩, e6, ?_⟩
  rintro ⟨e, he, rfl, rfl⟩
  apply e7 hres
  refine ⟨e, he, rfl, ?_⟩
  apply v3 e.1
  · exact hv.all e.1 (List.mem_map.mpr ⟨e, he, rfl⟩)
  · have h1 := h.order hn he
    have h2 := (h.ziOrd hn he).pos
    rw [show e.2.zi + 1 - 2 = e.2.zi - 1 by omega]
    omega

/-- Both sides between two systems: `zi` and the orders are those of an open degree. -/
structure Both (c : Cfg F) (N D : MvPolynomial ℕ F) (mN mD : ℕ) (s : St F) : Prop where
  num : Half c c.boundsNum N mN s.num
  den : Half c c.boundsDen D mD s.den
  known : s.known = true
  result : s.result = none

noncomputable def Missing (c : Cfg F) (N D : MvPolynomial ℕ F) (s : St F) : ℕ := total c c.boundsNum N s.num.dense s.num.coefs + total c c.boundsDen D s.den.dense s.den.coefs

/-- `zi` and the orders are those of an open degree -/
def Asks (s : St F) : Prop := ∃ e ∈ s.num.coefs ++ s.den.coefs, s.zi = e.2.zi + 1 ∧ s.ord = e.2.ord

lemma handle_spec (hp : Prob c N D mN mD) {s : St F} (h : Both c N D mN mD s) {vals : FFMap F × FFMap F}
    (hv1 : ValsOK c N s.ord s.num.open vals.1) (hv2 : ValsOK c D s.ord s.den.open vals.2) :
    ∃ s', c.handle s vals = some s' ∧
      ((s'.savedTi = [] ∧ ∃ r, s'.result = some r ∧ Ends c N D s' r) ∨
       (Both c N D mN mD s' ∧ Asks s' ∧ s'.numEqn = s'.num.coefs.length + s'.den.coefs.length ∧ Missing c N D s' ≤ Missing c N D s ∧ (Asks s → Missing c N D s' < Missing c N D s) ∧
        s'.rows = s.rows ∧ s'.savedTi = s.savedTi ∧ s'.subNum = s.subNum ∧ s'.subDen = s.subDen)) := by
  obtain ⟨num, e1, e2, e3, e4⟩ := h.num.step hp.len hp.two hp.okN (zi := s.zi) hv1
  obtain ⟨den, f1, f2, f3, f4⟩ := h.den.step hp.len hp.two hp.okD (zi := s.zi) hv2
  unfold Cfg.handle
  rw [e1, f1]
  simp only [Option.bind_eq_bind, Option.bind_some]
  rw [pickNext_append]
  by_cases hfin : num.coefs = [] ∧ den.coefs = []
  · rw [if_pos hfin]
    obtain ⟨TN, iN⟩ := e2.inv
    obtain ⟨TD, iD⟩ := f2.inv
    obtain ⟨s', r, g1, g0, g2, g3⟩ := finish_spec (N := N) (D := D) hp.len hp.okN hp.okD hp.norm
      (s := { s with num := num, den := den, zi := (pickNext (num.coefs ++ den.coefs) (2, List.replicate (c.n - 1) 1)).1, ord := (pickNext (num.coefs ++ den.coefs) (2, List.replicate (c.n - 1) 1)).2, numEqn := num.maxDeg + den.maxDeg + 2 - num.count - den.count })
      iN iD hfin.1 hfin.2
    exact ⟨s', g1, Or.inl ⟨g0, r, g2, g3⟩⟩
  · rw [if_neg hfin]
    refine ⟨_, rfl, Or.inr ⟨⟨e2, f2, h.known, h.result⟩, ?_, ?_, ?_, ?_, rfl, rfl, rfl, rfl⟩⟩
    · have hne : num.coefs ++ den.coefs ≠ [] := by
        intro h0
        exact hfin (List.append_eq_nil_iff.mp h0)
      obtain ⟨e, he, hpk⟩ := pickNext_mem (c := c) hp.two (l := num.coefs ++ den.coefs) (by
        intro e he
        rcases List.mem_append.mp he with he | he
        · exact e2.ziOrd hp.two he
        · exact f2.ziOrd hp.two he) hne
      refine ⟨e, he, ?_, ?_⟩
      · show (pickNext (num.coefs ++ den.coefs) (2, List.replicate (c.n - 1) 1)).1 = _
        rw [hpk]
      · show (pickNext (num.coefs ++ den.coefs) (2, List.replicate (c.n - 1) 1)).2 = _
        rw [hpk]
    · obtain ⟨TN, iN⟩ := e2.inv
      obtain ⟨TD, iD⟩ := f2.inv
      have := iN.count; have := iN.maxDeg; have := iD.count; have := iD.maxDeg
      show num.maxDeg + den.maxDeg + 2 - num.count - den.count = num.coefs.length + den.coefs.length
      omega
    · unfold Missing; exact Nat.add_le_add e3 f3
    · rintro ⟨e, he, h1, h2⟩
      unfold Missing
      show total c c.boundsNum N num.dense num.coefs + total c c.boundsDen D den.dense den.coefs < _
      rcases List.mem_append.mp he with he | he
      · have := e4 ⟨e, he, h1, h2⟩
        omega
      · have := f4 ⟨e, he, h1, h2⟩
        omega

end FireFly.RMulti
