import Verif.Lemmas.ScanFeed
import Verif.Props.ShiftProps
/-! # One round of the scan -/
set_option linter.all false
namespace FireFly.RMulti
open Polynomial
variable {F : Type} [Field F] [DecidableEq F]

/-- the end of a round for one object, `th` is the state of Thiele's method -/
def fin (full : Bool) (o : ScanObj F) (th : Thiele F) : Option (ScanObj F) :=
  let num := th.getResult.1
  let den := th.getResult.2
  let maxNum := (PolyFF.degs num).1.getD 0 0
  let maxDen := (PolyFF.degs den).1.getD 0 0
  let o := { o with done := true, thiele := {}, degsNum := List.map (fun (t : List ℕ × F) => t.1.getD 0 0) num, degsDen := List.map (fun (t : List ℕ × F) => t.1.getD 0 0) den, works := false }
  if full then some { o with allDegs := some (maxNum, maxDen) }
  else
    match o.allDegs with
    | none => none
    | some a =>
      if maxNum = a.1 ∧ maxDen = a.2 then some { o with normDen := decide ((PolyFF.degs den).2.getD 0 0 = 0), works := true }
      else some o

lemma fin_done {full : Bool} {o o' : ScanObj F} {th : Thiele F} (h : fin full o th = some o') : o'.done = true := by
  unfold fin at h
  simp only at h
  split at h
  · rw [← Option.some.inj h]
  · split at h
    · cases h
    · split at h <;> rw [← Option.some.inj h]

lemma fold_done (full : Bool) : ∀ (pts : List (F × F)) (o : ScanObj F), o.done = true → pts.foldlM (ScanObj.probe full) o = some o := by
  intro pts
  induction pts with
  | nil => intro o _; rfl
  | cons q pts ih =>
    intro o h
    rw [List.foldlM_cons]
    have : ScanObj.probe full o q = some o := by unfold ScanObj.probe; rw [if_pos h]
    rw [this]
    exact ih o h

lemma fold_run (full : Bool) : ∀ (pts : List (F × F)) (o : ScanObj F) (th : Thiele F), o.done = false → o.thiele.run (pts.map Prod.swap) = (th, true) →
    pts.foldlM (ScanObj.probe full) o = fin full o th := by
  intro pts
  induction pts with
  | nil => intro o th _ h; simp [Thiele.run] at h
  | cons q pts ih =>
    intro o th ho h
    rw [List.map_cons, Thiele.run] at h
    rw [List.foldlM_cons]
    simp only [Prod.fst_swap, Prod.snd_swap] at h
    by_cases hb : (o.thiele.addPoint q.2 q.1).2 = true
    · rw [if_pos hb] at h
      have hpr : ScanObj.probe full o q = fin full o th := by
        unfold ScanObj.probe fin
        rw [if_neg (by simp [ho])]
        simp only [h, if_true]
        cases full
        · cases o.allDegs <;> rfl
        · rfl
      rw [hpr]
      cases hf : fin full o th with
      | none => rfl
      | some o' =>
        show List.foldlM (ScanObj.probe full) o' pts = some o'
        exact fold_done full pts o' (fin_done hf)
    · rw [if_neg hb] at h
      have hpr : ScanObj.probe full o q = some { o with thiele := (o.thiele.addPoint q.2 q.1).1 } := by
        unfold ScanObj.probe
        rw [if_neg (by simp [ho])]
        simp only [hb]
        simp
      rw [hpr]
      show List.foldlM (ScanObj.probe full) { o with thiele := (o.thiele.addPoint q.2 q.1).1 } pts = _
      rw [ih { o with thiele := (o.thiele.addPoint q.2 q.1).1 } th ho h]
      rfl

/-- the list of coefficients is a multiple of the polynomial `p` -/
structure Lists (r : FFMap F) (p : F[X]) : Prop where
  max : (PolyFF.degs r).1.getD 0 0 = p.natDegree
  low : (PolyFF.degs r).2.getD 0 0 = 0 ↔ (p.coeff 0 ≠ 0 ∨ p = 0)
  mem : p ≠ 0 → ∀ k, k ∈ List.map (fun (t : List ℕ × F) => t.1.getD 0 0) r ↔ p.coeff k ≠ 0
  nodup : (List.map (fun (t : List ℕ × F) => t.1.getD 0 0) r).Nodup

lemma lists_of {r : FFMap F} {p : F[X]} {u : F} (hu : u ≠ 0) (hp : p ≠ 0) (wf : WFMap 1 r) (nz : ∀ t ∈ r, t.2 ≠ 0) (val : ∀ k, (r.find? [k]).getD 0 = u * p.coeff k) : Lists r p := by
  have hmem : ∀ t ∈ r, ∃ k, t.1 = [k] ∧ p.coeff k ≠ 0 := by
    rintro ⟨key, v⟩ ht
    obtain ⟨k, rfl⟩ := List.length_eq_one_iff.mp (wf.2 _ ht)
    have h1 := val k
    rw [FFMap.find?_of_mem wf.1 ht, Option.getD_some] at h1
    refine ⟨k, rfl, ?_⟩
    intro h0
    rw [h0, mul_zero] at h1
    exact nz _ ht h1
  have hkey : ∀ k, p.coeff k ≠ 0 → ∃ v, ([k], v) ∈ r := by
    intro k hk
    have h1 := val k
    cases hf : r.find? [k] with
    | none =>
      rw [hf] at h1
      exact absurd h1.symm (mul_ne_zero hu hk)
    | some v => exact ⟨v, FFMap.find?_mem hf⟩
  obtain ⟨v, hv⟩ := hkey p.natDegree (by rw [Polynomial.coeff_natDegree]; exact Polynomial.leadingCoeff_ne_zero.mpr hp)
  have hne : r ≠ [] := by rintro rfl; simp at hv
  obtain ⟨h1, h2, h3, -⟩ := C34_degs (n := 1) le_rfl wf hne
  have e1 : (PolyObj.mk' 1 r).maxDeg.2 = (PolyFF.degs r).1 := by
    unfold PolyObj.maxDeg PolyObj.mk'; simp
  have e2 : (PolyObj.mk' 1 r).minDeg.2 = (PolyFF.degs r).2 := by
    unfold PolyObj.minDeg PolyObj.maxDeg PolyObj.mk'; simp [hne]
  rw [e1] at h1 h3
  rw [e2] at h2 h3
  obtain ⟨t, ht, hte⟩ := List.mem_map.mp h1
  obtain ⟨k, hk, hkn⟩ := hmem t ht
  obtain ⟨t', ht', hte'⟩ := List.mem_map.mp h2
  obtain ⟨k', hk', hkn'⟩ := hmem t' ht'
  rw [← hte, hk, ← hte', hk'] at h3
  refine ⟨?_, ?_, ?_, ?_⟩
  · rw [← hte, hk]
    show k = p.natDegree
    have a1 := Polynomial.le_natDegree_of_ne_zero hkn
    have a2 := (h3 _ hv).1
    simp at a2
    omega
  · rw [← hte', hk']
    show k' = 0 ↔ _
    constructor
    · rintro rfl; exact Or.inl hkn'
    · rintro (h0 | h0)
      · obtain ⟨w, hw⟩ := hkey 0 h0
        have := (h3 _ hw).2
        simpa using this
      · exact absurd h0 hp
  · intro _ k
    constructor
    · intro h
      obtain ⟨x, hx, rfl⟩ := List.mem_map.mp h
      obtain ⟨j, hj, hjn⟩ := hmem x hx
      rw [hj]; exact hjn
    · intro h
      obtain ⟨w, hw⟩ := hkey k h
      exact List.mem_map.mpr ⟨_, hw, rfl⟩
  · have : List.map (fun (t : List ℕ × F) => t.1.getD 0 0) r = (r.map Prod.fst).map (fun key => key.getD 0 0) := by rw [List.map_map]; rfl
    rw [this]
    refine List.Nodup.map_on ?_ wf.1
    intro a ha b hb hab
    obtain ⟨x, hx, rfl⟩ := List.mem_map.mp ha
    obtain ⟨y, hy, rfl⟩ := List.mem_map.mp hb
    obtain ⟨j, hj, -⟩ := hmem x hx
    obtain ⟨j', hj', -⟩ := hmem y hy
    rw [hj, hj'] at hab ⊢
    simpa using hab

/-- the result of Thiele's method for the probes of a round -/
lemma line_run {pts : List (F × F)} {n d : F[X]} (h : LineOK pts n d) :
    ∃ th, ({} : Thiele F).run (pts.map Prod.swap) = (th, true) ∧ Lists th.getResult.1 n ∧ Lists th.getResult.2 d := by
  rcases h.run with ⟨hn, h2⟩ | ⟨h1, h2, s, h3, h4, h5⟩
  · subst hn
    have hval : ∀ q ∈ pts, q.2 = 0 := by
      intro q hq
      rw [(h.data q hq).2]; simp
    obtain ⟨q1, q2, rest, rfl⟩ : ∃ q1 q2 rest, pts = q1 :: q2 :: rest := by
      match pts, h2 with
      | q1 :: q2 :: rest, _ => exact ⟨q1, q2, rest, rfl⟩
    have hd : IsUnit d := by
      obtain ⟨a, b, hab⟩ := h.lowest
      rw [mul_zero, zero_add] at hab
      exact IsUnit.of_mul_eq_one_right b hab
    obtain ⟨e, he, hde⟩ := Polynomial.isUnit_iff.mp hd
    have he0 : e ≠ 0 := he.ne_zero
    have ds1 : (degStep { tmpMax := 0, tmpMin := 0, maxDegree := [], minDegree := [] } [0]).maxDegree[0]?.getD 0 = 0 := by decide
    have ds2 : (degStep { tmpMax := 0, tmpMin := 0, maxDegree := [], minDegree := [] } [0]).minDegree[0]?.getD 0 = 0 := by decide
    refine ⟨{ ai := [0], ti := [q1.1, q2.1] }, ?_, ⟨?_, ?_, fun h0 => absurd rfl h0, ?_⟩, ⟨?_, ?_, ?_, ?_⟩⟩
    · have v1 := hval q1 (by simp)
      have v2 := hval q2 (by simp)
      simp [Thiele.run, Thiele.addPoint, v1, v2, Thiele.compFyi]
    · simp [Thiele.getResult, Thiele.construct, PolyFF.degs, ds1, ds2]
    · simp [Thiele.getResult, Thiele.construct, PolyFF.degs, ds1, ds2]
    · simp [Thiele.getResult, Thiele.construct]
    · rw [← hde]; simp [Thiele.getResult, Thiele.construct, PolyFF.degs, ds1, ds2]
    · rw [← hde]; simp [Thiele.getResult, Thiele.construct, PolyFF.degs, ds1, ds2, he0]
    · intro _ k
      rw [← hde]
      simp only [Thiele.getResult, Thiele.construct, List.length_singleton, if_true, List.map_cons, List.map_nil, List.getD_cons_zero, List.mem_singleton, Polynomial.coeff_C]
      by_cases hk : k = 0 <;> simp [hk, he0]
    · simp [Thiele.getResult, Thiele.construct]
  · have hlen : (pts.map Prod.swap).length < 2 ^ 32 := by rw [List.length_map]; exact h.short
    have hdata : ∀ pt ∈ pts.map Prod.swap, d.eval pt.2 ≠ 0 ∧ pt.1 = n.eval pt.2 / d.eval pt.2 := by
      intro pt hpt
      obtain ⟨q, hq, rfl⟩ := List.mem_map.mp hpt
      exact h.data q hq
    have hdist : ((pts.map Prod.swap).map Prod.snd).Nodup := by
      rw [List.map_map]; exact h.distinct
    obtain ⟨g1, g2, ⟨u, hu, g3, g4⟩, g5⟩ := C19_lowest_terms hlen h.lowest hdata hdist h3 h4 h5
    obtain ⟨q, rest, hpts⟩ : ∃ q rest, pts = q :: rest := by
      cases pts with
      | nil => simp [Thiele.runChecked] at h3
      | cons q rest => exact ⟨q, rest, rfl⟩
    have hq : q ∈ pts := by rw [hpts]; simp
    have hq0 : q.2 ≠ 0 := h2 q (by rw [hpts]; rfl)
    obtain ⟨z1, z2⟩ := g5 (by
      intro pt hpt
      obtain ⟨x, hx, rfl⟩ := List.mem_map.mp hpt
      exact h1 x hx) (by rw [hpts]; exact hq0)
    have hn0 : n ≠ 0 := by
      rintro rfl
      rw [(h.data q hq).2] at hq0
      simp at hq0
    have hd0 : d ≠ 0 := by
      rintro rfl
      exact (h.data q hq).1 (by simp)
    exact ⟨s, run_checked _ _ _ h3, lists_of hu hn0 g1 z1 g3, lists_of hu hd0 g2 z2 g4⟩

/-- what one round does to an object: `n/d` is the function on the line, `a` are the degrees for the shift of all variables -/
structure After (full : Bool) (n d : F[X]) (o o' : ScanObj F) : Prop where
  done : o'.done = true
  thiele : o'.thiele = {}
  all : o'.allDegs = if full then some (n.natDegree, d.natDegree) else o.allDegs
  works : o'.works = true ↔ full = false ∧ o.allDegs = some (n.natDegree, d.natDegree)
  norm : o'.normDen = if o'.works then decide (d.coeff 0 ≠ 0) else o.normDen
  memN : n ≠ 0 → ∀ k, k ∈ o'.degsNum ↔ n.coeff k ≠ 0
  memD : ∀ k, k ∈ o'.degsDen ↔ d.coeff k ≠ 0
  nodupN : o'.degsNum.Nodup
  nodupD : o'.degsDen.Nodup

lemma round_obj {full : Bool} {pts : List (F × F)} {n d : F[X]} (h : LineOK pts n d) {o : ScanObj F} (h1 : o.done = false) (h2 : o.thiele = {}) (h3 : full = true ∨ o.allDegs ≠ none) :
    ∃ o', pts.foldlM (ScanObj.probe full) o = some o' ∧ After full n d o o' := by
  obtain ⟨th, e1, e2, e3⟩ := line_run h
  have hd0 : d ≠ 0 := by
    rintro rfl
    have hne : pts ≠ [] := by
      rintro rfl
      simp [Thiele.run] at e1
    obtain ⟨q, hq⟩ := List.exists_mem_of_ne_nil _ hne
    exact (h.data q hq).1 (by simp)
  rw [fold_run full pts o th h1 (by rw [h2]; exact e1)]
  unfold fin
  simp only [e2.max, e3.max]
  cases full with
  | true =>
    refine ⟨_, rfl, ⟨rfl, rfl, rfl, ?_, rfl, e2.mem, e3.mem hd0, e2.nodup, e3.nodup⟩⟩
    simp
  | false =>
    cases ha : o.allDegs with
    | none => simp [ha] at h3
    | some a =>
      simp only [Bool.false_eq_true, if_false]
      by_cases hs : n.natDegree = a.1 ∧ d.natDegree = a.2
      · rw [if_pos hs]
        refine ⟨_, rfl, ⟨rfl, rfl, by simp [ha], ?_, ?_, e2.mem, e3.mem hd0, e2.nodup, e3.nodup⟩⟩
        · simp [ha, hs.1, hs.2]
        · simp only [if_true]
          have : ((PolyFF.degs th.getResult.2).2.getD 0 0 = 0) ↔ d.coeff 0 ≠ 0 := by
            rw [e3.low]; simp [hd0]
          simp only [this]
      · rw [if_neg hs]
        refine ⟨_, rfl, ⟨rfl, rfl, by simp [ha], ?_, by simp, e2.mem, e3.mem hd0, e2.nodup, e3.nodup⟩⟩
        simp only [Bool.false_eq_true, false_iff, not_and, ha, Option.some.injEq]
        rintro - h0
        exact hs (by rw [h0]; exact ⟨rfl, rfl⟩)

end FireFly.RMulti
