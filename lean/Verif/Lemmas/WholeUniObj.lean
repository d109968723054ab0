import Verif.Lemmas.WholeUni
/-! # A whole run with one variable: the objects as the Reconstructor uses them -/
set_option linter.all false
namespace FireFly.WholeUni
open Polynomial

lemma cnt_all {F : Type} [DecidableEq F] {l : List (F × List ℕ)} (h : ∀ q ∈ l, q.2 = []) : First.cnt l (List.replicate (1 - 1) 1) = l.length := by
  unfold First.cnt
  rw [List.filter_eq_self.mpr]
  intro q hq
  simp [h q hq]

lemma count_all {F : Type} [DecidableEq F] {l : List (F × List ℕ)} (h : ∀ q ∈ l, q.2 = []) (o : ℕ) : Needed.count 1 l o = l.length := by
  unfold Needed.count
  rw [List.filter_eq_self.mpr]
  intro q hq
  simp [h q hq]

lemma fold_snoc {S Q : Type} (feed : S → Q → Option S) {l : List Q} {i x : S} (h : l.foldlM feed i = some x) (q : Q) : (l ++ [q]).foldlM feed i = feed x q := by
  rw [List.foldlM_append, h]
  simp

section
variable {inv : ℤ → ℤ → ℤ} {ord : List ℕ → List ℕ}

/-- what has become of a function after the first prime field -/
def FirstRight {ι : Type} (n d : ℚ[X]) (f : PField ι) (s : St f.p) : Prop := ∃ c', s.out = .nextPrime c' ∧ UniOK n d f.p c' ∧ c'.primeNumber = 1

lemma first_out {ι : Type} {n d : ℚ[X]} {f : PField ι} {i : ι} (gt : haveI := f.fact; ZMod f.p → ZMod f.p → Bool) (hord : ∀ l, (ord l).Perm l) (hnorm : d.trailingCoeff = 1) (h : FirstGood n d f i)
    {past : List (ZMod f.p × List ℕ)} (hnd : past.Nodup) (hg : ∀ q ∈ past, f.good q) (hlen : past.length ≤ RMulti.thieleMax n.natDegree d.natDegree) :
    haveI := f.fact
    (∃ u, uniPrime inv gt ord f.nextP (UniCross.initial f.p) (past.map (fun q => (q.1, f.value i q.1))) = some (.running u) ∧ u.cross = UniCross.initial f.p ∧ u.newPrime = false ∧
      past.length < RMulti.thieleMax n.natDegree d.natDegree) ∨
    ∃ c', uniPrime inv gt ord f.nextP (UniCross.initial f.p) (past.map (fun q => (q.1, f.value i q.1))) = some (.nextPrime c') ∧ UniOK n d f.p c' ∧ c'.primeNumber = 1 := by
  haveI := f.fact
  have h0 : ∀ q ∈ past, q.2 = [] := fun q hq => (h.probes q (hg q hq)).1
  rcases hp0 : past with _ | ⟨q0, rest⟩
  · left
    refine ⟨{ cross := UniCross.initial f.p, newPrime := false }, rfl, rfl, rfl, ?_⟩
    unfold RMulti.thieleMax; simp
  · rw [← hp0]
    obtain ⟨pts, hpts⟩ : ∃ pts, pts = past.map (fun q => (q.1, f.value i q.1)) := ⟨_, rfl⟩
    rw [← hpts]
    have hsw : pts.map Prod.swap = (past.map Prod.fst).map (fun t => (f.value i t, t)) := by
      rw [hpts, List.map_map, List.map_map]; rfl
    obtain ⟨r, hr, hr2⟩ := h.thiele (past.map Prod.fst) (fst_nodup hnd h0) (fun t ht => hg _ (back h0 t ht)) (by simpa using hlen)
    rw [← hsw] at hr
    have hdata : ∀ pt ∈ pts, (redPoly f.p d).eval pt.1 ≠ 0 ∧ pt.2 = (redPoly f.p n).eval pt.1 / (redPoly f.p d).eval pt.1 := by
      intro pt hpt
      rw [hpts] at hpt
      obtain ⟨q, hq, rfl⟩ := List.mem_map.mp hpt
      have := h.probes q (hg q hq)
      exact ⟨this.2.2.1, this.2.2.2.1⟩
    have hhead : pts = (q0.1, f.value i q0.1) :: rest.map (fun q => (q.1, f.value i q.1)) := by rw [hpts, hp0]; rfl
    have hv0 : f.value i q0.1 ≠ 0 := (h.probes q0 (hg q0 (by rw [hp0]; simp))).2.2.2.2
    cases hb : r.2 with
    | false =>
      left
      have hrun := run_checked _ _ _ hr
      have hdeg : ∀ g : ℚ[X], (redPoly f.p g).natDegree ≤ g.natDegree := by
        intro g
        rw [natDegree_le_iff_coeff_eq_zero]
        intro e he
        rw [redPoly_coeff, coeff_eq_zero_of_natDegree_lt he]; simp
      have hshort : past.length < RMulti.thieleMax n.natDegree d.natDegree := by
        by_contra hc
        have hl : pts.length = past.length := by rw [hpts]; simp
        have := C19_terminates (pts := pts.map Prod.swap) (s := r.1) (b := r.2) (n := redPoly f.p n) (d := redPoly f.p d)
          (by
            intro pt hpt
            obtain ⟨q, hq, rfl⟩ := List.mem_map.mp hpt
            exact hdata q hq)
          (by
            have a1 := hdeg n
            have a2 := hdeg d
            unfold RMulti.thieleMax at hc
            rw [List.length_map, hl]; omega) hr
        rw [hb] at this; cases this
      obtain ⟨u, u1, u2, u3⟩ := loop_first_running inv gt ord pts ({ cross := UniCross.initial f.p, newPrime := false } : UniState f.p) rfl rfl r.1 (by
        rw [hrun]; exact Prod.ext rfl hb)
      refine ⟨u, ?_, u2, u3, hshort⟩
      rw [hhead] at u1 ⊢
      unfold uniPrime
      simp only [if_neg hv0]
      exact u1
    | true =>
      right
      obtain ⟨b1, b2⟩ := hr2 hb
      have hr' : ({} : Thiele (ZMod f.p)).runChecked (pts.map Prod.swap) = some (r.1, true) := by rw [hr]; congr 1; exact Prod.ext rfl hb
      obtain ⟨c', e1, e2, e3⟩ := C36_first (inv := inv) (gt := gt) (ord := ord) hord (n := n) (d := d) (c := UniCross.initial f.p) ⟨rfl, rfl, rfl, rfl⟩ le_rfl (by show 0 + 1 < 300; norm_num) f.nextP
        (pts := pts) ⟨h.denN, h.denD, hdata, by rw [hhead]; exact hv0⟩ (by
          have := h.short
          have hl : pts.length = past.length := by rw [hpts]; simp
          rw [hl]; exact lt_of_le_of_lt hlen this) h.coprime hnorm h.numN h.numD
        (by rw [hpts, List.map_map]; exact fst_nodup hnd h0)
        (by
          intro pt hpt
          rw [hpts] at hpt
          obtain ⟨q, hq, rfl⟩ := List.mem_map.mp hpt
          exact (h.probes q (hg q hq)).2.1) hr' b1 b2
      exact ⟨c', e1, e2, e3⟩

/-- the state of an object in the first prime field -/
def FirstInv {ι : Type} (inv : ℤ → ℤ → ℤ) (gt : (p : ℕ) → ZMod p → ZMod p → Bool) (ord : List ℕ → List ℕ) (n d : ℚ[X]) (f : PField ι) (i : ι) (past : List (ZMod f.p × List ℕ)) (s : St f.p) (φ : ℕ) : Prop :=
  haveI := f.fact
  past.foldlM (f.firstObjs inv gt ord i).feed (f.firstObjs inv gt ord i).init = some s ∧ (∀ q ∈ past, q.2 = []) ∧
    ((∃ u, s.out = .running u ∧ u.cross = UniCross.initial f.p ∧ past.length < RMulti.thieleMax n.natDegree d.natDegree ∧ 1 ≤ φ) ∨ FirstRight n d f s)

lemma first_ok {ι : Type} {n d : ℚ[X]} {f : PField ι} {i : ι} {gt : (p : ℕ) → ZMod p → ZMod p → Bool} (hord : ∀ l, (ord l).Perm l) (hnorm : d.trailingCoeff = 1) (h : FirstGood n d f i) :
    haveI := f.fact
    (f.firstObjs inv gt ord i).OK 1 f.good 0 1 (RMulti.thieleMax n.natDegree d.natDegree) (FirstInv inv gt ord n d f i) (fun _ => true) (FirstRight n d f) := by
  haveI := f.fact
  have hmax : 1 ≤ RMulti.thieleMax n.natDegree d.natDegree := by unfold RMulti.thieleMax; omega
  refine ⟨⟨rfl, by simp, Or.inl ⟨{ cross := UniCross.initial f.p, newPrime := false }, rfl, rfl, by simpa using (show 0 < _ from hmax), hmax⟩⟩, ?_, ?_, ?_⟩
  · intro past q s φ hJ hnd hg
    obtain ⟨hf, h0, hc⟩ := hJ
    have h0' : ∀ x ∈ past ++ [q], x.2 = [] := fun x hx => (h.probes x (hg x hx)).1
    have hstep : ∀ s', (f.firstObjs inv gt ord i).feed s q = some s' → (past ++ [q]).foldlM (f.firstObjs inv gt ord i).feed (f.firstObjs inv gt ord i).init = some s' := by
      intro s' hs'
      exact (fold_snoc _ hf q).trans hs'
    rcases hc with ⟨u, hu, hcr, hl, hφ⟩ | ⟨c', hc', hok, hnum⟩
    · have hout := first_out (inv := inv) (ord := ord) (gt f.p) hord hnorm h hnd hg (by simp; omega)
      have hfp := fold_prime (inv := inv) (gt := gt f.p) (ord := ord) (nextP := f.nextP) (f.value i) (UniCross.initial f.p) (past ++ [q])
      obtain ⟨s', hs'⟩ : ∃ s', (f.firstObjs inv gt ord i).feed s q = some s' := by
        cases hx : (f.firstObjs inv gt ord i).feed s q with
        | some s' => exact ⟨s', rfl⟩
        | none =>
          exfalso
          have hx' : (past ++ [q]).foldlM (f.firstObjs inv gt ord i).feed (f.firstObjs inv gt ord i).init = none := by
            exact (fold_snoc _ hf q).trans hx
          rw [show (past ++ [q]).foldlM (fun s q => feed inv (gt f.p) ord f.nextP s q.1 (f.value i q.1)) (start f.p (UniCross.initial f.p)) = none from hx'] at hfp
          rcases hout with ⟨u, e, -⟩ | ⟨c', e, -⟩ <;> rw [e] at hfp <;> cases hfp
      have h1 := hstep s' hs'
      rw [show (past ++ [q]).foldlM (fun s q => feed inv (gt f.p) ord f.nextP s q.1 (f.value i q.1)) (start f.p (UniCross.initial f.p)) = some s' from h1] at hfp
      rcases hout with ⟨u', e, e1, -, e2⟩ | ⟨c', e, e1, e2⟩
      · rw [e] at hfp
        have hs : s'.out = .running u' := Option.some.inj hfp
        refine ⟨s', φ, hs', ⟨h1, h0', Or.inl ⟨u', hs, e1, e2, hφ⟩⟩, Or.inr ⟨le_rfl, ?_, ?_⟩⟩
        · show (orders s').map _ = (orders s).map _
          unfold orders
          rw [hs, hu]
          simp [e1, hcr]
        · show s'.done = s.done
          unfold St.done; rw [hs, hu]
      · rw [e] at hfp
        have hs : s'.out = .nextPrime c' := Option.some.inj hfp
        exact ⟨s', 0, hs', ⟨h1, h0', Or.inr ⟨c', hs, e1, e2⟩⟩, Or.inl (by omega)⟩
    · have hd : s.done = true := by unfold St.done; rw [hc']
      have hs' : (f.firstObjs inv gt ord i).feed s q = some { first := false, out := s.out } := feed_done hd _ _
      refine ⟨_, φ, hs', ⟨hstep _ hs', h0', Or.inr ⟨c', hc', hok, hnum⟩⟩, Or.inr ⟨le_rfl, ?_, rfl⟩⟩
      show (orders _).map _ = (orders s).map _
      unfold orders
      simp only
  · intro past s φ hJ hnd hd
    obtain ⟨hf, h0, hc⟩ := hJ
    rcases hc with ⟨u, hu, hcr, hl, hφ⟩ | ⟨c', hc', -⟩
    · refine ⟨[([], RMulti.wrapSub u.cross.numEqn u.coefMat.length)], u.cross.numEqn, ?_, le_rfl, (fun e => by cases e), (fun _ => ⟨⟨_, rfl⟩, ?_⟩), (fun e => by cases e)⟩
      · show orders s = _
        unfold orders; rw [hu]
      · rw [cnt_all h0]; omega
    · have : s.done = false := hd
      unfold St.done at this; rw [hc'] at this; cases this
  · intro past s φ hJ hd
    obtain ⟨hf, h0, hc⟩ := hJ
    rcases hc with ⟨u, hu, -⟩ | hr
    · have : s.done = true := hd
      unfold St.done at this; rw [hu] at this; cases this
    · exact hr

lemma matrix_take {p : ℕ} [Fact p.Prime] (nn nd : List ℕ) (pts : List (ZMod p × ZMod p)) : probeMatrix nn nd (pts.take (nn.length + nd.length)) = probeMatrix nn nd pts := by
  ext i j
  unfold probeMatrix
  simp only [Matrix.of_apply]
  have : (pts.take (nn.length + nd.length)).getD i (0, 0) = pts.getD i (0, 0) := by
    rw [List.getD_eq_getElem?_getD, List.getD_eq_getElem?_getD, List.getElem?_take_of_lt i.2]
  rw [this]

/-- what has become of a function after a further prime field -/
def LaterRight {ι : Type} (n d : ℚ[X]) (M : ℤ) (num : ℕ) (f : PField ι) (i : ι) (s : St f.p) : Prop :=
  haveI := f.fact
  (∃ N D t, s.out = .finished N D ∧ f.good (t, []) ∧ Certified n d M f.p (t, f.value i t) N D ∧ (AllSmall n d M → rnPoly N = n ∧ rnPoly D = d)) ∨
  ∃ c', s.out = .nextPrime c' ∧ UniOK n d (M * f.p) c' ∧ c'.primeNumber = num + 1 ∧ ¬ AllSmall n d M

lemma later_out {ι : Type} {n d : ℚ[X]} {f : PField ι} {i : ι} {M : ℤ} {c : UniCross} (hinv : InvertSpec inv) {gt : haveI := f.fact; ZMod f.p → ZMod f.p → Bool} (hgt : haveI := f.fact; PivotOrder gt) (hord : ∀ l, (ord l).Perm l)
    (h : LaterGood n d f i) (hc : UniOK n d M c) (hpM : ¬ (f.p : ℤ) ∣ M) (h300 : c.primeNumber + 1 < 300) (hx : ∀ e, ¬ Deceptive (n.coeff e) M (M * f.p) ∧ ¬ Deceptive (d.coeff e) M (M * f.p))
    {past : List (ZMod f.p × List ℕ)} (hnd : past.Nodup) (hg : ∀ q ∈ past, f.good q) :
    haveI := f.fact
    (∃ u, uniPrime inv gt ord f.nextP c (past.map (fun q => (q.1, f.value i q.1))) = some (.running u) ∧ u.cross = c ∧ u.newPrime = decide (past = []) ∧ (past ≠ [] → past.length < c.numEqn)) ∨
    ∃ o, uniPrime inv gt ord f.nextP c (past.map (fun q => (q.1, f.value i q.1))) = some o ∧ LaterRight n d M c.primeNumber f i { first := false, out := o } := by
  haveI := f.fact
  have h0 : ∀ q ∈ past, q.2 = [] := fun q hq => (h.probes q (hg q hq)).1
  rcases hp0 : past with _ | ⟨q0, rest⟩
  · left
    exact ⟨{ cross := c, newPrime := c.checkInterpolation }, rfl, rfl, by simpa using hc.check, fun h => absurd rfl h⟩
  · have hq0 := h.probes q0 (hg q0 (by rw [hp0]; simp))
    have hg0 : f.good (q0.1, []) := by
      have := hg q0 (by rw [hp0]; simp)
      rw [← hq0.1]; exact this
    rw [← hp0]
    have hne : past ≠ [] := by rw [hp0]; simp
    obtain ⟨pts, hpts⟩ : ∃ pts, pts = past.map (fun q => (q.1, f.value i q.1)) := ⟨_, rfl⟩
    have hl : pts.length = past.length := by rw [hpts]; simp
    rw [← hpts]
    have hhead : pts = (q0.1, f.value i q0.1) :: rest.map (fun q => (q.1, f.value i q.1)) := by rw [hpts, hp0]; rfl
    have hdata : ∀ pt ∈ pts, (redPoly f.p d).eval pt.1 ≠ 0 ∧ pt.2 = (redPoly f.p n).eval pt.1 / (redPoly f.p d).eval pt.1 := by
      intro pt hpt
      rw [hpts] at hpt
      obtain ⟨q, hq, rfl⟩ := List.mem_map.mp hpt
      have := h.probes q (hg q hq)
      exact ⟨this.2.1, this.2.2.1⟩
    obtain ⟨o, eo, o1, o2⟩ := checkIfDone_spec (p := f.p) hc q0.1 (f.value i q0.1) hq0.2.2.1
    have hup : ∀ l, uniPrime inv gt ord f.nextP c ((q0.1, f.value i q0.1) :: l) = uniLoop inv gt ord { cross := c, newPrime := true } ((q0.1, f.value i q0.1) :: l) := by
      intro l
      unfold uniPrime
      simp only [if_neg hq0.2.2.2, hc.check]
    cases o with
    | some g =>
      right
      refine ⟨.finished g.1 g.2, ?_, Or.inl ⟨g.1, g.2, q0.1, rfl, hg0, o1 g rfl, fun hs => ?_⟩⟩
      · rw [hhead, hup]
        unfold uniLoop uniProbe
        simp only [if_true]
        rw [eo]
        rfl
      · obtain ⟨g', hg', r1, r2⟩ := o2 (fun e => (hs e).1) (fun e => (hs e).2)
        cases hg'
        exact ⟨r1, r2⟩
    | none =>
      by_cases hlen : past.length < c.numEqn
      · left
        obtain ⟨u, u1, u2, u3⟩ := loop_short inv gt ord pts ({ cross := c, newPrime := false } : UniState f.p) hc.known rfl (by simp; omega)
        refine ⟨u, ?_, u2, ?_, fun _ => hlen⟩
        · rw [hhead] at u1 ⊢
          rw [hup, ← u1]
          conv_lhs => unfold uniLoop uniProbe
          conv_rhs => unfold uniLoop uniProbe
          simp only [if_true, Bool.false_eq_true, if_false]
          rw [eo]
        · rw [u3]; simp [hne]
      · right
        obtain ⟨y1, y2, y3, y4⟩ := hc.unknown
        have hle : c.nonSolvedNum.length + c.nonSolvedDen.length ≤ pts.length := by rw [← hc.eqn, hl]; omega
        have hdet : (probeMatrix c.nonSolvedNum c.nonSolvedDen pts).det ≠ 0 := by
          rw [← matrix_take]
          have e : pts.take (c.nonSolvedNum.length + c.nonSolvedDen.length) = ((past.map Prod.fst).take (c.nonSolvedNum.length + c.nonSolvedDen.length)).map (fun t => (t, f.value i t)) := by
            rw [hpts, List.map_take, List.map_map]; rfl
          rw [e]
          refine h.regular _ _ _ y1 y2 y3 y4 ((fst_nodup hnd h0).sublist (List.take_sublist _ _)) (fun t ht => hg _ (back h0 t (List.mem_of_mem_take ht))) ?_
          rw [List.length_take, List.length_map]
          rw [hl] at hle
          omega
        obtain ⟨out, e1, e2, e3⟩ := prime_aux hinv hgt hord hc f.nextP (pts := pts) ⟨h.denN, h.denD, hdata, by rw [hhead]; exact hq0.2.2.2⟩ ⟨hle, hdet⟩ hpM h300 hx
        refine ⟨out, e1, ?_⟩
        rcases e2 with ⟨N, D, rfl, e2⟩ | ⟨c', rfl, a1, a2, e, ae⟩
        · left
          refine ⟨N, D, q0.1, rfl, hg0, by rw [hhead] at e2; exact e2, fun hs => ?_⟩
          obtain ⟨N', D', b1, b2, b3⟩ := e3 (fun e => (hs e).1) (fun e => (hs e).2)
          cases b1
          exact ⟨b2, b3⟩
        · right
          refine ⟨c', rfl, a1, a2, fun hs => ?_⟩
          rcases ae with ae | ae
          · exact ae (hs e).1
          · exact ae (hs e).2

/-- what the probes lead to in a further prime field -/
lemma later_state {ι : Type} {n d : ℚ[X]} {f : PField ι} {i : ι} {M : ℤ} {c : UniCross} (hinv : InvertSpec inv) {gt : haveI := f.fact; ZMod f.p → ZMod f.p → Bool} (hgt : haveI := f.fact; PivotOrder gt) (hord : ∀ l, (ord l).Perm l)
    (h : LaterGood n d f i) (hc : UniOK n d M c) (hpM : ¬ (f.p : ℤ) ∣ M) (h300 : c.primeNumber + 1 < 300) (hx : ∀ e, ¬ Deceptive (n.coeff e) M (M * f.p) ∧ ¬ Deceptive (d.coeff e) M (M * f.p))
    {past : List (ZMod f.p × List ℕ)} (hnd : past.Nodup) (hg : ∀ q ∈ past, f.good q) :
    haveI := f.fact
    ∃ s, past.foldlM (laterObj inv gt ord f.nextP c (f.value i)).feed (laterObj inv gt ord f.nextP c (f.value i)).init = some s ∧
      ((∃ u, s.out = .running u ∧ u.cross = c ∧ u.newPrime = decide (past = []) ∧ (past ≠ [] → past.length < c.numEqn)) ∨ LaterRight n d M c.primeNumber f i s) := by
  haveI := f.fact
  have hfp := fold_prime (inv := inv) (gt := gt) (ord := ord) (nextP := f.nextP) (f.value i) c past
  have hout := later_out (inv := inv) hinv hgt hord h hc hpM h300 hx hnd hg
  cases hs : past.foldlM (fun s q => feed inv gt ord f.nextP s q.1 (f.value i q.1)) (start f.p c) with
  | none =>
    rw [hs] at hfp
    rcases hout with ⟨u, e, -⟩ | ⟨c', e, -⟩ <;> rw [e] at hfp <;> cases hfp
  | some s =>
    rw [hs] at hfp
    refine ⟨s, hs, ?_⟩
    rcases hout with ⟨u, e, e1⟩ | ⟨o, e, e1⟩
    · rw [e] at hfp
      exact Or.inl ⟨u, Option.some.inj hfp, e1⟩
    · rw [e] at hfp
      have : s.out = o := Option.some.inj hfp
      right
      subst this
      exact e1

lemma LaterRight.done {ι : Type} {n d : ℚ[X]} {M : ℤ} {num : ℕ} {f : PField ι} {i : ι} {s : St f.p} (h : LaterRight n d M num f i s) : s.done = true := by
  unfold St.done
  rcases h with ⟨N, D, t, h, -⟩ | ⟨c', h, -⟩ <;> rw [h]

lemma later_ok {ι : Type} {n d : ℚ[X]} {f : PField ι} {i : ι} {M : ℤ} {c : UniCross} (hinv : InvertSpec inv) {gt : haveI := f.fact; ZMod f.p → ZMod f.p → Bool} (hgt : haveI := f.fact; PivotOrder gt) (hord : ∀ l, (ord l).Perm l)
    (h : LaterGood n d f i) (hc : UniOK n d M c) (hpM : ¬ (f.p : ℤ) ∣ M) (h300 : c.primeNumber + 1 < 300) (hx : ∀ e, ¬ Deceptive (n.coeff e) M (M * f.p) ∧ ¬ Deceptive (d.coeff e) M (M * f.p)) :
    haveI := f.fact
    (laterObj inv gt ord f.nextP c (f.value i)).OK 1 f.good [(1, c.numEqn)] := by
  haveI := f.fact
  have st : ∀ {past : List (ZMod f.p × List ℕ)}, past.Nodup → (∀ q ∈ past, f.good q) → _ := fun {past} h1 h2 => later_state hinv hgt hord h hc hpM h300 hx (past := past) h1 h2
  have hone : ∀ {past : List (ZMod f.p × List ℕ)}, (∀ q ∈ past, f.good q) → ∀ o, Needed.count 1 past o = past.length := fun {past} hg o => count_all (fun q hq => (h.probes q (hg q hq)).1) o
  have chk : ∀ q, f.good q → ∃ o, checkIfDone c (f.value i q.1) q.1 = some o := fun q hq => by
    obtain ⟨o, e, -⟩ := checkIfDone_spec (p := f.p) hc q.1 (f.value i q.1) (h.probes q hq).2.2.1
    exact ⟨o, e⟩
  refine ⟨?_, ?_, ?_, ?_, ?_⟩
  · intro past hnd hg
    obtain ⟨s, hs, -⟩ := st hnd hg
    exact ⟨s, hs⟩
  · intro past q s s' hnd hg hs hs'
    have hnd0 := (List.nodup_append.mp hnd).1
    have hg0 : ∀ x ∈ past, f.good x := fun x hx => hg x (by simp [hx])
    have hgq := hg q (by simp)
    obtain ⟨s1, e1, e2⟩ := st hnd0 hg0
    obtain rfl : s = s1 := Option.some.inj (hs.symm.trans e1)
    show adds s q.1 (f.value i q.1) = some [] ∨ adds s q.1 (f.value i q.1) = some _ ∧ _
    rcases e2 with ⟨u, hu, hcr, hnp, hl⟩ | hr
    · unfold adds
      simp only [hu, if_neg (show ¬ (s.first = true ∧ f.value i q.1 = 0) from fun e => (h.probes q hgq).2.2.2 e.2)]
      by_cases hp : past = []
      · rw [hnp, hcr]
        simp only [hp, decide_true, if_true]
        obtain ⟨o, ho⟩ := chk q hgq
        rw [ho]
        cases o with
        | some g => left; rfl
        | none =>
          right
          exact ⟨rfl, by rw [hone (by simp)]; rfl, (h.probes q hgq).1⟩
      · left
        rw [hnp]
        simp [hp]
    · left
      unfold adds
      rcases hr with ⟨N, D, t, h, -⟩ | ⟨c', h, -⟩ <;> simp only [h]
  · intro past q s s' hnd hg hs hs' hcount hq
    have hg0 : ∀ x ∈ past, f.good x := fun x hx => hg x (by simp [hx])
    have hgq := hg q (by simp)
    rw [hone hg0] at hcount
    have hp : past = [] := List.length_eq_zero_iff.mp hcount
    subst hp
    have hs0 : s = start f.p c := (Option.some.inj hs).symm
    subst hs0
    show adds (start f.p c) q.1 (f.value i q.1) = some _ ∨ St.done s' = true
    have hfd : feed inv gt ord f.nextP (start f.p c) q.1 (f.value i q.1) = some s' := hs'
    have hv := (h.probes q hgq).2.2.2
    unfold adds start
    unfold feed start at hfd
    simp only [hv, and_false, if_false, hc.check, if_true] at hfd ⊢
    obtain ⟨o, ho⟩ := chk q hgq
    rw [ho]
    cases o with
    | none => left; rfl
    | some g =>
      right
      unfold uniProbe at hfd
      simp only [if_true] at hfd
      rw [ho] at hfd
      obtain rfl := Option.some.inj hfd
      rfl
  · intro s q s' hd hs'
    have : feed inv gt ord f.nextP s q.1 (f.value i q.1) = some s' := hs'
    rw [feed_done hd] at this
    obtain rfl := Option.some.inj this
    exact hd
  · intro past s hnd hg hs hR h1
    obtain ⟨s1, e1, e2⟩ := st hnd hg
    obtain rfl : s = s1 := Option.some.inj (hs.symm.trans e1)
    rcases e2 with ⟨u, hu, -, -, hl⟩ | hr
    · exfalso
      have a := hR (1, c.numEqn) (by simp)
      simp only at a
      rw [hone hg] at a h1
      have := hl (by rintro rfl; simp at h1)
      omega
    · exact hr.done

end
end FireFly.WholeUni
