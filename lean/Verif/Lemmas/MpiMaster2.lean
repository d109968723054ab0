import Verif.Lemmas.MpiMaster
/-! # The MPI protocol: the hand-over between prime fields and the local threads keep the invariant -/
set_option linter.all false
namespace FireFly.Mpi
open Function (update)

variable {c : Cfg} {s s' : State c.m} {a : Fin c.m → ANode} {comp : List (List Probe)}

/-- A signal for a worker. -/
def ANode.sig (x : ANode) (g : AIn) : ANode := ⟨x.out, x.inn ++ [g], x.phase, x.field, x.tasks, x.results, x.pool⟩
/-- A worker in another phase. -/
def ANode.at (x : ANode) (ph : APhase) : ANode := ⟨x.out, x.inn, ph, x.field, x.tasks, x.results, x.pool⟩

theorem Place.signal {fld : ℕ} {en : List (Fin c.m × ℕ)} {i : Fin c.m} {sg : AIn} {fin : Bool} {x : ANode} (h : Place c .poll fld en i [] x) :
    Place c (.bar1 fin) fld en i [sg] (x.sig sg) := by
  have hr' : notReply (.bar1 fin : MPhase c.m) i := fun w => by simp
  cases h with
  | top t r p hp hr hb hc => exact .top t r p hp hr' hb hc
  | queueing ps st t r p hp hr ha hb' hn hb hc => exact .queueing ps st t r p hp hr' ha hb' hn hb hc
  | counting ps st t r p hp hr ha hb' hn hb hc => exact .counting ps st t r p hp hr' ha hb' hn hb hc
  | sent ps w t r p hp hr hps hw hc => exact .sent ps w t r p hp hr' hps hw hc
  | replying w t r p hp hr hw hc => cases hr
  | answered ps t r p hp hr ha hb hc => exact .answered ps t r p hp hr' ha hb hc
  | parked h hr => exact .parked h hr'

theorem sigOf_wt (fin : Bool) : (sigOf fin).wt = 10 := by cases fin <;> rfl
theorem sigOf_probes (fin : Bool) : (sigOf fin).probes = [] := by cases fin <;> rfl

theorem notice_keeps (V : c.Valid) (I : Inv c s a comp) (hs : noticeStep c s = some s') : Keeps c s s' a := by
  unfold noticeStep at hs
  cases hph : s.phase with
  | poll =>
    rw [hph] at hs
    dsimp only at hs
    by_cases h1 : s.newPrime = true ∨ s.done = true
    swap
    · replace hs := (if_neg (α := Option (State c.m)) h1).symm.trans hs
      cases hs
    replace hs := (if_pos (α := Option (State c.m)) h1).symm.trans hs
    have he := Option.some.inj hs
    have hacc : ∀ i, ((a i).sig (sigOf s.done)).acc = (a i).acc := by
      intro i
      simp [ANode.acc, ANode.sig, sigOf_probes]
    have hwt : ∀ i, ((a i).sig (sigOf s.done)).wt = (a i).wt + 10 := by
      intro i
      simp only [ANode.wt, ANode.sig, List.map_append, List.map_cons, List.map_nil, List.sum_append, List.sum_cons, List.sum_nil, sigOf_wt]
      omega
    refine ⟨fun i => (a i).sig (sigOf s.done), comp, ?_, ?_⟩
    · subst he
      refine ⟨I.fault, ?_, I.cmp, I.logLen, I.logN, I.logInd, I.reqLen, I.jobs, ?_, ?_, by simp [runPhase], slotsOk_of (I.slots.all (by rw [hph]; intro k; simp)), ?_⟩
      · funext i
        show ({ s.node i with inn := _ } : Node) = _
        rw [I.node]
        cases hd : s.done <;> simp [encNode, encIn, sigOf, ANode.sig]
      · simp only [hacc]; exact I.acc
      · rintro ⟨h, _⟩; simp [livePhase] at h
      · intro i
        have := I.nodes i
        rw [hph] at this
        exact Or.inl (Place.signal this)
    · have hsum : ∑ i, ((a i).sig (sigOf s.done)).wt = ∑ i, (a i).wt + c.m * 10 := by
        rw [Finset.sum_congr rfl (fun i _ => hwt i), Finset.sum_add_distrib]
        simp
      have hown : ownWt c s' + 100 * (c.m + 1) ≤ ownWt c s + 60 * (c.m + 1) := by
        subst he
        simp only [ownWt, hph, mwt, primeWt, doneWt, livePhase, isFin]
        rcases h1 with h | h
        · cases hd : s.done <;> simp [h] <;> omega
        · simp [h]; split_ifs <;> omega
      unfold measure
      beta_reduce
      rw [hsum]
      omega
  | _ => rw [hph] at hs; simp at hs

theorem passBar1_enc {x : ANode} (h : (passBar1 (encNode c x)).isSome = true) : ∃ fin, x.phase = .bar1 fin ∧ passBar1 (encNode c x) = some (encNode c (x.at (.last fin))) := by
  rcases x with ⟨out, inn, ph, fld, t, r, p⟩
  cases ph <;> simp [passBar1, encNode, encPhase, ANode.at] at h ⊢

theorem passBar2_enc {x : ANode} (h : (passBar2 (encNode c x)).isSome = true) : ∃ fin, x.phase = .bar2 fin ∧ passBar2 (encNode c x) = some (encNode c (x.at (if fin then .off else .between))) := by
  rcases x with ⟨out, inn, ph, fld, t, r, p⟩
  cases ph with
  | bar2 fin => exact ⟨fin, rfl, by cases fin <;> simp [passBar2, encNode, encPhase, ANode.at]⟩
  | _ => simp [passBar2, encNode, encPhase] at h

theorem barrier1_keeps (V : c.Valid) (I : Inv c s a comp) (hs : barrier1Step c s = some s') : Keeps c s s' a := by
  unfold barrier1Step at hs
  cases hph : s.phase with
  | bar1 fin =>
    rw [hph] at hs
    dsimp only at hs
    split_ifs at hs with h1
    have he := Option.some.inj hs
    have hA : ∀ i, (a i).phase = .bar1 fin ∧ (a i).inn = [] ∧ Cleared (a i) ∧ Pre (a i).out ∧ (passBar1 (s.node i)).getD (s.node i) = encNode c ((a i).at (.last fin)) := by
      intro i
      have h := h1 i
      rw [I.node] at h ⊢
      obtain ⟨fin', e1, e2⟩ := passBar1_enc h
      have hN := I.nodes i
      rw [hph] at hN
      rcases hN with hP | ⟨g1, g2, g3, g4⟩
      · exact absurd e1 (hP.not_last fin').2.1
      · rw [g1] at e1; injection e1 with e1; subst e1
        refine ⟨g1, g2, g3, g4, ?_⟩
        show (passBar1 (encNode c (a i))).getD _ = _
        rw [e2]; rfl
    have hacc : ∀ i, ((a i).at (.last fin)).acc = (a i).acc := by
      intro i; simp only [ANode.acc, ANode.at, (hA i).1, APhase.rest]
    have hwt : ∀ i, ((a i).at (.last fin)).wt ≤ (a i).wt := by
      intro i; simp only [ANode.wt, ANode.at, (hA i).1, APhase.wt]; omega
    refine ⟨fun i => (a i).at (.last fin), comp, ?_, ?_⟩
    · subst he
      refine ⟨I.fault, ?_, I.cmp, I.logLen, I.logN, I.logInd, I.reqLen, I.jobs, ?_, ?_, by simp [runPhase], slotsOk_of (I.slots.all (by rw [hph]; intro k; simp)), ?_⟩
      · funext i; exact (hA i).2.2.2.2
      · simp only [hacc]; exact I.acc
      · rintro ⟨h, _⟩; simp [livePhase] at h
      · intro i
        obtain ⟨g1, g2, g3, g4, _⟩ := hA i
        exact ⟨g2, g3, fun h => by omega, fun _ => Or.inl ⟨rfl, g4⟩⟩
    · have hsum := Finset.sum_le_sum (s := Finset.univ) (fun i _ => hwt i)
      have hown : ownWt c s' + 60 * (c.m + 1) ≤ ownWt c s + 50 * (c.m + 1) + (c.m + 1) := by
        subst he
        simp only [ownWt, hph, mwt, primeWt, doneWt, livePhase, isFin]
        cases fin <;> cases s.done <;> simp <;> omega
      unfold measure
      beta_reduce
      omega
  | _ => rw [hph] at hs; simp at hs

theorem barrier2_keeps (V : c.Valid) (I : Inv c s a comp) (hs : barrier2Step c s = some s') : Keeps c s s' a := by
  unfold barrier2Step at hs
  cases hph : s.phase with
  | bar2 fin =>
    rw [hph] at hs
    dsimp only at hs
    split_ifs at hs with h1 h2
    all_goals
      have he := Option.some.inj hs
      have hA : ∀ i, (a i).phase = .bar2 fin ∧ (a i).inn = [] ∧ Cleared (a i) ∧ (a i).out = [] ∧ (passBar2 (s.node i)).getD (s.node i) = encNode c ((a i).at (if fin then .off else .between)) := by
        intro i
        have h := h1 i
        rw [I.node] at h ⊢
        obtain ⟨fin', e1, e2⟩ := passBar2_enc h
        have hN := I.nodes i
        rw [hph] at hN
        obtain ⟨g2, g3, g4, g1⟩ := hN
        rw [g1] at e1; injection e1 with e1; subst e1
        refine ⟨g1, g2, g3, g4, ?_⟩
        show (passBar2 (encNode c (a i))).getD _ = _
        rw [e2]; rfl
      have hacc0 : ∀ i, ((a i).at (if fin then .off else .between)).acc = 0 := by
        intro i
        obtain ⟨g1, g2, ⟨g3, g4, g5⟩, g6, _⟩ := hA i
        simp only [ANode.acc, ANode.at, g2, g3, g4, g6]
        cases fin <;> simp [APhase.rest]
      have hacc1 : ∀ i, (a i).acc = 0 := by
        intro i
        obtain ⟨g1, g2, ⟨g3, g4, g5⟩, g6, _⟩ := hA i
        simp [ANode.acc, g1, g2, g3, g4, g6, APhase.rest]
      have hwt : ∀ i, ((a i).at (if fin then .off else .between)).wt ≤ (a i).wt := by
        intro i; simp only [ANode.wt, ANode.at, (hA i).1]; cases fin <;> simp [APhase.wt]
      have hsum := Finset.sum_le_sum (s := Finset.univ) (fun i _ => hwt i)
    · refine ⟨fun i => (a i).at (if fin then .off else .between), comp, ?_, ?_⟩
      · subst he
        refine ⟨I.fault, ?_, I.cmp, I.logLen, I.logN, I.logInd, I.reqLen, I.jobs, ?_, ?_, by simp [runPhase], slotsOk_of (I.slots.all (by rw [hph]; intro k; simp)), ?_⟩
        · funext i; exact (hA i).2.2.2.2
        · have := I.acc
          simp only [hacc0]
          simp only [hacc1] at this
          exact this
        · rintro ⟨h, _⟩; simp [livePhase] at h
        · intro i
          obtain ⟨g1, g2, g3, g4, _⟩ := hA i
          exact ⟨g2, g3, g4, by simp [h2, ANode.at]⟩
      · have hown : ownWt c s' + 40 * (c.m + 1) ≤ ownWt c s := by
          subst he
          simp only [ownWt, hph, mwt, primeWt, doneWt, livePhase, isFin]
          simp
          omega
        unfold measure
        beta_reduce
        omega
    · refine ⟨fun i => (a i).at (if fin then .off else .between), [], ?_, ?_⟩
      · subst he
        refine ⟨I.fault, ?_, rfl, by simp, by simp, rfl, by simp, by simp, ?_, ?_, by simp [runPhase], slotsOk_of (I.slots.all (by rw [hph]; intro k; simp)), ?_⟩
        · funext i; exact (hA i).2.2.2.2
        · simp only [hacc0]; simp
        · intro _; simp only [hacc0]; simp
        · intro i
          obtain ⟨g1, g2, g3, g4, _⟩ := hA i
          exact ⟨g2, g3, g4, by simp [h2, ANode.at]⟩
      · have h2' : fin = false := by simpa using h2
        have hown : ownWt c s' + 40 * (c.m + 1) ≤ ownWt c s + 30 * (c.m + 1) := by
          subst he
          simp only [ownWt, hph, mwt, primeWt, doneWt, livePhase, isFin, h2']
          simp
          omega
        unfold measure
        beta_reduce
        omega
  | _ => rw [hph] at hs; simp at hs

theorem start_keeps (V : c.Valid) (I : Inv c s a comp) (hs : startStep c s = some s') : Keeps c s s' a := by
  unfold startStep at hs
  cases hph : s.phase with
  | refill =>
    rw [hph] at hs
    dsimp only at hs
    split_ifs at hs with h1
    have he := Option.some.inj hs
    have hA : ∀ i, a i = ⟨[], [], .between, (a i).field, 0, [], []⟩ := by
      intro i
      have hN := I.nodes i
      rw [hph] at hN
      obtain ⟨g2, ⟨g3, g4, g5⟩, g6, g1⟩ := hN
      generalize a i = x at *
      rcases x with ⟨out, inn, ph, fld, t, r, p⟩
      simp_all
    have hacc : ∀ i, (a i).acc = 0 := by intro i; rw [hA i]; simp [ANode.acc, APhase.rest]
    have hwt : ∀ i, (a i).wt = 0 := by intro i; rw [hA i]; simp [ANode.wt, APhase.wt]
    refine ⟨fun i => ⟨[], [], .top, s.field, 0, [], []⟩, comp, ?_, ?_⟩
    · subst he
      refine ⟨I.fault, ?_, I.cmp, I.logLen, I.logN, I.logInd, I.reqLen, I.jobs, ?_, ?_, fun _ => ⟨by simp, by simp⟩, slotsOk_of (I.slots.all (by rw [hph]; intro k; simp)), ?_⟩
      · funext i
        have hn : s.node i = encNode c (a i) := by rw [I.node]
        show (match (s.node i).phase with | .between => { s.node i with phase := WPhase.top, field := s.field } | _ => s.node i) = _
        rw [hn, hA i]
        simp [encNode, encPhase, packResults]
      · have := I.acc
        simp only [hacc] at this
        simpa [ANode.acc, APhase.rest] using this
      · rintro ⟨_, h2, h3⟩
        have := I.eq ⟨by rw [hph]; rfl, h2, h3⟩
        simp only [hacc] at this
        simpa [ANode.acc, APhase.rest] using this
      · intro i
        exact ⟨fun h => by omega, fun _ => .top (fun t ht => by simp at ht)⟩
    · have hsum : ∑ i, (a i).wt = 0 := by simp [hwt]
      have hsum2 : ∑ i : Fin c.m, (⟨[], [], .top, s.field, 0, [], []⟩ : ANode).wt = c.m * 6 := by simp [ANode.wt, APhase.wt]
      have hown : ownWt c s' + 30 * (c.m + 1) = ownWt c s + 20 * c.m + 1 := by
        subst he
        simp only [ownWt, hph, mwt, primeWt, doneWt, livePhase, isFin]
        simp
        omega
      unfold measure
      rw [hsum, hsum2]
      omega
  | _ => rw [hph] at hs; simp at hs

end FireFly.Mpi
