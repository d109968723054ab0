import Verif.Lemmas.MpiWorker
/-! # The MPI protocol: the steps of the master keep the invariant -/
set_option linter.all false
namespace FireFly.Mpi
open Function (update)

variable {c : Cfg} {s s' : State c.m} {a : Fin c.m → ANode} {comp : List (List Probe)}

theorem Place.mono {ph ph' : MPhase c.m} {fld : ℕ} {en en' : List (Fin c.m × ℕ)} {i : Fin c.m} {sg : List AIn} {x : ANode} (h : Place c ph fld en i sg x)
    (h1 : notReply ph i → notReply ph' i) (h2 : ∀ w, ph = .reply i w → ph' = .reply i w) (h3 : notParked en i → notParked en' i)
    (h4 : (i, buffer * c.wthr i) ∈ en → (i, buffer * c.wthr i) ∈ en') : Place c ph' fld en' i sg x := by
  cases h with
  | top t r p hp hr hb hc => exact .top t r p (h3 hp) (h1 hr) hb hc
  | queueing ps st t r p hp hr ha hb' hn hb hc => exact .queueing ps st t r p (h3 hp) (h1 hr) ha hb' hn hb hc
  | counting ps st t r p hp hr ha hb' hn hb hc => exact .counting ps st t r p (h3 hp) (h1 hr) ha hb' hn hb hc
  | sent ps w t r p hp hr hps hw hc => exact .sent ps w t r p (h3 hp) (h1 hr) hps hw hc
  | replying w t r p hp hr hw hc => exact .replying w t r p (h3 hp) (h2 w hr) hw hc
  | answered ps t r p hp hr ha hb hc => exact .answered ps t r p (h3 hp) (h1 hr) ha hb hc
  | parked h hr => exact .parked (h4 h) (h1 hr)

/-- Changes of the phase only. -/
theorem Place.phase {ph ph' : MPhase c.m} {fld : ℕ} {en : List (Fin c.m × ℕ)} {i : Fin c.m} {sg : List AIn} {x : ANode} (h : Place c ph fld en i sg x)
    (h1 : notReply ph' i) (h2 : notReply ph i) : Place c ph' fld en i sg x :=
  h.mono (fun _ => h1) (fun w hw => absurd hw (h2 w)) id id

theorem Fresh.mono {fld : ℕ} {en en' : List (Fin c.m × ℕ)} {i : Fin c.m} {x : ANode} (h : Fresh c fld en i x) (h3 : notParked en i → notParked en' i) : Fresh c fld en' i x := by
  cases h with
  | top hp => exact .top (h3 hp)
  | sent hp => exact .sent (h3 hp)

theorem notReply_of {ph : MPhase c.m} (h : ∀ j w, ph ≠ .reply j w) (i : Fin c.m) : notReply ph i := fun w => h i w

/-- A step that changes node `i`, the queue, the results and the phase. -/
theorem Inv.build (I : Inv c s a comp) (i : Fin c.m) (x : ANode) (comp' : List (List Probe)) (hf : s'.fault = false) (hn : s'.node = update s.node i (encNode c x))
    (hfield : s'.field = s.field) (hcmp : s'.computed = comp'.map (stored c.items (c.f s.field))) (hlog : s'.log = s.log) (hind : s'.ind = s.ind)
    (hreq : s'.requested.length ≤ s.requested.length) (hjobs : s'.owed = s.owed ∧ s'.jobs = s.jobs) (hlr : s'.localRun = s.localRun) (hflag : s'.newPrime = s.newPrime ∧ s'.done = s.done)
    (hacc : (s'.requested : Multiset Probe) + (comp'.flatten : Multiset Probe) + x.acc = (s.requested : Multiset Probe) + (comp.flatten : Multiset Probe) + (a i).acc)
    (hlive : livePhase s'.phase = true → livePhase s.phase = true) (hen : runPhase s'.phase = true → EnOk c s'.emptyNodes) (hslots : SlotsOk c s'.phase s'.slots)
    (hnodes : ∀ j, NodeInv c s'.phase s'.field s'.emptyNodes j (update a i x j)) :
    Inv c s' (update a i x) comp' ∧ measure c s' (update a i x) + (a i).wt + ownWt c s = measure c s a + x.wt + ownWt c s' := by
  have hs := sum_update ANode.acc a i x
  have hw := sum_update ANode.wt a i x
  have htot : (s'.requested : Multiset Probe) + (s'.localRun.flatten : Multiset Probe) + (comp'.flatten : Multiset Probe) + ∑ j, (update a i x j).acc =
      (s.requested : Multiset Probe) + (s.localRun.flatten : Multiset Probe) + (comp.flatten : Multiset Probe) + ∑ j, (a j).acc := by
    apply add_right_cancel (b := (a i).acc)
    rw [hlr]
    calc (s'.requested : Multiset Probe) + (s.localRun.flatten : Multiset Probe) + (comp'.flatten : Multiset Probe) + ∑ j, (update a i x j).acc + (a i).acc
        = (s'.requested : Multiset Probe) + (s.localRun.flatten : Multiset Probe) + (comp'.flatten : Multiset Probe) + (∑ j, (update a i x j).acc + (a i).acc) := by rw [add_assoc]
      _ = ((s'.requested : Multiset Probe) + (comp'.flatten : Multiset Probe) + x.acc) + (s.localRun.flatten : Multiset Probe) + ∑ j, (a j).acc := by rw [hs]; abel
      _ = _ := by rw [hacc]; abel
  refine ⟨⟨hf, by rw [hn]; exact update_node I.node i x, by rw [hfield]; exact hcmp, by rw [hlog]; exact I.logLen, by rw [hlog]; exact I.logN, by rw [hlog, hind]; exact I.logInd,
    lt_of_le_of_lt hreq I.reqLen, by rw [hjobs.1, hjobs.2]; exact le_trans hreq I.jobs, by rw [htot, hlog]; exact I.acc, ?_, hen, hslots, hnodes⟩, ?_⟩
  · intro hR
    rw [htot, hlog]
    exact I.eq ⟨hlive hR.1, by rw [← hflag.1]; exact hR.2.1, by rw [← hflag.2]; exact hR.2.2⟩
  · unfold measure; omega

theorem nodes_update {ph : MPhase c.m} {fld : ℕ} {en : List (Fin c.m × ℕ)} {i : Fin c.m} {x : ANode} (hi : NodeInv c ph fld en i x) (ho : ∀ j, j ≠ i → NodeInv c ph fld en j (a j)) :
    ∀ j, NodeInv c ph fld en j (update a i x j) := by
  intro j
  by_cases hj : j = i
  · subst hj; rw [Function.update_self]; exact hi
  · rw [Function.update_of_ne hj]; exact ho j hj

/-- A state that differs only in flags. -/
theorem Inv.newJobs (I : Inv c s a comp) (b : Bool) : Inv c { s with newJobs := b } a comp :=
  ⟨I.fault, I.node, I.cmp, I.logLen, I.logN, I.logInd, I.reqLen, I.jobs, I.acc, I.eq, I.en, I.slots, I.nodes⟩

theorem testEmpty_inv (I : Inv c s a comp) : Inv c s.testEmpty a comp ∧ measure c s.testEmpty a ≤ measure c s a ∧ (s.requested = [] → s.newJobs = true → measure c s.testEmpty a < measure c s a) := by
  unfold State.testEmpty
  split_ifs with h
  · refine ⟨I.newJobs false, ?_, fun _ h2 => ?_⟩
    · simp only [measure, ownWt]; simp
    · simp only [measure, ownWt, h2]; simp
  · exact ⟨I, le_refl _, fun h1 => absurd h1 h⟩

theorem jobNumber_ok (V : c.Valid) {q free : ℕ} (hq : 1 ≤ q) (hq' : q < 2 ^ 31) :
    ∃ k, computeJobNumber (q % 2 ^ 32) (free % 2 ^ 32) c.thr c.bunch = some k ∧ k ≤ q ∧ (1 ≤ free % 2 ^ 32 → 1 ≤ k) := by
  rw [Nat.mod_eq_of_lt (by omega : q < 2 ^ 32)]
  obtain ⟨j, h1, h2, h3, _⟩ := C28_job_number q (free % 2 ^ 32) c.thr c.bunch hq hq' V.thr (mem_sizes_ge V.bunch).1
  exact ⟨j, h1, h2, h3⟩

theorem sendJobs_eq (V : c.Valid) (s : State c.m) (i : Fin c.m) (free : ℕ) (hne : s.requested ≠ []) (hq : s.requested.length < 2 ^ 31) :
    ∃ size, size ≤ s.requested.length ∧ (1 ≤ free % 2 ^ 32 → 1 ≤ size) ∧
      sendJobs c s i free = { s.setNode i { s.node i with inn := (s.node i).inn ++ [.values (packValues (s.requested.take size))] } with requested := s.requested.drop size } := by
  obtain ⟨k, h1, h2, h3⟩ := jobNumber_ok V (free := free) (List.length_pos_iff.mpr hne) hq
  refine ⟨k, h2, h3, ?_⟩
  unfold sendJobs
  rw [h1]
  dsimp only
  rw [if_neg (by omega)]

theorem Place.waiting_of_reply {fld : ℕ} {en : List (Fin c.m × ℕ)} {i : Fin c.m} {w : ℕ} {x : ANode} (h : Place c (.reply i w) fld en i [] x) :
    ∃ t r p, x = ⟨[], [], .waiting, fld, t, r, p⟩ ∧ notParked en i ∧ (w = buffer * c.wthr i ↔ p = [] ∧ r = []) ∧ Cont p t 0 := by
  cases h with
  | replying w' t r p hp hr hw hc =>
    have : w = w' := by injection hr
    subst this
    exact ⟨t, r, p, rfl, hp, hw, hc⟩
  | top t r p hp hr hb hc => exact absurd rfl (hr w)
  | queueing ps st t r p hp hr => exact absurd rfl (hr w)
  | counting ps st t r p hp hr => exact absurd rfl (hr w)
  | sent ps w' t r p hp hr => exact absurd rfl (hr w)
  | answered ps t r p hp hr => exact absurd rfl (hr w)
  | parked h hr => exact absurd rfl (hr w)

theorem mod32_wthr (V : c.Valid) (i : Fin c.m) : 1 ≤ (buffer * c.wthr i) % 2 ^ 32 := by
  have h1 := V.wthr i
  have h2 := V.wthr' i
  unfold buffer
  rw [Nat.mod_eq_of_lt (by omega)]
  omega

theorem slotsOk_of {ph : MPhase c.m} {slots : Fin c.m → ℕ} (h : ∀ i, slots i = buffer * c.wthr i) : SlotsOk c ph slots := fun i _ => h i

theorem SlotsOk.all {ph : MPhase c.m} {slots : Fin c.m → ℕ} (h : SlotsOk c ph slots) (hp : ∀ k, ph ≠ .first k) (i : Fin c.m) : slots i = buffer * c.wthr i :=
  h i (fun k hk => absurd hk (hp k))

/-- A packet for a worker. -/
def ANode.give (x : ANode) (ps : List Probe) : ANode := { x with inn := [.values ps] }

/-- Probes are sent to a worker whose turn it is. -/
theorem answer (I : Inv c s a comp) (i : Fin c.m) (hx : (a i).out = [] ∧ (a i).inn = [] ∧ (a i).phase = .waiting) (size : ℕ) (hsz : size ≤ s.requested.length) :
    (s.node i).inn = [] ∧ encNode c ((a i).give (s.requested.take size)) = { s.node i with inn := (s.node i).inn ++ [.values (packValues (s.requested.take size))] } ∧
    ((a i).give (s.requested.take size)).wt = (a i).wt + 8 + 40 * size ∧
    ((s.requested.drop size : List Probe) : Multiset Probe) + (comp.flatten : Multiset Probe) + ((a i).give (s.requested.take size)).acc =
      (s.requested : Multiset Probe) + (comp.flatten : Multiset Probe) + (a i).acc := by
  have hn : s.node i = encNode c (a i) := by rw [I.node]
  generalize a i = x at hx hn ⊢
  obtain ⟨h1, h2, h3⟩ := hx
  refine ⟨by rw [hn]; simp [encNode, h2], by rw [hn]; simp [encNode, h2, encIn, ANode.give], ?_, ?_⟩
  · simp [ANode.give, ANode.wt, h2, AIn.wt, Nat.min_eq_left hsz]; omega
  · simp only [ANode.give, ANode.acc, h2, List.flatMap_nil, List.flatMap_cons, AIn.probes, List.append_nil]
    conv_rhs => rw [← List.take_append_drop size s.requested]
    simp only [← Multiset.coe_add, Multiset.coe_nil, add_zero]
    abel

theorem reply_keeps (V : c.Valid) (I : Inv c s a comp) (hs : replyStep c s = some s') : Keeps c s s' a := by
  unfold replyStep at hs
  cases hph : s.phase with
  | reply i free =>
    rw [hph] at hs
    dsimp only at hs
    have hNi := I.nodes i
    rw [hph] at hNi
    obtain ⟨t, r, p, hx, hp, hw, hc⟩ := Place.waiting_of_reply hNi
    have hslot := I.slots.all (by rw [hph]; intro k; simp) i
    have hother : ∀ j, j ≠ i → Place c .poll s.field s.emptyNodes j [] (a j) := by
      intro j hj
      have := I.nodes j
      rw [hph] at this
      exact Place.phase this (fun w => by simp) (fun w h => hj (by injection h with h1; exact h1.symm))
    have hen := I.en (by rw [hph]; rfl)
    have hown : ∀ s'' : State c.m, s''.phase = .poll → s''.newPrime = s.newPrime → s''.done = s.done → s''.flags = s.flags → s''.newJobs = s.newJobs → s''.owed = s.owed → s''.jobs = s.jobs →
        s''.localRun = s.localRun → s''.checks = s.checks → s''.clears = s.clears → ownWt c s'' + 9 + 100 * s.requested.length = ownWt c s + 100 * s''.requested.length := by
      intro s'' h1 h2 h3 h4 h5 h6 h7 h8 h9 h10
      simp only [ownWt, h1, h2, h3, h4, h5, h6, h7, h8, h9, h10, hph, mwt, primeWt, doneWt, livePhase, isFin]
      omega
    by_cases hne : s.requested ≠ []
    · rw [if_pos hne] at hs
      obtain ⟨size, hsz, hsz1, heq⟩ := sendJobs_eq V s i free hne I.reqLen
      obtain ⟨h0, h1, h2, h3⟩ := answer I i (by rw [hx]; exact ⟨rfl, rfl, rfl⟩) size hsz
      rw [heq] at hs
      obtain ⟨s1, hs1⟩ : ∃ s1 : State c.m, s1 = { s.setNode i { s.node i with inn := (s.node i).inn ++ [.values (packValues (s.requested.take size))] } with requested := s.requested.drop size, phase := .poll } := ⟨_, rfl⟩
      have hbusy : s.requested.take size ≠ [] ∨ p ≠ [] ∨ r ≠ [] := by
        by_cases hf : free = buffer * c.wthr i
        · left
          have := hsz1 (by rw [hf]; exact mod32_wthr V i)
          intro h
          have := congrArg List.length h
          simp at this
          rcases this with h | h
          · omega
          · exact hne h
        · right
          by_contra hh
          push Not at hh
          exact hf (hw.mpr hh)
      have hB := I.build (s' := s1) i ((a i).give (s.requested.take size)) comp (by subst hs1; exact I.fault) (by subst hs1; show update s.node i _ = _; rw [h1])
        (by subst hs1; rfl) (by subst hs1; exact I.cmp) (by subst hs1; rfl) (by subst hs1; rfl) (by subst hs1; simp) (by subst hs1; exact ⟨rfl, rfl⟩) (by subst hs1; rfl) (by subst hs1; exact ⟨rfl, rfl⟩)
        (by subst hs1; exact h3) (by subst hs1; rw [hph]; exact id) (by subst hs1; exact fun _ => hen) (by subst hs1; exact slotsOk_of (I.slots.all (by rw [hph]; intro k; simp)))
        (by
          subst hs1
          refine nodes_update ?_ hother
          show Place c .poll s.field s.emptyNodes i [] _
          rw [hx]
          exact .answered _ t r p hp (fun w => by simp) (by have := I.reqLen; simp; omega) hbusy hc)
      obtain ⟨I1, hm1⟩ := hB
      obtain ⟨I2, hm2, _⟩ := testEmpty_inv I1
      have hle := hown s1 (by subst hs1; rfl) (by subst hs1; rfl) (by subst hs1; rfl) (by subst hs1; rfl) (by subst hs1; rfl) (by subst hs1; rfl) (by subst hs1; rfl) (by subst hs1; rfl) (by subst hs1; rfl) (by subst hs1; rfl)
      have hrl : s1.requested.length = s.requested.length - size := by subst hs1; simp
      have he : s' = s1.testEmpty := by
        rw [← Option.some.inj hs, hs1]
        unfold State.testEmpty
        dsimp only
        split_ifs <;> rfl
      rw [he]
      exact ⟨_, _, I2, by omega⟩
    · rw [if_neg hne] at hs
      push Not at hne
      by_cases hf : free = s.slots i
      · rw [if_pos hf] at hs
        have he := Option.some.inj hs
        rw [hslot] at hf
        obtain ⟨rfl, rfl⟩ := hw.mp hf
        have ht : t = 0 := by
          have := hc.tasks_eq (by simp); simpa using this
        subst ht
        have hxx : update a i (a i) = a := Function.update_eq_self i a
        have hB := I.build (s' := s') i (a i) comp (by subst he; exact I.fault) (by subst he; rw [show encNode c (a i) = s.node i by rw [I.node]]; simp)
          (by subst he; rfl) (by subst he; exact I.cmp) (by subst he; rfl) (by subst he; rfl) (by subst he; simp) (by subst he; exact ⟨rfl, rfl⟩) (by subst he; rfl) (by subst he; exact ⟨rfl, rfl⟩)
          (by subst he; rfl) (by subst he; rw [hph]; exact id)
          (by
            subst he
            intro _
            refine ⟨?_, ?_⟩
            · show ((s.emptyNodes ++ [(i, free)]).map Prod.fst).Nodup
              rw [List.map_append]
              refine List.nodup_append.mpr ⟨hen.1, by simp, ?_⟩
              intro y hy z hz hyz
              simp at hz
              obtain ⟨t, ht, rfl⟩ := List.mem_map.mp hy
              exact hp t ht (by rw [hyz, hz])
            · intro t ht
              rcases List.mem_append.mp ht with ht | ht
              · exact hen.2 t ht
              · simp at ht; subst ht; exact hf)
          (by subst he; exact slotsOk_of (I.slots.all (by rw [hph]; intro k; simp)))
          (by
            subst he
            refine nodes_update ?_ ?_
            · show Place c .poll s.field _ i [] _
              rw [hx]
              exact .parked (by rw [← hf]; simp) (fun w => by simp)
            · intro j hj
              refine Place.mono (hother j hj) id (fun w hw => hw) ?_ (fun h => by simp [h])
              intro h t ht
              rcases List.mem_append.mp ht with ht | ht
              · exact h t ht
              · simp at ht; subst ht; exact fun h => hj h.symm)
        have hle := hown s' (by subst he; rfl) (by subst he; rfl) (by subst he; rfl) (by subst he; rfl) (by subst he; rfl) (by subst he; rfl) (by subst he; rfl) (by subst he; rfl) (by subst he; rfl) (by subst he; rfl)
        have hrl : s'.requested.length = s.requested.length := by subst he; rfl
        exact ⟨_, _, hB.1, by have := hB.2; omega⟩
      · rw [if_neg hf] at hs
        have he := Option.some.inj hs
        obtain ⟨h0, h1, h2, h3⟩ := answer I i (by rw [hx]; exact ⟨rfl, rfl, rfl⟩) 0 (by omega)
        simp only [List.take_zero, List.drop_zero] at h1 h2 h3
        have hB := I.build (s' := s') i ((a i).give []) comp (by subst he; exact I.fault) (by subst he; rw [h1]; rfl)
          (by subst he; rfl) (by subst he; exact I.cmp) (by subst he; rfl) (by subst he; rfl) (by subst he; simp [State.setNode]) (by subst he; exact ⟨rfl, rfl⟩) (by subst he; rfl) (by subst he; exact ⟨rfl, rfl⟩)
          (by subst he; exact h3) (by subst he; rw [hph]; exact id) (by subst he; exact fun _ => hen) (by subst he; exact slotsOk_of (I.slots.all (by rw [hph]; intro k; simp)))
          (by
            subst he
            refine nodes_update ?_ hother
            show Place c .poll s.field s.emptyNodes i [] _
            rw [hx]
            refine .answered [] t r p hp (fun w => by simp) (by simp) (Or.inr ?_) hc
            by_contra hh
            push Not at hh
            exact hf (by rw [hslot]; exact hw.mpr hh))
        have hle := hown s' (by subst he; rfl) (by subst he; rfl) (by subst he; rfl) (by subst he; rfl) (by subst he; rfl) (by subst he; rfl) (by subst he; rfl) (by subst he; rfl) (by subst he; rfl) (by subst he; rfl)
        have hrl : s'.requested.length = s.requested.length := by subst he; rfl
        exact ⟨_, _, hB.1, by have := hB.2; omega⟩
  | _ => rw [hph] at hs; simp at hs

theorem Place.of_parked {ph : MPhase c.m} {fld : ℕ} {en : List (Fin c.m × ℕ)} {i : Fin c.m} {w : ℕ} {x : ANode} (h : Place c ph fld en i [] x) (hm : (i, w) ∈ en) :
    x = ⟨[], [], .waiting, fld, 0, [], []⟩ ∧ notReply ph i := by
  cases h with
  | parked h hr => exact ⟨rfl, hr⟩
  | top t r p hp => exact absurd rfl (hp _ hm)
  | queueing ps st t r p hp => exact absurd rfl (hp _ hm)
  | counting ps st t r p hp => exact absurd rfl (hp _ hm)
  | sent ps w' t r p hp => exact absurd rfl (hp _ hm)
  | answered ps t r p hp => exact absurd rfl (hp _ hm)
  | replying w' t r p hp => exact absurd rfl (hp _ hm)

theorem restartLoop_keeps (V : c.Valid) : ∀ (ts : List (Fin c.m × ℕ)) (s : State c.m) (a : Fin c.m → ANode), s.phase = .poll → Inv c { s with emptyNodes := ts } a comp →
    ∃ a', Inv c (restartLoop c s ts) a' comp ∧ measure c (restartLoop c s ts) a' ≤ measure c s a ∧ (s.requested ≠ [] → ts ≠ [] → measure c (restartLoop c s ts) a' < measure c s a) ∧
      (s.requested = [] → (restartLoop c s ts).requested = []) ∧ (restartLoop c s ts).newJobs = s.newJobs
  | [], s, a, hph, I => ⟨a, I, le_refl _, fun _ h => absurd rfl h, fun h => h, rfl⟩
  | (i, w) :: ts, s, a, hph, I => by
    by_cases hne : s.requested ≠ []
    · have hen := I.en (by show runPhase s.phase = true; rw [hph]; rfl)
      have hw : w = buffer * c.wthr i := hen.2 (i, w) (by simp)
      have hNi := I.nodes i
      simp only [hph] at hNi
      obtain ⟨hx, _⟩ := Place.of_parked (w := w) hNi (by simp)
      obtain ⟨size, hsz, hsz1, heq⟩ := sendJobs_eq V s i w hne I.reqLen
      have hsz2 : 1 ≤ size := hsz1 (by rw [hw]; exact mod32_wthr V i)
      obtain ⟨h0, h1, h2, h3⟩ := answer I i (by rw [hx]; exact ⟨rfl, rfl, rfl⟩) size hsz
      have hnd := hen.1
      rw [List.map_cons, List.nodup_cons] at hnd
      have hnp : notParked ts i := fun t ht h => hnd.1 (List.mem_map.mpr ⟨t, ht, h⟩)
      have hB := I.build (s' := { sendJobs c s i w with emptyNodes := ts }) i ((a i).give (s.requested.take size)) comp (by rw [heq]; exact I.fault)
        (by rw [heq]; show update s.node i _ = _; rw [h1])
        (by rw [heq]; rfl) (by rw [heq]; exact I.cmp) (by rw [heq]; rfl) (by rw [heq]; rfl) (by rw [heq]; simp) (by rw [heq]; exact ⟨rfl, rfl⟩) (by rw [heq]; rfl) (by rw [heq]; exact ⟨rfl, rfl⟩)
        (by rw [heq]; exact h3) (by rw [heq]; exact id) (by rw [heq]; exact fun _ => ⟨hnd.2, fun t ht => hen.2 t (by simp [ht])⟩) (by rw [heq]; exact I.slots)
        (by
          rw [heq]
          refine nodes_update ?_ ?_
          · show NodeInv c s.phase s.field ts i _
            rw [hph]
            show Place c .poll s.field ts i [] _
            rw [hx]
            refine .answered _ 0 [] [] hnp (fun w => by simp) (by have := I.reqLen; simp at this ⊢; omega) (Or.inl ?_) ⟨by simp, by norm_num, rfl⟩
            intro h
            have := congrArg List.length h
            simp at this
            rcases this with h | h
            · omega
            · exact hne h
          · intro j hj
            have hNj := I.nodes j
            show NodeInv c s.phase s.field ts j _
            simp only [hph] at hNj ⊢
            refine Place.mono (en' := ts) hNj id (fun w hw => hw) (fun h t ht => h t (by simp [ht])) ?_
            intro h
            rcases List.mem_cons.mp h with h | h
            · injection h with h1 _; exact absurd h1 hj
            · exact h)
      obtain ⟨I1, hm1⟩ := hB
      have hph1 : (sendJobs c s i w).phase = .poll := by rw [heq]; exact hph
      obtain ⟨a', I', hm', hm2, hm3, hnj⟩ := restartLoop_keeps V ts _ _ hph1 I1
      have hown : ownWt c ({ sendJobs c s i w with emptyNodes := ts } : State c.m) + 100 * size = ownWt c ({ s with emptyNodes := (i, w) :: ts } : State c.m) := by
        rw [heq]
        simp only [ownWt, State.setNode, List.length_drop]
        omega
      replace h2 : ((a i).give (s.requested.take size)).wt = (a i).wt + 8 + 40 * size := h2
      replace hm1 : measure c (sendJobs c s i w) (update a i ((a i).give (s.requested.take size))) + (a i).wt + ownWt c ({ s with emptyNodes := (i, w) :: ts } : State c.m) =
        measure c s a + ((a i).give (s.requested.take size)).wt + ownWt c ({ sendJobs c s i w with emptyNodes := ts } : State c.m) := hm1
      have hrl : restartLoop c s ((i, w) :: ts) = restartLoop c (sendJobs c s i w) ts := by
        rw [restartLoop, if_pos hne]
      rw [hrl]
      refine ⟨a', I', by omega, fun _ _ => by omega, fun h => absurd h hne, ?_⟩
      rw [hnj, heq]; rfl
    · have hrl : restartLoop c s ((i, w) :: ts) = { s with emptyNodes := (i, w) :: ts } := by
        rw [restartLoop, if_neg hne]
      rw [hrl]
      push Not at hne
      exact ⟨a, I, le_refl _, fun h => absurd hne h, fun h => h, rfl⟩

theorem restart_keeps (V : c.Valid) (I : Inv c s a comp) (hs : restartStep c s = some s') : Keeps c s s' a := by
  unfold restartStep at hs
  cases hph : s.phase with
  | poll =>
    rw [hph] at hs
    dsimp only at hs
    split_ifs at hs with h1 h2
    have he := Option.some.inj hs
    obtain ⟨a', I', hm1, hm2, hm3, hm4⟩ := restartLoop_keeps V s.emptyNodes s a hph I
    obtain ⟨I2, ht1, ht2⟩ := testEmpty_inv I'
    refine ⟨a', comp, by rw [← he]; exact I2, ?_⟩
    rw [← he]
    by_cases hr : s.requested = []
    · have := ht2 (hm3 hr) (by rw [hm4]; exact h2.2)
      omega
    · have := hm2 hr h2.1
      omega
  | _ => rw [hph] at hs; simp at hs

theorem recv_keeps (V : c.Valid) (I : Inv c s a comp) (i : Fin c.m) (hs : recvStep c s i = some s') : Keeps c s s' a := by
  unfold recvStep at hs
  have hn : s.node i = encNode c (a i) := by rw [I.node]
  rw [hn] at hs
  cases hph : s.phase with
  | poll =>
    rw [hph] at hs
    have hNi := I.nodes i
    have hlen := I.len i
    have hB := fun s' => I.build (s' := s') i
    rw [hph] at hNi
    have hother : ∀ w j, j ≠ i → Place c (.reply i w) s.field s.emptyNodes j [] (a j) := by
      intro w j hj
      have := I.nodes j
      rw [hph] at this
      exact Place.phase this (fun w h => hj (by injection h with h1; exact h1.symm)) (fun w => by simp)
    generalize hx : a i = x at hNi hs hlen hB
    cases (show Place c .poll s.field s.emptyNodes i [] x from hNi) with
    | sent ps w t r p hp hr hps hw hc =>
      have hpl : ∀ q ∈ ps, (c.f s.field q.2).length = c.items := fun q hq => V.f _ _ (hlen q (by simp [ANode.acc, AOut.probes, hq]))
      simp only [encNode, List.map_cons, List.map_nil, encOut] at hs
      split_ifs at hs with h1
      rw [unpack_pack c.items _ ps hpl hps w] at hs
      dsimp only at hs
      have he := Option.some.inj hs
      obtain ⟨I1, hm1⟩ := hB s' ⟨[], [], .waiting, s.field, t, r, p⟩ (comp ++ [ps]) (by subst he; exact I.fault) (by subst he; rfl)
        (by subst he; rfl) (by subst he; rw [List.map_append]; show s.computed ++ _ = _; rw [I.cmp]; rfl) (by subst he; rfl) (by subst he; rfl) (by subst he; exact le_refl _) (by subst he; exact ⟨rfl, rfl⟩) (by subst he; rfl) (by subst he; exact ⟨rfl, rfl⟩)
        (by
          subst he
          show (s.requested : Multiset Probe) + _ + _ = _
          simp only [ANode.acc, List.flatMap_cons, List.flatMap_nil, AOut.probes, List.flatten_append, List.flatten_cons, List.flatten_nil, List.append_nil, ← Multiset.coe_add, Multiset.coe_nil, APhase.rest, add_zero, zero_add]
          abel)
        (by subst he; rw [hph]; exact id) (by subst he; exact fun _ => I.en (by rw [hph]; rfl)) (by subst he; exact slotsOk_of (I.slots.all (by rw [hph]; intro k; simp)))
        (by
          subst he
          refine nodes_update ?_ (hother w)
          exact Place.replying w t r p hp rfl hw hc)
      have hown : ownWt c s' = ownWt c s + 9 := by
        subst he
        simp only [ownWt, State.setNode, mwt, primeWt, doneWt, livePhase, isFin, hph]
        omega
      have hpos : 0 < ps.length := List.length_pos_iff.mpr hps
      refine ⟨_, _, I1, ?_⟩
      simp only [ANode.wt, List.map_cons, List.map_nil, List.sum_cons, List.sum_nil, AOut.wt, AOut.probes] at hm1
      omega
    | top => simp [encNode] at hs
    | queueing => simp [encNode] at hs
    | counting => simp [encNode] at hs
    | replying => simp [encNode] at hs
    | answered => simp [encNode] at hs
    | parked => simp [encNode] at hs
  | _ => rw [hph] at hs; simp at hs

end FireFly.Mpi
