import Verif.Lemmas.MpiInv
/-! # The MPI protocol: the steps of the workers keep the invariant -/
set_option linter.all false
namespace FireFly.Mpi
open Function (update)

variable {c : Cfg} {s s' : State c.m} {a : Fin c.m → ANode} {comp : List (List Probe)}

/-- The steps keep the invariant and reduce the measure. -/
def Keeps (c : Cfg) (s s' : State c.m) (a : Fin c.m → ANode) : Prop := ∃ a' comp', Inv c s' a' comp' ∧ measure c s' a' < measure c s a

def Still (x : ANode) : Prop := Cleared x ∧ x.inn = [] ∧ ((∃ fin, x.phase = .bar1 fin ∨ x.phase = .last fin ∨ x.phase = .bar2 fin) ∨ x.phase = .between ∨ x.phase = .off)

theorem NodeInv.cases {ph : MPhase c.m} {fld : ℕ} {en : List (Fin c.m × ℕ)} {i : Fin c.m} {x : ANode} (h : NodeInv c ph fld en i x) :
    (∃ sg, Place c ph fld en i sg x ∧ (∀ x', Place c ph fld en i sg x' → NodeInv c ph fld en i x') ∧ ((sg = [] ∧ runPhase ph = true) ∨ ∃ fin, ph = .bar1 fin ∧ sg = [sigOf fin])) ∨
    (Fresh c fld en i x ∧ (∀ x', Fresh c fld en i x' → NodeInv c ph fld en i x') ∧ runPhase ph = true) ∨ Still x := by
  cases ph with
  | first k =>
    by_cases hk : i.val < k
    · exact Or.inl ⟨[], h.1 hk, fun x' hx' => ⟨fun _ => hx', fun h' => by omega⟩, Or.inl ⟨rfl, rfl⟩⟩
    · exact Or.inr (Or.inl ⟨h.2 (by omega), fun x' hx' => ⟨fun h' => by omega, fun _ => hx'⟩, rfl⟩)
  | collect k =>
    by_cases hk : i.val < k
    · exact Or.inl ⟨[], h.1 hk, fun x' hx' => ⟨fun _ => hx', fun h' => by omega⟩, Or.inl ⟨rfl, rfl⟩⟩
    · exact Or.inr (Or.inl ⟨h.2 (by omega), fun x' hx' => ⟨fun h' => by omega, fun _ => hx'⟩, rfl⟩)
  | poll => exact Or.inl ⟨[], h, fun x' hx' => hx', Or.inl ⟨rfl, rfl⟩⟩
  | reply j w => exact Or.inl ⟨[], h, fun x' hx' => hx', Or.inl ⟨rfl, rfl⟩⟩
  | bar1 fin =>
    rcases h with h | ⟨h1, h2, h3, _⟩
    · exact Or.inl ⟨_, h, fun x' hx' => Or.inl hx', Or.inr ⟨fin, rfl, rfl⟩⟩
    · exact Or.inr (Or.inr ⟨h3, h2, Or.inl ⟨fin, Or.inl h1⟩⟩)
  | drain fin k =>
    obtain ⟨h1, h2, h3, h4⟩ := h
    refine Or.inr (Or.inr ⟨h2, h1, Or.inl ⟨fin, ?_⟩⟩)
    by_cases hk : i.val < k
    · exact Or.inr (Or.inr (h3 hk).1)
    · rcases h4 (by omega) with h | h
      · exact Or.inr (Or.inl h.1)
      · exact Or.inr (Or.inr h.1)
  | bar2 fin => exact Or.inr (Or.inr ⟨h.2.1, h.1, Or.inl ⟨fin, Or.inr (Or.inr h.2.2.2)⟩⟩)
  | refill => exact Or.inr (Or.inr ⟨h.2.1, h.1, Or.inr (Or.inl h.2.2.2)⟩)
  | off => exact Or.inr (Or.inr ⟨h.2.1, h.1, Or.inr (Or.inr h.2.2.2)⟩)

theorem Still.enc {x : ANode} (h : Still x) : encPhase x.phase ≠ .top ∧ encPhase x.phase ≠ .waiting ∧ (∀ v n st, encPhase x.phase ≠ .queueing v n st) ∧ (∀ v n st, encPhase x.phase ≠ .counting v n st) := by
  obtain ⟨_, _, h⟩ := h
  rcases h with ⟨fin, h | h | h⟩ | h | h <;> rw [h] <;> simp [encPhase]

theorem mod_free (b t : ℕ) (hb : 0 < b) (hb' : b < 2 ^ 31) (ht : t < 2 ^ 64) : (b + 2 ^ 64 - t) % 2 ^ 64 = b ↔ t = 0 := by omega

theorem packResults_eq_nil (g : List ℕ → List ℕ) (ps : List Probe) : packResults g ps = [] ↔ ps = [] := by
  cases ps with
  | nil => simp [packResults]
  | cons p ps => simp [packResults]

theorem Cont.tasks_eq {p : List (List Probe)} {t : ℕ} (h : Cont p t 0) (hl : p.length < 2 ^ 64) : t = p.length := by
  obtain ⟨_, h1, h2⟩ := h
  omega

theorem send_keeps (V : c.Valid) (I : Inv c s a comp) (i : Fin c.m) (hs : sendStep c s i = some s') : Keeps c s s' a := by
  have hN := I.nodes i
  have hpl := I.pool_lt i
  have hset := I.set i
  have hn : s.node i = encNode c (a i) := by rw [I.node]
  have hb0 : 0 < buffer * c.wthr i := by have := V.wthr i; unfold buffer; omega
  have hb1 : buffer * c.wthr i < 2 ^ 31 := V.wthr' i
  unfold sendStep at hs
  rw [hn] at hs
  generalize hx : a i = x at hN hpl hset hs
  rcases hN.cases with ⟨sg, hP, hback, _⟩ | ⟨hF, hback, _⟩ | hQ
  · cases hP with
    | top t r p hp hr hb hc =>
      have htl := hpl hc.1
      have ht := hc.tasks_eq htl
      simp only [encNode, encPhase] at hs
      have h1 : ¬ (t = 0 ∧ packResults (c.f s.field) r = []) := by
        rintro ⟨e1, e2⟩
        rw [packResults_eq_nil] at e2
        rcases hb with hb | hb
        · rw [ht] at e1; exact hb (List.length_eq_zero_iff.mp e1)
        · exact hb e2
      replace hs := (if_neg (α := Option (State c.m)) h1).symm.trans hs
      by_cases h2' : r = []
      · replace hs := (if_neg (α := Option (State c.m)) (show ¬ packResults (c.f s.field) r ≠ [] by rw [h2']; simp [packResults])).symm.trans hs
        simp at hs
      · replace hs := (if_pos (α := Option (State c.m)) (show packResults (c.f s.field) r ≠ [] by rw [Ne, packResults_eq_nil]; exact h2')).symm.trans hs
        have he := Option.some.inj hs
        obtain ⟨a', comp', I', hm⟩ := hset ⟨[.results s.field r ((buffer * c.wthr i + 2 ^ 64 - t) % 2 ^ 64)], sg, .waiting, s.field, t, [], p⟩
          (hback _ (.sent r _ t [] p hp hr h2' (by rw [mod_free _ _ hb0 hb1 hc.2.1, ht]; simp) hc))
          (le_of_eq (by simp [ANode.acc, AOut.probes, APhase.rest, add_comm, add_left_comm])) (fun _ => by simp [ANode.acc, AOut.probes, APhase.rest, add_comm, add_left_comm])
          (by simp [ANode.wt, AOut.wt, AOut.probes, APhase.wt]; omega)
        refine ⟨a', comp', ?_⟩
        subst he
        exact ⟨I', hm⟩
    | queueing => simp [encNode, encPhase] at hs
    | counting => simp [encNode, encPhase] at hs
    | sent => simp [encNode, encPhase] at hs
    | replying => simp [encNode, encPhase] at hs
    | answered => simp [encNode, encPhase] at hs
    | parked => simp [encNode, encPhase] at hs
  · cases hF with
    | top hp =>
      simp only [encNode, encPhase] at hs
      rw [if_pos (by simp [packResults])] at hs
      have he := Option.some.inj hs
      obtain ⟨a', comp', I', hm⟩ := hset ⟨[.free (buffer * c.wthr i)], [], .waiting, s.field, 0, [], []⟩ (hback _ (.sent hp))
        (le_of_eq (by simp [ANode.acc, AOut.probes, APhase.rest])) (fun _ => by simp [ANode.acc, AOut.probes, APhase.rest])
        (by simp [ANode.wt, AOut.wt, AOut.probes, APhase.wt])
      refine ⟨a', comp', ?_⟩
      subst he
      exact ⟨I', hm⟩
    | sent => simp [encNode, encPhase] at hs
  · exfalso
    have := hQ.enc.1
    simp only [encNode] at hs
    revert hs
    cases h : encPhase x.phase <;> simp_all

theorem bar1_notRunning {fin : Bool} (h : s.phase = .bar1 fin) : ¬ Running s := by
  unfold Running; rw [h]; simp [livePhase]

theorem take_keeps (V : c.Valid) (I : Inv c s a comp) (i : Fin c.m) (hs : takeStep c s i = some s') : Keeps c s s' a := by
  have hN := I.nodes i
  have hset := I.set i
  have hlen := I.len i
  have hn : s.node i = encNode c (a i) := by rw [I.node]
  unfold takeStep at hs
  rw [hn] at hs
  generalize hx : a i = x at hN hset hlen hs
  rcases hN.cases with ⟨sg, hP, hback, hsg⟩ | ⟨hF, hback, _⟩ | hQ
  · -- the signal
    have hsignal : ∀ (out : List AOut) (t : ℕ) (r : List Probe) (p : List (List Probe)), x = ⟨out, sg, .waiting, s.field, t, r, p⟩ → Pre out → Keeps c s s' a := by
      rintro out t r p rfl hpre
      rcases hsg with ⟨rfl, _⟩ | ⟨fin, hph, rfl⟩
      · simp [encNode, encPhase] at hs
      · obtain ⟨a', comp', I', hm⟩ := hset ⟨out, [], .bar1 fin, s.field, 0, [], []⟩
          (by rw [hph]; exact Or.inr ⟨rfl, rfl, ⟨rfl, rfl, rfl⟩, hpre⟩)
          (by
            simp only [ANode.acc, APhase.rest, List.flatMap_nil, List.flatten_nil, Multiset.coe_nil, add_zero]
            refine le_trans ?_ (Multiset.le_add_right _ _)
            refine le_trans ?_ (Multiset.le_add_right _ _)
            exact Multiset.le_add_right _ _)
          (fun h => absurd h (bar1_notRunning hph))
          (by simp [ANode.wt, APhase.wt, sigOf]; cases fin <;> simp [AIn.wt] <;> omega)
        refine ⟨a', comp', ?_⟩
        cases fin <;> (simp [encNode, encPhase, encIn, sigOf] at hs; subst hs; exact ⟨I', hm⟩)
    cases hP with
    | top => simp [encNode, encPhase] at hs
    | queueing => simp [encNode, encPhase] at hs
    | counting => simp [encNode, encPhase] at hs
    | sent ps w t r p hp hr hps hw hc => exact hsignal _ t r p rfl (Or.inr ⟨_, ps, w, rfl, hps⟩)
    | replying w t r p hp hr hw hc => exact hsignal _ t r p rfl (Or.inl rfl)
    | parked h hr => exact hsignal _ _ _ _ rfl (Or.inl rfl)
    | answered ps t r p hp hr h2 hb hc =>
      have hps : ∀ q ∈ ps, q.2.length = c.n := fun q hq => hlen q (by simp [ANode.acc, AIn.probes, hq])
      simp only [encNode, encPhase, List.map_cons, encIn] at hs
      rw [packValues_length c.n ps hps] at hs
      rw [if_neg (by simp)] at hs
      rw [Nat.mul_div_cancel_left _ (by omega)] at hs
      have he := Option.some.inj hs
      obtain ⟨a', comp', I', hm⟩ := hset ⟨[], sg, .queueing ps 0, s.field, t, r, p⟩
        (hback _ (.queueing ps 0 t r p hp hr (by omega) h2 hps (hb.imp (fun h => List.length_pos_iff.mpr h) id) hc))
        (le_of_eq (by simp [ANode.acc, AIn.probes, APhase.rest, add_comm])) (fun _ => by simp [ANode.acc, AIn.probes, APhase.rest, add_comm])
        (by simp [ANode.wt, AIn.wt, APhase.wt]; omega)
      refine ⟨a', comp', ?_⟩
      subst he
      exact ⟨I', hm⟩
  · cases hF <;> simp [encNode, encPhase] at hs
  · exfalso
    have := hQ.enc.2.1
    simp only [encNode] at hs
    revert hs
    cases h : encPhase x.phase <;> simp_all

theorem mem_sizes_ge {b : ℕ} (h : b ∈ bunchSizes) : 1 ≤ b ∧ b ≤ 128 := by
  simp [bunchSizes] at h; omega

theorem bunch_ok {q thr b : ℕ} (hq : 1 ≤ q) (hq' : q < 2 ^ 31) (ht : 1 ≤ thr) (hb : b ∈ bunchSizes) :
    ∃ k, computeBunchSize q thr b = some k ∧ 1 ≤ k ∧ k ≤ q ∧ k ∈ bunchSizes := by
  obtain ⟨k, h1, h2, h3, h4, h5⟩ := C28_bunch q thr b hq hq' ht (mem_sizes_ge hb).1
  refine ⟨k, h1, h2, h4, ?_⟩
  rcases h5 with rfl | ⟨j, rfl⟩
  · exact hb
  · have h128 : 2 ^ j ≤ 2 ^ 7 := le_trans h3 (mem_sizes_ge hb).2
    have hj : j ≤ 7 := (Nat.pow_le_pow_iff_right (by norm_num)).mp h128
    interval_cases j <;> simp [bunchSizes]

theorem queue_keeps (V : c.Valid) (I : Inv c s a comp) (i : Fin c.m) (hs : queueStep c s i = some s') : Keeps c s s' a := by
  have hN := I.nodes i
  have hset := I.set i
  have hlen := I.len i
  have hmem := I.mem_log i
  have hn : s.node i = encNode c (a i) := by rw [I.node]
  unfold queueStep at hs
  rw [hn] at hs
  generalize hx : a i = x at hN hset hlen hmem hs
  rcases hN.cases with ⟨sg, hP, hback, hsg⟩ | ⟨hF, hback, _⟩ | hQ
  · cases hP with
    | queueing ps st t r p hp hr h1 h2 hps hb hc =>
      simp only [encNode, encPhase] at hs
      split_ifs at hs with hst
      · have he := Option.some.inj hs
        obtain ⟨a', comp', I', hm⟩ := hset ⟨[], sg, .top, s.field, t, r, p⟩
          (hback _ (.top t r p hp hr (by rcases hb with h | h | h
                                         · omega
                                         · exact Or.inl h
                                         · exact Or.inr h) hc))
          (le_of_eq (by simp [ANode.acc, APhase.rest, hst])) (fun _ => by simp [ANode.acc, APhase.rest, hst])
          (by simp [ANode.wt, APhase.wt]; omega)
        refine ⟨a', comp', ?_⟩
        subst he
        exact ⟨I', hm⟩
      · have hu : u32 ((ps.length : ℤ) - st) = ps.length - st := by unfold u32; omega
        obtain ⟨b, e1, e2, e3, e4⟩ := bunch_ok (q := ps.length - st) (by omega) (by omega) (V.wthr i) (V.wbunch i)
        have hread : (List.range b).mapM (fun j => readProbe c.n (packValues ps) (st + j)) = some ((ps.drop st).take b) := by
          exact readBunch c.n ps hps st b (by omega)
        have hu2 : u32 ((st : ℤ) + b) = st + b := by unfold u32; omega
        rw [hu, e1] at hs
        simp only [hread, hu2] at hs
        rw [if_pos e4] at hs
        have he := Option.some.inj hs
        have hbl : ((ps.drop st).take b).length = b := by simp; omega
        have hbne : (ps.drop st).take b ≠ [] := by intro h; rw [h] at hbl; simp at hbl; omega
        have hdrop : ps.drop st = (ps.drop st).take b ++ ps.drop (st + b) := by
          rw [← List.drop_drop, List.take_append_drop]
        have hac : (⟨[], sg, .counting ps (st + b), s.field, t, r, p ++ [(ps.drop st).take b]⟩ : ANode).acc = (⟨[], sg, .queueing ps st, s.field, t, r, p⟩ : ANode).acc := by
          simp only [ANode.acc, APhase.rest]
          rw [hdrop]
          simp only [List.flatten_append, List.flatten_cons, List.flatten_nil, List.append_nil, ← Multiset.coe_add]
          rw [← hdrop]
          abel
        obtain ⟨a', comp', I', hm⟩ := hset ⟨[], sg, .counting ps (st + b), s.field, t, r, p ++ [(ps.drop st).take b]⟩
          (hback _ (.counting ps (st + b) t r _ hp hr (by omega) h2 hps (Or.inl (by simp))
            ⟨fun q hq => by
              rcases List.mem_append.mp hq with h | h
              · exact hc.1 q h
              · rw [List.mem_singleton.mp h]; exact hbne, hc.2.1, by have := hc.2.2; simp; omega⟩))
          (le_of_eq hac) (fun _ => hac)
          (by simp [ANode.wt, APhase.wt]; omega)
        refine ⟨a', comp', ?_⟩
        subst he
        exact ⟨I', hm⟩
    | top => simp [encNode, encPhase] at hs
    | counting => simp [encNode, encPhase] at hs
    | sent => simp [encNode, encPhase] at hs
    | replying => simp [encNode, encPhase] at hs
    | answered => simp [encNode, encPhase] at hs
    | parked => simp [encNode, encPhase] at hs
  · cases hF <;> simp [encNode, encPhase] at hs
  · exfalso
    have := hQ.enc.2.2.1
    simp only [encNode] at hs
    revert hs
    cases h : encPhase x.phase <;> simp_all

theorem count_keeps (V : c.Valid) (I : Inv c s a comp) (i : Fin c.m) (hs : countStep c s i = some s') : Keeps c s s' a := by
  have hN := I.nodes i
  have hset := I.set i
  have hn : s.node i = encNode c (a i) := by rw [I.node]
  unfold countStep at hs
  rw [hn] at hs
  generalize hx : a i = x at hN hset hs
  rcases hN.cases with ⟨sg, hP, hback, hsg⟩ | ⟨hF, hback, _⟩ | hQ
  · cases hP with
    | counting ps st t r p hp hr h1 h2 hps hb hc =>
      simp only [encNode, encPhase] at hs
      have he := Option.some.inj hs
      obtain ⟨a', comp', I', hm⟩ := hset ⟨[], sg, .queueing ps st, s.field, (t + 1) % 2 ^ 64, r, p⟩
        (hback _ (.queueing ps st _ r p hp hr h1 h2 hps (Or.inr hb) ⟨hc.1, Nat.mod_lt _ (by norm_num), by have := hc.2.2; omega⟩))
        (le_of_eq rfl) (fun _ => rfl) (by simp [ANode.wt, APhase.wt])
      refine ⟨a', comp', ?_⟩
      subst he
      exact ⟨I', hm⟩
    | top => simp [encNode, encPhase] at hs
    | queueing => simp [encNode, encPhase] at hs
    | sent => simp [encNode, encPhase] at hs
    | replying => simp [encNode, encPhase] at hs
    | answered => simp [encNode, encPhase] at hs
    | parked => simp [encNode, encPhase] at hs
  · cases hF <;> simp [encNode, encPhase] at hs
  · exfalso
    have := hQ.enc.2.2.2
    simp only [encNode] at hs
    revert hs
    cases h : encPhase x.phase <;> simp_all

theorem flatten_eraseIdx {α : Type} (l : List (List α)) (k : ℕ) (b : List α) (h : l[k]? = some b) : (l.flatten : Multiset α) = ((l.eraseIdx k).flatten : Multiset α) + (b : Multiset α) := by
  induction l generalizing k with
  | nil => simp at h
  | cons x l ih =>
    cases k with
    | zero =>
      simp at h; subst h
      simp [add_comm, ← Multiset.coe_add]
    | succ k =>
      simp at h
      have := ih k h
      simp only [List.flatten_cons, List.eraseIdx_cons_succ, ← Multiset.coe_add]
      rw [this, add_assoc]

theorem packResults_append (g : List ℕ → List ℕ) (p q : List Probe) : packResults g (p ++ q) = packResults g p ++ packResults g q := by
  simp [packResults]

theorem Cont.erase {p : List (List Probe)} {t d k : ℕ} {b : List Probe} (hd : d ≤ 1) (h : Cont p t d) (hk : p[k]? = some b) : Cont (p.eraseIdx k) ((t + 2 ^ 64 - 1) % 2 ^ 64) d := by
  obtain ⟨h1, h2, h3⟩ := h
  have hlt : k < p.length := by
    rw [List.getElem?_eq_some_iff] at hk; exact hk.1
  refine ⟨fun q hq => h1 q (List.mem_of_mem_eraseIdx hq), Nat.mod_lt _ (by norm_num), ?_⟩
  rw [List.length_eraseIdx_of_lt hlt]
  omega

theorem compute_keeps (V : c.Valid) (I : Inv c s a comp) (i : Fin c.m) (k : ℕ) (hs : computeStep c s i k = some s') : Keeps c s s' a := by
  have hN := I.nodes i
  have hset := I.set i
  have hn : s.node i = encNode c (a i) := by rw [I.node]
  unfold computeStep at hs
  rw [hn] at hs
  generalize hx : a i = x at hN hset hs
  -- the change of the node
  cases hk : x.pool[k]? with
  | none => simp [encNode, hk] at hs
  | some b =>
    simp only [encNode, hk] at hs
    have hfl := flatten_eraseIdx _ _ _ hk
    have hbr : x.results ++ b ≠ [] ∨ b = [] := by
      by_cases hb : b = []
      · exact Or.inr hb
      · exact Or.inl (by simp [hb])
    have key : ∀ x' : ANode, x' = ⟨x.out, x.inn, x.phase, x.field, (x.tasks + 2 ^ 64 - 1) % 2 ^ 64, x.results ++ b, x.pool.eraseIdx k⟩ → NodeInv c s.phase s.field s.emptyNodes i x' → b ≠ [] → Keeps c s s' a := by
      rintro x' rfl hN' hb
      have hac : (⟨x.out, x.inn, x.phase, x.field, (x.tasks + 2 ^ 64 - 1) % 2 ^ 64, x.results ++ b, x.pool.eraseIdx k⟩ : ANode).acc = x.acc := by
        simp only [ANode.acc]
        rw [hfl, ← Multiset.coe_add]
        abel
      have hlen : x.pool.flatten.length = (x.pool.eraseIdx k).flatten.length + b.length := by
        have := congrArg Multiset.card hfl
        simpa using this
      have hpos : 0 < b.length := List.length_pos_iff.mpr hb
      obtain ⟨a', comp', I', hm⟩ := hset _ hN' (le_of_eq hac) (fun _ => hac) (by simp only [ANode.wt, List.length_append]; omega)
      refine ⟨a', comp', ?_⟩
      have he := Option.some.inj hs
      subst he
      simp only [encNode, packResults_append] at I' hm
      exact ⟨I', hm⟩
    rcases hN.cases with ⟨sg, hP, hback, hsg⟩ | ⟨hF, hback, _⟩ | hQ
    · cases hP with
      | top t r p hp hr hb hc =>
        have hb1 : b ≠ [] := hc.1 b (List.mem_of_getElem? hk)
        exact key _ rfl (hback _ (.top _ _ _ hp hr (Or.inr (by simp [hb1])) (hc.erase (by omega) hk))) hb1
      | queueing ps st t r p hp hr h1 h2 hps hb hc =>
        have hb1 : b ≠ [] := hc.1 b (List.mem_of_getElem? hk)
        exact key _ rfl (hback _ (.queueing ps st _ _ _ hp hr h1 h2 hps (Or.inr (Or.inr (by simp [hb1]))) (hc.erase (by omega) hk))) hb1
      | counting ps st t r p hp hr h1 h2 hps hb hc =>
        have hb1 : b ≠ [] := hc.1 b (List.mem_of_getElem? hk)
        exact key _ rfl (hback _ (.counting ps st _ _ _ hp hr h1 h2 hps (Or.inr (by simp [hb1])) (hc.erase (by omega) hk))) hb1
      | sent ps w t r p hp hr hps hw hc =>
        have hb1 : b ≠ [] := hc.1 b (List.mem_of_getElem? hk)
        have hpne : p ≠ [] := by rintro rfl; simp at hk
        exact key _ rfl (hback _ (.sent ps w _ _ _ hp hr hps (by rw [hw]; simp [hb1, hpne]) (hc.erase (by omega) hk))) hb1
      | replying w t r p hp hr hw hc =>
        have hb1 : b ≠ [] := hc.1 b (List.mem_of_getElem? hk)
        have hpne : p ≠ [] := by rintro rfl; simp at hk
        exact key _ rfl (hback _ (.replying w _ _ _ hp hr (by rw [hw]; simp [hb1, hpne]) (hc.erase (by omega) hk))) hb1
      | answered ps t r p hp hr h2 hb hc =>
        have hb1 : b ≠ [] := hc.1 b (List.mem_of_getElem? hk)
        exact key _ rfl (hback _ (.answered ps _ _ _ hp hr h2 (Or.inr (Or.inr (by simp [hb1]))) (hc.erase (by omega) hk))) hb1
      | parked h hr => simp at hk
    · cases hF <;> simp at hk
    · rw [hQ.1.1] at hk; simp at hk

theorem Place.not_last {ph : MPhase c.m} {fld : ℕ} {en : List (Fin c.m × ℕ)} {i : Fin c.m} {sg : List AIn} {x : ANode} (h : Place c ph fld en i sg x) (fin : Bool) :
    x.phase ≠ .last fin ∧ x.phase ≠ .bar1 fin ∧ x.phase ≠ .bar2 fin ∧ x.phase ≠ .between := by
  cases h <;> simp

theorem Fresh.not_last {fld : ℕ} {en : List (Fin c.m × ℕ)} {i : Fin c.m} {x : ANode} (h : Fresh c fld en i x) (fin : Bool) : x.phase ≠ .last fin := by
  cases h <;> simp

theorem NodeInv.last {ph : MPhase c.m} {fld : ℕ} {en : List (Fin c.m × ℕ)} {i : Fin c.m} {x : ANode} (h : NodeInv c ph fld en i x) {fin : Bool} (hx : x.phase = .last fin) :
    ∃ k, ph = .drain fin k ∧ k ≤ i.val ∧ x.inn = [] ∧ Cleared x ∧ Pre x.out := by
  cases ph with
  | drain fin' k =>
    obtain ⟨h1, h2, h3, h4⟩ := h
    by_cases hk : i.val < k
    · have := (h3 hk).1; rw [hx] at this; simp at this
    · rcases h4 (by omega) with ⟨h5, h6⟩ | ⟨h5, _⟩
      · rw [hx] at h5; simp at h5; subst h5
        exact ⟨k, rfl, by omega, h1, h2, h6⟩
      · rw [hx] at h5; simp at h5
  | first k =>
    exfalso
    by_cases hk : i.val < k
    · exact ((h.1 hk).not_last fin).1 hx
    · exact (h.2 (by omega)).not_last fin hx
  | collect k =>
    exfalso
    by_cases hk : i.val < k
    · exact ((h.1 hk).not_last fin).1 hx
    · exact (h.2 (by omega)).not_last fin hx
  | poll => exact absurd hx (Place.not_last h fin).1
  | reply j w => exact absurd hx (Place.not_last h fin).1
  | bar1 fin' =>
    rcases h with h | h
    · exact absurd hx (h.not_last fin).1
    · have := h.1; rw [hx] at this; simp at this
  | bar2 fin' => have := h.2.2.2; rw [hx] at this; simp at this
  | refill => have := h.2.2.2; rw [hx] at this; simp at this
  | off => have := h.2.2.2; rw [hx] at this; simp at this

theorem last_keeps (V : c.Valid) (I : Inv c s a comp) (i : Fin c.m) (hs : lastStep c s i = some s') : Keeps c s s' a := by
  have hN := I.nodes i
  have hset := I.set i
  have hn : s.node i = encNode c (a i) := by rw [I.node]
  unfold lastStep at hs
  rw [hn] at hs
  generalize hx : a i = x at hN hset hs
  rcases x with ⟨out, inn, ph, fld, t, r, p⟩
  cases ph with
  | last fin =>
    simp only [encNode, encPhase] at hs
    by_cases hsync : c.sync = true ∧ List.map (encOut c) out ≠ []
    · replace hs := (if_pos (α := Option (State c.m)) hsync).symm.trans hs
      simp at hs
    · replace hs := (if_neg (α := Option (State c.m)) hsync).symm.trans hs
      have he := Option.some.inj hs
      obtain ⟨k, hph, hk, h1, ⟨h2, h3, h4⟩, hpre⟩ := hN.last rfl
      dsimp only at h1 h2 h3 h4 hpre
      subst h1; subst h2; subst h3; subst h4
      obtain ⟨a', comp', I', hm⟩ := hset ⟨out ++ [.last], [], .bar2 fin, fld, 0, [], []⟩
        (by rw [hph]; exact ⟨rfl, ⟨rfl, rfl, rfl⟩, fun h => by omega, fun _ => Or.inr ⟨rfl, out, rfl, hpre⟩⟩)
        (le_of_eq (by simp [ANode.acc, AOut.probes, APhase.rest])) (fun _ => by simp [ANode.acc, AOut.probes, APhase.rest])
        (by simp [ANode.wt, AOut.wt, AOut.probes, APhase.wt])
      refine ⟨a', comp', ?_⟩
      subst he
      simp only [encNode, List.map_append, List.map_cons, List.map_nil, encOut, encPhase] at I' hm ⊢
      exact ⟨I', hm⟩
  | top => simp [encNode, encPhase] at hs
  | waiting => simp [encNode, encPhase] at hs
  | queueing => simp [encNode, encPhase] at hs
  | counting => simp [encNode, encPhase] at hs
  | bar1 => simp [encNode, encPhase] at hs
  | bar2 => simp [encNode, encPhase] at hs
  | between => simp [encNode, encPhase] at hs
  | off => simp [encNode, encPhase] at hs

end FireFly.Mpi
