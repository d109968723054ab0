import Verif.Lemmas.CrashLemmas
/-! The invariant holds in all reachable states. -/
set_option linter.all false
namespace FireFly.Crash

/-- All pending operations for function `i`. -/
def Sys.pending {N : ℕ} (s : Sys N) (i : Fin N) : List Op := s.todo i ++ pend i s.main

structure Inv {N : ℕ} (s : Sys N) : Prop where
  q : ∀ i, AllPrefix (QOk (s.obj i)) (s.disk i) (s.pending i)
  good : s.up = true → s.closing = false → ∀ i, ∃ k, Good s.P (s.obj i) (runOps (s.disk i) (s.pending i)) k
  down : s.up = false → (∀ i, s.todo i = []) ∧ s.main = [] ∧ s.closing = false
  excl : s.main = [] ∨ ∀ i, s.todo i = []
  kept : ∀ i, (s.obj i).fields = (s.obj i).saved.fields
  sorted : ∀ i, (s.obj i).fields.Pairwise (· < ·)
  below : ∀ i, ∀ x ∈ (s.obj i).fields, x < (s.obj i).prime
  lost : ∀ i, (s.obj i).saved.fields = (s.obj i).prev.fields ∨ (s.obj i).saved.fields = (s.obj i).prev.fields ++ [(s.obj i).prime - 1]

lemma inv_start (N : ℕ) : Inv (start N) := by
  have hs : ∀ i : Fin N, Single ((start N).disk i) 0 .initial := by
    intro i
    refine ⟨by simp [start], ?_⟩
    intro k' hk'
    by_contra hn
    simp [start, Function.update_of_ne hn] at hk'
  refine ⟨?_, ?_, (by intro hu; cases hu), Or.inl rfl, fun i => rfl, ?_, ?_, fun i => Or.inl rfl⟩
  · intro i
    exact ⟨0, _, hs i, rfl, Or.inl rfl⟩
  · intro _ _ i
    refine ⟨0, hs i, rfl, by simp [start], rfl, by simp [start], fun _ => Or.inl ⟨rfl, rfl⟩, fun _ => le_refl _⟩
  · intro i; exact List.Pairwise.nil
  · intro i x hx; simp [start] at hx

/-- An object begins operations `ops` after which its state file is in order. -/
lemma inv_act {N : ℕ} {s : Sys N} (h : Inv s) {i : Fin N} (ha : s.Active i) (o : Obj) (ops : List Op) (z : Fin N → List ℕ)
    (hq : AllPrefix (QOk o) (s.disk i) ops) (hg : ∃ k, Good s.P o (runOps (s.disk i) ops) k)
    (h1 : o.fields.Pairwise (· < ·)) (h2 : ∀ x ∈ o.fields, x < o.prime) (h3 : o.saved.fields = o.prev.fields ∨ o.saved.fields = o.prev.fields ++ [o.prime - 1]) :
    Inv { s.act i o ops with zeros := z } := by
  have hp : ∀ j, Sys.pending { s.act i o ops with zeros := z } j = if j = i then ops else s.pending j := by
    intro j
    unfold Sys.pending Sys.act
    simp only
    by_cases e : j = i
    · subst e; simp [ha.main, pend]
    · simp [e]
  have ho : ∀ j, (Sys.obj { s.act i o ops with zeros := z } j) = if j = i then o else s.obj j := by
    intro j
    unfold Sys.act
    by_cases e : j = i
    · subst e; simp
    · simp [e]
  constructor
  · intro j
    rw [hp, ho]
    show AllPrefix _ (s.disk j) _
    split_ifs with e
    · subst e; exact hq
    · exact h.q j
  · intro _ _ j
    rw [hp, ho]
    show ∃ k, Good s.P _ (runOps (s.disk j) _) k
    split_ifs with e
    · subst e; exact hg
    · exact h.good ha.up ha.open_ j
  · intro hu
    have : s.up = false := hu
    rw [ha.up] at this; cases this
  · exact Or.inl ha.main
  all_goals
    intro j
    rw [ho]
    split_ifs with e
  · exact hg.choose_spec.fields
  · exact h.kept j
  · exact h1
  · exact h.sorted j
  · exact h2
  · exact h.below j
  · exact h3
  · exact h.lost j

lemma Sys.Active.good {N : ℕ} {s : Sys N} (h : Inv s) {i : Fin N} (ha : s.Active i) :
    ∃ k, Good s.P (s.obj i) (s.disk i) k ∧ (k + 1 = s.P ∨ (k = 0 ∧ s.P = 0)) ∧ (s.P ≠ 0 → (s.obj i).saved ≠ .initial) := by
  obtain ⟨k, hk⟩ := h.good ha.up ha.open_ i
  have e : s.pending i = [] := by unfold Sys.pending; rw [ha.todo, ha.main]; rfl
  rw [e] at hk
  refine ⟨k, hk, ?_, ?_⟩
  · rcases hk.rel ha.unfinished with ⟨h1, h2⟩ | ⟨h1, h2⟩
    · right
      have := hk.valid
      rw [h1] at this
      exact ⟨this, by rw [← ha.prime]; exact h2⟩
    · have := ha.prime
      omega
  · intro hP
    rcases hk.rel ha.unfinished with ⟨h1, h2⟩ | ⟨h1, h2⟩
    · exact absurd (ha.prime ▸ h2) hP
    · exact h1

/-- saving a state -/
lemma save_good {N : ℕ} {s : Sys N} (h : Inv s) {i : Fin N} (ha : s.Active i) (o : Obj) (c : Content) (rest : List Op) (hr : ∀ x ∈ rest, x.Neutral)
    (hc : CValid s.P c) (hci : c ≠ .initial) (hcb : c ≠ .broken) (hs : o.saved = c) (hp : o.prev = (s.obj i).saved) (hf : o.fields = c.fields)
    (hrel : o.done = false → o.prime = s.P + 1) :
    AllPrefix (QOk o) (s.disk i) (saveOps s.P c ++ rest) ∧ ∃ k, Good s.P o (runOps (s.disk i) (saveOps s.P c ++ rest)) k := by
  obtain ⟨k, hk, hk1, hk2⟩ := ha.good h
  have hQ : ∀ d k, (Single d k (s.obj i).saved ∧ CValid k (s.obj i).saved) ∨ (Single d k c ∧ CValid k c) → QOk o d := by
    rintro d k (⟨a, b⟩ | ⟨a, b⟩)
    · exact ⟨k, _, a, b, Or.inr (Or.inl hp.symm)⟩
    · exact ⟨k, _, a, b, Or.inl hs.symm⟩
  obtain ⟨h1, h2⟩ := saveOps_ok hk.single hk.valid hk1 hc hk2 hk.notBroken (QOk o) hQ
  refine ⟨h1.append (AllPrefix.neutral QOk.congr hr ⟨_, _, h2, hc, Or.inl hs.symm⟩), s.P, ?_⟩
  rw [runOps_append]
  have h3 : Single (runOps (runOps (s.disk i) (saveOps s.P c)) rest) s.P c := h2.congr (runOps_neutral hr _)
  refine ⟨by rw [hs]; exact h3, by rw [hs]; exact hc, by rw [hs]; exact hcb, by rw [hs]; exact hf, fun _ => by rw [hs]; exact hci, ?_, ?_⟩
  · intro hd; exact Or.inr ⟨by rw [hs]; exact hci, Or.inl (hrel hd).symm⟩
  · intro hd; rw [hrel hd]; omega

lemma pairwise_snoc {l : List ℕ} (h : l.Pairwise (· < ·)) {p : ℕ} (hp : ∀ x ∈ l, x < p) : (l ++ [p]).Pairwise (· < ·) := by
  rw [List.pairwise_append]
  refine ⟨h, List.pairwise_singleton _ _, ?_⟩
  intro a ha b hb
  rw [List.mem_singleton] at hb
  rw [hb]; exact hp a ha

lemma cvalid_state {P : ℕ} {f : List ℕ} (h : f.Pairwise (· < ·)) (hp : ∀ x ∈ f, x ≤ P) (d : Bool) : CValid P (.state f d) := ⟨h, hp⟩

/-- the operations at a change of the prime field -/
lemma change_good {N : ℕ} {s : Sys N} (h : Inv s) (up : s.up = true) (open_ : s.closing = false) (main : s.main = []) (todo : ∀ i, s.todo i = [])
    (hd : ∀ i, (s.obj i).done = true ∨ s.P < (s.obj i).prime) (i : Fin N) (rest : List Op) (hr : ∀ x ∈ rest, x.Shift) :
    AllPrefix (QOk (s.obj i)) (s.disk i) (changeOps s.P ++ rest) ∧ ∃ k, Good (s.P + 1) (s.obj i) (runOps (s.disk i) (changeOps s.P)) k := by
  obtain ⟨k, hk⟩ := h.good up open_ i
  have e : s.pending i = [] := by unfold Sys.pending; rw [todo, main]; rfl
  rw [e] at hk
  have hi : (s.obj i).saved ≠ .initial := by
    cases hdi : (s.obj i).done with
    | true => exact hk.done_not hdi
    | false =>
      rcases hk.rel hdi with ⟨h1, h2⟩ | ⟨h1, h2⟩
      · rcases hd i with h3 | h3
        · rw [hdi] at h3; cases h3
        · omega
      · exact h1
  refine ⟨shift_ok ?_ hk.single hk.valid hi hk.notBroken (fun d k a b => ⟨k, _, a, b, Or.inl rfl⟩), ?_⟩
  · intro o ho
    rcases List.mem_append.mp ho with ho | ho
    · exact changeOps_shift _ o ho
    · exact hr o ho
  · have hmv : Single (runOps (s.disk i) (changeOps s.P)) (if s.P > 0 ∧ k = s.P - 1 then s.P else k) (s.obj i).saved := by
      unfold changeOps
      by_cases hP : s.P > 0
      · rw [if_pos hP]
        have h1 : Single ((Op.moveProbe s.P (s.P + 1)).run (s.disk i)) k (s.obj i).saved := hk.single.congr rfl
        have := h1.move (s.P - 1) s.P
        simp only [hP, true_and]
        exact this
      · rw [if_neg hP]
        simp only [hP, false_and, if_false]
        exact hk.single.congr rfl
    refine ⟨_, hmv, ?_, hk.notBroken, hk.fields, hk.done_not, ?_, ?_⟩
    · split_ifs with e
      · exact hk.valid.mono hi hk.notBroken (by omega)
      · exact hk.valid
    · intro hdi
      refine Or.inr ⟨hi, Or.inl ?_⟩
      have h3 : s.P < (s.obj i).prime := by
        rcases hd i with h3 | h3
        · rw [hdi] at h3; cases h3
        · exact h3
      rcases hk.rel hdi with ⟨h1, h2⟩ | ⟨h1, h2⟩
      · exact absurd h1 hi
      · split_ifs with e <;> omega
    · intro hdi
      rcases hd i with h3 | h3
      · rw [hdi] at h3; cases h3
      · exact h3

lemma inv_step {N : ℕ} {s t : Sys N} (h : Inv s) (hst : Step s t) : Inv t := by
  cases hst with
  | op i o os up htodo =>
    have hp : ∀ j, Sys.pending { s with disk := Function.update s.disk i (o.run (s.disk i)), todo := Function.update s.todo i os } j = if j = i then os ++ pend i s.main else s.pending j := by
      intro j
      unfold Sys.pending
      by_cases e : j = i
      · subst e; simp
      · simp [e]
    have hpi : s.pending i = o :: (os ++ pend i s.main) := by unfold Sys.pending; rw [htodo]; rfl
    refine ⟨?_, ?_, fun hu => absurd (hu.symm.trans up) (by simp), ?_, h.kept, h.sorted, h.below, h.lost⟩
    · intro j
      rw [hp]
      simp only
      by_cases e : j = i
      · subst e
        have := h.q j
        rw [hpi] at this
        simpa using this.2
      · simpa [e] using h.q j
    · intro hu hc j
      obtain ⟨k, hk⟩ := h.good hu hc j
      refine ⟨k, ?_⟩
      rw [hp]
      simp only
      by_cases e : j = i
      · subst e
        rw [hpi, runOps_cons] at hk
        simpa using hk
      · simpa [e] using hk
    · rcases h.excl with h1 | h1
      · exact Or.inl h1
      · rw [h1 i] at htodo; cases htodo
  | mainOp i o os up hmain =>
    have htodo : ∀ j, s.todo j = [] := by
      rcases h.excl with h1 | h1
      · rw [h1] at hmain; cases hmain
      · exact h1
    have hp : ∀ j, Sys.pending { s with disk := Function.update s.disk i (o.run (s.disk i)), main := os } j = pend j os := by
      intro j; unfold Sys.pending; simp only [htodo j]; rfl
    have hps : ∀ j, s.pending j = if j = i then o :: pend j os else pend j os := by
      intro j
      unfold Sys.pending
      rw [htodo j, hmain]
      unfold pend
      by_cases e : j = i
      · subst e; simp
      · simp [e, Ne.symm e]
    refine ⟨?_, ?_, fun hu => absurd (hu.symm.trans up) (by simp), Or.inr htodo, h.kept, h.sorted, h.below, h.lost⟩
    · intro j
      rw [hp]
      have := h.q j
      rw [hps] at this
      simp only
      by_cases e : j = i
      · subst e
        rw [if_pos rfl] at this
        simpa using this.2
      · simpa [e] using this
    · intro hu hc j
      obtain ⟨k, hk⟩ := h.good hu hc j
      refine ⟨k, ?_⟩
      rw [hp]
      rw [hps] at hk
      simp only
      by_cases e : j = i
      · subst e
        rw [if_pos rfl, runOps_cons] at hk
        simpa using hk
      · simpa [e] using hk
  | field i ha =>
    obtain ⟨k, hk, -, -⟩ := ha.good h
    have hb := h.below i
    rw [ha.prime] at hb
    have hs := pairwise_snoc (h.sorted i) hb
    have hle : ∀ x ∈ (s.obj i).fields ++ [s.P], x < s.P + 1 := by
      intro x hx
      rcases List.mem_append.mp hx with hx | hx
      · have := hb x hx; omega
      · rw [List.mem_singleton] at hx; omega
    obtain ⟨h1, h2⟩ := save_good h ha { s.obj i with prime := s.P + 1, fields := (s.obj i).fields ++ [s.P], saved := .state ((s.obj i).fields ++ [s.P]) false, prev := (s.obj i).saved }
      (.state ((s.obj i).fields ++ [s.P]) false) (newProbeOps s.P) (newProbeOps_neutral _) (cvalid_state hs (fun x hx => by have := hle x hx; omega) false) (by simp) (by simp) rfl rfl rfl (fun _ => rfl)
    refine inv_act h ha _ _ s.zeros h1 h2 hs hle (Or.inr ?_)
    show (s.obj i).fields ++ [s.P] = (s.obj i).saved.fields ++ [s.P + 1 - 1]
    rw [hk.fields]; rfl
  | zero i ha =>
    obtain ⟨k, hk, hk1, hk2⟩ := ha.good h
    have hb := h.below i
    rw [ha.prime] at hb
    have hbl : ∀ x ∈ (s.obj i).fields, x < s.P + 1 := fun x hx => by have := hb x hx; omega
    by_cases hP : s.P = 0
    · have hk0 : k = 0 := by omega
      subst hk0
      have hf0 : (s.obj i).fields = [] := by
        cases hf : (s.obj i).fields with
        | nil => rfl
        | cons a l => exact absurd (hb a (by rw [hf]; simp)) (by omega)
      have hb1 := hk.single.set .broken
      have hz1 := hb1.set .zero
      have hbk : ∀ o : Obj, QOk o ((Op.openState 0).run (s.disk i)) := fun o => ⟨0, _, hb1, rfl, Or.inr (Or.inr rfl)⟩
      refine inv_act h ha _ _ _ ?_ ⟨0, ?_⟩ (h.sorted i) hbl (Or.inl ?_)
      · rw [show zeroOps s.P = [.openState 0, .writeState 0 .zero] by unfold zeroOps; rw [if_pos hP]]
        refine ⟨⟨0, _, hk.single, hk.valid, Or.inr (Or.inl rfl)⟩, hbk _, ?_⟩
        refine AllPrefix.neutral QOk.congr (newProbeOps_neutral _) ⟨0, .zero, hz1, trivial, Or.inl ?_⟩
        simp [hP]
      · rw [show zeroOps s.P = [.openState 0, .writeState 0 .zero] by unfold zeroOps; rw [if_pos hP], runOps_append]
        have h3 : Single (runOps (runOps (s.disk i) [.openState 0, .writeState 0 .zero]) (newProbeOps s.P)) 0 .zero :=
          hz1.congr (runOps_neutral (newProbeOps_neutral _) _)
        refine ⟨?_, ?_, ?_, ?_, ?_, ?_, ?_⟩
        · simpa [hP] using h3
        · simp [hP, CValid]
        · simp [hP]
        · simp [hP, hf0, Content.fields]
        · simp [hP]
        · intro _; right; simp [hP]
        · intro _; simp
      · show (if s.P = 0 then Content.zero else (s.obj i).saved).fields = (s.obj i).saved.fields
        rw [if_pos hP, ← hk.fields, hf0]; rfl
    · have hi := hk2 hP
      have hm := hk.single.move (s.P - 1) s.P
      rw [if_pos (by omega)] at hm
      have hv : CValid s.P (s.obj i).saved := hk.valid.mono hi hk.notBroken (by omega)
      refine inv_act h ha _ _ _ ?_ ⟨s.P, ?_⟩ (h.sorted i) hbl (Or.inl ?_)
      · rw [show zeroOps s.P = [.moveState (s.P - 1) s.P] by unfold zeroOps; rw [if_neg hP]]
        refine ⟨⟨k, _, hk.single, hk.valid, Or.inr (Or.inl rfl)⟩, ?_⟩
        exact AllPrefix.neutral QOk.congr (newProbeOps_neutral _) ⟨s.P, _, hm, hv, Or.inr (Or.inl rfl)⟩
      · rw [show zeroOps s.P = [.moveState (s.P - 1) s.P] by unfold zeroOps; rw [if_neg hP], runOps_append]
        have h3 : Single (runOps (runOps (s.disk i) [.moveState (s.P - 1) s.P]) (newProbeOps s.P)) s.P (s.obj i).saved :=
          hm.congr (runOps_neutral (newProbeOps_neutral _) _)
        refine ⟨?_, ?_, ?_, ?_, ?_, ?_, ?_⟩
        · simpa [hP] using h3
        · simpa [hP] using hv
        · simpa [hP] using hk.notBroken
        · simpa [hP] using hk.fields
        · simpa [hP] using fun _ _ => hi
        · intro _; right; simpa [hP] using hi
        · intro _; simp
      · simp [hP]
  | skipSave i ha =>
    obtain ⟨k, hk, -, -⟩ := ha.good h
    have hb := h.below i
    rw [ha.prime] at hb
    obtain ⟨h1, h2⟩ := save_good h ha { s.obj i with prime := s.P + 1, saved := .state (s.obj i).fields false, prev := (s.obj i).saved }
      (.state (s.obj i).fields false) (newProbeOps s.P) (newProbeOps_neutral _) (cvalid_state (h.sorted i) (fun x hx => by have := hb x hx; omega) false) (by simp) (by simp) rfl rfl rfl (fun _ => rfl)
    refine inv_act h ha _ _ s.zeros h1 h2 (h.sorted i) (fun x hx => by have := hb x hx; show x < s.P + 1; omega) (Or.inl hk.fields)
  | skip i ha h0 =>
    obtain ⟨k, hk, hk1, hk2⟩ := ha.good h
    have hb := h.below i
    rw [ha.prime] at hb
    refine inv_act h ha _ _ s.zeros ?_ ⟨k, ?_⟩ (h.sorted i) (fun x hx => by have := hb x hx; show x < s.P + 1; omega) (Or.inl rfl)
    · exact AllPrefix.neutral QOk.congr (newProbeOps_neutral _) ⟨k, _, hk.single, hk.valid, Or.inl rfl⟩
    · refine ⟨hk.single.congr (runOps_neutral (newProbeOps_neutral _) _), hk.valid, hk.notBroken, hk.fields, hk.done_not, ?_, ?_⟩
      · intro _
        refine Or.inr ⟨hk2 h0, Or.inr ⟨?_, rfl⟩⟩
        show k + 2 = s.P + 1
        omega
      · intro _; show s.P ≤ s.P + 1; omega
  | finish i ha =>
    obtain ⟨k, hk, -, -⟩ := ha.good h
    have hb := h.below i
    have hb' := hb
    rw [ha.prime] at hb
    obtain ⟨h1, h2⟩ := save_good h ha { s.obj i with done := true, saved := .state (s.obj i).fields true, prev := (s.obj i).saved }
      (.state (s.obj i).fields true) [] (by simp) (cvalid_state (h.sorted i) (fun x hx => by have := hb x hx; omega) true) (by simp) (by simp) rfl rfl rfl (fun hd => by cases hd)
    rw [List.append_nil] at h1 h2
    exact inv_act h ha _ _ s.zeros h1 h2 (h.sorted i) hb' (Or.inl hk.fields)
  | store i ha m =>
    obtain ⟨k, hk, -, -⟩ := ha.good h
    have hn : ∀ o ∈ [Op.appendProbe (s.obj i).prime (List.replicate m s.P)], o.Neutral := by
      intro o ho; rw [List.mem_singleton] at ho; subst ho; trivial
    have e : { s with todo := Function.update s.todo i [.appendProbe (s.obj i).prime (List.replicate m s.P)] } =
        { s.act i (s.obj i) [.appendProbe (s.obj i).prime (List.replicate m s.P)] with zeros := s.zeros } := by
      unfold Sys.act; simp
    rw [e]
    refine inv_act h ha _ _ s.zeros ?_ ⟨k, ?_⟩ (h.sorted i) (h.below i) (h.lost i)
    · exact AllPrefix.neutral QOk.congr hn hk.qok
    · exact ⟨hk.single.congr (runOps_neutral hn _), hk.valid, hk.notBroken, hk.fields, hk.done_not, hk.rel, hk.ge⟩
  | next up open_ main todo hd =>
    refine ⟨?_, ?_, fun hu => absurd (hu.symm.trans up) (by simp), Or.inr todo, h.kept, h.sorted, h.below, h.lost⟩
    · intro i
      have := (change_good h up open_ main todo hd i [] (by simp)).1
      unfold Sys.pending
      simp only [todo i, pend_forAll]
      simpa using this
    · intro _ _ i
      have := (change_good h up open_ main todo hd i [] (by simp)).2
      unfold Sys.pending
      simp only [todo i, pend_forAll]
      simpa using this
  | nextStop up open_ main todo hd =>
    refine ⟨?_, ?_, fun hu => absurd (hu.symm.trans up) (by simp), Or.inr todo, h.kept, h.sorted, h.below, h.lost⟩
    · intro i
      have := (change_good h up open_ main todo hd i (stopOps (s.P + 1)) (stopOps_shift _)).1
      unfold Sys.pending
      simp only [todo i, pend_append, pend_forAll]
      simpa using this
    · intro _ hc; cases hc
  | stop up open_ change main todo hd =>
    refine ⟨?_, ?_, fun hu => absurd (hu.symm.trans up) (by simp), Or.inr todo, h.kept, h.sorted, h.below, h.lost⟩
    · intro i
      obtain ⟨k, hk⟩ := h.good up open_ i
      have e : s.pending i = [] := by unfold Sys.pending; rw [todo, main]; rfl
      rw [e] at hk
      unfold Sys.pending
      simp only [todo i, pend_forAll, List.nil_append]
      exact shift_ok (stopOps_shift _) hk.single hk.valid (hk.done_not (hd i)) hk.notBroken (fun d k a b => ⟨k, _, a, b, Or.inl rfl⟩)
    · intro _ hc; cases hc
  | crash =>
    refine ⟨?_, ?_, fun _ => ⟨fun _ => rfl, rfl, rfl⟩, Or.inl rfl, h.kept, h.sorted, h.below, h.lost⟩
    · intro i; exact (h.q i).head
    · intro hu; cases hu
  | resume down num obj pnum labels found P hle hmem =>
    obtain ⟨ht, hm, hc⟩ := h.down down
    have hp : ∀ i, Sys.pending { s with up := true, P := P, obj := obj, change := decide (∀ i, (obj i).saved ≠ .initial) } i = [] := by
      intro i; unfold Sys.pending; simp only [ht i, hm]; rfl
    have key : ∀ i, ∃ c, Single (s.disk i) (num i) c ∧ CValid (num i) c ∧ loadObj (num i) c = some (obj i) := by
      intro i
      obtain ⟨k, c, h1, h2, -⟩ := (h.q i).head
      obtain ⟨c', e1, e2⟩ := (found i).state
      have hk := h1.2 (num i) (by rw [e1]; simp)
      subst hk
      have : c' = c := by have := e1.symm.trans h1.1; simpa using this
      subst this
      exact ⟨c', h1, h2, e2⟩
    have key2 : ∀ i, ∃ k, Good P (obj i) (s.disk i) k ∧ (obj i).fields.Pairwise (· < ·) ∧ (∀ x ∈ (obj i).fields, x < (obj i).prime) ∧ (obj i).saved = (obj i).prev := by
      intro i
      obtain ⟨c, h1, h2, h3⟩ := key i
      have hP := hle i
      refine ⟨num i, ?_⟩
      cases c with
      | broken => cases h3
      | initial =>
        have h0 : num i = 0 := h2
        simp only [loadObj, Option.some.injEq] at h3
        rw [← h3]
        exact ⟨⟨h1, h2, by simp, rfl, by simp, fun _ => Or.inl ⟨rfl, rfl⟩, fun _ => by omega⟩, List.Pairwise.nil, by simp, rfl⟩
      | zero =>
        simp only [loadObj, Option.some.injEq] at h3
        rw [← h3]
        exact ⟨⟨h1, h2, by simp, rfl, by simp, fun _ => Or.inr ⟨by simp, Or.inl rfl⟩, fun _ => by show P ≤ num i + 1; omega⟩, List.Pairwise.nil, by simp, rfl⟩
      | state f d =>
        simp only [loadObj, Option.some.injEq] at h3
        rw [← h3]
        exact ⟨⟨h1, h2, by simp, rfl, by simp, fun _ => Or.inr ⟨by simp, Or.inl rfl⟩, fun _ => by show P ≤ num i + 1; omega⟩, h2.1, fun x hx => by have := h2.2 x hx; show x < num i + 1; omega, rfl⟩
    refine ⟨?_, ?_, fun hu => (by cases hu), Or.inl hm, fun i => ?_, fun i => ?_, fun i => ?_, fun i => Or.inl ?_⟩
    · intro i
      rw [hp]
      obtain ⟨k, hk, -⟩ := key2 i
      exact hk.qok
    · intro _ _ i
      rw [hp]
      obtain ⟨k, hk, -⟩ := key2 i
      exact ⟨k, hk⟩
    · obtain ⟨k, h0, -⟩ := key2 i; exact h0.fields
    · obtain ⟨k, -, h1, -⟩ := key2 i; exact h1
    · obtain ⟨k, -, -, h1, -⟩ := key2 i; exact h1
    · obtain ⟨k, -, -, -, h1⟩ := key2 i
      show (obj i).saved.fields = (obj i).prev.fields
      rw [h1]

lemma inv_reach {N : ℕ} {s : Sys N} (h : Reach s) : Inv s := by
  induction h with
  | start => exact inv_start N
  | step _ h2 ih => exact inv_step ih h2

end FireFly.Crash
