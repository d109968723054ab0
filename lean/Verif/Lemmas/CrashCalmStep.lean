import Verif.Lemmas.CrashCalm
/-! The invariant of the files of the probes holds after calm steps. -/
set_option linter.all false
namespace FireFly.Crash

lemma cinv_step {N : ℕ} {s t : Sys N} (hb : Inv s) (h : CInv s) (hst : Step s t) (hq : s.up = true → t.up = false → Quiet s) : CInv t := by
  cases hst with
  | op i o os up htodo =>
    have hmain : s.main = [] := by
      rcases hb.excl with h1 | h1
      · exact h1
      · rw [h1 i] at htodo; cases htodo
    have hp : ∀ j, runOps (Function.update s.disk i (o.run (s.disk i)) j) (Sys.pending { s with disk := Function.update s.disk i (o.run (s.disk i)), todo := Function.update s.todo i os } j) =
        runOps (s.disk j) (s.pending j) := by
      intro j
      unfold Sys.pending
      by_cases e : j = i
      · subst e; simp [htodo, runOps_cons]
      · simp [e]
    refine ⟨?_, h.zc, ?_, ?_, ?_⟩
    · intro hu hc j
      rw [hp]
      exact h.idle hu hc j
    · intro _ _ hm; exact absurd hmain hm
    · intro hu hc j
      rw [hp]
      exact h.closed hu hc j
    · intro hu
      have : s.up = false := hu
      rw [up] at this; cases this
  | mainOp i o os up hmain =>
    have htodo : ∀ j, s.todo j = [] := by
      rcases hb.excl with h1 | h1
      · rw [h1] at hmain; cases hmain
      · exact h1
    have hps : ∀ j, pend j s.main = if j = i then o :: pend j os else pend j os := by
      intro j
      rw [hmain]
      unfold pend
      by_cases e : j = i
      · subst e; simp
      · simp [e, Ne.symm e]
    have hp : ∀ j, runOps (Function.update s.disk i (o.run (s.disk i)) j) (Sys.pending { s with disk := Function.update s.disk i (o.run (s.disk i)), main := os } j) =
        runOps (s.disk j) (s.pending j) := by
      intro j
      unfold Sys.pending
      simp only [htodo, List.nil_append, hps]
      by_cases e : j = i
      · subst e; simp [runOps_cons]
      · simp [e]
    refine ⟨?_, h.zc, ?_, ?_, ?_⟩
    · intro hu hc j
      rw [hp]
      exact h.idle hu hc j
    · intro hu hc hm
      obtain ⟨B, hB⟩ := h.mid hu hc (by rw [hmain]; simp)
      refine ⟨B, fun j => ?_⟩
      have := hB j
      rw [hps] at this
      simp only
      by_cases e : j = i
      · subst e
        rw [if_pos rfl] at this
        simpa using this.2
      · simpa [e] using this
    · intro hu hc j
      rw [hp]
      exact h.closed hu hc j
    · intro hu
      have : s.up = false := hu
      rw [up] at this; cases this
  | field i ha =>
    have hbl := hb.below i
    rw [ha.prime] at hbl
    have hz := h.zc ha.up i ha.unfinished
    rw [ha.prime] at hz
    refine cinv_act h ha _ _ s.zeros ?_ (fun _ => ⟨?_, ?_⟩)
    · refine save_pos hb h ha _ _ (by simp) (by simp) rfl ha.unfinished rfl (cvalid_state (pairwise_snoc (hb.sorted i) hbl) ?_ false)
      intro x hx
      rcases List.mem_append.mp hx with hx | hx
      · exact (hbl x hx).le
      · rw [List.mem_singleton] at hx; omega
    · show (s.obj i).zeroCounter ≤ s.P + 1
      omega
    · intro e
      have : (s.obj i).zeroCounter = s.P + 1 := e
      omega
  | skipSave i ha =>
    have hbl := hb.below i
    rw [ha.prime] at hbl
    have hz := h.zc ha.up i ha.unfinished
    rw [ha.prime] at hz
    refine cinv_act h ha _ _ s.zeros ?_ (fun _ => ⟨?_, ?_⟩)
    · exact save_pos hb h ha _ _ (by simp) (by simp) rfl ha.unfinished rfl (cvalid_state (hb.sorted i) (fun x hx => (hbl x hx).le) false)
    · show (s.obj i).zeroCounter ≤ s.P + 1
      omega
    · intro e
      have : (s.obj i).zeroCounter = s.P + 1 := e
      omega
  | zero i ha =>
    obtain ⟨k, hk, hk1, hk2⟩ := ha.good hb
    obtain ⟨k', l, hp1⟩ := ha.pos h
    have hz := h.zc ha.up i ha.unfinished
    rw [ha.prime] at hz
    have h3 : PSingle (runOps (s.disk i) (zeroOps s.P)) s.P l := hp1.psingle.congr (zeroOps_probe _ _)
    have h4 := newProbeOps_psingle h3
    have h5 : Single (runOps (s.disk i) (zeroOps s.P)) s.P (if s.P = 0 then .zero else (s.obj i).saved) := by
      unfold zeroOps
      by_cases hP : s.P = 0
      · rw [if_pos hP, if_pos hP, hP]
        have hk0 : k = 0 := by omega
        rw [hk0] at hk
        exact (hk.single.set .broken).set .zero
      · rw [if_neg hP, if_neg hP]
        have hm := hk.single.move (s.P - 1) s.P
        rw [if_pos (by omega)] at hm
        exact hm
    have h6 : Single (runOps (runOps (s.disk i) (zeroOps s.P)) (newProbeOps s.P)) s.P (if s.P = 0 then .zero else (s.obj i).saved) := h5.congr (runOps_neutral (newProbeOps_neutral _) _)
    refine cinv_act h ha _ _ _ ⟨s.P, s.P + 1, [], ⟨?_, ?_, ?_, ?_, ?_, ?_, ?_, ?_, ?_, ?_, ?_⟩, ?_⟩ ?_
    · rw [runOps_append]; exact h6
    · rw [runOps_append]; exact h4
    · by_cases hP : s.P = 0
      · simp [hP]
      · simpa [hP] using hk.notBroken
    · intro _; exact ⟨rfl, by simp⟩
    · intro hd
      simp only [decide_eq_true_eq] at hd
      right
      have e : (s.obj i).zeroCounter = s.P := by omega
      rcases hz.2 e with h1 | h1
      · omega
      · refine ⟨?_, by omega⟩
        simp [h1]
    · by_cases hP : s.P = 0
      · simp [hP]
      · simpa [hP] using fun e => absurd e (hk2 hP)
    · intro _ _; simp
    · omega
    · exact le_refl _
    · omega
    · exact le_refl _
    · omega
    · intro _
      refine ⟨?_, ?_⟩
      · show (s.obj i).zeroCounter + 1 ≤ s.P + 1
        omega
      · intro e
        have e' : (s.obj i).zeroCounter = s.P := by
          have : (s.obj i).zeroCounter + 1 = s.P + 1 := e
          omega
        right
        by_cases hP : s.P = 0
        · simp [hP]
        · rcases hz.2 e' with h1 | h1
          · exact absurd h1 hP
          · simp [h1]
  | skip i ha h0 =>
    obtain ⟨k, hk, hk1, hk2⟩ := ha.good hb
    obtain ⟨k', l, hp1⟩ := ha.pos h
    have hz := h.zc ha.up i ha.unfinished
    rw [ha.prime] at hz
    refine cinv_act h ha _ _ s.zeros ⟨k', s.P + 1, [], ⟨?_, newProbeOps_psingle hp1.psingle, hp1.notBroken, fun _ => ⟨rfl, by simp⟩, hp1.doneForm, ?_, fun _ _ => by simp, hp1.k1, hp1.k2, ?_, le_refl _⟩, by omega⟩ (fun _ => ⟨?_, ?_⟩)
    · exact hp1.single.congr (runOps_neutral (newProbeOps_neutral _) _)
    · intro e; exact absurd e (hk2 h0)
    · have := hp1.k2; omega
    · show (s.obj i).zeroCounter ≤ s.P + 1
      omega
    · intro e
      have : (s.obj i).zeroCounter = s.P + 1 := e
      omega
  | finish i ha =>
    obtain ⟨k, hk, hk1, hk2⟩ := ha.good hb
    obtain ⟨k', l, hp1⟩ := ha.pos h
    have hbl := hb.below i
    rw [ha.prime] at hbl
    have h2 := (saveOps_ok hk.single hk.valid hk1 (cvalid_state (hb.sorted i) (fun x hx => (hbl x hx).le) true) hk2 hk.notBroken (fun _ => True) (fun _ _ _ => trivial)).2
    refine cinv_act h ha _ _ s.zeros ⟨s.P, s.P, l, ⟨h2, hp1.psingle.congr (saveOps_probe _ _ _), by simp, fun hd => (by cases hd), fun _ => Or.inl ⟨_, rfl⟩, by simp, fun hd => (by cases hd), by omega, le_refl _, le_refl _, by omega⟩, le_refl _⟩ (fun hd => by cases hd)
  | store i ha m =>
    obtain ⟨k, l, hp1⟩ := ha.pos h
    have e : { s with todo := Function.update s.todo i [.appendProbe (s.obj i).prime (List.replicate m s.P)] } =
        { s.act i (s.obj i) [.appendProbe (s.obj i).prime (List.replicate m s.P)] with zeros := s.zeros } := by
      unfold Sys.act; simp
    rw [e]
    refine cinv_act h ha _ _ s.zeros ⟨k, s.P, l ++ List.replicate m s.P, ⟨hp1.single.congr rfl, ⟨?_, ?_⟩, hp1.notBroken, ?_, hp1.doneForm, hp1.init, hp1.pos, hp1.k1, hp1.k2, hp1.j1, hp1.j2⟩, le_refl _⟩ (h.zc ha.up i)
    · rw [ha.prime]
      simp [runOps_cons, Op.run, hp1.psingle.1]
    · intro j' hj'
      rw [ha.prime] at hj'
      by_contra hn
      simp only [runOps_cons, Op.run, runOps_nil] at hj'
      rw [Function.update_of_ne hn] at hj'
      exact hn (hp1.psingle.2 j' hj')
    · intro hd
      refine ⟨ha.prime.symm, ?_⟩
      intro x hx
      rcases List.mem_append.mp hx with hx | hx
      · exact (hp1.label hd).2 x hx
      · rw [ha.prime]; exact (List.mem_replicate.mp hx).2
  | next up open_ main todo hd =>
    refine ⟨?_, h.zc, ?_, ?_, ?_⟩
    · intro _ _ i
      obtain ⟨k, j, l, h1, h2⟩ := (change_pos h up open_ main todo hd i).2
      refine ⟨k, j, l, ?_, fun _ => h2⟩
      unfold Sys.pending Sys.field
      simp only [todo i, pend_forAll]
      simpa using h1
    · intro _ _ _
      refine ⟨s.field, fun i => ?_⟩
      simp only [pend_forAll]
      exact (change_pos h up open_ main todo hd i).1
    · intro _ hc
      have : s.closing = true := hc
      rw [open_] at this; cases this
    · intro hu
      have : s.up = false := hu
      rw [up] at this; cases this
  | nextStop up open_ main todo hd =>
    refine ⟨?_, h.zc, ?_, ?_, ?_⟩
    · intro _ hc; cases hc
    · intro _ hc; cases hc
    · intro _ _ i
      obtain ⟨k, j, l, h1, h2⟩ := (change_pos h up open_ main todo hd i).2
      obtain ⟨h3, h4⟩ := stop_pos (P := s.P + 1) h1.single h1.psingle h1.k1 h1.k2 h2 h1.j2
      have hi : (s.obj i).saved ≠ .initial := by
        intro hi
        have := (h1.init hi).1
        omega
      refine ⟨(s.obj i).saved, h1.notBroken, hi, ?_⟩
      unfold Sys.pending
      simp only [todo i, pend_append, pend_forAll, List.nil_append, runOps_append]
      exact ⟨h3, h4⟩
    · intro hu
      have : s.up = false := hu
      rw [up] at this; cases this
  | stop up open_ change main todo hd =>
    refine ⟨?_, h.zc, ?_, ?_, ?_⟩
    · intro _ hc; cases hc
    · intro _ hc; cases hc
    · intro _ _ i
      obtain ⟨k, j, l, h1, h2⟩ := h.idle up open_ i
      have e : s.pending i = [] := by unfold Sys.pending; rw [todo, main]; rfl
      have hfP : s.field = s.P := by unfold Sys.field; rw [change]; rfl
      rw [e, hfP, runOps_nil] at h1
      obtain ⟨h3, h4⟩ := stop_pos (P := s.P) h1.single h1.psingle h1.k1 h1.k2 (h2 change) h1.j2
      have hi : (s.obj i).saved ≠ .initial := by
        intro hi
        rcases h1.doneForm (hd i) with ⟨f, h3⟩ | ⟨h3, -⟩ <;> (rw [hi] at h3; cases h3)
      refine ⟨(s.obj i).saved, h1.notBroken, hi, ?_⟩
      unfold Sys.pending
      simp only [todo i, pend_forAll, List.nil_append]
      exact ⟨h3, h4⟩
    · intro hu
      have : s.up = false := hu
      rw [up] at this; cases this
  | crash =>
    refine ⟨(fun hu => by cases hu), (fun hu => by cases hu), (fun hu => by cases hu), (fun hu => by cases hu), fun _ => ?_⟩
    show ∃ B, ∀ i, DownOk B (s.disk i)
    cases hu : s.up with
    | false => exact h.down hu
    | true =>
      have Q := hq hu rfl
      cases hc : s.closing with
      | true =>
        have hm := Q.closing hc
        refine ⟨s.P, fun i => ?_⟩
        obtain ⟨c, h1, h2, h3, h4⟩ := h.closed hu hc i
        have e : s.pending i = [] := by unfold Sys.pending; rw [Q.todo i, hm]; rfl
        rw [e, runOps_nil] at h3 h4
        cases c with
        | broken => exact absurd rfl h1
        | initial => exact absurd rfl h2
        | zero => exact ⟨s.P, _, s.P + 1, [], _, h3, h4, rfl, fun _ => ⟨rfl, by simp⟩, fun e => (by cases e), by omega, le_refl _, by omega, le_refl _⟩
        | state f d => exact ⟨s.P, _, s.P + 1, [], _, h3, h4, rfl, fun _ => ⟨rfl, by simp⟩, fun e => (by cases e), by omega, le_refl _, by omega, le_refl _⟩
      | false =>
        have hpos : ∃ B, ∀ i, ∃ k j l, Pos (s.obj i) (s.disk i) B k j l := by
          by_cases hm : s.main = []
          · refine ⟨s.field, fun i => ?_⟩
            obtain ⟨k, j, l, h1, -⟩ := h.idle hu hc i
            have e : s.pending i = [] := by unfold Sys.pending; rw [Q.todo i, hm]; rfl
            rw [e, runOps_nil] at h1
            exact ⟨k, j, l, h1⟩
          · obtain ⟨B, hB⟩ := h.mid hu hc hm
            exact ⟨B, fun i => (hB i).head⟩
        obtain ⟨B, hB⟩ := hpos
        refine ⟨B, fun i => ?_⟩
        obtain ⟨k, j, l, h1⟩ := hB i
        have hbr := h1.notBroken
        have hnum : (s.obj i).done = false → (s.obj i).prime - 1 = k := fun hd => h1.single.2 _ (Q.number i hc hd)
        cases hsv : (s.obj i).saved with
        | broken => exact absurd hsv hbr
        | initial =>
          have hs := h1.single
          rw [hsv] at hs
          have hd : (s.obj i).done = false := by
            cases hd : (s.obj i).done with
            | false => rfl
            | true => rcases h1.doneForm hd with ⟨f, h3⟩ | ⟨h3, -⟩ <;> (rw [hsv] at h3; cases h3)
          obtain ⟨hB0, hp0⟩ := h1.init hsv
          have hlab := h1.label hd
          refine ⟨k, _, j, l, _, hs, h1.psingle, rfl, fun _ => ?_, fun _ => hB0, h1.k1, h1.k2, h1.j1, h1.j2⟩
          rw [hp0] at hlab
          exact hlab
        | zero =>
          have hs := h1.single
          rw [hsv] at hs
          refine ⟨k, _, j, l, _, hs, h1.psingle, rfl, fun hl => ?_, fun e => (by cases e), h1.k1, h1.k2, h1.j1, h1.j2⟩
          cases hd : (s.obj i).done with
          | true =>
            rcases h1.doneForm hd with ⟨f, h3⟩ | ⟨-, h3⟩
            · rw [hsv] at h3; cases h3
            · simp at hl; omega
          | false =>
            have := hnum hd
            have hp := h1.pos hd (by rw [hsv]; simp)
            have hlab := h1.label hd
            rw [show (s.obj i).prime = k + 1 by omega] at hlab
            exact hlab
        | state f d =>
          have hs := h1.single
          rw [hsv] at hs
          refine ⟨k, _, j, l, _, hs, h1.psingle, rfl, fun hl => ?_, fun e => (by cases e), h1.k1, h1.k2, h1.j1, h1.j2⟩
          cases hd : (s.obj i).done with
          | true =>
            rcases h1.doneForm hd with ⟨f', h3⟩ | ⟨h3, -⟩
            · rw [hsv] at h3
              have hl' : d = false := hl
              injection h3 with _ h3
              rw [hl'] at h3; cases h3
            · rw [hsv] at h3; cases h3
          | false =>
            have := hnum hd
            have hp := h1.pos hd (by rw [hsv]; simp)
            have hlab := h1.label hd
            rw [show (s.obj i).prime = k + 1 by omega] at hlab
            exact hlab
  | resume down num obj pnum labels found P hle hmem =>
    obtain ⟨ht, hm, hc⟩ := hb.down down
    obtain ⟨B, hB⟩ := h.down down
    have hp : ∀ i, Sys.pending { s with up := true, P := P, obj := obj, change := decide (∀ i, (obj i).saved ≠ .initial) } i = [] := by
      intro i; unfold Sys.pending; simp only [ht i, hm]; rfl
    -- what is found
    have key : ∀ i, ∃ c, Single (s.disk i) (num i) c ∧ PSingle (s.disk i) (pnum i) (labels i) ∧ loadObj (num i) c = some (obj i) ∧
        ((obj i).done = false → pnum i = (obj i).prime ∧ ∀ x ∈ labels i, x = (obj i).prime) ∧ (c = .initial → B = 0) ∧
        B ≤ num i + 1 ∧ num i ≤ B ∧ num i ≤ pnum i ∧ pnum i ≤ B + 1 := by
      intro i
      obtain ⟨k, c, j, l, o, h1, h2, h3, h4, h5, h6, h7, h8, h9⟩ := hB i
      obtain ⟨c', e1, e2⟩ := (found i).state
      obtain ⟨e3, e4⟩ := h1.unique ⟨e1, (found i).state_unique⟩
      obtain ⟨e5, e6⟩ := h2.unique ⟨(found i).probe, (found i).probe_unique⟩
      subst e3 e4 e5 e6
      have e7 : o = obj i := by have := h3.symm.trans e2; simpa using this
      subst e7
      exact ⟨c, h1, h2, h3, h4, h5, h6, h7, h8, h9⟩
    obtain ⟨i0, hi0⟩ := hmem
    have hPB : B ≤ P + 1 ∧ P ≤ B := by
      obtain ⟨c, -, -, -, -, -, h6, h7, -, -⟩ := key i0
      omega
    -- the loaded objects
    have hobj : ∀ i c, loadObj (num i) c = some (obj i) → (obj i).saved = c ∧ c ≠ .broken ∧ (c = .initial → (obj i).prime = 0 ∧ (obj i).done = false) ∧
        (c ≠ .initial → (obj i).prime = num i + 1) ∧ ((obj i).done = true → (∃ f, c = .state f true) ∨ (c = .zero ∧ 2 ≤ num i)) ∧
        (obj i).zeroCounter ≤ (obj i).prime ∧ ((obj i).zeroCounter = (obj i).prime → (obj i).prime = 0 ∨ (obj i).saved = .zero) := by
      intro i c hl
      cases c with
      | broken => cases hl
      | initial =>
        simp only [loadObj, Option.some.injEq] at hl
        rw [← hl]; simp
      | zero =>
        simp only [loadObj, Option.some.injEq] at hl
        rw [← hl]
        simp
        split_ifs <;> omega
      | state f d =>
        simp only [loadObj, Option.some.injEq] at hl
        rw [← hl]; simp
    have hfld : ∀ i, (obj i).saved = .initial → B = 0 := by
      intro i hi
      obtain ⟨c, -, -, h3, -, h5, -⟩ := key i
      exact h5 ((hobj i c h3).1 ▸ hi)
    refine ⟨?_, ?_, ?_, ?_, ?_⟩
    · intro _ _ i
      rw [hp]
      obtain ⟨c, h1, h2, h3, h4, h5, h6, h7, h8, h9⟩ := key i
      obtain ⟨o1, o2, o3, o4, o5, -, -⟩ := hobj i c h3
      have hle' := hle i
      refine ⟨num i, pnum i, labels i, ⟨by rw [o1]; exact h1, h2, by rw [o1]; exact o2, h4, by rw [o1]; exact o5, ?_, ?_, ?_, ?_, h8, ?_⟩, ?_⟩
      · intro hi
        have hB0 := hfld i hi
        have hch : ¬ (∀ i, (obj i).saved ≠ .initial) := fun hh => hh i hi
        refine ⟨?_, (o3 (o1 ▸ hi)).1⟩
        unfold Sys.field
        simp only [decide_eq_true_eq]
        rw [if_neg hch]
        omega
      · intro _ hi
        rw [o4 (o1 ▸ hi)]; omega
      all_goals
        try unfold Sys.field
        simp only [decide_eq_true_eq, decide_eq_false_iff_not]
      · split_ifs with hch
        · omega
        · push Not at hch
          obtain ⟨i', hi'⟩ := hch
          have := hfld i' hi'
          omega
      · split_ifs with hch
        · omega
        · push Not at hch
          obtain ⟨i', hi'⟩ := hch
          have := hfld i' hi'
          omega
      · split_ifs with hch
        · omega
        · push Not at hch
          obtain ⟨i', hi'⟩ := hch
          have := hfld i' hi'
          omega
      · intro hch
        push Not at hch
        obtain ⟨i', hi'⟩ := hch
        have := hfld i' hi'
        omega
    · intro _ i _
      obtain ⟨c, h1, h2, h3, h4, h5, h6, h7, h8, h9⟩ := key i
      obtain ⟨-, -, -, -, -, o6, o7⟩ := hobj i c h3
      exact ⟨o6, o7⟩
    · intro _ _ hmm; exact absurd hm hmm
    · intro _ hcc
      have : s.closing = true := hcc
      rw [hc] at this; cases this
    · intro hu; cases hu

lemma cinv_reach {N : ℕ} {s : Sys N} (h : CalmReach s) : CInv s := by
  induction h with
  | start => exact cinv_start N
  | step h1 h2 h3 ih => exact cinv_step (inv_reach h1.reach) ih h2 h3

end FireFly.Crash
