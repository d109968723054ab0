import Verif.Lemmas.CrashInv
/-! The invariant of the files of the probes, for crashes outside of the critical sections. -/
set_option linter.all false
namespace FireFly.Crash

/-- The process may end in this state without consequences: no object is carrying out operations on its files, the operations at the end of a run are
complete if they have begun, and the state file of each unfinished function has the number of the last prime field. -/
structure Quiet {N : ℕ} (s : Sys N) : Prop where
  todo : ∀ i, s.todo i = []
  closing : s.closing = true → s.main = []
  number : ∀ i, s.closing = false → (s.obj i).done = false → (s.disk i).state ((s.obj i).prime - 1) ≠ none

/-- Any number of steps, the process ends in quiet states only. -/
inductive CalmReach {N : ℕ} : Sys N → Prop
  | start : CalmReach (start N)
  | step {s t : Sys N} : CalmReach s → Step s t → (s.up = true → t.up = false → Quiet s) → CalmReach t

lemma CalmReach.reach {N : ℕ} {s : Sys N} (h : CalmReach s) : Reach s := by
  induction h with
  | start => exact Reach.start
  | step _ h2 _ ih => exact Reach.step ih h2

/-- There is exactly one file of probes, with number `j` and content `l`. -/
def PSingle (d : Disk) (j : ℕ) (l : List ℕ) : Prop := d.probe j = some l ∧ ∀ j', d.probe j' ≠ none → j' = j

lemma PSingle.congr {d d' : Disk} {j : ℕ} {l : List ℕ} (h : PSingle d j l) (e : d'.probe = d.probe) : PSingle d' j l := by
  unfold PSingle; rw [e]; exact h

lemma Single.unique {d : Disk} {k k' : ℕ} {c c' : Content} (h : Single d k c) (h' : Single d k' c') : k = k' ∧ c = c' := by
  have e := h'.2 k (by rw [h.1]; simp)
  subst e
  have := h.1.symm.trans h'.1
  exact ⟨rfl, by simpa using this⟩

lemma PSingle.unique {d : Disk} {k k' : ℕ} {c c' : List ℕ} (h : PSingle d k c) (h' : PSingle d k' c') : k = k' ∧ c = c' := by
  have e := h'.2 k (by rw [h.1]; simp)
  subst e
  have := h.1.symm.trans h'.1
  exact ⟨rfl, by simpa using this⟩

lemma saveOps_probe (d : Disk) (k : ℕ) (c : Content) : (runOps d (saveOps k c)).probe = d.probe := by
  unfold saveOps
  split_ifs
  · simp only [List.cons_append, List.nil_append, runOps_cons, runOps_nil, Op.run]
    split <;> rfl
  · simp only [List.cons_append, List.nil_append, runOps_cons, runOps_nil, Op.run]
    split <;> rfl

lemma zeroOps_probe (d : Disk) (k : ℕ) : (runOps d (zeroOps k)).probe = d.probe := by
  unfold zeroOps
  split_ifs <;> rfl

lemma newProbeOps_psingle {d : Disk} {k : ℕ} {l : List ℕ} (h : PSingle d k l) : PSingle (runOps d (newProbeOps k)) (k + 1) [] := by
  have e1 : (Op.probeToTmp k (k + 1)).run d = { d with probe := Function.update d.probe k none, tmpProbe := Function.update d.tmpProbe (k + 1) (some l) } := by
    simp only [Op.run, h.1]
  unfold newProbeOps
  rw [runOps_cons, e1, runOps_cons]
  set d2 := (Op.createProbe (k + 1)).run { d with probe := Function.update d.probe k none, tmpProbe := Function.update d.tmpProbe (k + 1) (some l) } with hd2
  have hp2 : d2.probe = Function.update (Function.update d.probe k none) (k + 1) (some []) := rfl
  have hall : ∀ j, j ≠ k + 1 → d2.probe j = none := by
    intro j hj
    rw [hp2, Function.update_of_ne hj]
    by_cases e : j = k
    · subst e; simp
    · rw [Function.update_of_ne e]
      by_contra hn
      exact e (h.2 j hn)
  have h2 : d2.probe (k + 1) = some [] := by rw [hp2]; simp
  have e3 : (Op.probeToTmp (k + 1) (k + 1)).run d2 = { d2 with probe := Function.update d2.probe (k + 1) none, tmpProbe := Function.update d2.tmpProbe (k + 1) (some []) } := by
    simp only [Op.run, h2]
  rw [runOps_cons, e3, runOps_cons, runOps_nil]
  simp only [Op.run, Function.update_self]
  constructor
  · simp
  · intro j hj
    by_contra hn
    simp only [] at hj
    rw [Function.update_of_ne hn, Function.update_of_ne hn] at hj
    exact hj (hall j hn)

/-- The positions of the files of a function. -/
structure Pos (o : Obj) (d : Disk) (B k j : ℕ) (l : List ℕ) : Prop where
  single : Single d k o.saved
  psingle : PSingle d j l
  notBroken : o.saved ≠ .broken
  label : o.done = false → j = o.prime ∧ ∀ x ∈ l, x = o.prime
  doneForm : o.done = true → (∃ f, o.saved = .state f true) ∨ (o.saved = .zero ∧ 2 ≤ k)
  init : o.saved = .initial → B = 0 ∧ o.prime = 0
  pos : o.done = false → o.saved ≠ .initial → 1 ≤ o.prime
  k1 : B ≤ k + 1
  k2 : k ≤ B
  j1 : k ≤ j
  j2 : j ≤ B + 1

/-- What is found on the disk after a crash. -/
def DownOk (B : ℕ) (d : Disk) : Prop :=
  ∃ k c j l o, Single d k c ∧ PSingle d j l ∧ loadObj k c = some o ∧ (o.done = false → j = o.prime ∧ ∀ x ∈ l, x = o.prime) ∧
    (c = .initial → B = 0) ∧ B ≤ k + 1 ∧ k ≤ B ∧ k ≤ j ∧ j ≤ B + 1

def Sys.field {N : ℕ} (s : Sys N) : ℕ := if s.change = true then s.P + 1 else s.P

structure CInv {N : ℕ} (s : Sys N) : Prop where
  idle : s.up = true → s.closing = false → ∀ i, ∃ k j l, Pos (s.obj i) (runOps (s.disk i) (s.pending i)) s.field k j l ∧ (s.change = false → s.P ≤ j)
  zc : s.up = true → ∀ i, (s.obj i).done = false → (s.obj i).zeroCounter ≤ (s.obj i).prime ∧
    ((s.obj i).zeroCounter = (s.obj i).prime → (s.obj i).prime = 0 ∨ (s.obj i).saved = .zero)
  mid : s.up = true → s.closing = false → s.main ≠ [] → ∃ B, ∀ i, AllPrefix (fun d => ∃ k j l, Pos (s.obj i) d B k j l) (s.disk i) (pend i s.main)
  closed : s.up = true → s.closing = true → ∀ i, ∃ c, c ≠ .broken ∧ c ≠ .initial ∧ Single (runOps (s.disk i) (s.pending i)) s.P c ∧
    PSingle (runOps (s.disk i) (s.pending i)) (s.P + 1) []
  down : s.up = false → ∃ B, ∀ i, DownOk B (s.disk i)

lemma cinv_start (N : ℕ) : CInv (start N) := by
  refine ⟨?_, ?_, ?_, ?_, ?_⟩
  · intro _ _ i
    refine ⟨0, 0, [], ⟨⟨by simp [start, Sys.pending, pend], ?_⟩, ⟨by simp [start, Sys.pending, pend], ?_⟩, by simp [start], fun _ => ⟨rfl, by simp⟩, by simp [start], fun _ => ⟨rfl, rfl⟩, by simp [start], by simp [Sys.field, start], by simp, by simp, by simp⟩, fun _ => le_refl _⟩
    · intro k' hk'
      by_contra hn
      simp [start, Sys.pending, pend, Function.update_of_ne hn] at hk'
    · intro k' hk'
      by_contra hn
      simp [start, Sys.pending, pend, Function.update_of_ne hn] at hk'
  · intro _ i _; exact ⟨le_refl _, fun _ => Or.inl rfl⟩
  · intro _ _ h; exact absurd rfl h
  · intro _ h; cases h
  · intro h; cases h

/-- An object begins operations. -/
lemma cinv_act {N : ℕ} {s : Sys N} (h : CInv s) {i : Fin N} (ha : s.Active i) (o : Obj) (ops : List Op) (z : Fin N → List ℕ)
    (hg : ∃ k j l, Pos o (runOps (s.disk i) ops) s.P k j l ∧ s.P ≤ j)
    (hz : o.done = false → o.zeroCounter ≤ o.prime ∧ (o.zeroCounter = o.prime → o.prime = 0 ∨ o.saved = .zero)) :
    CInv { s.act i o ops with zeros := z } := by
  have hp : ∀ j, Sys.pending { s.act i o ops with zeros := z } j = if j = i then ops else s.pending j := by
    intro j
    unfold Sys.pending Sys.act
    simp only
    by_cases e : j = i
    · subst e; simp [ha.main, pend]
    · simp [e]
  have ho : ∀ j, (Sys.obj { s.act i o ops with zeros := z } j) = if j = i then o else s.obj j := by
    intro j
    unfold Sys.act
    by_cases e : j = i
    · subst e; simp
    · simp [e]
  have hf : Sys.field { s.act i o ops with zeros := z } = s.field := rfl
  have hfP : s.field = s.P := by unfold Sys.field; rw [ha.change]; rfl
  constructor
  · intro _ _ j
    rw [hp, ho, hf]
    show ∃ k j' l, Pos _ (runOps (s.disk j) _) s.field k j' l ∧ (s.change = false → s.P ≤ j')
    split_ifs with e
    · subst e
      obtain ⟨k, j', l, h1, h2⟩ := hg
      exact ⟨k, j', l, by rw [hfP]; exact h1, fun _ => h2⟩
    · exact h.idle ha.up ha.open_ j
  · intro _ j
    rw [ho]
    split_ifs with e
    · exact hz
    · exact h.zc ha.up j
  · intro _ _ hm; exact absurd ha.main hm
  · intro _ hc
    have : s.closing = true := hc
    rw [ha.open_] at this; cases this
  · intro hu
    have : s.up = false := hu
    rw [ha.up] at this; cases this

lemma Sys.Active.pos {N : ℕ} {s : Sys N} (h : CInv s) {i : Fin N} (ha : s.Active i) :
    ∃ k l, Pos (s.obj i) (s.disk i) s.P k s.P l := by
  obtain ⟨k, j, l, h1, h2⟩ := h.idle ha.up ha.open_ i
  have e : s.pending i = [] := by unfold Sys.pending; rw [ha.todo, ha.main]; rfl
  have hfP : s.field = s.P := by unfold Sys.field; rw [ha.change]; rfl
  rw [e, hfP] at h1
  have hj := (h1.label ha.unfinished).1
  rw [ha.prime] at hj
  subst hj
  exact ⟨k, l, h1⟩

/-- saving a state and beginning a new file of probes -/
lemma save_pos {N : ℕ} {s : Sys N} (hb : Inv s) (h : CInv s) {i : Fin N} (ha : s.Active i) (o : Obj) (c : Content) 
    (hci : c ≠ .initial) (hcb : c ≠ .broken) (hs : o.saved = c) (hd : o.done = false) (hp : o.prime = s.P + 1) (hcv : CValid s.P c) :
    ∃ k j l, Pos o (runOps (s.disk i) (saveOps s.P c ++ newProbeOps s.P)) s.P k j l ∧ s.P ≤ j := by
  obtain ⟨k, hk, hk1, hk2⟩ := ha.good hb
  obtain ⟨k', l, hp1⟩ := ha.pos h
  have h2 := (saveOps_ok hk.single hk.valid hk1 hcv hk2 hk.notBroken (fun _ => True) (fun _ _ _ => trivial)).2
  have h3 : PSingle (runOps (s.disk i) (saveOps s.P c)) s.P l := hp1.psingle.congr (saveOps_probe _ _ _)
  have h4 := newProbeOps_psingle h3
  have h5 : Single (runOps (runOps (s.disk i) (saveOps s.P c)) (newProbeOps s.P)) s.P c := h2.congr (runOps_neutral (newProbeOps_neutral _) _)
  rw [runOps_append]
  refine ⟨s.P, s.P + 1, [], ⟨by rw [hs]; exact h5, h4, by rw [hs]; exact hcb, fun _ => ⟨hp.symm, by simp⟩, by rw [hd]; simp, by rw [hs]; intro e; exact absurd e hci, fun _ _ => by omega, by omega, le_refl _, by omega, le_refl _⟩, by omega⟩

/-- a change of the prime field -/
lemma change_pos {N : ℕ} {s : Sys N} (h : CInv s) (up : s.up = true) (open_ : s.closing = false) (main : s.main = []) (todo : ∀ i, s.todo i = [])
    (hd : ∀ i, (s.obj i).done = true ∨ s.P < (s.obj i).prime) (i : Fin N) :
    AllPrefix (fun d => ∃ k j l, Pos (s.obj i) d s.field k j l) (s.disk i) (changeOps s.P) ∧
    ∃ k j l, Pos (s.obj i) (runOps (s.disk i) (changeOps s.P)) (s.P + 1) k j l ∧ s.P + 1 ≤ j := by
  obtain ⟨k, j, l, hk, hj⟩ := h.idle up open_ i
  have e : s.pending i = [] := by unfold Sys.pending; rw [todo, main]; rfl
  rw [e, runOps_nil] at hk
  have hi : (s.obj i).saved ≠ .initial := by
    intro hi
    have h1 := (hk.init hi).2
    rcases hd i with h2 | h2
    · rcases hk.doneForm h2 with ⟨f, h3⟩ | ⟨h3, -⟩ <;> (rw [hi] at h3; cases h3)
    · omega
  have hun : (s.obj i).done = false → s.P < j := by
    intro h1
    rw [(hk.label h1).1]
    rcases hd i with h2 | h2
    · rw [h1] at h2; cases h2
    · exact h2
  have hfield : (s.change = true ∧ s.field = s.P + 1) ∨ (s.change = false ∧ s.field = s.P) := by
    unfold Sys.field
    cases s.change <;> simp
  have hPj : s.P ≤ j := by
    rcases hfield with ⟨h1, h2⟩ | ⟨h1, h2⟩
    · have := hk.k1; have := hk.j1; omega
    · exact hj h1
  have hj2 := hk.j2
  have hk1 := hk.k1
  have hk2 := hk.k2
  have hj1 := hk.j1
  -- after the file of the probes has been moved
  have hm1 : PSingle ((Op.moveProbe s.P (s.P + 1)).run (s.disk i)) (if j = s.P then s.P + 1 else j) l := move_single hk.psingle.1 hk.psingle.2 _ _
  have hs1 : Single ((Op.moveProbe s.P (s.P + 1)).run (s.disk i)) k (s.obj i).saved := hk.single.congr rfl
  have hlab : (s.obj i).done = false → (if j = s.P then s.P + 1 else j) = (s.obj i).prime ∧ ∀ x ∈ l, x = (s.obj i).prime := by
    intro h1
    have := hun h1
    rw [if_neg (by omega)]
    exact hk.label h1
  have hp1 : Pos (s.obj i) ((Op.moveProbe s.P (s.P + 1)).run (s.disk i)) s.field k (if j = s.P then s.P + 1 else j) l :=
    ⟨hs1, hm1, hk.notBroken, hlab, hk.doneForm, hk.init, hk.pos, hk1, hk2, by split_ifs <;> omega, by split_ifs <;> rcases hfield with ⟨_, h2⟩ | ⟨_, h2⟩ <;> omega⟩
  unfold changeOps
  by_cases hP : s.P > 0
  · rw [if_pos hP]
    have hs2 := hs1.move (s.P - 1) s.P
    have hm2 : PSingle ((Op.moveState (s.P - 1) s.P).run ((Op.moveProbe s.P (s.P + 1)).run (s.disk i))) (if j = s.P then s.P + 1 else j) l := hm1.congr rfl
    have hdf : ∀ k', k ≤ k' → (s.obj i).done = true → (∃ f, (s.obj i).saved = .state f true) ∨ ((s.obj i).saved = .zero ∧ 2 ≤ k') := by
      intro k' hkk hdn
      rcases hk.doneForm hdn with h1 | ⟨h1, h2⟩
      · exact Or.inl h1
      · exact Or.inr ⟨h1, by omega⟩
    have hp2 : Pos (s.obj i) ((Op.moveState (s.P - 1) s.P).run ((Op.moveProbe s.P (s.P + 1)).run (s.disk i))) s.field (if k = s.P - 1 then s.P else k) (if j = s.P then s.P + 1 else j) l :=
      ⟨hs2, hm2, hk.notBroken, hlab, hdf _ (by split_ifs <;> omega), hk.init, hk.pos, by split_ifs <;> omega,
        by split_ifs <;> rcases hfield with ⟨_, h2⟩ | ⟨_, h2⟩ <;> omega, by split_ifs <;> omega, hp1.j2⟩
    refine ⟨⟨⟨k, j, l, hk⟩, ⟨_, _, _, hp1⟩, ⟨_, _, _, hp2⟩⟩, _, _, l, ⟨hs2, hm2, hk.notBroken, hlab, hp2.doneForm, fun e => absurd e hi, hk.pos, ?_, ?_, hp2.j1, ?_⟩, ?_⟩
    all_goals (split_ifs <;> rcases hfield with ⟨_, h2⟩ | ⟨_, h2⟩ <;> omega)
  · rw [if_neg hP]
    refine ⟨⟨⟨k, j, l, hk⟩, ⟨_, _, _, hp1⟩⟩, _, _, l, ⟨hs1, hm1, hk.notBroken, hlab, hk.doneForm, fun e => absurd e hi, hk.pos, ?_, ?_, hp1.j1, ?_⟩, ?_⟩
    all_goals (try split_ifs) <;> rcases hfield with ⟨_, h2⟩ | ⟨_, h2⟩ <;> omega

/-- the end of a run -/
lemma stop_pos {o : Obj} {d : Disk} {P k j : ℕ} {l : List ℕ} (h1 : Single d k o.saved) (h2 : PSingle d j l) (hk1 : P ≤ k + 1) (hk2 : k ≤ P) (hj1 : P ≤ j) (hj2 : j ≤ P + 1) :
    Single (runOps d (stopOps P)) P o.saved ∧ PSingle (runOps d (stopOps P)) (P + 1) [] := by
  set d2 := (Op.createProbe (P + 1)).run ((Op.removeProbe P).run d) with hd2
  have hs : Single d2 k o.saved := h1.congr rfl
  have hp : PSingle d2 (P + 1) [] := by
    have e : d2.probe = Function.update (Function.update d.probe P none) (P + 1) (some []) := rfl
    refine ⟨by rw [e]; simp, ?_⟩
    intro j' hj'
    by_contra hn
    rw [e, Function.update_of_ne hn] at hj'
    by_cases e' : j' = P
    · subst e'; simp at hj'
    · rw [Function.update_of_ne e'] at hj'
      have := h2.2 j' hj'
      omega
  unfold stopOps
  by_cases hP : P > 0
  · rw [if_pos hP]
    have := hs.move (P - 1) P
    refine ⟨?_, hp.congr rfl⟩
    have e : (if k = P - 1 then P else k) = P := by split_ifs <;> omega
    rw [e] at this
    exact this
  · rw [if_neg hP]
    have : k = P := by omega
    subst this
    exact ⟨hs, hp⟩

end FireFly.Crash
