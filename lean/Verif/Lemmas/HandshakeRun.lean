import Verif.Lemmas.Handshake
import Verif.Spec.Handshake
import Mathlib.Tactic.Tauto
set_option linter.all false
namespace FireFly.Handshake

theorem checked_all {b : Block} (h : b ∈ mainBlocks) : checkAll b = true := by
  simp only [mainBlocks, List.mem_cons, List.not_mem_nil, or_false] at h
  rcases h with rfl | rfl | rfl | rfl | rfl | rfl
  exacts [checked_start, checked_resume, checked_feed, checked_newPrime, checked_scanRun, checked_finish]

theorem mem_threads {x : Thread} {bs : List Block} (hb : x.block ∈ bs) (hp : x.pc ≤ (code x.block).length)
    (hm : (x.mode == .run || x.waitsFor.isSome) = true) : x ∈ threads bs := by
  obtain ⟨b, p, mo⟩ := x
  simp only [threads, List.mem_flatMap, List.mem_filterMap]
  refine ⟨b, hb, p, List.mem_range.2 (by simpa using Nat.lt_succ_of_le hp), mo, ?_, ?_⟩
  · cases mo <;> simp [modes]
  · simp only [] at hm ⊢
    rw [if_pos hm]

theorem mem_bools (b : Bool) : b ∈ bools := by cases b <;> simp [bools]

theorem good_build {c : Ctl} (h : good c = true) : c = build c.main c.mpi c.flags.newJobs c.flags.scan := by
  obtain ⟨m, n, o, f⟩ := c
  obtain ⟨p, g, j, np, d, sc, po⟩ := f
  simp only [good, Bool.and_eq_true] at h
  obtain ⟨⟨⟨hb, hp⟩, hf⟩, hm⟩ := h
  simp only [flagsOk, Bool.and_eq_true, beq_iff_eq, and_assoc] at hf
  simp only [modesOk, Bool.and_eq_true, beq_iff_eq, and_assoc] at hm
  obtain ⟨h1, h2, h3, h4, h5, -⟩ := hf
  obtain ⟨h6, -⟩ := hm
  simp only [build]
  rw [h6]
  have e1 : ({ main := m, mpi := n, owner := o, flags := ⟨p, g, j, np, d, sc, po⟩ } : Ctl).engaged = ({ main := m, mpi := n, owner := none, flags := {} } : Ctl).engaged := rfl
  rw [e1] at h1 h2
  rw [← h1, ← h2, ← h3, ← h4, ← h5]

theorem good_mem {c : Ctl} (h : good c = true) : c.main.block ∈ mainBlocks ∧ c ∈ goodStates c.main.block := by
  have hbuild := good_build h
  simp only [good, Bool.and_eq_true] at h
  obtain ⟨⟨⟨hb, hp⟩, hf⟩, hm⟩ := h
  have hb' := hb
  simp only [blocksOk, Bool.and_eq_true, Bool.or_eq_true, beq_iff_eq] at hb'
  have hpp := hp
  simp only [pcsOk, Bool.and_eq_true, decide_eq_true_eq] at hpp
  have hmm := hm
  simp only [modesOk, Bool.and_eq_true] at hmm
  obtain ⟨⟨⟨⟨⟨⟨⟨⟨-, -⟩, h1⟩, h2⟩, -⟩, -⟩, -⟩, -⟩, -⟩ := hmm
  refine ⟨by simp [mainBlocks]; tauto, ?_⟩
  simp only [goodStates, List.mem_flatMap]
  refine ⟨c.main, mem_threads (by simp) hpp.1.1 h1, c.mpi, mem_threads (by simp [mpiBlocks]; tauto) hpp.1.2 h2, ?_⟩
  rw [if_pos hp]
  simp only [List.mem_flatMap, List.mem_filterMap]
  refine ⟨c.flags.newJobs, mem_bools _, c.flags.scan, mem_bools _, ?_⟩
  rw [← hbuild, if_pos (by rw [hf, hm]; rfl)]

theorem good_check {c : Ctl} (h : good c = true) : checkOne c = true ∧ liveOne c = true ∧ orderOne c = true := by
  obtain ⟨hb, hm⟩ := good_mem h
  have := checked_all hb
  simp only [checkAll, List.all_eq_true, Bool.and_eq_true] at this
  have := this c hm
  tauto

theorem cstep_big {cfg : Cfg} (h : cfg.Plain) {c c' : Ctl} {e : Event} (hs : cstep cfg c e = some c') : cstep big c e = some c' := by
  cases e with
  | begin k =>
    simp only [cstep] at hs ⊢
    have : cfg.may c k = big.may c k := by
      cases k <;> simp [Cfg.may, big, h.limit, h.leave]
    rw [← this]; exact hs
  | spurious t =>
    simp only [cstep] at hs ⊢
    split at hs
    · rename_i f h1 h2
      split at hs
      · rename_i h3
        have : big.spurious f = true := by
          simp only [big, bne_iff_ne, ne_eq]
          rintro rfl
          rw [h.spurious] at h3; cases h3
        rw [if_pos this]; exact hs
      · cases hs
    · cases hs
  | _ => exact hs

theorem may_mem {cfg : Cfg} (h : cfg.Plain) {c : Ctl} {k : Block} (hk : cfg.may c k = true) : k ∈ mainBlocks := by
  cases k <;> simp_all [Cfg.may, mainBlocks, h.limit, h.leave]

theorem event_mem {cfg : Cfg} (h : cfg.Plain) {c c' : Ctl} {e : Event} (hs : cstep cfg c e = some c') : e ∈ events := by
  cases e with
  | begin k =>
    simp only [cstep] at hs
    split at hs
    · rename_i h1
      simp only [Bool.and_eq_true] at h1
      have := may_mem h h1.2
      simp only [events, List.mem_append, List.mem_map]
      exact Or.inr ⟨k, this, rfl⟩
    · cases hs
  | main b => cases b <;> simp [events]
  | mpi b => cases b <;> simp [events]
  | noise b => cases b <;> simp [events]
  | spurious t => cases t <;> simp [events]
  | poll => simp [events]

/-- number of rounds the main thread has completed with this step -/
def newRound (c : Ctl) : Event → ℕ
  | .begin _ => if changes c.main.block then 1 else 0
  | _ => 0

theorem cstep_good {cfg : Cfg} (h : cfg.Plain) {c c' : Ctl} {e : Event} (hg : good c = true) (hs : cstep cfg c e = some c') :
    good c' = true ∧ (∀ x, rel c x + (if passes c e = some x then 1 else 0) = rel c' x + newRound c e) ∧
      rank c' + (if e.isStep then 1 else 0) ≤ rank c + e.cost := by
  have hc := (good_check hg).1
  simp only [checkOne, List.all_eq_true] at hc
  have := hc e (event_mem h hs)
  rw [cstep_big h hs] at this
  simp only [Bool.and_eq_true, List.all_eq_true] at this
  obtain ⟨⟨h1, h2⟩, h3⟩ := this
  refine ⟨h1, fun x => ?_, ?_⟩
  · have := h2 x (by cases x <;> simp [marks])
    simp only [beq_iff_eq] at this
    rw [this]
    cases e <;> rfl
  · cases e <;> simp only [decide_eq_true_eq] at h3 <;> simp only [Event.isStep, Event.cost] <;> simp <;> omega

/-- the invariant of a run -/
def Inv (s : State) : Prop := good s.ctl = true ∧ ∃ r, ∀ x, s.seen x = r + rel s.ctl x

theorem inv_init {cfg : Cfg} (h : cfg.Plain) : Inv (init cfg) := by
  have : good (init cfg).ctl = true ∧ ∀ x, rel (init cfg).ctl x = 0 := by
    have key : ∀ b ∈ [Block.start, Block.resume], ∀ sc : Bool, good ⟨⟨b, 0, .run⟩, ⟨.init, 0, .run⟩, none, { scan := sc }⟩ = true ∧
        ∀ x ∈ marks, rel ⟨⟨b, 0, .run⟩, ⟨.init, 0, .run⟩, none, { scan := sc }⟩ x = 0 := by decide
    have := key cfg.start (by rcases h.start with h | h <;> simp [h]) cfg.scan
    exact ⟨this.1, fun x => this.2 x (by cases x <;> simp [marks])⟩
  exact ⟨this.1, 0, fun x => by rw [this.2 x]; rfl⟩

theorem inv_step {cfg : Cfg} (h : cfg.Plain) {s s' : State} {e : Event} (hi : Inv s) (hs : step cfg s e = some s') :
    Inv s' ∧ rank s'.ctl + (if e.isStep then 1 else 0) ≤ rank s.ctl + e.cost := by
  simp only [step, Option.map_eq_some_iff] at hs
  obtain ⟨c', hc, rfl⟩ := hs
  obtain ⟨hg, r, hr⟩ := hi
  obtain ⟨h1, h2, h3⟩ := cstep_good h hg hc
  refine ⟨⟨h1, r + newRound s.ctl e, fun x => ?_⟩, h3⟩
  have := h2 x
  simp only [hr x]
  omega

theorem inv_run {cfg : Cfg} (h : cfg.Plain) {s s' : State} {es : List Event} (hi : Inv s) (hs : run cfg s es = some s') :
    Inv s' ∧ rank s'.ctl + es.countP Event.isStep ≤ rank s.ctl + (es.map Event.cost).sum := by
  induction es generalizing s with
  | nil => simp only [run, Option.some.injEq] at hs; subst hs; exact ⟨hi, by simp⟩
  | cons e es ih =>
    simp only [run, Option.bind_eq_some_iff] at hs
    obtain ⟨s1, h1, h2⟩ := hs
    obtain ⟨i1, r1⟩ := inv_step h hi h1
    obtain ⟨i2, r2⟩ := ih i1 h2
    refine ⟨i2, ?_⟩
    rw [List.countP_cons, List.map_cons, List.sum_cons]
    cases he : e.isStep <;> simp only [he] at r1 ⊢ <;> simp at r1 ⊢ <;> omega

end FireFly.Handshake
