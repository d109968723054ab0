import Verif.Lemmas.HandshakeRun
set_option linter.all false
/-! # C49: the hand-over between the reconstructing thread and the communication thread -/
namespace FireFly.Handshake

/-- C49: the threads never wait for each other for ever: whatever has happened, `reconstruct` is through, or the main thread is working, or one of the threads can take its next step. -/
theorem C49_progress_partial {cfg : Cfg} (h : cfg.Plain) {s : State} (hr : Reachable cfg s) :
    Finished s ∨ s.ctl.working = true ∨ ∃ e, e.isStep = true ∧ sure s.ctl e = true ∧ (step cfg s e).isSome = true := by
  obtain ⟨es, hes⟩ := hr
  have hi := (inv_run h (inv_init h) hes).1
  have hl := (good_check hi.1).2.1
  simp only [liveOne, Bool.or_eq_true, Bool.and_eq_true, List.any_eq_true] at hl
  rcases hl with (hl | hl) | ⟨e, he, hs, hx⟩
  · exact Or.inl hl
  · exact Or.inr (Or.inl hl)
  · refine Or.inr (Or.inr ⟨e, ?_, hs, ?_⟩)
    · cases e <;> first | rfl | (simp [sure] at hs)
    · simp only [step, Option.isSome_map]
      cases e with
      | main b => exact hx
      | mpi b => exact hx
      | poll => exact hx
      | begin k => simp [sure] at hs
      | noise b => simp [sure] at hs
      | spurious t => simp [sure] at hs

/-- C49: no deadlock. -/
theorem C49_no_deadlock_partial {cfg : Cfg} (h : cfg.Plain) {s : State} (hr : Reachable cfg s) : ¬ Deadlock cfg s := by
  rintro ⟨h1, h2, h3⟩
  rcases C49_progress_partial h hr with hp | hp | ⟨e, he, -, hx⟩
  · exact h1 hp
  · rw [h2] at hp; cases hp
  · rw [h3 e he] at hx; cases hx

/-- C49: the order of the work of both threads in every round: local jobs of the old field are killed only after the workers have stopped, the prime is changed only after the local jobs have been killed and all results of the
old field were received, the new prime is sent only after that, the local jobs of the new field start only after that, and the workers are stopped again only after this. -/
theorem C49_order_partial {cfg : Cfg} (h : cfg.Plain) {s : State} (hr : Reachable cfg s) :
    s.seen .kill ≤ s.seen .stop ∧ s.seen .drain ≤ s.seen .stop ∧ s.seen .switch ≤ s.seen .kill ∧ s.seen .switch ≤ s.seen .drain ∧
      s.seen .send ≤ s.seen .switch ∧ s.seen .resume ≤ s.seen .send ∧ s.seen .stop ≤ s.seen .resume + 1 := by
  obtain ⟨es, hes⟩ := hr
  obtain ⟨hg, r, hi⟩ := (inv_run h (inv_init h) hes).1
  have ho := (good_check hg).2.2
  simp only [orderOne, Bool.and_eq_true, decide_eq_true_eq] at ho
  simp only [hi]
  omega

/-- C49: the threads take finitely many steps: at most 100 plus 250 for each decision of the main thread (and 3 for each spurious wake-up). -/
theorem C49_terminates_partial {cfg : Cfg} (h : cfg.Plain) {s : State} {es : List Event} (hr : run cfg (init cfg) es = some s) :
    es.countP Event.isStep ≤ 100 + (es.map Event.cost).sum := by
  have hi := (inv_run h (inv_init h) hr).2
  have : ∀ b ∈ [Block.start, Block.resume], ∀ sc : Bool, rank ⟨⟨b, 0, .run⟩, ⟨.init, 0, .run⟩, none, { scan := sc }⟩ ≤ 100 := by decide
  have := this cfg.start (by rcases h.start with h | h <;> simp [h]) cfg.scan
  have e : (init cfg).ctl = ⟨⟨cfg.start, 0, .run⟩, ⟨.init, 0, .run⟩, none, { scan := cfg.scan }⟩ := rfl
  rw [e] at hi
  omega

/-- C49: when `reconstruct` returns, no hand-over is left half done: the mutex is free and the flags are as at the beginning. -/
theorem C49_clean_partial {cfg : Cfg} (h : cfg.Plain) {s : State} (hr : Reachable cfg s) (hf : Finished s) :
    s.ctl.owner = none ∧ s.ctl.flags.proceed = false ∧ s.ctl.flags.goOn = false ∧ s.ctl.flags.newPrime = false ∧ s.ctl.flags.pool = false ∧
      s.seen .stop = s.seen .kill ∧ s.seen .stop = s.seen .drain := by
  obtain ⟨es, hes⟩ := hr
  obtain ⟨hg, r, hi⟩ := (inv_run h (inv_init h) hes).1
  simp only [hi]
  obtain ⟨h1, h2⟩ := hf
  generalize hc : s.ctl = c at *
  have hb := good_build hg
  have hm := hg
  simp only [good, Bool.and_eq_true] at hm
  obtain ⟨⟨⟨h5, -⟩, -⟩, hm⟩ := hm
  simp only [modesOk, Bool.and_eq_true, and_assoc] at hm
  obtain ⟨-, -, h3, h4, -⟩ := hm
  simp only [Ctl.returned, Ctl.ended, Thread.over, Bool.and_eq_true, Bool.or_eq_true, beq_iff_eq] at h1 h2
  obtain ⟨⟨bm, pm, mm⟩, ⟨bn, pn, mn⟩, o, f⟩ := c
  simp only at h1 h2 h3 h4 h5 hb
  obtain ⟨h2, rfl⟩ := h2
  obtain rfl : bm = .finish := by
    rcases h1.2 with ((h | h) | h) | h <;> subst h <;> first | rfl | (exact absurd h5 (by decide))
  obtain ⟨rfl, -⟩ := h1
  subst h2
  have hmm : mm = .run := by revert h3; cases mm <;> decide
  have hmn : mn = .run := by revert h4; cases mn <;> decide
  subst hmm hmn
  generalize f.newJobs = j at hb
  generalize f.scan = sc at hb
  rw [hb]
  simp only [Nat.add_left_cancel_iff]
  cases j <;> cases sc <;> decide

/-- A run with one further prime field up to the end. -/
def demoRun : List Event :=
  List.replicate 3 (.mpi false) ++ List.replicate 4 (.main false) ++ [.main true] ++ List.replicate 5 (.main false) ++ List.replicate 6 (.mpi false) ++ List.replicate 4 (.main false) ++ [.begin (.feed)] ++ [.main false] ++ [.begin (.newPrime)] ++ [.main false] ++ [.poll] ++ List.replicate 9 (.mpi false) ++ List.replicate 13 (.main false) ++ List.replicate 9 (.mpi false) ++ List.replicate 11 (.main false) ++ List.replicate 7 (.mpi false) ++ List.replicate 7 (.main false) ++ [.begin (.finish)] ++ [.main false] ++ [.poll] ++ List.replicate 9 (.mpi false) ++ List.replicate 13 (.main false) ++ List.replicate 8 (.mpi false) ++ List.replicate 5 (.main false)

example : ∃ s, run {} (init {}) demoRun = some s ∧ Finished s ∧ s.seen .switch = 1 ∧ s.seen .stop = 2 := by
  have : ((run {} (init {}) demoRun).map fun s => (s.ctl.returned && s.ctl.ended, s.seen .switch, s.seen .stop)) = some (true, 1, 2) := by decide +kernel
  obtain ⟨s, h1, h2⟩ := Option.map_eq_some_iff.1 this
  simp only [Prod.mk.injEq, Bool.and_eq_true] at h2
  exact ⟨s, h1, h2.1, h2.2.1, h2.2.2⟩

example : Cfg.Plain {} := ⟨Or.inl rfl, rfl, rfl, rfl⟩
example : Cfg.Plain { start := .resume, scan := true, spurious := fun f => f != .newJobs } := ⟨Or.inr rfl, rfl, rfl, rfl⟩

/-- One run of the scan for a shift. -/
def scanDemoRun : List Event :=
  List.replicate 3 (.mpi false) ++ List.replicate 4 (.main false) ++ [.main true] ++ List.replicate 5 (.main false) ++ List.replicate 6 (.mpi false) ++ List.replicate 4 (.main false) ++ [.begin (.scanRun)] ++ [.main false] ++ [.poll] ++ List.replicate 9 (.mpi false) ++ List.replicate 13 (.main false) ++ List.replicate 9 (.mpi false) ++ List.replicate 12 (.main false) ++ List.replicate 7 (.mpi false) ++ List.replicate 7 (.main false)

example : ((run { scan := true } (init { scan := true }) scanDemoRun).map fun s => (s.ctl.working, s.seen .resume)) = some (true, 1) := by decide +kernel

/-- no thread can take a step (for the evaluation of examples) -/
def isDead (cfg : Cfg) (c : Ctl) : Bool :=
  !(c.returned && c.ended) && !c.working && [Event.main false, .main true, .mpi false, .mpi true, .poll].all fun e => (cstep cfg c e).isNone

theorem dead_of {cfg : Cfg} {es : List Event} (h : ((run cfg (init cfg) es).map fun s => isDead cfg s.ctl) = some true) :
    ∃ s, Reachable cfg s ∧ Deadlock cfg s := by
  obtain ⟨s, h1, h2⟩ := Option.map_eq_some_iff.1 h
  simp only [isDead, Bool.and_eq_true, Bool.not_eq_true', List.all_eq_true] at h2
  obtain ⟨⟨h3, h4⟩, h5⟩ := h2
  refine ⟨s, ⟨es, h1⟩, ?_, h4, fun e he => ?_⟩
  · rintro ⟨h6, h7⟩
    rw [h6, h7] at h3; cases h3
  · have : cstep cfg s.ctl e = none := by
      have := h5 e (by cases e with
        | main b => cases b <;> simp
        | mpi b => cases b <;> simp
        | poll => simp
        | _ => simp [Event.isStep] at he)
      simpa using this
    simp [step, this]

def restartRun : List Event :=
  List.replicate 17 (.main false) ++ [.mpi false] ++ [.main false] ++ [.mpi false] ++ List.replicate 2 (.main false) ++ [.mpi false] ++ List.replicate 3 (.main false)

/-- Defect: a run that is resumed when all functions need the next prime field can hang at its start: `continue_communication` is set and `notify_one` called without the mutex (lines 2633-2635), while the communication
thread is about to fall asleep (line 910). -/
theorem C49_restart_violated : ∃ s, Reachable { start := .restart } s ∧ Deadlock { start := .restart } s :=
  dead_of (es := restartRun) (by decide +kernel)

def allDoneRun : List Event :=
  List.replicate 6 (.main false) ++ List.replicate 6 (.mpi false) ++ [.poll] ++ List.replicate 9 (.mpi false) ++ List.replicate 8 (.main false)

/-- Defect: a run that is resumed after everything was done can hang: the communication thread sets `proceed` for the second time (line 4047) before the main thread has seen that it was set for the first time (lines 913, 1032). -/
theorem C49_all_done_violated : ∃ s, Reachable { start := .allDone } s ∧ Deadlock { start := .allDone } s :=
  dead_of (es := allDoneRun) (by decide +kernel)

def spuriousRun : List Event :=
  List.replicate 4 (.main false) ++ [.main true] ++ List.replicate 5 (.main false) ++ List.replicate 6 (.mpi false) ++ List.replicate 4 (.main false) ++ [.begin (.newPrime)] ++ [.main false] ++ [.poll] ++ List.replicate 5 (.mpi false) ++ List.replicate 12 (.main false) ++ [.mpi false] ++ [.main false] ++ List.replicate 9 (.mpi false) ++ List.replicate 8 (.main false) ++ [.spurious (.mpi)] ++ [.main false] ++ List.replicate 2 (.mpi false) ++ List.replicate 2 (.main false) ++ [.mpi false] ++ List.replicate 3 (.main false)

/-- Defect: with a spurious wake-up at line 4205 a change of the prime field can hang: `new_jobs` is set and `notify_one` called without the mutex (lines 2991, 2685). -/
theorem C49_spurious_violated : ∃ s, Reachable { spurious := fun f => f == .newJobs } s ∧ Deadlock { spurious := fun f => f == .newJobs } s :=
  dead_of (es := spuriousRun) (by decide +kernel)

def limitRun : List Event :=
  List.replicate 4 (.main false) ++ [.main true] ++ List.replicate 5 (.main false) ++ List.replicate 6 (.mpi false) ++ List.replicate 4 (.main false) ++ [.begin (.limit)] ++ [.main false] ++ [.poll] ++ List.replicate 5 (.mpi false) ++ List.replicate 14 (.main false) ++ List.replicate 10 (.mpi false) ++ List.replicate 11 (.main false) ++ List.replicate 7 (.mpi false) ++ List.replicate 2 (.main false) ++ [.poll] ++ [.main false] ++ [.mpi false] ++ [.main false] ++ List.replicate 8 (.mpi false) ++ List.replicate 2 (.main false)

/-- Defect: when the largest number of primes is reached, the run can hang: the communication thread sees `done` (line 2427) and drops the results of the new field, the main thread waits for one of them (line 2709). -/
theorem C49_limit_violated : ∃ s, Reachable { limit := true } s ∧ Deadlock { limit := true } s :=
  dead_of (es := limitRun) (by decide +kernel)

def leaveRun : List Event :=
  List.replicate 4 (.main false) ++ [.main true] ++ List.replicate 5 (.main false) ++ List.replicate 6 (.mpi false) ++ List.replicate 4 (.main false) ++ [.begin (.leave)] ++ [.main false] ++ [.poll] ++ List.replicate 5 (.mpi false) ++ List.replicate 12 (.main false) ++ [.mpi false] ++ [.main false] ++ List.replicate 9 (.mpi false) ++ List.replicate 6 (.main false)

/-- Defect: a run that shall stop after the factor scan hangs in the destructor of `tp_comm` (line 959): the communication thread waits for `new_jobs` (line 4205). -/
theorem C49_leave_violated : ∃ s, Reachable { leave := true } s ∧ Deadlock { leave := true } s :=
  dead_of (es := leaveRun) (by decide +kernel)

theorem wake_block (x : Thread) : (wake x).block = x.block ∧ (wake x).pc = x.pc := by
  unfold wake; split <;> exact ⟨rfl, rfl⟩

theorem put_get (x : Flags) (f g : Flag) (v : Bool) : (x.put f v).get g = if f = g then v else x.get g := by
  cases f <;> cases g <;> rfl

/-- what a step of a thread leaves as it was -/
theorem exec_frame {c c' : Ctl} {t : Tid} {b : Bool} (h : exec c t b = some c') :
    (c'.thread t).block = (c.thread t).block ∧ (c'.thread t.other).block = (c.thread t.other).block ∧ (c'.thread t.other).pc = (c.thread t.other).pc ∧
      ∀ f, (∀ v, (c.thread t).ins ≠ some (.set f v)) → (c.thread t).ins ≠ some (.drop f) → c'.flags.get f = c.flags.get f := by
  obtain ⟨m, n, o, fl⟩ := c
  unfold exec at h
  cases t <;> simp only [Ctl.thread, Tid.other] at h ⊢ <;> split at h <;> (try simp only [Option.some.injEq, reduceCtorEq] at h) <;>
    first
      | (cases h; done)
      | (split at h <;> first | (cases h; done) | (split at h <;> first | (cases h; done) | (cases h; exact ⟨rfl, rfl, rfl, fun _ _ _ => rfl⟩)) | (cases h; exact ⟨rfl, rfl, rfl, fun _ _ _ => rfl⟩))
      | (subst h; rename_i hx; first
          | exact ⟨rfl, rfl, rfl, fun _ _ _ => rfl⟩
          | exact ⟨rfl, (wake_block _).1, (wake_block _).2, fun _ _ _ => rfl⟩
          | (refine ⟨rfl, rfl, rfl, fun g h1 h2 => ?_⟩
             show Flags.get (Flags.put _ _ _) g = _
             rw [put_get, if_neg]
             rintro rfl
             exact h1 _ hx)
          | (refine ⟨rfl, rfl, rfl, fun g h1 h2 => ?_⟩
             show Flags.get (if _ then Flags.put _ _ _ else _) g = _
             split
             · rw [put_get, if_neg]
               rintro rfl
               exact h2 hx
             · rfl))

theorem exec_pc {c c' : Ctl} {t : Tid} {b : Bool} (h : exec c t b = some c') :
    (c'.thread t).pc = (c.thread t).pc ∨ (c'.thread t).pc = (c.thread t).pc + 1 := by
  obtain ⟨m, n, o, fl⟩ := c
  unfold exec at h
  cases t <;> simp only [Ctl.thread, Tid.other] at h ⊢ <;> split at h <;> (try simp only [Option.some.injEq, reduceCtorEq] at h) <;>
    first
      | (cases h; done)
      | (split at h <;> first | (cases h; done) | (split at h <;> first | (cases h; done) | (cases h; first | exact Or.inl rfl | exact Or.inr rfl)) | (cases h; first | exact Or.inl rfl | exact Or.inr rfl))
      | (subst h; first | exact Or.inl rfl | exact Or.inr rfl)

theorem mpi_sets {b : Block} (hb : b = .init ∨ b = .change ∨ b = .stop) (p : ℕ) :
    (∀ v, (code b)[p]? ≠ some (.set .done v)) ∧ (code b)[p]? ≠ some (.drop .done) := by
  have key : ∀ b ∈ [Block.init, .change, .stop], (∀ v, Ins.set .done v ∉ code b) ∧ Ins.drop .done ∉ code b := by decide
  have := key b (by simp; tauto)
  exact ⟨fun v h => this.1 v (List.mem_of_getElem? h), fun h => this.2 (List.mem_of_getElem? h)⟩

/-- The main thread in the block `limit` does not come further than its `take`. -/
def AtLimit (c : Ctl) : Prop :=
  c.main.block = .limit ∧ c.main.pc ≤ 29 ∧ (10 ≤ c.main.pc → c.flags.done = true) ∧ (c.mpi.block = .init ∨ c.mpi.block = .change ∨ c.mpi.block = .stop)

theorem limit_code : ∀ p ≤ 29, p ≠ 9 → (∀ v, (code .limit)[p]? ≠ some (.set .done v)) ∧ (code .limit)[p]? ≠ some (.drop .done) := by decide

theorem atLimit_step {cfg : Cfg} {c c' : Ctl} {e : Event} (h : AtLimit c) (hs : cstep cfg c e = some c') : AtLimit c' := by
  obtain ⟨h1, h2, h3, h4⟩ := h
  cases e with
  | main b =>
    have hf := exec_frame hs
    have hp := exec_pc hs
    simp only [Ctl.thread, Tid.other] at hf hp
    have hi : c.main.ins = (code .limit)[c.main.pc]? := by rw [Thread.ins, h1]
    have h29 : c.main.pc ≠ 29 := by
      intro h29
      rw [h29] at hi
      have : c.main.ins = some .take := hi
      have hd := h3 (by omega)
      simp only [cstep, exec, Ctl.thread, this, h1, hd] at hs
      cases b <;> simp at hs
    refine ⟨hf.1.trans h1, by omega, fun h10 => ?_, by rw [hf.2.1]; exact h4⟩
    by_cases h9 : c.main.pc = 9
    · rw [h9] at hi
      have : c.main.ins = some (.set .done true) := hi
      simp only [cstep, exec, Ctl.thread, this, Option.some.injEq] at hs
      subst hs; rfl
    · have hl := limit_code _ h2 h9
      have := hf.2.2.2 .done (by rw [hi]; exact hl.1) (by rw [hi]; exact hl.2)
      have hd := h3 (by omega)
      exact this.trans hd
  | mpi b =>
    have hf := exec_frame hs
    simp only [Ctl.thread, Tid.other] at hf
    have hm := mpi_sets h4 c.mpi.pc
    have hd := hf.2.2.2 .done hm.1 hm.2
    refine ⟨hf.2.1.trans h1, by rw [hf.2.2.1]; exact h2, fun h10 => ?_, by rw [hf.1]; exact h4⟩
    rw [hf.2.2.1] at h10
    exact hd.trans (h3 h10)
  | begin k =>
    simp only [cstep] at hs
    rw [if_neg] at hs
    · cases hs
    · simp only [Ctl.working, Thread.over, h1, Bool.and_eq_true, beq_iff_eq]
      rintro ⟨⟨h5, -⟩, -⟩
      rw [h5] at h2
      exact absurd h2 (by decide)
  | poll =>
    simp only [cstep] at hs
    split at hs
    · split at hs
      · cases hs; exact ⟨h1, h2, h3, Or.inr (Or.inr rfl)⟩
      · split at hs
        · cases hs; exact ⟨h1, h2, h3, Or.inr (Or.inl rfl)⟩
        · cases hs
    · cases hs
  | noise b =>
    simp only [cstep] at hs
    split at hs
    · cases hs; exact ⟨h1, h2, h3, h4⟩
    · cases hs
  | spurious t =>
    simp only [cstep] at hs
    split at hs
    · split at hs
      · cases t <;> (cases hs; exact ⟨h1, h2, h3, h4⟩)
      · cases hs
    · cases hs

/-- Defect: when the largest number of primes is reached and no probe of the new field is left to the local threads, `reconstruct` never returns, in no schedule: from the moment the main thread enters the last change of the
prime field (its state `s`; the communication thread is in one of its blocks) no run leads to the end. -/
theorem C49_limit_never {cfg : Cfg} {s s' : State} {es : List Event} (hm : s.ctl.main = ⟨.limit, 0, .run⟩)
    (hn : s.ctl.mpi.block = .init ∨ s.ctl.mpi.block = .change ∨ s.ctl.mpi.block = .stop) (hr : run cfg s es = some s') : ¬ Finished s' := by
  have key : AtLimit s'.ctl := by
    have h0 : AtLimit s.ctl := ⟨by rw [hm], by rw [hm]; simp, by rw [hm]; simp, hn⟩
    clear hm hn
    induction es generalizing s with
    | nil => simp only [run, Option.some.injEq] at hr; subst hr; exact h0
    | cons e es ih =>
      simp only [run, Option.bind_eq_some_iff, step, Option.map_eq_some_iff] at hr
      obtain ⟨s1, ⟨c1, h1, rfl⟩, h2⟩ := hr
      exact ih h2 (atLimit_step h0 h1)
  rintro ⟨h1, -⟩
  simp only [Ctl.returned, Thread.over, key.1, Bool.and_eq_true, beq_iff_eq] at h1
  have := key.2.1
  rw [h1.1] at this
  exact absurd this (by decide)

/-- Defect: a run that stops after the factor scan never returns from `reconstruct`, in no schedule: the communication thread only ends after `done`. -/
theorem C49_leave_never {cfg : Cfg} {s s' : State} {es : List Event} (hm : s.ctl.main.block = .leave) (hd : s.ctl.flags.done = false)
    (hn : s.ctl.mpi.block = .init ∨ s.ctl.mpi.block = .change) (hr : run cfg s es = some s') : ¬ Finished s' := by
  have key : ∀ c c' : Ctl, ∀ e, (c.main.block = .leave ∧ c.flags.done = false ∧ (c.mpi.block = .init ∨ c.mpi.block = .change)) → cstep cfg c e = some c' →
      (c'.main.block = .leave ∧ c'.flags.done = false ∧ (c'.mpi.block = .init ∨ c'.mpi.block = .change)) := by
    rintro c c' e ⟨h1, h2, h3⟩ hs
    cases e with
    | main b =>
      have hf := exec_frame hs
      simp only [Ctl.thread, Tid.other] at hf
      have hl : (∀ v, Ins.set .done v ∉ code .leave) ∧ Ins.drop .done ∉ code .leave := by decide
      have := hf.2.2.2 .done (fun v h => hl.1 v (by rw [Thread.ins, h1] at h; exact List.mem_of_getElem? h)) (fun h => hl.2 (by rw [Thread.ins, h1] at h; exact List.mem_of_getElem? h))
      exact ⟨hf.1.trans h1, this.trans h2, by rw [hf.2.1]; exact h3⟩
    | mpi b =>
      have hf := exec_frame hs
      simp only [Ctl.thread, Tid.other] at hf
      have hm := mpi_sets (b := c.mpi.block) (by tauto) c.mpi.pc
      have := hf.2.2.2 .done hm.1 hm.2
      exact ⟨hf.2.1.trans h1, this.trans h2, by rw [hf.1]; exact h3⟩
    | begin k =>
      simp only [cstep] at hs
      rw [if_neg] at hs
      · cases hs
      · simp [Ctl.working, Ctl.returned, h1]
    | poll =>
      simp only [cstep, h2] at hs
      split at hs
      · split at hs
        · simp at *
        · split at hs
          · cases hs; exact ⟨h1, h2, Or.inr rfl⟩
          · cases hs
      · cases hs
    | noise b =>
      simp only [cstep] at hs
      split at hs
      · cases hs; exact ⟨h1, h2, h3⟩
      · cases hs
    | spurious t =>
      simp only [cstep] at hs
      split at hs
      · split at hs
        · cases t <;> (cases hs; exact ⟨h1, h2, h3⟩)
        · cases hs
      · cases hs
  have h0 : s'.ctl.main.block = .leave ∧ s'.ctl.flags.done = false ∧ (s'.ctl.mpi.block = .init ∨ s'.ctl.mpi.block = .change) := by
    have h0 := And.intro hm (And.intro hd hn)
    clear hm hd hn
    induction es generalizing s with
    | nil => simp only [run, Option.some.injEq] at hr; subst hr; exact h0
    | cons e es ih =>
      simp only [run, Option.bind_eq_some_iff, step, Option.map_eq_some_iff] at hr
      obtain ⟨s1, ⟨c1, h1, rfl⟩, h2⟩ := hr
      exact ih h2 (key _ _ _ h0 h1)
  rintro ⟨-, h1⟩
  simp only [Ctl.ended, Bool.and_eq_true, beq_iff_eq] at h1
  rcases h0.2.2 with h | h <;> rw [h] at h1 <;> cases h1.2

/-- The states of the last two theorems are reached. -/
example : ((run { limit := true } (init { limit := true }) (limitRun.take 21)).map fun s => (s.ctl.main, s.ctl.mpi.block)) = some (⟨.limit, 0, .run⟩, .init) := by decide +kernel
example : ((run { leave := true } (init { leave := true }) (leaveRun.take 21)).map fun s => (s.ctl.main.block, s.ctl.flags.done, s.ctl.mpi.block)) = some (.leave, false, .init) := by
  decide +kernel

end FireFly.Handshake
