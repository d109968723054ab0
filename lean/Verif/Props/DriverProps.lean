import Verif.Spec.Driver
import Verif.Props.PrimeProps
/-!
# C68: options, scans and prime fields of a run

For every history of option calls the parts of a run are as documented (`C68_options`, `C68_empty`). `reconstruct(k)` goes through the prime fields one by one and stops in the first field in which all functions are done (`C68_all`). If the limit is reached
first, the functions that are done with the first `k` fields are finished (`C68_limit`), but the black box is evaluated in one more field, and the run calls itself done (`C68_at_most_violated`); with the default limit 300 the table of primes is read
behind its end in this case (`C68_default_violated`).
-/
set_option linter.all false
namespace FireFly.Driver
variable {S : Type} {env : Env S}

/-! ### Options -/

lemma opts_foldl (flint : Bool) (cs : List Call) (o : Opts) :
    let o' := cs.foldl (Opts.call flint) o
    o'.n = o.n ∧ (o'.safe = true ↔ o.safe = true ∨ Call.setSafe ∈ cs) ∧ (o'.stopAfter = true ↔ o.stopAfter = true ∨ Call.stopAfterFactorScan ∈ cs) ∧
      (o'.scan = true ↔ o.scan = true ∨ (Call.enableShiftScan ∈ cs ∧ o.n ≠ 1)) ∧ ((o.factorScan = true → flint = true) → (o'.factorScan = true ↔ o.factorScan = true ∨ (Call.enableFactorScan ∈ cs ∧ flint = true))) := by
  induction cs generalizing o with
  | nil => simp
  | cons c cs ih =>
    have h := ih (o.call flint c)
    simp only [List.foldl_cons, List.mem_cons] at h ⊢
    obtain ⟨h1, h2, h3, h4, h5⟩ := h
    cases c
    · by_cases e : o.n = 1
      · simp only [Opts.call, e, if_true] at h1 h2 h3 h4 h5 ⊢
        refine ⟨h1, by simpa using h2, by simpa using h3, by simpa using h4, by simpa using h5⟩
      · simp only [Opts.call, e, if_false] at h1 h2 h3 h4 h5 ⊢
        refine ⟨h1, by simpa using h2, by simpa using h3, by rw [h4]; simp [e], by simpa using h5⟩
    · simp only [Opts.call] at h1 h2 h3 h4 h5 ⊢
      refine ⟨h1, by simpa using h2, by simpa using h3, by simpa using h4, fun hf => ?_⟩
      rw [h5 (fun h => h)]
      cases flint <;> simp at hf ⊢
      exact hf
    · simp only [Opts.call] at h1 h2 h3 h4 h5 ⊢
      exact ⟨h1, by simpa using h2, by simp at h3 ⊢; exact h3, by simpa using h4, by simpa using h5⟩
    · simp only [Opts.call] at h1 h2 h3 h4 h5 ⊢
      exact ⟨h1, by simp at h2 ⊢; exact h2, by simpa using h3, by simpa using h4, by simpa using h5⟩

/-- **C68.** For every history of option calls and every black box with at least one function the parts of the run are the documented ones. -/
theorem C68_options (n m : ℕ) (hm : 0 < m) (flint : Bool) (cs : List Call) :
    Promised n flint cs ((cs.foldl (Opts.call flint) { n := n }).phases m).1 ∧ ((cs.foldl (Opts.call flint) { n := n }).phases m).2 = false := by
  obtain ⟨h1, h2, h3, h4, h5⟩ := opts_foldl flint cs { n := n }
  generalize cs.foldl (Opts.call flint) { n := n } = o at h1 h2 h3 h4 h5
  obtain ⟨on, os, oc, of, oa⟩ := o
  have hm' : m ≠ 0 := by omega
  simp only [Bool.false_eq_true, false_or, IsEmpty.forall_iff, forall_const, true_implies] at h1 h2 h3 h4 h5
  subst h1
  cases os <;> cases oc <;> cases of <;> cases oa <;>
    simp only [Bool.false_eq_true, false_iff, true_iff] at h2 h3 h4 h5 <;>
    refine ⟨⟨?_, ?_, ?_, ?_, ?_, ?_⟩, ?_⟩ <;>
    simp [Opts.phases, Opts.settle, hm'] <;> tauto

/-- **C68.** A Reconstructor is set up exactly for at least one variable and the powers of two up to 128 as bunch sizes. -/
theorem C68_accepts (n bunch : ℕ) : accepts n bunch = true ↔ 1 ≤ n ∧ ∃ k ≤ 7, bunch = 2 ^ k := by
  have h : (∃ k ≤ 7, bunch = 2 ^ k) ↔ bunch = 1 ∨ bunch = 2 ∨ bunch = 4 ∨ bunch = 8 ∨ bunch = 16 ∨ bunch = 32 ∨ bunch = 64 ∨ bunch = 128 := by
    constructor
    · rintro ⟨k, hk, rfl⟩
      interval_cases k <;> simp
    · rintro (rfl | rfl | rfl | rfl | rfl | rfl | rfl | rfl)
      exacts [⟨0, by simp⟩, ⟨1, by simp⟩, ⟨2, by simp⟩, ⟨3, by simp⟩, ⟨4, by simp⟩, ⟨5, by simp⟩, ⟨6, by simp⟩, ⟨7, by simp⟩]
  rw [h]
  simp only [accepts, Bool.and_eq_true, Bool.not_eq_true', beq_eq_false_iff_ne, Bool.and_eq_false_iff, bne_eq_false_iff_eq]
  have : n ≠ 0 ↔ 1 ≤ n := by omega
  rw [this]
  tauto

/-- **C68.** If the black box has no functions, the run is done without the loop over the prime fields; if the scan for factors shows this, nothing is run after it. -/
theorem C68_empty (n : ℕ) (flint : Bool) (cs : List Call) :
    Phase.run ∉ ((cs.foldl (Opts.call flint) { n := n }).phases 0).1 ∧ ((cs.foldl (Opts.call flint) { n := n }).phases 0).2 = true ∧
    (Phase.factors ∈ ((cs.foldl (Opts.call flint) { n := n }).phases 0).1 → ((cs.foldl (Opts.call flint) { n := n }).phases 0).1 = [Phase.factors]) := by
  generalize cs.foldl (Opts.call flint) { n := n } = o
  obtain ⟨on, os, oc, of, oa⟩ := o
  cases os <;> cases oc <;> cases of <;> cases oa <;> simp [Opts.phases, Opts.settle]

/-! ### Prime fields -/

/-- one object after `k` fields -/
def g (env : Env S) (x : S) : ℕ → Bool × S
  | 0 => (false, x)
  | k + 1 => if (g env x k).1 then g env x k else ((env.field k (g env x k).2).2, (env.field k (g env x k).2).1)

lemma g_spec (x : S) (k : ℕ) : after env x k = if (g env x k).1 then none else some (g env x k).2 := by
  induction k with
  | zero => simp [after, g]
  | succ k ih =>
    rw [after, ih, g]
    by_cases h : (g env x k).1 = true
    · simp [h]
    · simp [h]

lemma done_iff (x : S) (k : ℕ) : DoneWithin env x k ↔ (g env x k).1 = true := by
  unfold DoneWithin; rw [g_spec]; split_ifs with h <;> simp [h]

lemma done_mono (x : S) {k l : ℕ} (h : k ≤ l) (e : DoneWithin env x k) : DoneWithin env x l := by
  induction l, h using Nat.le_induction with
  | base => exact e
  | succ l h ih => unfold DoneWithin at ih ⊢; rw [after, ih]; rfl

lemma update_g (objs : List S) (k : ℕ) : update (env.field k) (objs.map (fun x => g env x k)) = objs.map (fun x => g env x (k + 1)) := by
  simp only [update, List.map_map]
  rfl

/-- the state at the end of field `p` -/
def at' (env : Env S) (objs : List S) (p : ℕ) : St S := { recs := objs.map (fun x => g env x (p + 1)), primeIt := p, used := List.range (p + 1), done := false }

lemma first_eq (objs : List S) : St.first env objs = at' env objs 0 := by
  unfold St.first at'
  congr 1
  exact update_g objs 0

lemma all_done (objs : List S) (p : ℕ) : (at' env objs p).recs.all Prod.fst = true ↔ ∀ x ∈ objs, DoneWithin env x (p + 1) := by
  simp [at', done_iff]

lemma loop_step (objs : List S) (limit p : ℕ) : loop env limit (at' env objs p) =
    if (at' env objs p).recs.all Prod.fst then some { at' env objs p with done := true }
    else if 300 ≤ p + 1 then none
    else if limit ≤ p + 1 then some { recs := update (env.extra (p + 1)) (at' env objs p).recs, primeIt := p + 1, used := List.range (p + 2), done := true }
    else loop env limit (at' env objs (p + 1)) := by
  rw [loop, C07_primes63.1]
  have e : ({ recs := update (env.field (p + 1)) (at' env objs p).recs, primeIt := p + 1, used := (at' env objs p).used ++ [p + 1], done := false } : St S) = at' env objs (p + 1) := by
    unfold at'; dsimp only; rw [update_g, ← List.range_succ]
  have e2 : (at' env objs p).used ++ [p + 1] = List.range (p + 2) := by unfold at'; dsimp only; rw [← List.range_succ]
  have e3 : (at' env objs p).primeIt = p := rfl
  rw [e3, e, e2]
  rfl

/-- going through the fields while some function is not done -/
lemma loop_go (objs : List S) (limit p q : ℕ) (hpq : p ≤ q) (hl : q < limit) (hq : q < 300) (hn : ∀ k, p ≤ k → k < q → ∃ x ∈ objs, ¬ DoneWithin env x (k + 1)) :
    loop env limit (at' env objs p) = loop env limit (at' env objs q) := by
  induction q, hpq using Nat.le_induction with
  | base => rfl
  | succ q hpq ih =>
    rw [ih (by omega) (by omega) (fun k h1 h2 => hn k h1 (by omega)), loop_step, if_neg, if_neg (by omega), if_neg (by omega)]
    rw [all_done]
    obtain ⟨x, hx, h⟩ := hn q hpq (by omega)
    exact fun e => h (e x hx)

/-- **C68.** If all functions are done with the first `F` prime fields, and not before, and the limit allows `F` fields, then the run uses exactly the fields `0, …, F - 1`, and all functions are finished. -/
theorem C68_all (env : Env S) (objs : List S) (limit F : ℕ) (hF : 1 ≤ F) (h300 : F ≤ 300) (hl : F ≤ max limit 1) (hd : ∀ x ∈ objs, DoneWithin env x F) (hn : ∀ k, 1 ≤ k → k < F → ∃ x ∈ objs, ¬ DoneWithin env x k) :
    ∃ s, reconstruct env limit objs = some s ∧ s.done = true ∧ s.recs.length = objs.length ∧ (∀ r ∈ s.recs, r.1 = true) ∧ s.used = List.range F ∧ s.primeIt + 1 = F := by
  have key : reconstruct env limit objs = loop env limit (at' env objs (F - 1)) := by
    unfold reconstruct
    rw [first_eq]
    rcases Nat.eq_or_lt_of_le hF with e | e
    · subst e; rfl
    · exact loop_go objs limit 0 (F - 1) (by omega) (by omega) (by omega) (fun k _ h2 => hn (k + 1) (by omega) (by omega))
  have e : F - 1 + 1 = F := by omega
  have hall : (at' env objs (F - 1)).recs.all Prod.fst = true := by rw [all_done, e]; exact hd
  refine ⟨{ at' env objs (F - 1) with done := true }, by rw [key, loop_step, if_pos hall], rfl, by simp [at'], ?_, by simp [at', e], by simp [at', e]⟩
  intro r hr
  exact List.all_eq_true.mp hall r hr

/-- what is left of an object at the limit: done before, or changed by the additional probes -/
lemma limit_state (env : Env S) (objs : List S) (limit : ℕ) (h300 : max limit 1 < 300) (hn : ∃ x ∈ objs, ¬ DoneWithin env x (max limit 1)) :
    reconstruct env limit objs = some { recs := update (env.extra (max limit 1)) (objs.map (fun x => g env x (max limit 1))), primeIt := max limit 1, used := List.range (max limit 1 + 1), done := true } := by
  obtain ⟨x, hx, h⟩ := hn
  have mono : ∀ k, k ≤ max limit 1 → ¬ DoneWithin env x k := fun k hk e => h (done_mono x hk e)
  have key : reconstruct env limit objs = loop env limit (at' env objs (max limit 1 - 1)) := by
    unfold reconstruct
    rw [first_eq]
    rcases Nat.lt_or_ge 1 limit with e | e
    · exact loop_go objs limit 0 (max limit 1 - 1) (by omega) (by omega) (by omega) (fun k _ h2 => ⟨x, hx, mono (k + 1) (by omega)⟩)
    · have : max limit 1 - 1 = 0 := by omega
      rw [this]
  have e : max limit 1 - 1 + 1 = max limit 1 := by omega
  have e2 : max limit 1 - 1 + 2 = max limit 1 + 1 := by omega
  rw [key, loop_step, if_neg, if_neg (by omega), if_pos (by omega)]
  · simp only [e, e2, at']
  · rw [all_done, e]; exact fun hh => h (hh x hx)

/-- **C68.** If some function is not done with the first `limit` prime fields (at least one field is used): every function that is done with them is finished; every other one is as after them, except for the probes of the one additional bunch. -/
theorem C68_limit (env : Env S) (objs : List S) (limit : ℕ) (h300 : max limit 1 < 300) (hn : ∃ x ∈ objs, ¬ DoneWithin env x (max limit 1)) :
    ∃ s, reconstruct env limit objs = some s ∧ s.recs.length = objs.length ∧
      ∀ (i : ℕ) (x : S) (r : Bool × S), objs[i]? = some x → s.recs[i]? = some r → (DoneWithin env x (max limit 1) → r.1 = true) ∧ ∀ y, after env x (max limit 1) = some y → r = ((env.extra (max limit 1) y).2, (env.extra (max limit 1) y).1) := by
  refine ⟨_, limit_state env objs limit h300 hn, by simp [update], fun i x r hx hr => ?_⟩
  simp only [update, List.getElem?_map, hx, Option.map_some, Option.some.injEq] at hr
  rw [done_iff, g_spec]
  by_cases hd : (g env x (max limit 1)).1 = true
  · rw [if_pos hd] at hr
    refine ⟨fun _ => hr ▸ hd, fun y hy => ?_⟩
    rw [if_pos hd] at hy; simp at hy
  · rw [if_neg hd] at hr
    refine ⟨fun h => absurd h hd, fun y hy => ?_⟩
    rw [if_neg hd] at hy
    rw [← hr, ← Option.some.inj hy]

/-- **C68 is violated at the limit.** The black box is evaluated in more prime fields than the limit allows, and the run says that it is done: if the additional probes do not finish a function, this is wrong. -/
theorem C68_at_most_violated (env : Env S) (objs : List S) (limit : ℕ) (h300 : max limit 1 < 300) (hn : ∃ x ∈ objs, ¬ DoneWithin env x (max limit 1)) :
    ∃ s, reconstruct env limit objs = some s ∧ s.used = List.range (max limit 1 + 1) ∧ limit < s.used.length ∧ s.done = true ∧ ((∀ y, (env.extra (max limit 1) y).2 = false) → ∃ r ∈ s.recs, r.1 = false) := by
  refine ⟨_, limit_state env objs limit h300 hn, rfl, by simp, rfl, fun hex => ?_⟩
  obtain ⟨x, hx, h⟩ := hn
  rw [done_iff] at h
  refine ⟨_, List.mem_map.mpr ⟨g env x (max limit 1), List.mem_map.mpr ⟨x, hx, rfl⟩, rfl⟩, ?_⟩
  rw [if_neg h]
  exact hex _

/-- **C68 is violated with the default limit.** If the limit is not less than 300 and some function is not done with 300 prime fields, then the table of primes is read behind its end. -/
theorem C68_default_violated (env : Env S) (objs : List S) (limit : ℕ) (h300 : 300 ≤ limit) (hn : ∃ x ∈ objs, ¬ DoneWithin env x 300) : reconstruct env limit objs = none := by
  obtain ⟨x, hx, h⟩ := hn
  have mono : ∀ k, k ≤ 300 → ¬ DoneWithin env x k := fun k hk e => h (done_mono x hk e)
  have key : reconstruct env limit objs = loop env limit (at' env objs 299) := by
    unfold reconstruct
    rw [first_eq]
    exact loop_go objs limit 0 299 (by omega) (by omega) (by omega) (fun k _ h2 => ⟨x, hx, mono (k + 1) (by omega)⟩)
  rw [key, loop_step, if_neg, if_pos (by omega)]
  rw [all_done]; exact fun hh => h (hh x hx)

/-! ### Examples -/

/-- an object that needs a number of fields: it counts down; the additional probes do nothing -/
def exEnv : Env ℕ := { field := fun _ x => (x - 1, decide (x ≤ 1)), extra := fun _ x => (x, false) }

/-- three functions that need one, three and two fields: `C68_all` with three fields -/
example : ∃ s, reconstruct exEnv 300 [1, 3, 2] = some s ∧ s.done = true ∧ (∀ r ∈ s.recs, r.1 = true) ∧ s.used = [0, 1, 2] := by
  obtain ⟨s, h1, h2, -, h3, h4, -⟩ := C68_all exEnv [1, 3, 2] 300 3 (by norm_num) (by norm_num) (by norm_num) (by unfold DoneWithin; decide)
    (fun k h1 h2 => ⟨3, by simp, by unfold DoneWithin; interval_cases k <;> decide⟩)
  exact ⟨s, h1, h2, h3, h4⟩

/-- with the limit two, the function that needs three fields is not finished, and the field 2 is used nevertheless -/
example : ∃ s, reconstruct exEnv 2 [1, 3, 2] = some s ∧ s.done = true ∧ (∃ r ∈ s.recs, r.1 = false) ∧ s.used = [0, 1, 2] := by
  obtain ⟨s, h1, h2, -, h3, h4⟩ := C68_at_most_violated exEnv [1, 3, 2] 2 (by norm_num) ⟨3, by simp, by unfold DoneWithin; decide⟩
  exact ⟨s, h1, h3, h4 (fun _ => rfl), h2⟩

/-- a function that needs 400 fields, with the default limit -/
example : reconstruct exEnv 300 [400] = none := C68_default_violated exEnv [400] 300 le_rfl ⟨400, by simp, by unfold DoneWithin; decide +kernel⟩

/-- options: both scans; safe mode after the factor scan was enabled; one variable; no FLINT -/
example : (([Call.enableShiftScan, .enableFactorScan].foldl (Opts.call true) { n := 2 }).phases 1).1 = [.factors, .shift, .run] ∧
    (([Call.enableFactorScan, .setSafe].foldl (Opts.call true) { n := 2 }).phases 1).1 = [.start, .run] ∧
    (([Call.enableShiftScan, .enableFactorScan].foldl (Opts.call true) { n := 1 }).phases 1).1 = [.factors, .start, .run] ∧
    (([Call.enableFactorScan, .stopAfterFactorScan].foldl (Opts.call true) { n := 2 }).phases 1).1 = [.factors] ∧
    (([Call.enableFactorScan, .stopAfterFactorScan].foldl (Opts.call false) { n := 2 }).phases 1).1 = [.start, .run] := by decide

end FireFly.Driver
