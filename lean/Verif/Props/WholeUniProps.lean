import Verif.Lemmas.WholeUniObj
import Verif.Props.FirstFeedProps
import Verif.Props.NeededFeedProps
/-!
# C71: a whole run with one variable

Several rational functions of one variable, all prime fields, any schedule of the threads in each of them: every function is reported right, or too early (a guess that passed the test although the coefficients were still too large), or the run is not finished and the coefficients are
too large for the product of the primes. `C71_run` is the statement about the results, `C71_all` says when the run is finished, `C71_first_ends` and `C71_later_ends` that every field comes to its end.
-/
set_option linter.all false
namespace FireFly.WholeUni
open Polynomial

lemma fn_open (x : Fn) (h : x.cross?.isSome) : x = .open (x.cross?.get h) := by
  cases x with
  | «open» c => rfl
  | reported N D => cases h
  | failed => cases h

lemma open_cross {ι : Type} {st : ι → Fn} (i : Open st) : st i.1 = .open i.cross := fn_open _ i.2

section
variable {ι : Type} [DecidableEq ι] {n d : ι → ℚ[X]} {inv : ℤ → ℤ → ℤ} {gt : (p : ℕ) → ZMod p → ZMod p → Bool} {ord : List ℕ → List ℕ}

lemma first_start {F : Type} [DecidableEq F] {objs : ι → First.Obj F} {good : F × List ℕ → Prop} {ts rest more : List F} {s0 : First.Fld F objs} (h1 : ts ≠ []) (h2 : more.length = ts.length) (h3 : (ts ++ rest ++ more).Nodup)
    (h4 : ∀ t ∈ ts ++ rest ++ more, good (t, [])) (h5 : ∀ i, (ts.map (fun t => (t, ([] : List ℕ)))).foldlM (objs i).feed (objs i).init = some (s0.st i)) (h6 : s0 = First.Fld.start objs 1 ts rest more s0.st) :
    First.Starts objs 1 good ts rest more s0 := ⟨h1, h2, h3, h4, h5, h6⟩

lemma first_sound (hord : ∀ l, (ord l).Perm l) {f : PField ι} (hnorm : ∀ i, (d i).trailingCoeff = 1) (hf : ∀ i, FirstGood (n i) (d i) f i) {ts rest more : List (ZMod f.p)} {s0 s : First.Fld (ZMod f.p) (f.firstObjs inv gt ord)}
    (h0 : First.Starts (f.firstObjs inv gt ord) 1 f.good ts rest more s0) (hr : haveI := f.fact; Relation.ReflTransGen (First.Step (f.firstObjs inv gt ord) 1 f.good) s0 s) :
    haveI := f.fact
    First.Sound (f.firstObjs inv gt ord) 1 f.good (fun _ => 0) (fun i => FirstInv inv gt ord (n i) (d i) f i) (fun _ _ => true) (ts.length + rest.length + more.length) s := by
  haveI := f.fact
  induction hr with
  | refl => exact First.Sound.start (fun i => first_ok hord (hnorm i) (hf i)) h0
  | tail _ h ih => exact ih.step (fun i => first_ok hord (hnorm i) (hf i)) h

lemma first_all (hord : ∀ l, (ord l).Perm l) {f : PField ι} (hnorm : ∀ i, (d i).trailingCoeff = 1) (hf : ∀ i, FirstGood (n i) (d i) f i) {st : ι → Fn} (h : FirstField inv gt ord f st) (i : ι) :
    ∃ c, st i = .open c ∧ UniOK (n i) (d i) f.p c ∧ c.primeNumber = 1 := by
  haveI := f.fact
  obtain ⟨ts, rest, more, s0, s, h1, h2, h3, h4, h5, h6, hr, hdone, hst⟩ := h
  have hs := first_sound hord hnorm hf (first_start h1 h2 h3 h4 h5 h6) hr
  obtain ⟨φ, hφ⟩ := hs.inv i
  obtain ⟨c, e1, e2, e3⟩ := (first_ok (inv := inv) (gt := gt) hord (hnorm i) (hf i)).result _ _ _ hφ (hdone i)
  refine ⟨c, ?_, e2, e3⟩
  rw [hst i, e1]; rfl

/-- between two prime fields -/
def Mid (n d : ι → ℚ[X]) (M : ℤ) (j : ℕ) (st : ι → Fn) (fs : List (PField ι)) : Prop :=
  ∀ i c, st i = .open c → UniOK (n i) (d i) M c ∧ c.primeNumber = j ∧ AllGood (n i) (d i) i M fs

lemma objs_ok (hinv : InvertSpec inv) (hgt : ∀ p [Fact p.Prime], PivotOrder (gt p)) (hord : ∀ l, (ord l).Perm l) {M : ℤ} {j : ℕ} {st : ι → Fn} {f : PField ι} {fs : List (PField ι)} (hm : Mid n d M j st (f :: fs)) (hj : j + 1 < 300) (i : Open st) :
    haveI := f.fact
    (f.laterObjs inv gt ord st i).OK 1 f.good [(1, i.cross.numEqn)] := by
  haveI := f.fact
  obtain ⟨hok, hnum, hg, h1, h2, -⟩ := hm i.1 i.cross (open_cross i)
  exact later_ok hinv (hgt f.p) hord hg hok h1 (by omega) h2

lemma later_sound (hinv : InvertSpec inv) (hgt : ∀ p [Fact p.Prime], PivotOrder (gt p)) (hord : ∀ l, (ord l).Perm l) {M : ℤ} {j : ℕ} {st : ι → Fn} {f : PField ι} {fs : List (PField ι)} (hm : Mid n d M j st (f :: fs)) (hj : j + 1 < 300)
    {ts : List (ZMod f.p)} (hnd : ts.Nodup) (hgood : ∀ t ∈ ts, f.good (t, [])) {s : Needed.Fld (ZMod f.p) (f.laterObjs inv gt ord st)}
    (hr : haveI := f.fact; Relation.ReflTransGen (Needed.Step (f.laterObjs inv gt ord st) 1 f.good) (Needed.Fld.start (f.laterObjs inv gt ord st) 1 ts) s) :
    haveI := f.fact
    Needed.Sound (f.laterObjs inv gt ord st) 1 f.good (fun i => [(1, i.cross.numEqn)]) ts.length s := by
  haveI := f.fact
  induction hr with
  | refl => exact Needed.Sound.start hnd hgood
  | tail _ h ih => exact ih.step (objs_ok hinv hgt hord hm hj) h

lemma later_right (hinv : InvertSpec inv) (hgt : ∀ p [Fact p.Prime], PivotOrder (gt p)) (hord : ∀ l, (ord l).Perm l) {M : ℤ} {j : ℕ} {st : ι → Fn} {f : PField ι} {fs : List (PField ι)} (hm : Mid n d M j st (f :: fs)) (hj : j + 1 < 300)
    {ts : List (ZMod f.p)} {s : Needed.Fld (ZMod f.p) (f.laterObjs inv gt ord st)} (hs : haveI := f.fact; Needed.Sound (f.laterObjs inv gt ord st) 1 f.good (fun i => [(1, i.cross.numEqn)]) ts.length s) (i : Open st)
    (hd : (f.laterObjs inv gt ord st i).done (s.st i) = true) : LaterRight (n i.1) (d i.1) M j f i.1 (s.st i) := by
  haveI := f.fact
  obtain ⟨hok, hnum, hg, h1, h2, -⟩ := hm i.1 i.cross (open_cross i)
  obtain ⟨s1, e1, e2⟩ := later_state (inv := inv) (ord := ord) hinv (hgt f.p) hord hg hok h1 (by omega) h2 (hs.gotNodup i) (fun q hq => hs.good q (hs.gotSub i q hq))
  have e : s.st i = s1 := Option.some.inj ((hs.st i).symm.trans e1)
  have hdd : (s1 : St f.p).done = true := by rw [← e]; exact hd
  rcases e2 with ⟨u, hu, -⟩ | e2
  · unfold St.done at hdd; rw [hu] at hdd; cases hdd
  · rw [hnum] at e2
    have : (s.st i : St f.p) = s1 := e
    rw [this]; exact e2

lemma later_all (hinv : InvertSpec inv) (hgt : ∀ p [Fact p.Prime], PivotOrder (gt p)) (hord : ∀ l, (ord l).Perm l) {M : ℤ} {j : ℕ} {st st' : ι → Fn} {f : PField ι} {fs : List (PField ι)} (hm : Mid n d M j st (f :: fs)) (hj : j + 1 < 300)
    (h : LaterField inv gt ord f st st') :
    (∀ i, (∀ c, st i ≠ .open c) → st' i = st i) ∧ Mid n d (M * f.p) (j + 1) st' fs ∧
    ∀ i c, st i = .open c →
      (∃ N D t, st' i = .reported N D ∧ f.good (t, []) ∧ (haveI := f.fact; Certified (n i) (d i) M f.p (t, f.value i t) N D) ∧ (AllSmall (n i) (d i) M → rnPoly N = n i ∧ rnPoly D = d i)) ∨
      ∃ c', st' i = .open c' ∧ ¬ AllSmall (n i) (d i) M := by
  haveI := f.fact
  obtain ⟨-, ts, s, hts, hnd, hgood, hr, hdone, h1, h2⟩ := h
  have hs := later_sound hinv hgt hord hm hj hnd hgood hr
  have hcl : ∀ i, (∀ c, st i ≠ .open c) → st' i = st i := by
    intro i hi
    apply h2
    rcases hsti : st i with c | ⟨N, D⟩ | _
    · exact absurd hsti (hi c)
    · rfl
    · rfl
  have hop : ∀ i c, st i = .open c → ∃ x : St f.p, LaterRight (n i) (d i) M j f i x ∧ st' i = Fn.of x.out := by
    intro i c hc
    have hi : ((st i).cross?).isSome := by rw [hc]; rfl
    exact ⟨s.st ⟨i, hi⟩, later_right hinv hgt hord hm hj hs ⟨i, hi⟩ (hdone _), h1 ⟨i, hi⟩⟩
  refine ⟨hcl, ?_, ?_⟩
  · intro i c hc
    by_cases hi : ∃ c0, st i = .open c0
    · obtain ⟨c0, h0⟩ := hi
      obtain ⟨x, r1, r2⟩ := hop i c0 h0
      rcases r1 with ⟨N, D, t, e, -⟩ | ⟨c', e, e1, e2, e3⟩
      · rw [e] at r2; rw [r2] at hc; cases hc
      · rw [e] at r2; rw [r2] at hc
        obtain rfl : c' = c := Fn.open.inj hc
        exact ⟨e1, e2, (hm i c0 h0).2.2.2.2.2⟩
    · rw [hcl i (fun c0 h0 => hi ⟨c0, h0⟩)] at hc
      exact absurd ⟨c, hc⟩ hi
  · intro i c hc
    obtain ⟨x, r1, r2⟩ := hop i c hc
    rcases r1 with ⟨N, D, t, e, e1, e2, e3⟩ | ⟨c', e, e1, e2, e3⟩
    · left
      rw [e] at r2
      exact ⟨N, D, t, r2, e1, e2, e3⟩
    · right
      rw [e] at r2
      exact ⟨c', r2, e3⟩

/-- the further prime fields -/
lemma later_run (hinv : InvertSpec inv) (hgt : ∀ p [Fact p.Prime], PivotOrder (gt p)) (hord : ∀ l, (ord l).Perm l) {st st' : ι → Fn} {fs : List (PField ι)} (h : Later inv gt ord st fs st') :
    ∀ {M : ℤ} {j : ℕ}, Mid n d M j st fs → j + fs.length < 300 →
    (∀ i, (∀ c, st i ≠ .open c) → st' i = st i) ∧
    ∀ i c, st i = .open c →
      (∃ (fs1 : List (PField ι)) (g : PField ι) (fs2 : List (PField ι)) (N D : RnMap) (t : ZMod g.p), fs = fs1 ++ g :: fs2 ∧ st' i = .reported N D ∧ g.good (t, []) ∧
        (haveI := g.fact; Certified (n i) (d i) (M * prod fs1) g.p (t, g.value i t) N D) ∧ (AllSmall (n i) (d i) (M * prod fs1) → rnPoly N = n i ∧ rnPoly D = d i)) ∨
      ∃ c', st' i = .open c' ∧ ∀ (fs1 : List (PField ι)) (g : PField ι) (fs2 : List (PField ι)), fs = fs1 ++ g :: fs2 → ¬ AllSmall (n i) (d i) (M * prod fs1) := by
  induction h with
  | nil st =>
    intro M j hm hj
    refine ⟨fun i h => rfl, fun i c hc => Or.inr ⟨c, hc, ?_⟩⟩
    intro fs1 g fs2 h
    simp at h
  | cons st st1 st2 f fs h1 h2 ih =>
    intro M j hm hj
    simp only [List.length_cons] at hj
    obtain ⟨hcl, hm1, hop⟩ := later_all hinv hgt hord hm (by omega) h1
    obtain ⟨ic, io⟩ := ih hm1 (by omega)
    have hpr : ∀ l : List (PField ι), M * prod (f :: l) = M * f.p * prod l := by intro l; simp [prod, mul_assoc]
    refine ⟨fun i h => ?_, fun i c hc => ?_⟩
    · rw [ic i (by rw [hcl i h]; exact h), hcl i h]
    · rcases hop i c hc with ⟨N, D, t, e1, e2, e3, e4⟩ | ⟨c', e1, e2⟩
      · left
        exact ⟨[], f, fs, N, D, t, rfl, by rw [ic i (by rw [e1]; intro c h; cases h), e1], e2, by simpa [prod] using e3, by simpa [prod] using e4⟩
      · rcases io i c' e1 with ⟨fs1, g, fs2, N, D, t, x1, x2, x3, x4, x5⟩ | ⟨c'', x1, x2⟩
        · left
          exact ⟨f :: fs1, g, fs2, N, D, t, by rw [x1]; rfl, x2, x3, by rw [hpr]; exact x4, by rw [hpr]; exact x5⟩
        · right
          refine ⟨c'', x1, ?_⟩
          intro fs1 g fs2 h
          rcases fs1 with _ | ⟨f', fs1⟩
          · simpa [prod] using e2
          · simp only [List.cons_append, List.cons.injEq] at h
            obtain ⟨rfl, h⟩ := h
            rw [hpr]
            exact x2 fs1 g fs2 h

/-- **The results of a whole run with one variable**, for any number of functions, any primes, any schedule of the threads in each prime field, any stop between two fields, any random numbers: each function is reported right; or it was reported too early, before its coefficients were small
for the product of the primes; or it is not reported, and in none of the further fields were its coefficients small for the product of the primes before. -/
theorem C71_run (hinv : InvertSpec inv) (hgt : ∀ p [Fact p.Prime], PivotOrder (gt p)) (hord : ∀ l, (ord l).Perm l) {f : PField ι} {fs : List (PField ι)} (hyp : Hyp n d f fs) {st : ι → Fn} (h : Run inv gt ord f fs st) (i : ι) :
    (∃ N D, st i = .reported N D ∧ ((rnPoly N = n i ∧ rnPoly D = d i) ∨ Early (n i) (d i) i f fs N D)) ∨
    ∃ c, st i = .open c ∧ ∀ (fs1 : List (PField ι)) (g : PField ι) (fs2 : List (PField ι)), fs = fs1 ++ g :: fs2 → ¬ AllSmall (n i) (d i) (f.p * prod fs1) := by
  obtain ⟨st1, h1, h2⟩ := h
  have hfst := first_all (inv := inv) (gt := gt) hord hyp.norm hyp.first h1
  have hm : Mid n d f.p 1 st1 fs := by
    intro i c hc
    obtain ⟨c', hst, hok, hnum⟩ := hfst i
    rw [hc] at hst
    obtain rfl := Fn.open.inj hst
    exact ⟨hok, hnum, hyp.later i⟩
  obtain ⟨-, ho⟩ := later_run hinv hgt hord h2 hm (by have := hyp.limit; omega)
  obtain ⟨c, hst, hok, hnum⟩ := hfst i
  rcases ho i c hst with ⟨fs1, g, fs2, N, D, t, x1, x2, x3, x4, x5⟩ | ⟨c', x1, x2⟩
  · left
    refine ⟨N, D, x2, ?_⟩
    by_cases hs : AllSmall (n i) (d i) (f.p * prod fs1)
    · exact Or.inl (x5 hs)
    · exact Or.inr ⟨fs1, g, fs2, t, x1, x3, x4, hs⟩
  · exact Or.inr ⟨c', x1, x2⟩

/-- **When a run is finished:** if there is a further prime field before which the coefficients of all functions are small for the product of the primes, all functions have been reported. -/
theorem C71_all (hinv : InvertSpec inv) (hgt : ∀ p [Fact p.Prime], PivotOrder (gt p)) (hord : ∀ l, (ord l).Perm l) {f : PField ι} {fs : List (PField ι)} (hyp : Hyp n d f fs) {st : ι → Fn} (h : Run inv gt ord f fs st)
    {fs1 : List (PField ι)} {g : PField ι} {fs2 : List (PField ι)} (hfs : fs = fs1 ++ g :: fs2) (hsmall : ∀ i, AllSmall (n i) (d i) (f.p * prod fs1)) (i : ι) :
    ∃ N D, st i = .reported N D ∧ ((rnPoly N = n i ∧ rnPoly D = d i) ∨ Early (n i) (d i) i f fs N D) := by
  rcases C71_run hinv hgt hord hyp h i with h | ⟨c, -, h⟩
  · exact h
  · exact absurd (hsmall i) (h fs1 g fs2 hfs)

lemma prod_one_le (fs : List (PField ι)) : 1 ≤ prod fs := by
  induction fs with
  | nil => simp [prod]
  | cons f fs ih =>
    have : (1 : ℤ) ≤ f.p := by exact_mod_cast f.fact.out.pos
    have e : prod (f :: fs) = f.p * prod fs := by simp [prod]
    rw [e]; nlinarith

lemma small_more {q : ℚ} {M : ℤ} (h : Small q M) (fs : List (PField ι)) : Small q (M * prod fs) := by
  have h1 := prod_one_le fs
  have h2 := h.1
  have h3 : 0 ≤ M := by nlinarith [sq_nonneg q.num]
  refine ⟨lt_of_lt_of_le h.1 ?_, lt_of_lt_of_le h.2 ?_⟩ <;> nlinarith

/-- **No wrong result:** if the coefficients of the function are small already for the first prime, what is reported is right. If there is a further prime field, it is reported. -/
theorem C71_right (hinv : InvertSpec inv) (hgt : ∀ p [Fact p.Prime], PivotOrder (gt p)) (hord : ∀ l, (ord l).Perm l) {f : PField ι} {fs : List (PField ι)} (hyp : Hyp n d f fs) {st : ι → Fn} (h : Run inv gt ord f fs st) (i : ι)
    (hsmall : AllSmall (n i) (d i) f.p) : (∃ N D, st i = .reported N D ∧ rnPoly N = n i ∧ rnPoly D = d i) ∨ (fs = [] ∧ ∃ c, st i = .open c) := by
  have mono : ∀ fs1 : List (PField ι), AllSmall (n i) (d i) (f.p * prod fs1) := fun fs1 m => ⟨small_more (hsmall m).1 fs1, small_more (hsmall m).2 fs1⟩
  rcases C71_run hinv hgt hord hyp h i with ⟨N, D, h1, h2 | ⟨fs1, g, fs2, t, x1, x2, x3, x4⟩⟩ | ⟨c, hc, h⟩
  · exact Or.inl ⟨N, D, h1, h2⟩
  · exact absurd (mono fs1) x4
  · right
    rcases fs with _ | ⟨g, fs⟩
    · exact ⟨rfl, c, hc⟩
    · exact absurd (mono []) (h [] g fs rfl)

/-! ## every field comes to its end -/

/-- **The first prime field:** in every schedule, when nothing is left to do, the field has ended; there is no deadlock, if there are enough allowed values. -/
theorem C71_first_ends (hord : ∀ l, (ord l).Perm l) {f : PField ι} {fs : List (PField ι)} (hyp : Hyp n d f fs) {ts rest more : List (ZMod f.p)} {s0 s : First.Fld (ZMod f.p) (f.firstObjs inv gt ord)}
    (h0 : First.Starts (f.firstObjs inv gt ord) 1 f.good ts rest more s0) (hr : haveI := f.fact; First.Reaches (f.firstObjs inv gt ord) 1 f.good s0 s) :
    (s.Quiet → ∃ st, FirstField inv gt ord f st ∧ ∀ i, st i = Fn.of (St.out (s.st i))) ∧
    ((∃ l : List (ZMod f.p), l.Nodup ∧ First.cnt s.computed [] + (ts.length + rest.length + more.length) ≤ l.length ∧ ∀ t ∈ l, f.good (t, [])) → ¬ s.Quiet → haveI := f.fact; ∃ s', First.Step (f.firstObjs inv gt ord) 1 f.good s s') := by
  haveI := f.fact
  have hok := fun i => first_ok (inv := inv) (gt := gt) hord (hyp.norm i) (hyp.first i)
  have hs := first_sound hord hyp.norm hyp.first h0 hr
  refine ⟨fun hq => ?_, fun hl hq => ?_⟩
  · refine ⟨fun i => Fn.of (St.out (s.st i)), ⟨ts, rest, more, s0, s, h0.bunch, h0.extra, h0.nodup, h0.good, ?_, ?_, hr, ?_, fun i => rfl⟩, fun i => rfl⟩
    · exact h0.fed
    · exact h0.eq
    · intro i
      exact hs.quiet hok (by have := List.length_pos_iff.mpr h0.bunch; omega) hq i
  · exact hs.next hok hl (fun i o => ⟨[], List.nodup_nil, by simp, by simp⟩) hq

/-- **The first prime field:** every schedule ends: for a given number of functions and a given number of threads (probes at the start) there is a bound for the number of steps, the same for all schedules and all choices of values. -/
theorem C71_first_bound [Fintype ι] (hord : ∀ l, (ord l).Perm l) {f : PField ι} {fs : List (PField ι)} (hyp : Hyp n d f fs) (T : ℕ) :
    ∃ bound, ∀ (ts rest more : List (ZMod f.p)) (s0 : First.Fld (ZMod f.p) (f.firstObjs inv gt ord)), First.Starts (f.firstObjs inv gt ord) 1 f.good ts rest more s0 → ts.length + rest.length + more.length = T →
      ∀ (k : ℕ) (g : ℕ → First.Fld (ZMod f.p) (f.firstObjs inv gt ord)), g 0 = s0 → (haveI := f.fact; ∀ j < k, First.Step (f.firstObjs inv gt ord) 1 f.good (g j) (g (j + 1))) → k ≤ bound ∧ (g k).probes.length ≤ bound := by
  haveI := f.fact
  exact First.ends_of_ok (fun i => first_ok (inv := inv) (gt := gt) hord (hyp.norm i) (hyp.first i)) T

lemma Later.snoc {st st1 st2 : ι → Fn} {fs : List (PField ι)} {g : PField ι} (h : Later inv gt ord st fs st1) (h2 : LaterField inv gt ord g st1 st2) : Later inv gt ord st (fs ++ [g]) st2 := by
  induction h with
  | nil st => exact .cons _ _ _ _ _ h2 (.nil _)
  | cons a b c f fs x y ih => exact .cons _ _ _ _ _ x (ih h2)

lemma Later.mid (hinv : InvertSpec inv) (hgt : ∀ p [Fact p.Prime], PivotOrder (gt p)) (hord : ∀ l, (ord l).Perm l) {st st' : ι → Fn} {fs : List (PField ι)} (h : Later inv gt ord st fs st') :
    ∀ {M : ℤ} {j : ℕ} (fs2 : List (PField ι)), Mid n d M j st (fs ++ fs2) → j + fs.length < 300 → Mid n d (M * prod fs) (j + fs.length) st' fs2 := by
  induction h with
  | nil st => intro M j fs2 hm hj; simpa [prod] using hm
  | cons st st1 st2 f fs h1 h2 ih =>
    intro M j fs2 hm hj
    simp only [List.length_cons] at hj
    obtain ⟨-, hm1, -⟩ := later_all hinv hgt hord hm (by omega) h1
    have := ih fs2 hm1 (by omega)
    have e1 : M * f.p * prod fs = M * prod (f :: fs) := by simp [prod, mul_assoc]
    have e2 : j + 1 + fs.length = j + (f :: fs).length := by simp only [List.length_cons]; omega
    rwa [e1, e2] at this

lemma run_mid (hinv : InvertSpec inv) (hgt : ∀ p [Fact p.Prime], PivotOrder (gt p)) (hord : ∀ l, (ord l).Perm l) {f : PField ι} {fs fs2 : List (PField ι)} (hyp : Hyp n d f (fs ++ fs2)) {st : ι → Fn} (h : Run inv gt ord f fs st) :
    Mid n d (f.p * prod fs) (1 + fs.length) st fs2 := by
  obtain ⟨st1, h1, h2⟩ := h
  have hlim := hyp.limit
  rw [List.length_append] at hlim
  refine h2.mid hinv hgt hord fs2 ?_ (by omega)
  intro i c hc
  obtain ⟨c', hst, hok, hnum⟩ := first_all (inv := inv) (gt := gt) hord hyp.norm hyp.first h1 i
  rw [hc] at hst
  obtain rfl := Fn.open.inj hst
  exact ⟨hok, hnum, hyp.later i⟩

lemma eqn_le {n d : ℚ[X]} {M : ℤ} {c : UniCross} (h : UniOK n d M c) : c.numEqn ≤ n.support.card + d.support.card := by
  obtain ⟨y1, y2, y3, y4⟩ := h.unknown
  rw [h.eqn, ← List.toFinset_card_of_nodup y1, ← List.toFinset_card_of_nodup y2]
  exact Nat.add_le_add (Finset.card_le_card (fun e he => y3 e (List.mem_toFinset.mp he))) (Finset.card_le_card (fun e he => (y4 e (List.mem_toFinset.mp he)).1))

/-- **A further prime field:** after any run in the fields `f :: fs` with a function that is not reported, whatever the threads have done so far in the next field `g`: there is no deadlock as long as something is left to do; from here the threads can come to the end, and when nothing is left to
do, the field has ended: the run goes on to the next field. -/
theorem C71_later_ends [Fintype ι] (hinv : InvertSpec inv) (hgt : ∀ p [Fact p.Prime], PivotOrder (gt p)) (hord : ∀ l, (ord l).Perm l) {f : PField ι} {fs : List (PField ι)} {g : PField ι} {fs2 : List (PField ι)} (hyp : Hyp n d f (fs ++ g :: fs2)) (hsup : Supply n d g)
    {st : ι → Fn} (h : Run inv gt ord f fs st) (hopen : Nonempty (Open st)) {ts : List (ZMod g.p)} (hts : ts ≠ []) (hnd : ts.Nodup) (hgood : ∀ t ∈ ts, g.good (t, [])) {s : Needed.Fld (ZMod g.p) (g.laterObjs inv gt ord st)}
    (hr : haveI := g.fact; Needed.Reaches (g.laterObjs inv gt ord st) 1 g.good (Needed.Fld.start (g.laterObjs inv gt ord st) 1 ts) s) :
    haveI := g.fact
    (s.Quiet → ∃ st', Run inv gt ord f (fs ++ [g]) st' ∧ ∀ i : Open st, st' i.1 = Fn.of (St.out (s.st i))) ∧
    (¬ s.Quiet → ∃ s', Needed.Step (g.laterObjs inv gt ord st) 1 g.good s s') ∧
    ∃ s', Needed.Reaches (g.laterObjs inv gt ord st) 1 g.good s s' ∧ s'.Quiet := by
  haveI := g.fact
  have hm := run_mid hinv hgt hord hyp h
  have hlim := hyp.limit
  rw [List.length_append, List.length_cons] at hlim
  have hok := objs_ok (inv := inv) (ord := ord) hinv hgt hord hm (by omega)
  have hmany : ∀ i : Open st, ∀ el ∈ [(1, i.cross.numEqn)], ∃ ts : List (ZMod g.p), ts.Nodup ∧ el.2 ≤ ts.length ∧ ∀ t ∈ ts, g.good (t, Needed.ones 1 el.1) := by
    intro i el hel
    rw [List.mem_singleton] at hel
    subst hel
    obtain ⟨ts, h1, h2, h3⟩ := hsup i.1
    exact ⟨ts, h1, le_trans (eqn_le (hm i.1 i.cross (open_cross i)).1) h2, h3⟩
  haveI : Fintype (Open st) := Fintype.ofFinite _
  have hs := later_sound hinv hgt hord hm (by omega) hnd hgood hr
  refine ⟨fun hq => ?_, fun hq => hs.next hok hmany hq, Needed.finishes_of_ok hok hnd hgood hmany s hr⟩
  obtain ⟨st0, h1, h2⟩ := h
  classical
  obtain ⟨st', hst'⟩ : ∃ st' : ι → Fn, st' = fun i => if hi : ((st i).cross?).isSome then Fn.of (St.out (s.st ⟨i, hi⟩)) else st i := ⟨_, rfl⟩
  have e1 : ∀ i : Open st, st' i.1 = Fn.of (St.out (s.st i)) := by
    intro i
    rw [hst']
    simp only [dif_pos i.2]
  refine ⟨st', ⟨st0, h1, h2.snoc ⟨hopen, ts, s, hts, hnd, hgood, hr, fun i => hs.quiet hok (List.length_pos_iff.mpr hts) hq i, e1, fun i hi => ?_⟩⟩, e1⟩
  rw [hst']
  simp only [dif_neg (show ¬ ((st i).cross?).isSome by rw [hi]; decide)]

/-- **A further prime field:** every schedule ends: after any run in the fields `f :: fs` there is a bound for the number of steps in the next field `g` that depends only on the number of probes at the start. -/
theorem C71_later_bound [Fintype ι] (hinv : InvertSpec inv) (hgt : ∀ p [Fact p.Prime], PivotOrder (gt p)) (hord : ∀ l, (ord l).Perm l) {f : PField ι} {fs : List (PField ι)} {g : PField ι} {fs2 : List (PField ι)} (hyp : Hyp n d f (fs ++ g :: fs2))
    {st : ι → Fn} (h : Run inv gt ord f fs st) (T : ℕ) :
    ∃ bound, ∀ ts : List (ZMod g.p), ts.length = T → ts.Nodup → (∀ t ∈ ts, g.good (t, [])) → ∀ (m : ℕ) (w : ℕ → Needed.Fld (ZMod g.p) (g.laterObjs inv gt ord st)),
      (haveI := g.fact; w 0 = Needed.Fld.start (g.laterObjs inv gt ord st) 1 ts) → (haveI := g.fact; ∀ j < m, Needed.Step (g.laterObjs inv gt ord st) 1 g.good (w j) (w (j + 1))) → m ≤ bound := by
  haveI := g.fact
  have hm := run_mid hinv hgt hord hyp h
  have hlim := hyp.limit
  rw [List.length_append, List.length_cons] at hlim
  have hok := objs_ok (inv := inv) (ord := ord) hinv hgt hord hm (by omega)
  haveI : Fintype (Open st) := Fintype.ofFinite _
  refine ⟨∑ i : Open st, (((([(1, i.cross.numEqn)] : List (ℕ × ℕ))).map (fun el => 2 + Fintype.card (Open st) * el.2)).sum + T), fun ts hT hnd hgood m w h0 hw => ?_⟩
  have := Needed.steps_of_ok hok hnd hgood m w h0 hw
  rw [hT] at this
  exact this

/-- **A further prime field: no surplus:** whatever the threads do, no probe is queued twice, and there are never more probes than at the start or than one of the functions that are not reported has monomials, in numerator and denominator together. -/
theorem C71_later_probes (hinv : InvertSpec inv) (hgt : ∀ p [Fact p.Prime], PivotOrder (gt p)) (hord : ∀ l, (ord l).Perm l) {f : PField ι} {fs : List (PField ι)} {g : PField ι} {fs2 : List (PField ι)} (hyp : Hyp n d f (fs ++ g :: fs2))
    {st : ι → Fn} (h : Run inv gt ord f fs st) {ts : List (ZMod g.p)} (hnd : ts.Nodup) (hgood : ∀ t ∈ ts, g.good (t, [])) {s : Needed.Fld (ZMod g.p) (g.laterObjs inv gt ord st)}
    (hr : haveI := g.fact; Needed.Reaches (g.laterObjs inv gt ord st) 1 g.good (Needed.Fld.start (g.laterObjs inv gt ord st) 1 ts) s) :
    s.probes.Nodup ∧ (First.cnt s.probes [] ≤ ts.length ∨ ∃ i : Open st, First.cnt s.probes [] ≤ (n i.1).support.card + (d i.1).support.card) := by
  haveI := g.fact
  have hm := run_mid hinv hgt hord hyp h
  have hlim := hyp.limit
  rw [List.length_append, List.length_cons] at hlim
  have hs := later_sound hinv hgt hord hm (by omega) hnd hgood hr
  refine ⟨hs.nodup, ?_⟩
  rcases hs.upper 1 with e | ⟨i, o, r, -, h1, h2⟩
  · rw [if_pos rfl] at e
    exact Or.inl e
  · right
    rw [List.mem_singleton] at h1
    refine ⟨i, le_trans h2 ?_⟩
    rw [(Prod.mk.inj h1).2]
    exact eqn_le (hm i.1 i.cross (open_cross i)).1

lemma AllGood.left {n d : ℚ[X]} {i : ι} {a c : List (PField ι)} : ∀ {M : ℤ}, AllGood n d i M (a ++ c) → AllGood n d i M a := by
  induction a with
  | nil => intro M h; trivial
  | cons f a ih => intro M h; exact ⟨h.1, h.2.1, h.2.2.1, ih h.2.2.2⟩

lemma Hyp.left {f : PField ι} {a c : List (PField ι)} (h : Hyp n d f (a ++ c)) : Hyp n d f a :=
  ⟨h.norm, h.first, fun i => (h.later i).left, by have := h.limit; rw [List.length_append] at this; omega⟩

/-- **A run can be completed:** every run that has got through the fields `f :: fs1` can go on, through the fields of `fs2`, until all functions are reported or these fields are used up. -/
theorem C71_complete [Fintype ι] (hinv : InvertSpec inv) (hgt : ∀ p [Fact p.Prime], PivotOrder (gt p)) (hord : ∀ l, (ord l).Perm l) {f : PField ι} {fs1 fs2 : List (PField ι)} (hyp : Hyp n d f (fs1 ++ fs2))
    (hsup : ∀ g ∈ fs2, Supply n d g ∧ ∃ t, g.good (t, [])) {st : ι → Fn} (h : Run inv gt ord f fs1 st) :
    ∃ (fs : List (PField ι)) (st' : ι → Fn), fs <+: fs2 ∧ Run inv gt ord f (fs1 ++ fs) st' ∧ (fs = fs2 ∨ ∀ i, ∃ N D, st' i = .reported N D ∧ ((rnPoly N = n i ∧ rnPoly D = d i) ∨ Early (n i) (d i) i f (fs1 ++ fs) N D)) := by
  have ends : ∀ (a b : List (PField ι)) (st : ι → Fn), Hyp n d f (a ++ b) → Run inv gt ord f a st → ¬ Nonempty (Open st) → ∀ i, ∃ N D, st i = .reported N D ∧ ((rnPoly N = n i ∧ rnPoly D = d i) ∨ Early (n i) (d i) i f a N D) := by
    intro a b st hyp h ho i
    rcases C71_run hinv hgt hord hyp.left h i with h1 | ⟨c, hc, -⟩
    · exact h1
    · exact absurd ⟨i, by rw [hc]; rfl⟩ ho
  induction fs2 generalizing fs1 st with
  | nil => exact ⟨[], st, List.prefix_rfl, by simpa using h, Or.inl rfl⟩
  | cons g fs2 ih =>
    by_cases ho : Nonempty (Open st)
    · obtain ⟨hs, t, ht⟩ := hsup g (by simp)
      haveI := g.fact
      obtain ⟨-, -, s, h1, h2⟩ := C71_later_ends hinv hgt hord hyp hs h ho (ts := [t]) (by simp) (by simp) (by simpa using ht) Relation.ReflTransGen.refl
      obtain ⟨st1, h3, -⟩ := (C71_later_ends hinv hgt hord hyp hs h ho (ts := [t]) (by simp) (by simp) (by simpa using ht) h1).1 h2
      have e : ∀ x : List (PField ι), fs1 ++ [g] ++ x = fs1 ++ g :: x := by intro x; simp
      obtain ⟨fs, st', y1, y2, y3⟩ := ih (fs1 := fs1 ++ [g]) (st := st1) (by rw [e]; exact hyp) (fun x hx => hsup x (by simp [hx])) h3
      rw [e] at y2 y3
      refine ⟨g :: fs, st', (List.cons_prefix_cons).mpr ⟨rfl, y1⟩, y2, y3.imp (fun h => by rw [h]) id⟩
    · refine ⟨[], st, List.nil_prefix, by simpa using h, Or.inr ?_⟩
      have := ends fs1 (g :: fs2) st hyp h ho
      simpa using this

end

end FireFly.WholeUni
