import Verif.Lemmas.Whole
/-!
# C69: a whole run

Several rational functions in several variables, all prime fields, any schedule of the threads in each of them: every function is reported right, or too early in the sense of C46 (a guess that passed the test although the coefficients were still
too large), or the run is not finished and the coefficients are too large for the product of the primes. `C69_run` is the statement about the results, `C69_all` says when the run is finished, `C69_first_ends` and `C69_later_ends` that every field comes to its end.
-/
set_option linter.all false
namespace FireFly.Whole
open MvPolynomial RRun FFMap

section
variable {ι : Type} [DecidableEq ι] {k : ℕ} {n d : ι → MvPolynomial ℕ ℚ}

lemma vars_scale {l : ℚ} (l0 : l ≠ 0) {g : MvPolynomial ℕ ℚ} (h : InVars k g) : InVars k (C l * g) := by
  intro m hm
  rw [support_scale l0] at hm
  exact h m hm

lemma first_all {inv : ℤ → ℤ → ℤ} {ord : Order} (hord : ord.OK) (hn : ∀ i, InVars k (n i)) (hd : ∀ i, InVars k (d i)) (hlone : ∀ i, ∃ g ∈ [n i, d i], ∃ m ∈ g.support, ∀ m' ∈ g.support, m'.degree = m.degree → m' = m)
    {f : PField ι} (hf : ∀ i, ∃ (u : ZMod f.p) (mN mD : ℕ), FirstGood k (n i) (d i) f i u mN mD) {st : ι → Fn} (h : FirstField inv ord k f st) (i : ι) :
    ∃ (l : ℚ) (b : Bool) (e : List ℕ) (c : Cross), l ≠ 0 ∧ Normalized k (C l * n i) (C l * d i) b e ∧ st i = .open c ∧ OK k (C l * n i) (C l * d i) b e f.p c ∧ c.primeNumber = 1 := by
  haveI := f.fact
  obtain ⟨ts, rest, more, s0, s, h0, hr, hdone, hst⟩ := h
  choose u mN mD hg using hf
  have hdesc := fun i => (hg i).described
  obtain ⟨L, M, J, early, hok⟩ := First.all_ok hdesc
  have hs := First.reach_sound hok h0 hr
  have hright := First.C66_done hdesc ts rest more s0 s h0 hr i (hdone i)
  obtain ⟨l, b, e, c, h1, h2, h3, h4, h5⟩ := first_one (inv := inv) hord (hn i) (hd i) (hlone i) (hg i) (got := s.got i) (fun q hq => hs.good q (hs.gotProbes i q hq)) (First.fold h0 hr i) hright
  refine ⟨l, b, e, c, h1, h2, ?_, h4, h5⟩
  rw [hst i, h3]; rfl

/-- between two prime fields -/
def Mid (k : ℕ) (n d : ι → MvPolynomial ℕ ℚ) (M : ℤ) (j : ℕ) (st : ι → Fn) (fs : List (PField ι)) : Prop :=
  ∀ i c, st i = .open c → ∃ (l : ℚ) (b : Bool) (e : List ℕ), l ≠ 0 ∧ Normalized k (C l * n i) (C l * d i) b e ∧ OK k (C l * n i) (C l * d i) b e M c ∧ c.primeNumber = j ∧ AllGood k (C l * n i) (C l * d i) b e i M fs

lemma fn_open (x : Fn) (h : x.cross?.isSome) : x = .open (x.cross?.get h) := by
  cases x with
  | «open» c => rfl
  | closed o => cases h

lemma open_cross {st : ι → Fn} (i : Open st) : st i.1 = .open i.cross := fn_open _ i.2

lemma later_objs (hk : 2 ≤ k) (hn : ∀ i, InVars k (n i)) (hd : ∀ i, InVars k (d i)) {M : ℤ} {j : ℕ} {st : ι → Fn} {f : PField ι} {fs : List (PField ι)} (hm : Mid k n d M j st (f :: fs)) (i : Open st) : haveI := f.fact
    ∃ g, i.cross.coefs.recRatCoef = some g ∧ f.laterObjs st i = RLater.obj (cfgOf f i.1 i.cross g) i.cross.unNum i.cross.unDen (f.value i.1) ∧
      ∃ right, Needed.Described k f.good (f.laterObjs st i) (lensOf i.cross) right := by
  haveI := f.fact
  obtain ⟨l, b, e, l0, hno, hok, -, hg, -⟩ := hm i.1 i.cross (open_cross i)
  obtain ⟨g, eg, h⟩ := later_described hk (vars_scale l0 (hn i.1)) (vars_scale l0 (hd i.1)) hok hno.len hg
  have e : f.laterObjs st i = RLater.obj (cfgOf f i.1 i.cross g) i.cross.unNum i.cross.unDen (f.value i.1) := by
    unfold PField.laterObjs cfgOf
    rw [eg]; rfl
  refine ⟨g, eg, e, ?_⟩
  rw [e]; exact h

lemma later_all {inv : ℤ → ℤ → ℤ} (hinv : InvertSpec inv) {ord : Order} (hord : ord.OK) (hk : 2 ≤ k) (hn : ∀ i, InVars k (n i)) (hd : ∀ i, InVars k (d i)) {M : ℤ} {j : ℕ} {st st' : ι → Fn} {f : PField ι} {fs : List (PField ι)}
    (hm : Mid k n d M j st (f :: fs)) (hj : j + 1 < 300) (h : LaterField inv ord k f st st') :
    (∀ i o, st i = .closed o → st' i = .closed o) ∧
    ∀ i c, st i = .open c → ∃ got : List (ZMod f.p × List ℕ), ∀ (l : ℚ) (b : Bool) (e : List ℕ), l ≠ 0 → Normalized k (C l * n i) (C l * d i) b e → OK k (C l * n i) (C l * d i) b e M c → c.primeNumber = j →
      AllGood k (C l * n i) (C l * d i) b e i M (f :: fs) →
      (∃ N D, st' i = .closed (some (.finished N D)) ∧ RRun.Certified k (C l * n i) (C l * d i) M (f.record i got) N D ∧ (AllSmall (C l * n i) (C l * d i) M → RRun.rnPoly N = C l * n i ∧ RRun.rnPoly D = C l * d i)) ∨
      ∃ c', st' i = .open c' ∧ OK k (C l * n i) (C l * d i) b e (M * f.p) c' ∧ c'.primeNumber = j + 1 ∧ ¬ AllSmall (C l * n i) (C l * d i) M := by
  haveI := f.fact
  obtain ⟨-, ts, s, hts, hnd, hgood, hr, hdone, h1, h2⟩ := h
  refine ⟨fun i o ho => ?_, ?_⟩
  · rw [h2 i (by rw [ho]; rfl), ho]
  · intro i c hc
    have hi : ((st i).cross?).isSome := by rw [hc]; rfl
    obtain ⟨io, hio⟩ : ∃ io : Open st, io = ⟨i, hi⟩ := ⟨_, rfl⟩
    have hcc : io.cross = c := by
      have := open_cross io
      rw [hio] at this ⊢
      rw [hc] at this
      exact (Fn.open.inj this).symm
    choose g eg eobj right hdesc using later_objs hk hn hd hm
    have hs := Needed.reach_sound hdesc hnd hgood hr
    refine ⟨s.got io, fun l b e l0 hno hok hnum hall => ?_⟩
    have hst := hs.st io
    have hdn := hdone io
    have hx := h1 io
    have hgot : ∀ q ∈ s.got io, f.good q := fun q hq => hs.good q (hs.gotSub io q hq)
    have hgn := hs.gotNodup io
    obtain ⟨got, hgt⟩ : ∃ got, got = s.got io := ⟨_, rfl⟩
    rw [← hgt] at hst hx hgot hgn ⊢
    obtain ⟨sx, hsx⟩ : ∃ sx : RLater.St (ZMod f.p), sx = s.st io := ⟨_, rfl⟩
    have hfold : got.foldlM (RLater.obj (cfgOf f i c (g io)) c.unNum c.unDen (f.value i)).feed (RLater.obj (cfgOf f i c (g io)) c.unNum c.unDen (f.value i)).init = some sx := by
      have hst : got.foldlM (RLater.obj (cfgOf f io.1 io.cross (io.cross.coefs.recRatCoef.getD none)) io.cross.unNum io.cross.unDen (f.value io.1)).feed
          (RLater.obj (cfgOf f io.1 io.cross (io.cross.coefs.recRatCoef.getD none)) io.cross.unNum io.cross.unDen (f.value io.1)).init = some sx := by
        rw [hsx]; exact hst
      have ei : io.1 = i := by rw [hio]
      have eg := eg io
      rw [hcc, ei, ← hcc, eg, hcc] at hst
      exact hst
    have hdn : sx.out.isSome = true := by rw [hsx]; exact hdn
    have hx : st' i = Fn.of (prime inv ord c (f.record i got)) := by
      have ei : io.1 = i := by rw [hio]
      rw [hcc, ei] at hx
      exact hx
    have eg' := eg io
    rw [hcc] at eg'
    rcases later_one hinv hord (vars_scale l0 (hn i)) (vars_scale l0 (hd i)) hok hno.len hall.1 hall.2.1 (by omega) hall.2.2.1 hgot hgn eg' hfold hdn with ⟨N, D, e1, e2, e3⟩ | ⟨c', e1, e2, e3, e4⟩
    · left
      exact ⟨N, D, by rw [hx, e1]; rfl, e2, e3⟩
    · right
      exact ⟨c', by rw [hx, e1]; rfl, e2, by omega, e4⟩

/-- the further prime fields for one function -/
lemma later_run {inv : ℤ → ℤ → ℤ} (hinv : InvertSpec inv) {ord : Order} (hord : ord.OK) (hk : 2 ≤ k) (hn : ∀ i, InVars k (n i)) (hd : ∀ i, InVars k (d i)) {st st' : ι → Fn} {fs : List (PField ι)} (h : Later inv ord k st fs st') :
    ∀ {M : ℤ} {j : ℕ}, Mid k n d M j st fs → j + fs.length < 300 →
    (∀ i o, st i = .closed o → st' i = .closed o) ∧
    ∀ i c, st i = .open c → ∀ (l : ℚ) (b : Bool) (e : List ℕ), l ≠ 0 → Normalized k (C l * n i) (C l * d i) b e → OK k (C l * n i) (C l * d i) b e M c → c.primeNumber = j →
      AllGood k (C l * n i) (C l * d i) b e i M fs →
      (∃ (fs1 : List (PField ι)) (g : PField ι) (fs2 : List (PField ι)) (got : List (ZMod g.p × List ℕ)) (N D : RnMap), fs = fs1 ++ g :: fs2 ∧ st' i = .closed (some (.finished N D)) ∧
        RRun.Certified k (C l * n i) (C l * d i) (M * prod fs1) (g.record i got) N D ∧ (AllSmall (C l * n i) (C l * d i) (M * prod fs1) → RRun.rnPoly N = C l * n i ∧ RRun.rnPoly D = C l * d i)) ∨
      ∃ c', st' i = .open c' ∧ OK k (C l * n i) (C l * d i) b e (M * prod fs) c' ∧ c'.primeNumber = j + fs.length ∧
        ∀ (fs1 : List (PField ι)) (g : PField ι) (fs2 : List (PField ι)), fs = fs1 ++ g :: fs2 → ¬ AllSmall (C l * n i) (C l * d i) (M * prod fs1) := by
  induction h with
  | nil st =>
    intro M j hm hj
    refine ⟨fun i o h => h, fun i c hc l b e l0 hno hok hnum hall => Or.inr ⟨c, hc, by simpa [prod] using hok, by simpa using hnum, ?_⟩⟩
    intro fs1 g fs2 h
    simp at h
  | cons st st1 st2 f fs h1 h2 ih =>
    intro M j hm hj
    simp only [List.length_cons] at hj
    obtain ⟨hcl, hop⟩ := later_all hinv hord hk hn hd hm (by omega) h1
    have hm1 : Mid k n d (M * f.p) (j + 1) st1 fs := by
      intro i c hc
      rcases hsti : st i with c0 | o
      · obtain ⟨l, b, e, l0, hno, hok, hnum, hall⟩ := hm i c0 hsti
        obtain ⟨got, hgot⟩ := hop i c0 hsti
        rcases hgot l b e l0 hno hok hnum hall with ⟨N, D, e1, -⟩ | ⟨c', e1, e2, e3, -⟩
        · rw [hc] at e1; cases e1
        · rw [hc] at e1
          obtain rfl := Fn.open.inj e1
          exact ⟨l, b, e, l0, hno, e2, e3, hall.2.2.2⟩
      · rw [hcl i o hsti] at hc; cases hc
    obtain ⟨ic, io⟩ := ih hm1 (by omega)
    refine ⟨fun i o h => ic i o (hcl i o h), fun i c hc l b e l0 hno hok hnum hall => ?_⟩
    obtain ⟨got, hgot⟩ := hop i c hc
    rcases hgot l b e l0 hno hok hnum hall with ⟨N, D, e1, e2, e3⟩ | ⟨c', e1, e2, e3, e4⟩
    · left
      exact ⟨[], f, fs, got, N, D, rfl, ic i _ e1, by simpa [prod] using e2, by simpa [prod] using e3⟩
    · have hpr : ∀ l : List (PField ι), M * prod (f :: l) = M * f.p * prod l := by intro l; simp [prod, mul_assoc]
      rcases io i c' e1 l b e l0 hno e2 e3 hall.2.2.2 with ⟨fs1, g, fs2, got', N, D, x1, x2, x3, x4⟩ | ⟨c'', x1, x2, x3, x4⟩
      · left
        exact ⟨f :: fs1, g, fs2, got', N, D, by rw [x1]; rfl, x2, by rw [hpr]; exact x3, by rw [hpr]; exact x4⟩
      · right
        refine ⟨c'', x1, by rw [hpr]; exact x2, by rw [x3, List.length_cons]; omega, ?_⟩
        intro fs1 g fs2 h
        rcases fs1 with _ | ⟨f', fs1⟩
        · simpa [prod] using e4
        · simp only [List.cons_append, List.cons.injEq] at h
          obtain ⟨rfl, h⟩ := h
          rw [hpr]
          exact x4 fs1 g fs2 h

/-- **The results of a whole run**, for any number of functions, any primes, any schedule of the threads in each prime field, any stop between two fields, any random numbers: each function is reported right; or it was reported too early, before its coefficients were small for the product of
the primes; or it is not reported, and in none of the further fields were its coefficients small for the product of the primes before. -/
theorem C69_run {inv : ℤ → ℤ → ℤ} (hinv : InvertSpec inv) {ord : Order} (hord : ord.OK) {f : PField ι} {fs : List (PField ι)} (hyp : Hyp k n d f fs) {st : ι → Fn} (h : Run inv ord k f fs st) (i : ι) :
    (∃ N D, st i = .closed (some (.finished N D)) ∧ (Right k (n i) (d i) N D ∨ Early k (n i) (d i) i f fs N D)) ∨
    ∃ c l, st i = .open c ∧ l ≠ 0 ∧ (∃ b e, Normalized k (C l * n i) (C l * d i) b e) ∧
      ∀ (fs1 : List (PField ι)) (g : PField ι) (fs2 : List (PField ι)), fs = fs1 ++ g :: fs2 → ¬ AllSmall (C l * n i) (C l * d i) (f.p * prod fs1) := by
  obtain ⟨st1, h1, h2⟩ := h
  have hfst := first_all (inv := inv) hord hyp.varsN hyp.varsD hyp.lone hyp.first h1
  have hm : Mid k n d f.p 1 st1 fs := by
    intro i c hc
    obtain ⟨l, b, e, c', l0, hno, hst, hok, hnum⟩ := hfst i
    rw [hc] at hst
    obtain rfl := Fn.open.inj hst
    exact ⟨l, b, e, l0, hno, hok, hnum, hyp.later i l b e l0 hno⟩
  obtain ⟨-, ho⟩ := later_run hinv hord hyp.two hyp.varsN hyp.varsD h2 hm (by have := hyp.limit; omega)
  obtain ⟨l, b, e, c, l0, hno, hst, hok, hnum⟩ := hfst i
  rcases ho i c hst l b e l0 hno hok hnum (hyp.later i l b e l0 hno) with ⟨fs1, g, fs2, got, N, D, x1, x2, x3, x4⟩ | ⟨c', x1, x2, x3, x4⟩
  · left
    refine ⟨N, D, x2, ?_⟩
    by_cases hs : AllSmall (C l * n i) (C l * d i) (f.p * prod fs1)
    · exact Or.inl ⟨l, b, e, l0, hno, x4 hs⟩
    · exact Or.inr ⟨l, fs1, g, fs2, got, l0, ⟨b, e, hno⟩, x1, x3, hs⟩
  · exact Or.inr ⟨c', l, x1, l0, ⟨b, e, hno⟩, x4⟩

/-- **When a run is finished:** if there is a further prime field before which the coefficients of all functions, in each normalization, are small for the product of the primes, all functions have been reported. -/
theorem C69_all {inv : ℤ → ℤ → ℤ} (hinv : InvertSpec inv) {ord : Order} (hord : ord.OK) {f : PField ι} {fs : List (PField ι)} (hyp : Hyp k n d f fs) {st : ι → Fn} (h : Run inv ord k f fs st)
    {fs1 : List (PField ι)} {g : PField ι} {fs2 : List (PField ι)} (hfs : fs = fs1 ++ g :: fs2)
    (hsmall : ∀ i (l : ℚ) (b : Bool) (e : List ℕ), l ≠ 0 → Normalized k (C l * n i) (C l * d i) b e → AllSmall (C l * n i) (C l * d i) (f.p * prod fs1)) (i : ι) :
    ∃ N D, st i = .closed (some (.finished N D)) ∧ (Right k (n i) (d i) N D ∨ Early k (n i) (d i) i f fs N D) := by
  rcases C69_run hinv hord hyp h i with h | ⟨c, l, -, l0, ⟨b, e, hno⟩, h⟩
  · exact h
  · exact absurd (hsmall i l b e l0 hno) (h fs1 g fs2 hfs)

lemma prod_one_le (fs : List (PField ι)) : 1 ≤ prod fs := by
  induction fs with
  | nil => simp [prod]
  | cons f fs ih =>
    have : (1 : ℤ) ≤ f.p := by exact_mod_cast f.fact.out.pos
    have e : prod (f :: fs) = f.p * prod fs := by simp [prod]
    rw [e]; nlinarith

lemma small_more {q : ℚ} {M : ℤ} (h : Small q M) (fs : List (PField ι)) : Small q (M * prod fs) := by
  have h1 := prod_one_le fs
  have h2 := h.1
  have h3 : 0 ≤ M := by nlinarith [sq_nonneg q.num]
  refine ⟨lt_of_lt_of_le h.1 ?_, lt_of_lt_of_le h.2 ?_⟩ <;> nlinarith

/-- **No wrong result:** if the coefficients of the function, in each normalization, are small already for the first prime, what is reported is right. If there is a further prime field, it is reported. -/
theorem C69_right {inv : ℤ → ℤ → ℤ} (hinv : InvertSpec inv) {ord : Order} (hord : ord.OK) {f : PField ι} {fs : List (PField ι)} (hyp : Hyp k n d f fs) {st : ι → Fn} (h : Run inv ord k f fs st) (i : ι)
    (hsmall : ∀ (l : ℚ) (b : Bool) (e : List ℕ), l ≠ 0 → Normalized k (C l * n i) (C l * d i) b e → AllSmall (C l * n i) (C l * d i) f.p) :
    (∃ N D, st i = .closed (some (.finished N D)) ∧ Right k (n i) (d i) N D) ∨ (fs = [] ∧ ∃ c, st i = .open c) := by
  have mono : ∀ (l : ℚ), AllSmall (C l * n i) (C l * d i) f.p → ∀ fs1 : List (PField ι), AllSmall (C l * n i) (C l * d i) (f.p * prod fs1) :=
    fun l hl fs1 m => ⟨small_more (hl m).1 fs1, small_more (hl m).2 fs1⟩
  rcases C69_run hinv hord hyp h i with ⟨N, D, h1, h2 | ⟨l, fs1, g, fs2, got, l0, ⟨b, e, hno⟩, x1, x2, x3⟩⟩ | ⟨c, l, hc, l0, ⟨b, e, hno⟩, h⟩
  · exact Or.inl ⟨N, D, h1, h2⟩
  · exact absurd (mono l (hsmall l b e l0 hno) fs1) x3
  · right
    rcases fs with _ | ⟨g, fs⟩
    · exact ⟨rfl, c, hc⟩
    · exact absurd (mono l (hsmall l b e l0 hno) []) (h [] g fs rfl)

/-! ## every field comes to its end -/

/-- **The first prime field:** in every schedule, when nothing is left to do, the field has ended; there is no deadlock, if there are enough allowed values. (`C69_first_bound` bounds the number of steps.) -/
theorem C69_first_ends {inv : ℤ → ℤ → ℤ} {ord : Order} {f : PField ι} {fs : List (PField ι)} (hyp : Hyp k n d f fs) {ts rest more : List (ZMod f.p)} {s0 s : First.Fld (ZMod f.p) f.firstObjs}
    (h0 : haveI := f.fact; First.Starts f.firstObjs k f.good ts rest more s0) (hr : haveI := f.fact; First.Reaches f.firstObjs k f.good s0 s) :
    (s.Quiet → ∃ st, FirstField inv ord k f st ∧ ∀ i, st i = Fn.of (prime inv ord (Cross.initial f.p) (f.record i (s.got i)))) ∧
    ((∀ o, ∃ l : List (ZMod f.p), l.Nodup ∧ (∀ i u mN mD, FirstGood k (n i) (d i) f i u mN mD → mN + mD + 2 ≤ l.length) ∧ First.cnt s.computed (List.replicate (k - 1) 1) + (ts.length + rest.length + more.length) ≤ l.length ∧ ∀ t ∈ l, f.good (t, o)) →
      ¬ s.Quiet → haveI := f.fact; ∃ s', First.Step f.firstObjs k f.good s s') := by
  haveI := f.fact
  have hg := hyp.first
  choose u mN mD hg using hg
  have hdesc := fun i => (hg i).described
  refine ⟨fun hq => ⟨fun i => Fn.of (prime inv ord (Cross.initial f.p) (f.record i (s.got i))), ⟨ts, rest, more, s0, s, h0, hr, fun i => (First.C66_all hdesc ts rest more s0 s h0 hr hq i).1, fun i => rfl⟩, fun i => rfl⟩, fun hl hq => ?_⟩
  refine First.C66_no_deadlock hdesc ts rest more s0 s h0 hr ?_ ?_ hq
  · obtain ⟨l, h1, -, h2, h3⟩ := hl (List.replicate (k - 1) 1)
    exact ⟨l, h1, h2, h3⟩
  · intro i o
    obtain ⟨l, h1, h2, -, h3⟩ := hl o
    exact ⟨l, h1, h2 i _ _ _ (hg i), h3⟩

/-- **The first prime field:** every schedule ends: for a given number of functions and a given number of threads (probes at the start) there is a bound for the number of steps and of probes, the same for all schedules and all choices of values. -/
theorem C69_first_bound [Fintype ι] {f : PField ι} {fs : List (PField ι)} (hyp : Hyp k n d f fs) (T : ℕ) :
    ∃ bound, ∀ (ts rest more : List (ZMod f.p)) (s0 : First.Fld (ZMod f.p) f.firstObjs), (haveI := f.fact; First.Starts f.firstObjs k f.good ts rest more s0) → ts.length + rest.length + more.length = T →
      ∀ (m : ℕ) (g : ℕ → First.Fld (ZMod f.p) f.firstObjs), g 0 = s0 → (haveI := f.fact; ∀ j < m, First.Step f.firstObjs k f.good (g j) (g (j + 1))) → m ≤ bound ∧ (g m).probes.length ≤ bound := by
  haveI := f.fact
  have hg := hyp.first
  choose u mN mD hg using hg
  exact First.C66_ends (fun i => (hg i).described) T

lemma Later.snoc {inv : ℤ → ℤ → ℤ} {ord : Order} {st st1 st2 : ι → Fn} {fs : List (PField ι)} {g : PField ι} (h : Later inv ord k st fs st1) (h2 : LaterField inv ord k g st1 st2) : Later inv ord k st (fs ++ [g]) st2 := by
  induction h with
  | nil st => exact .cons _ _ _ _ _ h2 (.nil _)
  | cons a b c f fs x y ih => exact .cons _ _ _ _ _ x (ih h2)

lemma Later.mid {inv : ℤ → ℤ → ℤ} (hinv : InvertSpec inv) {ord : Order} (hord : ord.OK) (hk : 2 ≤ k) (hn : ∀ i, InVars k (n i)) (hd : ∀ i, InVars k (d i)) {st st' : ι → Fn} {fs : List (PField ι)} (h : Later inv ord k st fs st') :
    ∀ {M : ℤ} {j : ℕ} (fs2 : List (PField ι)), Mid k n d M j st (fs ++ fs2) → j + fs.length < 300 → Mid k n d (M * prod fs) (j + fs.length) st' fs2 := by
  induction h with
  | nil st => intro M j fs2 hm hj; simpa [prod] using hm
  | cons st st1 st2 f fs h1 h2 ih =>
    intro M j fs2 hm hj
    simp only [List.length_cons] at hj
    obtain ⟨hcl, hop⟩ := later_all hinv hord hk hn hd hm (by omega) h1
    have := ih (M := M * f.p) (j := j + 1) fs2 ?_ (by omega)
    · have e1 : M * f.p * prod fs = M * prod (f :: fs) := by simp [prod, mul_assoc]
      have e2 : j + 1 + fs.length = j + (f :: fs).length := by simp only [List.length_cons]; omega
      rwa [e1, e2] at this
    · intro i c hc
      rcases hsti : st i with c0 | o
      · obtain ⟨l, b, e, l0, hno, hok, hnum, hall⟩ := hm i c0 hsti
        obtain ⟨got, hgot⟩ := hop i c0 hsti
        rcases hgot l b e l0 hno hok hnum hall with ⟨N, D, e1, -⟩ | ⟨c', e1, e2, e3, -⟩
        · rw [hc] at e1; cases e1
        · rw [hc] at e1
          obtain rfl := Fn.open.inj e1
          exact ⟨l, b, e, l0, hno, e2, e3, hall.2.2.2⟩
      · rw [hcl i o hsti] at hc; cases hc

lemma run_mid {inv : ℤ → ℤ → ℤ} (hinv : InvertSpec inv) {ord : Order} (hord : ord.OK) {f : PField ι} {fs fs2 : List (PField ι)} (hyp : Hyp k n d f (fs ++ fs2)) {st : ι → Fn} (h : Run inv ord k f fs st) :
    Mid k n d (f.p * prod fs) (1 + fs.length) st fs2 := by
  obtain ⟨st1, h1, h2⟩ := h
  have hlim := hyp.limit
  rw [List.length_append] at hlim
  refine h2.mid hinv hord hyp.two hyp.varsN hyp.varsD fs2 ?_ (by omega)
  intro i c hc
  obtain ⟨l, b, e, c', l0, hno, hst, hok, hnum⟩ := first_all (inv := inv) hord hyp.varsN hyp.varsD hyp.lone hyp.first h1 i
  rw [hc] at hst
  obtain rfl := Fn.open.inj hst
  exact ⟨l, b, e, l0, hno, hok, hnum, hyp.later i l b e l0 hno⟩

lemma atLeast_lens {M : ℤ} {c : Cross} {n d : MvPolynomial ℕ ℚ} {b : Bool} {e : List ℕ} (hn : InVars k n) (hd : InVars k d) (h : OK k n d b e M c) (o : ℕ) : Needed.atLeast (lensOf c) o ≤ numDegs n o + numDegs d o := by
  have h1 := degrees_le hn h.num h.unNum o
  have h2 := degrees_le hd h.den h.unDen o
  unfold RLater.degrees at h1 h2
  unfold Needed.atLeast lensOf
  rw [List.filter_append, List.length_append, List.filter_map, List.filter_map, List.length_map, List.length_map]
  exact Nat.add_le_add h1 h2

/-- **A further prime field:** after any run in the fields `f :: fs` with a function that is not reported, whatever the threads have done so far in the next field `g`: there is no deadlock as long as something is left to do; from here the threads can come to the end, and when nothing is left to
do, the field has ended: the run goes on to the next field. (`C69_later_bound` bounds the number of steps.) -/
theorem C69_later_ends [Fintype ι] {inv : ℤ → ℤ → ℤ} (hinv : InvertSpec inv) {ord : Order} (hord : ord.OK) {f : PField ι} {fs : List (PField ι)} {g : PField ι} {fs2 : List (PField ι)} (hyp : Hyp k n d f (fs ++ g :: fs2)) (hsup : Supply k n d g) {st : ι → Fn}
    (h : Run inv ord k f fs st) (hopen : Nonempty (Open st)) {ts : List (ZMod g.p)} (hts : ts ≠ []) (hnd : ts.Nodup) (hgood : ∀ t ∈ ts, g.good (t, List.replicate (k - 1) 1)) {s : Needed.Fld (ZMod g.p) (g.laterObjs st)}
    (hr : haveI := g.fact; Needed.Reaches (g.laterObjs st) k g.good (Needed.Fld.start (g.laterObjs st) k ts) s) :
    haveI := g.fact
    (s.Quiet → ∃ st', Run inv ord k f (fs ++ [g]) st' ∧ ∀ i : Open st, st' i.1 = Fn.of (prime inv ord i.cross (g.record i.1 (s.got i)))) ∧
    (¬ s.Quiet → ∃ s', Needed.Step (g.laterObjs st) k g.good s s') ∧
    ∃ s', Needed.Reaches (g.laterObjs st) k g.good s s' ∧ s'.Quiet := by
  haveI := g.fact
  have hm := run_mid hinv hord hyp h
  have hk := hyp.two
  choose gg eg eobj right hdesc using later_objs hk hyp.varsN hyp.varsD hm
  have hmany : ∀ i : Open st, ∀ el ∈ Needed.requests (lensOf i.cross), ∃ ts : List (ZMod g.p), ts.Nodup ∧ el.2 ≤ ts.length ∧ ∀ t ∈ ts, g.good (t, Needed.ones k el.1) := by
    intro i el hel
    unfold Needed.requests at hel
    obtain ⟨j, -, rfl⟩ := List.mem_map.mp hel
    obtain ⟨l, b, e, l0, hno, hok, -⟩ := hm i.1 i.cross (open_cross i)
    obtain ⟨ts, h1, h2, h3⟩ := hsup i.1 (j + 1) (by omega)
    refine ⟨ts, h1, le_trans (atLeast_lens (vars_scale l0 (hyp.varsN i.1)) (vars_scale l0 (hyp.varsD i.1)) hok (j + 1)) ?_, h3⟩
    unfold numDegs at h2 ⊢
    rw [support_scale l0, support_scale l0]
    exact h2
  haveI : Fintype (Open st) := Fintype.ofFinite _
  refine ⟨fun hq => ?_, fun hq => Needed.C65_no_deadlock hdesc ts hnd hgood hmany s hr hq, Needed.C65_finishes hdesc ts hnd hgood hmany s hr⟩
  obtain ⟨st0, h1, h2⟩ := h
  classical
  obtain ⟨st', hst'⟩ : ∃ st' : ι → Fn, st' = fun i => if hi : ((st i).cross?).isSome then Fn.of (prime inv ord (Open.cross ⟨i, hi⟩) (g.record i (s.got ⟨i, hi⟩))) else st i := ⟨_, rfl⟩
  have e1 : ∀ i : Open st, st' i.1 = Fn.of (prime inv ord i.cross (g.record i.1 (s.got i))) := by
    intro i
    rw [hst']
    simp only [dif_pos i.2]
  refine ⟨st', ⟨st0, h1, h2.snoc ⟨hopen, ts, s, hts, hnd, hgood, hr, fun i => (Needed.C65_all hdesc ts hts hnd hgood s hr hq i).1, e1, fun i hi => ?_⟩⟩, e1⟩
  rw [hst']
  simp only [dif_neg (show ¬ ((st i).cross?).isSome by rw [hi]; decide)]

/-- **A further prime field:** every schedule ends: after any run in the fields `f :: fs` there is a bound for the number of steps in the next field `g` that depends only on the number of probes at the start. -/
theorem C69_later_bound [Fintype ι] {inv : ℤ → ℤ → ℤ} (hinv : InvertSpec inv) {ord : Order} (hord : ord.OK) {f : PField ι} {fs : List (PField ι)} {g : PField ι} {fs2 : List (PField ι)} (hyp : Hyp k n d f (fs ++ g :: fs2)) {st : ι → Fn}
    (h : Run inv ord k f fs st) (T : ℕ) :
    ∃ bound, ∀ ts : List (ZMod g.p), ts.length = T → ts.Nodup → (∀ t ∈ ts, g.good (t, List.replicate (k - 1) 1)) → ∀ (m : ℕ) (w : ℕ → Needed.Fld (ZMod g.p) (g.laterObjs st)),
      (haveI := g.fact; w 0 = Needed.Fld.start (g.laterObjs st) k ts) → (haveI := g.fact; ∀ j < m, Needed.Step (g.laterObjs st) k g.good (w j) (w (j + 1))) → m ≤ bound := by
  haveI := g.fact
  have hm := run_mid hinv hord hyp h
  choose gg eg eobj right hdesc using later_objs hyp.two hyp.varsN hyp.varsD hm
  haveI : Fintype (Open st) := Fintype.ofFinite _
  refine ⟨∑ i : Open st, (((Needed.requests (lensOf i.cross)).map (fun el => 2 + Fintype.card (Open st) * el.2)).sum + T), fun ts hT hnd hgood m w h0 hw => ?_⟩
  have := Needed.C65_ends hdesc ts hnd hgood m w h0 hw
  rw [hT] at this
  exact this

/-- **A further prime field: no surplus:** whatever the threads do, no probe is queued twice, and for the order vector `(o, …, o)` there are never more probes than one of the functions that are not reported has degrees with at least `o` monomials, in numerator and denominator together, or, for
`(1, …, 1)`, than there were at the start. -/
theorem C69_later_probes {inv : ℤ → ℤ → ℤ} (hinv : InvertSpec inv) {ord : Order} (hord : ord.OK) {f : PField ι} {fs : List (PField ι)} {g : PField ι} {fs2 : List (PField ι)} (hyp : Hyp k n d f (fs ++ g :: fs2)) {st : ι → Fn}
    (h : Run inv ord k f fs st) {ts : List (ZMod g.p)} (hnd : ts.Nodup) (hgood : ∀ t ∈ ts, g.good (t, List.replicate (k - 1) 1)) {s : Needed.Fld (ZMod g.p) (g.laterObjs st)}
    (hr : haveI := g.fact; Needed.Reaches (g.laterObjs st) k g.good (Needed.Fld.start (g.laterObjs st) k ts) s) :
    s.probes.Nodup ∧ ∀ o, First.cnt s.probes (List.replicate (k - 1) o) ≤ (if o = 1 then ts.length else 0) ∨
      ∃ i : Open st, First.cnt s.probes (List.replicate (k - 1) o) ≤ numDegs (n i.1) o + numDegs (d i.1) o := by
  haveI := g.fact
  have hm := run_mid hinv hord hyp h
  choose gg eg eobj right hdesc using later_objs hyp.two hyp.varsN hyp.varsD hm
  obtain ⟨h1, h2⟩ := Needed.C65_no_surplus hyp.two hdesc ts hnd hgood s hr
  refine ⟨h1, fun o => (h2 o).imp id ?_⟩
  rintro ⟨i, h3⟩
  refine ⟨i, le_trans h3 ?_⟩
  obtain ⟨l, b, e, l0, hno, hok, -⟩ := hm i.1 i.cross (open_cross i)
  refine le_trans (atLeast_lens (vars_scale l0 (hyp.varsN i.1)) (vars_scale l0 (hyp.varsD i.1)) hok o) ?_
  unfold numDegs
  rw [support_scale l0, support_scale l0]

lemma AllGood.left {k : ℕ} {n d : MvPolynomial ℕ ℚ} {b : Bool} {e : List ℕ} {i : ι} {a c : List (PField ι)} : ∀ {M : ℤ}, AllGood k n d b e i M (a ++ c) → AllGood k n d b e i M a := by
  induction a with
  | nil => intro M h; trivial
  | cons f a ih => intro M h; exact ⟨h.1, h.2.1, h.2.2.1, ih h.2.2.2⟩

lemma Hyp.left {f : PField ι} {a c : List (PField ι)} (h : Hyp k n d f (a ++ c)) : Hyp k n d f a :=
  ⟨h.two, h.varsN, h.varsD, h.lone, h.first, fun i l b e l0 hno => (h.later i l b e l0 hno).left, by have := h.limit; rw [List.length_append] at this; omega⟩

/-- **A run can be completed:** every run that has got through the fields `f :: fs1` can go on, through the fields of `fs2`, until all functions are reported or these fields are used up. -/
theorem C69_complete [Fintype ι] {inv : ℤ → ℤ → ℤ} (hinv : InvertSpec inv) {ord : Order} (hord : ord.OK) {f : PField ι} {fs1 fs2 : List (PField ι)} (hyp : Hyp k n d f (fs1 ++ fs2))
    (hsup : ∀ g ∈ fs2, Supply k n d g ∧ ∃ t, g.good (t, List.replicate (k - 1) 1)) {st : ι → Fn} (h : Run inv ord k f fs1 st) :
    ∃ (fs : List (PField ι)) (st' : ι → Fn), fs <+: fs2 ∧ Run inv ord k f (fs1 ++ fs) st' ∧ (fs = fs2 ∨ ∀ i, ∃ N D, st' i = .closed (some (.finished N D)) ∧ (Right k (n i) (d i) N D ∨ Early k (n i) (d i) i f (fs1 ++ fs) N D)) := by
  have ends : ∀ (a b : List (PField ι)) (st : ι → Fn), Hyp k n d f (a ++ b) → Run inv ord k f a st → ¬ Nonempty (Open st) → ∀ i, ∃ N D, st i = .closed (some (.finished N D)) ∧ (Right k (n i) (d i) N D ∨ Early k (n i) (d i) i f a N D) := by
    intro a b st hyp h ho i
    rcases C69_run hinv hord hyp.left h i with h1 | ⟨c, l, hc, -⟩
    · exact h1
    · exact absurd ⟨i, by rw [hc]; rfl⟩ ho
  induction fs2 generalizing fs1 st with
  | nil => exact ⟨[], st, List.prefix_rfl, by simpa using h, Or.inl rfl⟩
  | cons g fs2 ih =>
    by_cases ho : Nonempty (Open st)
    · obtain ⟨hs, t, ht⟩ := hsup g (by simp)
      haveI := g.fact
      obtain ⟨-, -, s, h1, h2⟩ := C69_later_ends hinv hord hyp hs h ho (ts := [t]) (by simp) (by simp) (by simpa using ht) Relation.ReflTransGen.refl
      obtain ⟨st1, h3, -⟩ := (C69_later_ends hinv hord hyp hs h ho (ts := [t]) (by simp) (by simp) (by simpa using ht) h1).1 h2
      have e : ∀ x : List (PField ι), fs1 ++ [g] ++ x = fs1 ++ g :: x := by intro x; simp
      obtain ⟨fs, st', y1, y2, y3⟩ := ih (fs1 := fs1 ++ [g]) (st := st1) (by rw [e]; exact hyp) (fun x hx => hsup x (by simp [hx])) h3
      rw [e] at y2 y3
      refine ⟨g :: fs, st', (List.cons_prefix_cons).mpr ⟨rfl, y1⟩, y2, y3.imp (fun h => by rw [h]) id⟩
    · refine ⟨[], st, List.nil_prefix, by simpa using h, Or.inr ?_⟩
      have := ends fs1 (g :: fs2) st hyp h ho
      simpa using this

end

end FireFly.Whole
