import Verif.Lemmas.WholeShift
import Verif.Props.WholeProps
/-!
# C72: a whole run with a shift

Several rational functions in several variables, all prime fields, any schedule of the threads in each of them; the shift is kept as long as one of the functions needs it, for all of them: every function is reported right, or too early (a guess that passed the
test although the coefficients were still too large), or the run is not finished and the coefficients are too large for the product of the primes. The functions may have several monomials of each degree, or not. `C72_run` is the statement about the results,
`C72_all` says when the run is finished, `C72_shift` when the shift is kept, `C72_first_ends` and `C72_later_ends` that every field comes to its end.
-/
set_option linter.all false
namespace FireFly.WholeShift
open MvPolynomial RRun FFMap

section
variable {ι : Type} [DecidableEq ι] {k : ℕ} {n d : ι → MvPolynomial ℕ ℚ} {S : ι → Bool → ℕ → Finset (ℕ →₀ ℕ)}

lemma first_all {inv : ℤ → ℤ → ℤ} {ord : Order} (hord : ord.OK) (hn : ∀ i, InVars k (n i)) (hd : ∀ i, InVars k (d i)) {f : PField ι}
    (hf : ∀ i, ∃ (u : ZMod f.p) (mN mD : ℕ), FirstGood k (n i) (d i) (S i) f i u mN mD) {st : State ι} (h : FirstField inv ord k f st) : st.on = true ∧ ∀ i,
    ∃ (l : ℚ) (c : Shifted.Cross), l ≠ 0 ∧ HasOne (C l * n i) (C l * d i) ∧ st.fn i = .open c ∧ Shifted.Ready k (C l * n i) (C l * d i) (S i) f.p c ∧ c.on = true ∧ c.asks = c.singular ∧ c.normDen = (f.cfg i).normDen ∧ c.base.primeNumber = 1 := by
  haveI := f.fact
  obtain ⟨ts, rest, more, s0, s, h0, hr, hdone, hon, hst⟩ := h
  choose u mN mD hg using hf
  haveI : Fact f.first.p.Prime := f.fact
  have hdesc := fun i => (hg i).base.described
  obtain ⟨L, M, J, early, hok⟩ := First.all_ok hdesc
  have hs := First.reach_sound hok h0 hr
  refine ⟨hon, fun i => ?_⟩
  have hright := First.C66_done hdesc ts rest more s0 s h0 hr i (hdone i)
  obtain ⟨l, c, h1, h2, h3, h4, h5, h6, h7⟩ := first_one (inv := inv) hord (hn i) (hd i) (hg i) (o := false) (got := s.got i) (fun q hq => hs.good q (hs.gotProbes i q hq)) (hs.gotNodup i) (First.fold h0 hr i) (hdone i)
  refine ⟨l, c, h1, ⟨_, _, h3.one⟩, ?_, h3, h4, h5, h6, h7⟩
  rw [hst i, h2]; rfl

/-- between two prime fields, one function -/
def Has (k : ℕ) (n d : MvPolynomial ℕ ℚ) (S : Bool → ℕ → Finset (ℕ →₀ ℕ)) (nd : Bool) (on : Bool) (M : ℤ) (j : ℕ) (l : ℚ) (c : Shifted.Cross) : Prop :=
  l ≠ 0 ∧ HasOne (C l * n) (C l * d) ∧ Shifted.Ready k (C l * n) (C l * d) S M c ∧ c.asks = c.singular ∧ c.on = on ∧ c.normDen = nd ∧ c.base.primeNumber = j

/-- between two prime fields -/
def Mid (k : ℕ) (n d : ι → MvPolynomial ℕ ℚ) (S : ι → Bool → ℕ → Finset (ℕ →₀ ℕ)) (nd : ι → Bool) (M : ℤ) (j : ℕ) (st : State ι) (fs : List (PField ι)) : Prop :=
  ∀ i c, st.fn i = .open c → ∃ l : ℚ, Has k (n i) (d i) (S i) (nd i) st.on M j l c ∧ AllGood k (C l * n i) (C l * d i) (S i) (nd i) i M fs

lemma fn_open (x : Fn) (h : x.cross?.isSome) : x = .open (x.cross?.get h) := by
  cases x with
  | «open» c => rfl
  | closed o => cases h

lemma open_cross {st : State ι} (i : Open st) : st.fn i.1 = .open i.cross := fn_open _ i.2

variable {nd : ι → Bool}

lemma others_on {M : ℤ} {j : ℕ} {st : State ι} {fs : List (PField ι)} (hm : Mid k n d S nd M j st fs) {i : ι} (h : st.others i = true) : st.on = true := by
  unfold State.others at h
  simp only [decide_eq_true_eq] at h
  obtain ⟨x, -, c, hc, ha⟩ := h
  obtain ⟨l, ⟨-, -, h1, h2, h3, -⟩, -⟩ := hm x c hc
  rw [← h3]
  exact h1.on (h1.asks ha)

lemma next_eq {st : State ι} {i : ι} {c : Shifted.Cross} (hc : st.fn i = .open c) (hon : c.on = st.on) : st.next = (c.on && (c.asks || st.others i)) := by
  unfold State.next State.others
  rw [hon]
  congr 1
  cases ha : c.asks with
  | true =>
    simp only [Bool.true_or, decide_eq_true_eq]
    exact ⟨i, c, hc, ha⟩
  | false =>
    simp only [Bool.false_or]
    refine decide_eq_decide.mpr ⟨?_, fun ⟨x, _, h⟩ => ⟨x, h⟩⟩
    rintro ⟨x, c', h1, h2⟩
    refine ⟨x, ?_, c', h1, h2⟩
    rintro rfl
    rw [hc] at h1
    obtain rfl := Fn.open.inj h1
    rw [ha] at h2; cases h2

lemma laterObjs_eq {M : ℤ} {j : ℕ} {st : State ι} {f : PField ι} {fs : List (PField ι)} (hm : Mid k n d S nd M j st fs) (i : Open st) : f.laterObjs st i = f.laterObj st.next st.next i.1 i.cross := by
  obtain ⟨l, ⟨-, -, h1, h2, h3, -⟩, -⟩ := hm i.1 i.cross (open_cross i)
  have e := next_eq (open_cross i) h3
  have := mode_eq (f := f) (i := i.1) h1 h2 (o := st.others i.1) (fun h => by rw [h3]; exact others_on hm h)
  rw [← e] at this
  unfold PField.laterObjs
  rw [this]

lemma later_objs (hk : 2 ≤ k) (hn : ∀ i, InVars k (n i)) (hd : ∀ i, InVars k (d i)) {M : ℤ} {j : ℕ} {st : State ι} {f : PField ι} {fs : List (PField ι)} (hm : Mid k n d S nd M j st (f :: fs)) (i : Open st) : haveI := f.fact
    ∃ right, Needed.Described k (f.good st.next) (f.laterObjs st i) (lensOf f st.next i.1 i.cross) right := by
  haveI := f.fact
  rw [laterObjs_eq hm i]
  obtain ⟨l, ⟨l0, hno, h1, h2, h3, h4, h5⟩, hall⟩ := hm i.1 i.cross (open_cross i)
  have e := next_eq (open_cross i) h3
  obtain ⟨hS, hP, -⟩ := hall
  cases hx : st.next with
  | true =>
    rw [hx, eq_comm, Bool.and_eq_true] at e
    rw [← h4] at hS
    obtain ⟨g, eg, -, h⟩ := shift_described hk (Whole.vars_scale l0 (hn i.1)) (Whole.vars_scale l0 (hd i.1)) h1 e.1 hS
    exact h
  | false =>
    have hs : i.cross.singular = false := by
      cases hs : i.cross.singular with
      | false => rfl
      | true => rw [hx, h1.on hs, h2, hs] at e; simp at e
    obtain ⟨g, eg, -, h⟩ := plain_described (Whole.vars_scale l0 (hn i.1)) (Whole.vars_scale l0 (hd i.1)) h1 hs hP
    exact h

lemma later_all {inv : ℤ → ℤ → ℤ} (hinv : InvertSpec inv) {ord : Order} (hord : ord.OK) (hk : 2 ≤ k) (hn : ∀ i, InVars k (n i)) (hd : ∀ i, InVars k (d i)) {M : ℤ} {j : ℕ} {st st' : State ι} {f : PField ι} {fs : List (PField ι)}
    (hm : Mid k n d S nd M j st (f :: fs)) (hj : j + 1 < 300) (h : LaterField inv ord k f st st') :
    (∀ i o, st.fn i = .closed o → st'.fn i = .closed o) ∧ st'.on = st.next ∧
    ∀ i c, st.fn i = .open c → ∃ got : List (ZMod f.p × List ℕ), (∀ q ∈ got, f.good st.next q) ∧ ∀ l : ℚ, Has k (n i) (d i) (S i) (nd i) st.on M j l c → AllGood k (C l * n i) (C l * d i) (S i) (nd i) i M (f :: fs) →
      (∃ N D, st'.fn i = .closed (some (.finished N D)) ∧ Shifted.Certified k (C l * n i) (C l * d i) M ((f.stage i (st.others i) got).at st.next) N D ∧ (AllSmall (C l * n i) (C l * d i) M → RRun.rnPoly N = C l * n i ∧ RRun.rnPoly D = C l * d i)) ∨
      ∃ c', st'.fn i = .open c' ∧ Has k (n i) (d i) (S i) (nd i) st'.on (M * f.p) (j + 1) l c' ∧ ¬ AllSmall (C l * n i) (C l * d i) M := by
  haveI := f.fact
  obtain ⟨-, ts, s, hts, hnd, hgood, hr, hdone, hon, h1, h2⟩ := h
  refine ⟨fun i o ho => ?_, hon, ?_⟩
  · rw [h2 i (by rw [ho]; rfl), ho]
  · intro i c hc
    have hi : ((st.fn i).cross?).isSome := by rw [hc]; rfl
    obtain ⟨io, hio⟩ : ∃ io : Open st, io = ⟨i, hi⟩ := ⟨_, rfl⟩
    have hcc : io.cross = c := by
      have := open_cross io
      rw [hio] at this ⊢
      rw [hc] at this
      exact (Fn.open.inj this).symm
    choose right hdesc using later_objs hk hn hd hm
    have hs := Needed.reach_sound hdesc hnd hgood hr
    have hgot : ∀ q ∈ s.got io, f.good st.next q := fun q hq => hs.good q (hs.gotSub io q hq)
    refine ⟨s.got io, hgot, fun l hl hall => ?_⟩
    obtain ⟨l0, hno, hok, has, hcon, hcnd, hnum⟩ := hl
    have ei : io.1 = i := by rw [hio]
    have hO := laterObjs_eq (f := f) hm io
    rw [hcc, ei] at hO
    have hx := h1 io
    rw [hcc, ei] at hx
    obtain ⟨hS, hP, hpM, hdec, hrest⟩ := hall
    rw [← hcnd] at hS
    rcases later_one hinv hord hk (Whole.vars_scale l0 (hn i)) (Whole.vars_scale l0 (hd i)) hok has (o := st.others i) (fun h => by rw [hcon]; exact others_on hm h) hS hP hpM (by omega) hdec
        (next_eq hc hcon) hgot (hs.gotNodup io) hO (hs.st io) (hdone io) with ⟨N, D, e1, e2, e3⟩ | ⟨c', e1, e2, e3, e4, e5, e6, e7⟩
    · left
      exact ⟨N, D, by rw [hx, e1]; rfl, e2, e3⟩
    · right
      exact ⟨c', by rw [hx, e1]; rfl, ⟨l0, hno, e2, e3, by rw [e4, hon], by rw [e5, hcnd], by omega⟩, e7⟩

lemma later_mid {inv : ℤ → ℤ → ℤ} (hinv : InvertSpec inv) {ord : Order} (hord : ord.OK) (hk : 2 ≤ k) (hn : ∀ i, InVars k (n i)) (hd : ∀ i, InVars k (d i)) {M : ℤ} {j : ℕ} {st st' : State ι} {f : PField ι} {fs : List (PField ι)}
    (hm : Mid k n d S nd M j st (f :: fs)) (hj : j + 1 < 300) (h : LaterField inv ord k f st st') : Mid k n d S nd (M * f.p) (j + 1) st' fs := by
  obtain ⟨hcl, -, hop⟩ := later_all hinv hord hk hn hd hm hj h
  intro i c hc
  rcases hsti : st.fn i with c0 | o
  · obtain ⟨l, hl, hall⟩ := hm i c0 hsti
    obtain ⟨got, -, hgot⟩ := hop i c0 hsti
    rcases hgot l hl hall with ⟨N, D, e1, -⟩ | ⟨c', e1, e2, -⟩
    · rw [hc] at e1; cases e1
    · rw [hc] at e1
      obtain rfl := Fn.open.inj e1
      exact ⟨l, e2, hall.2.2.2.2⟩
  · rw [hcl i o hsti] at hc; cases hc

/-- the further prime fields for one function -/
lemma later_run {inv : ℤ → ℤ → ℤ} (hinv : InvertSpec inv) {ord : Order} (hord : ord.OK) (hk : 2 ≤ k) (hn : ∀ i, InVars k (n i)) (hd : ∀ i, InVars k (d i)) {st st' : State ι} {fs : List (PField ι)} (h : Later inv ord k st fs st') :
    ∀ {M : ℤ} {j : ℕ}, Mid k n d S nd M j st fs → j + fs.length < 300 →
    (∀ i o, st.fn i = .closed o → st'.fn i = .closed o) ∧
    ∀ i c, st.fn i = .open c → ∀ l : ℚ, Has k (n i) (d i) (S i) (nd i) st.on M j l c → AllGood k (C l * n i) (C l * d i) (S i) (nd i) i M fs →
      (∃ (fs1 : List (PField ι)) (g : PField ι) (fs2 : List (PField ι)) (on others : Bool) (got : List (ZMod g.p × List ℕ)) (N D : RnMap), fs = fs1 ++ g :: fs2 ∧ st'.fn i = .closed (some (.finished N D)) ∧ (∀ q ∈ got, g.good on q) ∧
        Shifted.Certified k (C l * n i) (C l * d i) (M * prod fs1) ((g.stage i others got).at on) N D ∧ (AllSmall (C l * n i) (C l * d i) (M * prod fs1) → RRun.rnPoly N = C l * n i ∧ RRun.rnPoly D = C l * d i)) ∨
      ∃ c', st'.fn i = .open c' ∧ Has k (n i) (d i) (S i) (nd i) st'.on (M * prod fs) (j + fs.length) l c' ∧
        ∀ (fs1 : List (PField ι)) (g : PField ι) (fs2 : List (PField ι)), fs = fs1 ++ g :: fs2 → ¬ AllSmall (C l * n i) (C l * d i) (M * prod fs1) := by
  induction h with
  | nil st =>
    intro M j hm hj
    refine ⟨fun i o h => h, fun i c hc l hl hall => Or.inr ⟨c, hc, by simpa [prod] using hl, ?_⟩⟩
    intro fs1 g fs2 h
    simp at h
  | cons st st1 st2 f fs h1 h2 ih =>
    intro M j hm hj
    simp only [List.length_cons] at hj
    obtain ⟨hcl, -, hop⟩ := later_all hinv hord hk hn hd hm (by omega) h1
    have hm1 := later_mid hinv hord hk hn hd hm (by omega) h1
    obtain ⟨ic, io⟩ := ih hm1 (by omega)
    refine ⟨fun i o h => ic i o (hcl i o h), fun i c hc l hl hall => ?_⟩
    obtain ⟨got, hgood, hgot⟩ := hop i c hc
    rcases hgot l hl hall with ⟨N, D, e1, e2, e3⟩ | ⟨c', e1, e2, e4⟩
    · left
      exact ⟨[], f, fs, st.next, st.others i, got, N, D, rfl, ic i _ e1, hgood, by simpa [prod] using e2, by simpa [prod] using e3⟩
    · have hpr : ∀ l : List (PField ι), M * prod (f :: l) = M * f.p * prod l := by intro l; simp [prod, mul_assoc]
      rcases io i c' e1 l e2 hall.2.2.2.2 with ⟨fs1, g, fs2, on, others, got', N, D, x1, x2, x3, x4, x5⟩ | ⟨c'', x1, x2, x4⟩
      · left
        exact ⟨f :: fs1, g, fs2, on, others, got', N, D, by rw [x1]; rfl, x2, x3, by rw [hpr]; exact x4, by rw [hpr]; exact x5⟩
      · right
        have hlen : j + (f :: fs).length = j + 1 + fs.length := by rw [List.length_cons]; omega
        refine ⟨c'', x1, by rw [hpr, hlen]; exact x2, ?_⟩
        intro fs1 g fs2 h
        rcases fs1 with _ | ⟨f', fs1⟩
        · simpa [prod] using e4
        · simp only [List.cons_append, List.cons.injEq] at h
          obtain ⟨rfl, h⟩ := h
          rw [hpr]
          exact x4 fs1 g fs2 h

lemma first_mid {inv : ℤ → ℤ → ℤ} {ord : Order} (hord : ord.OK) {f : PField ι} {fs : List (PField ι)} (hyp : Hyp k n d S f fs) {st : State ι} (h : FirstField inv ord k f st) : Mid k n d S (fun i => (f.cfg i).normDen) f.p 1 st fs := by
  obtain ⟨hon, hfst⟩ := first_all (inv := inv) hord hyp.varsN hyp.varsD hyp.first h
  intro i c hc
  obtain ⟨l, c', l0, hno, hst, h1, h2, h3, h4, h5⟩ := hfst i
  rw [hc] at hst
  obtain rfl := Fn.open.inj hst
  exact ⟨l, ⟨l0, hno, h1, h3, by rw [h2, hon], h4, h5⟩, hyp.later i l l0 hno⟩

/-- **The results of a whole run with a shift**, for any number of functions, any primes, any schedule of the threads in each prime field, any stop between two fields, any random numbers, however long the shift is kept: each function is reported right; or it was
reported too early, before its coefficients were small for the product of the primes; or it is not reported, and in none of the further fields were its coefficients small for the product of the primes before. -/
theorem C72_run {inv : ℤ → ℤ → ℤ} (hinv : InvertSpec inv) {ord : Order} (hord : ord.OK) {f : PField ι} {fs : List (PField ι)} (hyp : Hyp k n d S f fs) {st : State ι} (h : Run inv ord k f fs st) (i : ι) :
    (∃ N D, st.fn i = .closed (some (.finished N D)) ∧ (Right (n i) (d i) N D ∨ Early k (n i) (d i) i f fs N D)) ∨
    ∃ c l, st.fn i = .open c ∧ l ≠ 0 ∧ HasOne (C l * n i) (C l * d i) ∧
      ∀ (fs1 : List (PField ι)) (g : PField ι) (fs2 : List (PField ι)), fs = fs1 ++ g :: fs2 → ¬ AllSmall (C l * n i) (C l * d i) (f.p * prod fs1) := by
  obtain ⟨st1, h1, h2⟩ := h
  have hm := first_mid hord hyp h1
  obtain ⟨-, ho⟩ := later_run hinv hord hyp.two hyp.varsN hyp.varsD h2 hm (by have := hyp.limit; omega)
  obtain ⟨-, hfst⟩ := first_all (inv := inv) hord hyp.varsN hyp.varsD hyp.first h1
  obtain ⟨-, c, -, -, hst, -⟩ := hfst i
  obtain ⟨l, hl, hall⟩ := hm i c hst
  rcases ho i c hst l hl hall with ⟨fs1, g, fs2, on, others, got, N, D, x1, x2, x3, x4, x5⟩ | ⟨c', x1, x2, x4⟩
  · left
    refine ⟨N, D, x2, ?_⟩
    by_cases hs : AllSmall (C l * n i) (C l * d i) (f.p * prod fs1)
    · exact Or.inl ⟨l, hl.1, hl.2.1, x5 hs⟩
    · exact Or.inr ⟨l, fs1, g, fs2, on, others, got, hl.1, hl.2.1, x1, x3, x4, hs⟩
  · exact Or.inr ⟨c', l, x1, hl.1, hl.2.1, x4⟩

/-- **When a run is finished:** if there is a further prime field before which the coefficients of all functions, in each normalization, are small for the product of the primes, all functions have been reported. -/
theorem C72_all {inv : ℤ → ℤ → ℤ} (hinv : InvertSpec inv) {ord : Order} (hord : ord.OK) {f : PField ι} {fs : List (PField ι)} (hyp : Hyp k n d S f fs) {st : State ι} (h : Run inv ord k f fs st)
    {fs1 : List (PField ι)} {g : PField ι} {fs2 : List (PField ι)} (hfs : fs = fs1 ++ g :: fs2)
    (hsmall : ∀ i (l : ℚ), l ≠ 0 → HasOne (C l * n i) (C l * d i) → AllSmall (C l * n i) (C l * d i) (f.p * prod fs1)) (i : ι) :
    ∃ N D, st.fn i = .closed (some (.finished N D)) ∧ (Right (n i) (d i) N D ∨ Early k (n i) (d i) i f fs N D) := by
  rcases C72_run hinv hord hyp h i with h | ⟨c, l, -, l0, hno, h⟩
  · exact h
  · exact absurd (hsmall i l l0 hno) (h fs1 g fs2 hfs)

lemma prod_one_le (fs : List (PField ι)) : 1 ≤ prod fs := by
  induction fs with
  | nil => simp [prod]
  | cons f fs ih =>
    have : (1 : ℤ) ≤ f.p := by exact_mod_cast f.fact.out.pos
    have e : prod (f :: fs) = f.p * prod fs := by simp [prod]
    rw [e]; nlinarith

lemma small_more {q : ℚ} {M : ℤ} (h : Small q M) (fs : List (PField ι)) : Small q (M * prod fs) := by
  have h1 := prod_one_le fs
  have h2 := h.1
  have h3 : 0 ≤ M := by nlinarith [sq_nonneg q.num]
  refine ⟨lt_of_lt_of_le h.1 ?_, lt_of_lt_of_le h.2 ?_⟩ <;> nlinarith

/-- **No wrong result:** if the coefficients of the function, in each normalization, are small already for the first prime, what is reported is right. If there is a further prime field, it is reported. -/
theorem C72_right {inv : ℤ → ℤ → ℤ} (hinv : InvertSpec inv) {ord : Order} (hord : ord.OK) {f : PField ι} {fs : List (PField ι)} (hyp : Hyp k n d S f fs) {st : State ι} (h : Run inv ord k f fs st) (i : ι)
    (hsmall : ∀ l : ℚ, l ≠ 0 → HasOne (C l * n i) (C l * d i) → AllSmall (C l * n i) (C l * d i) f.p) :
    (∃ N D, st.fn i = .closed (some (.finished N D)) ∧ Right (n i) (d i) N D) ∨ (fs = [] ∧ ∃ c, st.fn i = .open c) := by
  have mono : ∀ (l : ℚ), AllSmall (C l * n i) (C l * d i) f.p → ∀ fs1 : List (PField ι), AllSmall (C l * n i) (C l * d i) (f.p * prod fs1) :=
    fun l hl fs1 m => ⟨small_more (hl m).1 fs1, small_more (hl m).2 fs1⟩
  rcases C72_run hinv hord hyp h i with ⟨N, D, h1, h2 | ⟨l, fs1, g, fs2, on, others, got, l0, hno, x1, -, x2, x3⟩⟩ | ⟨c, l, hc, l0, hno, h⟩
  · exact Or.inl ⟨N, D, h1, h2⟩
  · exact absurd (mono l (hsmall l l0 hno) fs1) x3
  · right
    rcases fs with _ | ⟨g, fs⟩
    · exact ⟨rfl, c, hc⟩
    · exact absurd (mono l (hsmall l l0 hno) []) (h [] g fs rfl)

/-! ## every field comes to its end -/

/-- **The first prime field:** in every schedule, when nothing is left to do, the field has ended; there is no deadlock, if there are enough allowed values. (`C72_first_bound` bounds the number of steps.) -/
theorem C72_first_ends {inv : ℤ → ℤ → ℤ} {ord : Order} {f : PField ι} {fs : List (PField ι)} (hyp : Hyp k n d S f fs) {ts rest more : List (ZMod f.p)} {s0 s : First.Fld (ZMod f.p) f.firstObjs}
    (h0 : haveI := f.fact; First.Starts f.firstObjs k (f.good true) ts rest more s0) (hr : haveI := f.fact; First.Reaches f.firstObjs k (f.good true) s0 s) :
    (s.Quiet → ∃ st, FirstField inv ord k f st ∧ ∀ i, st.fn i = Fn.of (Shifted.prime inv ord (Shifted.Cross.initial f.p) (f.stage i false (s.got i)))) ∧
    ((∀ o, ∃ l : List (ZMod f.p), l.Nodup ∧ (∀ i u mN mD, FirstGood k (n i) (d i) (S i) f i u mN mD → mN + mD + 2 ≤ l.length) ∧ First.cnt s.computed (List.replicate (k - 1) 1) + (ts.length + rest.length + more.length) ≤ l.length ∧ ∀ t ∈ l, f.good true (t, o)) →
      ¬ s.Quiet → haveI := f.fact; ∃ s', First.Step f.firstObjs k (f.good true) s s') := by
  haveI := f.fact
  have hg := hyp.first
  choose u mN mD hg using hg
  haveI : Fact f.first.p.Prime := f.fact
  have hdesc := fun i => (hg i).base.described
  refine ⟨fun hq => ⟨⟨true, fun i => Fn.of (Shifted.prime inv ord (Shifted.Cross.initial f.p) (f.stage i false (s.got i)))⟩, ⟨ts, rest, more, s0, s, h0, hr, fun i => (First.C66_all hdesc ts rest more s0 s h0 hr hq i).1, rfl, fun i => rfl⟩, fun i => rfl⟩, fun hl hq => ?_⟩
  refine First.C66_no_deadlock hdesc ts rest more s0 s h0 hr ?_ ?_ hq
  · obtain ⟨l, h1, -, h2, h3⟩ := hl (List.replicate (k - 1) 1)
    exact ⟨l, h1, h2, h3⟩
  · intro i o
    obtain ⟨l, h1, h2, -, h3⟩ := hl o
    exact ⟨l, h1, h2 i _ _ _ (hg i), h3⟩

/-- **The first prime field:** every schedule ends: for a given number of functions and a given number of threads (probes at the start) there is a bound for the number of steps and of probes, the same for all schedules and all choices of values. -/
theorem C72_first_bound [Fintype ι] {f : PField ι} {fs : List (PField ι)} (hyp : Hyp k n d S f fs) (T : ℕ) :
    ∃ bound, ∀ (ts rest more : List (ZMod f.p)) (s0 : First.Fld (ZMod f.p) f.firstObjs), (haveI := f.fact; First.Starts f.firstObjs k (f.good true) ts rest more s0) → ts.length + rest.length + more.length = T →
      ∀ (m : ℕ) (g : ℕ → First.Fld (ZMod f.p) f.firstObjs), g 0 = s0 → (haveI := f.fact; ∀ j < m, First.Step f.firstObjs k (f.good true) (g j) (g (j + 1))) → m ≤ bound ∧ (g m).probes.length ≤ bound := by
  haveI := f.fact
  have hg := hyp.first
  choose u mN mD hg using hg
  haveI : Fact f.first.p.Prime := f.fact
  exact First.C66_ends (fun i => (hg i).base.described) T

lemma Later.snoc {inv : ℤ → ℤ → ℤ} {ord : Order} {st st1 st2 : State ι} {fs : List (PField ι)} {g : PField ι} (h : Later inv ord k st fs st1) (h2 : LaterField inv ord k g st1 st2) : Later inv ord k st (fs ++ [g]) st2 := by
  induction h with
  | nil st => exact .cons _ _ _ _ _ h2 (.nil _)
  | cons a b c f fs x y ih => exact .cons _ _ _ _ _ x (ih h2)

lemma Later.mid {inv : ℤ → ℤ → ℤ} (hinv : InvertSpec inv) {ord : Order} (hord : ord.OK) (hk : 2 ≤ k) (hn : ∀ i, InVars k (n i)) (hd : ∀ i, InVars k (d i)) {st st' : State ι} {fs : List (PField ι)} (h : Later inv ord k st fs st') :
    ∀ {M : ℤ} {j : ℕ} (fs2 : List (PField ι)), Mid k n d S nd M j st (fs ++ fs2) → j + fs.length < 300 → Mid k n d S nd (M * prod fs) (j + fs.length) st' fs2 := by
  induction h with
  | nil st => intro M j fs2 hm hj; simpa [prod] using hm
  | cons st st1 st2 f fs h1 h2 ih =>
    intro M j fs2 hm hj
    simp only [List.length_cons] at hj
    have := ih (M := M * f.p) (j := j + 1) fs2 (later_mid hinv hord hk hn hd hm (by omega) h1) (by omega)
    have e1 : M * f.p * prod fs = M * prod (f :: fs) := by simp [prod, mul_assoc]
    have e2 : j + 1 + fs.length = j + (f :: fs).length := by simp only [List.length_cons]; omega
    rwa [e1, e2] at this

lemma run_mid {inv : ℤ → ℤ → ℤ} (hinv : InvertSpec inv) {ord : Order} (hord : ord.OK) {f : PField ι} {fs fs2 : List (PField ι)} (hyp : Hyp k n d S f (fs ++ fs2)) {st : State ι} (h : Run inv ord k f fs st) :
    Mid k n d S (fun i => (f.cfg i).normDen) (f.p * prod fs) (1 + fs.length) st fs2 := by
  obtain ⟨st1, h1, h2⟩ := h
  have hlim := hyp.limit
  rw [List.length_append] at hlim
  exact h2.mid hinv hord hyp.two hyp.varsN hyp.varsD fs2 (first_mid hord hyp h1) (by omega)

lemma asked_scale {n d : MvPolynomial ℕ ℚ} {S : Bool → ℕ → Finset (ℕ →₀ ℕ)} {nd : Bool} {l : ℚ} (l0 : l ≠ 0) (b : Bool) : Shifted.askedDegs (C l * n) (C l * d) S nd b = Shifted.askedDegs n d S nd b := by
  have hsc : (Shifted.side (C l * n) (C l * d) b).support = (Shifted.side n d b).support := by rw [Shifted.side_scale, support_scale l0]
  have hdeg : (Shifted.side (C l * n) (C l * d) b).totalDegree = (Shifted.side n d b).totalDegree := by unfold totalDegree; rw [hsc]
  unfold Shifted.askedDegs
  rw [hdeg]
  ext j
  simp only [Finset.mem_filter]
  unfold Shifted.Asked
  rw [hsc]

lemma atLeast_lens {M : ℤ} {c : Shifted.Cross} {n d : MvPolynomial ℕ ℚ} {S : Bool → ℕ → Finset (ℕ →₀ ℕ)} (hn : InVars k n) (hd : InVars k d) (h : Shifted.Ready k n d S M c) (f : PField ι) (i : ι) (o : ℕ) (on : Bool) (hon : on = true → c.on = true) :
    Needed.atLeast (lensOf f on i c) o ≤ if on then (Shifted.askedDegs n d S c.normDen false).card + (Shifted.askedDegs n d S c.normDen true).card else numDegs n o + numDegs d o := by
  cases on with
  | true =>
    rw [if_pos rfl]
    unfold Needed.atLeast
    refine le_trans (List.length_filter_le _ _) ?_
    unfold lensOf
    rw [if_pos rfl, List.length_append]
    unfold Needed.parts
    rw [List.length_map, List.length_map, Finset.length_toList, Finset.length_toList, (h.askedN hn (hon rfl) _).1, (h.askedD hd (hon rfl) _).1]
  | false =>
    rw [if_neg (by simp)]
    have h1 := degrees_le hn h.base.num h.base.unNum o
    have h2 := degrees_le hd h.base.den h.base.unDen o
    unfold RLater.degrees at h1 h2
    unfold Needed.atLeast lensOf
    rw [if_neg (by simp), List.filter_append, List.length_append, List.filter_map, List.filter_map, List.length_map, List.length_map]
    exact Nat.add_le_add h1 h2

/-- **The shift is kept as long as it is needed:** after any run in the fields `f :: fs`, the next field has a shift if and only if an object that is not done needs it. If it has none, then for each function that is not reported there is a degree in which all
coefficients are known already; the further coefficients are determined without shift. -/
theorem C72_shift {inv : ℤ → ℤ → ℤ} (hinv : InvertSpec inv) {ord : Order} (hord : ord.OK) {f : PField ι} {fs : List (PField ι)} (hyp : Hyp k n d S f fs) {st : State ι} (h : Run inv ord k f fs st) :
    (st.next = true ↔ ∃ i c, st.fn i = .open c ∧ c.singular = true) ∧
    (st.next = false → ∀ i c, st.fn i = .open c → ∃ b, ∃ m ∈ (Shifted.side (n i) (d i) b).support, ∀ m' ∈ (Shifted.side (n i) (d i) b).support, m'.degree = m.degree →
      (if b then c.base.coefs.combDi else c.base.coefs.combNi).find? (RRun.exps k m') = none) := by
  have hm := run_mid (fs2 := []) hinv hord (by simpa using hyp) h
  have hiff : st.next = true ↔ ∃ i c, st.fn i = .open c ∧ c.singular = true := by
    unfold State.next
    simp only [Bool.and_eq_true, decide_eq_true_eq]
    constructor
    · rintro ⟨-, i, c, hc, ha⟩
      obtain ⟨l, ⟨-, -, h1, h2, -⟩, -⟩ := hm i c hc
      exact ⟨i, c, hc, h2 ▸ ha⟩
    · rintro ⟨i, c, hc, ha⟩
      obtain ⟨l, ⟨-, -, h1, h2, h3, -⟩, -⟩ := hm i c hc
      exact ⟨by rw [← h3]; exact h1.on ha, i, c, hc, by rw [h2]; exact ha⟩
  refine ⟨hiff, fun h0 i c hc => ?_⟩
  obtain ⟨l, ⟨l0, -, h1, h2, h3, -⟩, -⟩ := hm i c hc
  have hs : c.singular ≠ true := fun hs => by
    rw [hiff.mpr ⟨i, c, hc, hs⟩] at h0; cases h0
  rcases h1.progress with ⟨b, m, hm, hp⟩ | ⟨h4, -⟩
  · have hsc : (Shifted.side (C l * n i) (C l * d i) b).support = (Shifted.side (n i) (d i) b).support := by rw [Shifted.side_scale, support_scale l0]
    rw [hsc] at hm hp
    exact ⟨b, m, hm, hp⟩
  · exact absurd h4 hs

/-- for the order vector `(o, …, o)` nothing is needed if `o` is larger than the numbers of monomials of one degree -/
lemma atLeast_zero {M : ℤ} {c : Shifted.Cross} {n d : MvPolynomial ℕ ℚ} {S : Bool → ℕ → Finset (ℕ →₀ ℕ)} (hn : InVars k n) (hd : InVars k d) (h : Shifted.Ready k n d S M c) (f : PField ι) (i : ι) {o : ℕ} (ho : 1 ≤ o)
    (hno : ¬ ∃ b j, o ≤ ((Shifted.side n d b).support.filter (fun m => m.degree = j)).card) : Needed.atLeast (lensOf f true i c) o = 0 := by
  have hp : ∀ (g : MvPolynomial ℕ ℚ) (b : Bool), Shifted.side n d b = g → ∀ {const : Bool} {gm : RnMap} {comb : MpzMap} {un : FFMap (List (List ℕ))} {x : Shifted.Side} {m : ℕ}, SideOK (RRun.coefOf g) (RRun.monos k g) M gm comb → Grouped (comb.map Prod.fst) un →
      InVars k g → (Needed.parts m const (x.prior un gm)).filter (fun e => decide (o ≤ e)) = [] := by
    intro g b hb const gm comb un x m h1 h2 h3
    rw [List.filter_eq_nil_iff]
    intro e he hoe
    unfold Needed.parts at he
    obtain ⟨j, -, rfl⟩ := List.mem_map.mp he
    have hoe : o ≤ Needed.orders const (x.prior un gm) j := of_decide_eq_true hoe
    obtain ⟨j', hj'⟩ := Shifted.prior_width h3 h1 h2 ho (le_trans hoe (min_le_right _ _))
    exact hno ⟨b, j', by rw [hb]; exact hj'⟩
  unfold Needed.atLeast lensOf
  rw [if_pos rfl, List.filter_append, hp n false rfl h.base.num h.base.unNum hn, hp d true rfl h.base.den h.base.unDen hd]
  rfl

/-- **A further prime field:** after any run in the fields `f :: fs` with a function that is not reported, whatever the threads have done so far in the next field `g`: there is no deadlock as long as something is left to do; from here the threads can come to the end, and when nothing is left to
do, the field has ended: the run goes on to the next field. (`C72_later_bound` bounds the number of steps.) -/
theorem C72_later_ends [Fintype ι] {inv : ℤ → ℤ → ℤ} (hinv : InvertSpec inv) {ord : Order} (hord : ord.OK) {f : PField ι} {fs : List (PField ι)} {g : PField ι} {fs2 : List (PField ι)} (hyp : Hyp k n d S f (fs ++ g :: fs2))
    (hsup : Supply k n d S (fun i => (f.cfg i).normDen) g) {st : State ι}
    (h : Run inv ord k f fs st) (hopen : Nonempty (Open st)) {ts : List (ZMod g.p)} (hts : ts ≠ []) (hnd : ts.Nodup) (hgood : ∀ t ∈ ts, g.good st.next (t, List.replicate (k - 1) 1)) {s : Needed.Fld (ZMod g.p) (g.laterObjs st)}
    (hr : haveI := g.fact; Needed.Reaches (g.laterObjs st) k (g.good st.next) (Needed.Fld.start (g.laterObjs st) k ts) s) :
    haveI := g.fact
    (s.Quiet → ∃ st', Run inv ord k f (fs ++ [g]) st' ∧ ∀ i : Open st, st'.fn i.1 = Fn.of (Shifted.prime inv ord i.cross (g.stage i.1 (st.others i.1) (s.got i)))) ∧
    (¬ s.Quiet → ∃ s', Needed.Step (g.laterObjs st) k (g.good st.next) s s') ∧
    ∃ s', Needed.Reaches (g.laterObjs st) k (g.good st.next) s s' ∧ s'.Quiet := by
  haveI := g.fact
  have hm := run_mid hinv hord hyp h
  have hk := hyp.two
  choose right hdesc using later_objs hk hyp.varsN hyp.varsD hm
  have hmany : ∀ i : Open st, ∀ el ∈ Needed.requests (lensOf g st.next i.1 i.cross), ∃ ts : List (ZMod g.p), ts.Nodup ∧ el.2 ≤ ts.length ∧ ∀ t ∈ ts, g.good st.next (t, Needed.ones k el.1) := by
    intro i el hel
    unfold Needed.requests at hel
    obtain ⟨j, -, rfl⟩ := List.mem_map.mp hel
    obtain ⟨l, ⟨l0, hno, hok, has, hon, hcnd, -⟩, -⟩ := hm i.1 i.cross (open_cross i)
    have e := next_eq (open_cross i) hon
    have hle := atLeast_lens (Whole.vars_scale l0 (hyp.varsN i.1)) (Whole.vars_scale l0 (hyp.varsD i.1)) hok g i.1 (j + 1) st.next (fun h => by rw [h, eq_comm, Bool.and_eq_true] at e; exact e.1)
    obtain ⟨hsh, ⟨ts', h1', h2', h3'⟩⟩ := hsup i.1 (j + 1) (by omega)
    cases hx : st.next with
    | true =>
      rw [hx] at hle
      rw [if_pos rfl, asked_scale l0, asked_scale l0, hcnd] at hle
      by_cases hw : ∃ b j', j + 1 ≤ ((Shifted.side (n i.1) (d i.1) b).support.filter (fun m => m.degree = j')).card
      · obtain ⟨ts, h1, h2, h3⟩ := hsh hw
        exact ⟨ts, h1, le_trans hle h2, h3⟩
      · refine ⟨[], List.nodup_nil, ?_, by simp⟩
        have := atLeast_zero (Whole.vars_scale l0 (hyp.varsN i.1)) (Whole.vars_scale l0 (hyp.varsD i.1)) hok g i.1 (o := j + 1) (by omega) (by
          rintro ⟨b, j', h0⟩
          rw [Shifted.side_scale, support_scale l0] at h0
          exact hw ⟨b, j', h0⟩)
        show Needed.atLeast _ (j + 1) ≤ 0
        rw [this]
    | false =>
      rw [hx] at hle
      rw [if_neg (by simp)] at hle
      refine ⟨ts', h1', le_trans hle ?_, h3'⟩
      unfold numDegs at h2' ⊢
      rw [support_scale l0, support_scale l0]
      exact h2'
  haveI : Fintype (Open st) := Fintype.ofFinite _
  refine ⟨fun hq => ?_, fun hq => Needed.C65_no_deadlock hdesc ts hnd hgood hmany s hr hq, Needed.C65_finishes hdesc ts hnd hgood hmany s hr⟩
  obtain ⟨st0, h1, h2⟩ := h
  classical
  obtain ⟨fn', hfn⟩ : ∃ fn' : ι → Fn, fn' = fun i => if hi : ((st.fn i).cross?).isSome then Fn.of (Shifted.prime inv ord (Open.cross ⟨i, hi⟩) (g.stage i (st.others i) (s.got ⟨i, hi⟩))) else st.fn i := ⟨_, rfl⟩
  have e1 : ∀ i : Open st, fn' i.1 = Fn.of (Shifted.prime inv ord i.cross (g.stage i.1 (st.others i.1) (s.got i))) := by
    intro i
    rw [hfn]
    simp only [dif_pos i.2]
  refine ⟨⟨st.next, fn'⟩, ⟨st0, h1, h2.snoc ⟨hopen, ts, s, hts, hnd, hgood, hr, fun i => (Needed.C65_all hdesc ts hts hnd hgood s hr hq i).1, rfl, e1, fun i hi => ?_⟩⟩, e1⟩
  show fn' i = st.fn i
  rw [hfn]
  simp only [dif_neg (show ¬ ((st.fn i).cross?).isSome by rw [hi]; decide)]

/-- **A further prime field:** every schedule ends: after any run in the fields `f :: fs` there is a bound for the number of steps in the next field `g` that depends only on the number of probes at the start. -/
theorem C72_later_bound [Fintype ι] {inv : ℤ → ℤ → ℤ} (hinv : InvertSpec inv) {ord : Order} (hord : ord.OK) {f : PField ι} {fs : List (PField ι)} {g : PField ι} {fs2 : List (PField ι)} (hyp : Hyp k n d S f (fs ++ g :: fs2)) {st : State ι}
    (h : Run inv ord k f fs st) (T : ℕ) :
    ∃ bound, ∀ ts : List (ZMod g.p), ts.length = T → ts.Nodup → (∀ t ∈ ts, g.good st.next (t, List.replicate (k - 1) 1)) → ∀ (m : ℕ) (w : ℕ → Needed.Fld (ZMod g.p) (g.laterObjs st)),
      (haveI := g.fact; w 0 = Needed.Fld.start (g.laterObjs st) k ts) → (haveI := g.fact; ∀ j < m, Needed.Step (g.laterObjs st) k (g.good st.next) (w j) (w (j + 1))) → m ≤ bound := by
  haveI := g.fact
  have hm := run_mid hinv hord hyp h
  choose right hdesc using later_objs hyp.two hyp.varsN hyp.varsD hm
  haveI : Fintype (Open st) := Fintype.ofFinite _
  refine ⟨∑ i : Open st, (((Needed.requests (lensOf g st.next i.1 i.cross)).map (fun el => 2 + Fintype.card (Open st) * el.2)).sum + T), fun ts hT hnd hgood m w h0 hw => ?_⟩
  have := Needed.C65_ends hdesc ts hnd hgood m w h0 hw
  rw [hT] at this
  exact this

/-- **A further prime field: no surplus:** whatever the threads do, no probe is queued twice, and for the order vector `(o, …, o)` there are never more probes than at the start (for `(1, …, 1)`) or than one of the functions that are not reported needs. Without the shift this is the number of its degrees
with at least `o` monomials; with the shift, the number of degrees that are asked for, if some degree has at least `o` monomials, and none otherwise: the monomials which the shift produces cost no order vector. -/
theorem C72_later_probes {inv : ℤ → ℤ → ℤ} (hinv : InvertSpec inv) {ord : Order} (hord : ord.OK) {f : PField ι} {fs : List (PField ι)} {g : PField ι} {fs2 : List (PField ι)} (hyp : Hyp k n d S f (fs ++ g :: fs2)) {st : State ι}
    (h : Run inv ord k f fs st) {ts : List (ZMod g.p)} (hnd : ts.Nodup) (hgood : ∀ t ∈ ts, g.good st.next (t, List.replicate (k - 1) 1)) {s : Needed.Fld (ZMod g.p) (g.laterObjs st)}
    (hr : haveI := g.fact; Needed.Reaches (g.laterObjs st) k (g.good st.next) (Needed.Fld.start (g.laterObjs st) k ts) s) :
    s.probes.Nodup ∧ ∀ o, 1 ≤ o → First.cnt s.probes (List.replicate (k - 1) o) ≤ (if o = 1 then ts.length else 0) ∨
      ∃ i : Open st, (st.next = false → First.cnt s.probes (List.replicate (k - 1) o) ≤ numDegs (n i.1) o + numDegs (d i.1) o) ∧
        (st.next = true → First.cnt s.probes (List.replicate (k - 1) o) ≤ (Shifted.askedDegs (n i.1) (d i.1) (S i.1) (f.cfg i.1).normDen false).card + (Shifted.askedDegs (n i.1) (d i.1) (S i.1) (f.cfg i.1).normDen true).card ∧
          ((¬ ∃ b j, o ≤ ((Shifted.side (n i.1) (d i.1) b).support.filter (fun m => m.degree = j)).card) → First.cnt s.probes (List.replicate (k - 1) o) = 0)) := by
  haveI := g.fact
  have hm := run_mid hinv hord hyp h
  choose right hdesc using later_objs hyp.two hyp.varsN hyp.varsD hm
  obtain ⟨h1, h2⟩ := Needed.C65_no_surplus hyp.two hdesc ts hnd hgood s hr
  refine ⟨h1, fun o ho => (h2 o).imp id ?_⟩
  rintro ⟨i, h3⟩
  obtain ⟨l, ⟨l0, hno, hok, has, hon, hcnd, -⟩, -⟩ := hm i.1 i.cross (open_cross i)
  have e := next_eq (open_cross i) hon
  have hle := atLeast_lens (Whole.vars_scale l0 (hyp.varsN i.1)) (Whole.vars_scale l0 (hyp.varsD i.1)) hok g i.1 o st.next (fun h => by rw [h, eq_comm, Bool.and_eq_true] at e; exact e.1)
  have h3 : First.cnt s.probes (List.replicate (k - 1) o) ≤ Needed.atLeast (lensOf g st.next i.1 i.cross) o := h3
  refine ⟨i, fun hx => ?_, fun hx => ⟨?_, fun hw => ?_⟩⟩
  · rw [hx] at hle h3
    rw [if_neg (by simp)] at hle
    refine le_trans h3 (le_trans hle ?_)
    unfold numDegs
    rw [support_scale l0, support_scale l0]
  · rw [hx] at hle h3
    rw [if_pos rfl, asked_scale l0, asked_scale l0, hcnd] at hle
    exact le_trans h3 hle
  · rw [hx] at h3
    have := atLeast_zero (Whole.vars_scale l0 (hyp.varsN i.1)) (Whole.vars_scale l0 (hyp.varsD i.1)) hok g i.1 (o := o) ho (by
      rintro ⟨b, j', h0⟩
      rw [Shifted.side_scale, support_scale l0] at h0
      exact hw ⟨b, j', h0⟩)
    omega

lemma AllGood.left {k : ℕ} {n d : MvPolynomial ℕ ℚ} {S : Bool → ℕ → Finset (ℕ →₀ ℕ)} {nd : Bool} {i : ι} {a c : List (PField ι)} : ∀ {M : ℤ}, AllGood k n d S nd i M (a ++ c) → AllGood k n d S nd i M a := by
  induction a with
  | nil => intro M h; trivial
  | cons f a ih => intro M h; exact ⟨h.1, h.2.1, h.2.2.1, h.2.2.2.1, ih h.2.2.2.2⟩

lemma Hyp.left {f : PField ι} {a c : List (PField ι)} (h : Hyp k n d S f (a ++ c)) : Hyp k n d S f a :=
  ⟨h.two, h.varsN, h.varsD, h.first, fun i l l0 hno => (h.later i l l0 hno).left, by have := h.limit; rw [List.length_append] at this; omega⟩

/-- **A run can be completed:** every run that has got through the fields `f :: fs1` can go on, through the fields of `fs2`, until all functions are reported or these fields are used up. -/
theorem C72_complete [Fintype ι] {inv : ℤ → ℤ → ℤ} (hinv : InvertSpec inv) {ord : Order} (hord : ord.OK) {f : PField ι} {fs1 fs2 : List (PField ι)} (hyp : Hyp k n d S f (fs1 ++ fs2))
    (hsup : ∀ g ∈ fs2, Supply k n d S (fun i => (f.cfg i).normDen) g ∧ ∀ on, ∃ t, g.good on (t, List.replicate (k - 1) 1)) {st : State ι} (h : Run inv ord k f fs1 st) :
    ∃ (fs : List (PField ι)) (st' : State ι), fs <+: fs2 ∧ Run inv ord k f (fs1 ++ fs) st' ∧ (fs = fs2 ∨ ∀ i, ∃ N D, st'.fn i = .closed (some (.finished N D)) ∧ (Right (n i) (d i) N D ∨ Early k (n i) (d i) i f (fs1 ++ fs) N D)) := by
  have ends : ∀ (a b : List (PField ι)) (st : State ι), Hyp k n d S f (a ++ b) → Run inv ord k f a st → ¬ Nonempty (Open st) → ∀ i, ∃ N D, st.fn i = .closed (some (.finished N D)) ∧ (Right (n i) (d i) N D ∨ Early k (n i) (d i) i f a N D) := by
    intro a b st hyp h ho i
    rcases C72_run hinv hord hyp.left h i with h1 | ⟨c, l, hc, -⟩
    · exact h1
    · exact absurd ⟨i, by rw [hc]; rfl⟩ ho
  induction fs2 generalizing fs1 st with
  | nil => exact ⟨[], st, List.prefix_rfl, by simpa using h, Or.inl rfl⟩
  | cons g fs2 ih =>
    by_cases ho : Nonempty (Open st)
    · obtain ⟨hs, ht⟩ := hsup g (by simp)
      obtain ⟨t, ht⟩ := ht st.next
      haveI := g.fact
      obtain ⟨-, -, s, h1, h2⟩ := C72_later_ends hinv hord hyp hs h ho (ts := [t]) (by simp) (by simp) (by simpa using ht) Relation.ReflTransGen.refl
      obtain ⟨st1, h3, -⟩ := (C72_later_ends hinv hord hyp hs h ho (ts := [t]) (by simp) (by simp) (by simpa using ht) h1).1 h2
      have e : ∀ x : List (PField ι), fs1 ++ [g] ++ x = fs1 ++ g :: x := by intro x; simp
      obtain ⟨fs, st', y1, y2, y3⟩ := ih (fs1 := fs1 ++ [g]) (st := st1) (by rw [e]; exact hyp) (fun x hx => hsup x (by simp [hx])) h3
      rw [e] at y2 y3
      refine ⟨g :: fs, st', (List.cons_prefix_cons).mpr ⟨rfl, y1⟩, y2, y3.imp (fun h => by rw [h]) id⟩
    · refine ⟨[], st, List.nil_prefix, by simpa using h, Or.inr ?_⟩
      have := ends fs1 (g :: fs2) st hyp h ho
      simpa using this

end

end FireFly.WholeShift
