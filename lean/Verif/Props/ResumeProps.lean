import Verif.Props.SaveFirstProps
import Verif.Props.RatReconstProps
/-!
# C39: interrupted and resumed reconstructions of functions of one variable

The process may end at any time; the new one loads the state that was saved at the end of the last complete prime field.
-/
set_option linter.all false
open Polynomial
namespace FireFly
variable {F : Type} [Field F] [DecidableEq F]

/-- The members of an object for `n = 1` the model `uniRun` uses; `known` is `max_deg_num != -1` (source/RatReconst.cpp 349). -/
def RatObj.toUni (o : RatObj F) : UniCross :=
  { coefs := o.coefs, known := decide (o.maxDegNum ≠ -1), nonSolvedNum := o.nonSolvedNum.map Prod.fst, nonSolvedDen := o.nonSolvedDen.map Prod.fst
    numEqn := o.numEqn, primeNumber := o.primeNumber, zeroCounter := o.zeroCounter, checkInterpolation := o.checkInterpolation }

/-- An object for one variable whose state is saved in the prime field before `c.primeNumber`. -/
structure SavedUni (c : UniCross) (k : ℕ) (o : RatObj F) : Prop where
  savable : o.Savable
  n : o.n = 1
  coefs : o.coefs = c.coefs
  degrees : c.known = true
  known : o.maxDegNum ≠ -1
  mode : o.interpolations = 1
  prime : c.primeNumber = k + 1
  bound : k + 1 < 2 ^ 31

lemma grouped_uni {keys : List (List ℕ)} {m : List (ℕ × List (List ℕ))} (h : Grouped keys m) (hnd : keys.Nodup)
    (hk : ∀ e ∈ keys, e.length = 1 ∧ ∀ x ∈ e, x < 2 ^ 31) : (m.map Prod.fst).Perm (keys.map (fun t => t.getD 0 0)) := by
  have hfl : (m.map Prod.snd).flatten.Nodup := h.all.nodup_iff.mpr hnd
  have key : ∀ g ∈ m, g.2 = [[g.1]] := by
    intro g hg
    have hnd2 : g.2.Nodup := (List.nodup_flatten.mp hfl).1 g.2 (List.mem_map.mpr ⟨g, hg, rfl⟩)
    have hall : ∀ e ∈ g.2, e = [g.1] := by
      intro e he
      have hmem : e ∈ keys := h.all.mem_iff.mp (List.mem_flatten.mpr ⟨g.2, List.mem_map.mpr ⟨g, hg, rfl⟩, he⟩)
      obtain ⟨h1, h2⟩ := hk e hmem
      obtain ⟨x, rfl⟩ := List.length_eq_one_iff.mp h1
      have hd := h.degree g hg _ he
      have := h2 x (by simp)
      simp only [List.sum_cons, List.sum_nil, add_zero] at hd
      rw [Nat.mod_eq_of_lt (by omega)] at hd
      rw [hd]
    have hne := h.nonempty g hg
    match hg2 : g.2 with
    | [] => exact absurd hg2 hne
    | [a] => rw [hall a (by rw [hg2]; simp)]
    | a :: b :: r =>
      exfalso
      have ha := hall a (by rw [hg2]; simp)
      have hb := hall b (by rw [hg2]; simp)
      rw [hg2, ha, hb] at hnd2
      simp at hnd2
  have hfe : (m.map Prod.snd).flatten = m.map (fun g => [g.1]) := by
    have : m.map Prod.snd = m.map (fun g => [[g.1]]) := List.map_congr_left key
    rw [this]
    clear this key hfl h
    induction m with
    | nil => rfl
    | cons g m ih => rw [List.map_cons, List.flatten_cons, ih]; rfl
  have := h.all.map (fun t => t.getD 0 0)
  rw [hfe, List.map_map] at this
  exact this

lemma ratCoefs_ext {a b : RatCoefs} (h1 : a.gNi = b.gNi) (h2 : a.gDi = b.gDi) (h3 : a.combNi = b.combNi) (h4 : a.combDi = b.combDi)
    (h5 : a.combPrime = b.combPrime) : a = b := by
  cases a; cases b
  simp only at h1 h2 h3 h4 h5
  rw [h1, h2, h3, h4, h5]

/-- **C39 (resumed).** Between two prime fields a reconstruction of `n/d` is interrupted. A new process that loads the saved state is in a state
from which the reconstruction of the same function goes on: the coefficients known so far are those of `n/d`, exactly or modulo
the same product of primes `M`, the next prime is the same one. -/
theorem C39_resume (rand : ℕ → F) (tag : Str) {n d : ℚ[X]} {M : ℤ} {c : UniCross} (h : UniOK n d M c) {k : ℕ} {o o0 : RatObj F}
    (ho : SavedUni c k o) (h0 : o0.IsNew) (hsh : o0.shift.length = 1) (hz : o0.zeroCounter = 0) :
    ∃ o' b, load rand o0 (stateName tag k) (unlines o.stateLines) = .ok (o', b) ∧ UniOK n d M o'.toUni ∧ o'.toUni.primeNumber = c.primeNumber ∧
      o'.toUni.coefs = c.coefs := by
  obtain ⟨o', e, hr, h1, h2, -, h3, h4, h5, h6, -⟩ := C39_round_trip rand tag ho.bound ho.savable h0 (by rw [hsh, ho.n])
  have hc : o'.coefs = c.coefs := by
    rw [← ho.coefs]
    exact ratCoefs_ext hr.gNi hr.gDi hr.combNi hr.combDi hr.combPrime
  have hkeys : ∀ m : MpzMap, SavableMap o.n m → (m.map Prod.fst).Nodup ∧ ∀ e ∈ m.map Prod.fst, e.length = 1 ∧ ∀ x ∈ e, x < 2 ^ 31 := by
    intro m hm
    rw [ho.n] at hm
    exact ⟨hm.1, by
      intro e he
      obtain ⟨t, ht, rfl⟩ := List.mem_map.mp he
      exact hm.2 t ht⟩
  have g1 := grouped_uni h4 (hkeys _ ho.savable.combNi).1 (hkeys _ ho.savable.combNi).2
  have g2 := grouped_uni h5 (hkeys _ ho.savable.combDi).1 (hkeys _ ho.savable.combDi).2
  rw [ho.coefs, List.map_map] at g1 g2
  refine ⟨o', _, e, ?_, ?_, hc⟩
  · constructor
    · show o'.coefs.combPrime = M; rw [hc]; exact h.prime
    · exact h.pos
    · show SideOK _ _ M o'.coefs.gNi o'.coefs.combNi; rw [hc]; exact h.num
    · show SideOK _ _ M o'.coefs.gDi o'.coefs.combDi; rw [hc]; exact h.den
    · show o'.coefs.combDi.find? _ = none; rw [hc]; exact h.norm
    · show decide (o'.maxDegNum ≠ -1) = true
      rw [hr.maxDegNum]; exact decide_eq_true ho.known
    · exact h2
    · show (o'.nonSolvedNum.map Prod.fst).Perm (o'.coefs.combNi.map _); rw [hc]; exact g1
    · show (o'.nonSolvedDen.map Prod.fst).Perm (o'.coefs.combDi.map _); rw [hc]; exact g2
    · show o'.numEqn = (o'.nonSolvedNum.map Prod.fst).length + (o'.nonSolvedDen.map Prod.fst).length
      rw [List.length_map, List.length_map]
      exact h6 (by rw [ho.mode]; omega)
    · show o'.zeroCounter < o'.primeNumber
      rw [h1, h3, hz]; omega
  · show o'.primeNumber = c.primeNumber
    rw [h1, ho.prime]

/-! ## runs with interruptions -/

/-- The object that saves `c`: the members a function of one variable does not use have their initial values. -/
noncomputable def uniObj (n d : ℚ[X]) (c : UniCross) (tagName : Str) : RatObj F :=
  { n := 1, coefs := c.coefs, tagName := tagName, maxDegNum := n.natDegree, maxDegDen := d.natDegree, normalizerDeg := [d.natTrailingDegree]
    normalizerDenNum := true, shift := [0] }

lemma side_savable {f : ℚ[X]} {M : ℤ} {g : RnMap} {comb : MpzMap} (h : SideOK (coefOf f) (monos f) M g comb) (hd : f.natDegree < 2 ^ 31) :
    SavableMap 1 g ∧ (∀ t ∈ g, t.2.Valid) ∧ SavableMap 1 comb := by
  have hnd : (g.map Prod.fst ++ comb.map Prod.fst).Nodup := h.perm.nodup_iff.mpr h.nodup
  have hmem : ∀ e ∈ g.map Prod.fst ++ comb.map Prod.fst, e.length = 1 ∧ ∀ x ∈ e, x < 2 ^ 31 := by
    intro e he
    obtain ⟨x, hx, rfl⟩ := mem_monos.mp (h.perm.mem_iff.mp he)
    refine ⟨rfl, ?_⟩
    intro y hy
    rw [List.mem_singleton] at hy
    rw [hy]
    exact lt_of_le_of_lt (le_natDegree_of_mem_supp x hx) hd
  refine ⟨⟨(List.nodup_append.mp hnd).1, fun t ht => hmem t.1 (List.mem_append_left _ (List.mem_map.mpr ⟨t, ht, rfl⟩))⟩,
    fun t ht => (h.known t ht).1, ⟨(List.nodup_append.mp hnd).2.1, fun t ht => hmem t.1 (List.mem_append_right _ (List.mem_map.mpr ⟨t, ht, rfl⟩))⟩⟩

/-- Every state of a reconstruction between two prime fields can be saved. -/
theorem C39_uni_savable {n d : ℚ[X]} {M : ℤ} {c : UniCross} (h : UniOK n d M c) (hn : n.natDegree < 2 ^ 31) (hd : d.natDegree < 2 ^ 31)
    {tagName : Str} (ht : '\n' ∉ tagName ∧ ∀ k : Kw, tagName ≠ k.str) (hp : c.primeNumber < 2 ^ 31) :
    SavedUni c (c.primeNumber - 1) (uniObj (F := F) n d c tagName) := by
  have hz := h.zeros
  obtain ⟨a1, a2, a3⟩ := side_savable h.num hn
  obtain ⟨b1, b2, b3⟩ := side_savable h.den hd
  have hsub : SavableSub 1 ([] : List (ℕ × FFMap F)) := by unfold SavableSub; simp
  have hmap : SavableMap 1 ([] : MpzMap) := by unfold SavableMap; simp
  refine ⟨⟨Nat.one_pos, ht, ⟨?_, ?_⟩, ⟨?_, ?_⟩, Or.inl rfl, by simp [uniObj], ⟨rfl, ?_⟩, ⟨by simp [uniObj], by simp [uniObj]⟩, hsub, hsub,
    ⟨List.nodup_nil, by simp [uniObj]⟩, ⟨List.nodup_nil, by simp [uniObj]⟩, ⟨a1, a2⟩, ⟨b1, b2⟩, a3, b3, hmap, hmap⟩, rfl, rfl, h.known, ?_, rfl, by omega, by omega⟩
  · show (-1 : ℤ) ≤ (n.natDegree : ℤ); omega
  · show (n.natDegree : ℤ) < 2 ^ 31; exact_mod_cast hn
  · show (-1 : ℤ) ≤ (d.natDegree : ℤ); omega
  · show (d.natDegree : ℤ) < 2 ^ 31; exact_mod_cast hd
  · intro x hx
    have : x = d.natTrailingDegree := by simpa [uniObj] using hx
    rw [this]
    exact lt_of_le_of_lt (natTrailingDegree_le_natDegree d) hd
  · show (n.natDegree : ℤ) ≠ -1; omega

/-- A process ends while the object works in the prime field `c.primeNumber` or between two prime fields, and a new one resumes the
reconstruction: it loads the state saved before that prime field into a new object. -/
def Restarted (c c' : UniCross) : Prop :=
  ∃ (q : ℕ) (_ : Fact q.Prime) (rand : ℕ → ZMod q) (tag : Str) (k : ℕ) (o o0 o' : RatObj (ZMod q)) (b : Bool), SavedUni c k o ∧ o0.IsNew ∧ o0.shift.length = 1 ∧
    o0.zeroCounter = 0 ∧ load rand o0 (stateName tag k) (unlines o.stateLines) = .ok (o', b) ∧ c' = o'.toUni

/-- A new object, or one that has met only zeros. -/
structure Fresh (c : UniCross) : Prop where
  coefs : c.coefs.gNi = [] ∧ c.coefs.gDi = []
  known : c.known = false
  check : c.checkInterpolation = false
  zeros : c.zeroCounter = c.primeNumber

/-- The interruption of a process before the end of the first prime field that is not skipped: the initial file or the file of a vanishing
function is loaded. -/
def RestartedFirst (c c' : UniCross) : Prop :=
  Fresh c ∧ ∃ (q : ℕ) (_ : Fact q.Prime) (rand : ℕ → ZMod q) (tag : Str) (o o0 o' : RatObj (ZMod q)) (b : Bool), o.n = 1 ∧ '\n' ∉ o.tagName ∧
    (o.degBounds = [] ∨ o.degBounds.length = 1) ∧ (∀ t ∈ o.degBounds, t.1 < 2 ^ 31 ∧ t.2 < 2 ^ 31) ∧
    o0.IsNew ∧ o0.n = 1 ∧ o0.zeroCounter = 0 ∧ o0.maxDegNum = -1 ∧ c' = o'.toUni ∧
    ((c.primeNumber = 0 ∧ load rand o0 (stateName tag 0) (unlines o.initialLines) = .ok (o', b)) ∨
     (0 < c.primeNumber ∧ c.primeNumber ≤ 2 ∧ load rand o0 (stateName tag (c.primeNumber - 1)) (unlines o.zeroLines) = .ok (o', b)))

/-- The runs of the reconstruction with any number of interruptions, `rs` are the probes of the prime fields that are completed. Probes
of a field lost by an interruption do not occur in it. -/
inductive RunI (inv : ℤ → ℤ → ℤ) (gt : (p : ℕ) → ZMod p → ZMod p → Bool) (ord : List ℕ → List ℕ) : UniCross → List PrimeRun → RunOut → Prop
  | stop (c : UniCross) : RunI inv gt ord c [] (.waiting c)
  | finished {c : UniCross} {r : PrimeRun} {N D : RnMap} (rs : List PrimeRun)
      (h : (haveI := r.fact; uniPrime inv (gt r.p) ord r.nextP c r.pts) = some (.finished N D)) : RunI inv gt ord c (r :: rs) (.finished N D)
  | next {c c' : UniCross} {r : PrimeRun} {rs : List PrimeRun} {out : RunOut}
      (h : (haveI := r.fact; uniPrime inv (gt r.p) ord r.nextP c r.pts) = some (.nextPrime c')) (hr : RunI inv gt ord c' rs out) :
      RunI inv gt ord c (r :: rs) out
  | resumeFirst {c c' : UniCross} {rs : List PrimeRun} {out : RunOut} (h : RestartedFirst c c') (hr : RunI inv gt ord c' rs out) : RunI inv gt ord c rs out
  | resume {c c' : UniCross} {rs : List PrimeRun} {out : RunOut} (h : Restarted c c') (hr : RunI inv gt ord c' rs out) : RunI inv gt ord c rs out

/-- Specification: the outcome of a run is right, as in `C36_run`. -/
def GoodOut (n d : ℚ[X]) (M : ℤ) (rs : List PrimeRun) (out : RunOut) : Prop :=
  (∃ c', out = .waiting c' ∧ UniOK n d (M * primeProd rs) c' ∧
      ∀ rs1 r rs2, rs = rs1 ++ r :: rs2 → ¬ r.Skipped → ∃ e, ¬ Small (n.coeff e) (M * primeProd rs1) ∨ ¬ Small (d.coeff e) (M * primeProd rs1)) ∨
  ∃ N D, out = .finished N D ∧ ((rnPoly N = n ∧ rnPoly D = d) ∨ Premature n d M rs N D)

lemma goodOut_cons {n d : ℚ[X]} {M M' : ℤ} {r : PrimeRun} {rs : List PrimeRun} {out : RunOut} (h : GoodOut n d M' rs out)
    (hprod : ∀ l, M' * primeProd l = M * primeProd (r :: l)) (hbig : ¬ r.Skipped → ∃ e, ¬ Small (n.coeff e) M ∨ ¬ Small (d.coeff e) M) :
    GoodOut n d M (r :: rs) out := by
  rcases h with ⟨c'', rfl, hc'', hsm⟩ | ⟨N, D, rfl, ho⟩
  · refine Or.inl ⟨c'', rfl, by rw [← hprod]; exact hc'', ?_⟩
    intro rs1 q rs2 hq hsk
    rcases rs1 with _ | ⟨q', rs1⟩
    · rw [List.nil_append] at hq
      obtain ⟨rfl, -⟩ := List.cons.inj hq
      simpa [primeProd] using hbig hsk
    · rw [List.cons_append] at hq
      obtain ⟨h1, h2⟩ := List.cons.inj hq
      subst h1
      have := hsm rs1 q rs2 h2 hsk
      rwa [hprod] at this
  · refine Or.inr ⟨N, D, rfl, ho.imp id ?_⟩
    rintro ⟨rs1, q, rs2, hq, hsk, h1, h2⟩
    refine ⟨r :: rs1, q, rs2, by rw [hq]; rfl, hsk, ?_, ?_⟩
    · rw [← hprod]; exact h1
    · rw [← hprod]; exact h2

lemma restarted_ok {n d : ℚ[X]} {M : ℤ} {c c' : UniCross} (h : UniOK n d M c) (hr : Restarted c c') :
    UniOK n d M c' ∧ c'.primeNumber = c.primeNumber := by
  obtain ⟨q, hq, rand, tag, k, o, o0, o', b, ho, h0, h1, h2, hl, rfl⟩ := hr
  obtain ⟨o'', b', e, x1, x2, -⟩ := C39_resume rand tag h ho h0 h1 h2
  rw [hl] at e
  have := Except.ok.inj e
  rw [Prod.mk.injEq] at this
  rw [this.1]
  exact ⟨x1, x2⟩

/-- **C39 (interrupted runs).** However often the process is ended and resumed from the saved state, the outcome satisfies what `C36_run` says about the
uninterrupted run: a reported result is `n/d`, or it was reported before the coefficients are small compared with the product of the primes;
without a result, the coefficients are not small yet. -/
theorem C39_interrupted {inv : ℤ → ℤ → ℤ} (hinv : InvertSpec inv) {gt : (p : ℕ) → ZMod p → ZMod p → Bool}
    (hgt : ∀ p [Fact p.Prime], PivotOrder (gt p)) {ord : List ℕ → List ℕ} (hord : ∀ l, (ord l).Perm l) {n d : ℚ[X]}
    {rs : List PrimeRun} {c : UniCross} {out : RunOut} (hrun : RunI inv gt ord c rs out) :
    ∀ M : ℤ, UniOK n d M c → RunsOK n d M rs → c.primeNumber + rs.length < 300 → GoodOut n d M rs out := by
  induction hrun with
  | stop c =>
    intro M h _ _
    exact Or.inl ⟨c, rfl, by simpa [primeProd] using h, by simp⟩
  | @finished c r N D rs hp =>
    intro M h hr h300
    haveI := r.fact
    rw [List.length_cons] at h300
    obtain ⟨out, e, ho⟩ := run_spec hinv hgt hord (r :: rs) M c h hr (by rw [List.length_cons]; omega)
    unfold uniRun at e
    rw [hp] at e
    simp only [Option.bind_eq_bind, Option.bind_some, Option.some.injEq] at e
    subst e
    exact ho
  | @next c c' r rs out hp hrest ih =>
    intro M h hr h300
    haveI := r.fact
    rw [List.length_cons] at h300
    rcases hr with ⟨hsk, hrest⟩ | ⟨hnsk, ⟨hp1, hp2⟩, hpM, hx, hrest⟩
    · obtain ⟨pt, rest, hpts, hz⟩ := id hsk
      obtain ⟨c'', e, hc', hnum⟩ := C36_skip inv (gt r.p) ord h r.nextP pt rest hz (by omega)
      rw [← hpts, hp] at e
      obtain rfl : c' = c'' := by simpa using e
      exact goodOut_cons (ih M hc' hrest (by omega)) (fun l => by simp [primeProd, hsk]) (fun hn => absurd hsk hn)
    · obtain ⟨out', e, hout, -⟩ := C36_prime hinv (hgt r.p) hord h r.nextP hp1 hp2 hpM (by omega) hx
      rw [hp] at e
      rcases hout with ⟨N, D, rfl, hcert⟩ | ⟨c'', rfl, hc', hnum, hbig⟩
      · simp at e
      · obtain rfl : c' = c'' := by simpa using e
        exact goodOut_cons (ih _ hc' hrest (by omega)) (fun l => by simp [primeProd, mul_assoc, hnsk]) (fun _ => hbig)
  | resumeFirst hres hrest ih =>
    intro M h hr h300
    have h1 := h.known
    rw [hres.1.known] at h1
    cases h1
  | resume hres hrest ih =>
    intro M h hr h300
    obtain ⟨h1, h2⟩ := restarted_ok h hres
    exact ih M h1 hr (by rw [h2]; exact h300)

lemma restartedFirst_ok {c c' : UniCross} (hr : RestartedFirst c c') : Fresh c' ∧ c'.primeNumber = c.primeNumber := by
  obtain ⟨hf, q, hq, rand, tag, o, o0, o', b, hn, ht, hb, hlt, h0, hn0, hz, hm, rfl, h⟩ := hr
  rcases h with ⟨h1, hl⟩ | ⟨h1, h2, hl⟩
  · rw [C39_initial rand tag ht (by rw [hn]; exact hb) hlt (by rw [hn, hn0]) h0.bounds] at hl
    have := Except.ok.inj hl
    rw [Prod.mk.injEq] at this
    rw [← this.1]
    refine ⟨⟨⟨h0.coefs.1, h0.coefs.2.1⟩, ?_, rfl, hz⟩, h1.symm⟩
    show decide (o0.maxDegNum ≠ -1) = false
    rw [hm]; rfl
  · rw [C39_zero rand tag (by omega) ht, if_neg (by omega)] at hl
    have := Except.ok.inj hl
    rw [Prod.mk.injEq] at this
    rw [← this.1]
    have e : c.primeNumber - 1 + 1 = c.primeNumber := by omega
    refine ⟨⟨⟨h0.coefs.1, h0.coefs.2.1⟩, ?_, rfl, rfl⟩, e⟩
    show decide (o0.maxDegNum ≠ -1) = false
    rw [hm]; rfl

/-- Specification: the prime fields of a whole run, `j` is the number of fields before. At most two fields are skipped before the first one
that satisfies the assumptions of `C36_first`. -/
def RunsOK0 (n d : ℚ[X]) : ℕ → List PrimeRun → Prop
  | _, [] => True
  | j, r :: rs => (r.Skipped ∧ j < 2 ∧ RunsOK0 n d (j + 1) rs) ∨ (FirstOK n d r ∧ RunsOK n d r.p rs)

/-- **C39 (interrupted runs from the start).** As `C39_interrupted`, for the whole run of a new object: the process may also be ended and
resumed before the first prime field has been completed. -/
theorem C39_interrupted_run {inv : ℤ → ℤ → ℤ} (hinv : InvertSpec inv) {gt : (p : ℕ) → ZMod p → ZMod p → Bool}
    (hgt : ∀ p [Fact p.Prime], PivotOrder (gt p)) {ord : List ℕ → List ℕ} (hord : ∀ l, (ord l).Perm l) {n d : ℚ[X]}
    {rs : List PrimeRun} {c : UniCross} {out : RunOut} (hrun : RunI inv gt ord c rs out) :
    Fresh c → RunsOK0 n d c.primeNumber rs → c.primeNumber + rs.length < 300 →
      (∃ c', out = .waiting c' ∧ ∀ r ∈ rs, r.Skipped) ∨
      ∃ pre r rs', rs = pre ++ r :: rs' ∧ (∀ q ∈ pre, q.Skipped) ∧ FirstOK n d r ∧ GoodOut n d r.p rs' out := by
  have skip : ∀ (c : UniCross) (r : PrimeRun), Fresh c → r.Skipped → c.primeNumber < 2 → ∃ c', (haveI := r.fact; uniPrime inv (gt r.p) ord r.nextP c r.pts) = some (.nextPrime c') ∧
      Fresh c' ∧ c'.primeNumber = c.primeNumber + 1 := by
    intro c r hf hsk hj
    obtain ⟨pt, rest, hpts, hz⟩ := id hsk
    haveI := r.fact
    refine ⟨{ c with coefs := { c.coefs with combPrime := (r.nextP : ℤ) }, zeroCounter := c.zeroCounter + 1, primeNumber := c.primeNumber + 1 }, ?_, ?_, rfl⟩
    · rw [hpts]
      unfold uniPrime feedZero
      simp only [if_pos hz]
      have := hf.zeros
      rw [if_neg (by omega), if_neg (by omega), if_pos (by omega)]
    · exact ⟨hf.coefs, hf.known, hf.check, by show c.zeroCounter + 1 = c.primeNumber + 1; rw [hf.zeros]⟩
  have first : ∀ (c : UniCross) (r : PrimeRun), Fresh c → FirstOK n d r → c.primeNumber + 1 < 300 →
      ∃ c', (haveI := r.fact; uniPrime inv (gt r.p) ord r.nextP c r.pts) = some (.nextPrime c') ∧ UniOK n d r.p c' ∧ c'.primeNumber = c.primeNumber + 1 := by
    intro c r hf h1 h300
    haveI := r.fact
    obtain ⟨a1, a2, a3, a4, a5, a6, a7, a8, s, a9, a10, a11⟩ := h1
    exact C36_first (inv := inv) (gt := gt r.p) hord ⟨hf.coefs.1, hf.coefs.2, hf.known, hf.check⟩ hf.zeros.le h300 r.nextP a1 a2 a3 a4 a5 a6 a7 a8 a9 a10 a11
  induction hrun with
  | stop c => intro _ _ _; exact Or.inl ⟨c, rfl, by simp⟩
  | @finished c r N D rs hp =>
    intro hf hr h300
    rw [List.length_cons] at h300
    rcases hr with ⟨hsk, hj, -⟩ | ⟨h1, -⟩
    · obtain ⟨c', e, -⟩ := skip c r hf hsk hj
      rw [hp] at e; simp at e
    · obtain ⟨c', e, -⟩ := first c r hf h1 (by omega)
      rw [hp] at e; simp at e
  | @next c c' r rs out hp hrest ih =>
    intro hf hr h300
    rw [List.length_cons] at h300
    rcases hr with ⟨hsk, hj, hr⟩ | ⟨h1, hr⟩
    · obtain ⟨c'', e, hf', hnum⟩ := skip c r hf hsk hj
      rw [hp] at e
      obtain rfl : c' = c'' := by simpa using e
      rcases ih hf' (by rw [hnum]; exact hr) (by omega) with ⟨w, rfl, hall⟩ | ⟨pre, q, rs', e1, e2, e3, e4⟩
      · left
        refine ⟨w, rfl, ?_⟩
        intro x hx
        rcases List.mem_cons.mp hx with rfl | hx
        · exact hsk
        · exact hall x hx
      · right
        refine ⟨r :: pre, q, rs', by rw [e1]; rfl, ?_, e3, e4⟩
        intro x hx
        rcases List.mem_cons.mp hx with rfl | hx
        · exact hsk
        · exact e2 x hx
    · right
      obtain ⟨c'', e, hu, hnum⟩ := first c r hf h1 (by omega)
      rw [hp] at e
      obtain rfl : c' = c'' := by simpa using e
      exact ⟨[], r, rs, rfl, by simp, h1, C39_interrupted hinv hgt hord hrest r.p hu hr (by omega)⟩
  | resumeFirst hres hrest ih =>
    intro hf hr h300
    obtain ⟨h1, h2⟩ := restartedFirst_ok hres
    exact ih h1 (by rw [h2]; exact hr) (by rw [h2]; exact h300)
  | resume hres hrest ih =>
    intro hf hr h300
    obtain ⟨q, hq, rand, tag, k, o, o0, o', b, ho, -⟩ := hres
    have := ho.degrees
    rw [hf.known] at this
    cases this

/-- Every state between two prime fields can be interrupted and resumed. -/
theorem C39_restart_possible {n d : ℚ[X]} {M : ℤ} {c : UniCross} (h : UniOK n d M c) (hn : n.natDegree < 2 ^ 31) (hd : d.natDegree < 2 ^ 31)
    (hp : c.primeNumber < 2 ^ 31) : ∃ c', Restarted c c' := by
  haveI : Fact (Nat.Prime 7) := ⟨by norm_num⟩
  have hs := C39_uni_savable (F := ZMod 7) h hn hd (tagName := "f".toList) ⟨by decide, by intro k; cases k <;> decide +kernel⟩ hp
  obtain ⟨o', b, e, -⟩ := C39_resume (F := ZMod 7) (fun _ => 1) "0".toList h hs (o0 := { n := 1, coefs := { combPrime := 7 }, shift := [0] })
    ⟨⟨rfl, rfl, rfl, rfl⟩, ⟨rfl, rfl⟩, ⟨rfl, rfl⟩, ⟨rfl, rfl⟩, ⟨rfl, rfl⟩, ⟨rfl, rfl⟩⟩ rfl rfl
  exact ⟨o'.toUni, 7, inferInstance, fun _ => 1, "0".toList, _, _, _, o', b, hs, ⟨⟨rfl, rfl, rfl, rfl⟩, ⟨rfl, rfl⟩, ⟨rfl, rfl⟩, ⟨rfl, rfl⟩, ⟨rfl, rfl⟩, ⟨rfl, rfl⟩⟩, rfl, rfl, e, rfl⟩

end FireFly
