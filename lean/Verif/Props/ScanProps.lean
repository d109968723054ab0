import Verif.Lemmas.ScanLoop
import Verif.Props.RatMultiExamples
/-!
# C50: the scan for a sparse shift and the interpolation after it
-/
set_option linter.all false
namespace FireFly.RMulti
open MvPolynomial
variable {F : Type} [Field F] [DecidableEq F]

lemma binVectors_length : ∀ n, (binVectors n).length = 2 ^ n
  | 0 => by simp [binVectors]
  | n + 1 => by rw [binVectors, List.length_append, List.length_map, List.length_map, binVectors_length n]; ring

/-- **C50 (the set of variables that is found).** On each line that is tried the `m` functions in `n` variables can be interpolated (`LineOK`). Then the scan ends after at most `2^n + 1` rounds. If it finds a set of variables, the degrees of all functions on the line
of a round `k` for this set are the same as for the shift of all variables; for each set that has fewer variables there was a round in which the degrees of a function were different; the objects know exactly the powers of `t` that occur
on the line of the round `k` and normalize to the denominator if and only if its constant does not vanish there. If the scan finds none, all variables are shifted; there was a round for each other set of variables in which the degrees of
a function were different, and the objects know the powers of `t` on the last line. -/
theorem C50_scan {n m : ℕ} (hn : 1 ≤ n) (hm : 1 ≤ m) {food : ℕ → List ℕ → ℕ → List (F × F)} {nf df : ℕ → List ℕ → ℕ → Polynomial F}
    (hfirst : ∀ i < m, LineOK (food 0 (List.replicate n 1) i) (nf 0 (List.replicate n 1) i) (df 0 (List.replicate n 1) i))
    (hline : ∀ k p, 1 ≤ k → k ≤ 2 ^ n → p.length = n → (∀ x ∈ p, x = 0 ∨ x = 1) → ∀ i < m, LineOK (food k p i) (nf k p i) (df k p i)) :
    ∃ r : ScanResult F, scanForShift n m food = some r ∧ r.objs.length = m ∧ r.shifted.length = n ∧ (∀ x ∈ r.shifted, x = 0 ∨ x = 1) ∧
      (∃ k, 1 ≤ k ∧ k ≤ 2 ^ n ∧ (r.found = true → r.shifted ≠ List.replicate n 1 ∧ Keeps n m nf df k r.shifted) ∧
        ∀ i (h : i < r.objs.length), Info (nf k r.shifted i) (df k r.shifted i) r.objs[i] ∧ (r.found = true → (r.objs[i].normDen = true ↔ (df k r.shifted i).coeff 0 ≠ 0))) ∧
      (r.found = true → ∀ p : List ℕ, p.length = n → (∀ x ∈ p, x = 0 ∨ x = 1) → p.count 1 < r.shifted.count 1 → ∃ k, 1 ≤ k ∧ k ≤ 2 ^ n ∧ ¬ Keeps n m nf df k p) ∧
      (r.found = false → r.shifted = List.replicate n 1 ∧
        ∀ p : List ℕ, p.length = n → (∀ x ∈ p, x = 0 ∨ x = 1) → p ≠ List.replicate n 1 → ∃ k, 1 ≤ k ∧ k ≤ 2 ^ n ∧ ¬ Keeps n m nf df k p) := by
  obtain ⟨L, l1, l2, ⟨last, l3, l3'⟩, l4, l5, l6⟩ := C29_next_permutation n
  have hlenL : L.length = 2 ^ n := by
    have e : L.Perm (binVectors n) := (List.perm_ext_iff_of_nodup l4 (binVectors_nodup n)).mpr (fun v => (l5 v).trans (mem_binVectors n v).symm)
    rw [e.length_eq]
    exact binVectors_length n
  have hL0 : L ≠ [] := by rintro rfl; simp at l1
  have hlast : last = List.replicate n 1 := by
    have hm' := (l5 last).mp (List.mem_of_getLast? l3)
    exact last_ones hm'.1 hm'.2 l3'
  have hLlast : ∀ h : L.length - 1 < L.length, L[L.length - 1] = List.replicate n 1 := by
    intro h
    rw [List.getLast?_eq_getElem?, List.getElem?_eq_getElem h] at l3
    rw [← hlast]; exact Option.some.inj l3
  have hpos : 1 ≤ L.length := List.length_pos_iff.mpr hL0
  have hone : ∀ j (hj : j < L.length), L[j] = List.replicate n 1 ↔ j + 1 = L.length := by
    intro j hj
    constructor
    · intro h
      have := (List.Nodup.getElem_inj_iff l4 (hi := hj) (hj := by omega)).mp (h.trans (hLlast (by omega)).symm)
      omega
    · intro h
      obtain rfl : j = L.length - 1 := by omega
      exact hLlast hj
  have hmemL : ∀ j (hj : j < L.length), L[j].length = n ∧ ∀ x ∈ L[j], x = 0 ∨ x = 1 := fun j hj => (l5 _).mp (List.getElem_mem hj)
  -- the first round
  have hne : List.replicate n 0 ≠ List.replicate n 1 := by
    intro h
    have := congrArg (List.count 1) h
    rw [List.count_replicate_self, List.count_replicate] at this
    simp at this
    omega
  obtain ⟨objs', e1, e2, e3⟩ := round_spec (n := n) (m := m) (food := food) (nf := nf) (df := df) (s := { objs := List.replicate m {}, cur := List.replicate n 0 }) (k := 0) (cur := List.replicate n 0)
    (sh := List.replicate n 1) rfl rfl rfl hfirst (by simp) (by
      intro o ho
      rw [List.eq_of_mem_replicate ho]
      exact ⟨rfl, rfl, Or.inl rfl⟩)
  obtain ⟨s', f1, f2⟩ := loop_spec hm (food := food) (nf := nf) (df := df) (L := L)
    (fun k h i hi => hline (k + 1) L[k] (by omega) (by omega) (hmemL k h).1 (hmemL k h).2 i hi) hone L [] { objs := objs', cur := List.replicate n 0, first := false } (2 ^ n + 1) rfl (by omega) rfl rfl rfl
    (by
      unfold ScanSt.pick
      rw [l1]; rfl) l2 (by
      intro x hx
      rw [l3] at hx
      rw [← Option.some.inj hx]; exact l3') e1 (by
      intro _
      refine ⟨e1, ?_⟩
      intro i h
      have h0 : i < objs'.length := h
      obtain ⟨o', a1, a2⟩ := e3 i (by simp; omega) h0
      show objs'[i].done = false ∧ objs'[i].thiele = {} ∧ objs'[i].allDegs = _
      rw [a2]
      refine ⟨rfl, a1.thiele, ?_⟩
      show o'.allDegs = _
      rw [a1.all, if_pos (by simp)]) (fun h => absurd h hL0) (fun j _ hj => by simp at hj)
  have hrun : scanForShift n m food = some { objs := s'.objs, found := s'.found, shifted := if s'.found then s'.cur else List.replicate n 1 } := by
    unfold scanForShift
    rw [e2 (2 ^ n + 1)]
    simp only [Bool.not_true, Bool.and_false, if_true]
    rw [f1]; rfl
  obtain ⟨g1, g2⟩ := f2
  rw [hrun]
  refine ⟨_, rfl, g1, ?_⟩
  rcases g2 with ⟨h1, j, hj, h2, h3, h4, h5, h6⟩ | ⟨h1, h2, h3⟩
  · simp only [h1, if_true]
    refine ⟨by rw [h2]; exact (hmemL j hj).1, by rw [h2]; exact (hmemL j hj).2, ⟨j + 1, by omega, by omega, ?_, ?_⟩, ?_, ?_⟩
    · intro _; rw [h2]; exact ⟨h3, h4⟩
    · intro i h
      rw [h2]
      exact ⟨(h6 i h).1, fun _ => (h6 i h).2⟩
    · intro _ p hp1 hp2 hp3
      obtain ⟨j', hj', rfl⟩ := List.mem_iff_getElem.mp ((l5 p).mpr ⟨hp1, hp2⟩)
      have hlt : j' < j := by
        by_contra hge
        rw [h2] at hp3
        rcases Nat.lt_or_ge j j' with hjj | hjj
        · have := (List.pairwise_iff_getElem.mp l6) j j' hj hj' hjj
          omega
        · obtain rfl : j = j' := by omega
          exact lt_irrefl _ hp3
      exact ⟨j' + 1, by omega, by omega, h5 j' hlt⟩
    · intro h; cases h
  · simp only [h1, Bool.false_eq_true, if_false]
    refine ⟨by simp, by simp, ⟨L.length, by omega, by omega, ?_, ?_⟩, ?_, ?_⟩
    · intro h; cases h
    · intro i h
      exact ⟨h3 i h, fun h => by cases h⟩
    · intro h; cases h
    · intro _
      refine ⟨trivial, ?_⟩
      intro p hp1 hp2 hp3
      obtain ⟨j', hj', rfl⟩ := List.mem_iff_getElem.mp ((l5 p).mpr ⟨hp1, hp2⟩)
      exact ⟨j' + 1, by omega, by omega, h2 j' hj' hp3⟩

/-- **C50 (what equal degrees mean).** `n/d` is the function `N/D` on a line through `s`, in lowest terms. If its degrees are not smaller than the degrees of `N` and `D` on this line, no common factor disappears on the line; and the
denominator on the line, or else the numerator, has a constant: the function can be normalized at `s`, to the denominator if and only if the constant of `d` does not vanish. -/
theorem C50_normalization {s a : List F} {ord : List ℕ} {N D : MvPolynomial ℕ F} {n d : Polynomial F} (hco : IsCoprime n d) (hD : line s a ord D ≠ 0) (hfrac : line s a ord N * d = line s a ord D * n)
    (hdegN : (line s a ord N).natDegree ≤ n.natDegree) (hdegD : (line s a ord D).natDegree ≤ d.natDegree) :
    IsCoprime (line s a ord N) (line s a ord D) ∧ (d.coeff 0 ≠ 0 ↔ eval (fun i => s.getD i 0) D ≠ 0) ∧ (eval (fun i => s.getD i 0) D = 0 → eval (fun i => s.getD i 0) N ≠ 0) := by
  have hev : ∀ Q : MvPolynomial ℕ F, (line s a ord Q).coeff 0 = eval (fun i => s.getD i 0) Q := by
    intro Q; rw [line_coeff, part_zero, eval_C]
  obtain ⟨P, hP⟩ : ∃ P, line s a ord N = P := ⟨_, rfl⟩
  obtain ⟨Q, hQ⟩ : ∃ Q, line s a ord D = Q := ⟨_, rfl⟩
  have eN := hev N
  have eD := hev D
  rw [hP] at hfrac hdegN eN ⊢
  rw [hQ] at hfrac hdegD hD eD ⊢
  -- `d` divides `Q`
  have hdvd : d ∣ Q := by
    have : d ∣ Q * n := ⟨P, by rw [← hfrac]; ring⟩
    exact hco.symm.dvd_of_dvd_mul_right this
  obtain ⟨g, hg⟩ := hdvd
  have hd0 : d ≠ 0 := by rintro rfl; rw [zero_mul] at hg; exact hD hg
  have hg0 : g ≠ 0 := by rintro rfl; rw [mul_zero] at hg; exact hD hg
  have hdeg : g.natDegree = 0 := by
    have := Polynomial.natDegree_mul hd0 hg0
    rw [← hg] at this
    omega
  obtain ⟨γ, hγ⟩ : ∃ γ, g = Polynomial.C γ := ⟨_, Polynomial.eq_C_of_natDegree_eq_zero hdeg⟩
  subst hγ
  have hγ0 : γ ≠ 0 := by rintro rfl; simp at hg0
  have hPn : P = n * Polynomial.C γ := by
    apply mul_right_cancel₀ hd0
    rw [hfrac, hg]; ring
  have hu : IsUnit (Polynomial.C γ) := Polynomial.isUnit_C.mpr (isUnit_iff_ne_zero.mpr hγ0)
  have hcop : IsCoprime P Q := by
    rw [hPn, hg]
    exact (isCoprime_mul_unit_right hu n d).mpr hco
  refine ⟨hcop, ?_, ?_⟩
  · rw [← eD, hg, Polynomial.coeff_mul_C]
    simp [hγ0]
  · intro h0 h1
    rw [← eD] at h0
    rw [← eN] at h1
    obtain ⟨u, v, huv⟩ := hcop
    have := congrArg (Polynomial.eval 0) huv
    rw [Polynomial.coeff_zero_eq_eval_zero] at h0 h1
    simp [h0, h1] at this

variable {c : Cfg F} {N D : MvPolynomial ℕ F} {mN mD : ℕ} {dN dD : List ℕ}

/-- **C50 (the system for the powers that are known).** If the lists `dN`, `dD` contain all powers of the numerator and the denominator of `n/d`, the coefficient that is normalized is one, and the system
has one solution at most, then the step gives the coefficients of `n` and `d`, without those that vanish. -/
theorem C50_first_step {gt : F → F → Bool} (gtp : PivotOrder gt) {normDen : Bool} {n d : Polynomial F} {pts : List (F × F)} (hN : dN.Nodup) (hD : dD.Nodup)
    (sN : ∀ k, n.coeff k ≠ 0 → k ∈ dN) (sD : ∀ k, d.coeff k ≠ 0 → k ∈ dD) (h1 : (if normDen then d else n).coeff 0 = 1)
    (hdata : ∀ q ∈ pts, q.2 * d.eval q.1 = n.eval q.1) (hlen : pts.length = dN.length + dD.length - 1) (hpos : 1 ≤ pts.length)
    (huniq : ∀ a b : ℕ → F, (if normDen then b 0 else a 0) = 0 → (∀ q ∈ pts, ∑ k ∈ dN.toFinset, a k * q.1 ^ k = q.2 * ∑ k ∈ dD.toFinset, b k * q.1 ^ k) →
      (∀ k ∈ dN, a k = 0) ∧ ∀ k ∈ dD, b k = 0) :
    ∃ r, factorSolve gt normDen dN dD (pts.map (fun q => factorRow normDen dN dD q.1 q.2)) = some r ∧
      (WFMap 1 r.1 ∧ (∀ t ∈ r.1, t.2 ≠ 0) ∧ ∀ k, (r.1.find? [k]).getD 0 = n.coeff k) ∧ (WFMap 1 r.2 ∧ (∀ t ∈ r.2, t.2 ≠ 0) ∧ ∀ k, (r.2.find? [k]).getD 0 = d.coeff k) :=
  factorSolve_spec gtp hN hD sN sD h1 hdata hlen hpos huniq

lemma side_pow {bounds : Option (List ℕ)} {Q : MvPolynomial ℕ F} {m : ℕ} (hok : SideOK c bounds Q m) {l : List ℕ} (h : ∀ k, (line c.shift c.anchor (ones c) Q).coeff k ≠ 0 → k ∈ l) : 1 ≤ l.length := by
  have := h m (by rw [line_coeff]; exact hok.seen m hok.lead)
  exact List.length_pos_of_mem this

lemma Inv1.start (hp : Prob c N D mN mD) {G : F → List ℕ → Prop} (hF : FirstOK c N D dN dD G) : Inv1 c N D mN mD dN dD G [] c.init (maxProbesScan c N D mN mD dN dD) := by
  have h1 := side_pow hp.okN hF.powN
  have h2 := side_pow hp.okD hF.powD
  refine Or.inr (Or.inl ⟨⟨rfl, rfl, rfl, rfl, ?_, ⟨List.nodup_nil, by simp [Cfg.init], by simp [Cfg.init], by simp [Cfg.init]⟩, rfl⟩, ?_⟩)
  · show 0 < dN.length + dD.length - 1
    omega
  · unfold maxProbesScan food1
    simp

lemma feedAllScan_spec (gtp : PivotOrder c.gt) (hp : Prob c N D mN mD) {G : F → List ℕ → Prop} (hG : GoodPts c N D G) (hF : FirstOK c N D dN dD G) :
    ∀ (probes past : List (F × List ℕ)) (s : St F) (φ : ℕ), (∀ x ∈ past ++ probes, G x.1 x.2) → (past ++ probes).Nodup →
    Inv1 c N D mN mD dN dD G past s φ → ∃ s' φ', c.feedAllScan dN dD s (withValues c N D probes) = some s' ∧ Inv1 c N D mN mD dN dD G (past ++ probes) s' φ' ∧ φ' + hitsScan c dN dD s (withValues c N D probes) ≤ φ := by
  intro probes
  induction probes with
  | nil => intro past s φ _ _ h; exact ⟨s, φ, rfl, by simpa using h, by simp [withValues, hitsScan]⟩
  | cons q probes ih =>
    intro past s φ h1 h2 h4
    have e : past ++ q :: probes = (past ++ [q]) ++ probes := by simp
    obtain ⟨s1, φ1, e1, e2, e3⟩ := feedScan_spec gtp hp hG hF (past := past) (q := q) (fun x hx => h1 x (by rw [e]; exact List.mem_append_left _ hx))
      (by rw [e] at h2; exact (List.nodup_append.mp h2).1) h4
    obtain ⟨s2, φ2, f1, f2, f3⟩ := ih (past ++ [q]) s1 φ1 (by rw [← e]; exact h1) (by rw [← e]; exact h2) e2
    refine ⟨s2, φ2, ?_, by rw [e]; exact f2, ?_⟩
    · unfold Cfg.feedAllScan withValues at f1 ⊢
      rw [List.map_cons, List.foldlM_cons, e1]
      exact f1
    · have : hitsScan c dN dD s (withValues c N D (q :: probes)) = (if q.2 = s.ord ∧ s.result.isSome = false then 1 else 0) + hitsScan c dN dD s1 (withValues c N D probes) := by
        unfold withValues
        rw [List.map_cons, hitsScan, e1]
      omega

lemma Inv1.good {G : F → List ℕ → Prop} {past : List (F × List ℕ)} {s : St F} {φ : ℕ} (h : Inv1 c N D mN mD dN dD G past s φ) {r : Result F} (hr : s.result = some r) : Good c N D r := by
  rcases h with h | ⟨h, -⟩ | ⟨pts, h, -⟩
  · obtain ⟨r', h1, h2⟩ := h.2
    rw [h1] at hr
    rw [← Option.some.inj hr]; exact h2.1
  · rw [h.result] at hr; cases hr
  · rw [h.run.both.result] at hr; cases hr

lemma Inv1.pos {G : F → List ℕ → Prop} {past : List (F × List ℕ)} {s : St F} {φ : ℕ} (h : Inv1 c N D mN mD dN dD G past s φ) (hr : s.result = none) : 1 ≤ φ := by
  rcases h with h | ⟨h, h'⟩ | ⟨pts, h, -, h'⟩
  · obtain ⟨r', h1, h2⟩ := h.2
    rw [h1] at hr; cases hr
  · omega
  · have := h.run.small
    unfold lateMax at h'
    omega

/-- **C50 (after the scan: correct and bounded, any order).** An object that expects the powers `dN`, `dD` of `t` from the scan gets the probes `(t, order vector)`, different from each other, in any order with the values of the rational function `N/D` in `n > 1` variables.
If all powers on the first line are expected, then there is no undefined
behaviour and no error of the linear solver; whenever the object has a result, it is `N/D`; and before it has a result, it gets fewer than `maxProbesScan` probes that it has asked for. Nothing is asked of Thiele's method. -/
theorem C50_reconstruct (gtp : PivotOrder c.gt) (hp : Prob c N D mN mD) (probes : List (F × List ℕ)) (hnd : probes.Nodup)
    (hG : GoodPts c N D (fun t ord => (t, ord) ∈ probes)) (hF : FirstOK c N D dN dD (fun t ord => (t, ord) ∈ probes)) :
    ∃ s, c.feedAllScan dN dD c.init (withValues c N D probes) = some s ∧ (∀ r, s.result = some r → Good c N D r) ∧
      (s.result = none → hitsScan c dN dD c.init (withValues c N D probes) < maxProbesScan c N D mN mD dN dD) := by
  obtain ⟨s, φ, e1, e2, e3⟩ := feedAllScan_spec gtp hp hG hF probes [] c.init _ (fun x hx => by simpa using hx) (by simpa using hnd) (Inv1.start hp hF)
  exact ⟨s, e1, fun r hr => e2.good hr, fun hr => by have := e2.pos hr; omega⟩

/-- each probe has the order vector that the object wants, until it has its result -/
def AnswersScan (c : Cfg F) (dN dD : List ℕ) : St F → List (F × F × List ℕ) → Prop
  | _, [] => True
  | s, q :: rest => (s.result = none → q.2.2 = s.ord) ∧ ∀ s', c.feedScan dN dD s q = some s' → AnswersScan c dN dD s' rest

lemma feed_stay {x y : St F} (q : F × F × List ℕ) (hx : x.result.isSome = true) (hz : c.feed x q = some y) : y.result.isSome = true := by
  have hprobe : ∀ (x y : St F) (t v : F) (o : List ℕ), x.result.isSome = true → c.probe x t v o = some y → y = x := by
    intro x y t v o hx hy
    unfold Cfg.probe at hy
    rw [if_pos hx] at hy
    exact (Option.some.inj hy).symm
  have hdrain : ∀ (k : ℕ) (x y : St F), x.result.isSome = true → c.drain k x = some y → y.result.isSome = true := by
    intro k
    induction k with
    | zero =>
      intro x y hx hy
      rw [Cfg.drain] at hy
      split at hy
      · rw [← Option.some.inj hy]; exact hx
      · cases hy
      · cases hy
    | succ k ihk =>
      intro x y hx hy
      rw [Cfg.drain] at hy
      split at hy
      · rw [← Option.some.inj hy]; exact hx
      · cases hy
      · obtain ⟨z, hz, hy⟩ := Option.bind_eq_some_iff.mp hy
        have := hprobe _ _ _ _ _ (by exact hx) hz
        exact ihk z y (by rw [this]; exact hx) hy
  unfold Cfg.feed at hz
  obtain ⟨w, hw, hz⟩ := Option.bind_eq_some_iff.mp hz
  have := hprobe _ _ _ _ _ hx hw
  exact hdrain _ w y (by rw [this]; exact hx) hz

lemma feedAllScan_stay : ∀ (l : List (F × F × List ℕ)) (x y : St F), x.result.isSome = true → c.feedAllScan dN dD x l = some y → y.result.isSome = true := by
  intro l
  induction l with
  | nil => intro x y hx hy; rw [← Option.some.inj hy]; exact hx
  | cons q l ihl =>
    intro x y hx hy
    unfold Cfg.feedAllScan at hy
    rw [List.foldlM_cons, feedScan_past (Or.inr hx)] at hy
    obtain ⟨z, hz, hy⟩ := Option.bind_eq_some_iff.mp hy
    exact ihl z y (feed_stay q hx hz) hy

lemma hitsScan_answers (c : Cfg F) : ∀ (l : List (F × F × List ℕ)) (s s' : St F), c.feedAllScan dN dD s l = some s' → AnswersScan c dN dD s l → s'.result = none → hitsScan c dN dD s l = l.length := by
  intro l
  induction l with
  | nil => intro s s' _ _ _; rfl
  | cons q l ih =>
    intro s s' h1 h2 h3
    unfold Cfg.feedAllScan at h1
    rw [List.foldlM_cons] at h1
    obtain ⟨s1, e1, e2⟩ := Option.bind_eq_some_iff.mp h1
    have hs : s.result = none := by
      by_contra hr
      have := feedAllScan_stay (c := c) (dN := dN) (dD := dD) (q :: l) s s' (Option.isSome_iff_ne_none.mpr hr) (by unfold Cfg.feedAllScan; rw [List.foldlM_cons]; exact h1)
      rw [h3] at this
      cases this
    rw [hitsScan, e1, if_pos ⟨h2.1 hs, by rw [hs]; rfl⟩, List.length_cons]
    have := ih s1 s' e2 (h2.2 s1 e1) h3
    simp only [this]
    omega

/-- **C50 (after the scan: complete).** If every probe has the order vector the object wants (with a new `t`), the object has its result after at most `maxProbesScan` probes, and it is `N/D`. -/
theorem C50_complete (gtp : PivotOrder c.gt) (hp : Prob c N D mN mD) (probes : List (F × List ℕ)) (hnd : probes.Nodup)
    (hG : GoodPts c N D (fun t ord => (t, ord) ∈ probes)) (hF : FirstOK c N D dN dD (fun t ord => (t, ord) ∈ probes))
    (hans : AnswersScan c dN dD c.init (withValues c N D probes)) (hlen : maxProbesScan c N D mN mD dN dD ≤ probes.length) :
    ∃ s r, c.feedAllScan dN dD c.init (withValues c N D probes) = some s ∧ s.result = some r ∧ Good c N D r := by
  obtain ⟨s, e1, e2, e3⟩ := C50_reconstruct gtp hp probes hnd hG hF
  cases hr : s.result with
  | none =>
    have := hitsScan_answers c _ _ _ e1 hans hr
    have e3 := e3 hr
    unfold withValues at this e3
    rw [List.length_map] at this
    omega
  | some r => exact ⟨s, r, e1, hr, e2 r hr⟩

/-! ### `x / (x + y)` -/

/-- the function on the line `x = t + s_1`, `y = 2 t + s_2`; a shift has the value one -/
noncomputable def exNf (p : List ℕ) : Polynomial ℚ := if p = [0, 0] then Polynomial.C 1 else if p = [0, 1] then Polynomial.X else Polynomial.X + Polynomial.C 1
noncomputable def exDf (p : List ℕ) : Polynomial ℚ :=
  if p = [0, 0] then Polynomial.C 3 else if p = [1, 1] then Polynomial.C 3 * Polynomial.X + Polynomial.C 2 else Polynomial.C 3 * Polynomial.X + Polynomial.C 1

/-- `t` and the value -/
def exPts (p : List ℕ) : List (ℚ × ℚ) := [1, 2, 3, 4, 5].map (fun t : ℚ => (t, (t + p.getD 0 0) / (3 * t + p.getD 0 0 + p.getD 1 0)))

lemma exThieleOK (p : List ℕ) (hp : p ∈ [[0, 0], [0, 1], [1, 0], [1, 1]]) :
    (({} : Thiele ℚ).runChecked ((exPts p).map Prod.swap)).map (fun r => (r.2, decide ((if p = [0, 0] then 0 else 2) ≤ r.1.ti.length))) = some (true, true) := by
  revert p; decide +kernel

lemma bin_two {p : List ℕ} (h1 : p.length = 2) (h2 : ∀ x ∈ p, x = 0 ∨ x = 1) : p ∈ [[0, 0], [0, 1], [1, 0], [1, 1]] := by
  obtain ⟨x, y, rfl⟩ := List.length_eq_two.mp h1
  rcases h2 x (by simp) with rfl | rfl <;> rcases h2 y (by simp) with rfl | rfl <;> simp

lemma exLine (p : List ℕ) (hp : p ∈ [[0, 0], [0, 1], [1, 0], [1, 1]]) : LineOK (exPts p) (exNf p) (exDf p) := by
  have hrun := exThieleOK p hp
  obtain ⟨⟨s, b⟩, hs, hb⟩ := Option.map_eq_some_iff.mp hrun
  simp only [Prod.mk.injEq, decide_eq_true_eq] at hb
  obtain ⟨rfl, hb⟩ := hb
  have hdegN : (exNf p).natDegree = if p = [0, 0] then 0 else 1 := by
    unfold exNf
    split_ifs
    · simp
    · simp
    · exact Polynomial.natDegree_X_add_C 1
  have hdegD : (exDf p).natDegree = if p = [0, 0] then 0 else 1 := by
    unfold exDf
    split_ifs
    · exact Polynomial.natDegree_C _
    · exact Polynomial.natDegree_linear (by norm_num)
    · exact Polynomial.natDegree_linear (by norm_num)
  have hval : ∀ q ∈ exPts p, (exDf p).eval q.1 ≠ 0 ∧ q.2 = (exNf p).eval q.1 / (exDf p).eval q.1 := by
    intro q hq
    unfold exPts at hq
    obtain ⟨t, ht, rfl⟩ := List.mem_map.mp hq
    have ht0 : 0 < t := by clear hq; revert t; decide +kernel
    simp only [List.mem_cons, List.not_mem_nil, or_false] at hp
    rcases hp with rfl | rfl | rfl | rfl
    · simp [exNf, exDf]
      field_simp
    · simp [exNf, exDf]; positivity
    · simp [exNf, exDf]; positivity
    · simp [exNf, exDf]
      constructor
      · positivity
      · congr 1; ring
  refine ⟨?_, hval, ?_, ?_, Or.inr ⟨?_, ?_, s, hs, ?_, ?_⟩⟩
  · simp only [List.mem_cons, List.not_mem_nil, or_false] at hp
    rcases hp with rfl | rfl | rfl | rfl
    · simp [exNf, exDf]
      exact isCoprime_one_left
    · refine ⟨-Polynomial.C 3, 1, ?_⟩
      simp [exNf, exDf]
    · have h : Polynomial.C (1 / 2 : ℚ) * 2 = 1 := by
        rw [show (2 : Polynomial ℚ) = Polynomial.C 2 from (map_ofNat Polynomial.C 2).symm, ← Polynomial.C_mul]
        norm_num
      refine ⟨3 * Polynomial.C (1 / 2), - Polynomial.C (1 / 2), ?_⟩
      rw [show exNf [1, 0] = Polynomial.X + 1 from rfl, show exDf [1, 0] = Polynomial.C 3 * Polynomial.X + 1 from rfl, show (Polynomial.C (3 : ℚ)) = 3 from map_ofNat _ 3]
      linear_combination h
    · refine ⟨Polynomial.C 3, -1, ?_⟩
      simp [exNf, exDf]
      rw [show (Polynomial.C (2 : ℚ)) = 2 from map_ofNat _ 2, show (Polynomial.C (3 : ℚ)) = 3 from map_ofNat _ 3]
      ring
  · have : (exPts p).map Prod.fst = [1, 2, 3, 4, 5] := by unfold exPts; simp
    rw [this]; decide +kernel
  · unfold exPts; simp
  · intro q hq
    unfold exPts at hq
    obtain ⟨t, ht, rfl⟩ := List.mem_map.mp hq
    show t ≠ 0
    clear hq; revert t; decide +kernel
  · clear hrun hs hb hval hdegN hdegD
    revert p; decide +kernel
  · rw [hdegD]
    split_ifs at hb ⊢ <;> omega
  · rw [hdegN]
    split_ifs at hb ⊢ <;> omega

/-- the hypotheses of `C50_scan` hold for `x/(x+y)` -/
example : ∃ r : ScanResult ℚ, scanForShift 2 1 (fun _ p _ => exPts p) = some r :=
  let ⟨r, h, _⟩ := C50_scan (n := 2) (m := 1) (by norm_num) le_rfl (food := fun _ p _ => exPts p) (nf := fun _ p _ => exNf p) (df := fun _ p _ => exDf p)
    (fun _ _ => exLine _ (by decide)) (fun _ p _ _ h1 h2 _ _ => exLine p (bin_two h1 h2))
  ⟨r, h⟩

/-- without a shift the degrees are smaller; the shift of the second variable suffices -/
example : (scanForShift 2 1 (fun _ p _ => exPts p)).map (fun r => (r.found, r.shifted)) = some (true, [0, 1]) := by decide +kernel
example : (scanForShift 2 1 (fun _ p _ => exPts p)).map (fun r => r.objs.map (fun o => (o.degsNum, o.degsDen))) = some [([1], [0, 1])] := by decide +kernel

/-- `x/(x+y)` on the line `x = t + 1`, `y = 2 t`: the hypotheses of `C50_normalization` -/
example : eval (fun i => exShift.shift.getD i 0) exDen ≠ 0 := by
  have eN : line exShift.shift exShift.anchor [1] exNum = Polynomial.X + 1 := by simp [line, exNum, exShift, dir]
  have eD : line exShift.shift exShift.anchor [1] exDen = 3 * Polynomial.X + 1 := by
    simp [line, exDen, exShift, dir]
    rw [show (Polynomial.C (2 : ℚ)) = 2 from map_ofNat _ 2]
    ring
  have e3 : (3 * Polynomial.X + 1 : Polynomial ℚ) = Polynomial.C 3 * Polynomial.X + Polynomial.C 1 := rfl
  have hne : (3 * Polynomial.X + 1 : Polynomial ℚ) ≠ 0 := by
    intro h
    have := congrArg (Polynomial.eval 0) h
    simp at this
  refine ((C50_normalization (s := exShift.shift) (a := exShift.anchor) (ord := [1]) (N := exNum) (D := exDen) (n := Polynomial.X + 1) (d := 3 * Polynomial.X + 1) ?_ ?_ ?_ ?_ ?_).2.1).mp ?_
  · have := (exLine [1, 0] (by decide)).lowest
    exact this
  · rw [eD]; exact hne
  · rw [eN, eD]; ring
  · rw [eN]
  · rw [eD]
  · simp

/-- the powers of `t` on this line -/
lemma exFirst (G : ℚ → List ℕ → Prop) (hG : ∀ t ord, G t ord → 0 < t) : FirstOK exShift exNum exDen [1, 0] [1, 0] G := by
  have eN : line exShift.shift exShift.anchor (ones exShift) exNum = Polynomial.X + 1 := by simp [line, exNum, exShift, dir]
  have eD : line exShift.shift exShift.anchor (ones exShift) exDen = 3 * Polynomial.X + 1 := by
    simp [line, exDen, exShift, dir, ones]
    rw [show (Polynomial.C (2 : ℚ)) = 2 from map_ofNat _ 2]
    ring
  have hpow : ∀ (p : Polynomial ℚ), p.natDegree ≤ 1 → ∀ k, p.coeff k ≠ 0 → k ∈ [1, 0] := by
    intro p hp k hk
    have := Polynomial.le_natDegree_of_ne_zero hk
    have h2 : k = 1 ∨ k = 0 := by omega
    simpa using h2
  refine ⟨by decide, by decide, ?_, ?_, ?_⟩
  · rw [eN]; exact hpow _ (Polynomial.natDegree_X_add_C (1 : ℚ)).le
  · rw [eD]
    exact hpow _ (Polynomial.natDegree_linear_le (a := (3 : ℚ)) (b := 1))
  · intro ts hnd hts hlen a b hb heq
    have hb : b 0 = 0 := hb
    obtain ⟨t, u, w, rfl⟩ := List.length_eq_three.mp (show ts.length = 3 from hlen)
    have hq : ∀ x ∈ [t, u, w], a 0 + (a 1 + 3 * a 0 - b 1) * x + (3 * a 1 - b 1) * (x * x) = 0 := by
      intro x hx
      have h0 := hG x _ (hts x hx)
      have h1 := heq x hx
      rw [exShift_value] at h1
      simp [ones, exShift, hb] at h1
      have h2 : x + 1 + x * 2 ≠ 0 := by positivity
      field_simp at h1
      linarith
    obtain ⟨A, hA⟩ : ∃ A, a 1 + 3 * a 0 - b 1 = A := ⟨_, rfl⟩
    obtain ⟨B, hB⟩ : ∃ B, 3 * a 1 - b 1 = B := ⟨_, rfl⟩
    rw [hA, hB] at hq
    have q1 := hq t (by simp)
    have q2 := hq u (by simp)
    have q3 := hq w (by simp)
    simp only [List.nodup_cons, List.mem_cons, List.not_mem_nil, or_false, not_or, not_false_eq_true, and_true, List.nodup_nil] at hnd
    obtain ⟨⟨n1, n2⟩, n3⟩ := hnd
    have r1 : A + B * (t + u) = 0 := by
      have : (t - u) * (A + B * (t + u)) = 0 := by linear_combination q1 - q2
      exact (mul_eq_zero.mp this).resolve_left (sub_ne_zero.mpr n1)
    have r2 : A + B * (t + w) = 0 := by
      have : (t - w) * (A + B * (t + w)) = 0 := by linear_combination q1 - q3
      exact (mul_eq_zero.mp this).resolve_left (sub_ne_zero.mpr n2)
    have r3 : B = 0 := by
      have : (u - w) * B = 0 := by linear_combination r1 - r2
      exact (mul_eq_zero.mp this).resolve_left (sub_ne_zero.mpr n3)
    subst r3
    have hA0 : A = 0 := by linarith
    subst hA0
    have z0 : a 0 = 0 := by linarith
    have z1 : a 1 = 0 := by linarith
    have z2 : b 1 = 0 := by linarith
    constructor
    · intro k hk
      simp at hk
      rcases hk with rfl | rfl <;> assumption
    · intro k hk
      simp at hk
      rcases hk with rfl | rfl <;> assumption

/-- the hypotheses of `C50_reconstruct` and `C50_complete` -/
example : ∃ s, exShift.feedAllScan [1, 0] [1, 0] exShift.init exRun = some s ∧ ∀ r, s.result = some r → Good exShift exNum exDen r := by
  have hpos : ∀ t ord, (t, ord) ∈ exProbes 0 → (0 : ℚ) < t := fun t ord h => exProbes_pos h
  obtain ⟨s, h1, h2, -⟩ := C50_reconstruct (dN := [1, 0]) (dD := [1, 0]) (c := exShift) exGtQ_spec exShift_prob (exProbes 0) (exProbes_nodup 0) (exShift_good _ hpos) (exFirst _ hpos)
  rw [exRun_eq] at h1
  exact ⟨s, h1, h2⟩

def exProbesS (k : ℕ) : List (ℚ × List ℕ) := [(1, [1]), (2, [1]), (3, [1]), (5, [2]), (6, [2])] ++ (List.range k).map (fun i : ℕ => ((i : ℚ) + 7, [1]))
def exRunS : List (ℚ × ℚ × List ℕ) := [(1, 1 / 2, [1]), (2, 3 / 7, [1]), (3, 2 / 5, [1]), (5, 3 / 13, [2]), (6, 7 / 31, [2])]

lemma exProbesS_sub (k : ℕ) : (exProbesS k).Sublist (exProbes k) := by
  unfold exProbesS exProbes
  refine List.Sublist.append ?_ (List.Sublist.refl _)
  decide +kernel

lemma answersScan_done : ∀ (l : List (ℚ × ℚ × List ℕ)) (s : St ℚ), s.result.isSome = true → AnswersScan exShift [1, 0] [1, 0] s l := by
  intro l
  induction l with
  | nil => intro s _; trivial
  | cons q l ih =>
    intro s hs
    refine ⟨fun h => (by rw [h] at hs; cases hs), ?_⟩
    intro s' h
    rw [feedScan_past (Or.inr hs)] at h
    exact ih s' (feed_stay q hs h)

lemma answersScan_append : ∀ (l l' : List (ℚ × ℚ × List ℕ)) (s : St ℚ), AnswersScan exShift [1, 0] [1, 0] s l → (∀ s', exShift.feedAllScan [1, 0] [1, 0] s l = some s' → AnswersScan exShift [1, 0] [1, 0] s' l') →
    AnswersScan exShift [1, 0] [1, 0] s (l ++ l') := by
  intro l
  induction l with
  | nil => intro l' s _ h; exact h s rfl
  | cons q l ih =>
    intro l' s h1 h2
    refine ⟨h1.1, ?_⟩
    intro s' hs'
    refine ih l' s' (h1.2 s' hs') ?_
    intro s'' hs''
    refine h2 s'' ?_
    unfold Cfg.feedAllScan at hs'' ⊢
    rw [List.foldlM_cons, hs']
    exact hs''

/-- `AnswersScan` as a test -/
def answersScanB (c : Cfg ℚ) (dN dD : List ℕ) : St ℚ → List (ℚ × ℚ × List ℕ) → Bool
  | _, [] => true
  | s, q :: rest => (s.result.isSome || decide (q.2.2 = s.ord)) && match c.feedScan dN dD s q with
    | none => true
    | some s' => answersScanB c dN dD s' rest

lemma answersScanB_spec (c : Cfg ℚ) (dN dD : List ℕ) : ∀ (l : List (ℚ × ℚ × List ℕ)) (s : St ℚ), answersScanB c dN dD s l = true → AnswersScan c dN dD s l := by
  intro l
  induction l with
  | nil => intro s _; trivial
  | cons q l ih =>
    intro s h
    rw [answersScanB, Bool.and_eq_true] at h
    refine ⟨?_, ?_⟩
    · intro h0
      simpa [h0] using h.1
    · intro s' hs'
      have := h.2
      rw [hs'] at this
      exact ih s' this

lemma exRunS_eq : withValues exShift exNum exDen (exProbesS 0) = exRunS := by
  unfold withValues exProbesS exRunS
  simp only [List.range_zero, List.map_nil, List.append_nil, List.map_cons, exShift_value]
  norm_num

lemma exRunS_done : (exShift.feedAllScan [1, 0] [1, 0] exShift.init exRunS).map (fun s => s.result.isSome) = some true := by decide +kernel
lemma exRunS_answers : answersScanB exShift [1, 0] [1, 0] exShift.init exRunS = true := by decide +kernel

/-- the hypotheses of `C50_complete` hold -/
example (K : ℕ) (hK : K = 4000) : ∃ s r, exShift.feedAllScan [1, 0] [1, 0] exShift.init (withValues exShift exNum exDen (exProbesS K)) = some s ∧ s.result = some r ∧ Good exShift exNum exDen r := by
  have hpos : ∀ t ord, (t, ord) ∈ exProbesS K → (0 : ℚ) < t := fun t ord h => exProbes_pos ((exProbesS_sub K).subset h)
  refine C50_complete (c := exShift) exGtQ_spec exShift_prob (exProbesS K) ((exProbes_nodup K).sublist (exProbesS_sub K)) (exShift_good _ hpos) (exFirst _ hpos) ?_ ?_
  · have e : withValues exShift exNum exDen (exProbesS K) = exRunS ++ withValues exShift exNum exDen ((List.range K).map (fun i : ℕ => ((i : ℚ) + 7, [1]))) := by
      rw [← exRunS_eq]
      unfold withValues exProbesS
      simp
    rw [e]
    refine answersScan_append _ _ _ (answersScanB_spec _ _ _ _ _ exRunS_answers) ?_
    intro s hs
    have := exRunS_done
    rw [hs] at this
    exact answersScan_done _ s (by simpa using this)
  · have h1 : maxProbesScan exShift exNum exDen 1 1 [1, 0] [1, 0] ≤ maxProbes exShift exNum exDen 1 1 := by
      unfold maxProbesScan maxProbes
      have : thieleMax 1 1 = 4 := rfl
      simp only [List.length_cons, List.length_nil]
      omega
    have h2 := exShift_max
    have h3 : (exProbesS K).length = K + 5 := by
      unfold exProbesS
      rw [List.length_append, List.length_map, List.length_range]
      simp only [List.length_cons, List.length_nil]
      omega
    have h4 : maxProbesScan exShift exNum exDen 1 1 [1, 0] [1, 0] + 1 ≤ maxProbes exShift exNum exDen 1 1 := by
      unfold maxProbesScan maxProbes
      have : thieleMax 1 1 = 4 := rfl
      simp only [List.length_cons, List.length_nil]
      omega
    omega

/-- three probes for the first system and two for each further order vector -/
example : (exShift.feedAllScan [1, 0] [1, 0] exShift.init [(1, 1 / 2, [1]), (2, 3 / 7, [1]), (3, 2 / 5, [1]), (5, 3 / 13, [2]), (6, 7 / 31, [2])]).map (fun s => (s.result.isSome, s.ord)) = some (true, [1]) := by
  decide +kernel

end FireFly.RMulti
