import Verif.Props.CombineProps
import Verif.Props.ThieleLowest
import Verif.Props.DenseProps
import Verif.Props.PolyObjProps
set_option linter.all false
/-! # C36, second part: the reconstruction of univariate rational functions over the rational numbers -/
namespace FireFly
open Polynomial FFMap

/-! ## Specification -/

/-- Specification: the polynomial modulo `p`, coefficient by coefficient. -/
noncomputable def redPoly (p : ℕ) [Fact p.Prime] (f : ℚ[X]) : (ZMod p)[X] :=
  ∑ e ∈ f.support, monomial e ((f.coeff e : ℚ) : ZMod p)

/-- Specification: the polynomial a map of fractions denotes. -/
noncomputable def rnPoly (g : RnMap) : ℚ[X] := (g.map (fun t => monomial (t.1.getD 0 0) t.2.val)).sum

/-- the coefficient of a monomial -/
noncomputable def coefOf (f : ℚ[X]) (k : List ℕ) : ℚ := f.coeff (k.getD 0 0)

/-- the monomials of a polynomial as exponent vectors -/
noncomputable def monos (f : ℚ[X]) : List (List ℕ) := f.support.toList.map (fun e => [e])

/-- Specification: the probes `(t, v)` of a prime field are values of `n/d` modulo `p`, no denominator of a coefficient is
divisible by `p`, and the first value is not zero (else the prime field is skipped). -/
structure ProbesOK (n d : ℚ[X]) (p : ℕ) [Fact p.Prime] (pts : List (ZMod p × ZMod p)) : Prop where
  denN : ∀ e, ¬ (p : ℤ) ∣ (n.coeff e).den
  denD : ∀ e, ¬ (p : ℤ) ∣ (d.coeff e).den
  data : ∀ pt ∈ pts, (redPoly p d).eval pt.1 ≠ 0 ∧ pt.2 = (redPoly p n).eval pt.1 / (redPoly p d).eval pt.1
  first : (pts.headD (0, 0)).2 ≠ 0

/-- Specification: the matrix of a linear system for the coefficients of the powers `nn` in the numerator and `nd` in
the denominator, from the probes `pts`. -/
def probeMatrix {p : ℕ} [Fact p.Prime] (nn nd : List ℕ) (pts : List (ZMod p × ZMod p)) :
    Matrix (Fin (nn.length + nd.length)) (Fin (nn.length + nd.length)) (ZMod p) :=
  Matrix.of fun i j =>
    if (j : ℕ) < nn.length then (pts.getD i (0, 0)).1 ^ nn.getD j 0
    else -(pts.getD i (0, 0)).2 * (pts.getD i (0, 0)).1 ^ nd.getD (j - nn.length) 0

/-- Specification: there are enough probes, and they determine the unknown coefficients whatever coefficients of `n/d` (not the
normalized one) are unknown. -/
def Regular (n d : ℚ[X]) {p : ℕ} [Fact p.Prime] (pts : List (ZMod p × ZMod p)) : Prop :=
  ∀ nn nd : List ℕ, nn.Nodup → nd.Nodup → (∀ e ∈ nn, e ∈ n.support) → (∀ e ∈ nd, e ∈ d.support ∧ e ≠ d.natTrailingDegree) →
    nn.length + nd.length ≤ pts.length ∧ (probeMatrix nn nd pts).det ≠ 0

/-- Specification: between two prime fields every coefficient of `n/d` is known exactly or as residue modulo `M`. -/
structure UniOK (n d : ℚ[X]) (M : ℤ) (c : UniCross) : Prop where
  prime : c.coefs.combPrime = M
  pos : 0 < M
  num : SideOK (coefOf n) (monos n) M c.coefs.gNi c.coefs.combNi
  den : SideOK (coefOf d) (monos d) M c.coefs.gDi c.coefs.combDi
  norm : c.coefs.combDi.find? [d.natTrailingDegree] = none
  known : c.known = true
  check : c.checkInterpolation = true
  unNum : c.nonSolvedNum.Perm (c.coefs.combNi.map (fun t => t.1.getD 0 0))
  unDen : c.nonSolvedDen.Perm (c.coefs.combDi.map (fun t => t.1.getD 0 0))
  eqn : c.numEqn = c.nonSolvedNum.length + c.nonSolvedDen.length
  zeros : c.zeroCounter < c.primeNumber

/-! ## polynomials -/
section
variable (p : ℕ) [hp : Fact p.Prime]

lemma redPoly_coeff (f : ℚ[X]) (e : ℕ) : (redPoly p f).coeff e = ((f.coeff e : ℚ) : ZMod p) := by
  unfold redPoly
  rw [finset_sum_coeff]
  simp only [coeff_monomial]
  rw [Finset.sum_ite_eq' f.support e]
  split_ifs with h
  · rfl
  · rw [notMem_support_iff.mp h]; simp

lemma monos_nodup (f : ℚ[X]) : (monos f).Nodup :=
  f.support.nodup_toList.map (fun a b h => by simpa using h)

lemma mem_monos {f : ℚ[X]} {k : List ℕ} : k ∈ monos f ↔ ∃ e ∈ f.support, k = [e] := by
  unfold monos
  simp [eq_comm]

lemma rnPoly_coeff_none {g : RnMap} {e : ℕ} (hlen : ∀ t ∈ g, t.1.length = 1) (h : [e] ∉ g.map Prod.fst) : (rnPoly g).coeff e = 0 := by
  unfold rnPoly
  induction g with
  | nil => simp
  | cons t g ih =>
    rw [List.map_cons, List.mem_cons, not_or] at h
    rw [List.map_cons, List.sum_cons, coeff_add, ih (fun s hs => hlen s (List.mem_cons_of_mem _ hs)) h.2, add_zero, coeff_monomial, if_neg]
    intro he
    apply h.1
    have := hlen t (by simp)
    obtain ⟨x, hx⟩ := List.length_eq_one_iff.mp this
    rw [hx] at he ⊢
    simp at he
    rw [he]

lemma red_rnPoly {g : RnMap} (hnd : (g.map Prod.fst).Nodup) (hlen : ∀ t ∈ g, t.1.length = 1) :
    redPoly p (rnPoly g) = (g.map (fun t => monomial (t.1.getD 0 0) ((t.2.val : ℚ) : ZMod p))).sum := by
  induction g with
  | nil => ext e; rw [redPoly_coeff]; simp [rnPoly]
  | cons t g ih =>
    rw [List.map_cons, List.nodup_cons] at hnd
    rw [List.map_cons, List.sum_cons, ← ih hnd.2 (fun s hs => hlen s (List.mem_cons_of_mem _ hs))]
    ext e
    rw [coeff_add, redPoly_coeff, redPoly_coeff, coeff_monomial]
    have e1 : rnPoly (t :: g) = monomial (t.1.getD 0 0) t.2.val + rnPoly g := rfl
    rw [e1, coeff_add, coeff_monomial]
    split_ifs with h
    · have hk : [e] = t.1 := by
        obtain ⟨x, hx⟩ := List.length_eq_one_iff.mp (hlen t (by simp))
        rw [hx] at h ⊢; simp at h; rw [h]
      rw [rnPoly_coeff_none (fun s hs => hlen s (List.mem_cons_of_mem _ hs)) (hk ▸ hnd.1)]
      simp
    · simp

lemma val_cast {a : RationalNumber} (h : a.Valid) : ((a.num : ZMod p) / (a.den : ZMod p)) = ((a.val : ℚ) : ZMod p) := by
  obtain ⟨h1, h2⟩ := valid_num_den h
  rw [Rat.cast_def, h1]
  congr 1
  rw [← h2]
  push_cast
  rfl

lemma eval_sum_list {α : Type} {R : Type} [CommSemiring R] (l : List α) (f : α → R[X]) (x : R) : ((l.map f).sum).eval x = (l.map (fun a => (f a).eval x)).sum := by
  induction l with
  | nil => simp
  | cons a l ih => simp [ih]

lemma foldl_sum {α : Type} {R : Type} [AddCommMonoid R] (f : α → R) : ∀ (l : List α) (x : R), l.foldl (fun r t => r + f t) x = x + (l.map f).sum
  | [], x => by simp
  | a :: l, x => by rw [List.foldl_cons, foldl_sum f l, List.map_cons, List.sum_cons, add_assoc]

/-- what `calc` computes for a guess -/
lemma calc_guess {g : RnMap} (hv : ∀ t ∈ g, t.2.Valid) (hnd : (g.map Prod.fst).Nodup) (hlen : ∀ t ∈ g, t.1.length = 1) (x : ZMod p) :
    PolyFF.calc 1 (convertToFF p g) [x] = some ((redPoly p (rnPoly g)).eval x) := by
  unfold PolyFF.calc
  rw [if_pos]
  · rw [red_rnPoly p hnd hlen, eval_sum_list, foldl_sum, zero_add]
    unfold convertToFF
    rw [List.map_map]
    congr 2
    apply List.map_congr_left
    intro t ht
    simp only [Function.comp, eval_monomial]
    rw [val_cast p (hv t ht)]
    simp [termProduct]
  · right
    refine ⟨by simp, ?_⟩
    intro t ht
    unfold convertToFF at ht
    obtain ⟨s, hs, rfl⟩ := List.mem_map.mp ht
    simp [hlen s hs]

lemma monos_len {f : ℚ[X]} {k : List ℕ} (h : k ∈ monos f) : k.length = 1 := by
  obtain ⟨e, -, rfl⟩ := mem_monos.mp h; rfl

/-- an exact side denotes the polynomial -/
lemma rnPoly_exact {f : ℚ[X]} {g : RnMap} (h : SideExact (coefOf f) (monos f) g) : rnPoly g = f := by
  unfold rnPoly
  have e1 : g.map (fun t => monomial (t.1.getD 0 0) t.2.val) = (g.map Prod.fst).map (fun k => monomial (k.getD 0 0) (coefOf f k)) := by
    rw [List.map_map]
    apply List.map_congr_left
    intro t ht
    rw [(h.2 t ht).2]; rfl
  rw [e1, (h.1.map _).sum_eq]
  unfold monos
  rw [List.map_map]
  have : ((fun k : List ℕ => monomial (k.getD 0 0) (coefOf f k)) ∘ fun e => [e]) = fun e => monomial e (f.coeff e) := by
    funext e; simp [coefOf]
  rw [this, Finset.sum_map_toList]
  exact f.sum_monomial_eq

lemma side_keys {c : List ℕ → ℚ} {f : ℚ[X]} {M : ℤ} {g : RnMap} {comb : MpzMap} (h : SideOK c (monos f) M g comb) :
    (∀ t ∈ g, t.1.length = 1) ∧ (∀ t ∈ comb, t.1 ∈ monos f ∧ t.1.length = 1) := by
  constructor
  · intro t ht
    exact monos_len (h.perm.mem_iff.mp (List.mem_append_left _ (List.mem_map_of_mem ht)))
  · intro t ht
    have := h.perm.mem_iff.mp (List.mem_append_right _ (List.mem_map_of_mem ht))
    exact ⟨this, monos_len this⟩

/-- the value as sum of the known and the unknown part -/
lemma eval_split {f : ℚ[X]} {M : ℤ} {g : RnMap} {comb : MpzMap} (h : SideOK (coefOf f) (monos f) M g comb) (x : ZMod p) :
    (redPoly p f).eval x = (g.map (fun t => ((t.2.val : ℚ) : ZMod p) * x ^ t.1.getD 0 0)).sum +
      (comb.map (fun t => ((coefOf f t.1 : ℚ) : ZMod p) * x ^ t.1.getD 0 0)).sum := by
  have e1 : g.map (fun t => ((t.2.val : ℚ) : ZMod p) * x ^ t.1.getD 0 0) =
      (g.map Prod.fst).map (fun k => ((coefOf f k : ℚ) : ZMod p) * x ^ k.getD 0 0) := by
    rw [List.map_map]
    apply List.map_congr_left
    intro t ht
    rw [(h.known t ht).2]; rfl
  have e2 : comb.map (fun t => ((coefOf f t.1 : ℚ) : ZMod p) * x ^ t.1.getD 0 0) =
      (comb.map Prod.fst).map (fun k => ((coefOf f k : ℚ) : ZMod p) * x ^ k.getD 0 0) := by
    rw [List.map_map]; rfl
  rw [e1, e2, ← List.sum_append, ← List.map_append, (h.perm.map _).sum_eq]
  unfold monos redPoly
  rw [List.map_map, eval_finset_sum]
  have : ((fun k : List ℕ => ((coefOf f k : ℚ) : ZMod p) * x ^ k.getD 0 0) ∘ fun e => [e]) = fun e => ((f.coeff e : ℚ) : ZMod p) * x ^ e := by
    funext e; simp [coefOf]
  rw [this, Finset.sum_map_toList]
  simp [eval_monomial]

end

/-! ## the test -/
section
variable {p : ℕ} [hp : Fact p.Prime]

lemma guess_facts {c : List ℕ → ℚ} {f : ℚ[X]} {M : ℤ} {g : RnMap} (h : GuessOK c (monos f) M g) :
    (∀ t ∈ g, t.2.Valid) ∧ (g.map Prod.fst).Nodup ∧ ∀ t ∈ g, t.1.length = 1 :=
  ⟨fun t ht => (h.2 t ht).1, h.1.nodup_iff.mpr (monos_nodup f), fun t ht => monos_len (h.1.mem_iff.mp (List.mem_map_of_mem ht))⟩

lemma exact_facts {c : List ℕ → ℚ} {f : ℚ[X]} {g : RnMap} (h : SideExact c (monos f) g) :
    (∀ t ∈ g, t.2.Valid) ∧ (g.map Prod.fst).Nodup ∧ ∀ t ∈ g, t.1.length = 1 :=
  ⟨fun t ht => (h.2 t ht).1, h.1.nodup_iff.mpr (monos_nodup f), fun t ht => monos_len (h.1.mem_iff.mp (List.mem_map_of_mem ht))⟩

/-- what `test_guess` decides -/
lemma testGuess_spec {N D : RnMap} (hN : (∀ t ∈ N, t.2.Valid) ∧ (N.map Prod.fst).Nodup ∧ ∀ t ∈ N, t.1.length = 1)
    (hD : (∀ t ∈ D, t.2.Valid) ∧ (D.map Prod.fst).Nodup ∧ ∀ t ∈ D, t.1.length = 1) (v x : ZMod p) :
    testGuess (N, D) v x = some (decide ((redPoly p (rnPoly N)).eval x / (redPoly p (rnPoly D)).eval x = v)) := by
  unfold testGuess
  simp only
  rw [calc_guess p hN.1 hN.2.1 hN.2.2, calc_guess p hD.1 hD.2.1 hD.2.2]
  rfl

/-- Specification: what is guaranteed about a result the object reports. -/
structure Certified (n d : ℚ[X]) (M : ℤ) (p : ℕ) [Fact p.Prime] (pt : ZMod p × ZMod p) (N D : RnMap) : Prop where
  num : GuessOK (coefOf n) (monos n) M N
  den : GuessOK (coefOf d) (monos d) M D
  probe : (redPoly p (rnPoly N)).eval pt.1 / (redPoly p (rnPoly D)).eval pt.1 = pt.2

/-- `check_if_done`: a reported result agrees with the function modulo `M` and at the probe; it is reported if the
coefficients are small. -/
lemma checkIfDone_spec {n d : ℚ[X]} {M : ℤ} {c : UniCross} (h : UniOK n d M c) (x v : ZMod p)
    (hv : v = (redPoly p n).eval x / (redPoly p d).eval x) :
    ∃ o, checkIfDone c v x = some o ∧
      (∀ g, o = some g → Certified n d M p (x, v) g.1 g.2) ∧
      ((∀ e, Small (n.coeff e) M) → (∀ e, Small (d.coeff e) M) →
        ∃ g, o = some g ∧ rnPoly g.1 = n ∧ rnPoly g.2 = d) := by
  obtain ⟨hM, hpos, h1, h2, -⟩ := h
  subst hM
  obtain ⟨o, e, s1, s2⟩ := C36_guess c.coefs h1 h2
  unfold checkIfDone
  rw [e]
  simp only [Option.bind_eq_bind, Option.bind_some]
  cases o with
  | none =>
    refine ⟨none, rfl, by simp, fun y1 y2 => ?_⟩
    obtain ⟨g, hg, -⟩ := s2 (fun t _ => y1 _) (fun t _ => y2 _)
    cases hg
  | some g =>
    obtain ⟨g1, g2⟩ := s1 g rfl
    have ht := testGuess_spec (p := p) (N := g.1) (D := g.2) (guess_facts g1) (guess_facts g2) v x
    simp only
    rw [show testGuess g v x = _ from ht]
    simp only [Option.bind_some]
    by_cases hd : (redPoly p (rnPoly g.1)).eval x / (redPoly p (rnPoly g.2)).eval x = v
    · refine ⟨some g, by simp [hd], ?_, ?_⟩
      · intro g' hg'
        cases hg'
        exact ⟨g1, g2, hd⟩
      · intro y1 y2
        obtain ⟨g', hg', x1, x2⟩ := s2 (fun t _ => y1 _) (fun t _ => y2 _)
        cases hg'
        exact ⟨g, rfl, rnPoly_exact x1, rnPoly_exact x2⟩
    · refine ⟨none, by simp [hd], by simp, ?_⟩
      intro y1 y2
      obtain ⟨g', hg', x1, x2⟩ := s2 (fun t _ => y1 _) (fun t _ => y2 _)
      cases hg'
      exact absurd (by rw [rnPoly_exact x1, rnPoly_exact x2, hv]) hd

/-- **C36 (a wrong guess is detected).** Let `v` be a nonzero value of `n/d` modulo `p` at `x`. A guess with other
function modulo `p` passes the test only if `x` is one of at most `deg` roots of a nonzero polynomial. -/
theorem C36_false_accept (n d : ℚ[X]) {N D : RnMap} (hN : (∀ t ∈ N, t.2.Valid) ∧ (N.map Prod.fst).Nodup ∧ ∀ t ∈ N, t.1.length = 1)
    (hD : (∀ t ∈ D, t.2.Valid) ∧ (D.map Prod.fst).Nodup ∧ ∀ t ∈ D, t.1.length = 1)
    (hne : redPoly p (rnPoly N) * redPoly p d ≠ redPoly p n * redPoly p (rnPoly D)) :
    ∃ bad : Finset (ZMod p), bad.card ≤ (redPoly p (rnPoly N) * redPoly p d - redPoly p n * redPoly p (rnPoly D)).natDegree ∧
      ∀ x v : ZMod p, v ≠ 0 → (redPoly p d).eval x ≠ 0 → v = (redPoly p n).eval x / (redPoly p d).eval x →
        testGuess (N, D) v x = some true → x ∈ bad := by
  have h0 : redPoly p (rnPoly N) * redPoly p d - redPoly p n * redPoly p (rnPoly D) ≠ 0 := sub_ne_zero.mpr hne
  refine ⟨(redPoly p (rnPoly N) * redPoly p d - redPoly p n * redPoly p (rnPoly D)).roots.toFinset,
    (Multiset.toFinset_card_le _).trans (card_roots' _), ?_⟩
  intro x v hv hdx hvx ht
  rw [testGuess_spec hN hD] at ht
  have ht : (redPoly p (rnPoly N)).eval x / (redPoly p (rnPoly D)).eval x = v := by simpa using ht
  rw [Multiset.mem_toFinset, mem_roots h0, IsRoot.def, eval_sub, eval_mul, eval_mul]
  have hb : (redPoly p (rnPoly D)).eval x ≠ 0 := by
    intro hz; rw [hz, div_zero] at ht; exact hv ht.symm
  rw [hvx, div_eq_div_iff hb hdx] at ht
  rw [ht, sub_self]

/-! ## the linear system -/

lemma fold_sub (l : FFMap (ZMod p)) (x : ZMod p) : ∀ r, l.foldl (fun res t => res - t.2 * x ^ (t.1.getD 0 0)) r = r - (l.map (fun t => t.2 * x ^ (t.1.getD 0 0))).sum := by
  induction l with
  | nil => simp
  | cons t l ih => intro r; rw [List.foldl_cons, ih, List.map_cons, List.sum_cons]; ring

lemma fold_add_mul (l : FFMap (ZMod p)) (x v : ZMod p) : ∀ r, l.foldl (fun res t => res + t.2 * x ^ (t.1.getD 0 0) * v) r = r + v * (l.map (fun t => t.2 * x ^ (t.1.getD 0 0))).sum := by
  induction l with
  | nil => simp
  | cons t l ih => intro r; rw [List.foldl_cons, ih, List.map_cons, List.sum_cons]; ring

lemma convert_sum {g : RnMap} (hv : ∀ t ∈ g, t.2.Valid) (x : ZMod p) :
    ((convertToFF p g).map (fun t => t.2 * x ^ (t.1.getD 0 0))).sum = (g.map (fun t => ((t.2.val : ℚ) : ZMod p) * x ^ t.1.getD 0 0)).sum := by
  unfold convertToFF
  rw [List.map_map]
  congr 1
  apply List.map_congr_left
  intro t ht
  simp only [Function.comp]
  rw [val_cast p (hv t ht)]

/-- the entries of a row -/
lemma uniRow_get (c : UniCross) (x v : ZMod p) :
    (uniRow c x v).length = c.nonSolvedNum.length + c.nonSolvedDen.length + 1 ∧
    (∀ j < c.nonSolvedNum.length, (uniRow c x v).getD j 0 = x ^ c.nonSolvedNum.getD j 0) ∧
    (∀ j, c.nonSolvedNum.length ≤ j → j < c.nonSolvedNum.length + c.nonSolvedDen.length →
      (uniRow c x v).getD j 0 = -v * x ^ c.nonSolvedDen.getD (j - c.nonSolvedNum.length) 0) := by
  refine ⟨by simp [uniRow]; omega, ?_, ?_⟩
  · intro j hj
    unfold uniRow
    rw [List.append_assoc, List.getD_append _ _ _ _ (by simpa using hj), List.getD_eq_getElem _ _ (by simpa using hj), List.getElem_map,
      List.getD_eq_getElem _ _ hj]
  · intro j h1 h2
    unfold uniRow
    rw [List.append_assoc, List.getD_append_right _ _ _ _ (by simpa using h1), List.length_map,
      List.getD_append _ _ _ _ (by simp; omega), List.getD_eq_getElem _ _ (by simp; omega), List.getElem_map,
      List.getD_eq_getElem _ _ (by omega)]

lemma uniRow_last {n d : ℚ[X]} {M : ℤ} {c : UniCross} (h : UniOK n d M c) (x v : ZMod p) :
    (uniRow c x v).getD (c.nonSolvedNum.length + c.nonSolvedDen.length) 0 =
      -(c.coefs.gNi.map (fun t => ((t.2.val : ℚ) : ZMod p) * x ^ t.1.getD 0 0)).sum +
      v * (c.coefs.gDi.map (fun t => ((t.2.val : ℚ) : ZMod p) * x ^ t.1.getD 0 0)).sum := by
  unfold uniRow
  rw [List.getD_append_right _ _ _ _ (by simp)]
  simp only [List.length_append, List.length_map, Nat.sub_self, List.getD_cons_zero]
  rw [fold_sub, fold_add_mul, convert_sum (fun t ht => (h.num.known t ht).1), convert_sum (fun t ht => (h.den.known t ht).1)]
  ring

/-- sum over the entries of a list by index -/
lemma sum_range_list (l : List ℕ) (f : ℕ → ZMod p) : ∑ j ∈ Finset.range l.length, f (l.getD j 0) = (l.map f).sum := by
  induction l with
  | nil => simp
  | cons a l ih =>
    rw [List.length_cons, Finset.sum_range_succ', List.map_cons, List.sum_cons, ← ih, add_comm]
    simp

/-- the true coefficients of the unknown powers -/
noncomputable def trueVec (n d : ℚ[X]) (p : ℕ) [Fact p.Prime] (nn nd : List ℕ) (j : ℕ) : ZMod p :=
  if j < nn.length then ((n.coeff (nn.getD j 0) : ℚ) : ZMod p) else ((d.coeff (nd.getD (j - nn.length) 0) : ℚ) : ZMod p)

/-- the true coefficients solve every equation -/
lemma true_row {n d : ℚ[X]} {M : ℤ} {c : UniCross} (h : UniOK n d M c) (x v : ZMod p) (hd : (redPoly p d).eval x ≠ 0)
    (hv : v = (redPoly p n).eval x / (redPoly p d).eval x) :
    ∑ j ∈ Finset.range (c.nonSolvedNum.length + c.nonSolvedDen.length), (uniRow c x v).getD j 0 * trueVec n d p c.nonSolvedNum c.nonSolvedDen j =
      (uniRow c x v).getD (c.nonSolvedNum.length + c.nonSolvedDen.length) 0 := by
  obtain ⟨-, r1, r2⟩ := uniRow_get c x v
  rw [uniRow_last h, Finset.sum_range_add]
  have s1 : ∑ j ∈ Finset.range c.nonSolvedNum.length, (uniRow c x v).getD j 0 * trueVec n d p c.nonSolvedNum c.nonSolvedDen j =
      (c.nonSolvedNum.map (fun e => ((n.coeff e : ℚ) : ZMod p) * x ^ e)).sum := by
    rw [← sum_range_list]
    apply Finset.sum_congr rfl
    intro j hj
    rw [Finset.mem_range] at hj
    rw [r1 j hj, trueVec, if_pos hj, mul_comm]
  have s2 : ∑ j ∈ Finset.range c.nonSolvedDen.length, (uniRow c x v).getD (c.nonSolvedNum.length + j) 0 * trueVec n d p c.nonSolvedNum c.nonSolvedDen (c.nonSolvedNum.length + j) =
      -v * (c.nonSolvedDen.map (fun e => ((d.coeff e : ℚ) : ZMod p) * x ^ e)).sum := by
    rw [← sum_range_list, Finset.mul_sum]
    apply Finset.sum_congr rfl
    intro j hj
    rw [Finset.mem_range] at hj
    rw [r2 _ (by omega) (by omega), trueVec, if_neg (by omega)]
    rw [show c.nonSolvedNum.length + j - c.nonSolvedNum.length = j by omega]
    ring
  rw [s1, s2]
  have p1 : (c.nonSolvedNum.map (fun e => ((n.coeff e : ℚ) : ZMod p) * x ^ e)).sum =
      (c.coefs.combNi.map (fun t => ((coefOf n t.1 : ℚ) : ZMod p) * x ^ t.1.getD 0 0)).sum := by
    rw [(h.unNum.map _).sum_eq, List.map_map]; rfl
  have p2 : (c.nonSolvedDen.map (fun e => ((d.coeff e : ℚ) : ZMod p) * x ^ e)).sum =
      (c.coefs.combDi.map (fun t => ((coefOf d t.1 : ℚ) : ZMod p) * x ^ t.1.getD 0 0)).sum := by
    rw [(h.unDen.map _).sum_eq, List.map_map]; rfl
  have e1 := eval_split p h.num x
  have e2 := eval_split p h.den x
  rw [p1, p2]
  have hx : (redPoly p n).eval x = v * (redPoly p d).eval x := by rw [hv]; field_simp
  linear_combination (-1 : ZMod p) * e1 + v * e2 + hx

lemma mapIdx_true (f : ℕ → ZMod p) (y : ℕ → ZMod p) (l : List ℕ) (h : ∀ i < l.length, y i = f (l.getD i 0)) :
    l.mapIdx (fun i e => ([e], y i)) = l.map (fun e => ([e], f e)) := by
  apply List.ext_getElem
  · simp
  · intro i h1 h2
    simp only [List.getElem_mapIdx, List.getElem_map]
    rw [h i (by simpa using h1), List.getD_eq_getElem _ _ (by simpa using h1)]

lemma find_map_key (f : ℕ → ZMod p) (l : List ℕ) (hnd : l.Nodup) (e : ℕ) (he : e ∈ l) :
    FFMap.find? (l.map (fun e => ([e], f e))) [e] = some (f e) := by
  apply find?_of_mem
  · rw [List.map_map]
    exact hnd.map (fun a b h => by simpa using h)
  · exact List.mem_map.mpr ⟨e, he, rfl⟩

/-- the linear system yields the true coefficients modulo `p` -/
lemma solveUni_spec {gt : ZMod p → ZMod p → Bool} (hgt : PivotOrder gt) {n d : ℚ[X]} {M : ℤ} {c : UniCross} (h : UniOK n d M c)
    {pts : List (ZMod p × ZMod p)} (hpts : ProbesOK n d p pts) (hn : 1 ≤ c.numEqn) (hlen : c.numEqn ≤ pts.length)
    (hdet : (probeMatrix c.nonSolvedNum c.nonSolvedDen pts).det ≠ 0) :
    ∃ r, solveUni gt c ((pts.take c.numEqn).map (fun pt => uniRow c pt.1 pt.2)) = some r ∧
      (∀ t ∈ c.coefs.combNi, (r.1.find? t.1).getD 0 = ((coefOf n t.1 : ℚ) : ZMod p)) ∧
      (∀ t ∈ c.coefs.combDi, (r.2.find? t.1).getD 0 = ((coefOf d t.1 : ℚ) : ZMod p)) := by
  set rows := (pts.take c.numEqn).map (fun pt => uniRow c pt.1 pt.2) with hrows
  have hrow : ∀ i < c.numEqn, ∀ j, rowsMat rows i j = (uniRow c (pts.getD i (0, 0)).1 (pts.getD i (0, 0)).2).getD j 0 := by
    intro i hi j
    unfold rowsMat
    have hl : i < rows.length := by rw [hrows]; simp; omega
    rw [List.getD_eq_getElem rows _ hl]
    simp only [hrows, List.getElem_map, List.getElem_take]
    rw [List.getD_eq_getElem pts _ (by omega)]
  have hmat : (toMatrix c.numEqn (rowsMat rows)).det ≠ 0 := by
    have heq := h.eqn
    generalize c.numEqn = m at heq hrow ⊢
    subst heq
    have : toMatrix _ (rowsMat rows) = probeMatrix c.nonSolvedNum c.nonSolvedDen pts := by
      ext i j
      unfold toMatrix probeMatrix
      simp only [Matrix.of_apply]
      rw [hrow i i.2]
      obtain ⟨-, r1, r2⟩ := uniRow_get c (pts.getD i (0, 0)).1 (pts.getD i (0, 0)).2
      split_ifs with hj
      · exact r1 _ hj
      · exact r2 _ (by omega) j.2
    rw [this]; exact hdet
  obtain ⟨y, hy, hsol⟩ := C22_solve hgt (rowsMat rows) false hn hmat
  have hz : ∀ r < c.numEqn, ∑ j ∈ Finset.range c.numEqn, rowsMat rows r j * trueVec n d p c.nonSolvedNum c.nonSolvedDen j = rowsMat rows r c.numEqn := by
    intro r hr
    have hmem : pts.getD r (0, 0) ∈ pts := by
      rw [List.getD_eq_getElem _ _ (by omega)]; exact List.getElem_mem _
    have ht := true_row h _ _ (hpts.data _ hmem).1 (hpts.data _ hmem).2
    rw [← h.eqn] at ht
    simp only [hrow r hr]
    exact ht
  have hyz : ∀ j < c.numEqn, y j = trueVec n d p c.nonSolvedNum c.nonSolvedDen j := by
    have hk : (toMatrix c.numEqn (rowsMat rows)).mulVec (fun j => y j - trueVec n d p c.nonSolvedNum c.nonSolvedDen j) = 0 := by
      funext i
      have a := hsol i i.2
      have b := hz i i.2
      rw [Finset.sum_range] at a b
      simp only [Matrix.mulVec, dotProduct, toMatrix, Matrix.of_apply, Pi.zero_apply, mul_sub]
      rw [Finset.sum_sub_distrib, a, b, sub_self]
    have := Matrix.eq_zero_of_mulVec_eq_zero hmat hk
    intro j hj
    exact sub_eq_zero.mp (congrFun this ⟨j, hj⟩)
  have nd1 : c.nonSolvedNum.Nodup := by
    rw [h.unNum.nodup_iff]
    have a := (List.nodup_append.mp (h.num.perm.nodup_iff.mpr h.num.nodup)).2.1
    rw [show c.coefs.combNi.map (fun t => t.1.getD 0 0) = (c.coefs.combNi.map Prod.fst).map (fun k => k.getD 0 0) by rw [List.map_map]; rfl]
    refine List.Nodup.map_on ?_ a
    intro x hx y hy hxy
    obtain ⟨t, ht, rfl⟩ := List.mem_map.mp hx
    obtain ⟨s, hs, rfl⟩ := List.mem_map.mp hy
    obtain ⟨a, ha⟩ := List.length_eq_one_iff.mp ((side_keys h.num).2 t ht).2
    obtain ⟨b, hb⟩ := List.length_eq_one_iff.mp ((side_keys h.num).2 s hs).2
    rw [ha, hb] at hxy ⊢; simpa using hxy
  have nd2 : c.nonSolvedDen.Nodup := by
    rw [h.unDen.nodup_iff]
    have a := (List.nodup_append.mp (h.den.perm.nodup_iff.mpr h.den.nodup)).2.1
    rw [show c.coefs.combDi.map (fun t => t.1.getD 0 0) = (c.coefs.combDi.map Prod.fst).map (fun k => k.getD 0 0) by rw [List.map_map]; rfl]
    refine List.Nodup.map_on ?_ a
    intro x hx y hy hxy
    obtain ⟨t, ht, rfl⟩ := List.mem_map.mp hx
    obtain ⟨s, hs, rfl⟩ := List.mem_map.mp hy
    obtain ⟨a, ha⟩ := List.length_eq_one_iff.mp ((side_keys h.den).2 t ht).2
    obtain ⟨b, hb⟩ := List.length_eq_one_iff.mp ((side_keys h.den).2 s hs).2
    rw [ha, hb] at hxy ⊢; simpa using hxy
  unfold solveUni
  rw [hy]
  refine ⟨_, rfl, ?_, ?_⟩
  · intro t ht
    simp only
    rw [mapIdx_true (fun e => ((n.coeff e : ℚ) : ZMod p)) y c.nonSolvedNum (by
      intro i hi
      rw [hyz i (by rw [h.eqn]; omega), trueVec, if_pos hi])]
    obtain ⟨a, ha⟩ := List.length_eq_one_iff.mp ((side_keys h.num).2 t ht).2
    have hmem : a ∈ c.nonSolvedNum := by
      rw [h.unNum.mem_iff]
      exact List.mem_map.mpr ⟨t, ht, by rw [ha]; rfl⟩
    rw [ha, find_map_key (fun e => ((n.coeff e : ℚ) : ZMod p)) _ nd1 a hmem]
    rfl
  · intro t ht
    simp only
    rw [mapIdx_true (fun e => ((d.coeff e : ℚ) : ZMod p)) (fun i => y (c.nonSolvedNum.length + i)) c.nonSolvedDen (by
      intro i hi
      rw [hyz _ (by rw [h.eqn]; omega), trueVec, if_neg (by omega)]
      rw [show c.nonSolvedNum.length + i - c.nonSolvedNum.length = i by omega])]
    obtain ⟨a, ha⟩ := List.length_eq_one_iff.mp ((side_keys h.den).2 t ht).2
    have hmem : a ∈ c.nonSolvedDen := by
      rw [h.unDen.mem_iff]
      exact List.mem_map.mpr ⟨t, ht, by rw [ha]; rfl⟩
    rw [ha, find_map_key (fun e => ((d.coeff e : ℚ) : ZMod p)) _ nd2 a hmem]
    rfl

/-! ## a further prime field -/

lemma loop_known (inv : ℤ → ℤ → ℤ) (gt : ZMod p → ZMod p → Bool) (ord : List ℕ → List ℕ) : ∀ (pts : List (ZMod p × ZMod p)) (s : UniState p),
    s.cross.known = true → s.newPrime = false → s.coefMat.length < s.cross.numEqn → s.cross.numEqn ≤ s.coefMat.length + pts.length →
    uniLoop inv gt ord s pts = (do
      let r ← solveUni gt s.cross (s.coefMat ++ (pts.take (s.cross.numEqn - s.coefMat.length)).map (fun pt => uniRow s.cross pt.1 pt.2))
      let k ← s.cross.coefs.combineNext inv r.1 r.2
      endPrime ord s.cross k)
  | [], s, _, _, h1, h2 => by simp at h2; omega
  | pt :: pts, s, hk, hn, h1, h2 => by
    unfold uniLoop uniProbe
    simp only [hn, hk, if_true, Bool.false_eq_true, if_false, Option.bind_eq_bind, Option.bind_some]
    by_cases hl : s.cross.numEqn = s.coefMat.length + 1
    · rw [if_pos (by simpa using hl)]
      rw [show s.cross.numEqn - s.coefMat.length = 1 by omega]
      simp only [List.take_succ_cons, List.take_zero, List.map_cons, List.map_nil]
      cases solveUni gt s.cross (s.coefMat ++ [uniRow s.cross pt.1 pt.2]) with
      | none => rfl
      | some r =>
        simp only [Option.bind_some]
        cases RatCoefs.combineNext inv s.cross.coefs r.1 r.2 with
        | none => rfl
        | some k =>
          simp only [Option.bind_some]
          unfold endPrime
          split_ifs <;> rfl
    · rw [if_neg (by simpa using hl)]
      simp only [Option.bind_some]
      rw [loop_known inv gt ord pts { s with coefMat := s.coefMat ++ [uniRow s.cross pt.1 pt.2], newPrime := false } hk rfl
        (by simp; omega) (by simp only [List.length_append, List.length_singleton, List.length_cons] at h2 ⊢; omega)]
      simp only [List.length_append, List.length_singleton]
      rw [show s.cross.numEqn - s.coefMat.length = (s.cross.numEqn - (s.coefMat.length + 1)) + 1 by omega]
      simp only [List.take_succ_cons, List.map_cons, List.append_assoc, List.singleton_append]
      rfl

/-- the unknown coefficients -/
lemma UniOK.unknown {n d : ℚ[X]} {M : ℤ} {c : UniCross} (h : UniOK n d M c) : c.nonSolvedNum.Nodup ∧ c.nonSolvedDen.Nodup ∧ (∀ e ∈ c.nonSolvedNum, e ∈ n.support) ∧
    ∀ e ∈ c.nonSolvedDen, e ∈ d.support ∧ e ≠ d.natTrailingDegree := by
  have keysN := (side_keys h.num).2
  have keysD := (side_keys h.den).2
  have ndN : c.nonSolvedNum.Nodup := by
    rw [h.unNum.nodup_iff]
    have a := (List.nodup_append.mp (h.num.perm.nodup_iff.mpr h.num.nodup)).2.1
    rw [show c.coefs.combNi.map (fun t => t.1.getD 0 0) = (c.coefs.combNi.map Prod.fst).map (fun k => k.getD 0 0) by rw [List.map_map]; rfl]
    refine List.Nodup.map_on ?_ a
    intro x hx y hy hxy
    obtain ⟨t, ht, rfl⟩ := List.mem_map.mp hx
    obtain ⟨s, hs, rfl⟩ := List.mem_map.mp hy
    obtain ⟨a, ha⟩ := List.length_eq_one_iff.mp (keysN t ht).2
    obtain ⟨b, hb⟩ := List.length_eq_one_iff.mp (keysN s hs).2
    rw [ha, hb] at hxy ⊢; simpa using hxy
  have ndD : c.nonSolvedDen.Nodup := by
    rw [h.unDen.nodup_iff]
    have a := (List.nodup_append.mp (h.den.perm.nodup_iff.mpr h.den.nodup)).2.1
    rw [show c.coefs.combDi.map (fun t => t.1.getD 0 0) = (c.coefs.combDi.map Prod.fst).map (fun k => k.getD 0 0) by rw [List.map_map]; rfl]
    refine List.Nodup.map_on ?_ a
    intro x hx y hy hxy
    obtain ⟨t, ht, rfl⟩ := List.mem_map.mp hx
    obtain ⟨s, hs, rfl⟩ := List.mem_map.mp hy
    obtain ⟨a, ha⟩ := List.length_eq_one_iff.mp (keysD t ht).2
    obtain ⟨b, hb⟩ := List.length_eq_one_iff.mp (keysD s hs).2
    rw [ha, hb] at hxy ⊢; simpa using hxy
  refine ⟨ndN, ndD, ?_, ?_⟩
  · intro e he
    rw [h.unNum.mem_iff] at he
    obtain ⟨t, ht, rfl⟩ := List.mem_map.mp he
    obtain ⟨e, he, hk⟩ := mem_monos.mp (keysN t ht).1
    rw [hk]; exact he
  · intro e he
    rw [h.unDen.mem_iff] at he
    obtain ⟨t, ht, rfl⟩ := List.mem_map.mp he
    obtain ⟨e, he, hk⟩ := mem_monos.mp (keysD t ht).1
    rw [hk]
    refine ⟨he, ?_⟩
    intro heq
    simp only [List.getD_cons_zero] at heq
    have := find?_eq_none.mp h.norm
    apply this
    rw [← heq, ← hk]
    exact List.mem_map_of_mem ht

/-- one further prime field, with the unknown coefficients of the object -/
lemma prime_aux {inv : ℤ → ℤ → ℤ} (hinv : InvertSpec inv) {gt : ZMod p → ZMod p → Bool} (hgt : PivotOrder gt)
    {ord : List ℕ → List ℕ} (hord : ∀ l, (ord l).Perm l) {n d : ℚ[X]} {M : ℤ} {c : UniCross} (h : UniOK n d M c) (nextP : ℕ)
    {pts : List (ZMod p × ZMod p)} (hpts : ProbesOK n d p pts) (hreg : c.nonSolvedNum.length + c.nonSolvedDen.length ≤ pts.length ∧ (probeMatrix c.nonSolvedNum c.nonSolvedDen pts).det ≠ 0) (hpM : ¬ (p : ℤ) ∣ M)
    (h300 : c.primeNumber + 1 < 300)
    (hx : ∀ e, ¬ Deceptive (n.coeff e) M (M * p) ∧ ¬ Deceptive (d.coeff e) M (M * p)) :
    ∃ out, uniPrime inv gt ord nextP c pts = some out ∧
      ((∃ N D, out = .finished N D ∧ Certified n d M p (pts.headD (0, 0)) N D) ∨
       (∃ c', out = .nextPrime c' ∧ UniOK n d (M * p) c' ∧ c'.primeNumber = c.primeNumber + 1 ∧
          ∃ e, ¬ Small (n.coeff e) M ∨ ¬ Small (d.coeff e) M)) ∧
      ((∀ e, Small (n.coeff e) M) → (∀ e, Small (d.coeff e) M) →
        ∃ N D, out = .finished N D ∧ rnPoly N = n ∧ rnPoly D = d) := by
  obtain ⟨pt, rest, rfl⟩ : ∃ pt rest, pts = pt :: rest := by
    rcases pts with _ | ⟨pt, rest⟩
    · exact absurd rfl hpts.first
    · exact ⟨pt, rest, rfl⟩
  have hfirst : pt.2 ≠ 0 := hpts.first
  obtain ⟨o, eo, o1, o2⟩ := checkIfDone_spec (p := p) h pt.1 pt.2 (hpts.data pt (by simp)).2
  unfold uniPrime
  simp only [if_neg hfirst, h.check]
  cases o with
  | some g =>
    have e : uniLoop inv gt ord ({ cross := c, newPrime := true } : UniState p) (pt :: rest) = some (.finished g.1 g.2) := by
      unfold uniLoop uniProbe
      simp only [if_true]
      rw [eo]
      rfl
    refine ⟨_, e, Or.inl ⟨_, _, rfl, o1 g rfl⟩, fun y1 y2 => ?_⟩
    obtain ⟨g', hg', r1, r2⟩ := o2 y1 y2
    cases hg'
    exact ⟨_, _, rfl, r1, r2⟩
  | none =>
    have hbig : ∃ e, ¬ Small (n.coeff e) M ∨ ¬ Small (d.coeff e) M := by
      by_contra hc
      push Not at hc
      obtain ⟨g', hg', -⟩ := o2 (fun e => (hc e).1) (fun e => (hc e).2)
      cases hg'
    -- the unknown coefficients
    have hM := h.prime
    have hne : c.coefs.combNi ++ c.coefs.combDi ≠ [] := by
      intro he
      rw [List.append_eq_nil_iff] at he
      obtain ⟨o', e', -, s2⟩ := C36_guess (c1 := coefOf n) (c2 := coefOf d) (K1 := monos n) (K2 := monos d) c.coefs (hM ▸ h.num) (hM ▸ h.den)
      obtain ⟨g, rfl, x1, x2⟩ := s2 (by rw [he.1]; simp) (by rw [he.2]; simp)
      unfold checkIfDone at eo
      rw [e'] at eo
      have ht := testGuess_spec (p := p) (N := g.1) (D := g.2) (exact_facts x1) (exact_facts x2) pt.2 pt.1
      simp only [Option.bind_eq_bind, Option.bind_some] at eo
      rw [show testGuess g pt.2 pt.1 = _ from ht, rnPoly_exact x1, rnPoly_exact x2, ← (hpts.data pt (by simp)).2] at eo
      simp at eo
    have hlens : c.coefs.combNi.length = c.nonSolvedNum.length ∧ c.coefs.combDi.length = c.nonSolvedDen.length := by
      have a := h.unNum.length_eq
      have b := h.unDen.length_eq
      rw [List.length_map] at a b
      exact ⟨a.symm, b.symm⟩
    have hn1 : 1 ≤ c.numEqn := by
      rw [h.eqn, ← hlens.1, ← hlens.2, ← List.length_append]
      exact List.length_pos_of_ne_nil hne
    obtain ⟨hcount, hdet⟩ := hreg
    obtain ⟨r, hr, r1, r2⟩ := solveUni_spec hgt h hpts hn1 (by rw [h.eqn]; exact hcount) hdet
    obtain ⟨k, hk, k1, k2, k3, -, -, -, k4⟩ := C36_combine_next (c1 := coefOf n) (c2 := coefOf d) (K1 := monos n) (K2 := monos d) c.coefs hinv (p := p)
      (by rw [hM]; exact h.pos) (by rw [hM]; exact hpM) hne (by rw [hM]; exact h.num) (by rw [hM]; exact h.den)
      (num := r.1) (den := r.2) (fun t _ => hpts.denN _) (fun t _ => hpts.denD _) r1 r2
      (fun t _ => by rw [hM]; exact (hx _).1) (fun t _ => by rw [hM]; exact (hx _).2)
    rw [hM] at k1 k2 k3
    have e : uniLoop inv gt ord ({ cross := c, newPrime := true } : UniState p) (pt :: rest) = some (.nextPrime (endCross ord c k)) := by
      have step : uniLoop inv gt ord ({ cross := c, newPrime := true } : UniState p) (pt :: rest) =
          uniLoop inv gt ord ({ cross := c, newPrime := false } : UniState p) (pt :: rest) := by
        conv_lhs => unfold uniLoop uniProbe
        conv_rhs => unfold uniLoop uniProbe
        simp only [if_true, Bool.false_eq_true, if_false]
        rw [eo]
      rw [step, loop_known inv gt ord (pt :: rest) _ h.known rfl (by simp; omega) (by rw [h.eqn]; simpa using hcount)]
      simp only [List.length_nil, Nat.sub_zero, List.nil_append]
      rw [hr]
      simp only [Option.bind_eq_bind, Option.bind_some]
      rw [hk]
      simp only [Option.bind_some]
      unfold endPrime
      rw [if_neg (by omega)]
    refine ⟨_, e, Or.inr ⟨_, rfl, ?_, rfl, hbig⟩, ?_⟩
    · have hpp : (0 : ℤ) < p := by exact_mod_cast hp.out.pos
      refine ⟨k1, mul_pos h.pos hpp, k2, k3, k4 _ h.norm, rfl, rfl, hord _, hord _, rfl, by have := h.zeros; simp only [endCross]; omega⟩
    · intro y1 y2
      obtain ⟨g', hg', -⟩ := o2 y1 y2
      cases hg'

/-- **C36 (one further prime field).** Let every coefficient of `n/d` be known exactly or modulo `M`. The probes of another
prime field, values of `n/d` that determine the unknown coefficients, lead to
* a reported result; it has the monomials of `n/d`, agrees with `n/d` modulo `M` and at the first probe; or
* a request for a new prime field, where every coefficient is known exactly or modulo `M * p`, provided no coefficient is
  deceptive.
If all coefficients are small for `M` the result is reported, and it is `n/d`. -/
theorem C36_prime {inv : ℤ → ℤ → ℤ} (hinv : InvertSpec inv) {gt : ZMod p → ZMod p → Bool} (hgt : PivotOrder gt)
    {ord : List ℕ → List ℕ} (hord : ∀ l, (ord l).Perm l) {n d : ℚ[X]} {M : ℤ} {c : UniCross} (h : UniOK n d M c) (nextP : ℕ)
    {pts : List (ZMod p × ZMod p)} (hpts : ProbesOK n d p pts) (hreg : Regular n d pts) (hpM : ¬ (p : ℤ) ∣ M)
    (h300 : c.primeNumber + 1 < 300)
    (hx : ∀ e, ¬ Deceptive (n.coeff e) M (M * p) ∧ ¬ Deceptive (d.coeff e) M (M * p)) :
    ∃ out, uniPrime inv gt ord nextP c pts = some out ∧
      ((∃ N D, out = .finished N D ∧ Certified n d M p (pts.headD (0, 0)) N D) ∨
       (∃ c', out = .nextPrime c' ∧ UniOK n d (M * p) c' ∧ c'.primeNumber = c.primeNumber + 1 ∧
          ∃ e, ¬ Small (n.coeff e) M ∨ ¬ Small (d.coeff e) M)) ∧
      ((∀ e, Small (n.coeff e) M) → (∀ e, Small (d.coeff e) M) →
        ∃ N D, out = .finished N D ∧ rnPoly N = n ∧ rnPoly D = d) :=
  prime_aux hinv hgt hord h nextP hpts (hreg _ _ h.unknown.1 h.unknown.2.1 h.unknown.2.2.1 h.unknown.2.2.2) hpM h300 hx

/-! ## the first prime field -/

lemma loop_first (inv : ℤ → ℤ → ℤ) (gt : ZMod p → ZMod p → Bool) (ord : List ℕ → List ℕ) : ∀ (pts : List (ZMod p × ZMod p)) (s : UniState p),
    s.cross.known = false → s.newPrime = false → ∀ t, s.thiele.run (pts.map Prod.swap) = (t, true) →
    uniLoop inv gt ord s pts = endPrime ord s.cross (firstResult s.cross t.getResult)
  | [], s, _, _, t, h => by simp [Thiele.run] at h
  | pt :: pts, s, hk, hn, t, h => by
    unfold uniLoop uniProbe
    simp only [hn, hk, Bool.false_eq_true, if_false, Option.bind_eq_bind, Option.bind_some]
    rw [List.map_cons] at h
    unfold Thiele.run at h
    simp only [Prod.fst_swap, Prod.snd_swap] at h
    by_cases hb : (s.thiele.addPoint pt.2 pt.1).2 = true
    · rw [if_pos hb] at h ⊢
      have : (s.thiele.addPoint pt.2 pt.1).1 = t := by rw [h]
      rw [this]
      unfold endPrime
      split_ifs <;> rfl
    · rw [if_neg hb] at h ⊢
      simp only [Option.bind_some]
      exact loop_first inv gt ord pts { s with thiele := (s.thiele.addPoint pt.2 pt.1).1, newPrime := false } hk rfl t h

lemma first_other {normalizer : List ℕ} (res : FFMap (ZMod p)) (g : RnMap) : combineFirstSide false normalizer res g = (g, convertToMpz res) := by
  unfold combineFirstSide
  have : ∀ (l : MpzMap) (st : RnMap × MpzMap), l.foldl (fun st t =>
    if (false && t.1 == normalizer) = true then (st.1.set t.1 ⟨1, 1⟩, st.2.erase t.1) else st) st = st := by
    intro l
    induction l with
    | nil => intro st; rfl
    | cons t l ih => intro st; rw [List.foldl_cons]; simpa using ih st
  exact this _ _

lemma first_norm {normalizer : List ℕ} (res : FFMap (ZMod p)) (g : RnMap) (hnd : (res.map Prod.fst).Nodup) (hm : normalizer ∈ res.map Prod.fst) :
    combineFirstSide true normalizer res g = (g.set normalizer ⟨1, 1⟩, (convertToMpz res).erase normalizer) := by
  unfold combineFirstSide
  have skip : ∀ (l : MpzMap) (st : RnMap × MpzMap), normalizer ∉ l.map Prod.fst → l.foldl (fun st t =>
    if (true && t.1 == normalizer) = true then (st.1.set t.1 ⟨1, 1⟩, st.2.erase t.1) else st) st = st := by
    intro l
    induction l with
    | nil => intro st _; rfl
    | cons t l ih =>
      intro st h
      rw [List.map_cons, List.mem_cons, not_or] at h
      rw [List.foldl_cons, if_neg (by simpa using fun e => h.1 e.symm)]
      exact ih st h.2
  have main : ∀ (l : MpzMap) (st : RnMap × MpzMap), (l.map Prod.fst).Nodup → normalizer ∈ l.map Prod.fst → l.foldl (fun st t =>
    if (true && t.1 == normalizer) = true then (st.1.set t.1 ⟨1, 1⟩, st.2.erase t.1) else st) st = (st.1.set normalizer ⟨1, 1⟩, st.2.erase normalizer) := by
    intro l
    induction l with
    | nil => intro st _ h; simp at h
    | cons t l ih =>
      intro st hnd h
      rw [List.map_cons, List.nodup_cons] at hnd
      rw [List.foldl_cons]
      by_cases ht : t.1 = normalizer
      · rw [if_pos (by simpa using ht), skip l _ (ht ▸ hnd.1), ht]
      · rw [if_neg (by simpa using ht)]
        rw [List.map_cons, List.mem_cons] at h
        exact ih st hnd.2 (h.resolve_left (fun e => ht e.symm))
  have keys : (convertToMpz res).map Prod.fst = res.map Prod.fst := by unfold convertToMpz; rw [List.map_map]; rfl
  exact main _ _ (by rw [keys]; exact hnd) (by rw [keys]; exact hm)

/-- the keys of a map without stored zeros -/
lemma keys_nz {m : FFMap (ZMod p)} {f : ℚ[X]} {u : ZMod p} (hu : u ≠ 0) (hwf : WFMap 1 m) (hnz : ∀ t ∈ m, t.2 ≠ 0)
    (hval : ∀ e, (m.find? [e]).getD 0 = u * (redPoly p f).coeff e) (hf : ∀ e ∈ f.support, ((f.coeff e : ℚ) : ZMod p) ≠ 0) :
    (m.map Prod.fst).Perm (monos f) := by
  rw [List.perm_ext_iff_of_nodup hwf.1 (monos_nodup f)]
  intro k
  rw [mem_monos]
  constructor
  · intro hk
    obtain ⟨t, ht, rfl⟩ := List.mem_map.mp hk
    obtain ⟨e, he⟩ := List.length_eq_one_iff.mp (hwf.2 t ht)
    refine ⟨e, ?_, he⟩
    have h1 := hval e
    rw [← he, find?_of_mem hwf.1 ht] at h1
    rw [mem_support_iff]
    intro h0
    rw [redPoly_coeff, h0] at h1
    simp at h1
    exact hnz t ht h1
  · rintro ⟨e, he, rfl⟩
    by_contra hc
    have h1 := hval e
    rw [find?_eq_none.mpr hc, redPoly_coeff] at h1
    exact mul_ne_zero hu (hf e he) h1.symm

lemma side_first {m : FFMap (ZMod p)} {f : ℚ[X]} {u : ZMod p} (hu : u ≠ 0) (hwf : WFMap 1 m)
    (hval : ∀ e, (m.find? [e]).getD 0 = u * (redPoly p f).coeff e) (hden : ∀ e, ¬ (p : ℤ) ∣ (f.coeff e).den) :
    ∀ t ∈ convertToMpz (PolyFF.scale m (1 / u)), Reduces (coefOf f t.1) t.2 p := by
  intro t ht
  unfold convertToMpz PolyFF.scale at ht
  rw [List.map_map] at ht
  obtain ⟨s, hs, rfl⟩ := List.mem_map.mp ht
  simp only [Function.comp]
  obtain ⟨e, he⟩ := List.length_eq_one_iff.mp (hwf.2 s hs)
  have h1 := hval e
  rw [← he, find?_of_mem hwf.1 hs, redPoly_coeff] at h1
  have h2 : s.2 * (1 / u) = ((coefOf f s.1 : ℚ) : ZMod p) := by
    have h1 : s.2 = u * ((f.coeff e : ℚ) : ZMod p) := h1
    rw [h1, coefOf, he]
    simp only [List.getD_cons_zero]
    field_simp
  rw [h2]
  exact reduces_cast p _ (hden _)

/-- **C36 (the first prime field).** Let `n/d` be in lowest terms modulo `p`, normalized to the lowest power of the denominator, with no
coefficient divisible by `p`, and let the interpolation not stop too early nor divide by zero. Then the first prime field yields
the monomials of `n/d` and all coefficients modulo `p`. -/
theorem C36_first {inv : ℤ → ℤ → ℤ} {gt : ZMod p → ZMod p → Bool} {ord : List ℕ → List ℕ} (hord : ∀ l, (ord l).Perm l)
    {n d : ℚ[X]} {c : UniCross} (hc : c.coefs.gNi = [] ∧ c.coefs.gDi = [] ∧ c.known = false ∧ c.checkInterpolation = false)
    (hzc : c.zeroCounter ≤ c.primeNumber) (h300 : c.primeNumber + 1 < 300) (nextP : ℕ) {pts : List (ZMod p × ZMod p)} (hpts : ProbesOK n d p pts) (hlen : pts.length < 2 ^ 32)
    (hcop : IsCoprime (redPoly p n) (redPoly p d)) (hnorm : d.trailingCoeff = 1)
    (hnN : ∀ e ∈ n.support, ((n.coeff e : ℚ) : ZMod p) ≠ 0) (hnD : ∀ e ∈ d.support, ((d.coeff e : ℚ) : ZMod p) ≠ 0)
    (hdist : (pts.map Prod.fst).Nodup) (ht0 : ∀ pt ∈ pts, pt.1 ≠ 0)
    {s : Thiele (ZMod p)} (hrun : ({} : Thiele (ZMod p)).runChecked (pts.map Prod.swap) = some (s, true))
    (hm1 : 2 * d.natDegree ≤ s.ti.length) (hm2 : 2 * n.natDegree ≤ s.ti.length + 1) :
    ∃ c', uniPrime inv gt ord nextP c pts = some (.nextPrime c') ∧ UniOK n d p c' ∧ c'.primeNumber = c.primeNumber + 1 := by
  have hdeg : ∀ f : ℚ[X], (redPoly p f).natDegree ≤ f.natDegree := by
    intro f
    rw [natDegree_le_iff_coeff_eq_zero]
    intro e he
    rw [redPoly_coeff, coeff_eq_zero_of_natDegree_lt he]; simp
  obtain ⟨w1, w2, ⟨u, hu, v1, v2⟩, hz⟩ := C19_lowest_terms (pts := pts.map Prod.swap) (by simpa using hlen) hcop (by
      intro pt hpt
      obtain ⟨q, hq, rfl⟩ := List.mem_map.mp hpt
      exact hpts.data q hq) (by rw [List.map_map]; exact hdist) hrun
      (by have := hdeg d; omega) (by have := hdeg n; omega)
  obtain ⟨z1, z2⟩ := hz (by
      intro pt hpt
      obtain ⟨q, hq, rfl⟩ := List.mem_map.mp hpt
      exact ht0 q hq) (by
      have := hpts.first
      rcases pts with _ | ⟨pt, rest⟩
      · exact absurd rfl this
      · simpa using this)
  have hd0 : d ≠ 0 := by rintro rfl; simp at hnorm
  have pN := keys_nz hu w1 z1 v1 hnN
  have pD := keys_nz hu w2 z2 v2 hnD
  have htd : d.natTrailingDegree ∈ d.support := natTrailingDegree_mem_support_of_nonzero hd0
  have hR2 : s.getResult.2 ≠ [] := by
    intro h0
    rw [h0] at pD
    have := pD.symm.subset (mem_monos.mpr ⟨_, htd, rfl⟩)
    simp at this
  -- the normalizer
  have hdegs := C34_degs (by norm_num) w2 hR2
  obtain ⟨-, g1, g2, -⟩ := hdegs
  have hmin : (PolyObj.mk' 1 s.getResult.2).minDeg.2 = (PolyFF.degs s.getResult.2).2 := by
    unfold PolyObj.minDeg PolyObj.maxDeg PolyObj.mk'
    simp [hR2]
  rw [hmin] at g1 g2
  have hnrm : (PolyFF.degs s.getResult.2).2 = [d.natTrailingDegree] := by
    obtain ⟨e, he, hk⟩ := mem_monos.mp (pD.subset g1)
    rw [hk] at g2 ⊢
    have h1 : d.natTrailingDegree ≤ e := natTrailingDegree_le_of_mem_supp e he
    have h2 : [d.natTrailingDegree] ∈ s.getResult.2.map Prod.fst := pD.symm.subset (mem_monos.mpr ⟨_, htd, rfl⟩)
    obtain ⟨t, ht, hte⟩ := List.mem_map.mp h2
    have h3 := (g2 t ht).2
    rw [hte] at h3
    simp at h3
    rw [le_antisymm h3 h1]
  have heq : 1 / ((s.getResult.2.find? (PolyFF.degs s.getResult.2).2).getD 0) = 1 / u := by
    have : d.coeff d.natTrailingDegree = 1 := hnorm
    rw [hnrm, v2, redPoly_coeff, this]
    simp
  have hfr : firstResult c s.getResult = { gNi := [], combNi := convertToMpz (PolyFF.scale s.getResult.1 (1 / u)), gDi := [([d.natTrailingDegree], ⟨1, 1⟩)], combDi := (convertToMpz (PolyFF.scale s.getResult.2 (1 / u))).erase [d.natTrailingDegree], combPrime := p } := by
    unfold firstResult RatCoefs.combineFirst
    simp only
    rw [heq, hnrm, hc.1, hc.2.1]
    have kk : (PolyFF.scale s.getResult.2 (1 / u)).map Prod.fst = s.getResult.2.map Prod.fst := by unfold PolyFF.scale; rw [List.map_map]; rfl
    rw [show (!true) = false from rfl, first_other, first_norm _ _ (by rw [kk]; exact w2.1) (by
      rw [kk]; exact pD.symm.subset (mem_monos.mpr ⟨_, htd, rfl⟩))]
    rfl
  have keysc : ∀ m : FFMap (ZMod p), (convertToMpz (PolyFF.scale m (1 / u))).map Prod.fst = m.map Prod.fst := by
    intro m; unfold convertToMpz PolyFF.scale; rw [List.map_map, List.map_map]; rfl
  have r1 := side_first hu w1 v1 hpts.denN
  have r2 := side_first hu w2 v2 hpts.denD
  have hloop := loop_first inv gt ord pts ({ cross := c, newPrime := false } : UniState p) hc.2.2.1 rfl s (run_checked _ _ _ hrun)
  refine ⟨endCross ord c (firstResult c s.getResult), ?_, ?_, rfl⟩
  · unfold uniPrime
    rcases pts with _ | ⟨pt, rest⟩
    · exact absurd rfl hpts.first
    · have hfirst : pt.2 ≠ 0 := hpts.first
      simp only [if_neg hfirst]
      rw [hc.2.2.2, hloop]
      unfold endPrime
      rw [if_neg (by simp only; omega)]
  · have hmem2 : [d.natTrailingDegree] ∈ (convertToMpz (PolyFF.scale s.getResult.2 (1 / u))).map Prod.fst := by
      rw [keysc]; exact pD.symm.subset (mem_monos.mpr ⟨_, htd, rfl⟩)
    refine ⟨by simp only [endCross]; rw [hfr], by exact_mod_cast hp.out.pos, ?_, ?_, ?_, rfl, rfl, hord _, hord _, rfl, by simp only [endCross]; omega⟩
    · simp only [endCross]
      rw [hfr]
      refine ⟨?_, monos_nodup n, by simp, r1⟩
      simp only [List.map_nil, List.nil_append]
      rw [keysc]; exact pN
    · simp only [endCross]
      rw [hfr]
      refine ⟨?_, monos_nodup d, ?_, fun t ht => r2 t (mem_erase ht)⟩
      · simp only [List.map_cons, List.map_nil, List.singleton_append]
        refine (keys_erase _ _ (by rw [keysc]; exact w2.1) hmem2).symm.trans ?_
        rw [keysc]; exact pD
      · intro t ht
        rw [List.mem_singleton] at ht
        subst ht
        refine ⟨⟨by norm_num, by simp⟩, ?_⟩
        have : d.coeff d.natTrailingDegree = 1 := hnorm
        simp [RationalNumber.val, coefOf, this]
    · simp only [endCross]
      rw [hfr]
      simp only
      rw [find?_erase, if_pos rfl]

end

/-- **C36 (skipped prime field).** If the first probe of a prime field is zero the field is skipped; nothing is lost. -/
theorem C36_skip {p : ℕ} [Fact p.Prime] (inv : ℤ → ℤ → ℤ) (gt : ZMod p → ZMod p → Bool) (ord : List ℕ → List ℕ) {n d : ℚ[X]} {M : ℤ} {c : UniCross}
    (h : UniOK n d M c) (nextP : ℕ) (pt : ZMod p × ZMod p) (rest : List (ZMod p × ZMod p)) (hz : pt.2 = 0) (h300 : c.primeNumber + 1 < 300) :
    ∃ c', uniPrime inv gt ord nextP c (pt :: rest) = some (.nextPrime c') ∧ UniOK n d M c' ∧ c'.primeNumber = c.primeNumber + 1 := by
  have hzs := h.zeros
  refine ⟨{ c with zeroCounter := c.zeroCounter + 1, primeNumber := c.primeNumber + 1 }, ?_, ?_, rfl⟩
  · unfold uniPrime feedZero
    simp only [if_pos hz]
    rw [if_neg (by omega), if_neg (by omega), if_neg (by omega)]
  · exact ⟨h.prime, h.pos, h.num, h.den, h.norm, h.known, h.check, h.unNum, h.unDen, h.eqn, by simp only; omega⟩

/-- **C36 (zero).** A function whose first probe is zero in the first three prime fields is reported as zero. -/
theorem C36_zero (inv : ℤ → ℤ → ℤ) (gt : (p : ℕ) → ZMod p → ZMod p → Bool) (ord : List ℕ → List ℕ) (r0 r1 r2 : PrimeRun) (rs : List PrimeRun)
    (hz : ∀ r ∈ [r0, r1, r2], ∃ pt rest, r.pts = pt :: rest ∧ pt.2 = 0) :
    uniRun inv gt ord (UniCross.initial r0.p) (r0 :: r1 :: r2 :: rs) = some (.finished [([0], ⟨0, 1⟩)] [([0], ⟨1, 1⟩)]) ∧
    rnPoly [([0], ⟨0, 1⟩)] = 0 ∧ rnPoly [([0], ⟨1, 1⟩)] = 1 := by
  obtain ⟨p0, t0, e0, z0⟩ := hz r0 (by simp)
  obtain ⟨p1, t1, e1, z1⟩ := hz r1 (by simp)
  obtain ⟨p2, t2, e2, z2⟩ := hz r2 (by simp)
  refine ⟨?_, by simp [rnPoly, RationalNumber.val], by simp [rnPoly, RationalNumber.val]⟩
  unfold uniRun
  rw [e0]
  simp only [uniPrime, if_pos z0, feedZero, UniCross.initial]
  norm_num
  unfold uniRun
  rw [e1]
  simp only [uniPrime, if_pos z1, feedZero]
  norm_num
  unfold uniRun
  rw [e2]
  simp only [uniPrime, if_pos z2, feedZero]
  norm_num
  constructor <;> rfl

/-! ## all prime fields -/

/-- the first probe is zero -/
def PrimeRun.Skipped (r : PrimeRun) : Prop := ∃ pt rest, r.pts = pt :: rest ∧ pt.2 = 0

open Classical in
/-- the product of the primes whose fields are not skipped -/
noncomputable def primeProd (rs : List PrimeRun) : ℤ := (rs.map (fun r => if r.Skipped then 1 else (r.p : ℤ))).prod

/-- Specification: all further prime fields of a run are skipped or satisfy the assumptions of `C36_prime`, `M` being the product of the
primes before. -/
def RunsOK (n d : ℚ[X]) : ℤ → List PrimeRun → Prop
  | _, [] => True
  | M, r :: rs => (r.Skipped ∧ RunsOK n d M rs) ∨ (¬ r.Skipped ∧ (haveI := r.fact; ProbesOK n d r.p r.pts ∧ Regular n d r.pts) ∧ ¬ (r.p : ℤ) ∣ M ∧
      (∀ e, ¬ Deceptive (n.coeff e) M (M * r.p) ∧ ¬ Deceptive (d.coeff e) M (M * r.p)) ∧ RunsOK n d (M * r.p) rs)

/-- Specification: a result reported before the coefficients are small for the product of the primes; it agrees with the function modulo
this product and at the probe that is used for the test. -/
def Premature (n d : ℚ[X]) (M : ℤ) (rs : List PrimeRun) (N D : RnMap) : Prop :=
  ∃ (rs1 : List PrimeRun) (r : PrimeRun) (rs2 : List PrimeRun), rs = rs1 ++ r :: rs2 ∧ ¬ r.Skipped ∧ (haveI := r.fact; Certified n d (M * primeProd rs1) r.p (r.pts.headD (0, 0)) N D) ∧
    ∃ e, ¬ Small (n.coeff e) (M * primeProd rs1) ∨ ¬ Small (d.coeff e) (M * primeProd rs1)

lemma run_spec {inv : ℤ → ℤ → ℤ} (hinv : InvertSpec inv) {gt : (p : ℕ) → ZMod p → ZMod p → Bool}
    (hgt : ∀ p [Fact p.Prime], PivotOrder (gt p)) {ord : List ℕ → List ℕ} (hord : ∀ l, (ord l).Perm l) {n d : ℚ[X]} :
    ∀ (rs : List PrimeRun) (M : ℤ) (c : UniCross), UniOK n d M c → RunsOK n d M rs → c.primeNumber + rs.length < 300 →
    ∃ out, uniRun inv gt ord c rs = some out ∧
      ((∃ c', out = .waiting c' ∧ UniOK n d (M * primeProd rs) c' ∧
          ∀ rs1 r rs2, rs = rs1 ++ r :: rs2 → ¬ r.Skipped → ∃ e, ¬ Small (n.coeff e) (M * primeProd rs1) ∨ ¬ Small (d.coeff e) (M * primeProd rs1)) ∨
       ∃ N D, out = .finished N D ∧ ((rnPoly N = n ∧ rnPoly D = d) ∨ Premature n d M rs N D))
  | [], M, c, h, _, _ => ⟨_, rfl, Or.inl ⟨c, rfl, by simpa [primeProd] using h, by simp⟩⟩
  | r :: rs, M, c, h, hr, h300 => by
    haveI := r.fact
    rw [List.length_cons] at h300
    -- the rest of the run
    have cont : ∀ (c' : UniCross) (M' : ℤ), UniOK n d M' c' → c'.primeNumber = c.primeNumber + 1 → RunsOK n d M' rs →
        uniPrime inv (gt r.p) ord r.nextP c r.pts = some (.nextPrime c') →
        (∀ l, M' * primeProd l = M * primeProd (r :: l)) →
        (¬ r.Skipped → ∃ e, ¬ Small (n.coeff e) M ∨ ¬ Small (d.coeff e) M) →
        ∃ out, uniRun inv gt ord c (r :: rs) = some out ∧
          ((∃ c', out = .waiting c' ∧ UniOK n d (M * primeProd (r :: rs)) c' ∧
            ∀ rs1 q rs2, r :: rs = rs1 ++ q :: rs2 → ¬ q.Skipped → ∃ e, ¬ Small (n.coeff e) (M * primeProd rs1) ∨ ¬ Small (d.coeff e) (M * primeProd rs1)) ∨
          ∃ N D, out = .finished N D ∧ ((rnPoly N = n ∧ rnPoly D = d) ∨ Premature n d M (r :: rs) N D)) := by
      intro c' M' hc' hnum hrest e hprod hbig
      unfold uniRun
      rw [e]
      simp only [Option.bind_eq_bind, Option.bind_some]
      obtain ⟨out, e', ho⟩ := run_spec hinv hgt hord rs M' c' hc' hrest (by omega)
      refine ⟨out, e', ?_⟩
      rcases ho with ⟨c'', rfl, hc'', hsm⟩ | ⟨N, D, rfl, ho⟩
      · refine Or.inl ⟨c'', rfl, by rw [← hprod]; exact hc'', ?_⟩
        intro rs1 q rs2 hq hsk
        rcases rs1 with _ | ⟨q', rs1⟩
        · rw [List.nil_append] at hq
          obtain ⟨rfl, -⟩ := List.cons.inj hq
          simpa [primeProd] using hbig hsk
        · rw [List.cons_append] at hq
          obtain ⟨h1, h2⟩ := List.cons.inj hq
          subst h1
          have := hsm rs1 q rs2 h2 hsk
          rwa [hprod] at this
      · refine Or.inr ⟨N, D, rfl, ho.imp id ?_⟩
        rintro ⟨rs1, q, rs2, hq, hsk, h1, h2⟩
        refine ⟨r :: rs1, q, rs2, by rw [hq]; rfl, hsk, ?_, ?_⟩
        · rw [← hprod]; exact h1
        · rw [← hprod]; exact h2
    rcases hr with ⟨hsk, hrest⟩ | ⟨hnsk, ⟨hp1, hp2⟩, hpM, hx, hrest⟩
    · obtain ⟨pt, rest, hpts, hz⟩ := id hsk
      obtain ⟨c', e, hc', hnum⟩ := C36_skip inv (gt r.p) ord h r.nextP pt rest hz (by omega)
      rw [← hpts] at e
      exact cont c' M hc' hnum hrest e (fun l => by simp [primeProd, hsk]) (fun hn => absurd hsk hn)
    · have hprod : ∀ l : List PrimeRun, M * r.p * primeProd l = M * primeProd (r :: l) := by
        intro l; simp [primeProd, mul_assoc, hnsk]
      obtain ⟨out, e, hout, hex⟩ := C36_prime hinv (hgt r.p) hord h r.nextP hp1 hp2 hpM (by omega) hx
      rcases hout with ⟨N, D, rfl, hcert⟩ | ⟨c', rfl, hc', hnum, hbig⟩
      · unfold uniRun
        rw [e]
        simp only [Option.bind_eq_bind, Option.bind_some]
        refine ⟨_, rfl, Or.inr ⟨N, D, rfl, ?_⟩⟩
        by_cases hs : (∀ e, Small (n.coeff e) M) ∧ (∀ e, Small (d.coeff e) M)
        · obtain ⟨N', D', he, x1, x2⟩ := hex hs.1 hs.2
          cases he
          exact Or.inl ⟨x1, x2⟩
        · right
          refine ⟨[], r, rs, rfl, hnsk, by simpa [primeProd] using hcert, ?_⟩
          by_contra hcon
          push Not at hcon
          simp only [primeProd, List.map_nil, List.prod_nil, mul_one] at hcon
          exact hs ⟨fun e => (hcon e).1, fun e => (hcon e).2⟩
      · exact cont c' (M * r.p) hc' hnum hrest e hprod (fun _ => hbig)

/-- Specification: the first prime field satisfies the assumptions of `C36_first`. -/
def FirstOK (n d : ℚ[X]) (r : PrimeRun) : Prop :=
  haveI := r.fact
  ProbesOK n d r.p r.pts ∧ r.pts.length < 2 ^ 32 ∧ IsCoprime (redPoly r.p n) (redPoly r.p d) ∧ d.trailingCoeff = 1 ∧
  (∀ e ∈ n.support, ((n.coeff e : ℚ) : ZMod r.p) ≠ 0) ∧ (∀ e ∈ d.support, ((d.coeff e : ℚ) : ZMod r.p) ≠ 0) ∧
  (r.pts.map Prod.fst).Nodup ∧ (∀ pt ∈ r.pts, pt.1 ≠ 0) ∧
  ∃ s, ({} : Thiele (ZMod r.p)).runChecked (r.pts.map Prod.swap) = some (s, true) ∧
    2 * d.natDegree ≤ s.ti.length ∧ 2 * n.natDegree ≤ s.ti.length + 1

/-- **C36.** A new object for a function of one variable is fed with values of `n/d` over several prime fields. Under the assumptions on
the single prime fields, the object reports a result in some prime field or requests a further one. It does report a result at the latest
at the first probe of a field for which the coefficients are small compared with the product of the previous primes. A
reported result is `n/d`, or it was reported before and agrees with `n/d` modulo the product and at the probe of the test. -/
theorem C36_run {inv : ℤ → ℤ → ℤ} (hinv : InvertSpec inv) {gt : (p : ℕ) → ZMod p → ZMod p → Bool}
    (hgt : ∀ p [Fact p.Prime], PivotOrder (gt p)) {ord : List ℕ → List ℕ} (hord : ∀ l, (ord l).Perm l) {n d : ℚ[X]} (r : PrimeRun) (rs : List PrimeRun)
    (h1 : FirstOK n d r) (h2 : RunsOK n d r.p rs) (h300 : rs.length + 1 < 300) :
    ∃ out, uniRun inv gt ord (UniCross.initial r.p) (r :: rs) = some out ∧
      ((∃ c', out = .waiting c' ∧ UniOK n d (r.p * primeProd rs) c' ∧
          ∀ rs1 q rs2, rs = rs1 ++ q :: rs2 → ¬ q.Skipped → ∃ e, ¬ Small (n.coeff e) (r.p * primeProd rs1) ∨ ¬ Small (d.coeff e) (r.p * primeProd rs1)) ∨
       ∃ N D, out = .finished N D ∧ ((rnPoly N = n ∧ rnPoly D = d) ∨ Premature n d r.p rs N D)) := by
  haveI := r.fact
  obtain ⟨a1, a2, a3, a4, a5, a6, a7, a8, s, a9, a10, a11⟩ := h1
  obtain ⟨c', e, hc', hnum⟩ := C36_first (inv := inv) (gt := gt r.p) hord (c := UniCross.initial r.p) ⟨rfl, rfl, rfl, rfl⟩
    (by show 0 ≤ 0; exact le_rfl) (by show 0 + 1 < 300; norm_num) r.nextP a1 a2 a3 a4 a5 a6 a7 a8 a9 a10 a11
  obtain ⟨out, e', ho⟩ := run_spec hinv hgt hord rs r.p c' hc' h2 (by rw [hnum]; show 0 + 1 + rs.length < 300; omega)
  refine ⟨out, ?_, ho⟩
  unfold uniRun
  rw [e]
  simp only [Option.bind_eq_bind, Option.bind_some]
  exact e'

/-- **C36 (small coefficients).** If the numerators and denominators of all coefficients are below half of the first three primes, then the
result is reported at the first probe of the third prime field, where it is `n/d`, or already at the first probe of the second one. -/
theorem C36_three_primes {inv : ℤ → ℤ → ℤ} (hinv : InvertSpec inv) {gt : (p : ℕ) → ZMod p → ZMod p → Bool}
    (hgt : ∀ p [Fact p.Prime], PivotOrder (gt p)) {ord : List ℕ → List ℕ} (hord : ∀ l, (ord l).Perm l) {n d : ℚ[X]} (r0 r1 r2 : PrimeRun)
    (h0 : FirstOK n d r0)
    (h1 : (haveI := r1.fact; ProbesOK n d r1.p r1.pts ∧ Regular n d r1.pts)) (h2 : (haveI := r2.fact; ProbesOK n d r2.p r2.pts ∧ Regular n d r2.pts))
    (hdist : r0.p ≠ r1.p ∧ r0.p ≠ r2.p ∧ r1.p ≠ r2.p)
    (hsmall : ∀ q ∈ [r0.p, r1.p, r2.p], ∀ e, (2 * |(n.coeff e).num| < q ∧ 2 * ((n.coeff e).den : ℤ) < q) ∧
      (2 * |(d.coeff e).num| < q ∧ 2 * ((d.coeff e).den : ℤ) < q)) :
    ∃ N D, uniRun inv gt ord (UniCross.initial r0.p) [r0, r1, r2] = some (.finished N D) ∧
      ((rnPoly N = n ∧ rnPoly D = d) ∨ (haveI := r1.fact; Certified n d r0.p r1.p (r1.pts.headD (0, 0)) N D)) := by
  have pr0 := r0.fact.out
  have pr1 := r1.fact.out
  have pr2 := r2.fact.out
  have c0 : (1 : ℤ) ≤ r0.p := by exact_mod_cast pr0.pos
  have c1 : (1 : ℤ) ≤ r1.p := by exact_mod_cast pr1.pos
  have nd : ∀ p q : ℕ, p.Prime → q.Prime → q ≠ p → ¬ (p : ℤ) ∣ q := by
    intro p q hp hq hne h
    exact hne ((Nat.prime_dvd_prime_iff_eq hp hq).mp (by exact_mod_cast h)).symm
  have ns : ∀ r : PrimeRun, (haveI := r.fact; ProbesOK n d r.p r.pts) → ¬ r.Skipped := by
    intro r h
    haveI := r.fact
    rintro ⟨pt, rest, e, hz⟩
    have := h.first
    rw [e] at this
    exact this hz
  have ns1 := ns r1 h1.1
  have ns2 := ns r2 h2.1
  obtain ⟨out, e, ho⟩ := C36_run hinv hgt hord r0 [r1, r2] h0 (by
    refine Or.inr ⟨ns1, h1, nd _ _ pr1 pr0 hdist.1, ?_, Or.inr ⟨ns2, h2, ?_, ?_, trivial⟩⟩
    · intro e
      have := hsmall r1.p (by simp) e
      exact ⟨C36_not_deceptive _ _ _ c0 this.1.1 this.1.2, C36_not_deceptive _ _ _ c0 this.2.1 this.2.2⟩
    · intro hd
      rcases (Nat.prime_iff_prime_int.mp pr2).dvd_or_dvd hd with h | h
      · exact nd _ _ pr2 pr0 hdist.2.1 h
      · exact nd _ _ pr2 pr1 hdist.2.2 h
    · intro e
      have := hsmall r2.p (by simp) e
      exact ⟨C36_not_deceptive _ _ _ (by nlinarith) this.1.1 this.1.2, C36_not_deceptive _ _ _ (by nlinarith) this.2.1 this.2.2⟩) (by norm_num)
  have small2 : ∀ e, Small (n.coeff e) (r0.p * r1.p) ∧ Small (d.coeff e) (r0.p * r1.p) := by
    have key : ∀ x a b : ℤ, 2 * |x| < a → 2 * |x| < b → 2 * x ^ 2 < a * b := by
      intro x a b h1 h2
      have : x ^ 2 = |x| ^ 2 := (sq_abs x).symm
      rw [this]
      nlinarith [abs_nonneg x]
    intro e
    have a := hsmall r0.p (by simp) e
    have b := hsmall r1.p (by simp) e
    refine ⟨⟨key _ _ _ a.1.1 b.1.1, key _ _ _ ?_ ?_⟩, ⟨key _ _ _ a.2.1 b.2.1, key _ _ _ ?_ ?_⟩⟩ <;> rw [abs_of_nonneg (by positivity)]
    · exact a.1.2
    · exact b.1.2
    · exact a.2.2
    · exact b.2.2
  have hp1 : (r0.p : ℤ) * primeProd [r1] = r0.p * r1.p := by simp [primeProd, ns1]
  rcases ho with ⟨c', -, -, hsm⟩ | ⟨N, D, rfl, ho⟩
  · obtain ⟨e, he⟩ := hsm [r1] r2 [] rfl ns2
    rw [hp1] at he
    rcases he with he | he
    · exact absurd (small2 e).1 he
    · exact absurd (small2 e).2 he
  · refine ⟨N, D, e, ho.imp id ?_⟩
    rintro ⟨rs1, q, rs2, hq, -, hcert, e, he⟩
    rcases rs1 with _ | ⟨q1, rs1⟩
    · rw [List.nil_append] at hq
      obtain ⟨rfl, -⟩ := List.cons.inj hq
      simpa [primeProd] using hcert
    · rcases rs1 with _ | ⟨q2, rs1⟩
      · simp only [List.cons_append, List.nil_append, List.cons.injEq] at hq
        obtain ⟨rfl, rfl, -⟩ := hq
        rw [hp1] at he
        rcases he with he | he
        · exact absurd (small2 e).1 he
        · exact absurd (small2 e).2 he
      · have := congrArg List.length hq
        simp at this

end FireFly
