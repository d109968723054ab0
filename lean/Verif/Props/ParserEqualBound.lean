import Verif.Props.ParserObjProps
import Mathlib.Algebra.MvPolynomial.SchwartzZippel
/-!
# C64: how many check points take two different functions for equal
-/
set_option linter.all false
namespace FireFly
open MvPolynomial

/-! ### specification -/

/-- A function as a quotient of polynomials, together with the product of all divisors that occur in it (the function is defined where it
does not vanish). -/
noncomputable def Expr.frac {K : Type} [Field K] (vars : List Str) : Expr → MvPolynomial (Fin vars.length) K × MvPolynomial (Fin vars.length) K × MvPolynomial (Fin vars.length) K
  | .num ds => (C (decimal ds : K), 1, 1)
  | .var name => (if h : vars.idxOf name < vars.length then X ⟨vars.idxOf name, h⟩ else 0, 1, 1)
  | .paren e => e.frac vars
  | .pow a (.plain ds) => ((a.frac vars).1 ^ decimal ds, (a.frac vars).2.1 ^ decimal ds, (a.frac vars).2.2)
  | .pow a (.paren ds) => ((a.frac vars).1 ^ decimal ds, (a.frac vars).2.1 ^ decimal ds, (a.frac vars).2.2)
  | .pow a (.neg ds) => ((a.frac vars).2.1 ^ decimal ds, (a.frac vars).1 ^ decimal ds, (a.frac vars).2.2 * (a.frac vars).1)
  | .mul a b => ((a.frac vars).1 * (b.frac vars).1, (a.frac vars).2.1 * (b.frac vars).2.1, (a.frac vars).2.2 * (b.frac vars).2.2)
  | .div a b => ((a.frac vars).1 * (b.frac vars).2.1, (a.frac vars).2.1 * (b.frac vars).1, (a.frac vars).2.2 * (b.frac vars).2.2 * (b.frac vars).1)
  | .add a b => ((a.frac vars).1 * (b.frac vars).2.1 + (b.frac vars).1 * (a.frac vars).2.1, (a.frac vars).2.1 * (b.frac vars).2.1, (a.frac vars).2.2 * (b.frac vars).2.2)
  | .sub _ a b => ((a.frac vars).1 * (b.frac vars).2.1 - (b.frac vars).1 * (a.frac vars).2.1, (a.frac vars).2.1 * (b.frac vars).2.1, (a.frac vars).2.2 * (b.frac vars).2.2)
  | .neg _ a => (-(a.frac vars).1, (a.frac vars).2.1, (a.frac vars).2.2)
  | .pos a => a.frac vars

/-- The polynomial that vanishes where the functions are equal or one of them is not defined. It is not zero if the functions differ and
no divisor in them is zero. -/
noncomputable def Expr.witness (K : Type) [Field K] (vars : List Str) (e e' : Expr) : MvPolynomial (Fin vars.length) K :=
  ((e.frac vars).1 * (e'.frac vars).2.1 - (e'.frac vars).1 * (e.frac vars).2.1) * ((e.frac vars).2.2 * (e'.frac vars).2.2)

/-- the check points: nonzero elements of the field -/
def checkPoints (p n : ℕ) [Fact p.Prime] : Finset (Fin n → ZMod p) := Fintype.piFinset fun _ => Finset.univ.erase 0

/-- the words of a check point -/
def pointWords {p n : ℕ} (r : Fin n → ZMod p) : List ℕ := List.ofFn fun i => (r i).val

/-! ### proofs -/

lemma frac_eval {K : Type} [Field K] {vars : List Str} {A B : ℕ} (r : Fin vars.length → K) {env : Str → K}
    (henv : ∀ name (h : vars.idxOf name < vars.length), env name = r ⟨vars.idxOf name, h⟩) :
    ∀ e : Expr, e.WF vars A B → eval r (e.frac (K := K) vars).2.2 ≠ 0 →
      eval r (e.frac (K := K) vars).2.1 ≠ 0 ∧ e.denote env = eval r (e.frac (K := K) vars).1 / eval r (e.frac (K := K) vars).2.1
  | .num ds, _, _ => by simp [Expr.frac, Expr.denote]
  | .var name, h, _ => by
    have h' : vars.idxOf name < vars.length := List.idxOf_lt_length_of_mem h
    simp [Expr.frac, Expr.denote, h', henv name h']
  | .paren e, h, hg => by
    simp only [Expr.frac] at hg ⊢
    exact frac_eval r henv e h hg
  | .pow a (.plain ds), h, hg => by
    simp only [Expr.frac, Expr.denote] at hg ⊢
    obtain ⟨h1, h2⟩ := frac_eval r henv a h.1 hg
    simp only [map_pow]
    exact ⟨pow_ne_zero _ h1, by rw [h2, div_pow]⟩
  | .pow a (.paren ds), h, hg => by
    simp only [Expr.frac, Expr.denote] at hg ⊢
    obtain ⟨h1, h2⟩ := frac_eval r henv a h.1 hg
    simp only [map_pow]
    exact ⟨pow_ne_zero _ h1, by rw [h2, div_pow]⟩
  | .pow a (.neg ds), h, hg => by
    simp only [Expr.frac, Expr.denote, map_mul, mul_ne_zero_iff] at hg ⊢
    obtain ⟨h1, h2⟩ := frac_eval r henv a h.1 hg.1
    simp only [map_pow]
    exact ⟨pow_ne_zero _ hg.2, by rw [h2, div_pow, inv_div]⟩
  | .mul a b, h, hg => by
    simp only [Expr.frac, Expr.denote, map_mul, mul_ne_zero_iff] at hg ⊢
    obtain ⟨h1, h2⟩ := frac_eval r henv a h.1 hg.1
    obtain ⟨h3, h4⟩ := frac_eval r henv b h.2.2.1 hg.2
    exact ⟨⟨h1, h3⟩, by rw [h2, h4, div_mul_div_comm]⟩
  | .div a b, h, hg => by
    simp only [Expr.frac, Expr.denote, map_mul, mul_ne_zero_iff] at hg ⊢
    obtain ⟨h1, h2⟩ := frac_eval r henv a h.1 hg.1.1
    obtain ⟨h3, h4⟩ := frac_eval r henv b h.2.2.1 hg.1.2
    exact ⟨⟨h1, hg.2⟩, by rw [h2, h4, div_div_div_eq]⟩
  | .add a b, h, hg => by
    simp only [Expr.frac, Expr.denote, map_mul, map_add, mul_ne_zero_iff] at hg ⊢
    obtain ⟨h1, h2⟩ := frac_eval r henv a h.1 hg.1
    obtain ⟨h3, h4⟩ := frac_eval r henv b h.2.1 hg.2
    refine ⟨⟨h1, h3⟩, ?_⟩
    rw [h2, h4]; field_simp
  | .sub k a b, h, hg => by
    simp only [Expr.frac, Expr.denote, map_mul, map_sub, mul_ne_zero_iff] at hg ⊢
    obtain ⟨h1, h2⟩ := frac_eval r henv a h.1 hg.1
    obtain ⟨h3, h4⟩ := frac_eval r henv b h.2.1 hg.2
    refine ⟨⟨h1, h3⟩, ?_⟩
    rw [h2, h4]; field_simp
  | .neg k a, h, hg => by
    simp only [Expr.frac, Expr.denote, map_neg] at hg ⊢
    obtain ⟨h1, h2⟩ := frac_eval r henv a h.1 hg
    exact ⟨h1, by rw [h2, neg_div]⟩
  | .pos a, h, hg => by
    simp only [Expr.frac, Expr.denote] at hg ⊢
    exact frac_eval r henv a h.1 hg

lemma witness_zero {K : Type} [Field K] {vars : List Str} {A B : ℕ} (r : Fin vars.length → K) {env : Str → K}
    (henv : ∀ name (h : vars.idxOf name < vars.length), env name = r ⟨vars.idxOf name, h⟩) {e e' : Expr} (he : e.WF vars A B) (he' : e'.WF vars A B)
    (h : e.denote env = e'.denote env) : eval r (e.witness K vars e') = 0 := by
  unfold Expr.witness
  by_cases h1 : eval r (e.frac (K := K) vars).2.2 = 0
  · simp [h1]
  by_cases h2 : eval r (e'.frac (K := K) vars).2.2 = 0
  · simp [h2]
  obtain ⟨g1, g2⟩ := frac_eval r henv e he h1
  obtain ⟨g3, g4⟩ := frac_eval r henv e' he' h2
  rw [g2, g4, div_eq_div_iff g1 g3] at h
  simp [h]

lemma pointWords_env {p : ℕ} [Fact p.Prime] {vars : List Str} (r : Fin vars.length → ZMod p) (name : Str) (h : vars.idxOf name < vars.length) :
    varEnv p vars (pointWords r) name = r ⟨vars.idxOf name, h⟩ := by
  unfold varEnv pointWords
  rw [List.getD_eq_getElem?_getD, List.getElem?_ofFn]
  simp [h]

/-- the points of one field -/
lemma equal_points {p : ℕ} [Fact p.Prime] {vars : List Str} (hn : vars ≠ []) {A B : ℕ} {e e' : Expr} (he : e.WF vars A B) (he' : e'.WF vars A B)
    (hw : e.witness (ZMod p) vars e' ≠ 0) {d : ℕ} (hd : (e.witness (ZMod p) vars e').totalDegree ≤ d) :
    ((checkPoints p vars.length).filter fun r => e.denote (varEnv p vars (pointWords r)) = e'.denote (varEnv p vars (pointWords r))).card ≤
      d * (p - 1) ^ (vars.length - 1) := by
  have hp : 1 < p := (Fact.out : p.Prime).one_lt
  have hS : (Finset.univ.erase (0 : ZMod p)).card = p - 1 := by
    rw [Finset.card_erase_of_mem (Finset.mem_univ _), Finset.card_univ, ZMod.card]
  have hsz := schwartz_zippel_totalDegree hw (Finset.univ.erase (0 : ZMod p))
  have hsub : ((checkPoints p vars.length).filter fun r => e.denote (varEnv p vars (pointWords r)) = e'.denote (varEnv p vars (pointWords r))) ⊆
      (Fintype.piFinset fun _ : Fin vars.length => Finset.univ.erase (0 : ZMod p)).filter fun f => eval f (e.witness (ZMod p) vars e') = 0 := by
    intro r hr
    rw [Finset.mem_filter] at hr ⊢
    exact ⟨hr.1, witness_zero r (fun name h => pointWords_env r name h) he he' hr.2⟩
  refine le_trans (Finset.card_le_card hsub) ?_
  rw [hS] at hsz
  obtain ⟨n, hlen⟩ : ∃ n, vars.length = n + 1 := ⟨vars.length - 1, by have := List.length_pos_iff.mpr hn; omega⟩
  have hpos : (0 : ℚ≥0) < ((p - 1 : ℕ) : ℚ≥0) := by
    have : 0 < p - 1 := by omega
    exact_mod_cast this
  rw [div_le_div_iff₀ (by positivity) hpos] at hsz
  have h2 : ((Fintype.piFinset fun _ : Fin vars.length => Finset.univ.erase (0 : ZMod p)).filter fun f => eval f (e.witness (ZMod p) vars e') = 0).card * (p - 1) ≤
      (e.witness (ZMod p) vars e').totalDegree * (p - 1) ^ vars.length := by exact_mod_cast hsz
  have h3 : (p - 1) ^ vars.length = (p - 1) ^ (vars.length - 1) * (p - 1) := by
    have : vars.length - 1 + 1 = vars.length := by omega
    conv_lhs => rw [← this]
    exact pow_succ _ _
  rw [h3, ← mul_assoc] at h2
  have h4 := Nat.le_of_mul_le_mul_right h2 (by omega)
  exact le_trans h4 (Nat.mul_le_mul_right _ hd)

/-- **C64 (different functions taken for equal).** For any two well-formed functions that differ over both check fields (and in which no
divisor is zero), among all `(q-1)^n * (p-1)^n` pairs of check points at most `d * (q-1)^(n-1) * d * (p-1)^(n-1)` take them for equal,
that is, a fraction of `d^2 / ((q-1) * (p-1))`, where `n` is the number of variables and `d` bounds the degree of the difference of the
functions times their divisors. -/
theorem C64_false_equal {p q : ℕ} [Fact p.Prime] [Fact q.Prime] {vars : List Str} (hn : vars ≠ []) {A B : ℕ} {e e' : Expr} (he : e.WF vars A B) (he' : e'.WF vars A B)
    (hp : e.witness (ZMod p) vars e' ≠ 0) (hq : e.witness (ZMod q) vars e' ≠ 0) {d : ℕ} (hdp : (e.witness (ZMod p) vars e').totalDegree ≤ d)
    (hdq : (e.witness (ZMod q) vars e').totalDegree ≤ d) [DecidablePred fun r : (Fin vars.length → ZMod q) × (Fin vars.length → ZMod p) =>
      SameCheck q p vars (pointWords r.1) (pointWords r.2) e e'] :
    (((checkPoints q vars.length) ×ˢ (checkPoints p vars.length)).filter fun r => SameCheck q p vars (pointWords r.1) (pointWords r.2) e e').card ≤
      (d * (q - 1) ^ (vars.length - 1)) * (d * (p - 1) ^ (vars.length - 1)) := by
  refine le_trans ?_ (Nat.mul_le_mul (equal_points hn he he' hq hdq) (equal_points hn he he' hp hdp))
  rw [← Finset.card_product]
  refine Finset.card_le_card ?_
  intro r hr
  rw [Finset.mem_filter, Finset.mem_product] at hr
  rw [Finset.mem_product, Finset.mem_filter, Finset.mem_filter]
  exact ⟨⟨hr.1.1, hr.2.1⟩, hr.1.2, hr.2.2⟩

/-- the number of pairs of check points -/
theorem C64_check_points (p q n : ℕ) [Fact p.Prime] [Fact q.Prime] : (checkPoints q n ×ˢ checkPoints p n).card = (q - 1) ^ n * (p - 1) ^ n := by
  have : ∀ (p : ℕ) [Fact p.Prime], (checkPoints p n).card = (p - 1) ^ n := by
    intro p _
    unfold checkPoints
    rw [Fintype.card_piFinset]
    simp [Finset.card_erase_of_mem, ZMod.card]
  rw [Finset.card_product, this, this]

/-- the words of check points are canonical values of the variables -/
theorem C64_check_canonical {p : ℕ} [Fact p.Prime] {vars : List Str} (r : Fin vars.length → ZMod p) : Canonical p vars (pointWords r) := by
  refine ⟨by simp [pointWords], ?_⟩
  intro x hx
  unfold pointWords at hx
  rw [List.mem_ofFn] at hx
  obtain ⟨i, rfl⟩ := hx
  exact ZMod.val_lt _

/-! ### non-vacuity -/

/-- `x/y` and `x` differ, with the polynomial `(x - x*y) * y` -/
example {p : ℕ} [Fact p.Prime] : (Expr.div (.var ['x']) (.var ['y'])).witness (ZMod p) [['x'], ['y']] (.var ['x']) ≠ 0 := by
  have : (Expr.div (.var ['x']) (.var ['y'])).witness (ZMod p) [['x'], ['y']] (.var ['x']) = X 0 * (1 - X 1) * X 1 := by
    have h0 : ([['x'], ['y']] : List Str).idxOf ['x'] = 0 := by decide
    have h1 : ([['x'], ['y']] : List Str).idxOf ['y'] = 1 := by decide
    simp [Expr.witness, Expr.frac, h0, h1]
    ring
  rw [this]
  refine mul_ne_zero (mul_ne_zero (X_ne_zero _) ?_) (X_ne_zero _)
  intro h
  have := congrArg (eval (fun _ : Fin 2 => (0 : ZMod p))) h
  simp at this
