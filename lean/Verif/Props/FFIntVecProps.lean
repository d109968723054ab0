import Verif.Model.FFIntVec
import Verif.Props.FFIntProps
/-! # C32: vectors of field elements act entrywise -/
set_option linter.all false
namespace FireFly
variable {N p : ℕ} [LongDouble]

/-- "the outcome `r` of a vector operation is, entry by entry, the outcome `f i` of the scalar
operation": it is defined iff all entries are, and then has them as entries. -/
def Entrywise (r : Option (Vec N)) (f : Fin N → Option ℕ) : Prop :=
  ∀ c : Vec N, r = some c ↔ ∀ i, f i = some (c i)

omit [LongDouble] in
lemma loop_aux (g : Fin N → Vec N → Option ℕ)
    (hg : ∀ i (v w : Vec N), v i = w i → g i v = g i w) :
    ∀ (l : List (Fin N)), l.Nodup → ∀ (v c : Vec N),
      l.foldlM (fun (v : Vec N) i => (g i v).map (Function.update v i)) v = some c ↔
        (∀ i ∈ l, g i v = some (c i)) ∧ ∀ i, i ∉ l → c i = v i := by
  intro l
  induction l with
  | nil =>
    intro _ v c
    simp only [List.foldlM_nil, List.not_mem_nil, false_implies, implies_true, true_and, not_false_eq_true,
      true_implies]
    constructor
    · intro h i; cases h; rfl
    · intro h; have : c = v := funext h; rw [this]; rfl
  | cons a l ih =>
    intro hnd v c
    rw [List.nodup_cons] at hnd
    rw [List.foldlM_cons]
    cases hga : g a v with
    | none =>
      simp only [Option.map_none]
      constructor
      · intro h; cases h
      · intro h; have := h.1 a (by simp); rw [hga] at this; cases this
    | some x =>
      have hb : (Option.map (Function.update v a) (some x) >>= fun v' =>
          l.foldlM (fun (v : Vec N) i => (g i v).map (Function.update v i)) v') =
          l.foldlM (fun (v : Vec N) i => (g i v).map (Function.update v i)) (Function.update v a x) := rfl
      rw [hb, ih hnd.2]
      constructor
      · rintro ⟨h1, h2⟩
        refine ⟨?_, ?_⟩
        · intro i hi
          rcases List.mem_cons.mp hi with rfl | hi'
          · rw [hga, h2 i hnd.1, Function.update_self]
          · rw [← h1 i hi']
            apply hg
            rw [Function.update_of_ne]; intro e; exact hnd.1 (e ▸ hi')
        · intro i hi
          rw [List.mem_cons, not_or] at hi
          rw [h2 i hi.2, Function.update_of_ne hi.1]
      · rintro ⟨h1, h2⟩
        refine ⟨?_, ?_⟩
        · intro i hi
          rw [← h1 i (List.mem_cons_of_mem _ hi)]
          apply hg
          rw [Function.update_of_ne]; rintro rfl; exact hnd.1 hi
        · intro i hi
          by_cases hia : i = a
          · subst hia
            have := h1 i (by simp)
            rw [hga] at this
            rw [Function.update_self]
            exact (Option.some.inj this).symm
          · rw [Function.update_of_ne hia]
            exact h2 i (by simp [hia, hi])

omit [LongDouble] in
lemma vecLoop_entrywise (f : Fin N → ℕ → Option ℕ) (v : Vec N) :
    Entrywise (vecLoop f v) (fun i => f i (v i)) := by
  intro c
  unfold vecLoop
  rw [loop_aux (fun i v => f i (v i)) (fun i v w h => by simp only [h]) _ (List.nodup_finRange N)]
  simp

omit [LongDouble] in
lemma vecCompound_entrywise (f : ℕ → ℕ → Option ℕ) (same : Bool) (v a : Vec N) (h : same = true → a = v) :
    Entrywise (vecCompound f same v a) (fun i => f (v i) (a i)) := by
  intro c
  unfold vecCompound
  rw [loop_aux (fun i v => f (v i) (if same then v i else a i)) (fun i v w h => by simp only [h]) _
    (List.nodup_finRange N)]
  simp only [List.mem_finRange, not_true_eq_false, false_implies, implies_true, and_true, true_implies]
  cases same
  · simp
  · simp [h rfl]

section
variable (hp : p.Prime) (hlt : p < 2 ^ 63)
include hp hlt

/-- C32: `+ - * /` of two vectors of canonical elements, and the compound assignments also when the
right operand is the same object, are the `FFInt` operators entry by entry. -/
theorem C32_vec_vec {a b : Vec N} (ha : ∀ i, a i < p) (hb : ∀ i, b i < p) (same : Bool)
    (hal : same = true → b = a) :
    Entrywise (vecAdd p a b) (fun i => some (ffAdd p (a i) (b i))) ∧
    Entrywise (vecSub p a b) (fun i => some (ffSub p (a i) (b i))) ∧
    Entrywise (vecMul p a b) (fun i => ffMul p (a i) (b i)) ∧
    Entrywise (vecDiv p a b) (fun i => ffDiv p (a i) (b i)) ∧
    Entrywise (vecAddAssign p same a b) (fun i => some (ffAdd p (a i) (b i))) ∧
    Entrywise (vecSubAssign p same a b) (fun i => some (ffSub p (a i) (b i))) ∧
    Entrywise (vecMulAssign p same a b) (fun i => ffMul p (a i) (b i)) ∧
    Entrywise (vecDivAssign p same a b) (fun i => ffDiv p (a i) (b i)) := by
  have e := fun i => C01_assign hp hlt (ha i) (hb i)
  simp only [← (e _).1, ← (e _).2.1, ← (e _).2.2.1, ← (e _).2.2.2]
  exact ⟨vecLoop_entrywise _ a, vecLoop_entrywise _ a, vecLoop_entrywise _ a, vecLoop_entrywise _ a,
    vecCompound_entrywise _ _ _ _ hal, vecCompound_entrywise _ _ _ _ hal,
    vecCompound_entrywise _ _ _ _ hal, vecCompound_entrywise _ _ _ _ hal⟩

/-- C32: a vector with a scalar on the right, and a scalar on the left of `+` and `*`. -/
theorem C32_vec_scalar {a : Vec N} {b : ℕ} (ha : ∀ i, a i < p) (hb : b < p) :
    Entrywise (vecAddS p a b) (fun i => some (ffAdd p (a i) b)) ∧
    Entrywise (vecSubS p a b) (fun i => some (ffSub p (a i) b)) ∧
    Entrywise (vecMulS p a b) (fun i => ffMul p (a i) b) ∧
    Entrywise (vecDivS p a b) (fun i => ffDiv p (a i) b) ∧
    Entrywise (sAddVec p b a) (fun i => some (ffAdd p b (a i))) ∧
    Entrywise (sMulVec p b a) (fun i => ffMul p b (a i)) := by
  have e := fun i => C01_assign hp hlt (ha i) hb
  have hadd : ∀ i, ffAdd p b (a i) = ffAdd p (a i) b := by
    intro i
    unfold ffAdd
    rw [ffAddAssign_eq hlt (ha i) hb, ffAddAssign_eq hlt hb (ha i), add_comm]
  have hmul : ∀ i, ffMul p b (a i) = ffMul p (a i) b := by
    intro i
    unfold ffMul
    rw [modMul_eq hp.pos hlt, modMul_eq hp.pos hlt, mul_comm]
  simp only [hadd, hmul]
  simp only [← (e _).1, ← (e _).2.1, ← (e _).2.2.1, ← (e _).2.2.2]
  exact ⟨vecLoop_entrywise _ a, vecLoop_entrywise _ a, vecLoop_entrywise _ a, vecLoop_entrywise _ a,
    vecLoop_entrywise _ a, vecLoop_entrywise _ a⟩

/-- C32: what `scalar - vec` and `scalar / vec` compute for every canonical input: the operands are
exchanged. -/
theorem C32_scalar_vec_partial {a : Vec N} {b : ℕ} (ha : ∀ i, a i < p) (hb : b < p) :
    Entrywise (sSubVec p b a) (fun i => some (ffSub p (a i) b)) ∧
    Entrywise (sDivVec p b a) (fun i => ffDiv p (a i) b) := by
  have e := fun i => C01_assign hp hlt (ha i) hb
  simp only [← (e _).2.1, ← (e _).2.2.2]
  exact ⟨vecLoop_entrywise _ a, vecLoop_entrywise _ a⟩

/-- C32: the field values of the results, all operations at once (here for two vectors): with
canonical entries the operations are defined, stay canonical and compute in `ZMod p`. -/
theorem C32_field_values {a b : Vec N} (ha : ∀ i, a i < p) (hb : ∀ i, b i < p) :
    (∃ c, vecAdd p a b = some c ∧ ∀ i, c i < p ∧ (c i : ZMod p) = a i + b i) ∧
    (∃ c, vecSub p a b = some c ∧ ∀ i, c i < p ∧ (c i : ZMod p) = a i - b i) ∧
    (∃ c, vecMul p a b = some c ∧ ∀ i, c i < p ∧ (c i : ZMod p) = a i * b i) ∧
    (∃ c, vecDiv p a b = some c ∧ ∀ i, c i < p ∧
      (haveI := Fact.mk hp; (c i : ZMod p) = (a i : ZMod p) / b i)) := by
  obtain ⟨h1, h2, h3, h4, -⟩ := C32_vec_vec hp hlt ha hb false (by simp)
  refine ⟨⟨fun i => ffAdd p (a i) (b i), (h1 _).mpr fun i => rfl, fun i => C01_add hp hlt (ha i) (hb i)⟩,
    ⟨fun i => ffSub p (a i) (b i), (h2 _).mpr fun i => rfl, fun i => C01_sub hp hlt (ha i) (hb i)⟩, ?_, ?_⟩
  · choose c hc using fun i => C01_mul (a := a i) (b := b i) hp hlt
    exact ⟨c, (h3 _).mpr fun i => (hc i).1, fun i => (hc i).2⟩
  · choose c hc using fun i => C01_div (a := a i) hp hlt (hb i)
    exact ⟨c, (h4 _).mpr fun i => (hc i).1, fun i => ⟨(hc i).2.1, (hc i).2.2.1⟩⟩

end

/-- C32: unary operators and powers (any exponents, any words). -/
theorem C32_unary_pow (a e : Vec N) (k bits : ℕ) (z : ℤ) (l : List ℤ) (hl : l.length = N) :
    Entrywise (vecNeg p a) (fun i => some (ffNeg p (a i))) ∧
    Entrywise (vecPos a) (fun i => some (a i)) ∧
    Entrywise (vecPow p a e) (fun i => ffPow p (a i) (e i)) ∧
    Entrywise (vecPowS p a k) (fun i => ffPow p (a i) k) ∧
    Entrywise (vecPowInt p bits a z) (fun i => ffPowInt p bits (a i) z) ∧
    Entrywise (vecPowVec p bits a l) (fun i => ffPowInt p bits (a i) (l.getD i 0)) := by
  refine ⟨vecLoop_entrywise _ _, vecLoop_entrywise _ _, vecLoop_entrywise _ a, vecLoop_entrywise _ a,
    vecLoop_entrywise _ a, ?_⟩
  unfold vecPowVec
  rw [if_neg (by simpa using hl)]
  exact vecLoop_entrywise _ a

omit [LongDouble] in
/-- C32: two vectors compare equal iff all entries do; `!v` holds iff some entry is zero. -/
theorem C32_eq_not (a b : Vec N) :
    (vecEq a b = true ↔ ∀ i, ffEq (a i) (b i) = true) ∧ (vecNot a = true ↔ ∃ i, a i = 0) := by
  constructor
  · simp [vecEq]
  · simp [vecNot]

/-- C32 is violated by `scalar - vec` and by `scalar / vec` for every prime `p > 3`:
`1 - (2, …, 2)` and `1 / (2, …, 2)` are not the entrywise results (for `N > 0`). -/
theorem C32_violated (hp : p.Prime) (hlt : p < 2 ^ 63) (h3 : 3 < p) (hN : 0 < N) :
    ¬ Entrywise (sSubVec p 1 (fun _ : Fin N => 2)) (fun _ => some (ffSub p 1 2)) ∧
    ¬ Entrywise (sDivVec p 1 (fun _ : Fin N => 2)) (fun _ => ffDiv p 1 2) := by
  have := Fact.mk hp
  have h := C32_scalar_vec_partial (N := N) hp hlt (a := fun _ => 2) (b := 1)
    (fun _ => by omega) (by omega)
  have hz : ∀ k : ℕ, 0 < k → k < p → (k : ZMod p) ≠ 0 := by
    intro k hk hkp h0
    rw [ZMod.natCast_eq_zero_iff] at h0
    exact absurd (Nat.le_of_dvd hk h0) (by omega)
  have z2 := hz 2 (by omega) (by omega)
  have z3 := hz 3 (by omega) (by omega)
  push_cast at z2 z3
  constructor
  · intro hE
    have e1 := (h.1 (fun _ => ffSub p 2 1)).mpr (fun i => rfl)
    have e2 := (hE _).mp e1 ⟨0, hN⟩
    have a1 := (C01_sub hp hlt (a := 2) (b := 1) (by omega) (by omega)).2
    have a2 := (C01_sub hp hlt (a := 1) (b := 2) (by omega) (by omega)).2
    rw [Option.some.inj e2, a1] at a2
    push_cast at a2
    have : (2 : ZMod p) = 0 := by linear_combination a2
    exact z2 this
  · intro hE
    obtain ⟨c, c1, c2, c3, -⟩ := C01_div hp hlt (a := 2) (b := 1) (by omega)
    obtain ⟨d, d1, d2, d3, -⟩ := C01_div hp hlt (a := 1) (b := 2) (by omega)
    have e1 := (h.2 (fun _ => c)).mpr (fun i => c1)
    have e2 := (hE _).mp e1 ⟨0, hN⟩
    rw [d1] at e2
    rw [Option.some.inj e2, c3] at d3
    push_cast at d3
    rw [div_one, eq_div_iff z2] at d3
    exact z3 (by linear_combination d3)

/-- the hypotheses of the theorems above are met at the default prime -/
example : ∃ c : Vec 4, vecAdd 9223372036854775783 (fun i => i.1) (fun _ => 9223372036854775782) = some c ∧
    c 0 = 9223372036854775782 ∧ c 3 = 2 :=
  ⟨fun i => ffAddAssign 9223372036854775783 i.1 9223372036854775782,
    (vecLoop_entrywise _ _ _).mpr (fun _ => rfl), by decide +kernel, by decide +kernel⟩

omit [LongDouble] in
/-- C32: `at` refuses the last entry of every vector, and only that one. -/
theorem C32_at_partial (a : Vec N) (i : Fin N) : vecAt a i = (if i.1 + 1 = N then none else some (a i)) := by
  unfold vecAt
  have := i.2
  split_ifs <;> first | rfl | omega

end FireFly
