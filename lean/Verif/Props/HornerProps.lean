import Verif.Lemmas.HornerLemmas
import Verif.Props.PrecomputeProps
import Verif.Props.PolyObjProps
/-!
# C26: Horner forms denote the polynomial
-/
set_option linter.all false
namespace FireFly

lemma Txt.denotes {vars : List Str} {P N lv : ℕ} {s : Str} {v : Val} (h : Txt vars P N lv s v) : Denotes vars P N s v := by
  obtain ⟨e, h1, h2, h3, h4, h5, h6⟩ := h
  exact ⟨e, h1, h2, h6⟩

lemma firstSize_eq {C : Type} {n : ℕ} {m : List (List ℕ × C)} (hm : WFMap n m) (h0 : m ≠ []) : firstSize m = n := by
  obtain ⟨t, m', rfl⟩ := List.exists_cons_of_ne_nil h0
  exact hm.2 t (by simp)

lemma txt_zero {vars : List Str} {P N : ℕ} : Txt vars P N 4 ['0'] (fun K _ _ => 0) := by
  have h : ['0'] = natStr 0 := by rw [natStr]; rfl
  rw [h]
  exact (txt_nat 0).congr fun K _ env => by simp

section
variable {vars : List Str} {P N n : ℕ}

/-- **C26 (`generate_horner_ff`).** For every sparse polynomial in `n` variables over the words, the text
generated for the variables from `index` on is a well-formed expression whose value in every field is the
value of the polynomial. No power occurs in it, hence the degrees are not restricted. -/
theorem C26_horner_ff {m : FFMap ℕ} (hm : WFMap n m) {index : ℕ} (hi : index + n ≤ vars.length) :
    Denotes vars P N (generateHornerFF m vars index)
      (fun K _ env => polyVal env (vars.drop index) (fun c : ℕ => (c : K)) m) := by
  unfold generateHornerFF
  split
  · rename_i h
    subst h
    exact Txt.denotes (txt_zero.congr fun K _ env => by simp [polyVal])
  · rename_i h
    rw [firstSize_eq hm h]
    exact (hornerDense_txt (val := fun (c : ℕ) K _ => (c : K)) (isOne := fun c => c == 1) (fun c => (txt_nat c).mono (by norm_num))
      (fun c hc K _ => by have : c = 1 := (by simpa using hc); simp [this]) n index m hm h hi).denotes

/-- **C26 (`generate_horner_rn`).** The same for rational coefficients (positive denominators) and degrees
below `P`. -/
theorem C26_horner_rn {m : List (List ℕ × RationalNumber)} (hm : WFMap n m) (hden : ∀ t ∈ m, 0 < t.2.den) (hdeg : ∀ t ∈ m, ∀ d ∈ t.1, d < P)
    {index : ℕ} (hi : index + n ≤ vars.length) :
    Denotes vars P N (generateHornerRN m vars index) (fun K _ env => polyVal env (vars.drop index) ratVal m) := by
  unfold generateHornerRN
  split
  · rename_i h
    subst h
    exact Txt.denotes (txt_zero.congr fun K _ env => by simp [polyVal])
  · rename_i h
    rw [firstSize_eq hm h]
    refine (hornerSparse_txt (val := fun c K _ => ratVal c) ?_ n index m hm h hi ?_).denotes
    · intro c hc K _
      unfold RationalNumber.isOne at hc
      simp only [Bool.and_eq_true, beq_iff_eq] at hc
      simp [ratVal, hc.1, hc.2]
    · intro t ht
      exact ⟨hdeg t ht, txt_rat (hden t ht)⟩

lemma emplace_all {C : Type} (m acc : List (List ℕ × C)) (h : ((acc ++ m).map Prod.fst).Nodup) :
    m.foldl (fun (a : List (List ℕ × C)) t => FFMap.emplace a t.1 t.2) acc = acc ++ m := by
  induction m generalizing acc with
  | nil => simp
  | cons t m ih =>
    have hnone : FFMap.find? acc t.1 = none := by
      unfold FFMap.find?
      rw [List.lookup_eq_none_iff]
      intro p hp
      simp only [beq_eq_false_iff_ne, ne_eq, bne_iff_ne]
      intro hh
      rw [List.map_append, List.nodup_append] at h
      exact h.2.2 p.1 (List.mem_map_of_mem hp) t.1 (by simp) hh.symm
    rw [List.foldl_cons]
    have : FFMap.emplace acc t.1 t.2 = acc ++ [t] := by
      unfold FFMap.emplace
      rw [hnone]; rfl
    rw [this, ih _ (by simpa using h)]
    simp

/-- **C26 (`generate_horner_mon`, `Polynomial::generate_horner`).** -/
theorem C26_horner_mon {m : List (List ℕ × RationalNumber)} (hm : WFMap n m) (hden : ∀ t ∈ m, 0 < t.2.den) (hdeg : ∀ t ∈ m, ∀ d ∈ t.1, d < P)
    {index : ℕ} (hi : index + n ≤ vars.length) :
    Denotes vars P N (generateHornerMon m vars index) (fun K _ env => polyVal env (vars.drop index) ratVal m) := by
  unfold generateHornerMon
  split
  · rename_i h
    subst h
    exact Txt.denotes (txt_zero.congr fun K _ env => by simp [polyVal])
  · rw [emplace_all m [] (by simpa using hm.1)]
    exact C26_horner_rn hm hden hdeg hi

end

/-- a text that denotes a value is parsed (without validation, when its minus signs are plain) and
evaluated to this value -/
lemma Txt.evaluate [LongDouble] {p : ℕ} [Fact p.Prime] (hlt : p < 2 ^ 63) (h3 : 3 < p) {vars : List Str} (hvars : ∀ v ∈ vars, IsName v)
    {values : List ℕ} (hlen : vars.length ≤ values.length) (hval : ∀ x ∈ values, x < p) {lv : ℕ} {s : Str} {v : Val}
    (h : Txt vars (p - 1) (min p (2 ^ 31)) lv s v) :
    ∃ T st c, parse s = some T ∧ precompute p vars T = some st ∧ evaluateRpn opTokens p vars values T = some c ∧ evaluatePre p values st.1 = some c ∧ c < p ∧
      (c : ZMod p) = v (ZMod p) (fun name => ((values.getD (vars.idxOf name) 0 : ℕ) : ZMod p)) := by
  obtain ⟨e, rfl, h1, h2, -, -, h5⟩ := h
  have hp : p.Prime := Fact.out
  obtain ⟨T, c, g1, g2, g3, g4⟩ := C24_parse_without_validate hlt h3 hvars hlen hval h1 h2
  obtain ⟨st, k1, k2⟩ := C25_evaluate_pre hp hlt hval g2
  exact ⟨T, st, c, g1, k1, g2, k2, g3, by rw [g4, h5]⟩

/-- **C26, C24.** A text that denotes a value is accepted by the parser, and evaluated to it. -/
theorem C26_read_back [LongDouble] {p : ℕ} [Fact p.Prime] (hlt : p < 2 ^ 63) (h3 : 3 < p) {vars : List Str} (hvars : ∀ v ∈ vars, IsName v)
    {values : List ℕ} (hlen : vars.length ≤ values.length) (hval : ∀ x ∈ values, x < p) {s : Str} {v : Val}
    (h : Denotes vars (p - 1) (min p (2 ^ 31)) s v) :
    ∃ f T c, validate s = some f ∧ parse f = some T ∧ evaluateRpn opTokens p vars values T = some c ∧ c < p ∧
      (c : ZMod p) = v (ZMod p) (fun name => ((values.getD (vars.idxOf name) 0 : ℕ) : ZMod p)) := by
  obtain ⟨e, rfl, h1, h5⟩ := h
  obtain ⟨f, T, c, g1, g2, g3, g4, g5⟩ := C24_evaluate hlt h3 hvars hlen hval h1
  exact ⟨f, T, c, g1, g2, g3, g4, by rw [g5, h5]⟩

/-! ### the Horner form inside of `PolynomialFF` -/

lemma sum_map_update {K : Type} [Field K] (f : ℕ → K) (g : List ℕ → K) : ∀ (m : FFMap ℕ) (k : List ℕ) (v0 v : ℕ), (m.map Prod.fst).Nodup → (k, v0) ∈ m →
    ((m.map (fun t => if t.1 = k then (k, v) else t)).map fun t => f t.2 * g t.1).sum =
      (m.map fun t => f t.2 * g t.1).sum - f v0 * g k + f v * g k
  | [], _, _, _, _, h => by simp at h
  | (k', v') :: m, k, v0, v, hn, h => by
    rw [List.map_cons, List.nodup_cons] at hn
    by_cases hk : k' = k
    · subst hk
      have hv : v' = v0 := by
        rcases List.mem_cons.mp h with h | h
        · simpa using h.symm
        · exact absurd (List.mem_map_of_mem (f := Prod.fst) h) hn.1
      subst hv
      have hid : m.map (fun t => if t.1 = k' then (k', v) else t) = m := by
        rw [List.map_congr_left (g := id)]
        · simp
        · intro t ht
          rw [if_neg]; · rfl
          intro hh
          have := List.mem_map_of_mem (f := Prod.fst) ht
          rw [hh] at this
          exact hn.1 this
      rw [List.map_cons, hid, List.map_cons, List.map_cons, List.sum_cons, List.sum_cons]
      simp only [if_true]
      ring
    · have h' : (k, v0) ∈ m := by
        rcases List.mem_cons.mp h with h | h
        · exact absurd (by simpa using (congrArg Prod.fst h).symm) hk
        · exact h
      rw [List.map_cons, List.map_cons, List.map_cons, List.sum_cons, List.sum_cons, sum_map_update f g m k v0 v hn.2 h']
      simp only [if_neg hk]
      ring

/-- the invariant of the loop of `generate_hornerff` that sets the first variable to one -/
lemma dropFirst_inv {p : ℕ} [Fact p.Prime] (hlt : p < 2 ^ 63) {n P : ℕ} (g : List ℕ → ZMod p) : ∀ (m acc : FFMap ℕ),
    (∀ t ∈ m, t.1.length = n + 1 ∧ t.2 < p ∧ ∀ d ∈ t.1, d < P) → WFMap n acc → (∀ t ∈ acc, t.2 < p ∧ ∀ d ∈ t.1, d < P) →
    let r : FFMap ℕ := m.foldl (fun (acc : FFMap ℕ) t => match acc.find? t.1.tail with
      | none => acc.emplace t.1.tail t.2
      | some v => acc.set t.1.tail (ffAddAssign p v t.2)) acc
    WFMap n r ∧ (∀ t ∈ r, t.2 < p ∧ ∀ d ∈ t.1, d < P) ∧ (m ≠ [] ∨ acc ≠ [] → r ≠ []) ∧
      (r.map fun t => (t.2 : ZMod p) * g t.1).sum = (acc.map fun t => (t.2 : ZMod p) * g t.1).sum + (m.map fun t => (t.2 : ZMod p) * g t.1.tail).sum
  | [], acc, _, h1, h2 => ⟨h1, h2, by simp, by simp⟩
  | t :: m, acc, hm, h1, h2 => by
    obtain ⟨hl, hc, hd⟩ := hm t (by simp)
    have hpp : p.Prime := Fact.out
    intro r
    have hlen : t.1.tail.length = n := by rw [List.length_tail, hl]; rfl
    have hdt : ∀ d ∈ t.1.tail, d < P := fun d h => hd d (List.mem_of_mem_tail h)
    have hne : ∀ v : ℕ, FFMap.emplace acc t.1.tail v ≠ [] ∧ FFMap.set acc t.1.tail v ≠ [] := by
      intro v
      refine ⟨fun h => ?_, fun h => ?_⟩
      · have := FFMap.find?_emplace acc t.1.tail v t.1.tail
        rw [h] at this; simp at this
      · have := FFMap.find?_set acc t.1.tail v t.1.tail
        rw [h] at this; simp at this
    cases hf : acc.find? t.1.tail with
    | none =>
      have hr : r = m.foldl (fun (acc : FFMap ℕ) t => match acc.find? t.1.tail with
        | none => acc.emplace t.1.tail t.2
        | some v => acc.set t.1.tail (ffAddAssign p v t.2)) (acc.emplace t.1.tail t.2) := by
        simp only [r]; rw [List.foldl_cons, hf]
      have he : acc.emplace t.1.tail t.2 = acc ++ [(t.1.tail, t.2)] := by
        unfold FFMap.emplace; rw [hf]; rfl
      obtain ⟨g1, g2, g3, g4⟩ := dropFirst_inv hlt g m (acc.emplace t.1.tail t.2) (fun t h => hm t (by simp [h])) (h1.emplace hlen _) (by
        rw [he]; intro u hu
        rcases List.mem_append.mp hu with hu | hu
        · exact h2 u hu
        · rw [List.mem_singleton] at hu; subst hu; exact ⟨hc, hdt⟩)
      rw [← hr] at g1 g2 g3 g4
      refine ⟨g1, g2, fun _ => g3 (Or.inr (hne t.2).1), ?_⟩
      rw [g4, he, List.map_append, List.sum_append]
      simp only [List.map_cons, List.map_nil, List.sum_cons, List.sum_nil]
      ring
    | some v =>
      have hr : r = m.foldl (fun (acc : FFMap ℕ) t => match acc.find? t.1.tail with
        | none => acc.emplace t.1.tail t.2
        | some v => acc.set t.1.tail (ffAddAssign p v t.2)) (acc.set t.1.tail (ffAddAssign p v t.2)) := by
        simp only [r]; rw [List.foldl_cons, hf]
      have hv := h2 _ (FFMap.find?_mem hf)
      have hw := ffAddAssign_eq hlt hv.1 hc
      have he : acc.set t.1.tail (ffAddAssign p v t.2) = acc.map (fun u => if u.1 = t.1.tail then (t.1.tail, ffAddAssign p v t.2) else u) := by
        unfold FFMap.set; rw [hf]; rfl
      obtain ⟨g1, g2, g3, g4⟩ := dropFirst_inv hlt g m (acc.set t.1.tail (ffAddAssign p v t.2)) (fun t h => hm t (by simp [h])) (h1.set hlen _) (by
        rw [he]; intro u hu
        rw [List.mem_map] at hu
        obtain ⟨w, hw1, rfl⟩ := hu
        split
        · refine ⟨?_, hdt⟩
          show ffAddAssign p v t.2 < p
          rw [hw]; exact Nat.mod_lt _ hpp.pos
        · exact h2 w hw1)
      rw [← hr] at g1 g2 g3 g4
      refine ⟨g1, g2, fun _ => g3 (Or.inr (hne _).2), ?_⟩
      rw [g4, he, sum_map_update (fun c => (c : ZMod p)) g acc t.1.tail v _ h1.1 (FFMap.find?_mem hf), hw]
      simp only [List.map_cons, List.sum_cons, ZMod.natCast_mod, Nat.cast_add]
      ring

lemma natStr_length (n k : ℕ) (hk : 1 ≤ k) (h : n < 10 ^ k) : (natStr n).length ≤ k := by
  induction k generalizing n with
  | zero => omega
  | succ k ih =>
    rw [natStr]
    split
    · simp
    · rename_i hn
      rw [List.length_append, List.length_singleton]
      have : 1 ≤ k := by
        by_contra h0
        have : k = 0 := by omega
        subst this
        norm_num at h
        omega
      have := ih (n / 10) this (by rw [Nat.div_lt_iff_lt_mul (by norm_num)]; rw [pow_succ] at h; exact h)
      omega

lemma natStr_inj {a b : ℕ} (h : natStr a = natStr b) : a = b := by
  rw [← (natStr_spec a).2, ← (natStr_spec b).2, h]

lemma hornerVars_name {n : ℕ} (hn : n ≤ 10 ^ 15) : ∀ v ∈ hornerVars n, IsName v := by
  intro v hv
  unfold hornerVars at hv
  rw [List.mem_map] at hv
  obtain ⟨i, hi, rfl⟩ := hv
  rw [List.mem_range] at hi
  have h1 := natStr_length i 15 (by norm_num) (by omega)
  refine ⟨by rw [List.length_cons]; omega, ?_, 'a', by simp, by decide⟩
  intro c hc
  rcases List.mem_cons.mp hc with rfl | hc
  · left; decide
  · right; exact (natStr_spec i).1.2.1 c hc

lemma hornerVars_idx {n i : ℕ} (hi : i < n - 1) : (hornerVars n).idxOf ((hornerVars n).getD i []) = i := by
  have hl : (hornerVars n).length = n - 1 := by simp [hornerVars]
  rw [List.getD_eq_getElem _ _ (by omega)]
  apply List.Nodup.idxOf_getElem
  unfold hornerVars
  refine List.Nodup.map ?_ List.nodup_range
  intro a b h
  simp only [List.cons.injEq, true_and] at h
  exact natStr_inj h

lemma zip_prod {K : Type} [Field K] : ∀ (names : List Str) (e : List ℕ) (env : Str → K), e.length = names.length →
    (List.zipWith (fun name k => env name ^ k) names e).prod = ∏ i ∈ Finset.range names.length, env (names.getD i []) ^ e.getD i 0
  | [], [], env, _ => by simp
  | a :: names, d :: e, env, h => by
    rw [List.zipWith_cons_cons, List.prod_cons, zip_prod names e env (by simpa using h), List.length_cons, Finset.prod_range_succ']
    simp [mul_comm]
  | [], _ :: _, _, h => by simp at h
  | _ :: _, [], _, h => by simp at h

lemma monoVal_names {K : Type} [Field K] (y : List K) (names : List Str) (env : Str → K) : ∀ (e : List ℕ), e.length = names.length →
    (∀ i, i < names.length → env (names.getD i []) = y.getD i 0) → monoVal env names e = termProduct names.length y e := by
  intro e he hy
  unfold monoVal termProduct
  have key : ∀ k : ℕ, (List.range k).foldl (fun p i => p * y.getD i 0 ^ e.getD i 0) (1 : K) =
      ∏ i ∈ Finset.range k, y.getD i 0 ^ e.getD i 0 := by
    intro k
    induction k with
    | zero => simp
    | succ k ih => rw [List.range_succ, List.foldl_append, ih, Finset.prod_range_succ]; rfl
  rw [key]
  rw [zip_prod names e env he]
  apply Finset.prod_congr rfl
  intro i hi
  rw [hy i (Finset.mem_range.mp hi)]

/-- **C26, C15 (`generate_hornerff` and `evaluate_pre`).** For every nonempty polynomial over the words of
`ℤ/p` (prime `3 < p < 2^63`) in `1 ≤ n ≤ 10^15` variables, with degrees below `p - 1`, and every point with
at least `n - 1` coordinates: the Horner string of the polynomial with the first variable set to one is
parsed, precomputed and evaluated without error, and the word returned is the value of the polynomial at
`(1, x)`. -/
theorem C26_horner_internal [LongDouble] {p : ℕ} [Fact p.Prime] (hlt : p < 2 ^ 63) (h3 : 3 < p) {n : ℕ} (hn : 1 ≤ n) (hn' : n ≤ 10 ^ 15)
    {m : FFMap ℕ} (hm : WFMap n m) (h0 : m ≠ []) (hc : ∀ t ∈ m, t.2 < p ∧ ∀ d ∈ t.1, d < p - 1)
    {x : List ℕ} (hx : n - 1 ≤ x.length) (hxp : ∀ y ∈ x, y < p) :
    ∃ c, hornerFFEval p n m x = some c ∧ c < p ∧
      (c : ZMod p) = MvPolynomial.eval (fun i => ((1 :: x).map (fun y : ℕ => (y : ZMod p))).getD i 0) (denote (m.map fun t => (t.1, (t.2 : ZMod p)))) := by
  obtain ⟨k, rfl⟩ : ∃ k, n = k + 1 := ⟨n - 1, by omega⟩
  have hl : (hornerVars (k + 1)).length = k := by simp [hornerVars]
  obtain ⟨g1, g2, g3, g4⟩ := dropFirst_inv (n := k) (P := p - 1) hlt (termProduct k (x.map fun y : ℕ => (y : ZMod p))) m []
    (fun t ht => ⟨hm.2 t ht, (hc t ht).1, (hc t ht).2⟩) ⟨by simp, by simp⟩ (by simp)
  have g3 := g3 (Or.inl h0)
  have hd : (m.foldl (fun (acc : FFMap ℕ) t => match acc.find? t.1.tail with
      | none => acc.emplace t.1.tail t.2
      | some v => acc.set t.1.tail (ffAddAssign p v t.2)) [] : FFMap ℕ) = dropFirst p m := rfl
  rw [hd] at g1 g2 g3 g4
  have htxt := hornerSparse_txt (vars := hornerVars (k + 1)) (P := p - 1) (N := min p (2 ^ 31)) (str := natStr) (val := fun (c : ℕ) K _ => (c : K))
    (isOne := fun c => c == 1) (fun c hc K _ => by have : c = 1 := (by simpa using hc); simp [this]) k 0 (dropFirst p m) g1 g3 (by omega)
    (fun t ht => ⟨(g2 t ht).2, (txt_nat t.2).mono (by norm_num)⟩)
  obtain ⟨T, st, c, e1, e2, e3, e4, e5, e6⟩ := Txt.evaluate hlt h3 (hornerVars_name hn') (by omega : (hornerVars (k + 1)).length ≤ x.length) hxp htxt
  refine ⟨c, ?_, e5, ?_⟩
  · unfold hornerFFEval
    simp only [firstSize_eq g1 g3]
    rw [e1, Option.bind_some, e2, Option.bind_some, e4]
  · rw [e6]
    unfold restVal polyVal
    rw [List.drop_zero]
    have hmono : ∀ t ∈ dropFirst p m, ((t.2 : ℕ) : ZMod p) * monoVal (fun name => ((x.getD ((hornerVars (k + 1)).idxOf name) 0 : ℕ) : ZMod p)) (hornerVars (k + 1)) t.1 =
        (t.2 : ZMod p) * termProduct k (x.map fun y : ℕ => (y : ZMod p)) t.1 := by
      intro t ht
      rw [monoVal_names (x.map fun y : ℕ => (y : ZMod p)) (hornerVars (k + 1)) _ t.1 (by rw [hl]; exact g1.2 t ht), hl]
      intro i hi
      rw [hornerVars_idx (by omega)]
      rw [List.getD_eq_getElem _ _ (by omega), List.getD_eq_getElem _ _ (by rw [List.length_map]; omega), List.getElem_map]
    rw [List.map_congr_left hmono, g4]
    unfold denote
    rw [map_list_sum, List.map_map, List.map_map]
    simp only [List.map_nil, List.sum_nil, zero_add]
    congr 1
    apply List.map_congr_left
    intro t ht
    simp only [Function.comp]
    rw [eval_monomial_list, hm.2 t ht]
    have hlt' := hm.2 t ht
    obtain ⟨e, c⟩ := t
    cases e with
    | nil => simp at hlt'
    | cons d e =>
      rw [List.map_cons, termProduct_cons]
      simp

/-- **C15 with the Horner cache, at the level of the words.** The hypothesis on the Horner form in
`C15_calc_n_m_1_history` is met by the generated string, its parser and evaluator. -/
theorem C26_horner_cache [LongDouble] {p : ℕ} [Fact p.Prime] (hlt : p < 2 ^ 63) (h3 : 3 < p) {n : ℕ} (hn : 1 ≤ n) (hn' : n ≤ 10 ^ 15)
    {m : FFMap (ZMod p)} (hm : WFMap n m) (h0 : m ≠ []) (hc : ∀ t ∈ m, ∀ d ∈ t.1, d < p - 1) {x : List (ZMod p)} (hx : n - 1 ≤ x.length) :
    (hornerFFEval p n (m.map fun t => (t.1, t.2.val)) (x.map ZMod.val)).map (fun c : ℕ => (c : ZMod p)) =
      some (MvPolynomial.eval (fun i => (1 :: x).getD i 0) (denote m)) := by
  have hpp : p.Prime := Fact.out
  have hw : WFMap n (m.map fun t => (t.1, t.2.val)) := by
    refine ⟨?_, ?_⟩
    · rw [List.map_map]; exact hm.1
    · intro t ht
      rw [List.mem_map] at ht
      obtain ⟨u, hu, rfl⟩ := ht
      exact hm.2 u hu
  obtain ⟨c, e1, e2, e3⟩ := C26_horner_internal hlt h3 hn hn' hw (by simpa using h0) (by
    intro t ht
    rw [List.mem_map] at ht
    obtain ⟨u, hu, rfl⟩ := ht
    exact ⟨ZMod.val_lt _, hc u hu⟩) (x := x.map ZMod.val) (by simpa using hx) (by
    intro y hy
    rw [List.mem_map] at hy
    obtain ⟨u, hu, rfl⟩ := hy
    exact ZMod.val_lt _)
  rw [e1, Option.map_some, e3]
  congr 2
  · simp
  · rw [List.map_map]
    congr 1
    conv_rhs => rw [← List.map_id m]
    apply List.map_congr_left
    intro t ht
    simp

/-! ### `calc_n_m_1` with the real Horner evaluation -/

section
variable {F : Type} [Field F] [DecidableEq F]

/-- all exponents of a map are below `D` -/
def DegsBelow {C : Type} (D : ℕ) (m : List (List ℕ × C)) : Prop := ∀ t ∈ m, ∀ d ∈ t.1, d < D

lemma DegsBelow.iff_keys {C : Type} {D : ℕ} {m : List (List ℕ × C)} : DegsBelow D m ↔ ∀ k ∈ m.map Prod.fst, ∀ d ∈ k, d < D := by
  unfold DegsBelow
  constructor
  · intro h k hk
    rw [List.mem_map] at hk
    obtain ⟨t, ht, rfl⟩ := hk
    exact h t ht
  · intro h t ht
    exact h t.1 (List.mem_map_of_mem ht)

lemma DegsBelow.set {D : ℕ} {m : FFMap F} (h : DegsBelow D m) {k : List ℕ} (hk : ∀ d ∈ k, d < D) (v : F) : DegsBelow D (m.set k v) := by
  rw [DegsBelow.iff_keys] at h ⊢
  rw [FFMap.keys_set]
  split
  · exact h
  · intro k' hk'
    rcases List.mem_append.mp hk' with h' | h'
    · exact h k' h'
    · rw [List.mem_singleton] at h'; rw [h']; exact hk

lemma DegsBelow.filter {C : Type} {D : ℕ} {m : List (List ℕ × C)} (h : DegsBelow D m) (f : List ℕ × C → Bool) : DegsBelow D (m.filter f) :=
  fun t ht => h t (List.mem_filter.mp ht).1

lemma degsBelow_foldl {D : ℕ} {step : FFMap F → List ℕ × F → FFMap F} (hstep : ∀ m t, DegsBelow D m → (∀ d ∈ t.1, d < D) → DegsBelow D (step m t)) :
    ∀ (b a : FFMap F), DegsBelow D a → DegsBelow D b → DegsBelow D (b.foldl step a)
  | [], a, ha, _ => ha
  | t :: b, a, ha, hb => degsBelow_foldl hstep b (step a t) (hstep a t ha (hb t (by simp))) (fun u hu => hb u (by simp [hu]))

/-- the arguments of a call have exponents below `D` -/
def OpDegs (D : ℕ) : PolyOp F → Prop
  | .addAssign b => DegsBelow D b
  | .subAssign b => DegsBelow D b
  | _ => True

/-- invariant for the Horner cache: the exponents are bounded, and a form in use is not empty -/
def CacheInv (D : ℕ) (o : PolyObj F) : Prop := DegsBelow D o.coefs ∧ (o.evalHorner = true → o.horner ≠ [] ∧ DegsBelow D o.horner)

lemma cacheInv_step {D : ℕ} (he : ℕ → FFMap F → List F → Option F) {o : PolyObj F} (h : CacheInv D o) (op : PolyOp F) (hop : OpDegs D op) :
    CacheInv D (o.step he op) := by
  have hupd : ∀ c : FFMap F, DegsBelow D c → CacheInv D (o.update c) := fun c hc => ⟨hc, by simp [PolyObj.update]⟩
  have hmap : ∀ f : List ℕ × F → F, DegsBelow D (o.coefs.map fun t => (t.1, f t)) := by
    intro f t ht
    rw [List.mem_map] at ht
    obtain ⟨u, hu, rfl⟩ := ht
    exact h.1 u hu
  cases op with
  | addAssign b =>
    refine hupd _ (degsBelow_foldl ?_ b o.coefs h.1 hop)
    intro m t hm ht
    unfold PolyFF.addAssignStep
    split
    · split
      · exact hm.set ht _
      · split
        · exact (hm.set ht _).filter _
        · exact hm.set ht _
    · exact hm
  | subAssign b =>
    refine hupd _ (degsBelow_foldl ?_ b o.coefs h.1 hop)
    intro m t hm ht
    unfold PolyFF.subAssignStep
    split
    · split
      · exact hm.set ht _
      · split
        · exact (hm.set ht _).filter _
        · exact hm.set ht _
    · exact hm
  | mulAssign c => exact hupd _ (hmap _)
  | divAssign c => exact hupd _ (hmap _)
  | removeZeroCoefs =>
    refine ⟨?_, h.2⟩
    show DegsBelow D (PolyFF.removeZeroCoefs o.coefs)
    intro t ht
    refine h.1 t ?_
    have hsub : ∀ (ks : List (List ℕ)) (m : FFMap F), t ∈ ks.foldl FFMap.erase m → t ∈ m := by
      intro ks
      induction ks with
      | nil => intro m h; exact h
      | cons k ks ih =>
        intro m h
        exact (List.mem_filter.mp (ih _ h)).1
    exact hsub _ _ ht
  | maxDeg =>
    unfold PolyObj.step PolyObj.maxDeg
    simp only
    split <;> exact h
  | minDeg =>
    unfold PolyObj.step PolyObj.minDeg PolyObj.maxDeg
    simp only
    split <;> exact h
  | calcNM1 x =>
    unfold PolyObj.step PolyObj.calcNM1
    simp only
    split
    · rename_i hh
      refine ⟨h.1, fun _ => ⟨?_, h.1⟩⟩
      intro h0
      have h0 : o.coefs = [] := h0
      rw [h0] at hh
      simp at hh
    · split <;> exact h

lemma step_he (he he' : ℕ → FFMap F → List F → Option F) (o : PolyObj F) (op : PolyOp F) : o.step he op = o.step he' op := by
  cases op <;> try rfl
  rename_i x
  show (o.calcNM1 he x).1 = (o.calcNM1 he' x).1
  unfold PolyObj.calcNM1
  split
  · rfl
  · split <;> rfl

end

/-- the evaluation of the Horner form of a polynomial over `ℤ/p`, through its words -/
def hornerEvalZ [LongDouble] (p : ℕ) (n : ℕ) (m : FFMap (ZMod p)) (x : List (ZMod p)) : Option (ZMod p) :=
  (hornerFFEval p n (m.map fun t => (t.1, t.2.val)) (x.map ZMod.val)).map (fun c : ℕ => (c : ZMod p))

/-- **C15, C26.** `calc_n_m_1` with the Horner cache and the real generation, parsing, precomputation and
evaluation of the Horner string: for every polynomial object over `ℤ/p` in `1 ≤ n ≤ 10^15` variables with
degrees below `p - 1`, and every history of calls, the next `calc_n_m_1(x)` returns the value of the current
polynomial at `(1, x)`. -/
theorem C26_calc_n_m_1_history [LongDouble] {p : ℕ} [Fact p.Prime] (hlt : p < 2 ^ 63) (h3 : 3 < p) {n : ℕ} (hn : 1 ≤ n) (hn' : n ≤ 10 ^ 15)
    (a : FFMap (ZMod p)) (ha : WFMap n a) (had : DegsBelow (p - 1) a) (ops : List (PolyOp (ZMod p)))
    (hops : ∀ op ∈ ops, OpOK n op ∧ OpDegs (p - 1) op) (x : List (ZMod p)) (hx : n - 1 ≤ x.length) :
    let o := ops.foldl (PolyObj.step (hornerEvalZ p)) (PolyObj.mk' n a)
    (o.calcNM1 (hornerEvalZ p) x).2 = some (MvPolynomial.eval (fun i => (1 :: x).getD i 0) (denote o.coefs)) := by
  classical
  let he' : ℕ → FFMap (ZMod p) → List (ZMod p) → Option (ZMod p) := fun k m x =>
    if m ≠ [] ∧ DegsBelow (p - 1) m then hornerEvalZ p k m x else PolyFF.calcNM1 k m x
  have hhe : ∀ m x, WFMap n m → n - 1 ≤ x.length → he' n m x = some (MvPolynomial.eval (fun i => (1 :: x).getD i 0) (denote m)) := by
    intro m x hm hx
    simp only [he']
    split
    · rename_i h
      exact C26_horner_cache hlt h3 hn hn' hm h.1 h.2 hx
    · exact C15_calc_n_m_1 hm hn x hx
  have hsame : ∀ (ops : List (PolyOp (ZMod p))) (o : PolyObj (ZMod p)), ops.foldl (PolyObj.step (hornerEvalZ p)) o = ops.foldl (PolyObj.step he') o := by
    intro ops
    induction ops with
    | nil => intro o; rfl
    | cons op ops ih => intro o; rw [List.foldl_cons, List.foldl_cons, ih, step_he (hornerEvalZ p) he']
  have hinv : ∀ (ops : List (PolyOp (ZMod p))) (o : PolyObj (ZMod p)), (∀ op ∈ ops, OpOK n op ∧ OpDegs (p - 1) op) → CacheInv (p - 1) o →
      CacheInv (p - 1) (ops.foldl (PolyObj.step (hornerEvalZ p)) o) := by
    intro ops
    induction ops with
    | nil => intro o _ h; exact h
    | cons op ops ih =>
      intro o hok h
      rw [List.foldl_cons]
      exact ih _ (fun q hq => hok q (by simp [hq])) (cacheInv_step _ h op (hok op (by simp)).2)
  have key := C15_calc_n_m_1_history hn he' hhe a ha ops (fun op h => (hops op h).1) x hx
  intro o
  have hi : CacheInv (p - 1) o := hinv ops _ hops ⟨had, by simp [PolyObj.mk']⟩
  simp only at key
  rw [← hsame] at key
  rw [← key]
  show (o.calcNM1 (hornerEvalZ p) x).2 = (o.calcNM1 he' x).2
  unfold PolyObj.calcNM1
  split
  · rename_i hh
    simp only [he']
    rw [if_pos ⟨by intro h0; rw [h0] at hh; simp at hh, hi.1⟩]
  · split
    · rename_i _ hev
      simp only [he']
      rw [if_pos (hi.2 hev)]
    · rfl

/-- the generated strings and a Horner evaluation, concretely: `3 x^2 y + 2 x + 5` -/
example : generateHornerFF [([2, 1], 3), ([1, 0], 2), ([0, 0], 5)] ["x".toList, "y".toList] 0 = "(x*(y*3)+2)*x+5".toList ∧
    generateHornerRN [([2, 1], ⟨3, 1⟩), ([1, 0], ⟨-2, 7⟩), ([0, 0], ⟨5, 1⟩)] ["x".toList, "y".toList] 0 = "((3*y)*x+(-2/7))*x+5".toList ∧
    WFMap 2 [([2, 1], 3), ([1, 0], 2), ([0, 0], 5)] := by
  refine ⟨by decide +kernel, by decide +kernel, by decide, by decide⟩

end FireFly
