import Verif.Lemmas.FactorOne
import Verif.Lemmas.FactorRounds
set_option linter.all false
/-! # C52: the scan finds the factors that depend on one variable only -/
namespace FireFly
open Polynomial FFMap

/-! ## one prime field -/

/-- C52, one prime field: the numerators (denominators) of the two scans are `Na = a * h * Ga` and `Nb = b * h * Gb` with constants `a`, `b`. If the random values of the other variables are such that `Ga`, `Gb` have no common factor with each other and with `h`,
what is found is exactly `h`, each of its coefficients once. -/
theorem C52_one_prime {p : ℕ} [Fact p.Prime] {Na Nb h Ga Gb : (ZMod p)[X]} {a b : ZMod p} {la lb : Factorization p} (hla : IsFactorization Na la) (hlb : IsFactorization Nb lb) (ha : a ≠ 0) (hb : b ≠ 0)
    (ea : Na = C a * h * Ga) (eb : Nb = C b * h * Gb) (hm : h.Monic) (hGa : IsCoprime h Ga) (hGb : IsCoprime h Gb) (hG : IsCoprime Ga Gb) :
    Lists h (commonFactor la lb) := by
  have e := canonical_eq hla hlb ha hb ea eb hm hGa hGb hG
  exact canonicalMap_lists lb _ h e (by rw [commonPos_one la lb hlb, e])

open Classical in
/-- C52, one prime field, without any assumption on the random values: what is found divides the polynomials of both scans. -/
theorem C52_divides {p : ℕ} [Fact p.Prime] {Na Nb : (ZMod p)[X]} {la lb : Factorization p} (hla : IsFactorization Na la) (hlb : IsFactorization Nb lb) :
    ∃ f : (ZMod p)[X], f.Monic ∧ f ∣ Na ∧ f ∣ Nb ∧ Lists f (commonFactor la lb) := by
  refine ⟨canonicalProduct lb (commonPos la lb), ?_, ?_, ?_, canonicalMap_lists lb _ _ rfl (commonPos_one la lb hlb)⟩
  · rw [canonicalProduct_eq]
    have hg : ∀ l : List ((ZMod p)[X]), (∀ f ∈ l, f.Monic) → l.prod.Monic := by
      intro l
      induction l with
      | nil => intro _; simp [monic_one]
      | cons a l ih => intro h; rw [List.prod_cons]; exact (h a (by simp)).mul (ih fun g hg => h g (by simp [hg]))
    apply hg
    intro f hf
    obtain ⟨t, ht, rfl⟩ := List.mem_map.mp hf
    exact (hlb.monic t (List.mem_filter.mp ht).1).pow _
  · rw [canonicalProduct_eq]
    apply prod_dvd_of_pairwise
    · exact hlb.pairwise _ List.filter_sublist
    · intro f hf
      obtain ⟨t, ht, rfl⟩ := List.mem_map.mp hf
      exact hla.dvd (by simpa using (List.mem_filter.mp ht).2)
  · rw [canonicalProduct_eq]
    exact filter_prod_dvd hlb _

/-- C52: the degree that is used from now on is the one of the function without the factor. -/
theorem C52_degree {p : ℕ} [Fact p.Prime] {N h G : (ZMod p)[X]} {a : ZMod p} (ha : a ≠ 0) (hm : h.Monic) (hG : G ≠ 0) (e : N = C a * h * G) (m : FFMap (ZMod p)) (hl : Lists h m) :
    reducedDeg N.natDegree m = G.natDegree := by
  unfold reducedDeg
  rw [maxPower_lists hl hm, e, mul_assoc, natDegree_C_mul ha, natDegree_mul hm.ne_zero hG]
  omega

/-- C52: if the polynomial found is the factor `h` over the rational numbers modulo `p`, this is what the prime field `p` shows of `h`. -/
theorem C52_residues {p : ℕ} [Fact p.Prime] (h : ℚ[X]) (hm : h.Monic) (hp : (ZMod p)[X]) (e : ∀ k, hp.coeff k = ((h.coeff k : ℚ) : ZMod p)) (m : FFMap (ZMod p)) (hl : Lists hp m) : ListsMod p h m := by
  refine ⟨hl.1, fun k v => ?_⟩
  rw [hl.2]
  have h1 : hp = 1 ↔ h = 1 := by
    constructor
    · intro h'
      by_contra hne
      have hd : h.natDegree ≠ 0 := fun h0 => hne (hm.natDegree_eq_zero.mp h0)
      have := e h.natDegree
      rw [h', hm.coeff_natDegree, coeff_one, if_neg hd] at this
      simp at this
    · intro h'
      ext k
      rw [e, h', coeff_one, coeff_one]
      split_ifs <;> simp
  rw [Ne, Ne, h1]
  simp only [e]

/-! ## the prime fields -/

/-- C52, several prime fields: the scan does not fail. A function is reported at most once, and only if it has a factor. What is reported is exact; or it passes the test in one of the prime fields although the primes before did not suffice for all functions, and
agrees with the factor modulo these primes. If the primes before the last one suffice for all coefficients, all factors are reported. -/
theorem C52_scan {inv : ℤ → ℤ → ℤ} (hinv : InvertSpec inv) (items : ℕ) (hN hD : ℕ → ℚ[X]) (r : FacRound) (rs : List FacRound) (hs : Sees items hN hD (r :: rs)) :
    ∃ st, facScan inv items (r :: rs) = some st ∧ (st.out.map Prod.fst).Nodup ∧
      (∀ t ∈ st.out, t.1 < items ∧ (hN t.1 ≠ 1 ∨ hD t.1 ≠ 1) ∧ Reported items hN hD (r :: rs) t) ∧
      (rs ≠ [] → AllSmall items hN hD (primeProduct (r :: rs).dropLast) → ∀ i < items, hN i ≠ 1 ∨ hD i ≠ 1 → ∃ g, (i, g) ∈ st.out) := by
  have h0 := init_spec52 (hs.prefix (show [r] <+: r :: rs from ⟨rs, rfl⟩))
  obtain ⟨st, e, o1, o2, o3, o4, o4', o5⟩ := loop_spec52 hinv rs [r] _ (by simp) (by simpa using hs) h0
  refine ⟨st, e, o4, ?_, ?_⟩
  · intro t ht
    have hlt := o4' t.1 (List.mem_map.mpr ⟨t, ht, rfl⟩)
    exact ⟨hlt, (o2 t.1 hlt).1 (Or.inr (List.mem_map.mpr ⟨t, ht, rfl⟩)), by simpa using o1 t ht⟩
  · intro hne hall i hi hf
    have hact : st.active = [] := by
      apply o5 hne
      have : (r :: rs).dropLast = [r] ++ rs.dropLast := by
        rcases rs with _ | ⟨r', rs⟩
        · exact absurd rfl hne
        · rfl
      rwa [← this]
    have := (o2 i hi).2 hf
    rw [hact] at this
    simp only [List.not_mem_nil, false_or, List.mem_map] at this
    obtain ⟨⟨j, g⟩, hj, rfl⟩ := this
    exact ⟨g, hj⟩

/-- C52: if the product of the primes of all but the last prime field exceeds twice the square of every numerator and denominator after the first prime field already, all factors are exact. -/
theorem C52_exact {inv : ℤ → ℤ → ℤ} (hinv : InvertSpec inv) (items : ℕ) (hN hD : ℕ → ℚ[X]) (r : FacRound) (rs : List FacRound) (hs : Sees items hN hD (r :: rs)) (hne : rs ≠ []) (hsmall : AllSmall items hN hD r.p) :
    ∃ st, facScan inv items (r :: rs) = some st ∧ (∀ t ∈ st.out, Exactly (hN t.1) t.2.1 ∧ Exactly (hD t.1) t.2.2) ∧ ∀ i < items, hN i ≠ 1 ∨ hD i ≠ 1 → ∃ g, (i, g) ∈ st.out := by
  have mono : ∀ l : List FacRound, l ≠ [] → l <+: r :: rs → AllSmall items hN hD (primeProduct l) := by
    intro l hl hp
    have : (r.p : ℤ) ≤ primeProduct l := by
      rcases l with _ | ⟨a, l⟩
      · exact absurd rfl hl
      · obtain ⟨z, hz⟩ := hp
        simp only [List.cons_append, List.cons.injEq] at hz
        obtain ⟨rfl, -⟩ := hz
        have h1 := primeProduct_pos l
        have e : primeProduct (a :: l) = a.p * primeProduct l := by simp [primeProduct]
        rw [e]
        have : (0 : ℤ) < a.p := by exact_mod_cast a.prime.out.pos
        nlinarith
    intro i hi
    exact ⟨fun e => ⟨lt_of_lt_of_le ((hsmall i hi).1 e).1 this, lt_of_lt_of_le ((hsmall i hi).1 e).2 this⟩, fun e => ⟨lt_of_lt_of_le ((hsmall i hi).2 e).1 this, lt_of_lt_of_le ((hsmall i hi).2 e).2 this⟩⟩
  obtain ⟨st, e, -, o1, o2⟩ := C52_scan hinv items hN hD r rs hs
  refine ⟨st, e, ?_, o2 hne (mono _ ?_ (List.dropLast_prefix _))⟩
  · intro t ht
    rcases (o1 t ht).2.2 with h | ⟨pre, r', h1, h2, h3, -⟩
    · exact h
    · exact absurd (mono pre h1 ((List.prefix_append _ _).trans h2)) h3
  · rcases rs with _ | ⟨r', rs⟩
    · exact absurd rfl hne
    · simp
/-! ## examples and defects -/

lemma linear_coeff (c : ℚ) (e : ℕ) : (X + C c : ℚ[X]).coeff e = if e = 0 then c else if e = 1 then 1 else 0 := by
  rw [coeff_add, coeff_X, coeff_C]
  rcases e with _ | _ | e <;> simp

lemma linear_ne_one (c : ℚ) : (X + C c : ℚ[X]) ≠ 1 := by
  intro h
  have := congrArg (fun f => f.coeff 1) h
  simp [coeff_X, coeff_C, coeff_one] at this

/-- what the prime field `p` shows of the factor `x + c` -/
def linearMap (p : ℕ) [Fact p.Prime] (c : ℚ) : FFMap (ZMod p) := if (c : ZMod p) = 0 then [([1], 1)] else [([1], 1), ([0], (c : ZMod p))]

lemma linear_lists (p : ℕ) [Fact p.Prime] (c : ℚ) : ListsMod p (X + C c) (linearMap p c) := by
  unfold linearMap
  constructor
  · split_ifs <;> simp
  · intro k v
    simp only [linear_coeff]
    split_ifs with h
    · simp only [List.mem_singleton, Prod.mk.injEq]
      constructor
      · rintro ⟨rfl, rfl⟩
        exact ⟨linear_ne_one c, 1, rfl, by simp, one_ne_zero⟩
      · rintro ⟨-, e, rfl, rfl, h2⟩
        rcases e with _ | _ | e
        · simp [h] at h2
        · simp
        · simp at h2
    · simp only [List.mem_cons, Prod.mk.injEq, List.not_mem_nil, or_false]
      constructor
      · rintro (⟨rfl, rfl⟩ | ⟨rfl, rfl⟩)
        · exact ⟨linear_ne_one c, 1, rfl, by simp, one_ne_zero⟩
        · exact ⟨linear_ne_one c, 0, rfl, by simp, h⟩
      · rintro ⟨-, e, rfl, rfl, h2⟩
        rcases e with _ | _ | e
        · right; simp
        · left; simp
        · simp at h2

lemma one_lists (p : ℕ) [Fact p.Prime] : ListsMod p (1 : ℚ[X]) [] := ⟨by simp, fun k v => by simp⟩

lemma linear_good {p : ℕ} [hp : Fact p.Prime] {c : ℚ} (h1 : ¬ (p : ℤ) ∣ c.num) (h2 : ¬ (p : ℤ) ∣ c.den) : GoodPrime p (X + C c) := by
  intro e he
  have hp1 : ¬ (p : ℤ) ∣ 1 := by
    intro h
    have := Int.le_of_dvd one_pos h
    have := hp.out.one_lt
    omega
  rw [linear_coeff]
  rw [mem_support_iff, linear_coeff] at he
  split_ifs at he ⊢ with a b
  · exact ⟨h1, h2⟩
  · simpa using hp1
  · exact absurd rfl he

lemma one_good {p : ℕ} [hp : Fact p.Prime] : GoodPrime p (1 : ℚ[X]) := by
  have hp1 : ¬ (p : ℤ) ∣ 1 := by
    intro h
    have := Int.le_of_dvd one_pos h
    have := hp.out.one_lt
    omega
  intro e he
  rw [mem_support_iff, coeff_one] at he
  rw [coeff_one]
  split_ifs at he ⊢ with a
  · simpa using hp1
  · exact absurd rfl he

lemma linear_small {c : ℚ} {M : ℤ} (h0 : 2 < M) (h1 : 2 * c.num ^ 2 < M) (h2 : 2 * (c.den : ℤ) ^ 2 < M) : SmallFor M (X + C c) := by
  intro e
  rw [linear_coeff]
  split_ifs
  · exact ⟨h1, h2⟩
  · constructor <;> simpa using h0
  · constructor
    · simp; omega
    · simpa using h0

lemma one_small {M : ℤ} (h0 : 2 < M) : SmallFor M (1 : ℚ[X]) := by
  intro e
  rw [coeff_one]
  split_ifs
  · constructor <;> simpa using h0
  · constructor
    · simp; omega
    · simpa using h0

/-- a prime field that sees the functions with the factors `x + 1/3` in the numerator (function 0) and `x - 2` in the denominator (function 1); function 2 has no factor -/
def exampleRound (p : ℕ) (h : Fact p.Prime) : FacRound :=
  ⟨p, h, fun i => if i = 0 then (linearMap p (1 / 3), []) else if i = 1 then ([], linearMap p (-2)) else ([], []), fun _ => 5⟩

/-- Non-vacuity of C52: the hypotheses hold for three functions in the prime fields 101, 103. -/
example : ∃ st, facScan mpzInvert 3 [exampleRound 101 ⟨by norm_num⟩, exampleRound 103 ⟨by norm_num⟩] = some st ∧
    (∀ t ∈ st.out, Exactly (if t.1 = 0 then X + C (1 / 3) else 1) t.2.1 ∧ Exactly (if t.1 = 1 then X + C (-2) else 1) t.2.2) ∧
    (∃ g, (0, g) ∈ st.out) ∧ ∃ g, (1, g) ∈ st.out := by
  have e3 : ((1 / 3 : ℚ)).num = 1 ∧ ((1 / 3 : ℚ)).den = 3 := by constructor <;> decide +kernel
  have sees : Sees 3 (fun i => if i = 0 then X + C (1 / 3 : ℚ) else 1) (fun i => if i = 1 then X + C (-2 : ℚ) else 1) [exampleRound 101 ⟨by norm_num⟩, exampleRound 103 ⟨by norm_num⟩] := by
    refine ⟨by simp [exampleRound], ?_, ?_, ?_, ?_, ?_, ?_⟩
    · intro r hr i _
      haveI := r.prime
      have : (r.canon i).1 = if i = 0 then linearMap r.p (1 / 3) else [] := by
        simp only [List.mem_cons, List.not_mem_nil, or_false] at hr
        rcases hr with rfl | rfl <;> · simp only [exampleRound]; split_ifs <;> rfl
      rw [this]
      split_ifs
      · exact linear_lists _ _
      · exact one_lists _
    · intro r hr i _
      haveI := r.prime
      have : (r.canon i).2 = if i = 1 then linearMap r.p (-2) else [] := by
        simp only [List.mem_cons, List.not_mem_nil, or_false] at hr
        rcases hr with rfl | rfl <;> · simp only [exampleRound]; split_ifs <;> first | rfl | omega
      rw [this]
      split_ifs
      · exact linear_lists _ _
      · exact one_lists _
    · intro r hr i _
      haveI := r.prime
      split_ifs
      · apply linear_good
        · rw [e3.1]
          simp only [List.mem_cons, List.not_mem_nil, or_false] at hr
          rcases hr with rfl | rfl <;> · simp only [exampleRound]; decide
        · rw [e3.2]
          simp only [List.mem_cons, List.not_mem_nil, or_false] at hr
          rcases hr with rfl | rfl <;> · simp only [exampleRound]; decide
      · exact one_good
    · intro r hr i _
      haveI := r.prime
      split_ifs
      · apply linear_good
        · simp only [List.mem_cons, List.not_mem_nil, or_false] at hr
          rcases hr with rfl | rfl <;> · simp only [exampleRound]; decide
        · simp only [List.mem_cons, List.not_mem_nil, or_false] at hr
          rcases hr with rfl | rfl <;> · simp only [exampleRound]; decide
      · exact one_good
    · intro i _
      split_ifs
      · exact monic_X_add_C _
      · exact monic_one
    · intro i _
      split_ifs
      · exact monic_X_add_C _
      · exact monic_one
  have small : AllSmall 3 (fun i => if i = 0 then X + C (1 / 3 : ℚ) else 1) (fun i => if i = 1 then X + C (-2 : ℚ) else 1) ((exampleRound 101 ⟨by norm_num⟩).p : ℕ) := by
    intro i _
    simp only [exampleRound]
    constructor
    · split_ifs
      · exact linear_small (by norm_num) (by rw [e3.1]; norm_num) (by rw [e3.2]; norm_num)
      · exact one_small (by norm_num)
    · split_ifs
      · exact linear_small (by norm_num) (by norm_num) (by norm_num)
      · exact one_small (by norm_num)
  have hinv : InvertSpec mpzInvert := mpzInvert_spec
  obtain ⟨st, e, h1, h2⟩ := C52_exact hinv 3 _ _ _ _ sees (by simp) small
  exact ⟨st, e, h1, h2 0 (by norm_num) (Or.inl (by simp only [if_true]; exact linear_ne_one _)), h2 1 (by norm_num) (Or.inr (by simp only [if_true]; exact linear_ne_one _))⟩

/-- a prime field that sees one function with the factor `x + 35` in the numerator -/
def lostRound (p : ℕ) (h : Fact p.Prime) : FacRound := ⟨p, h, fun _ => (linearMap p 35, []), fun _ => 1⟩

/-- C52 fails without the condition on the numerators of the coefficients: the factor is `x + 35`, the second prime is 5, which divides 35. In this prime field the coefficient is missing and its residue is not updated (`combine_primes` visits only the coefficients that
occur in the new prime field). The primes 11, 5, 13, 17 suffice for this factor, but it is not reported in the next prime field, and as long as this is so further primes are requested. -/
theorem C52_lost_residue_violated :
    ∃ rs : List FacRound, (rs.map FacRound.p).Nodup ∧ (∀ r ∈ rs, @ListsMod r.p r.prime (X + C (35 : ℚ)) (r.canon 0).1 ∧ @ListsMod r.p r.prime (1 : ℚ[X]) (r.canon 0).2) ∧
      SmallFor (primeProduct rs.dropLast) (X + C (35 : ℚ)) ∧ ∃ st, facScan mpzInvert 1 rs = some st ∧ st.active = [0] ∧ st.out = [] := by
  refine ⟨[lostRound 11 ⟨by norm_num⟩, lostRound 5 ⟨by norm_num⟩, lostRound 13 ⟨by norm_num⟩, lostRound 17 ⟨by norm_num⟩, lostRound 19 ⟨by norm_num⟩], by simp [lostRound], ?_, ?_, ?_⟩
  · intro r hr
    haveI := r.prime
    have : r.canon 0 = (linearMap r.p 35, []) := by
      simp only [List.mem_cons, List.not_mem_nil, or_false] at hr
      rcases hr with rfl | rfl | rfl | rfl | rfl <;> rfl
    rw [this]
    exact ⟨linear_lists _ _, one_lists _⟩
  · have : primeProduct ([lostRound 11 ⟨by norm_num⟩, lostRound 5 ⟨by norm_num⟩, lostRound 13 ⟨by norm_num⟩, lostRound 17 ⟨by norm_num⟩, lostRound 19 ⟨by norm_num⟩] : List FacRound).dropLast = 12155 := by
      simp [primeProduct, lostRound]
    rw [this]
    exact linear_small (by norm_num) (by norm_num) (by norm_num)
  · have h : (facScan mpzInvert 1 [lostRound 11 ⟨by norm_num⟩, lostRound 5 ⟨by norm_num⟩, lostRound 13 ⟨by norm_num⟩, lostRound 17 ⟨by norm_num⟩, lostRound 19 ⟨by norm_num⟩]).map (fun s => (s.active, s.out.length)) = some ([0], 0) := by
      decide +kernel
    rw [Option.map_eq_some_iff] at h
    obtain ⟨st, h1, h2⟩ := h
    simp only [Prod.mk.injEq, List.length_eq_zero_iff] at h2
    exact ⟨st, h1, h2.1, h2.2⟩

/-- a prime field that sees two functions with the factors `x + 50` and `x + 1/3` -/
def lateRound (p : ℕ) (h : Fact p.Prime) : FacRound := ⟨p, h, fun i => if i = 0 then (linearMap p 50, []) else (linearMap p (1 / 3), []), fun _ => 1⟩

/-- The modulus is overwritten while the functions are visited: alone the second function is reported in the second prime field, together with the first one, which needs more primes, it is not, because its residue modulo 23 is taken as one modulo 23 * 29. -/
theorem C52_modulus_violated :
    (facScan mpzInvert 1 [{ lateRound 23 ⟨by norm_num⟩ with canon := fun _ => (lateRound 23 ⟨by norm_num⟩).canon 1 }, { lateRound 29 ⟨by norm_num⟩ with canon := fun _ => (lateRound 29 ⟨by norm_num⟩).canon 1 }]).map (fun s => (s.active, s.out.map Prod.fst)) = some ([], [0]) ∧
      (facScan mpzInvert 2 [lateRound 23 ⟨by norm_num⟩, lateRound 29 ⟨by norm_num⟩]).map (fun s => (s.active, s.out.map Prod.fst)) = some ([0, 1], []) := by
  constructor <;> decide +kernel

instance fact_prime_seven : Fact (Nat.Prime 7) := ⟨by norm_num⟩

/-- Non-vacuity of `C52_one_prime`: `(x + 1)^2 (x + 3)` and `2 (x + 1)^2 (x + 4)` modulo 7. -/
example : Lists ((X + C 1) ^ 2 : (ZMod 7)[X]) (commonFactor [(X + C 1, 2), (X + C 3, 1)] [(X + C 4, 1), (X + C 1, 2)]) := by
  have irr : ∀ a : ZMod 7, Irreducible (X + C a) := fun a => irreducible_of_degree_eq_one (degree_X_add_C a)
  have cop : ∀ a b : ZMod 7, a ≠ b → IsCoprime (X + C a : (ZMod 7)[X]) (X + C b) := fun a b h =>
    coprime_of_ne (irr a) (irr b) (monic_X_add_C a) (monic_X_add_C b) fun e => h (by
      have := congrArg (fun f => f.coeff 0) e
      simpa using this)
  have inj : ∀ a b : ZMod 7, (X + C a : (ZMod 7)[X]) = X + C b → a = b := fun a b e => by
    have := congrArg (fun f => f.coeff 0) e
    simpa using this
  refine C52_one_prime (Na := C 1 * (X + C 1) ^ 2 * (X + C 3)) (Nb := C 2 * (X + C 1) ^ 2 * (X + C 4)) (a := 1) (b := 2) ?_ ?_ one_ne_zero (by decide) rfl rfl ((monic_X_add_C 1).pow 2)
    (cop 1 3 (by decide)).pow_left (cop 1 4 (by decide)).pow_left (cop 3 4 (by decide))
  · refine ⟨?_, ?_, ?_, ?_, 1, one_ne_zero, ?_⟩
    · intro t ht; simp only [List.mem_cons, List.not_mem_nil, or_false] at ht; rcases ht with rfl | rfl <;> exact monic_X_add_C _
    · intro t ht; simp only [List.mem_cons, List.not_mem_nil, or_false] at ht; rcases ht with rfl | rfl <;> exact irr _
    · intro t ht; simp only [List.mem_cons, List.not_mem_nil, or_false] at ht; rcases ht with rfl | rfl <;> norm_num
    · simp only [List.map_cons, List.map_nil, List.nodup_cons, List.mem_singleton, List.not_mem_nil, not_false_eq_true, List.nodup_nil, and_true]
      exact fun e => absurd (inj _ _ e) (by decide)
    · simp only [List.map_cons, List.map_nil, List.prod_cons, List.prod_nil]; ring
  · refine ⟨?_, ?_, ?_, ?_, 2, by decide, ?_⟩
    · intro t ht; simp only [List.mem_cons, List.not_mem_nil, or_false] at ht; rcases ht with rfl | rfl <;> exact monic_X_add_C _
    · intro t ht; simp only [List.mem_cons, List.not_mem_nil, or_false] at ht; rcases ht with rfl | rfl <;> exact irr _
    · intro t ht; simp only [List.mem_cons, List.not_mem_nil, or_false] at ht; rcases ht with rfl | rfl <;> norm_num
    · simp only [List.map_cons, List.map_nil, List.nodup_cons, List.mem_singleton, List.not_mem_nil, not_false_eq_true, List.nodup_nil, and_true]
      exact fun e => absurd (inj _ _ e) (by decide)
    · simp only [List.map_cons, List.map_nil, List.prod_cons, List.prod_nil]; ring

end FireFly
