import Verif.Spec.FactorScan
import Verif.Props.CombineProps
set_option linter.all false
/-! # The coefficients of the factors over the prime fields -/
namespace FireFly
open Polynomial FFMap

/-- the keys of the monomials of a factor -/
def IsKey (h : ℚ[X]) (k : List ℕ) : Prop := h ≠ 1 ∧ ∃ e, k = [e] ∧ h.coeff e ≠ 0

/-- the residues modulo `M` of the coefficients -/
def ResSide (M : ℤ) (h : ℚ[X]) (m : MpzMap) : Prop :=
  (m.map Prod.fst).Nodup ∧ (∀ k, k ∈ m.map Prod.fst ↔ IsKey h k) ∧ ∀ e v, ([e], v) ∈ m → Reduces (h.coeff e) v M

section
variable {p : ℕ} [hp : Fact p.Prime]

lemma cast_ne_zero_of_good {h : ℚ[X]} (hg : GoodPrime p h) {e : ℕ} (he : h.coeff e ≠ 0) : ((h.coeff e : ℚ) : ZMod p) ≠ 0 := by
  have h1 := hg e (mem_support_iff.mpr he)
  rw [Rat.cast_def]
  apply div_ne_zero
  · intro h2
    rw [ZMod.intCast_zmod_eq_zero_iff_dvd] at h2
    exact h1.1 h2
  · intro h2
    rw [ZMod.natCast_eq_zero_iff] at h2
    exact h1.2 (by exact_mod_cast h2)

lemma canon_mem {h : ℚ[X]} {m : FFMap (ZMod p)} (hm : ListsMod p h m) (hg : GoodPrime p h) (k : List ℕ) (v : ZMod p) :
    (k, v) ∈ m ↔ h ≠ 1 ∧ ∃ e, k = [e] ∧ h.coeff e ≠ 0 ∧ v = ((h.coeff e : ℚ) : ZMod p) := by
  rw [hm.2]
  constructor
  · rintro ⟨h1, e, rfl, rfl, h2⟩
    exact ⟨h1, e, rfl, fun h3 => h2 (by rw [h3]; simp), rfl⟩
  · rintro ⟨h1, e, rfl, h2, rfl⟩
    exact ⟨h1, e, rfl, rfl, cast_ne_zero_of_good hg h2⟩

lemma canon_keys {h : ℚ[X]} {m : FFMap (ZMod p)} (hm : ListsMod p h m) (hg : GoodPrime p h) (k : List ℕ) : k ∈ m.map Prod.fst ↔ IsKey h k := by
  rw [List.mem_map]
  constructor
  · rintro ⟨⟨k', v⟩, h1, rfl⟩
    obtain ⟨h2, e, h3, h4, -⟩ := (canon_mem hm hg _ _).1 h1
    exact ⟨h2, e, h3, h4⟩
  · rintro ⟨h2, e, rfl, h4⟩
    exact ⟨([e], _), (canon_mem hm hg _ _).2 ⟨h2, e, rfl, h4, rfl⟩, rfl⟩

lemma good_den {h : ℚ[X]} (hg : GoodPrime p h) {e : ℕ} (he : h.coeff e ≠ 0) : ¬ (p : ℤ) ∣ (h.coeff e).den := (hg e (mem_support_iff.mpr he)).2

lemma init_side {h : ℚ[X]} {m : FFMap (ZMod p)} (hm : ListsMod p h m) (hg : GoodPrime p h) : ResSide p h (convertToMpz m) := by
  have hk : (convertToMpz m).map Prod.fst = m.map Prod.fst := by simp [convertToMpz, List.map_map, Function.comp_def]
  refine ⟨by rw [hk]; exact hm.1, by rw [hk]; exact canon_keys hm hg, ?_⟩
  intro e v hv
  unfold convertToMpz at hv
  obtain ⟨⟨k, w⟩, h1, h2⟩ := List.mem_map.mp hv
  simp only [Prod.mk.injEq] at h2
  obtain ⟨rfl, rfl⟩ := h2
  obtain ⟨-, e', h3, h4, rfl⟩ := (canon_mem hm hg _ _).1 h1
  simp only [List.cons.injEq, and_true] at h3
  subst h3
  exact reduces_cast p _ (good_den hg h4)

lemma canon_nil {h : ℚ[X]} {m : FFMap (ZMod p)} (hm : ListsMod p h m) (hg : GoodPrime p h) (hmon : h.Monic) : m = [] ↔ h = 1 := by
  constructor
  · intro e
    by_contra h1
    have : IsKey h [h.natDegree] := ⟨h1, h.natDegree, rfl, by rw [hmon.coeff_natDegree]; exact one_ne_zero⟩
    rw [← canon_keys hm hg, e] at this
    simp at this
  · intro e
    rcases m with _ | ⟨⟨k, v⟩, m⟩
    · rfl
    · exact absurd e ((canon_mem hm hg k v).1 (by simp)).1

/-! ### the guesses -/

lemma facGuess_spec (M : ℤ) : ∀ ts : MpzMap, (∀ t ∈ ts, 0 ≤ t.2 ∧ t.2 < M) →
    ∃ o, facGuess M ts = some o ∧ ∀ g, o = some g → g.map Prod.fst = ts.map Prod.fst ∧ ∀ s ∈ g, ∃ v, (s.1, v) ∈ ts ∧ Represents s.2.num s.2.den v M
  | [], _ => ⟨some [], rfl, by rintro g ⟨⟩; simp⟩
  | t :: ts, h => by
    obtain ⟨b, w, e, s1, -⟩ := C09_sound t.2 M (h t (by simp)).1 (h t (by simp)).2
    obtain ⟨o, e2, s2⟩ := facGuess_spec M ts fun t ht => h t (by simp [ht])
    unfold facGuess
    rw [e]
    simp only [Option.bind_eq_bind, Option.bind_some]
    cases b
    · exact ⟨none, rfl, by simp⟩
    · rw [e2]
      simp only [if_true, Option.bind_some]
      refine ⟨_, rfl, ?_⟩
      intro g hg
      rw [Option.map_eq_some_iff] at hg
      obtain ⟨g', rfl, rfl⟩ := hg
      obtain ⟨h1, h2⟩ := s2 g' rfl
      refine ⟨by simp [h1], ?_⟩
      intro s hs
      rcases List.mem_cons.mp hs with rfl | hs
      · exact ⟨t.2, by simp, (s1 rfl).1⟩
      · obtain ⟨v, hv, hr⟩ := h2 s hs
        exact ⟨v, by simp [hv], hr⟩

lemma facGuess_exact (M : ℤ) (F : List ℕ → RationalNumber) : ∀ ts : MpzMap, (∀ t ∈ ts, getRationalCoef t.2 M = some (true, F t.1)) →
    facGuess M ts = some (some (ts.map fun t => (t.1, F t.1)))
  | [], _ => rfl
  | t :: ts, h => by
    unfold facGuess
    rw [h t (by simp), facGuess_exact M F ts fun t ht => h t (by simp [ht])]
    simp

lemma guess_side {M Mold : ℤ} {h : ℚ[X]} {m : MpzMap} (hm : ResSide Mold h m) (h0 : 0 < Mold) (hle : Mold ≤ M) (hdvd : Mold ∣ M) :
    ∃ o, facGuess M m = some o ∧ (∀ g, o = some g → AgreesMod Mold h g) ∧ (M = Mold → SmallFor Mold h → ∃ g, o = some g ∧ Exactly h g) := by
  have key : ∀ k v, (k, v) ∈ m → IsKey h k := fun k v hv => (hm.2.1 k).1 (List.mem_map.mpr ⟨(k, v), hv, rfl⟩)
  have bnd : ∀ t ∈ m, 0 ≤ t.2 ∧ t.2 < M := by
    rintro ⟨k, v⟩ ht
    obtain ⟨-, e, rfl, -⟩ := key k v ht
    have := hm.2.2 e v ht
    exact ⟨this.1, by have := this.2.1; simp only; omega⟩
  obtain ⟨o, e, s⟩ := facGuess_spec M m bnd
  refine ⟨o, e, ?_, ?_⟩
  · intro g hg
    obtain ⟨h1, h2⟩ := s g hg
    refine ⟨by rw [h1]; exact hm.1, by rw [h1]; exact hm.2.1, ?_⟩
    intro d v hv
    obtain ⟨a, ha, hr⟩ := h2 _ hv
    refine ⟨hr.1, hr.2.1, ?_⟩
    exact agree (hm.2.2 d a ha) (hr.2.2.of_dvd hdvd)
  · intro hM hs
    subst hM
    have e2 := facGuess_exact M (fun k => ⟨(h.coeff (k.getD 0 0)).num, (h.coeff (k.getD 0 0)).den⟩) m (by
      rintro ⟨k, v⟩ ht
      obtain ⟨-, d, rfl, -⟩ := key k v ht
      have hr := hm.2.2 d v ht
      have := hs d
      exact C10_complete v M _ _ hr.1 hr.2.1 (reduces_represents hr) this.1 this.2)
    rw [e] at e2
    simp only [Option.some.injEq] at e2
    refine ⟨_, e2, ?_, ?_⟩
    · rw [List.map_map]; exact hm.1
    · intro k v
      simp only [List.mem_map, Prod.mk.injEq]
      constructor
      · rintro ⟨⟨k', a⟩, ha, rfl, rfl⟩
        obtain ⟨h1, d, rfl, h2⟩ := key _ _ ha
        exact ⟨h1, d, rfl, h2, rfl⟩
      · rintro ⟨h1, d, rfl, h2, rfl⟩
        obtain ⟨⟨k', a⟩, ha, e⟩ := List.mem_map.mp ((hm.2.1 [d]).2 ⟨h1, d, rfl, h2⟩)
        simp only at e
        subst e
        exact ⟨_, ha, rfl, rfl⟩

/-! ### the test -/

lemma calc_value (g : RnMap) (hk : ∀ t ∈ g, ∃ e, t.1 = [e]) (x : ZMod p) : PolyFF.calc 1 (convertToFF p g) [x] = some (valueAt p g x) := by
  unfold PolyFF.calc
  rw [if_pos]
  · have hf : ∀ (l : RnMap) (a : ZMod p), (∀ t ∈ l, ∃ e, t.1 = [e]) →
        (convertToFF p l).foldl (fun res t => res + t.2 * termProduct 1 [x] t.1) a = a + valueAt p l x := by
      intro l
      induction l with
      | nil => intro a _; simp [convertToFF, valueAt]
      | cons t l ih =>
        intro a h
        have ih' := ih (a + (t.2.num : ZMod p) / (t.2.den : ZMod p) * termProduct 1 [x] t.1) (fun s hs => h s (by simp [hs]))
        unfold convertToFF at ih' ⊢
        rw [List.map_cons, List.foldl_cons]
        simp only
        rw [ih']
        obtain ⟨e, he⟩ := h t (by simp)
        have : termProduct 1 [x] t.1 = x ^ e := by rw [he]; simp [termProduct]
        rw [this]
        unfold valueAt
        rw [List.map_cons, List.sum_cons, he]
        simp only [List.getD_cons_zero]
        ring
    rw [hf g 0 hk, zero_add]
  · right
    refine ⟨by simp, ?_⟩
    intro t ht
    unfold convertToFF at ht
    obtain ⟨s, hs, rfl⟩ := List.mem_map.mp ht
    obtain ⟨e, he⟩ := hk s hs
    simp [he]

lemma foldl_canon (m : FFMap (ZMod p)) (x a : ZMod p) : m.foldl (fun s t => s + t.2 * x ^ t.1.getD 0 0) a = a + (m.map fun t => t.2 * x ^ t.1.getD 0 0).sum := by
  induction m generalizing a with
  | nil => simp
  | cons t m ih => rw [List.foldl_cons, ih, List.map_cons, List.sum_cons, add_assoc]

/-- a sum over a list of monomials is a sum over the support -/
lemma sum_support {V : Type} {h : ℚ[X]} (l : List (List ℕ × V)) (hnd : (l.map Prod.fst).Nodup) (hk : ∀ k, k ∈ l.map Prod.fst ↔ IsKey h k) (h1 : h ≠ 1) (F : ℕ → ZMod p) :
    (l.map fun t => F (t.1.getD 0 0)).sum = h.support.sum F := by
  have hone : ∀ t ∈ l, t.1 = [t.1.getD 0 0] := by
    intro t ht
    obtain ⟨-, e, he, -⟩ := (hk t.1).1 (List.mem_map.mpr ⟨t, ht, rfl⟩)
    rw [he]; simp
  have hnd2 : (l.map fun t => t.1.getD 0 0).Nodup := by
    refine List.Nodup.of_map (f := fun e => [e]) ?_
    rw [List.map_map]
    have : l.map ((fun e => [e]) ∘ fun t => t.1.getD 0 0) = l.map Prod.fst := by
      apply List.map_congr_left
      intro t ht
      exact (hone t ht).symm
    rw [this]; exact hnd
  have hset : h.support = (l.map fun t => t.1.getD 0 0).toFinset := by
    ext e
    rw [mem_support_iff, List.mem_toFinset, List.mem_map]
    constructor
    · intro he
      obtain ⟨t, ht, e'⟩ := List.mem_map.mp ((hk [e]).2 ⟨h1, e, rfl, he⟩)
      exact ⟨t, ht, by rw [e']; simp⟩
    · rintro ⟨t, ht, rfl⟩
      obtain ⟨-, e, he, h2⟩ := (hk t.1).1 (List.mem_map.mpr ⟨t, ht, rfl⟩)
      rw [he]; simpa using h2
  rw [hset, List.sum_toFinset _ hnd2, List.map_map]
  rfl

lemma canon_value {h : ℚ[X]} {m : FFMap (ZMod p)} (hm : ListsMod p h m) (hg : GoodPrime p h) (h1 : h ≠ 1) (x : ZMod p) :
    m.foldl (fun s t => s + t.2 * x ^ t.1.getD 0 0) 0 = trueAt p h x := by
  rw [foldl_canon, zero_add]
  unfold trueAt
  rw [← sum_support m hm.1 (canon_keys hm hg) h1]
  congr 1
  apply List.map_congr_left
  rintro ⟨k, v⟩ ht
  obtain ⟨-, e, rfl, -, rfl⟩ := (canon_mem hm hg k v).1 ht
  simp

lemma test_side {h : ℚ[X]} {m : FFMap (ZMod p)} (hm : ListsMod p h m) (hg : GoodPrime p h) (hmon : h.Monic) (g : RnMap) (hk : ∀ k, k ∈ g.map Prod.fst ↔ IsKey h k) (x : ZMod p) :
    ∃ b, facTest g m x = some b ∧ (b = true ↔ (h ≠ 1 → valueAt p g x = trueAt p h x)) := by
  unfold facTest
  by_cases h1 : h = 1
  · have : g = [] := by
      rcases g with _ | ⟨t, g⟩
      · rfl
      · exact absurd h1 ((hk t.1).1 (by simp)).1
    rw [if_pos this]
    exact ⟨true, rfl, by simp [h1]⟩
  · have : g ≠ [] := by
      rintro rfl
      have : IsKey h [h.natDegree] := ⟨h1, h.natDegree, rfl, by rw [hmon.coeff_natDegree]; exact one_ne_zero⟩
      rw [← hk] at this
      simp at this
    rw [if_neg this, calc_value g (fun t ht => by
      obtain ⟨-, e, he, -⟩ := (hk t.1).1 (List.mem_map.mpr ⟨t, ht, rfl⟩); exact ⟨e, he⟩), canon_value hm hg h1]
    exact ⟨_, rfl, by simp [h1]⟩

lemma exactly_keys {h : ℚ[X]} {g : RnMap} (hg : Exactly h g) (k : List ℕ) : k ∈ g.map Prod.fst ↔ IsKey h k := by
  rw [List.mem_map]
  constructor
  · rintro ⟨⟨k', v⟩, h1, rfl⟩
    obtain ⟨h2, e, h3, h4, -⟩ := (hg.2 _ _).1 h1
    exact ⟨h2, e, h3, h4⟩
  · rintro ⟨h2, e, rfl, h4⟩
    exact ⟨([e], _), (hg.2 _ _).2 ⟨h2, e, rfl, h4, rfl⟩, rfl⟩

lemma exactly_value {h : ℚ[X]} {g : RnMap} (hg : Exactly h g) (h1 : h ≠ 1) (x : ZMod p) : valueAt p g x = trueAt p h x := by
  unfold valueAt trueAt
  rw [← sum_support g hg.1 (exactly_keys hg) h1]
  congr 1
  apply List.map_congr_left
  rintro ⟨k, v⟩ ht
  obtain ⟨-, e, rfl, -, rfl⟩ := (hg.2 k v).1 ht
  simp [Rat.cast_def]

/-! ### the Chinese remainders -/

lemma reduces_crt {inv : ℤ → ℤ → ℤ} (hinv : InvertSpec inv) {c : ℚ} {r M : ℤ} (h0 : 0 < M) (hc : IsCoprime M (p : ℤ)) (hr : Reduces c r M) (hd : ¬ (p : ℤ) ∣ c.den) :
    Reduces c (runChineseRemainder inv (r, M) ((((c : ZMod p).val : ℕ) : ℤ), (p : ℤ))).1 (M * p) := by
  have hr2 := reduces_cast p c hd
  have hp0 : (0 : ℤ) < p := by exact_mod_cast hp.out.pos
  obtain ⟨-, a1, a2, a3, a4, -⟩ := C08_crt inv hinv r M _ (p : ℤ) h0 hp0 (Int.isCoprime_iff_gcd_eq_one.mp hc) hr.1 hr2.1
  refine ⟨a1, a2, ?_⟩
  have b1 : c.num ≡ (runChineseRemainder inv (r, M) ((((c : ZMod p).val : ℕ) : ℤ), (p : ℤ))).1 * c.den [ZMOD M] := hr.2.2.trans (a3.symm.mul_right _)
  have b2 : c.num ≡ (runChineseRemainder inv (r, M) ((((c : ZMod p).val : ℕ) : ℤ), (p : ℤ))).1 * c.den [ZMOD p] := hr2.2.2.trans (a4.symm.mul_right _)
  rw [Int.modEq_iff_dvd] at b1 b2 ⊢
  exact hc.mul_dvd b1 b2

lemma set_keys_mem {V : Type} (m : FFMap V) (k : List ℕ) (v : V) (hk : k ∈ m.map Prod.fst) : (m.set k v).map Prod.fst = m.map Prod.fst := by
  rw [keys_set, if_pos hk]

lemma combine_fold (inv : ℤ → ℤ → ℤ) (M : ℤ) : ∀ (canon : FFMap (ZMod p)) (m : MpzMap), (canon.map Prod.fst).Nodup → (∀ k ∈ canon.map Prod.fst, k ∈ m.map Prod.fst) →
    (facCombine inv canon m M).map Prod.fst = m.map Prod.fst ∧
      ∀ k, (facCombine inv canon m M).find? k = match canon.find? k with
        | some v => some (runChineseRemainder inv ((m.find? k).getD 0, M) ((v.val : ℤ), (p : ℤ))).1
        | none => m.find? k
  | [], m, _, _ => by simp [facCombine]
  | t :: canon, m, hnd, hk => by
    rw [List.map_cons, List.nodup_cons] at hnd
    obtain ⟨a, ha⟩ : ∃ a, (runChineseRemainder inv ((m.find? t.1).getD 0, M) ((t.2.val : ℤ), (p : ℤ))).1 = a := ⟨_, rfl⟩
    have hmem : t.1 ∈ m.map Prod.fst := hk t.1 (by simp)
    have e : facCombine inv (t :: canon) m M = facCombine inv canon (m.set t.1 a) M := by unfold facCombine; rw [List.foldl_cons, ha]
    obtain ⟨i1, i2⟩ := combine_fold inv M canon (m.set t.1 a) hnd.2 (by
      rw [set_keys_mem _ _ _ hmem]; intro k hk'; exact hk k (by simp at hk' ⊢; tauto))
    rw [e]
    refine ⟨by rw [i1, set_keys_mem _ _ _ hmem], ?_⟩
    intro k
    rw [i2]
    have ec : FFMap.find? (t :: canon) k = if k = t.1 then some t.2 else FFMap.find? canon k := FFMap.find?_cons t.1 t.2 canon k
    rw [ec]
    by_cases h : k = t.1
    · subst h
      have hnone : FFMap.find? canon t.1 = none := find?_eq_none.mpr hnd.1
      rw [hnone, if_pos rfl]
      simp only
      rw [find?_set, if_pos rfl, ha]
    · rw [if_neg h, find?_set, if_neg h]

lemma combine_side {inv : ℤ → ℤ → ℤ} (hinv : InvertSpec inv) {M : ℤ} (h0 : 0 < M) (hc : IsCoprime M (p : ℤ)) {h : ℚ[X]} {canon : FFMap (ZMod p)} {m : MpzMap}
    (hcn : ListsMod p h canon) (hg : GoodPrime p h) (hm : ResSide M h m) : ResSide (M * p) h (facCombine inv canon m M) := by
  obtain ⟨i1, i2⟩ := combine_fold inv M canon m hcn.1 (fun k hk => (hm.2.1 k).2 ((canon_keys hcn hg k).1 hk))
  refine ⟨by rw [i1]; exact hm.1, by rw [i1]; exact hm.2.1, ?_⟩
  intro e v hv
  have hnd : ((facCombine inv canon m M).map Prod.fst).Nodup := by rw [i1]; exact hm.1
  have hf := find?_of_mem hnd hv
  have hkey : IsKey h [e] := (hm.2.1 [e]).1 (by rw [← i1]; exact List.mem_map.mpr ⟨_, hv, rfl⟩)
  obtain ⟨h1, e', h2, h3⟩ := hkey
  simp only [List.cons.injEq, and_true] at h2
  subst h2
  have hcan : canon.find? [e] = some ((h.coeff e : ℚ) : ZMod p) := find?_of_mem hcn.1 ((canon_mem hcn hg _ _).2 ⟨h1, e, rfl, h3, rfl⟩)
  rw [i2, hcan] at hf
  simp only [Option.some.injEq] at hf
  obtain ⟨⟨k, a⟩, ha, hk⟩ := List.mem_map.mp ((hm.2.1 [e]).2 ⟨h1, e, rfl, h3⟩)
  simp only at hk
  subst hk
  rw [find?_of_mem hm.1 ha] at hf
  rw [← hf]
  exact reduces_crt hinv h0 hc (hm.2.2 e a ha) (good_den hg h3)
end
end FireFly
