import Verif.Lemmas.RatSafeGuess
import Verif.Props.RatRunProps
/-! # Safe interpolation: the combination of the residues of one side -/
set_option linter.all false
namespace FireFly.RRun.Safe
open MvPolynomial FFMap

/-! ## the moduli -/

lemma modulus_snoc (q : ℚ) (ps : List ℕ) (p : ℕ) : modulus q (ps ++ [p]) = modulus q ps * (if (p : ℤ) ∣ q.num then 1 else (p : ℤ)) := by
  unfold modulus; simp

lemma modulus_pos {q : ℚ} {ps : List ℕ} (h : ∀ p ∈ ps, p.Prime) : 0 < modulus q ps := by
  unfold modulus
  apply List.prod_pos
  intro x hx
  obtain ⟨p, hp, rfl⟩ := List.mem_map.mp hx
  split
  · norm_num
  · exact_mod_cast (h p hp).pos

lemma modulus_not_dvd {q : ℚ} {ps : List ℕ} (h : ∀ p ∈ ps, p.Prime) {p : ℕ} (hp : p.Prime) (hn : p ∉ ps) : ¬ (p : ℤ) ∣ modulus q ps := by
  unfold modulus
  intro hd
  have hpp := Nat.prime_iff_prime_int.mp hp
  obtain ⟨x, hx, hdx⟩ := (Prime.dvd_prod_iff hpp).mp hd
  obtain ⟨p', hp', rfl⟩ := List.mem_map.mp hx
  split at hdx
  · exact hpp.not_unit (isUnit_of_dvd_one hdx)
  · have : p ∣ p' := by exact_mod_cast hdx
    rw [(Nat.prime_dvd_prime_iff_eq hp (h p' hp')).mp this] at hn
    exact hn hp'

lemma modulus_one {q : ℚ} {ps : List ℕ} (h : ∀ p ∈ ps, (p : ℤ) ∣ q.num) : modulus q ps = 1 := by
  unfold modulus
  apply List.prod_eq_one
  intro x hx
  obtain ⟨p, hp, rfl⟩ := List.mem_map.mp hx
  rw [if_pos (h p hp)]

lemma modulus_all {q : ℚ} {ps : List ℕ} (h : ∀ p ∈ ps, ¬ (p : ℤ) ∣ q.num) : modulus q ps = (ps.map (fun p : ℕ => (p : ℤ))).prod := by
  unfold modulus
  congr 1
  apply List.map_congr_left
  intro p hp
  rw [if_neg (h p hp)]

lemma dvd_modulus {q : ℚ} {ps : List ℕ} {p : ℕ} (hp : p ∈ ps) (hn : ¬ (p : ℤ) ∣ q.num) : (p : ℤ) ∣ modulus q ps := by
  unfold modulus
  have : (p : ℤ) ∈ ps.map (fun p : ℕ => if (p : ℤ) ∣ q.num then 1 else (p : ℤ)) := List.mem_map.mpr ⟨p, hp, by rw [if_neg hn]⟩
  exact List.dvd_prod this

/-- a residue of a coefficient that has been seen is not zero -/
lemma residue_ne {q : ℚ} {ps : List ℕ} {r : ℤ} (h : Reduces q r (modulus q ps)) (hs : ∃ p ∈ ps, ¬ (p : ℤ) ∣ q.num) : r ≠ 0 := by
  rintro rfl
  obtain ⟨p, hp, hn⟩ := hs
  apply hn
  have h1 := h.2.2
  rw [zero_mul, Int.modEq_zero_iff_dvd] at h1
  exact (dvd_modulus hp hn).trans h1

lemma not_small_one (q : ℚ) : ¬ Small q 1 := by
  rintro ⟨-, h⟩
  have : (1 : ℤ) ≤ q.den := by exact_mod_cast q.den_pos
  nlinarith

/-! ## the interpolation in a prime field -/

/-- What the interpolation in the field of `p` gives for the polynomial `f`. -/
structure ResOK (k : ℕ) (f : MvPolynomial ℕ ℚ) (p : ℕ) [Fact p.Prime] (res : FFMap (ZMod p)) : Prop where
  nodup : (res.map Prod.fst).Nodup
  some : ∀ e v, res.find? e = some v → e ∈ monos k f ∧ v = ((coefOf f e : ℚ) : ZMod p) ∧ ¬ (p : ℤ) ∣ (coefOf f e).num
  none : ∀ e ∈ monos k f, res.find? e = none → (p : ℤ) ∣ (coefOf f e).num
  den : ∀ e, ¬ (p : ℤ) ∣ (coefOf f e).den

lemma cast_zero_iff {p : ℕ} [Fact p.Prime] {q : ℚ} (hd : ¬ (p : ℤ) ∣ q.den) : (q : ZMod p) = 0 ↔ (p : ℤ) ∣ q.num := by
  rw [Rat.cast_def, div_eq_zero_iff, or_iff_left (RRun.not_dvd_iff.mp hd), ZMod.intCast_zmod_eq_zero_iff_dvd]

lemma resOK {k : ℕ} {f : MvPolynomial ℕ ℚ} (hf : InVars k f) {p : ℕ} [Fact p.Prime] {res : FFMap (ZMod p)} (hw : WFMap k res) (hnz : ∀ t ∈ res, t.2 ≠ 0) (hden : denote res = red p f)
    (hd : ∀ m, ¬ (p : ℤ) ∣ (coeff m f).den) : ResOK k f p res := by
  have key : ∀ e, e.length = k → (res.find? e).getD 0 = ((coefOf f e : ℚ) : ZMod p) := by
    intro e he
    rw [RRun.coeff_find hw he, hden, RRun.red_coeff]; rfl
  have hzero : ∀ e, ((coefOf f e : ℚ) : ZMod p) = 0 ↔ (p : ℤ) ∣ (coefOf f e).num := fun e => cast_zero_iff (hd _)
  refine ⟨hw.1, ?_, ?_, fun e => hd _⟩
  · intro e v hv
    have hm := find?_mem hv
    have hl : e.length = k := hw.2 _ hm
    have hk := key e hl
    rw [hv] at hk
    have hk : v = ((coefOf f e : ℚ) : ZMod p) := hk
    have hv0 : v ≠ 0 := hnz _ hm
    refine ⟨(RRun.mem_monos hf).mpr ⟨hl, fun h0 => hv0 ?_⟩, hk, fun hdv => hv0 (hk.trans ((hzero e).mpr hdv))⟩
    rw [hk]; unfold coefOf; rw [h0]; simp
  · intro e he hnone
    have hk := key e (RRun.monos_len hf he)
    rw [hnone] at hk
    exact (hzero e).mp hk.symm

/-! ## new monomials -/

lemma grow_spec (s : Side) : ∀ {p : ℕ} (res : FFMap (ZMod p)) (m : MpzMap), (res.map Prod.fst).Nodup →
    res.foldl (fun (m : MpzMap) t => if (m.find? t.1).isNone ∧ (s.g.find? t.1).isNone then m ++ [(t.1, 0)] else m) m =
      m ++ (res.filter (fun t => (m.find? t.1).isNone ∧ (s.g.find? t.1).isNone)).map (fun t => (t.1, (0 : ℤ)))
  | p, [], m, _ => by simp
  | p, t :: res, m, hnd => by
    rw [List.map_cons, List.nodup_cons] at hnd
    rw [List.foldl_cons]
    have hfil : ∀ m' : MpzMap, (∀ k, k ≠ t.1 → m'.find? k = m.find? k) → res.filter (fun u => (m'.find? u.1).isNone ∧ (s.g.find? u.1).isNone) = res.filter (fun u => (m.find? u.1).isNone ∧ (s.g.find? u.1).isNone) := by
      intro m' hm'
      apply List.filter_congr
      intro u hu
      rw [hm' u.1 (fun h => hnd.1 (h ▸ List.mem_map_of_mem hu))]
    by_cases hc : (m.find? t.1).isNone ∧ (s.g.find? t.1).isNone
    · rw [if_pos hc, grow_spec s res _ hnd.2, List.filter_cons_of_pos (by simpa using hc), hfil]
      · simp
      · intro k hk
        rw [find?_append]
        cases hm : m.find? k with
        | some v => rfl
        | none =>
          simp only [Option.none_or]
          rw [find?_eq_none]
          simpa using hk
    · rw [if_neg hc, grow_spec s res _ hnd.2, List.filter_cons_of_neg (by simpa using hc)]

lemma grow_eq (s : Side) {p : ℕ} (res : FFMap (ZMod p)) (hnd : (res.map Prod.fst).Nodup) :
    grow s res = s.comb ++ (res.filter (fun t => (s.comb.find? t.1).isNone ∧ (s.g.find? t.1).isNone)).map (fun t => (t.1, (0 : ℤ))) := grow_spec s res s.comb hnd

/-- the keys of the new monomials -/
lemma grow_mem (s : Side) {p : ℕ} (res : FFMap (ZMod p)) (hnd : (res.map Prod.fst).Nodup) (t : List ℕ × ℤ) :
    t ∈ grow s res ↔ t ∈ s.comb ∨ (t.2 = 0 ∧ t.1 ∉ s.comb.map Prod.fst ∧ t.1 ∉ s.g.map Prod.fst ∧ ∃ v, res.find? t.1 = some v) := by
  rw [grow_eq s res hnd, List.mem_append]
  refine or_congr Iff.rfl ?_
  rw [List.mem_map]
  constructor
  · rintro ⟨u, hu, rfl⟩
    rw [List.mem_filter] at hu
    obtain ⟨hu, hc⟩ := hu
    simp only [decide_eq_true_eq, Option.isNone_iff_eq_none, find?_eq_none] at hc
    exact ⟨rfl, hc.1, hc.2, u.2, find?_of_mem hnd hu⟩
  · rintro ⟨h0, h1, h2, v, hv⟩
    refine ⟨(t.1, v), List.mem_filter.mpr ⟨find?_mem hv, ?_⟩, ?_⟩
    · simp only [decide_eq_true_eq, Option.isNone_iff_eq_none, find?_eq_none]
      exact ⟨h1, h2⟩
    · rw [← h0]

lemma grow_nodup (s : Side) {p : ℕ} (res : FFMap (ZMod p)) (hnd : (res.map Prod.fst).Nodup) (hs : (s.g.map Prod.fst ++ s.comb.map Prod.fst).Nodup) :
    (s.g.map Prod.fst ++ (grow s res).map Prod.fst).Nodup := by
  obtain ⟨h1, h2, h3⟩ := List.nodup_append.mp hs
  rw [List.nodup_append]
  refine ⟨h1, ?_, ?_⟩
  · rw [grow_eq s res hnd, List.map_append, List.nodup_append]
    refine ⟨h2, ?_, ?_⟩
    · rw [List.map_map]
      exact ((List.filter_sublist).map Prod.fst).nodup hnd
    · intro a ha b hb hab
      subst hab
      rw [List.map_map] at hb
      obtain ⟨u, hu, hue⟩ := List.mem_map.mp hb
      rw [List.mem_filter] at hu
      have := hu.2
      simp only [decide_eq_true_eq, Option.isNone_iff_eq_none, find?_eq_none] at this
      simp only [Function.comp] at hue
      rw [hue] at this
      exact this.1 ha
  · intro a ha b hb hab
    subst hab
    obtain ⟨t, ht, rfl⟩ := List.mem_map.mp hb
    rcases (grow_mem s res hnd t).mp ht with h | ⟨-, -, h, -⟩
    · exact h3 t.1 ha t.1 (List.mem_map_of_mem h) rfl
    · exact h ha

/-! ## the Chinese remainders -/

/-- the new residue and modulus for one coefficient -/
def updated (inv : ℤ → ℤ → ℤ) {p : ℕ} (res : FFMap (ZMod p)) (primes : MpzMap) (t : List ℕ × ℤ) : Option (ℤ × ℤ) :=
  (res.find? t.1).map (fun v => if t.2 = 0 then ((v.val : ℤ), (p : ℤ)) else runChineseRemainder inv (t.2, (primes.find? t.1).getD 0) ((v.val : ℤ), (p : ℤ)))

lemma crtStep_eq (inv : ℤ → ℤ → ℤ) {p : ℕ} (res : FFMap (ZMod p)) (st : Side × ℤ) (t : List ℕ × ℤ) (hg : st.1.g.find? t.1 = none) :
    crtStep inv res st t = match updated inv res st.1.primes t with
      | none => st
      | some w => ({ st.1 with comb := st.1.comb.set t.1 w.1, primes := st.1.primes.set t.1 w.2 }, if t.2 = 0 then st.2 else w.2) := by
  unfold crtStep updated
  cases res.find? t.1 with
  | none => rfl
  | some v =>
    simp only [Option.map_some, hg, Option.isSome_none, Bool.false_eq_true, if_false]
    by_cases h0 : t.2 = 0
    · simp only [if_pos h0]
    · simp only [if_neg h0]

lemma crt_fold (inv : ℤ → ℤ → ℤ) {p : ℕ} (res : FFMap (ZMod p)) : ∀ (l : MpzMap) (st : Side × ℤ), (l.map Prod.fst).Nodup → (∀ t ∈ l, st.1.g.find? t.1 = none ∧ t.1 ∈ st.1.comb.map Prod.fst) →
    (l.foldl (crtStep inv res) st).1.g = st.1.g ∧ (l.foldl (crtStep inv res) st).1.comb.map Prod.fst = st.1.comb.map Prod.fst ∧
    (∀ k, k ∉ l.map Prod.fst → (l.foldl (crtStep inv res) st).1.comb.find? k = st.1.comb.find? k ∧ (l.foldl (crtStep inv res) st).1.primes.find? k = st.1.primes.find? k) ∧
    (∀ t ∈ l, (l.foldl (crtStep inv res) st).1.comb.find? t.1 = (match updated inv res st.1.primes t with | none => st.1.comb.find? t.1 | some w => some w.1) ∧
      (l.foldl (crtStep inv res) st).1.primes.find? t.1 = (match updated inv res st.1.primes t with | none => st.1.primes.find? t.1 | some w => some w.2)) ∧
    ((l.foldl (crtStep inv res) st).2 = st.2 ∧ (∀ t ∈ l, res.find? t.1 = none ∨ t.2 = 0) ∨ ∃ t ∈ l, ∃ w, updated inv res st.1.primes t = some w ∧ t.2 ≠ 0 ∧ (l.foldl (crtStep inv res) st).2 = w.2)
  | [], st, _, _ => ⟨rfl, rfl, fun _ _ => ⟨rfl, rfl⟩, by simp, Or.inl ⟨rfl, by simp⟩⟩
  | t :: l, st, hnd, hl => by
    rw [List.map_cons, List.nodup_cons] at hnd
    obtain ⟨hg, hk⟩ := hl t (by simp)
    obtain ⟨st1, hst1⟩ : ∃ st1, crtStep inv res st t = st1 := ⟨_, rfl⟩
    rw [List.foldl_cons, hst1]
    rw [crtStep_eq inv res st t hg] at hst1
    have hne : ∀ u ∈ l, u.1 ≠ t.1 := fun u hu h => hnd.1 (h ▸ List.mem_map_of_mem hu)
    have b1 : st1.1.g = st.1.g := by rw [← hst1]; split <;> rfl
    have b2 : st1.1.comb.map Prod.fst = st.1.comb.map Prod.fst := by
      rw [← hst1]
      split
      · rfl
      · simp only; rw [keys_set, if_pos hk]
    have b3 : ∀ k, k ≠ t.1 → st1.1.comb.find? k = st.1.comb.find? k ∧ st1.1.primes.find? k = st.1.primes.find? k := by
      intro k hkt
      rw [← hst1]
      split
      · exact ⟨rfl, rfl⟩
      · simp only; rw [find?_set, find?_set, if_neg hkt, if_neg hkt]; exact ⟨rfl, rfl⟩
    have b4 : st1.1.comb.find? t.1 = (match updated inv res st.1.primes t with | none => st.1.comb.find? t.1 | some w => some w.1) ∧
        st1.1.primes.find? t.1 = (match updated inv res st.1.primes t with | none => st.1.primes.find? t.1 | some w => some w.2) := by
      rw [← hst1]
      cases updated inv res st.1.primes t with
      | none => exact ⟨rfl, rfl⟩
      | some w => simp only; rw [find?_set, find?_set, if_pos rfl, if_pos rfl]; exact ⟨rfl, rfl⟩
    have hup : ∀ u ∈ l, updated inv res st1.1.primes u = updated inv res st.1.primes u := by
      intro u hu
      unfold updated
      rw [(b3 u.1 (hne u hu)).2]
    obtain ⟨c1, c2, c3, c4, c5⟩ := crt_fold inv res l st1 hnd.2 (fun u hu => by
      rw [b1, b2]; exact hl u (List.mem_cons_of_mem _ hu))
    refine ⟨c1.trans b1, c2.trans b2, ?_, ?_, ?_⟩
    · intro k hkn
      rw [List.map_cons, List.mem_cons, not_or] at hkn
      obtain ⟨x, y⟩ := c3 k hkn.2
      exact ⟨x.trans (b3 k hkn.1).1, y.trans (b3 k hkn.1).2⟩
    · intro u hu
      rcases List.mem_cons.mp hu with rfl | hu
      · obtain ⟨x, y⟩ := c3 u.1 hnd.1
        exact ⟨x.trans b4.1, y.trans b4.2⟩
      · obtain ⟨x, y⟩ := c4 u hu
        rw [hup u hu] at x y
        obtain ⟨z1, z2⟩ := b3 u.1 (hne u hu)
        rw [z1] at x
        rw [z2] at y
        exact ⟨x, y⟩
    · rcases c5 with ⟨x, y⟩ | ⟨u, hu, w, x, y, z⟩
      · cases hu : updated inv res st.1.primes t with
        | none =>
          left
          rw [hu] at hst1
          refine ⟨x.trans (by rw [← hst1]), fun u hu' => ?_⟩
          rcases List.mem_cons.mp hu' with rfl | hu'
          · left
            unfold updated at hu
            simpa using hu
          · exact y u hu'
        | some w =>
          rw [hu] at hst1
          by_cases h0 : t.2 = 0
          · left
            refine ⟨x.trans (by rw [← hst1]; simp only [if_pos h0]), fun u hu' => ?_⟩
            rcases List.mem_cons.mp hu' with rfl | hu'
            · exact Or.inr h0
            · exact y u hu'
          · right
            exact ⟨t, by simp, w, hu, h0, x.trans (by rw [← hst1]; simp only [if_neg h0])⟩
      · right
        exact ⟨u, List.mem_cons_of_mem _ hu, w, by rw [← hup u hu]; exact x, y, z⟩

/-- what is stored, without the statement about known coefficients -/
structure Core (k : ℕ) (f : MvPolynomial ℕ ℚ) (ps : List ℕ) (s : Side) : Prop where
  nodup : (s.g.map Prod.fst ++ s.comb.map Prod.fst).Nodup
  mem : ∀ e ∈ s.g.map Prod.fst ++ s.comb.map Prod.fst, e ∈ monos k f
  known : ∀ t ∈ s.g, t.2.Valid ∧ t.2.val = coefOf f t.1
  residue : ∀ t ∈ s.comb, s.primes.find? t.1 = some (modulus (coefOf f t.1) ps) ∧ Reduces (coefOf f t.1) t.2 (modulus (coefOf f t.1) ps) ∧ ∃ p ∈ ps, ¬ (p : ℤ) ∣ (coefOf f t.1).num
  unseen : ∀ e ∈ monos k f, e ∉ s.g.map Prod.fst → e ∉ s.comb.map Prod.fst → ∀ p ∈ ps, (p : ℤ) ∣ (coefOf f e).num

lemma SideInv.core {k : ℕ} {f : MvPolynomial ℕ ℚ} {ps : List ℕ} {s : Side} (h : SideInv k f ps s) : Core k f ps s := ⟨h.nodup, h.mem, h.known, h.residue, h.unseen⟩

lemma crtSide_spec {inv : ℤ → ℤ → ℤ} (hinv : InvertSpec inv) {ord : MpzMap → MpzMap} (hord : ∀ l, (ord l).Perm l) {k : ℕ} {f : MvPolynomial ℕ ℚ} {ps : List ℕ} {s : Side} (h : Core k f ps s)
    (hps : ∀ p ∈ ps, p.Prime) {p : ℕ} [hp : Fact p.Prime] (hpn : p ∉ ps) {res : FFMap (ZMod p)} (hres : ResOK k f p res) (m : ℤ) :
    Core k f (ps ++ [p]) (crtSide inv ord s res m).1 ∧ (crtSide inv ord s res m).1.g = s.g ∧ (∀ e ∈ s.comb.map Prod.fst, e ∈ (crtSide inv ord s res m).1.comb.map Prod.fst) ∧
    ((crtSide inv ord s res m).2 = m ∧ (∀ t ∈ s.comb, (p : ℤ) ∣ (coefOf f t.1).num) ∨ ∃ t ∈ s.comb, ¬ (p : ℤ) ∣ (coefOf f t.1).num ∧ (crtSide inv ord s res m).2 = modulus (coefOf f t.1) ps * p) := by
  have hpp : (0 : ℤ) < p := by exact_mod_cast hp.out.pos
  have hgn := grow_nodup s res hres.nodup h.nodup
  have hgm := grow_mem s res hres.nodup
  obtain ⟨hg1, hg2, hg3⟩ := List.nodup_append.mp hgn
  have hpm := hord (grow s res)
  have hl : ∀ t ∈ ord (grow s res), (({ s with comb := grow s res }, m) : Side × ℤ).1.g.find? t.1 = none ∧ t.1 ∈ (({ s with comb := grow s res }, m) : Side × ℤ).1.comb.map Prod.fst := by
    intro t ht
    have ht' := hpm.mem_iff.mp ht
    refine ⟨?_, List.mem_map_of_mem ht'⟩
    rw [find?_eq_none]
    exact fun hc => hg3 t.1 hc t.1 (List.mem_map_of_mem ht') rfl
  obtain ⟨f1, f2, f3, f4, f5⟩ := crt_fold inv res (ord (grow s res)) ({ s with comb := grow s res }, m) (by rw [(hpm.map Prod.fst).nodup_iff]; exact hg2) hl
  rw [show (ord (grow s res)).foldl (crtStep inv res) ({ s with comb := grow s res }, m) = crtSide inv ord s res m from rfl] at f1 f2 f3 f4 f5
  obtain ⟨X, hX⟩ : ∃ X, crtSide inv ord s res m = X := ⟨_, rfl⟩
  rw [hX] at f1 f2 f3 f4 f5 ⊢
  simp only at f1 f2 f3 f4 f5
  -- the new value of one coefficient
  have old : ∀ t ∈ s.comb, ∀ v, res.find? t.1 = some v → ¬ (p : ℤ) ∣ (coefOf f t.1).num ∧ t.2 ≠ 0 ∧ ∃ w, updated inv res s.primes t = some w ∧ w.2 = modulus (coefOf f t.1) ps * p ∧ Reduces (coefOf f t.1) w.1 (modulus (coefOf f t.1) ps * p) := by
    intro t ht v hv
    obtain ⟨r1, r2, r3⟩ := h.residue t ht
    obtain ⟨-, v2, v3⟩ := hres.some _ _ hv
    have ht0 := residue_ne r2 r3
    refine ⟨v3, ht0, _, by unfold updated; rw [hv, Option.map_some], ?_⟩
    simp only [if_neg ht0]
    rw [r1, Option.getD_some]
    have hM := modulus_pos (q := coefOf f t.1) hps
    have hco : IsCoprime (modulus (coefOf f t.1) ps) (p : ℤ) := ((Nat.prime_iff_prime_int.mp hp.out).coprime_iff_not_dvd.mpr (modulus_not_dvd hps hp.out hpn)).symm
    have hr2 := reduces_cast p (coefOf f t.1) (hres.den _)
    rw [← v2] at hr2
    obtain ⟨a0, a1, a2, a3, a4, -⟩ := C08_crt inv hinv t.2 _ _ p hM hpp (Int.isCoprime_iff_gcd_eq_one.mp hco) r2.1 hr2.1
    refine ⟨a0, a1, a2, ?_⟩
    rw [Int.modEq_iff_dvd]
    apply hco.mul_dvd
    · rw [← Int.modEq_iff_dvd]; exact r2.2.2.trans (a3.symm.mul_right _)
    · rw [← Int.modEq_iff_dvd]; exact hr2.2.2.trans (a4.symm.mul_right _)
  refine ⟨⟨?_, ?_, ?_, ?_, ?_⟩, f1, ?_, ?_⟩
  · rw [f1, f2]; exact hgn
  · intro e he
    rw [f1, f2, List.mem_append] at he
    rcases he with he | he
    · exact h.mem e (List.mem_append_left _ he)
    · obtain ⟨t, ht, rfl⟩ := List.mem_map.mp he
      rcases (hgm t).mp ht with ht | ⟨-, -, -, v, hv⟩
      · exact h.mem _ (List.mem_append_right _ (List.mem_map_of_mem ht))
      · exact (hres.some _ _ hv).1
  · intro t ht; rw [f1] at ht; exact h.known t ht
  · intro t ht
    have hnd' : (X.1.comb.map Prod.fst).Nodup := by rw [f2]; exact hg2
    have htf := find?_of_mem hnd' ht
    obtain ⟨t0, ht0, hte⟩ := List.mem_map.mp (show t.1 ∈ (grow s res).map Prod.fst by rw [← f2]; exact List.mem_map_of_mem ht)
    obtain ⟨x1, x2⟩ := f4 t0 (hpm.mem_iff.mpr ht0)
    rw [hte] at x1 x2
    rw [modulus_snoc]
    rcases (hgm t0).mp ht0 with hs | ⟨h0, hnc, hng, v, hv⟩
    · obtain ⟨r1, r2, p', hp', hpd'⟩ := h.residue t0 hs
      rw [hte] at r1 r2 hpd'
      cases hv : res.find? t0.1 with
      | none =>
        have hup : updated inv res s.primes t0 = none := by unfold updated; rw [hv]; rfl
        rw [hup] at x1 x2
        have hdv := hres.none t0.1 (h.mem _ (List.mem_append_right _ (List.mem_map_of_mem hs))) hv
        rw [hte] at hdv
        rw [if_pos hdv, mul_one]
        refine ⟨x2.trans r1, ?_, p', List.mem_append_left _ hp', hpd'⟩
        have hgf : (grow s res).find? t.1 = some t0.2 := by rw [← hte]; exact find?_of_mem hg2 ht0
        have x1 : X.1.comb.find? t.1 = (grow s res).find? t.1 := x1
        rw [htf, hgf] at x1
        rw [Option.some.inj x1]
        exact r2
      | some v =>
        obtain ⟨v3, -, w, hw, w2, w3⟩ := old t0 hs v hv
        rw [hw] at x1 x2
        rw [hte] at v3 w2 w3
        rw [if_neg v3]
        refine ⟨x2.trans (congrArg some w2), ?_, p', List.mem_append_left _ hp', hpd'⟩
        rw [htf] at x1
        rw [Option.some.inj x1]
        exact w3
    · obtain ⟨v1, v2, v3⟩ := hres.some _ _ hv
      have hup : updated inv res s.primes t0 = some ((v.val : ℤ), (p : ℤ)) := by
        unfold updated; rw [hv]; simp [h0]
      rw [hup] at x1 x2
      have hone := modulus_one (h.unseen t0.1 v1 hng hnc)
      rw [hte] at hone v2 v3
      rw [if_neg v3, hone, one_mul]
      refine ⟨x2, ?_, p, by simp, v3⟩
      rw [htf] at x1
      rw [Option.some.inj x1, v2]
      exact reduces_cast p _ (hres.den _)
  · intro e he heg hec p' hp'
    rw [f1] at heg
    rw [f2] at hec
    have hc : e ∉ s.comb.map Prod.fst := by
      intro hc
      obtain ⟨t, ht, rfl⟩ := List.mem_map.mp hc
      exact hec (List.mem_map_of_mem ((hgm t).mpr (Or.inl ht)))
    rcases List.mem_append.mp hp' with hp' | hp'
    · exact h.unseen e he heg hc p' hp'
    · rw [List.mem_singleton] at hp'
      subst hp'
      apply hres.none e he
      cases hv : res.find? e with
      | none => rfl
      | some v =>
        exact absurd (List.mem_map_of_mem ((hgm (e, 0)).mpr (Or.inr ⟨rfl, hc, heg, v, hv⟩))) hec
  · intro e he
    rw [f2]
    obtain ⟨t, ht, rfl⟩ := List.mem_map.mp he
    exact List.mem_map_of_mem ((hgm t).mpr (Or.inl ht))
  · rcases f5 with ⟨x, y⟩ | ⟨t, ht, w, hw, ht0, x⟩
    · left
      refine ⟨x, fun t ht => ?_⟩
      rcases y t (hpm.mem_iff.mpr ((hgm t).mpr (Or.inl ht))) with y | y
      · exact hres.none _ (h.mem _ (List.mem_append_right _ (List.mem_map_of_mem ht))) y
      · exact absurd y (residue_ne (h.residue t ht).2.1 (h.residue t ht).2.2)
    · right
      rcases (hgm t).mp (hpm.mem_iff.mp ht) with hs | ⟨h0, -⟩
      · cases hv : res.find? t.1 with
        | none => unfold updated at hw; rw [hv] at hw; cases hw
        | some v =>
          obtain ⟨o1, o2, w', hw', w2, w3⟩ := old t hs v hv
          rw [hw'] at hw
          obtain rfl := Option.some.inj hw
          exact ⟨t, hs, o1, x.trans w2⟩
      · exact absurd h0 ht0

end FireFly.RRun.Safe
