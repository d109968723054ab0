import Verif.Lemmas.RatSafeSide
/-! # Safe interpolation: coefficients become known; the first prime field -/
set_option linter.all false
namespace FireFly.RRun.Safe
open MvPolynomial FFMap

/-- What the decision about one coefficient yields: nothing, the true coefficient, or a number it can be mistaken for. -/
lemma promoteOne_spec {c : ℚ} {r M r' M' : ℤ} (hr : 0 ≤ r ∧ r < M) (h' : Reduces c r' M') :
    ∃ o, promoteOne r M r' M' = some o ∧ ∀ rn, o = some rn → rn.Valid ∧ (rn.val = c ∨ Mistakable c M M') := by
  obtain ⟨b1, w1, e1, s1, -⟩ := C09_sound r M hr.1 hr.2
  obtain ⟨b2, w2, e2, s2, -⟩ := C09_sound r' M' h'.1 h'.2.1
  obtain ⟨b3, w3, e3, s3⟩ := mqrr_sound hr.1 hr.2
  obtain ⟨b4, w4, e4, s4⟩ := mqrr_sound h'.1 h'.2.1
  unfold promoteOne
  rw [e1, e2, e3, e4]
  simp only [Option.bind_eq_bind, Option.bind_some]
  have dec : ∀ rn : RationalNumber, Represents rn.num rn.den r' M' → ((2 * rn.num ^ 2 ≤ M ∧ 2 * rn.den ^ 2 ≤ M) ∨ |rn.num| * rn.den * 1024 ≤ M) →
      rn.Valid ∧ (rn.val = c ∨ Mistakable c M M') := by
    intro rn h1 h2
    have hv : rn.Valid := ⟨h1.1, h1.2.1⟩
    refine ⟨hv, ?_⟩
    by_cases he : rn.val = c
    · exact Or.inl he
    · right
      obtain ⟨v1, v2⟩ := valid_num_den hv
      refine ⟨rn.val, he, ?_, ?_⟩
      · rw [v1, v2]; exact agree h' h1.2.2
      · rw [v1, v2]; exact h2
  have eqf : ∀ a b : RationalNumber, RationalNumber.eq a b = true → a = b := by
    intro a b h
    unfold RationalNumber.eq at h
    simp only [Bool.and_eq_true, beq_iff_eq] at h
    cases a; cases b; simp_all
  split_ifs with c1 c2
  · simp only [Bool.and_eq_true] at c1
    refine ⟨_, rfl, fun rn h => ?_⟩
    cases h
    have e := eqf _ _ c1.2
    apply dec _ (s2 c1.1.2).1
    left
    have := s1 c1.1.1
    rw [← e]; exact this.2
  · simp only [Bool.and_eq_true] at c2
    refine ⟨_, rfl, fun rn h => ?_⟩
    cases h
    have e := eqf _ _ c2.2
    apply dec _ (s4 c2.1.2).1
    right
    have := s3 c2.1.1
    rw [← e]; exact this.2
  · exact ⟨_, rfl, fun rn h => by cases h⟩

/-- A coefficient that is small for the modulus before is found. -/
lemma promoteOne_small {c : ℚ} {r M r' M' : ℤ} (h : Reduces c r M) (h' : Reduces c r' M') (hM : M ≤ M') (hs : Small c M) :
    promoteOne r M r' M' = some (some ⟨c.num, c.den⟩) := by
  have e1 := C10_complete r M _ _ h.1 h.2.1 (reduces_represents h) hs.1 hs.2
  have e2 := C10_complete r' M' _ _ h'.1 h'.2.1 (reduces_represents h') (lt_of_lt_of_le hs.1 hM) (lt_of_lt_of_le hs.2 hM)
  obtain ⟨b3, w3, e3, -⟩ := mqrr_sound h.1 h.2.1
  obtain ⟨b4, w4, e4, -⟩ := mqrr_sound h'.1 h'.2.1
  unfold promoteOne
  rw [e1, e2, e3, e4]
  simp [RationalNumber.eq]

/-- a coefficient becomes known -/
lemma Core.promote {k : ℕ} {f : MvPolynomial ℕ ℚ} {ps : List ℕ} {s : Side} (h : Core k f ps s) {e : List ℕ} (hk : e ∈ s.comb.map Prod.fst) {rn : RationalNumber} (h1 : rn.Valid) (h2 : rn.val = coefOf f e) :
    Core k f ps { g := s.g.set e rn, comb := s.comb.erase e, primes := s.primes.erase e } := by
  obtain ⟨n1, n2, n3⟩ := List.nodup_append.mp h.nodup
  have hng : e ∉ s.g.map Prod.fst := fun hg => n3 e hg e hk rfl
  have hperm : ((s.g.set e rn).map Prod.fst ++ (s.comb.erase e).map Prod.fst).Perm (s.g.map Prod.fst ++ s.comb.map Prod.fst) := by
    rw [keys_set, if_neg hng, List.append_assoc, List.singleton_append]
    exact (keys_erase s.comb e n2 hk).symm.append_left _
  refine ⟨hperm.nodup_iff.mpr h.nodup, fun x hx => h.mem x (hperm.mem_iff.mp hx), ?_, ?_, ?_⟩
  · intro t ht
    rcases mem_set ht with ht | rfl
    · exact h.known t ht
    · exact ⟨h1, h2⟩
  · intro t ht
    have hne : t.1 ≠ e := by
      unfold FFMap.erase at ht
      simpa using (List.mem_filter.mp ht).2
    have := h.residue t (mem_erase ht)
    simp only
    rw [find?_erase, if_neg hne]
    exact this
  · intro x hx hg hc
    have : x ∉ s.g.map Prod.fst ++ s.comb.map Prod.fst := by
      rw [← hperm.mem_iff, List.mem_append, not_or]; exact ⟨hg, hc⟩
    rw [List.mem_append, not_or] at this
    exact h.unseen x hx this.1 this.2

lemma promote_fold {k : ℕ} {f : MvPolynomial ℕ ℚ} {ps' : List ℕ} {p : ℕ} [hp : Fact p.Prime] {res : FFMap (ZMod p)} {back : MpzMap} :
    ∀ (l : MpzMap) (st : Side), Core k f ps' st → (l.map Prod.fst).Nodup →
      (∀ t ∈ l, t.1 ∈ st.comb.map Prod.fst ∧ ∃ M, back.find? t.1 = some M ∧ Reduces (coefOf f t.1) t.2 M ∧ ((res.find? t.1).isSome → modulus (coefOf f t.1) ps' = M * p ∧ ¬ Mistakable (coefOf f t.1) M (M * p))) →
      ∃ st', l.foldlM (promoteStep res back) st = some st' ∧ Core k f ps' st' ∧ (∀ e ∈ st.g.map Prod.fst, e ∈ st'.g.map Prod.fst) ∧ (∀ e ∈ st'.comb.map Prod.fst, e ∈ st.comb.map Prod.fst) ∧
        ∀ t ∈ l, (res.find? t.1).isSome → (∀ M, back.find? t.1 = some M → Small (coefOf f t.1) M) → t.1 ∈ st'.g.map Prod.fst
  | [], st, h, _, _ => ⟨st, rfl, h, fun _ h => h, fun _ h => h, by simp⟩
  | t :: l, st, h, hnd, hl => by
    rw [List.map_cons, List.nodup_cons] at hnd
    have hne : ∀ u ∈ l, u.1 ≠ t.1 := fun u hu h => hnd.1 (h ▸ List.mem_map_of_mem hu)
    obtain ⟨hk, M, hM, hred, hx⟩ := hl t (by simp)
    have hg : st.g.find? t.1 = none := by
      rw [find?_eq_none]
      exact fun hc => (List.nodup_append.mp h.nodup).2.2 t.1 hc t.1 hk rfl
    rw [List.foldlM_cons]
    by_cases hs : (res.find? t.1).isSome
    · obtain ⟨t', ht', hte⟩ := List.mem_map.mp hk
      obtain ⟨r1, r2, -⟩ := h.residue t' ht'
      have hf : st.comb.find? t.1 = some t'.2 := by rw [← hte]; exact find?_of_mem (List.nodup_append.mp h.nodup).2.1 ht'
      rw [hte] at r1 r2
      obtain ⟨x1, x2⟩ := hx hs
      rw [x1] at r1 r2
      have hstep : ∀ o, promoteOne t.2 M t'.2 (M * p) = some o → promoteStep res back st t = some (match o with
          | some rn => { g := st.g.set t.1 rn, comb := st.comb.erase t.1, primes := st.primes.erase t.1 }
          | none => st) := by
        intro o ho
        unfold promoteStep
        rw [if_pos ⟨by rw [hg]; rfl, hs⟩, hM, hf, r1]
        simp only [Option.getD_some]
        rw [ho]
        cases o <;> rfl
      obtain ⟨o, ho, hspec⟩ := promoteOne_spec ⟨hred.1, hred.2.1⟩ r2
      rw [hstep o ho]
      simp only [Option.bind_eq_bind, Option.bind_some]
      cases o with
      | none =>
        obtain ⟨st', e1, e2, e3, e4, e5⟩ := promote_fold l st h hnd.2 (fun u hu => hl u (List.mem_cons_of_mem _ hu))
        refine ⟨st', e1, e2, e3, e4, fun u hu hus hsm => ?_⟩
        rcases List.mem_cons.mp hu with rfl | hu
        · have hpp : (1 : ℤ) ≤ p := by exact_mod_cast hp.out.pos
          have hMp : 0 < M := lt_of_le_of_lt hred.1 hred.2.1
          have := promoteOne_small hred r2 (by nlinarith) (hsm M hM)
          rw [this] at ho
          cases ho
        · exact e5 u hu hus hsm
      | some rn =>
        obtain ⟨v1, v2⟩ := hspec rn rfl
        have hc := h.promote hk v1 (v2.resolve_right x2)
        obtain ⟨st', e1, e2, e3, e4, e5⟩ := promote_fold l _ hc hnd.2 (by
          intro u hu
          obtain ⟨a, b⟩ := hl u (List.mem_cons_of_mem _ hu)
          refine ⟨?_, b⟩
          simp only
          by_contra hcon
          rw [← find?_eq_none, find?_erase, if_neg (hne u hu), find?_eq_none] at hcon
          exact hcon a)
        have hng : t.1 ∉ st.g.map Prod.fst := find?_eq_none.mp hg
        refine ⟨st', e1, e2, fun e he => e3 e ?_, fun e he => ?_, fun u hu hus hsm => ?_⟩
        · simp only
          rw [keys_set, if_neg hng]
          exact List.mem_append_left _ he
        · obtain ⟨w, hw, rfl⟩ := List.mem_map.mp (e4 e he)
          exact List.mem_map_of_mem (mem_erase hw)
        · rcases List.mem_cons.mp hu with rfl | hu
          · apply e3
            simp only
            rw [keys_set, if_neg hng]
            simp
          · exact e5 u hu hus hsm
    · have hstep : promoteStep res back st t = some st := by
        unfold promoteStep
        rw [if_neg (by simp [hs])]
      rw [hstep]
      simp only [Option.bind_eq_bind, Option.bind_some]
      obtain ⟨st', e1, e2, e3, e4, e5⟩ := promote_fold l st h hnd.2 (fun u hu => hl u (List.mem_cons_of_mem _ hu))
      refine ⟨st', e1, e2, e3, e4, fun u hu hus hsm => ?_⟩
      rcases List.mem_cons.mp hu with rfl | hu
      · exact absurd hus hs
      · exact e5 u hu hus hsm

lemma settled_snoc {q : ℚ} {ps : List ℕ} {p : ℕ} (h : Settled q (ps ++ [p])) : Settled q ps ∨ (¬ (p : ℤ) ∣ q.num ∧ Small q (modulus q ps)) := by
  obtain ⟨ps1, p1, ps2, h1, h2, h3⟩ := h
  rcases List.eq_nil_or_concat ps2 with rfl | ⟨l, x, rfl⟩
  · obtain ⟨rfl, hh⟩ := List.append_inj' h1 rfl
    obtain rfl : p = p1 := by simpa using hh
    exact Or.inr ⟨h2, h3⟩
  · left
    have h1 : ps ++ [p] = (ps1 ++ p1 :: l) ++ [x] := by simpa using h1
    obtain ⟨rfl, -⟩ := List.append_inj' h1 rfl
    exact ⟨ps1, p1, l, rfl, h2, h3⟩

/-- Both steps for one side. -/
lemma side_next {inv : ℤ → ℤ → ℤ} (hinv : InvertSpec inv) {ord : MpzMap → MpzMap} (hord : ∀ l, (ord l).Perm l) {k : ℕ} {f : MvPolynomial ℕ ℚ} {ps : List ℕ} {s : Side} (h : SideInv k f ps s)
    (hps : ∀ p ∈ ps, p.Prime) {p : ℕ} [hp : Fact p.Prime] (hpn : p ∉ ps) {res : FFMap (ZMod p)} (hres : ResOK k f p res) (hcl : Clear f ps p) (m : ℤ) :
    ∃ s', promoteSide s (crtSide inv ord s res m).1 res = some s' ∧ SideInv k f (ps ++ [p]) s' ∧ (∀ e ∈ s.g.map Prod.fst, e ∈ s'.g.map Prod.fst) ∧ (∀ e ∈ s'.comb.map Prod.fst, e ∉ s.g.map Prod.fst) ∧
      ((crtSide inv ord s res m).2 = m ∧ (∀ t ∈ s.comb, (p : ℤ) ∣ (coefOf f t.1).num) ∨ ∃ t ∈ s.comb, ¬ (p : ℤ) ∣ (coefOf f t.1).num ∧ (crtSide inv ord s res m).2 = modulus (coefOf f t.1) ps * p) := by
  obtain ⟨a1, a2, a3, a4⟩ := crtSide_spec hinv hord h.core hps hpn hres m
  obtain ⟨s', e1, e2, e3, e4, e5⟩ := promote_fold (res := res) (back := s.primes) s.comb (crtSide inv ord s res m).1 a1 (List.nodup_append.mp h.nodup).2.1 (by
    intro t ht
    obtain ⟨r1, r2, r3⟩ := h.residue t ht
    refine ⟨a3 _ (List.mem_map_of_mem ht), _, r1, r2, fun hs => ?_⟩
    obtain ⟨v, hv⟩ := Option.isSome_iff_exists.mp hs
    have hv3 := (hres.some _ _ hv).2.2
    exact ⟨by rw [modulus_snoc, if_neg hv3], hcl _ hv3⟩)
  rw [a2] at e3
  refine ⟨s', e1, ⟨e2.nodup, e2.mem, e2.known, e2.residue, e2.unseen, ?_⟩, e3, ?_, a4⟩
  · intro e he hset
    rcases settled_snoc hset with hs | ⟨hs1, hs2⟩
    · exact e3 e (h.settled e he hs)
    · by_cases hg : e ∈ s.g.map Prod.fst
      · exact e3 e hg
      · by_cases hc : e ∈ s.comb.map Prod.fst
        · obtain ⟨t, ht, rfl⟩ := List.mem_map.mp hc
          apply e5 t ht
          · cases hv : res.find? t.1 with
            | none => exact absurd (hres.none _ he hv) hs1
            | some v => rfl
          · intro M hM
            rw [(h.residue t ht).1] at hM
            rw [← Option.some.inj hM]; exact hs2
        · exfalso
          rw [modulus_one (h.unseen e he hg hc)] at hs2
          exact not_small_one _ hs2
  · intro e he hg
    exact (List.nodup_append.mp a1.nodup).2.2 e (by rw [a2]; exact hg) e (e4 e he) rfl

/-! ## the first prime field -/

lemma firstSide_fold {p : ℕ} (isNorm : Bool) (e : List ℕ) : ∀ (l : MpzMap) (st : Side),
    let st' := l.foldl (fun (st : Side) t => if isNorm && t.1 == e then { st with g := st.g.set t.1 ⟨1, 1⟩, comb := st.comb.erase t.1 } else { st with primes := st.primes.set t.1 (p : ℤ) }) st
    (st'.g, st'.comb) = l.foldl (fun (st : RnMap × MpzMap) t => if isNorm && t.1 == e then (st.1.set t.1 ⟨1, 1⟩, st.2.erase t.1) else st) (st.g, st.comb) ∧
    ∀ k, st'.primes.find? k = if k ∈ l.map Prod.fst ∧ ¬ (isNorm = true ∧ k = e) then some (p : ℤ) else st.primes.find? k
  | [], st => ⟨rfl, fun k => by simp⟩
  | t :: l, st => by
    simp only [List.foldl_cons]
    by_cases hc : (isNorm && t.1 == e) = true
    · rw [if_pos hc, if_pos hc]
      obtain ⟨h1, h2⟩ := firstSide_fold (p := p) isNorm e l { st with g := st.g.set t.1 ⟨1, 1⟩, comb := st.comb.erase t.1 }
      refine ⟨h1, fun k => ?_⟩
      rw [h2 k]
      simp only [Bool.and_eq_true, beq_iff_eq] at hc
      have : (k ∈ l.map Prod.fst ∧ ¬ (isNorm = true ∧ k = e)) ↔ (k ∈ (t :: l).map Prod.fst ∧ ¬ (isNorm = true ∧ k = e)) := by
        rw [List.map_cons, List.mem_cons]
        constructor
        · rintro ⟨a, b⟩; exact ⟨Or.inr a, b⟩
        · rintro ⟨a | a, b⟩
          · exact absurd ⟨hc.1, a.trans hc.2⟩ b
          · exact ⟨a, b⟩
      exact if_congr this rfl rfl
    · rw [if_neg hc, if_neg hc]
      obtain ⟨h1, h2⟩ := firstSide_fold (p := p) isNorm e l { st with primes := st.primes.set t.1 (p : ℤ) }
      refine ⟨h1, fun k => ?_⟩
      rw [h2 k]
      simp only [Bool.and_eq_true, beq_iff_eq] at hc
      simp only
      rw [find?_set]
      by_cases hk : k = t.1
      · subst hk
        have hR : t.1 ∈ (t :: l).map Prod.fst ∧ ¬ (isNorm = true ∧ t.1 = e) := ⟨by simp, hc⟩
        rw [if_pos hR, if_pos (rfl : t.1 = t.1)]
        exact ite_self _
      · rw [if_neg hk]
        have : (k ∈ l.map Prod.fst ∧ ¬ (isNorm = true ∧ k = e)) ↔ (k ∈ (t :: l).map Prod.fst ∧ ¬ (isNorm = true ∧ k = e)) := by
          rw [List.map_cons, List.mem_cons, or_iff_right hk]
        exact if_congr this rfl rfl

lemma firstSide_spec {p : ℕ} (isNorm : Bool) (e : List ℕ) (res : FFMap (ZMod p)) (g : RnMap) :
    (firstSide isNorm e res g).g = (combineFirstSide isNorm e res g).1 ∧ (firstSide isNorm e res g).comb = (combineFirstSide isNorm e res g).2 ∧
    ∀ k ∈ res.map Prod.fst, ¬ (isNorm = true ∧ k = e) → (firstSide isNorm e res g).primes.find? k = some (p : ℤ) := by
  obtain ⟨h1, h2⟩ := firstSide_fold (p := p) isNorm e (convertToMpz res) { g := g, comb := convertToMpz res }
  refine ⟨congrArg Prod.fst h1, congrArg Prod.snd h1, fun k hk hc => ?_⟩
  have hkc : (convertToMpz res).map Prod.fst = res.map Prod.fst := by unfold convertToMpz; rw [List.map_map]; rfl
  exact (h2 k).trans (if_pos ⟨by rw [hkc]; exact hk, hc⟩)

lemma settled_one {q : ℚ} {p : ℕ} : ¬ Settled q [p] := by
  rintro ⟨ps1, p1, ps2, h1, -, h3⟩
  rcases ps1 with _ | ⟨a, ps1⟩
  · exact not_small_one q h3
  · simp at h1

/-- One side after the first prime field. -/
lemma side_first_inv {k : ℕ} {f : MvPolynomial ℕ ℚ} {p : ℕ} [hp : Fact p.Prime] {res : FFMap (ZMod p)} (hres : ResOK k f p res) :
    SideInv k f [p] (firstSide false [] res []) ∧ ∀ e, (res.find? e).isSome → coefOf f e = 1 → SideInv k f [p] (firstSide true e res []) ∧ e ∈ (firstSide true e res []).g.map Prod.fst := by
  have hkc : (convertToMpz res).map Prod.fst = res.map Prod.fst := by unfold convertToMpz; rw [List.map_map]; rfl
  have hsome : ∀ e ∈ res.map Prod.fst, ∃ v, res.find? e = some v := by
    intro e he
    cases hv : res.find? e with
    | none => exact absurd he (find?_eq_none.mp hv)
    | some v => exact ⟨v, rfl⟩
  have hresidue : ∀ t ∈ convertToMpz res, t.1 ∈ res.map Prod.fst ∧ Reduces (coefOf f t.1) t.2 p ∧ ¬ (p : ℤ) ∣ (coefOf f t.1).num := by
    intro t ht
    unfold convertToMpz at ht
    obtain ⟨u, hu, rfl⟩ := List.mem_map.mp ht
    obtain ⟨-, v2, v3⟩ := hres.some _ _ (find?_of_mem hres.nodup hu)
    refine ⟨List.mem_map_of_mem hu, ?_, v3⟩
    simp only
    rw [v2]
    exact reduces_cast p _ (hres.den _)
  have hmod : ∀ e, ¬ (p : ℤ) ∣ (coefOf f e).num → modulus (coefOf f e) [p] = p := by
    intro e he; unfold modulus; simp [he]
  have hun : ∀ e ∈ monos k f, e ∉ res.map Prod.fst → ∀ p' ∈ [p], (p' : ℤ) ∣ (coefOf f e).num := by
    intro e he hn p' hp'
    rw [List.mem_singleton] at hp'
    subst hp'
    exact hres.none e he (find?_eq_none.mpr hn)
  constructor
  · obtain ⟨a1, a2, a3⟩ := firstSide_spec false [] res []
    rw [first_other] at a1 a2
    simp only at a1 a2
    refine ⟨?_, ?_, ?_, ?_, ?_, fun e _ hs => absurd hs settled_one⟩
    · rw [a1, a2]; simpa [hkc] using hres.nodup
    · intro e he
      rw [a1, a2, hkc] at he
      obtain ⟨v, hv⟩ := hsome e (by simpa using he)
      exact (hres.some _ _ hv).1
    · rw [a1]; simp
    · intro t ht
      rw [a2] at ht
      obtain ⟨b1, b2, b3⟩ := hresidue t ht
      rw [hmod _ b3]
      exact ⟨a3 _ b1 (by simp), b2, p, by simp, b3⟩
    · intro e he _ hc
      rw [a2, hkc] at hc
      exact hun e he hc
  · intro e hes h1
    obtain ⟨a1, a2, a3⟩ := firstSide_spec true e res []
    have hek : e ∈ res.map Prod.fst := by
      by_contra hc
      rw [find?_eq_none.mpr hc] at hes
      cases hes
    rw [first_norm res [] hres.nodup hek] at a1 a2
    simp only at a1 a2
    have hg : (firstSide true e res []).g = [(e, ⟨1, 1⟩)] := a1
    have hperm : ((firstSide true e res []).g.map Prod.fst ++ (firstSide true e res []).comb.map Prod.fst).Perm (res.map Prod.fst) := by
      rw [hg, a2]
      refine List.Perm.trans ?_ (hkc ▸ List.Perm.refl _ : ((convertToMpz res).map Prod.fst).Perm (res.map Prod.fst))
      exact (keys_erase _ _ (by rw [hkc]; exact hres.nodup) (by rw [hkc]; exact hek)).symm
    refine ⟨⟨hperm.nodup_iff.mpr hres.nodup, ?_, ?_, ?_, ?_, fun e _ hs => absurd hs settled_one⟩, by rw [hg]; simp⟩
    · intro x hx
      obtain ⟨v, hv⟩ := hsome x (hperm.mem_iff.mp hx)
      exact (hres.some _ _ hv).1
    · intro t ht
      rw [hg, List.mem_singleton] at ht
      subst ht
      refine ⟨⟨by norm_num, by simp⟩, ?_⟩
      simp only
      rw [h1]
      simp [RationalNumber.val]
    · intro t ht
      rw [a2] at ht
      have hne : t.1 ≠ e := by
        unfold FFMap.erase at ht
        simpa using (List.mem_filter.mp ht).2
      obtain ⟨b1, b2, b3⟩ := hresidue t (mem_erase ht)
      rw [hmod _ b3]
      exact ⟨a3 _ b1 (by simp [hne]), b2, p, by simp, b3⟩
    · intro x hx hxg hxc
      apply hun x hx
      rw [← hperm.mem_iff, List.mem_append, not_or]
      exact ⟨hxg, hxc⟩

lemma firstSide_false {p : ℕ} (e : List ℕ) (res : FFMap (ZMod p)) (g : RnMap) : firstSide false e res g = firstSide false [] res g := by
  unfold firstSide; simp

end FireFly.RRun.Safe
