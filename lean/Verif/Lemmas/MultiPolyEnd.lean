import Verif.Lemmas.MultiPolyStage
/-! # The end of a stage, the first stage -/
set_option linter.all false
namespace FireFly.MPoly
open Polynomial
variable {F : Type} [Field F] [DecidableEq F]
variable {c : Cfg F} {S : Finset (List ℕ)} {co : List ℕ → F}

lemma cut_of_sum {n t : ℕ} {m : List ℕ} (hm : m.length = n) (h : m.sum ≤ (cut n t m).sum) : cut n t m = m := by
  rw [cut_sum] at h
  have h1 : (m.drop t).sum = 0 := by
    have := List.sum_append (l₁ := m.take t) (l₂ := m.drop t)
    rw [List.take_append_drop] at this
    omega
  unfold cut
  conv_rhs => rw [← List.take_append_drop t m]
  congr 1
  symm
  rw [List.eq_replicate_iff]
  refine ⟨by simp [hm], ?_⟩
  intro x hx
  have := List.sum_eq_zero_iff.mp h1
  exact this x hx

/-- a key whose total degree is the degree bound is a monomial of the polynomial -/
lemma full_key (h : Ctx c S co) {t : ℕ} (ht : t ≤ c.n) {k : List ℕ} (hk : k ∈ KK c.n S t) (hd : some k.sum = c.deg) :
    k ∈ S ∧ (∀ m ∈ S, m.take t = k.take t → m = k) ∧ CC c.n c.a S co t k = co k := by
  obtain ⟨h1, h2, m0, hm0, h3, h4⟩ := KK_spec h.len ht hk
  have huniq : ∀ m ∈ S, m.take t = k.take t → m = k := by
    intro m hm he
    have hc : cut c.n t m = k := by rw [(cut_inj (h.len m hm) h1 ht).mpr he, h2]
    have hle := (h.deg k.sum hd.symm).2 m hm
    rw [← hc] at hle
    rw [← hc]
    exact (cut_of_sum (h.len m hm) hle).symm
  have hkS : k ∈ S := by rw [← huniq m0 hm0 h3]; exact hm0
  refine ⟨hkS, huniq, ?_⟩
  unfold CC
  rw [Finset.sum_eq_single_of_mem k (by simp [hkS])]
  · have : tl c.n c.a t k = 1 := by
      unfold tl
      apply Finset.prod_eq_one
      intro j hj
      rw [Finset.mem_Ico] at hj
      rw [← h2, cut_getD h1 ht, if_neg (by omega), pow_zero]
    rw [this, mul_one]
  · intro m hm hne
    rw [Finset.mem_filter] at hm
    exact absurd (huniq m hm.1 hm.2) hne

/-- the polynomial has been found -/
def Done (S : Finset (List ℕ)) (co : List ℕ → F) (st : St F) : Prop :=
  ∃ r, st.result = some r ∧ (r.map Prod.fst).Nodup ∧ ∀ k v, (k, v) ∈ r ↔ k ∈ S ∧ v = co k

/-- the maps at the beginning of the next stage -/
lemma Maps.next (h : Ctx c S co) {s : ℕ} (hs : s + 1 < c.n) {solved tmp : FFMap F} (hM : Maps c S co s [] solved tmp) :
    Maps c S co (s + 1) (tmp.map Prod.fst) solved [] := by
  have hR : ∀ k, k ∈ tmp.map Prod.fst ↔ k ∈ KK c.n S (s + 1) ∧ some k.sum ≠ c.deg := by
    intro k
    rw [fst_mem_iff]
    constructor
    · rintro ⟨v, hv⟩; rw [hM.mem2] at hv; exact ⟨hv.1, hv.2.2.1⟩
    · rintro ⟨h1, h2⟩; exact ⟨_, (hM.mem2 k _).mpr ⟨h1, by simp, h2, rfl⟩⟩
  have hcutfull : ∀ k ∈ KK c.n S (s + 2), cut c.n (s + 1) k ∉ tmp.map Prod.fst → some (cut c.n (s + 1) k).sum = c.deg ∧ cut c.n (s + 1) k = k := by
    intro k hk hnot
    obtain ⟨h1, h2, m0, hm0, h3, h4⟩ := KK_spec h.len (by omega) hk
    have hK := cut_KK h.len (by omega) (show s + 1 ≤ s + 2 by omega) hk
    have hfull : some (cut c.n (s + 1) k).sum = c.deg := by
      by_contra hne
      exact hnot ((hR _).mpr ⟨hK, hne⟩)
    refine ⟨hfull, ?_⟩
    apply cut_of_sum h1
    have hle := (h.deg _ hfull.symm).2 m0 hm0
    have : k.sum ≤ m0.sum := by rw [← h4, cut_sum]; exact sum_take_le _ _
    omega
  refine ⟨hM.nd1, by simp, ?_, ?_⟩
  · intro k v
    rw [hM.mem1]
    constructor
    · rintro ⟨h1, -, h3, rfl⟩
      obtain ⟨g1, g2, g3⟩ := full_key h (by omega) h1 h3
      obtain ⟨l1, l2, -⟩ := KK_spec h.len (by omega) h1
      have h2' : cut c.n (s + 2) k = k := by
        apply cut_of_sum l1
        conv_lhs => rw [← l2, cut_sum]
        rw [cut_sum]
        have : (k.take (s + 1)) = (k.take (s + 2)).take (s + 1) := by rw [List.take_take, min_eq_left (by omega)]
        rw [this]; exact sum_take_le _ _
      have hk2 : k ∈ KK c.n S (s + 2) := by rw [← h2']; exact cut_mem_KK g1
      refine ⟨hk2, ?_, h3, ?_⟩
      · rw [l2, hR]; exact fun hh => hh.2 h3
      · rw [g3, (full_key h (by omega) hk2 h3).2.2]
    · rintro ⟨h1, h2, h3, rfl⟩
      obtain ⟨g1, g2⟩ := hcutfull k h1 h2
      have hk : k ∈ KK c.n S (s + 1) := by rw [← g2]; exact cut_KK h.len (by omega) (by omega) h1
      refine ⟨hk, by simp, h3, ?_⟩
      rw [(full_key h (by omega) h1 h3).2.2, (full_key h (by omega) hk h3).2.2]
  · intro k v
    constructor
    · intro h; simp at h
    · rintro ⟨h1, h2, h3, rfl⟩
      obtain ⟨g1, g2⟩ := hcutfull k h1 h2
      rw [g2] at g1
      exact absurd g1 h3

lemma bm_first (thr : ℕ) {v : F} (hv : v ≠ 0) : ∃ r, (BMState.init : BMState F).step thr v = some r := by
  obtain ⟨r, h1, -⟩ := BMInv.first (s := fun _ => v) hv thr
  exact ⟨r, h1⟩

lemma mapM_some {α β : Type} (f : α → Option β) (g : α → β) (L : List α) (h : ∀ t ∈ L, f t = some (g t)) : L.mapM f = some (L.map g) := by
  induction L with
  | nil => rfl
  | cons t L ih =>
    rw [List.mapM_cons, h t (by simp), ih (fun t ht => h t (by simp [ht]))]; rfl

/-- the containers of a new stage -/
lemma startKeys_spec (c : Cfg F) (st : St F) {pol : FFMap F} (hp : ∀ t ∈ pol, t.2 ≠ 0) (hn : (pol.map Prod.fst).Nodup) :
    ∃ B, c.startKeys st pol = some { st with ais := pol.map fun t => (t.1, [t.2]), bms := B } ∧
      ∀ k v, (k, v) ∈ pol → ∃ b, B.find? k = some b ∧ (BMState.init : BMState F).feed c.thr [v] = some b := by
  refine ⟨pol.map fun t => (t.1, (((BMState.init : BMState F).step c.thr t.2).map Prod.fst).getD BMState.init), ?_, ?_⟩
  · unfold Cfg.startKeys
    rw [mapM_some _ (fun t => (t.1, (((BMState.init : BMState F).step c.thr t.2).map Prod.fst).getD BMState.init)) pol]
    · rfl
    · intro t ht
      obtain ⟨r, hr⟩ := bm_first c.thr (hp t ht)
      rw [hr]; rfl
  · intro k v hkv
    obtain ⟨r, hr⟩ := bm_first c.thr (hp _ hkv)
    refine ⟨r.1, ?_, ?_⟩
    · apply FFMap.find?_of_mem
      · rw [List.map_map]; exact hn
      · rw [List.mem_map]
        refine ⟨(k, v), hkv, ?_⟩
        simp only at hr ⊢
        rw [hr]; rfl
    · simp only [BMState.feed, List.foldlM_cons, List.foldlM_nil]
      simp only at hr
      rw [hr]; rfl

lemma newtonCoeffs_single (y : ℕ → F) (v : F) : newtonCoeffs y [v] = [v] := by
  simp [newtonCoeffs, compAi]

/-- the second half of the code at the end of a stage -/
def Cfg.nextStage (c : Cfg F) (s : St F) : Option (St F) := do
    let pol := s.tmpSolved
    let s := { s with recDegs := pol.map Prod.fst, tmpSolved := [] }
    let s := if s.recDegs.length = 0 ∧ s.zi ≠ c.n then { s with zi := c.n } else s
    if s.zi ≠ c.n then
      let s := { s with zi := s.zi + 1 }
      let s ← c.startKeys s pol
      some { s with ord := (List.replicate c.n 1).set (s.zi - 1) 2 }
    else
      let s ← c.startKeys s pol
      some { s with ord := List.replicate c.n 1, result := some (c.collect s) }

lemma collect_spec (c : Cfg F) (st : St F) {pol : FFMap F} (hz : st.zi = c.n) (ha : st.ais = pol.map fun t => (t.1, [t.2])) (hn : (pol.map Prod.fst).Nodup)
    (hs : (st.solved.map Prod.fst).Nodup) (hd : ∀ k ∈ st.solved.map Prod.fst, k ∉ pol.map Prod.fst) : c.collect st = pol ++ st.solved := by
  unfold Cfg.collect
  rw [ha, hz]
  have h1 : (pol.map fun t => (t.1, [t.2])).foldl (fun (m : FFMap F) el => (c.tmpCanonical c.n el.1 el.2).foldl (fun (m : FFMap F) t => m.emplace t.1 t.2) m) [] = pol := by
    rw [List.foldl_map]
    have : ∀ (m : FFMap F) (t : List ℕ × F), (c.tmpCanonical c.n t.1 [t.2]).foldl (fun (m : FFMap F) t => m.emplace t.1 t.2) m = m.emplace t.1 t.2 := by
      intro m t
      unfold Cfg.tmpCanonical
      rw [if_pos ⟨rfl, rfl⟩]; rfl
    simp only [this]
    rw [emplace_fold hn (by simp)]; rfl
  rw [h1, emplace_fold hs hd]

lemma StageEnd.next (h : Ctx c S co) {s : ℕ} {st : St F} (hE : StageEnd c S co s st) :
    ∃ st', c.nextStage st = some st' ∧ (Done S co st' ∨ ∃ R, Later c S co (s + 1) 1 1 R st') := by
  have hs := hE.lt
  have hM := hE.maps
  have hne : ∀ t ∈ st.tmpSolved, t.2 ≠ 0 := by
    rintro ⟨k, v⟩ ht
    obtain ⟨h1, -, -, h4⟩ := (hM.mem2 k v).mp ht
    simp only; rw [h4]
    exact h.keeps s hs k h1
  have hR : ∀ k, k ∈ st.tmpSolved.map Prod.fst ↔ k ∈ KK c.n S (s + 1) ∧ some k.sum ≠ c.deg := by
    intro k
    rw [fst_mem_iff]
    constructor
    · rintro ⟨v, hv⟩; rw [hM.mem2] at hv; exact ⟨hv.1, hv.2.2.1⟩
    · rintro ⟨h1, h2⟩; exact ⟨_, (hM.mem2 k _).mpr ⟨h1, by simp, h2, rfl⟩⟩
  -- the end
  have fin : ∀ s1 : St F, s1.zi = c.n → s1.solved = st.solved → (s + 1 = c.n ∨ st.tmpSolved = []) →
      ∃ st', ((c.startKeys s1 st.tmpSolved).bind fun s2 => some { s2 with ord := List.replicate c.n 1, result := some (c.collect s2) }) = some st' ∧ Done S co st' := by
    intro s1 hz hsol hor
    obtain ⟨B, hB, -⟩ := startKeys_spec c s1 hne hM.nd2
    rw [hB, Option.bind_some]
    refine ⟨_, rfl, _, rfl, ?_⟩
    have hdis : ∀ k ∈ s1.solved.map Prod.fst, k ∉ st.tmpSolved.map Prod.fst := by
      intro k hk
      rw [hsol, fst_mem_iff] at hk
      obtain ⟨v, hv⟩ := hk
      rw [hR]
      exact fun hh => hh.2 ((hM.mem1 k v).mp hv).2.2.1
    rw [collect_spec c { s1 with ais := st.tmpSolved.map fun t => (t.1, [t.2]), bms := B } (pol := st.tmpSolved) hz rfl hM.nd2 (by show (s1.solved.map Prod.fst).Nodup; rw [hsol]; exact hM.nd1) hdis]
    constructor
    · rw [List.map_append, List.nodup_append]
      refine ⟨hM.nd2, by show (s1.solved.map Prod.fst).Nodup; rw [hsol]; exact hM.nd1, ?_⟩
      intro a ha b hb hab
      exact hdis b hb (hab ▸ ha)
    · intro k v
      rw [List.mem_append]
      show _ ∨ (k, v) ∈ s1.solved ↔ _
      rw [hsol, hM.mem1, hM.mem2]
      rcases hor with hor | hor
      · rw [hor, KK_n h.len]
        constructor
        · rintro (⟨h1, -, h3, rfl⟩ | ⟨h1, -, h3, rfl⟩)
          · exact ⟨h1, CC_n h.len h1⟩
          · exact ⟨h1, CC_n h.len h1⟩
        · rintro ⟨h1, rfl⟩
          rw [CC_n h.len h1]
          by_cases hd : some k.sum = c.deg
          · exact Or.inr ⟨h1, by simp, hd, rfl⟩
          · exact Or.inl ⟨h1, by simp, hd, rfl⟩
      · have hall : ∀ k ∈ KK c.n S (s + 1), some k.sum = c.deg := by
          intro k hk
          by_contra hne
          have := (hR k).mpr ⟨hk, hne⟩
          rw [hor] at this; simp at this
        constructor
        · rintro (⟨h1, -, h3, rfl⟩ | ⟨h1, -, h3, rfl⟩)
          · exact absurd (hall k h1) h3
          · obtain ⟨g1, -, g3⟩ := full_key h (by omega) h1 h3
            exact ⟨g1, g3⟩
        · rintro ⟨h1, rfl⟩
          right
          have hk := cut_mem_KK (n := c.n) (s := s + 1) h1
          obtain ⟨g1, g2, g3⟩ := full_key h (by omega) hk (hall _ hk)
          have : k = cut c.n (s + 1) k := g2 k h1 (cut_take (h.len k h1) (by omega) le_rfl).symm
          rw [← this] at hk g3
          exact ⟨hk, by simp, hall k hk, g3.symm⟩
  unfold Cfg.nextStage
  simp only [Option.bind_eq_bind, List.length_map]
  by_cases h0 : st.tmpSolved.length = 0 ∧ st.zi ≠ c.n
  · rw [if_pos h0]
    simp only [ne_eq, not_true_eq_false, if_false]
    obtain ⟨st', e1, e2⟩ := fin { st with recDegs := st.tmpSolved.map Prod.fst, tmpSolved := [], zi := c.n } rfl rfl (Or.inr (List.length_eq_zero_iff.mp h0.1))
    exact ⟨st', e1, Or.inl e2⟩
  · rw [if_neg h0]
    by_cases hz : st.zi = c.n
    · simp only [hz, ne_eq, not_true_eq_false, if_false]
      obtain ⟨st', e1, e2⟩ := fin { st with recDegs := st.tmpSolved.map Prod.fst, tmpSolved := [], zi := c.n } rfl rfl (Or.inl (by rw [← hz, hE.zi]))
      exact ⟨st', e1, Or.inl e2⟩
    · simp only [ne_eq, hz, not_false_eq_true, if_true]
      obtain ⟨B, hB, hB2⟩ := startKeys_spec c { st with recDegs := st.tmpSolved.map Prod.fst, tmpSolved := [], zi := st.zi + 1 } hne hM.nd2
      rw [hB, Option.bind_some]
      have hlt : s + 1 < c.n := by have := hE.zi; omega
      refine ⟨_, rfl, Or.inr ⟨st.tmpSolved.map Prod.fst, ?_⟩⟩
      refine ⟨by omega, hlt, le_rfl, le_rfl, ?_, ?_, ?_, hE.nums, rfl, hM.nd2, fun k hk => ((hR k).mp hk).1, Maps.next h hlt hM, ?_, hE.result⟩
      · rw [List.length_map]
        have : ¬ st.tmpSolved.length = 0 := fun hh => h0 ⟨hh, hz⟩
        omega
      · show st.zi + 1 = _; rw [hE.zi]
      · show (List.replicate c.n 1).set (st.zi + 1 - 1) 2 = _
        rw [hE.zi, Nat.add_sub_cancel, ords_set hlt]
      · intro k hk
        have hkK := ((hR k).mp hk).1
        obtain ⟨v, hv⟩ := fst_mem_iff.mp hk
        have hvv := ((hM.mem2 k v).mp hv).2.2.2
        have hvals : vals (c.a (s + 1)) (slc c.n c.a S co (s + 1) k) 1 = [v] := by
          unfold vals
          simp only [List.range_one, List.map_cons, List.map_nil, zero_add, pow_one]
          rw [slc_eval_anchor hlt, hvv]
        have hg := h.slc_ne hlt hkK
        refine ⟨?_, ?_, fun _ => ⟨by omega, fun d hd => ?_⟩, fun _ => ?_⟩
        · intro _
          rw [hvals, newtonCoeffs_single]
          apply FFMap.find?_of_mem
          · show ((st.tmpSolved.map fun t => (t.1, [t.2])).map Prod.fst).Nodup
            rw [List.map_map]; exact hM.nd2
          · exact List.mem_map.mpr ⟨(k, v), hv, rfl⟩
        · intro _
          rw [hvals]
          exact hB2 k v hv
        · obtain ⟨m, hm, -, hm2⟩ := h.top hlt hkK
          have h1 := (h.deg d hd).2 m hm
          have h2 : k.sum ≠ d := fun hh => ((hM.mem2 k v).mp hv).2.2.1 (by rw [hd, hh])
          omega
        · have : 0 < (slc c.n c.a S co (s + 1) k).support.card := by
            rw [Finset.card_pos]; exact nonempty_support_iff.mpr hg
          omega

lemma combine_later {s : ℕ} (hs : 0 < s) {st : St F} (hE : StageEnd c S co s st) : c.combine st = c.nextStage st := by
  unfold Cfg.combine
  rw [if_pos (show c.n > 1 by have := hE.lt; omega)]
  have : ¬ (st.zi = 1 ∧ c.newton = true) := by rw [hE.zi]; omega
  rw [if_neg this]
  rfl

/-- the zero vector -/
def zv (n : ℕ) : List ℕ := List.replicate n 0

lemma zv_KK (hS : S.Nonempty) (n : ℕ) : zv n ∈ KK n S 0 := by
  obtain ⟨m, hm⟩ := hS
  have := cut_mem_KK (n := n) (s := 0) hm
  simpa [cut, zv] using this

lemma cut_zero (n : ℕ) (k : List ℕ) : cut n 0 k = zv n := by simp [cut, zv]

lemma Maps.start (c : Cfg F) (S : Finset (List ℕ)) (co : List ℕ → F) : Maps c S co 0 [zv c.n] [] [] := by
  refine ⟨by simp, by simp, ?_, ?_⟩
  · intro k v; simp [cut_zero]
  · intro k v; simp [cut_zero]

/-- a state of the first stage -/
structure FirstI (c : Cfg F) (S : Finset (List ℕ)) (co : List ℕ → F) (i : ℕ) (st : St F) : Prop where
  zi : st.zi = 1
  ord : st.ord = ords c.n 0 i 1
  nums : st.nums = []
  solved : st.solved = []
  tmp : st.tmpSolved = []
  result : st.result = none
  ais : ∃ l, st.ais = [(zv c.n, l)] ∧ (c.newton = true → l = newtonCoeffs (fun k => c.a 0 ^ k) (vals (c.a 0) (slc c.n c.a S co 0 (zv c.n)) i))
  bm : c.bt = true → i ≠ 0 → ∃ b, st.bms.find? (zv c.n) = some b ∧ (BMState.init : BMState F).feed c.thr (vals (c.a 0) (slc c.n c.a S co 0 (zv c.n)) i) = some b
  le1 : c.newton = true → i ≤ (slc c.n c.a S co 0 (zv c.n)).natDegree + 1 ∧ ∀ d, c.deg = some d → i + (zv c.n).sum ≤ d
  le2 : c.newton = false → i ≤ 2 * (slc c.n c.a S co 0 (zv c.n)).support.card + c.thr

lemma FirstI.init (c : Cfg F) (S : Finset (List ℕ)) (co : List ℕ → F) (hn : 0 < c.n) : FirstI c S co 0 c.init := by
  refine ⟨rfl, ?_, rfl, rfl, rfl, rfl, ⟨[], rfl, fun _ => rfl⟩, fun _ h => absurd rfl h, fun _ => ⟨by omega, fun d _ => by simp [zv]⟩, fun _ => by omega⟩
  show List.replicate c.n 1 = _
  unfold ords
  obtain ⟨m, hm⟩ : ∃ m, c.n = m + 1 := ⟨c.n - 1, by omega⟩
  rw [hm]; simp [List.replicate_succ]

lemma set_single {α : Type} (k : List ℕ) (x y : α) : FFMap.set [(k, x)] k y = [(k, y)] := by simp [FFMap.set, FFMap.find?]
lemma erase_single {α : Type} (k : List ℕ) (x : α) : FFMap.erase [(k, x)] k = [] := by simp [FFMap.erase]
lemma find_single {α : Type} (k : List ℕ) (x : α) : FFMap.find? [(k, x)] k = some x := by simp [FFMap.find?]

lemma tmpCanonical_nil (c : Cfg F) (zi : ℕ) (key : List ℕ) : c.tmpCanonical zi key [] = [] := by
  simp [Cfg.tmpCanonical, constructCanonical]

/-- the end of the first stage with more than one variable, when the terms are in the maps -/
lemma combine_first (h : Ctx c S co) (hn : 1 < c.n) {st : St F} (hz : st.zi = 1) (hnu : st.nums = []) (hr : st.result = none)
    {T : FFMap F} (hT : Rep c.n 0 (zv c.n) (slc c.n c.a S co 0 (zv c.n)) T)
    (hst : (if st.zi = 1 ∧ c.newton = true then c.storeNewton st (List.replicate c.n 0) ((st.ais.find? (List.replicate c.n 0)).getD []) else some st) =
      some { st with
        solved := (T.filter fun el => decide (some el.1.sum = c.deg)).foldl (fun (m : FFMap F) t => m.emplace t.1 t.2) []
        tmpSolved := (T.filter fun el => !decide (some el.1.sum = c.deg)).foldl (fun (m : FFMap F) t => m.emplace t.1 t.2) [] })
    (hS : S.Nonempty) :
    ∃ st', c.combine st = some st' ∧ (Done S co st' ∨ ∃ R, Later c S co 1 1 1 R st') := by
  have hM := Maps.add h (by omega) (Maps.start c S co) (zv_KK hS c.n) (by simp) hT (R' := []) (by simp)
  have hE : StageEnd c S co 0 { st with
        solved := (T.filter fun el => decide (some el.1.sum = c.deg)).foldl (fun (m : FFMap F) t => m.emplace t.1 t.2) []
        tmpSolved := (T.filter fun el => !decide (some el.1.sum = c.deg)).foldl (fun (m : FFMap F) t => m.emplace t.1 t.2) [] } :=
    ⟨by omega, hz, hnu, hM, hr⟩
  obtain ⟨st', e1, e2⟩ := hE.next h
  refine ⟨st', ?_, e2⟩
  rw [← e1]
  unfold Cfg.combine
  rw [if_pos hn]
  by_cases hc : st.zi = 1 ∧ c.newton = true
  · rw [if_pos hc] at hst
    simp only [if_pos hc, hst]
    rfl
  · rw [if_neg hc] at hst
    simp only [if_neg hc, hst]
    rfl

lemma rep_done (h : Ctx c S co) (hn : c.n = 1) {T : FFMap F} (hT : Rep c.n 0 (zv c.n) (slc c.n c.a S co 0 (zv c.n)) T) (hS : S.Nonempty) :
    (T.map Prod.fst).Nodup ∧ ∀ k v, (k, v) ∈ T ↔ k ∈ S ∧ v = co k := by
  refine ⟨hT.1, ?_⟩
  intro k v
  rw [rep_mem h (by omega) (zv_KK hS c.n) hT, cut_zero]
  have : (0 : ℕ) + 1 = c.n := by omega
  rw [this, KK_n h.len]
  constructor
  · rintro ⟨h1, -, rfl⟩; exact ⟨h1, CC_n h.len h1⟩
  · rintro ⟨h1, rfl⟩; exact ⟨h1, rfl, (CC_n h.len h1).symm⟩

lemma combine_one (hn : c.n = 1) (st : St F) : c.combine st = some { st with ord := List.replicate c.n 1, result := some (c.collect st) } := by
  unfold Cfg.combine
  rw [if_neg (by omega)]

lemma ords_zero_up {n i : ℕ} : (ords n 0 i 1).set 0 ((ords n 0 i 1).getD 0 0 + 1) = ords n 0 (i + 1) 1 := by
  simp [ords]

/-- one value in the first stage -/
lemma FirstI.step (h : Ctx c S co) (hn : 0 < c.n) (hS : S.Nonempty) {i : ℕ} {st : St F} (hF : FirstI c S co i st) :
    ∃ st' b, c.first st (val c.n c.a S co (fun t => st.ord.getD t 0)) = some (st', b) ∧
      ((b = false ∧ FirstI c S co (i + 1) st') ∨
       (b = true ∧ ∃ st'', c.combine st' = some st'' ∧ (Done S co st'' ∨ ∃ R, Later c S co 1 1 1 R st''))) := by
  have hv : val c.n c.a S co (fun t => st.ord.getD t 0) = (slc c.n c.a S co 0 (zv c.n)).eval (c.a 0 ^ (i + 1)) := by
    rw [slc_zero_val h.len hn _ _ (zv c.n)]
    · rw [hF.ord, ords_getD hn 0 hn]; simp
    · intro t h1 h2
      rw [hF.ord, ords_getD hn t h2, if_neg (by omega), if_neg (by omega)]
  obtain ⟨l, hais, hl⟩ := hF.ais
  have hkey := zv_KK hS c.n
  have hg := h.slc_ne hn hkey
  obtain ⟨hkl, hkc, -⟩ := KK_spec h.len (by omega) hkey
  have hi0 : st.ord.getD 0 0 = i + 1 := by rw [hF.ord, ords_getD hn 0 hn]; simp
  set old : Option (BMState F) := if i = 0 then none else st.bms.find? (zv c.n) with hold
  obtain ⟨hN, hB⟩ := part_spec h hn hkey (i := i) (ai := some l) (bm := old)
    (fun hw => hl hw)
    (fun hb => by
      by_cases h0 : i = 0
      · rw [hold, if_pos h0, h0]; rfl
      · obtain ⟨b, e1, e2⟩ := hF.bm hb h0
        rw [hold, if_neg h0, e1]; exact e2) (fun hw => (hF.le1 hw).1)
  rw [hv]
  set v := (slc c.n c.a S co 0 (zv c.n)).eval (c.a 0 ^ (i + 1)) with hvdef
  -- the Ben-Or/Tiwari part
  have btCase : ∀ (s1 : St F) (l1 : List F), s1.zi = 1 → s1.ord = st.ord → s1.nums = [] → s1.result = none → s1.solved = [] → s1.tmpSolved = [] →
      s1.bms = st.bms → s1.ais = [(zv c.n, l1)] →
      (c.newton = true → l1 = newtonCoeffs (fun k => c.a 0 ^ k) (vals (c.a 0) (slc c.n c.a S co 0 (zv c.n)) (i + 1)) ∧ i ≤ (slc c.n c.a S co 0 (zv c.n)).natDegree ∧ ∀ d, c.deg = some d → i + 1 + (zv c.n).sum ≤ d) →
      ∃ st' b, (if c.bt = true then
          (c.btPart 1 (zv c.n) (if i = 0 then none else s1.bms.find? (zv c.n)) v).bind fun x => match x with
          | (_, some terms) => (c.storeBt s1 (zv c.n) terms).bind fun s2 =>
              some ({ s2 with ais := s2.ais.erase (zv c.n), bms := s2.bms.erase (zv c.n), ord := s1.ord.set 0 (s1.ord.getD 0 0 + 1) }, true)
          | (bm, none) => some ({ s1 with bms := s1.bms.set (zv c.n) bm, ord := s1.ord.set 0 (s1.ord.getD 0 0 + 1) }, false)
        else some ({ s1 with ord := s1.ord.set 0 (s1.ord.getD 0 0 + 1) }, false)) = some (st', b) ∧
      ((b = false ∧ FirstI c S co (i + 1) st') ∨
       (b = true ∧ ∃ st'', c.combine st' = some st'' ∧ (Done S co st'' ∨ ∃ R, Later c S co 1 1 1 R st''))) := by
    intro s1 l1 e1 e2 e3 e4 e5 e6 e7 e8 e9
    have hord : s1.ord.set 0 (s1.ord.getD 0 0 + 1) = ords c.n 0 (i + 1) 1 := by rw [e2, hF.ord, ords_zero_up]
    by_cases hbt : c.bt = true
    · rw [if_pos hbt, e7]
      obtain ⟨bm', res, h1, h2, h3⟩ := hB hbt
      rw [show (if i = 0 then none else st.bms.find? (zv c.n)) = old from rfl, h1]
      rcases h2 with rfl | rfl
      · simp only [Option.bind_some]
        obtain ⟨h4, h5⟩ := h3 rfl
        refine ⟨_, _, rfl, Or.inl ⟨rfl, ?_⟩⟩
        refine ⟨e1, hord, e3, e5, e6, e4, ⟨l1, e8, fun hw => (e9 hw).1⟩, fun _ _ => ⟨bm', ?_, h4⟩, fun hw => by have := (e9 hw).2; exact ⟨by omega, this.2⟩, fun _ => by omega⟩
        exact find?_set_eq _ _
      · simp only [Option.bind_some]
        obtain ⟨hne, hrep⟩ := btTerms_rep hn hkl hkc hg
        set terms := (expList (slc c.n c.a S co 0 (zv c.n))).map fun e => (e, (slc c.n c.a S co 0 (zv c.n)).coeff e) with hterms
        set T := terms.foldl (fun (tmp : FFMap F) t => tmp.emplace ((zv c.n).set 0 t.1) t.2) [] with hTdef
        by_cases h1n : c.n = 1
        · have hst : c.storeBt s1 (zv c.n) terms = some { s1 with solved := T } := by
            unfold Cfg.storeBt
            simp only [if_neg hne]
            have hz : s1.zi - 1 = 0 := by rw [e1]
            rw [hz]
            have hfold : ∀ (T' : FFMap F) (s2 : St F), T'.foldl (fun (s : St F) el => if some el.1.sum = c.deg ∧ el.2 ≠ 0 then { s with solved := s.solved.emplace el.1 el.2 }
                else if c.n = 1 then { s with solved := s.solved.emplace el.1 el.2 }
                else if el.2 ≠ 0 then { s with tmpSolved := s.tmpSolved.emplace el.1 el.2 } else s) s2 =
                { s2 with solved := T'.foldl (fun (m : FFMap F) t => m.emplace t.1 t.2) s2.solved } := by
              intro T'
              induction T' with
              | nil => intro s2; rfl
              | cons t T' ih =>
                intro s2
                rw [List.foldl_cons, ih, List.foldl_cons]
                split <;> simp [h1n]
            rw [hfold, e5]
            rw [show List.foldl (fun (m : FFMap F) t => m.emplace t.1 t.2) [] T = T by rw [emplace_fold hrep.1 (by simp)]; rfl]
            unfold dropKey
            rw [if_neg (by show ¬ s1.zi > 1; omega)]
          rw [hst]
          simp only [Option.bind_some]
          refine ⟨_, _, rfl, Or.inr ⟨rfl, _, combine_one h1n _, Or.inl ?_⟩⟩
          · obtain ⟨d1, d2⟩ := rep_done h h1n hrep hS
            refine ⟨T, ?_, d1, d2⟩
            simp only [Option.some.injEq]
            unfold Cfg.collect
            simp only [e8, erase_single, List.foldl_nil]
            rw [emplace_fold hrep.1 (by simp)]; rfl
        · have hst : c.storeBt s1 (zv c.n) terms = some { s1 with
              solved := (T.filter fun el => decide (some el.1.sum = c.deg)).foldl (fun (m : FFMap F) t => m.emplace t.1 t.2) []
              tmpSolved := (T.filter fun el => !decide (some el.1.sum = c.deg)).foldl (fun (m : FFMap F) t => m.emplace t.1 t.2) [] } := by
            unfold Cfg.storeBt
            simp only [if_neg hne]
            have hz : s1.zi - 1 = 0 := by rw [e1]
            rw [hz, store_fold_bt c h1n, store_fold c _ (rep_ne hrep), e5, e6]
            unfold dropKey
            rw [if_neg (by show ¬ s1.zi > 1; omega)]
          rw [hst]
          simp only [Option.bind_some]
          refine ⟨_, _, rfl, Or.inr ⟨rfl, ?_⟩⟩
          refine combine_first h (by omega) e1 e3 e4 hrep ?_ hS
          simp only [e8]
          split
          · rw [show (List.replicate c.n 0) = zv c.n from rfl, erase_single]
            show c.storeNewton _ (zv c.n) [] = _
            unfold Cfg.storeNewton
            rw [tmpCanonical_nil, List.foldl_nil]
            unfold dropKey
            rw [if_neg (by show ¬ s1.zi > 1; omega)]
          · rfl
    · rw [if_neg hbt]
      have hnew : c.newton = true := by
        rcases h.some with h1 | h1
        · exact h1
        · exact absurd h1 hbt
      refine ⟨_, _, rfl, Or.inl ⟨rfl, e1, hord, e3, e5, e6, e4, ⟨l1, e8, fun hw => (e9 hw).1⟩, fun hb => absurd hb hbt, fun hw => by have := (e9 hw).2; exact ⟨by omega, this.2⟩, fun hw => by rw [hnew] at hw; cases hw⟩⟩
  unfold Cfg.first
  simp only [Option.bind_eq_bind]
  rw [hi0, Nat.add_sub_cancel, show (List.replicate c.n 0) = zv c.n from rfl, hais, find_single, set_single]
  simp only [Option.getD_some]
  by_cases hnew : c.newton = true
  · simp only [if_pos hnew]
    obtain ⟨hN1, hN2⟩ := hN hnew
    simp only [Option.getD_some, zero_add] at hN1 hN2
    set r := c.newtonPart 1 i (zv c.n) v l with hr
    by_cases hfin : r.2 = true
    · rw [if_pos hfin]
      have hrep := hN1 hfin
      refine ⟨_, _, rfl, Or.inr ⟨rfl, ?_⟩⟩
      by_cases h1n : c.n = 1
      · refine ⟨_, combine_one h1n _, Or.inl ?_⟩
        · obtain ⟨d1, d2⟩ := rep_done h h1n hrep hS
          refine ⟨_, ?_, d1, d2⟩
          simp only [Option.some.injEq]
          unfold Cfg.collect
          simp only [hF.zi, hF.solved, List.foldl_cons, List.foldl_nil]
          rw [emplace_fold hrep.1 (by simp)]; rfl
      · refine combine_first h (by omega) hF.zi hF.nums hF.result hrep ?_ hS
        rw [if_pos ⟨hF.zi, hnew⟩]
        rw [show (List.replicate c.n 0) = zv c.n from rfl]
        simp only [find_single, Option.getD_some]
        unfold Cfg.storeNewton
        simp only [hF.zi]
        rw [store_fold c _ (rep_ne hrep)]
        unfold dropKey
        rw [if_neg (by simp)]
        simp only [hF.solved, hF.tmp]
    · rw [if_neg hfin]
      have := btCase { st with ais := [(zv c.n, r.1)] } r.1 hF.zi rfl hF.nums hF.result hF.solved hF.tmp rfl rfl
        (fun _ => hN2 (by simpa using hfin))
      exact this
  · simp only [if_neg hnew]
    have := btCase st l hF.zi rfl hF.nums hF.result hF.solved hF.tmp rfl hais (fun hw => absurd hw hnew)
    rw [if_neg (by simp)]
    exact this

end FireFly.MPoly
