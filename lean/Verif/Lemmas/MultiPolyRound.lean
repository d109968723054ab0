import Verif.Lemmas.MultiPolyStore
/-! # One round of a stage: every open key gets a value -/
set_option linter.all false
namespace FireFly.MPoly
open Polynomial
variable {F : Type} [Field F] [DecidableEq F]
variable {c : Cfg F} {S : Finset (List ℕ)} {co : List ℕ → F}

lemma rep_mem (h : Ctx c S co) {s : ℕ} (hs : s < c.n) {key : List ℕ} (hkey : key ∈ KK c.n S s) {T : FFMap F}
    (hT : Rep c.n s key (slc c.n c.a S co s key) T) (k : List ℕ) (v : F) :
    (k, v) ∈ T ↔ k ∈ KK c.n S (s + 1) ∧ cut c.n s k = key ∧ v = CC c.n c.a S co (s + 1) k := by
  obtain ⟨hl, hkc, -⟩ := KK_spec h.len (by omega) hkey
  rw [hT.2]
  constructor
  · rintro ⟨e, h1, rfl, rfl⟩
    exact ⟨h.nd_mem hs hkey h1, by rw [cut_nd hs hl, hkc], by rw [slc_coeff h.len hs hl]⟩
  · rintro ⟨h1, h2, rfl⟩
    obtain ⟨hl', hk', -⟩ := KK_spec h.len (by omega) h1
    have h3 : nd c.n s key (k.getD s 0) = k := nd_cut_self hs hl' hk' (by rw [h2, hkc]) hl
    refine ⟨k.getD s 0, ?_, h3.symm, ?_⟩
    · rw [slc_coeff h.len hs hl, h3]; exact h.keeps s hs k h1
    · rw [slc_coeff h.len hs hl, h3]

/-- the contents of `solved_degs` and `tmp_solved_degs` in stage `s + 1` while the keys `R` are open -/
structure Maps (c : Cfg F) (S : Finset (List ℕ)) (co : List ℕ → F) (s : ℕ) (R : List (List ℕ)) (solved tmp : FFMap F) : Prop where
  nd1 : (solved.map Prod.fst).Nodup
  nd2 : (tmp.map Prod.fst).Nodup
  mem1 : ∀ k v, (k, v) ∈ solved ↔ k ∈ KK c.n S (s + 1) ∧ cut c.n s k ∉ R ∧ some k.sum = c.deg ∧ v = CC c.n c.a S co (s + 1) k
  mem2 : ∀ k v, (k, v) ∈ tmp ↔ k ∈ KK c.n S (s + 1) ∧ cut c.n s k ∉ R ∧ some k.sum ≠ c.deg ∧ v = CC c.n c.a S co (s + 1) k

lemma fst_mem_iff {m : FFMap F} {k : List ℕ} : k ∈ m.map Prod.fst ↔ ∃ v, (k, v) ∈ m := by
  rw [List.mem_map]
  constructor
  · rintro ⟨⟨a, b⟩, h, rfl⟩; exact ⟨b, h⟩
  · rintro ⟨v, h⟩; exact ⟨(k, v), h, rfl⟩

lemma Maps.add (h : Ctx c S co) {s : ℕ} (hs : s < c.n) {R : List (List ℕ)} {solved tmp : FFMap F} (hM : Maps c S co s R solved tmp)
    {key : List ℕ} (hkey : key ∈ KK c.n S s) (hR : key ∈ R) {T : FFMap F} (hT : Rep c.n s key (slc c.n c.a S co s key) T) {R' : List (List ℕ)}
    (hR' : ∀ k, k ∈ R' ↔ k ∈ R ∧ k ≠ key) :
    Maps c S co s R' ((T.filter fun el => decide (some el.1.sum = c.deg)).foldl (fun (m : FFMap F) t => m.emplace t.1 t.2) solved)
      ((T.filter fun el => !decide (some el.1.sum = c.deg)).foldl (fun (m : FFMap F) t => m.emplace t.1 t.2) tmp) := by
  have hmem := rep_mem h hs hkey hT
  have hfresh1 : ∀ k ∈ (T.filter fun el => decide (some el.1.sum = c.deg)).map Prod.fst, k ∉ solved.map Prod.fst := by
    intro k hk hk'
    obtain ⟨v, hv⟩ := fst_mem_iff.mp hk
    obtain ⟨w, hw⟩ := fst_mem_iff.mp hk'
    rw [List.mem_filter, hmem] at hv
    rw [hM.mem1] at hw
    exact hw.2.1 (hv.1.2.1 ▸ hR)
  have hfresh2 : ∀ k ∈ (T.filter fun el => !decide (some el.1.sum = c.deg)).map Prod.fst, k ∉ tmp.map Prod.fst := by
    intro k hk hk'
    obtain ⟨v, hv⟩ := fst_mem_iff.mp hk
    obtain ⟨w, hw⟩ := fst_mem_iff.mp hk'
    rw [List.mem_filter, hmem] at hv
    rw [hM.mem2] at hw
    exact hw.2.1 (hv.1.2.1 ▸ hR)
  have hn1 : ((T.filter fun el => decide (some el.1.sum = c.deg)).map Prod.fst).Nodup := List.Nodup.sublist ((List.filter_sublist).map _) hT.1
  have hn2 : ((T.filter fun el => !decide (some el.1.sum = c.deg)).map Prod.fst).Nodup := List.Nodup.sublist ((List.filter_sublist).map _) hT.1
  rw [emplace_fold hn1 hfresh1, emplace_fold hn2 hfresh2]
  have hsplit : ∀ k, cut c.n s k ∉ R' ↔ cut c.n s k ∉ R ∨ cut c.n s k = key := by
    intro k
    rw [hR']
    by_cases h1 : cut c.n s k = key
    · simp [h1]
    · simp [h1]
  refine ⟨?_, ?_, ?_, ?_⟩
  · rw [List.map_append, List.nodup_append]
    exact ⟨hM.nd1, hn1, fun a ha b hb hab => hfresh1 b hb (hab ▸ ha)⟩
  · rw [List.map_append, List.nodup_append]
    exact ⟨hM.nd2, hn2, fun a ha b hb hab => hfresh2 b hb (hab ▸ ha)⟩
  · intro k v
    rw [List.mem_append, hM.mem1, List.mem_filter, hmem, hsplit]
    simp only [decide_eq_true_eq]
    tauto
  · intro k v
    rw [List.mem_append, hM.mem2, List.mem_filter, hmem, hsplit]
    simp only [Bool.not_eq_true', decide_eq_false_iff_not]
    tauto

/-- the loop of `check_for_tmp_solved_degs_for_newton` -/
lemma store_fold (c : Cfg F) (T : FFMap F) (hT : ∀ t ∈ T, t.2 ≠ 0) (s : St F) :
    T.foldl (fun (s : St F) el => if some el.1.sum = c.deg ∧ el.2 ≠ 0 then { s with solved := s.solved.emplace el.1 el.2 }
      else if el.2 ≠ 0 then { s with tmpSolved := s.tmpSolved.emplace el.1 el.2 } else s) s =
    { s with
      solved := (T.filter fun el => decide (some el.1.sum = c.deg)).foldl (fun (m : FFMap F) t => m.emplace t.1 t.2) s.solved
      tmpSolved := (T.filter fun el => !decide (some el.1.sum = c.deg)).foldl (fun (m : FFMap F) t => m.emplace t.1 t.2) s.tmpSolved } := by
  induction T generalizing s with
  | nil => rfl
  | cons t T ih =>
    rw [List.foldl_cons, ih (fun t ht => hT t (by simp [ht]))]
    have h0 := hT t (by simp)
    by_cases h : some t.1.sum = c.deg
    · rw [if_pos ⟨h, h0⟩, List.filter_cons_of_pos (by simpa using h), List.filter_cons_of_neg (by simpa using h)]
      rfl
    · rw [if_neg (fun h' => h h'.1), if_pos h0, List.filter_cons_of_neg (by simpa using h), List.filter_cons_of_pos (by simpa using h)]
      rfl

/-- the loop of `check_for_tmp_solved_degs_for_bt` for more than one variable -/
lemma store_fold_bt (c : Cfg F) (hn : c.n ≠ 1) (T : FFMap F) (s : St F) :
    T.foldl (fun (s : St F) el => if some el.1.sum = c.deg ∧ el.2 ≠ 0 then { s with solved := s.solved.emplace el.1 el.2 }
      else if c.n = 1 then { s with solved := s.solved.emplace el.1 el.2 }
      else if el.2 ≠ 0 then { s with tmpSolved := s.tmpSolved.emplace el.1 el.2 } else s) s =
    T.foldl (fun (s : St F) el => if some el.1.sum = c.deg ∧ el.2 ≠ 0 then { s with solved := s.solved.emplace el.1 el.2 }
      else if el.2 ≠ 0 then { s with tmpSolved := s.tmpSolved.emplace el.1 el.2 } else s) s := by
  simp only [if_neg hn]

lemma newtonPart_lt {c : Cfg F} {zi i d N : ℕ} {key : List ℕ} {v : F} {ai : List F} (hd : c.deg = some d) (h1 : key.sum + N ≤ d) (h2 : d < 2 ^ 31) (h3 : i ≤ N)
    (h : (c.newtonPart zi i key v ai).2 = false) : i + 1 + key.sum ≤ d := by
  have hne : ((d : ℤ) - key.sum) % 2 ^ 32 ≠ (i : ℤ) := by
    intro heq
    unfold Cfg.newtonPart at h
    have hany : (c.deg.any fun d => ((d : ℤ) - key.sum) % 2 ^ 32 == (i : ℤ)) = true := by
      rw [hd]
      show (((d : ℤ) - key.sum) % 2 ^ 32 == (i : ℤ)) = true
      rw [beq_iff_eq]; exact heq
    simp only [hany, if_true] at h
    split at h <;> cases h
  rw [Int.emod_eq_of_lt (by omega) (by omega)] at hne
  omega

/-- the state of the interpolation of one key after `i` values -/
structure KeyInv (c : Cfg F) (g : F[X]) (s i : ℕ) (key : List ℕ) (ai : Option (List F)) (bm : Option (BMState F)) : Prop where
  ai : c.newton = true → ai = some (newtonCoeffs (fun k => c.a s ^ k) (vals (c.a s) g i))
  bm : c.bt = true → ∃ st, bm = some st ∧ (BMState.init : BMState F).feed c.thr (vals (c.a s) g i) = some st
  le1 : c.newton = true → i ≤ g.natDegree + 1 ∧ ∀ d, c.deg = some d → i + key.sum ≤ d
  le2 : c.newton = false → i ≤ 2 * g.support.card + c.thr

/-- what a step for one key does -/
lemma part_spec (h : Ctx c S co) {s : ℕ} (hs : s < c.n) {i : ℕ} {key : List ℕ} (hkey : key ∈ KK c.n S s) {ai : Option (List F)} {bm : Option (BMState F)}
    (hai : c.newton = true → ai.getD [] = newtonCoeffs (fun k => c.a s ^ k) (vals (c.a s) (slc c.n c.a S co s key) i))
    (hbm : c.bt = true → (BMState.init : BMState F).feed c.thr (vals (c.a s) (slc c.n c.a S co s key) i) = some (bm.getD BMState.init))
    (hi : c.newton = true → i ≤ (slc c.n c.a S co s key).natDegree + 1) :
    let g := slc c.n c.a S co s key
    let v := g.eval (c.a s ^ (i + 1))
    (c.newton = true →
      let r := c.newtonPart (s + 1) i key v (ai.getD [])
      (r.2 = true → Rep c.n s key g (c.tmpCanonical (s + 1) key r.1)) ∧
      (r.2 = false → r.1 = newtonCoeffs (fun k => c.a s ^ k) (vals (c.a s) g (i + 1)) ∧ i ≤ g.natDegree ∧ ∀ d, c.deg = some d → i + 1 + key.sum ≤ d)) ∧
    (c.bt = true → ∃ bm' res, c.btPart (s + 1) key bm v = some (bm', res) ∧
      (res = none ∨ res = some ((expList g).map fun e => (e, g.coeff e))) ∧
      (res = none → (BMState.init : BMState F).feed c.thr (vals (c.a s) g (i + 1)) = some bm' ∧ i < 2 * g.support.card + c.thr)) := by
  intro g v
  have hg : g ≠ 0 := h.slc_ne hs hkey
  obtain ⟨hl, hkc, -⟩ := KK_spec h.len (by omega) hkey
  obtain ⟨m, hm, hm1, hm2⟩ := h.top hs hkey
  have hm1' : m.getD s 0 = g.natDegree := hm1
  have hm2' : key.sum + g.natDegree ≤ m.sum := hm2
  have hsize := h.size m hm
  constructor
  · intro hnew r
    have hd : DistinctPoints (fun k => c.anchor.getD s 0 ^ k) (i + 1) := by
      have hdist : ∀ a b : ℕ, 1 ≤ a → a < b → b ≤ i + 1 → c.anchor.getD s 0 ^ a ≠ c.anchor.getD s 0 ^ b := by
        intro a b h1 hab hb heq
        have hy : c.anchor.getD s 0 ≠ 0 := h.nonzero s hs
        have : c.anchor.getD s 0 ^ (b - a) = 1 := by
          have h5 : c.anchor.getD s 0 ^ b = c.anchor.getD s 0 ^ a * c.anchor.getD s 0 ^ (b - a) := by rw [← pow_add]; congr 1; omega
          rw [h5] at heq
          exact (mul_left_cancel₀ (pow_ne_zero a hy) (by rw [mul_one]; exact heq)).symm
        have hi' := hi hnew
        exact h.order s hs m hm (b - a) (by omega) (by rw [hm1]; omega) this
      intro a b h1 h2 h3 h4 heq
      rcases Nat.lt_trichotomy a b with hab | hab | hab
      · exact absurd heq (hdist a b h1 hab h4)
      · exact hab
      · exact absurd heq.symm (hdist b a h3 hab h2)
    have hspec := newtonPart_spec c s i key g hd (h.newton hnew s hs key hkey)
      (fun d hd => ⟨le_trans hm2' ((h.deg d hd).2 m hm), (h.deg d hd).1⟩)
      (fun b hb => hm1' ▸ h.bounds b hb m hm s hs)
    have hr : r = c.newtonPart (s + 1) i key (g.eval (c.anchor.getD s 0 ^ (i + 1))) (newtonCoeffs (fun k => c.anchor.getD s 0 ^ k) (vals (c.anchor.getD s 0) g i)) := by
      show c.newtonPart (s + 1) i key v (ai.getD []) = _
      rw [hai hnew]; rfl
    simp only [← hr] at hspec
    refine ⟨fun hf => ?_, fun hf => ⟨(hspec.2 hf).1, (hspec.2 hf).2, fun d hd => newtonPart_lt hd (le_trans hm2' ((h.deg d hd).2 m hm)) (h.deg d hd).1 (hspec.2 hf).2 hf⟩⟩
    obtain ⟨h1, h2⟩ := hspec.1 hf
    have hi' := hi hnew
    exact tmpCanonical_rep c hs hl hkc hg (by omega) h1
  · intro hbt
    refine btPart_spec c s i key g (h.nonzero s hs) ?_ (h.bt hbt s hs key hkey) hg ?_ bm (hbm hbt)
    · intro j h1 h2
      exact h.order s hs m hm j h1 (by rw [hm1']; omega)
    · unfold Cfg.rootBound
      split
      · rename_i d hd
        have := h.deg d hd
        have h3 := this.2 m hm
        rw [Int.emod_eq_of_lt (by omega) (by omega)]
        omega
      · omega

lemma getD_of_bm {P : BMState F → Prop} {bm : Option (BMState F)} (h : ∃ st, bm = some st ∧ P st) : P (bm.getD BMState.init) := by
  obtain ⟨st, rfl, h⟩ := h; exact h

lemma dropKey_eq (s : St F) {key : List ℕ} (hz : s.zi > 1) (hk : key ∈ s.recDegs) :
    dropKey s key = some { s with recDegs := s.recDegs.erase key } := by
  unfold dropKey; rw [if_pos hz, if_pos hk]

/-- the loop invariant of a round -/
structure RoundInv (c : Cfg F) (S : Finset (List ℕ)) (co : List ℕ → F) (s i : ℕ) (s0 : St F) (U rest : List (List ℕ)) (st : St F × ℕ × ℕ) : Prop where
  zi : st.1.zi = s + 1
  ord : st.1.ord = s0.ord
  nums : st.1.nums = s0.nums
  result : st.1.result = s0.result
  recDegs : st.1.recDegs = U ++ rest
  nodup : (U ++ rest).Nodup
  sub : ∀ k ∈ U ++ rest, k ∈ KK c.n S s
  maps : Maps c S co s (U ++ rest) st.1.solved st.1.tmpSolved
  done : ∀ k ∈ U, KeyInv c (slc c.n c.a S co s k) s (i + 1) k (st.1.ais.find? k) (st.1.bms.find? k)
  todo : ∀ k ∈ rest, KeyInv c (slc c.n c.a S co s k) s i k (st.1.ais.find? k) (st.1.bms.find? k)
  nb : c.bt = true → st.2.2 = U.length
  nn : c.newton = true → U.length ≤ st.2.1
  nn' : c.newton = true → c.bt = false → st.2.1 = U.length

lemma find?_erase_ne {α : Type} (m : FFMap α) {k k' : List ℕ} (h : k ≠ k') : (m.erase k').find? k = m.find? k := by
  rw [FFMap.find?_erase, if_neg h]

lemma find?_set_ne {α : Type} (m : FFMap α) {k k' : List ℕ} (v : α) (h : k ≠ k') : (m.set k' v).find? k = m.find? k := by
  rw [FFMap.find?_set, if_neg h]

lemma find?_set_eq {α : Type} (m : FFMap α) {k : List ℕ} (v : α) : (m.set k v).find? k = some v := by
  rw [FFMap.find?_set, if_pos rfl]

/-- a key that is finished -/
lemma RoundInv.finish (h : Ctx c S co) {s : ℕ} (hs : s < c.n) {i : ℕ} {s0 : St F} {U : List (List ℕ)} {key : List ℕ} {rest : List (List ℕ)} {st : St F × ℕ × ℕ}
    (hI : RoundInv c S co s i s0 U (key :: rest) st) {T : FFMap F} (hT : Rep c.n s key (slc c.n c.a S co s key) T)
    {s' : St F} (hs' : s'.zi = st.1.zi) (ho : s'.ord = st.1.ord) (hnu : s'.nums = st.1.nums) (hr : s'.result = st.1.result)
    (hrec : s'.recDegs = st.1.recDegs.erase key)
    (hsol : s'.solved = (T.filter fun el => decide (some el.1.sum = c.deg)).foldl (fun (m : FFMap F) t => m.emplace t.1 t.2) st.1.solved)
    (htmp : s'.tmpSolved = (T.filter fun el => !decide (some el.1.sum = c.deg)).foldl (fun (m : FFMap F) t => m.emplace t.1 t.2) st.1.tmpSolved)
    (hai : ∀ k, k ≠ key → s'.ais.find? k = st.1.ais.find? k) (hbm : ∀ k, k ≠ key → s'.bms.find? k = st.1.bms.find? k)
    {nn nb : ℕ} (h1 : nb = st.2.2) (h2 : c.newton = true → st.2.1 ≤ nn) (h3 : c.newton = true → c.bt = false → nn = st.2.1) :
    RoundInv c S co s i s0 U rest (s', nn, nb) := by
  have hkU : key ∉ U := by
    intro hU
    have := (List.nodup_append.mp hI.nodup).2.2 key hU key (by simp)
    exact this rfl
  have hkr : key ∉ rest := by
    have := (List.nodup_append.mp hI.nodup).2.1
    exact (List.nodup_cons.mp this).1
  have her : (U ++ key :: rest).erase key = U ++ rest := by
    rw [List.erase_append_right _ hkU, List.erase_cons_head]
  refine ⟨by rw [hs', hI.zi], by rw [ho, hI.ord], by rw [hnu, hI.nums], by rw [hr, hI.result], by rw [hrec, hI.recDegs, her], ?_, ?_, ?_, ?_, ?_, ?_, ?_, ?_⟩
  · rw [← her]; exact hI.nodup.erase _
  · intro k hk; apply hI.sub k
    rw [List.mem_append] at hk ⊢
    rcases hk with hk | hk
    · exact Or.inl hk
    · exact Or.inr (by simp [hk])
  · show Maps c S co s (U ++ rest) s'.solved s'.tmpSolved
    rw [hsol, htmp]
    refine Maps.add h hs hI.maps (hI.sub key (by simp)) (by simp) hT ?_
    intro k
    simp only [List.mem_append, List.mem_cons]
    constructor
    · intro hk
      refine ⟨by tauto, ?_⟩
      rintro rfl
      rcases hk with hk | hk
      · exact hkU hk
      · exact hkr hk
    · rintro ⟨hk, hne⟩; tauto
  · intro k hk
    have hne : k ≠ key := by rintro rfl; exact hkU hk
    have := hI.done k hk
    show KeyInv c _ s (i + 1) k (s'.ais.find? k) (s'.bms.find? k)
    rwa [hai k hne, hbm k hne]
  · intro k hk
    have hne : k ≠ key := by rintro rfl; exact hkr hk
    have := hI.todo k (by simp [hk])
    show KeyInv c _ s i k (s'.ais.find? k) (s'.bms.find? k)
    rwa [hai k hne, hbm k hne]
  · intro hb; show nb = _; rw [h1]; exact hI.nb hb
  · intro hn; exact le_trans (hI.nn hn) (h2 hn)
  · intro hn hb; show nn = _; rw [h3 hn hb]; exact hI.nn' hn hb

/-- a key that is not finished -/
lemma RoundInv.goOn {s : ℕ} {i : ℕ} {s0 : St F} {U : List (List ℕ)} {key : List ℕ} {rest : List (List ℕ)} {st : St F × ℕ × ℕ}
    (hI : RoundInv c S co s i s0 U (key :: rest) st)
    {s' : St F} (hs' : s'.zi = st.1.zi) (ho : s'.ord = st.1.ord) (hnu : s'.nums = st.1.nums) (hr : s'.result = st.1.result)
    (hrec : s'.recDegs = st.1.recDegs) (hsol : s'.solved = st.1.solved) (htmp : s'.tmpSolved = st.1.tmpSolved)
    (hai : ∀ k, k ≠ key → s'.ais.find? k = st.1.ais.find? k) (hbm : ∀ k, k ≠ key → s'.bms.find? k = st.1.bms.find? k)
    (hk : KeyInv c (slc c.n c.a S co s key) s (i + 1) key (s'.ais.find? key) (s'.bms.find? key))
    {nn nb : ℕ} (h1 : c.bt = true → nb = st.2.2 + 1) (h2 : c.newton = true → nn = st.2.1 + 1) :
    RoundInv c S co s i s0 (U ++ [key]) rest (s', nn, nb) := by
  have hkU : key ∉ U := by
    intro hU
    have := (List.nodup_append.mp hI.nodup).2.2 key hU key (by simp)
    exact this rfl
  have hkr : key ∉ rest := by
    have := (List.nodup_append.mp hI.nodup).2.1
    exact (List.nodup_cons.mp this).1
  have hap : U ++ [key] ++ rest = U ++ key :: rest := by simp
  refine ⟨by rw [hs', hI.zi], by rw [ho, hI.ord], by rw [hnu, hI.nums], by rw [hr, hI.result], by rw [hrec, hI.recDegs, hap], ?_, ?_, ?_, ?_, ?_, ?_, ?_, ?_⟩
  · rw [hap]; exact hI.nodup
  · rw [hap]; exact hI.sub
  · rw [hap]; show Maps c S co s _ s'.solved s'.tmpSolved
    rw [hsol, htmp]; exact hI.maps
  · intro k hk'
    rw [List.mem_append, List.mem_singleton] at hk'
    rcases hk' with hk' | rfl
    · have hne : k ≠ key := by rintro rfl; exact hkU hk'
      have := hI.done k hk'
      show KeyInv c _ s (i + 1) k (s'.ais.find? k) (s'.bms.find? k)
      rwa [hai k hne, hbm k hne]
    · exact hk
  · intro k hk'
    have hne : k ≠ key := by rintro rfl; exact hkr hk'
    have := hI.todo k (by simp [hk'])
    show KeyInv c _ s i k (s'.ais.find? k) (s'.bms.find? k)
    rwa [hai k hne, hbm k hne]
  · intro hb
    have := hI.nb hb
    show nb = _; rw [h1 hb, this]; simp
  · intro hn
    have := hI.nn hn
    show _ ≤ nn; rw [h2 hn]; simp; exact this
  · intro hn hb
    have := hI.nn' hn hb
    show nn = _; rw [h2 hn, this]; simp

lemma rep_ne {n s : ℕ} {key : List ℕ} {g : F[X]} {T : FFMap F} (hT : Rep n s key g T) : ∀ t ∈ T, t.2 ≠ 0 := by
  intro t ht
  obtain ⟨e, h1, -, h2⟩ := (hT.2 t.1 t.2).mp ht
  rw [h2]; exact h1

/-- one key -/
lemma keyStep_spec (h : Ctx c S co) {s : ℕ} (hs : s < c.n) (hs0 : 0 < s) {i : ℕ} {s0 : St F} {U : List (List ℕ)} {key : List ℕ} {rest : List (List ℕ)} {st : St F × ℕ × ℕ}
    (hI : RoundInv c S co s i s0 U (key :: rest) st) :
    ∃ st' U', c.keyStep i st (key, (slc c.n c.a S co s key).eval (c.a s ^ (i + 1))) = some st' ∧ RoundInv c S co s i s0 U' rest st' := by
  have hkey := hI.sub key (by simp)
  have hK := hI.todo key (by simp)
  obtain ⟨hN, hB⟩ := part_spec h hs hkey (ai := st.1.ais.find? key) (bm := st.1.bms.find? key)
    (fun hn => by rw [hK.ai hn]; rfl) (fun hb => getD_of_bm (hK.bm hb)) (fun hw => (hK.le1 hw).1)
  have hzi : st.1.zi > 1 := by rw [hI.zi]; omega
  have hmemR : key ∈ st.1.recDegs := by rw [hI.recDegs]; simp
  have hn1 : c.n ≠ 1 := by omega
  have hg : slc c.n c.a S co s key ≠ 0 := h.slc_ne hs hkey
  obtain ⟨hl, hkc, -⟩ := KK_spec h.len (by omega) hkey
  set v := (slc c.n c.a S co s key).eval (c.a s ^ (i + 1)) with hv
  set ai := st.1.ais.find? key with hai
  -- the Ben-Or/Tiwari part on a state that differs in `ais` only
  have btCase : ∀ (s1 : St F) (nn : ℕ), s1.zi = st.1.zi → s1.ord = st.1.ord → s1.nums = st.1.nums → s1.result = st.1.result → s1.recDegs = st.1.recDegs →
      s1.solved = st.1.solved → s1.tmpSolved = st.1.tmpSolved → s1.bms = st.1.bms → (∀ k, k ≠ key → s1.ais.find? k = st.1.ais.find? k) →
      (c.newton = true → s1.ais.find? key = some (newtonCoeffs (fun k => c.a s ^ k) (vals (c.a s) (slc c.n c.a S co s key) (i + 1))) ∧ i ≤ (slc c.n c.a S co s key).natDegree ∧ ∀ d, c.deg = some d → i + 1 + key.sum ≤ d) →
      (nn = if c.newton = true then st.2.1 + 1 else st.2.1) →
      ∃ st' U', (if c.bt = true then
          (c.btPart s1.zi key (s1.bms.find? key) v).bind fun x => match x with
          | (_, some terms) => (c.storeBt s1 key terms).bind fun s2 => some ({ s2 with ais := s2.ais.erase key, bms := s2.bms.erase key }, nn, st.2.2)
          | (bm, none) => some ({ s1 with bms := s1.bms.set key bm }, nn, st.2.2 + 1)
        else some (s1, nn, st.2.2)) = some st' ∧ RoundInv c S co s i s0 U' rest st' := by
    intro s1 nn e1 e2 e3 e4 e5 e6 e7 e8 e9 e10 e11
    by_cases hbt : c.bt = true
    · rw [if_pos hbt]
      obtain ⟨bm', res, h1, h2, h3⟩ := hB hbt
      have hb1 : c.btPart s1.zi key (s1.bms.find? key) v = some (bm', res) := by rw [e1, hI.zi, e8]; exact h1
      rw [hb1]
      rcases h2 with rfl | rfl
      · simp only [Option.bind_some]
        obtain ⟨h4, h5⟩ := h3 rfl
        refine ⟨_, U ++ [key], rfl, ?_⟩
        refine hI.goOn (s' := { s1 with bms := s1.bms.set key bm' }) e1 e2 e3 e4 e5 e6 e7 e9 ?_ ⟨?_, ?_, ?_, ?_⟩ (fun _ => rfl) ?_
        · intro k hk; show (s1.bms.set key bm').find? k = _; rw [find?_set_ne _ _ hk, e8]
        · intro hn; exact (e10 hn).1
        · intro _; exact ⟨bm', find?_set_eq _ _, h4⟩
        · intro hn; have := (e10 hn).2; exact ⟨by omega, this.2⟩
        · intro _; omega
        · intro hn; rw [e11, if_pos hn]
      · simp only [Option.bind_some]
        obtain ⟨hne, hrep⟩ := btTerms_rep hs hl hkc hg
        set terms := (expList (slc c.n c.a S co s key)).map fun e => (e, (slc c.n c.a S co s key).coeff e) with hterms
        have hst : c.storeBt s1 key terms = some { s1 with
            solved := ((terms.foldl (fun (tmp : FFMap F) t => tmp.emplace (key.set s t.1) t.2) []).filter fun el => decide (some el.1.sum = c.deg)).foldl (fun (m : FFMap F) t => m.emplace t.1 t.2) s1.solved
            tmpSolved := ((terms.foldl (fun (tmp : FFMap F) t => tmp.emplace (key.set s t.1) t.2) []).filter fun el => !decide (some el.1.sum = c.deg)).foldl (fun (m : FFMap F) t => m.emplace t.1 t.2) s1.tmpSolved
            recDegs := s1.recDegs.erase key } := by
          unfold Cfg.storeBt
          simp only [if_neg hne]
          have hz : s1.zi - 1 = s := by rw [e1, hI.zi]; omega
          rw [hz, store_fold_bt c hn1, store_fold c _ (rep_ne hrep), dropKey_eq]
          · show s1.zi > 1; rw [e1]; exact hzi
          · show key ∈ s1.recDegs; rw [e5]; exact hmemR
        rw [hst]
        simp only [Option.bind_some]
        refine ⟨_, U, rfl, ?_⟩
        refine hI.finish (s' := { s1 with
            solved := ((terms.foldl (fun (tmp : FFMap F) t => tmp.emplace (key.set s t.1) t.2) []).filter fun el => decide (some el.1.sum = c.deg)).foldl (fun (m : FFMap F) t => m.emplace t.1 t.2) s1.solved
            tmpSolved := ((terms.foldl (fun (tmp : FFMap F) t => tmp.emplace (key.set s t.1) t.2) []).filter fun el => !decide (some el.1.sum = c.deg)).foldl (fun (m : FFMap F) t => m.emplace t.1 t.2) s1.tmpSolved
            recDegs := s1.recDegs.erase key, ais := s1.ais.erase key, bms := s1.bms.erase key }) h hs hrep e1 e2 e3 e4 (by show s1.recDegs.erase key = _; rw [e5]) (by show List.foldl _ s1.solved _ = _; rw [e6]) (by show List.foldl _ s1.tmpSolved _ = _; rw [e7]) ?_ ?_ rfl ?_ ?_
        · intro k hk; show (s1.ais.erase key).find? k = _; rw [find?_erase_ne _ hk, e9 k hk]
        · intro k hk; show (s1.bms.erase key).find? k = _; rw [find?_erase_ne _ hk, e8]
        · intro hn; rw [e11, if_pos hn]; omega
        · intro _ hb; rw [hbt] at hb; cases hb
    · rw [if_neg hbt]
      refine ⟨_, U ++ [key], rfl, ?_⟩
      have hnew : c.newton = true := by
        rcases h.some with h1 | h1
        · exact h1
        · exact absurd h1 hbt
      refine hI.goOn e1 e2 e3 e4 e5 e6 e7 e9 (fun k _ => by rw [e8]) ⟨fun hn => (e10 hn).1, fun hb => absurd hb hbt, fun hn => by have := (e10 hn).2; exact ⟨by omega, this.2⟩, fun hn => by rw [hnew] at hn; cases hn⟩ (fun hb => absurd hb hbt) (fun hn => by rw [e11, if_pos hn])
  unfold Cfg.keyStep
  simp only [Option.bind_eq_bind]
  by_cases hnew : c.newton = true
  · simp only [if_pos hnew]
    obtain ⟨hN1, hN2⟩ := hN hnew
    have hr0 : c.newtonPart st.1.zi i key v (ai.getD []) = c.newtonPart (s + 1) i key v (ai.getD []) := by rw [hI.zi]
    rw [hr0]
    set r := c.newtonPart (s + 1) i key v (ai.getD []) with hr
    by_cases hfin : r.2 = true
    · rw [if_pos hfin]
      have hrep := hN1 hfin
      have hst : c.storeNewton st.1 key r.1 = some { st.1 with
            solved := ((c.tmpCanonical (s + 1) key r.1).filter fun el => decide (some el.1.sum = c.deg)).foldl (fun (m : FFMap F) t => m.emplace t.1 t.2) st.1.solved
            tmpSolved := ((c.tmpCanonical (s + 1) key r.1).filter fun el => !decide (some el.1.sum = c.deg)).foldl (fun (m : FFMap F) t => m.emplace t.1 t.2) st.1.tmpSolved
            recDegs := st.1.recDegs.erase key } := by
        unfold Cfg.storeNewton
        rw [hI.zi, store_fold c _ (rep_ne hrep), dropKey_eq]
        · show st.1.zi > 1; exact hzi
        · exact hmemR
      rw [hst]
      simp only [Option.bind_some]
      refine ⟨_, U, rfl, ?_⟩
      refine hI.finish (s' := { st.1 with
            solved := ((c.tmpCanonical (s + 1) key r.1).filter fun el => decide (some el.1.sum = c.deg)).foldl (fun (m : FFMap F) t => m.emplace t.1 t.2) st.1.solved
            tmpSolved := ((c.tmpCanonical (s + 1) key r.1).filter fun el => !decide (some el.1.sum = c.deg)).foldl (fun (m : FFMap F) t => m.emplace t.1 t.2) st.1.tmpSolved
            recDegs := st.1.recDegs.erase key, ais := st.1.ais.erase key, bms := if c.bt = true then st.1.bms.erase key else st.1.bms }) h hs hrep rfl rfl rfl rfl rfl rfl rfl ?_ ?_ rfl (fun _ => le_rfl) (fun _ _ => rfl)
      · intro k hk; show (st.1.ais.erase key).find? k = _; rw [find?_erase_ne _ hk]
      · intro k hk
        show (if c.bt = true then st.1.bms.erase key else st.1.bms).find? k = _
        split
        · rw [find?_erase_ne _ hk]
        · rfl
    · rw [if_neg hfin]
      have := btCase { st.1 with ais := st.1.ais.set key r.1 } (st.2.1 + 1) rfl rfl rfl rfl rfl rfl rfl rfl
        (fun k hk => by show (st.1.ais.set key r.1).find? k = _; rw [find?_set_ne _ _ hk])
        (fun _ => by
          have := hN2 (by simpa using hfin)
          refine ⟨?_, this.2⟩
          show (st.1.ais.set key r.1).find? key = _
          rw [find?_set_eq, this.1])
        (by rw [if_pos hnew])
      have hz' : ({ st.1 with ais := st.1.ais.set key r.1 } : St F).zi = st.1.zi := rfl
      exact this
  · simp only [if_neg hnew]
    exact btCase st.1 st.2.1 rfl rfl rfl rfl rfl rfl rfl rfl (fun k _ => rfl) (fun hn => absurd hn hnew) (by rw [if_neg hnew])

/-- all keys -/
lemma round_spec (h : Ctx c S co) {s : ℕ} (hs : s < c.n) (hs0 : 0 < s) {i : ℕ} {s0 : St F} : ∀ (rest U : List (List ℕ)) (st : St F × ℕ × ℕ),
    RoundInv c S co s i s0 U rest st →
    ∃ st' U', (rest.map fun k => (k, (slc c.n c.a S co s k).eval (c.a s ^ (i + 1)))).foldlM (c.keyStep i) st = some st' ∧ RoundInv c S co s i s0 U' [] st' := by
  intro rest
  induction rest with
  | nil => intro U st hI; exact ⟨st, U, rfl, hI⟩
  | cons key rest ih =>
    intro U st hI
    obtain ⟨st1, U1, h1, h2⟩ := keyStep_spec h hs hs0 hI
    obtain ⟨st2, U2, h3, h4⟩ := ih U1 st1 h2
    refine ⟨st2, U2, ?_, h4⟩
    rw [List.map_cons, List.foldlM_cons, h1]
    exact h3

end FireFly.MPoly
