import Verif.Spec.PolyRun
import Verif.Lemmas.RatRunBasic
import Verif.Props.RatRunProps
/-!
# Lemmas for C47
-/
set_option linter.all false
namespace FireFly.PRun
open MvPolynomial RRun FFMap

/-! ## evaluation -/

lemma eval_congr {F : Type} [_root_.Field F] {k : ℕ} {m : FFMap F} (hw : WFMap k m) {x y : ℕ → F} (h : ∀ i < k, x i = y i) : eval x (denote m) = eval y (denote m) := by
  unfold denote
  rw [map_list_sum, map_list_sum, List.map_map, List.map_map]
  congr 1
  apply List.map_congr_left
  intro t ht
  simp only [Function.comp, eval_monomial]
  congr 1
  apply Finsupp.prod_congr
  intro i hi
  have : i < k := by
    rw [← hw.2 t ht]
    by_contra hc
    rw [Finsupp.mem_support_iff] at hi
    apply hi
    simp only [List.toFinsupp_apply]
    rw [List.getD_eq_default _ _ (by omega)]
  rw [h i this]

lemma ones_getD {k i : ℕ} (h : i < k) : (ones k).getD i 0 = 1 := by
  unfold ones
  rw [List.getD_eq_getElem _ _ (by simpa using h)]; simp

/-- the test of a guess compares its value with the probe -/
lemma testGuess_spec {p : ℕ} [Fact p.Prime] (cfg : MPoly.Cfg (ZMod p)) {g : RnMap} (hw : WFMap cfg.n g) (hv : ∀ t ∈ g, t.2.Valid) (num : ZMod p) :
    testGuess cfg g num = some (decide (eval (fun j => cfg.anchor.getD j 0 ^ (ones cfg.n).getD j 0) (red p (RRun.rnPoly g)) = num)) := by
  unfold testGuess
  rw [C15_calc (wf_convert p hw) _ (by simp), RRun.red_rnPoly p hw hv, Option.map_some]
  have := eval_congr (wf_convert p hw) (x := fun i => ((List.range' 1 cfg.n).map (fun i => cfg.point i 1)).getD i 0) (y := fun j => cfg.anchor.getD j 0 ^ (ones cfg.n).getD j 0) (by
    intro i hi
    rw [List.getD_eq_getElem _ _ (by simpa using hi), List.getElem_map, List.getElem_range', ones_getD hi]
    simp [MPoly.Cfg.point, Nat.add_comm 1 i])
  rw [this]

/-! ## the guess -/

lemma emplace_keys_new {α : Type} {m : FFMap α} {k : List ℕ} (h : k ∉ m.map Prod.fst) (v : α) : m.emplace k v = m ++ [(k, v)] := by
  unfold FFMap.emplace
  rw [FFMap.find?_eq_none.mpr h]; simp

lemma guess_spec {c : List ℕ → ℚ} {M : ℤ} : ∀ (ci : MpzMap) (g : RnMap), (g.map Prod.fst ++ ci.map Prod.fst).Nodup → (∀ t ∈ ci, Reduces (c t.1) t.2 M) →
    (∀ t ∈ g, t.2.Valid ∧ t.2.num * (c t.1).den ≡ (c t.1).num * t.2.den [ZMOD M]) →
    ∃ o, guess M ci g = some o ∧
      (∀ G, o = some G → G.map Prod.fst = g.map Prod.fst ++ ci.map Prod.fst ∧ ∀ t ∈ G, t.2.Valid ∧ t.2.num * (c t.1).den ≡ (c t.1).num * t.2.den [ZMOD M]) ∧
      ((∀ t ∈ g, t.2.val = c t.1) → (∀ t ∈ ci, Small (c t.1) M) → ∃ G, o = some G ∧ ∀ t ∈ G, t.2.val = c t.1)
  | [], g, _, _, hg => ⟨some g, rfl, fun G hG => by cases hG; exact ⟨by simp, hg⟩, fun h _ => ⟨g, rfl, h⟩⟩
  | t :: ts, g, hnd, hc, hg => by
    have ht := hc t (by simp)
    obtain ⟨b, w, e, s1, -⟩ := C09_sound t.2 M ht.1 ht.2.1
    unfold guess
    rw [e]
    simp only [Option.bind_eq_bind, Option.bind_some]
    have hsmall : Small (c t.1) M → b = true ∧ w = ⟨(c t.1).num, (c t.1).den⟩ := by
      intro hs
      have := C10_complete t.2 M _ _ ht.1 ht.2.1 (reduces_represents ht) hs.1 hs.2
      rw [e] at this
      simpa using this
    cases b with
    | false =>
      exact ⟨none, rfl, by simp, fun _ hs => by simpa using (hsmall (hs t (by simp))).1⟩
    | true =>
      simp only [if_true]
      have hk : t.1 ∉ g.map Prod.fst := by
        intro hk
        exact (List.nodup_append.mp hnd).2.2 _ hk t.1 (by simp) rfl
      rw [emplace_keys_new hk]
      have hrep := (s1 rfl).1
      obtain ⟨o, e', r1, r2⟩ := guess_spec (c := c) (M := M) ts (g ++ [(t.1, w)]) (by simpa using hnd) (fun s hs => hc s (List.mem_cons_of_mem _ hs)) (by
        intro s hs
        rcases List.mem_append.mp hs with hs | hs
        · exact hg s hs
        · rw [List.mem_singleton.mp hs]
          exact ⟨⟨hrep.1, hrep.2.1⟩, agree ht hrep.2.2⟩)
      refine ⟨o, e', ?_, ?_⟩
      · intro G hG
        obtain ⟨k1, k2⟩ := r1 G hG
        exact ⟨by rw [k1]; simp, k2⟩
      · intro h1 h2
        apply r2
        · intro s hs
          rcases List.mem_append.mp hs with hs | hs
          · exact h1 s hs
          · rw [List.mem_singleton.mp hs]
            simp only
            rw [(hsmall (h2 t (by simp))).2]
            exact val_of_num_den.2
        · exact fun s hs => h2 s (List.mem_cons_of_mem _ hs)

/-! ## Chinese remainders -/

lemma fill_find {ci : MpzMap} : ∀ (tmp : MpzMap) (e : List ℕ),
    (ci.foldl (fun (tmp : MpzMap) el => if tmp.find? el.1 = none then tmp.emplace el.1 0 else tmp) tmp).find? e =
      (tmp.find? e).or (if e ∈ ci.map Prod.fst then some 0 else none) := by
  induction ci with
  | nil => intro tmp e; simp
  | cons t ci ih =>
    intro tmp e
    rw [List.foldl_cons, ih]
    by_cases h : tmp.find? t.1 = none
    · rw [if_pos h, find?_emplace]
      by_cases he : e = t.1
      · subst he
        rw [if_pos rfl, h]; simp
      · rw [if_neg he, List.map_cons]; simp only [List.mem_cons, he, false_or]
    · rw [if_neg h]
      by_cases he : e = t.1
      · subst he
        obtain ⟨v, hv⟩ := Option.ne_none_iff_exists'.mp h
        rw [hv]; simp
      · rw [List.map_cons]; simp only [List.mem_cons, he, false_or]

lemma fill_wf {k : ℕ} {ci : MpzMap} (hc : ∀ t ∈ ci, t.1.length = k) : ∀ (tmp : MpzMap), WFMap k tmp →
    WFMap k (ci.foldl (fun (tmp : MpzMap) el => if tmp.find? el.1 = none then tmp.emplace el.1 0 else tmp) tmp) := by
  induction ci with
  | nil => intro tmp h; exact h
  | cons t ci ih =>
    intro tmp h
    rw [List.foldl_cons]
    apply ih (fun s hs => hc s (List.mem_cons_of_mem _ hs))
    split
    · exact h.emplace (hc t (by simp)) 0
    · exact h

lemma crt_fold (inv : ℤ → ℤ → ℤ) (M p : ℤ) {k : ℕ} : ∀ (L : MpzMap) (acc : MpzMap × ℤ), WFMap k L → WFMap k acc.1 →
    ∃ m N, L.foldl (fun (acc : MpzMap × ℤ) t =>
      let r := runChineseRemainder inv ((acc.1.find? t.1).getD 0, M) (t.2, p)
      (acc.1.set t.1 r.1, r.2)) acc = (m, N) ∧ WFMap k m ∧ (L ≠ [] → N = M * p) ∧
      ∀ e, m.find? e = match FFMap.find? L e with
        | some v => some (runChineseRemainder inv ((acc.1.find? e).getD 0, M) (v, p)).1
        | none => acc.1.find? e
  | [], acc, _, hw => ⟨acc.1, acc.2, rfl, hw, by simp, fun e => by simp⟩
  | t :: L, acc, hL, hw => by
    obtain ⟨m, N, e1, e2, e3, e4⟩ := crt_fold inv M p L
      (acc.1.set t.1 (runChineseRemainder inv ((acc.1.find? t.1).getD 0, M) (t.2, p)).1, (runChineseRemainder inv ((acc.1.find? t.1).getD 0, M) (t.2, p)).2)
      ⟨(List.nodup_cons.mp hL.1).2, fun s hs => hL.2 s (List.mem_cons_of_mem _ hs)⟩ (hw.set (hL.2 t (by simp)) _)
    refine ⟨m, N, by rw [List.foldl_cons]; exact e1, e2, ?_, ?_⟩
    · intro _
      by_cases h : L = []
      · subst h
        rw [List.foldl_nil] at e1
        rw [← (Prod.mk.inj e1).2]
        rfl
      · exact e3 h
    · intro e
      rw [e4 e]
      have hn : FFMap.find? L t.1 = none := FFMap.find?_eq_none.mpr (List.nodup_cons.mp hL.1).1
      obtain ⟨tk, tv⟩ := t
      rw [find?_cons]
      by_cases he : e = tk
      · subst he
        rw [hn, if_pos rfl]
        simp only
        rw [find?_set, if_pos rfl]
      · rw [if_neg he]
        simp only
        rw [find?_set, if_neg he]

lemma convert_find {p : ℕ} {m : FFMap (ZMod p)} (e : List ℕ) : (convertToMpz m).find? e = (m.find? e).map (fun v => (v.val : ℤ)) := by
  unfold convertToMpz
  induction m with
  | nil => rfl
  | cons t m ih =>
    obtain ⟨tk, tv⟩ := t
    rw [List.map_cons, find?_cons, find?_cons, ih]
    by_cases he : e = tk <;> simp [he]

lemma convert_getD {p : ℕ} [Fact p.Prime] {m : FFMap (ZMod p)} (e : List ℕ) : ((convertToMpz m).find? e).getD 0 = ((((m.find? e).getD 0).val : ℕ) : ℤ) := by
  rw [convert_find]
  cases m.find? e <;> simp

lemma convert_wf {p k : ℕ} {m : FFMap (ZMod p)} (h : WFMap k m) : WFMap k (convertToMpz m) := by
  unfold convertToMpz
  refine ⟨by rw [List.map_map]; exact h.1, ?_⟩
  intro t ht
  obtain ⟨s, hs, rfl⟩ := List.mem_map.mp ht
  exact h.2 s hs

/-- the combination of the residues of all coefficients -/
lemma crtMaps_ok {inv : ℤ → ℤ → ℤ} (hinv : InvertSpec inv) {p : ℕ} [hp : Fact p.Prime] {k : ℕ} {c : List ℕ → ℚ} {M : ℤ} {ci : MpzMap} {res : FFMap (ZMod p)} (hM : 0 < M) (hpM : ¬ (p : ℤ) ∣ M)
    (hci : WFMap k ci) (hres : WFMap k res) (hne : ci ≠ [] ∨ res ≠ []) (hden : ∀ e, ¬ (p : ℤ) ∣ (c e).den)
    (hr1 : ∀ e : List ℕ, e.length = k → Reduces (c e) ((ci.find? e).getD 0) M) (hr2 : ∀ e : List ℕ, e.length = k → (res.find? e).getD 0 = ((c e : ℚ) : ZMod p)) :
    ∃ m, crtMaps inv ci M (convertToMpz res) p = (m, M * p) ∧ WFMap k m ∧ (∀ e : List ℕ, e.length = k → Reduces (c e) ((m.find? e).getD 0) (M * p)) ∧
      ∀ e ∈ m.map Prod.fst, e ∈ ci.map Prod.fst ∨ e ∈ res.map Prod.fst := by
  have hpp : (0 : ℤ) < p := by exact_mod_cast hp.out.pos
  have hco : IsCoprime M (p : ℤ) :=
    ((Nat.prime_iff_prime_int.mp hp.out).coprime_iff_not_dvd.mpr hpM).symm
  obtain ⟨tmp, htmp⟩ : ∃ tmp, tmp = ci.foldl (fun (tmp : MpzMap) el => if tmp.find? el.1 = none then tmp.emplace el.1 0 else tmp) (convertToMpz res) := ⟨_, rfl⟩
  have hfind := fill_find (ci := ci) (convertToMpz res)
  have hwf := fill_wf hci.2 _ (convert_wf hres)
  rw [← htmp] at hwf
  simp only [← htmp] at hfind
  obtain ⟨m, N, e1, e2, e3, e4⟩ := crt_fold inv M p tmp (ci, 0) hwf hci
  have hkeys : ∀ e, e ∈ tmp.map Prod.fst ↔ e ∈ ci.map Prod.fst ∨ e ∈ res.map Prod.fst := by
    intro e
    rw [← not_iff_not, ← FFMap.find?_eq_none, hfind, Option.or_eq_none_iff, convert_find, Option.map_eq_none_iff, FFMap.find?_eq_none]
    by_cases h : e ∈ ci.map Prod.fst <;> simp [h]
  have htn : tmp ≠ [] := by
    intro h
    have : ∀ e, ¬ (e ∈ ci.map Prod.fst ∨ e ∈ res.map Prod.fst) := by
      intro e he
      have := (hkeys e).mpr he
      rw [h] at this; simp at this
    rcases hne with hne | hne
    · obtain ⟨t, ht⟩ := List.exists_mem_of_ne_nil _ hne
      exact this t.1 (Or.inl (List.mem_map_of_mem ht))
    · obtain ⟨t, ht⟩ := List.exists_mem_of_ne_nil _ hne
      exact this t.1 (Or.inr (List.mem_map_of_mem ht))
  refine ⟨m, ?_, e2, ?_, ?_⟩
  · unfold crtMaps
    rw [← htmp, ← e3 htn]; exact e1
  · intro e he
    have h1 := hr1 e he
    have h2 := reduces_cast p (c e) (hden e)
    have hget : (tmp.find? e).getD 0 = ((((c e : ℚ) : ZMod p).val : ℕ) : ℤ) := by
      rw [hfind, ← hr2 e he, ← convert_getD]
      cases (convertToMpz res).find? e with
      | some v => rfl
      | none => split <;> rfl
    have hm := e4 e
    cases ht : tmp.find? e with
    | none =>
      rw [ht] at hm hget
      simp only [Option.getD_none] at hm hget
      have hc := FFMap.find?_eq_none.mp ht
      have hz : ci.find? e = none := FFMap.find?_eq_none.mpr (fun h => hc ((hkeys e).mpr (Or.inl h)))
      rw [hz] at hm h1
      rw [hm]
      simp only [Option.getD_none] at h1 ⊢
      rw [← hget] at h2
      refine ⟨le_rfl, by positivity, ?_⟩
      rw [zero_mul]
      have a1 := h1.2.2
      have a2 := h2.2.2
      rw [zero_mul] at a1 a2
      rw [Int.modEq_zero_iff_dvd] at a1 a2 ⊢
      exact hco.mul_dvd a1 a2
    | some v =>
      rw [ht] at hm hget
      simp only [Option.getD_some] at hm hget
      rw [hm, Option.getD_some, hget]
      obtain ⟨-, a1, a2, a3, a4, -⟩ := C08_crt inv hinv ((ci.find? e).getD 0) M _ p hM hpp (Int.isCoprime_iff_gcd_eq_one.mp hco) h1.1 h2.1
      refine ⟨a1, a2, ?_⟩
      rw [Int.modEq_iff_dvd]
      apply hco.mul_dvd
      · rw [← Int.modEq_iff_dvd]
        exact h1.2.2.trans (a3.symm.mul_right _)
      · rw [← Int.modEq_iff_dvd]
        exact h2.2.2.trans (a4.symm.mul_right _)
  · intro e he
    rw [← hkeys]
    by_contra hc
    rw [← FFMap.find?_eq_none] at hc
    have := e4 e
    rw [hc] at this
    have hz : ci.find? e = none := FFMap.find?_eq_none.mpr (fun h => FFMap.find?_eq_none.mp hc ((hkeys e).mpr (Or.inl h)))
    simp only at this
    rw [hz] at this
    exact FFMap.find?_eq_none.mp this he

/-! ## feeding -/
section
variable {p : ℕ} [Fact p.Prime] (inv : ℤ → ℤ → ℤ) (cfg : MPoly.Cfg (ZMod p))

lemma interpolate_done {F : Type} [_root_.Field F] [DecidableEq F] (c : MPoly.Cfg F) {s : MPoly.St F} {r : FFMap F} (h : s.result = some r) (v : F) (o : List ℕ) : c.interpolate s v o = some s := by
  unfold MPoly.Cfg.interpolate
  rw [if_neg (by rw [h]; simp)]

lemma feedAll_done {F : Type} [_root_.Field F] [DecidableEq F] (c : MPoly.Cfg F) {s : MPoly.St F} {r : FFMap F} (h : s.result = some r) : ∀ L, c.feedAll s L = some s
  | [] => rfl
  | q :: L => by
    unfold MPoly.Cfg.feedAll
    rw [List.foldlM_cons, interpolate_done c h]
    exact feedAll_done c h L

lemma feedAll_skip {F : Type} [_root_.Field F] [DecidableEq F] (c : MPoly.Cfg F) (s : MPoly.St F) : ∀ L : List (F × List ℕ), (∀ q ∈ L, q.2 ≠ s.ord) → c.feedAll s L = some s
  | [], _ => rfl
  | q :: L, h => by
    unfold MPoly.Cfg.feedAll
    have : c.interpolate s q.1 q.2 = some s := by
      unfold MPoly.Cfg.interpolate
      rw [if_neg (fun hh => h q (by simp) hh.1)]
    rw [List.foldlM_cons, this]
    exact feedAll_skip c s L (fun q hq => h q (List.mem_cons_of_mem _ hq))

lemma obj_idle (o : Obj p) : ∀ L : List (ZMod p × List ℕ), (∀ q ∈ L, q.2 ≠ o.st.ord) ∨ o.done ≠ none → o.feedAll inv cfg L = some o
  | [], _ => rfl
  | q :: L, h => by
    unfold Obj.feedAll
    have : o.interpolate inv cfg q.1 q.2 = some o := by
      unfold Obj.interpolate
      rw [if_neg (fun hh => h.elim (fun h => h q (by simp) hh.1) (fun h => h hh.2))]
    rw [List.foldlM_cons, this]
    exact obj_idle o L (h.imp (fun h q hq => h q (List.mem_cons_of_mem _ hq)) id)

/-- a prime field without test: the object does the interpolation, and at its end it combines -/
lemma obj_feed : ∀ (L : List (ZMod p × List ℕ)) (o : Obj p), (∀ q ∈ L.tail, q.2 ≠ ones cfg.n) → o.done = none → o.cross.newPrime = false → o.st.result = none → ∀ st, cfg.feedAll o.st L = some st →
    o.feedAll inv cfg L = some (match st.result with
      | none => { o with st := st }
      | some res => { o with cross := o.cross.combine inv res, st := cfg.init })
  | [], o, _, _, _, hr, st, h => by
    have : o.st = st := Option.some.inj h
    subst this
    rw [hr]; rfl
  | q :: L, o, hL, hd, hn, hr, st, h => by
    unfold MPoly.Cfg.feedAll at h
    rw [List.foldlM_cons] at h
    obtain ⟨s1, e1, e2⟩ := Option.bind_eq_some_iff.mp h
    rw [List.tail_cons] at hL
    have step : o.interpolate inv cfg q.1 q.2 = some (match s1.result with
      | none => { o with st := s1 }
      | some res => { o with cross := o.cross.combine inv res, st := cfg.init }) := by
      unfold Obj.interpolate
      by_cases hq : q.2 = o.st.ord
      · rw [if_pos ⟨hq, hd⟩, hn]
        simp only [Bool.false_eq_true, if_false]
        unfold Obj.work
        rw [e1]
        simp only [Option.bind_eq_bind, Option.bind_some]
        cases s1.result <;> rfl
      · rw [if_neg (fun hh => hq hh.1)]
        have : s1 = o.st := by
          unfold MPoly.Cfg.interpolate at e1
          rw [if_neg (fun hh => hq hh.1)] at e1
          exact (Option.some.inj e1).symm
        subst this
        rw [hr]
    unfold Obj.feedAll
    rw [List.foldlM_cons, step, Option.bind_eq_bind, Option.bind_some]
    cases hs : s1.result with
    | none =>
      simp only
      exact obj_feed L { o with st := s1 } (fun q hq => hL q (List.mem_of_mem_tail hq)) hd hn hs st e2
    | some res =>
      simp only
      have : st = s1 := by
        have := feedAll_done cfg hs L
        unfold MPoly.Cfg.feedAll at this
        rw [e2] at this
        exact Option.some.inj this
      subst this
      rw [hs]
      exact obj_idle inv cfg _ L (Or.inl hL)

end

/-- one value for `(1, …, 1)` at most: there is none or the list can be split there -/
lemma once_split {α : Type} (P : α → Bool) : ∀ L : List α, (L.filter P).length ≤ 1 → (∀ q ∈ L, P q = false) ∨ ∃ L1 q L2, L = L1 ++ q :: L2 ∧ P q = true ∧ (∀ x ∈ L1, P x = false) ∧ ∀ x ∈ L2, P x = false
  | [], _ => Or.inl (by simp)
  | q :: L, h => by
    by_cases hq : P q = true
    · right
      refine ⟨[], q, L, rfl, hq, by simp, ?_⟩
      rw [List.filter_cons_of_pos hq, List.length_cons] at h
      intro x hx
      by_contra hc
      have : x ∈ L.filter P := List.mem_filter.mpr ⟨hx, by simpa using hc⟩
      have := List.length_pos_of_mem this
      omega
    · rw [List.filter_cons_of_neg hq] at h
      have hq' : P q = false := by simpa using hq
      rcases once_split P L h with h' | ⟨L1, q', L2, rfl, h2, h3, h4⟩
      · exact Or.inl (by
          intro x hx
          rcases List.mem_cons.mp hx with rfl | hx
          · exact hq'
          · exact h' x hx)
      · exact Or.inr ⟨q :: L1, q', L2, rfl, h2, by
          intro x hx
          rcases List.mem_cons.mp hx with rfl | hx
          · exact hq'
          · exact h3 x hx, h4⟩

end FireFly.PRun
