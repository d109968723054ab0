import Verif.Lemmas.FactorFiles
import Verif.Lemmas.Rne
/-!
# C53: a resumed run uses the factors and the order of the variables of the run that was interrupted
-/
set_option linter.all false
namespace FireFly

lemma lookup_perm53 {α : Type} {l m : List (ℕ × α)} (h : l.Perm m) (hn : (m.map Prod.fst).Nodup) (i : ℕ) : l.lookup i = m.lookup i := by
  have hl : (l.map Prod.fst).Nodup := (h.map Prod.fst).nodup_iff.mpr hn
  have key : ∀ (l : List (ℕ × α)), (l.map Prod.fst).Nodup → ∀ i v, l.lookup i = some v ↔ (i, v) ∈ l := by
    intro l
    induction l with
    | nil => intro _ i v; simp
    | cons q l ih =>
      intro hn i v
      rw [List.map_cons, List.nodup_cons] at hn
      rw [List.lookup_cons]
      cases hi : i == q.1
      · have : i ≠ q.1 := by simpa using hi
        rw [List.mem_cons]
        constructor
        · intro h; exact Or.inr ((ih hn.2 i v).mp h)
        · rintro (h | h)
          · exact absurd (congrArg Prod.fst h) this
          · exact (ih hn.2 i v).mpr h
      · have hq : i = q.1 := by simpa using hi
        subst hq
        rw [List.mem_cons]
        constructor
        · intro h; left; injection h with h; rw [← h]
        · rintro (h | h)
          · rw [← h]
          · exact absurd (List.mem_map_of_mem (f := Prod.fst) h) hn.1
  cases hm : m.lookup i with
  | none =>
    cases hl2 : l.lookup i with
    | none => rfl
    | some v =>
      have := (key l hl i v).mp hl2
      have := (key m hn i v).mpr (h.mem_iff.mp this)
      rw [hm] at this; exact absurd this (by simp)
  | some v =>
    have := (key m hn i v).mp hm
    exact (key l hl i v).mpr (h.mem_iff.mpr this)

lemma factorStr_loaded (pr : Polynomial → List Str → Option Str) (vars : List Str) {pos : ℕ} {m : List (List ℕ × RationalNumber)}
    (h : ∀ t ∈ m, t.1.length = 1) (s : Str) : factorStr pr vars s (filePoly pos m) = factorStr pr vars s (facPoly pos m) := by
  unfold factorStr
  by_cases h0 : m = []
  · simp [filePoly, facPoly, h0]
  · have : filePoly pos m = facPoly pos m := by
      unfold filePoly facPoly
      rw [if_neg h0, if_neg (by omega)]
      match m, h0, h with
      | t :: m, _, h => simp [h t (by simp)]
    rw [this]

lemma print_loaded (pr : Polynomial → List Str → Option Str) (num den : Polynomial) (order : List (ℕ × ℕ)) (fs : List Factor) (h : ∀ f ∈ fs, f.Saved) (vars : List Str) :
    RationalFunction.print pr { num := num, den := den, order := order, factors := fs.map Factor.loaded } vars =
      RationalFunction.print pr { num := num, den := den, order := order, factors := fs.map Factor.rf } vars := by
  have e1 : ∀ (l : List Factor), (∀ f ∈ l, f.Saved) → ∀ s, ((l.map Factor.loaded).map Prod.fst).foldlM (factorStr pr vars) s = ((l.map Factor.rf).map Prod.fst).foldlM (factorStr pr vars) s := by
    intro l
    induction l with
    | nil => intro _ s; rfl
    | cons f l ih =>
      intro hl s
      simp only [List.map_cons, List.foldlM_cons]
      rw [show f.loaded.1 = filePoly f.pos f.num from rfl, show f.rf.1 = facPoly f.pos f.num from rfl,
        factorStr_loaded pr vars (fun t ht => ((hl f (by simp)).num.2 t ht).1)]
      congr 1
      funext s
      exact ih (fun g hg => hl g (by simp [hg])) s
  have e2 : ∀ (l : List Factor), (∀ f ∈ l, f.Saved) → ∀ s, ((l.map Factor.loaded).map Prod.snd).foldlM (factorStr pr vars) s = ((l.map Factor.rf).map Prod.snd).foldlM (factorStr pr vars) s := by
    intro l
    induction l with
    | nil => intro _ s; rfl
    | cons f l ih =>
      intro hl s
      simp only [List.map_cons, List.foldlM_cons]
      rw [show f.loaded.2 = filePoly f.pos f.den from rfl, show f.rf.2 = facPoly f.pos f.den from rfl,
        factorStr_loaded pr vars (fun t ht => ((hl f (by simp)).den.2 t ht).1)]
      congr 1
      funext s
      exact ih (fun g hg => hl g (by simp [hg])) s
  unfold RationalFunction.print
  simp only [e1 fs h, e2 fs h]
  by_cases h0 : fs = []
  · subst h0; rfl
  · rw [if_pos (by simpa using h0), if_pos (by simpa using h0)]; rfl

/-- the text of the factors is parsed -/
lemma factor_parses {n B : ℕ} (hn : n ≤ 2 ^ 32) {fs : List Factor} (hpos : (fs.map Factor.pos).Nodup) (hok : ∀ f ∈ fs, f.OK n B) (hne : ∃ f ∈ fs, f.num ≠ [] ∨ f.den ≠ [])
    {s : List Str × List Str} (hs : factorStrings fs = some s) {nums dens : List Str} (h1 : nums.Perm s.1) (h2 : dens.Perm s.2) : (parse (factorText nums dens)).isSome := by
  letI : LongDouble := x87
  obtain ⟨s', h3, h4⟩ := C51_factor_value hn hpos hok hne
  rw [hs] at h3
  obtain rfl := Option.some.inj h3
  obtain ⟨T, h5, -⟩ := h4 nums dens h1 h2
  rw [h5]; rfl

/-- **C53.** A factor scan over the variables with the largest degrees `d` has found the factors `factors` with the texts `texts` and has written them to a directory which is empty or contains what an interrupted scan of the same functions has left. For every order in which the files are listed, a resumed run reads them
without an error; every probe is evaluated at the same point as in the first run, the factors that are divided out of the probes have the same tokens, and every result is printed with the same factors and the same order of the variables, as a fraction of sums as well as in
Horner form. -/
theorem C53_resume {d : List ℕ} {B : ℕ} {factors : List (ℕ × List Factor)} {texts : List (ℕ × Str)} (hd : d.length ≤ 2 ^ 31) (hres : ScanResult d.length B factors texts) {old dir : FacDir}
    (hold : Leftovers (varOrder d) factors old) (hdir : SameFiles (saveFactors d.length (varOrder d) (factors.map fun q => (q.1, q.2.map Factor.rf)) texts old) dir) :
    ∃ m, resumeFactors d.length dir = .ok m ∧
      (∀ (F : Type) [Zero F] (coord : ℕ → F), m.point d.length coord = queueValues d.length (varOrder d) coord) ∧
      (∀ i, m.parsed.lookup i = (texts.lookup i).bind parse) ∧
      (∀ i, (m.parsed.lookup i).isSome = (factors.lookup i).isSome) ∧
      ∀ i num den vars, (m.dress i num den).toStr vars = (dressResult (varOrder d) factors i num den).toStr vars ∧
        (m.dress i num den).generateHorner vars = (dressResult (varOrder d) factors i num den).generateHorner vars := by
  have hmem : ∀ {α : Type} (l : List (ℕ × α)) (q : ℕ × α), (l.map Prod.fst).Nodup → q ∈ l → l.lookup q.1 = some q.2 := by
    intro α l
    induction l with
    | nil => intro q _ hq; simp at hq
    | cons r l ih =>
      intro q hn hq
      rw [List.map_cons, List.nodup_cons] at hn
      rcases List.mem_cons.mp hq with rfl | hq
      · rw [List.lookup_cons_self]
      · have : (q.1 == r.1) = false := by
          rw [beq_eq_false_iff_ne]
          intro h
          exact hn.1 (h ▸ List.mem_map_of_mem hq)
        rw [List.lookup_cons, this]
        exact ih q hn.2 hq
  have htn : (texts.map Prod.fst).Nodup := hres.tkeys.nodup_iff.mpr hres.keys
  -- the texts
  have htext : ∀ q ∈ texts, q.1 < 2 ^ 31 ∧ '\n' ∉ q.2 ∧ (parse q.2).isSome := by
    intro q hq
    have hk : q.1 ∈ factors.map Prod.fst := hres.tkeys.mem_iff.mp (List.mem_map_of_mem hq)
    obtain ⟨r, hr, hrq⟩ := List.mem_map.mp hk
    have hrl := hmem factors r hres.keys hr
    rw [hrq] at hrl
    obtain ⟨s, nums, dens, h1, h2, h3, h4⟩ := hres.text q.1 r.2 hrl
    rw [hmem texts q htn hq] at h4
    obtain h4 := Option.some.inj h4
    have hs := factorStrings_eq r.2 (hres.pos r hr) (hres.ok r hr)
    rw [h1] at hs
    obtain rfl := Option.some.inj hs
    refine ⟨hrq ▸ hres.bound r hr, ?_, ?_⟩
    · rw [h4]
      refine nl_factorText ?_ ?_
      · intro s hs
        obtain ⟨f, -, -, rfl⟩ := mem_texts (h2.mem_iff.mp hs)
        exact nl_uniText _ _
      · intro s hs
        obtain ⟨f, -, -, rfl⟩ := mem_texts (h3.mem_iff.mp hs)
        exact nl_uniText _ _
    · have hn : d.length ≤ 2 ^ 32 := by omega
      obtain ⟨f, hf⟩ := List.exists_mem_of_ne_nil _ (hres.nonempty r hr)
      have := factor_parses hn (hres.pos r hr) (hres.ok r hr) ⟨f, hf, (hres.saved r hr f hf).nonempty⟩ h1 h2 h3
      rw [h4]; exact this
  -- the directory
  have hdrf : (saveFactors d.length (varOrder d) (factors.map fun q => (q.1, q.2.map Factor.rf)) texts old).rf.Perm (factors.map fun q => (facFile q.1, unlines ((q.2.map Factor.rf).map rfLines).flatten)) := by
    have := putFiles_perm (fun q : List (Polynomial × Polynomial) => unlines (q.map rfLines).flatten) (factors.map fun q => (q.1, q.2.map Factor.rf)) old.rf
      (by rw [List.map_map]; exact hres.keys) hold.rf.1 (by rw [List.map_map]; exact hold.rf.2)
    rw [List.map_map] at this
    exact this
  have hdfac : (saveFactors d.length (varOrder d) (factors.map fun q => (q.1, q.2.map Factor.rf)) texts old).fac.Perm (texts.map fun q => (facFile q.1, q.2 ++ [';', '\n'])) :=
    putFiles_perm (fun q : Str => q ++ [';', '\n']) texts old.fac htn hold.fac.1 (by
      intro q hq
      obtain ⟨i, hi, h⟩ := hold.fac.2 q hq
      exact ⟨i, hres.tkeys.mem_iff.mpr hi, h⟩)
  obtain ⟨F', hF1, hF2⟩ := perm_map_lift (fun q : ℕ × List Factor => (facFile q.1, unlines ((q.2.map Factor.rf).map rfLines).flatten)) (hdir.rf.trans hdrf) _ rfl
  obtain ⟨T', hT1, hT2⟩ := perm_map_lift (fun q : ℕ × Str => (facFile q.1, q.2 ++ [';', '\n'])) (hdir.fac.trans hdfac) _ rfl
  have hF3 : (F'.map Prod.fst).Nodup := (hF1.map Prod.fst).nodup_iff.mpr hres.keys
  have hT3 : (T'.map Prod.fst).Nodup := (hT1.map Prod.fst).nodup_iff.mpr htn
  have hrf := parseRf_fold F' [] hF3 (by simp) (by
    intro q hq
    have := hF1.mem_iff.mp hq
    exact ⟨hres.bound q this, hres.saved q this⟩)
  obtain ⟨T, hpf1, hpf2⟩ := parseFac_fold T' [] hT3 (by simp) (fun q hq => htext q (hT1.mem_iff.mp hq))
  rw [hF2, List.nil_append] at hrf
  rw [hT2, List.nil_append] at hpf1
  -- the order
  obtain ⟨m0, hm0, hm1⟩ : ∃ o, resumeOrder d.length dir.order = .ok o ∧
      ((changeOrder (varOrder d) = true ∧ o = varOrder d ∧ dir.order.isSome = true) ∨ (changeOrder (varOrder d) = false ∧ dir.order.isSome = false)) := by
    rw [hdir.order]
    have ho : (saveFactors d.length (varOrder d) (factors.map fun q => (q.1, q.2.map Factor.rf)) texts old).order =
        if changeOrder (varOrder d) then some (orderText d.length (varOrder d)) else none := by
      show (if changeOrder (varOrder d) then some (orderText d.length (varOrder d)) else old.order) = _
      cases hc : changeOrder (varOrder d)
      · rw [if_neg (by simp), if_neg (by simp)]
        by_contra h
        rw [hold.order h] at hc
        exact absurd hc (by simp)
      · rfl
    rw [ho]
    cases hc : changeOrder (varOrder d)
    · exact ⟨[], rfl, Or.inr ⟨rfl, rfl⟩⟩
    · refine ⟨varOrder d, ?_, Or.inl ⟨rfl, rfl, rfl⟩⟩
      show (readOrder (orderText d.length (varOrder d))).map (fillOrder d.length) = _
      have hv : ∀ i < d.length, ((varOrder d).lookup i).isSome ∧ ((varOrder d).lookup i).getD 0 < 2 ^ 31 := by
        intro i hi
        have h2 : i < (sortedIndices d).length := by rw [sorted_length]; exact hi
        rw [varOrder_lookup, List.getElem?_eq_getElem h2]
        refine ⟨rfl, ?_⟩
        have := (sorted_mem d).mp (List.getElem_mem h2)
        show (sortedIndices d)[i] < _
        omega
      rw [readOrder_text hd (fun i hi => (hv i hi).2), varOrder_map]
      show Except.ok (fillOrder d.length (varOrder d)) = _
      unfold fillOrder
      rw [fillOrder_id]
      intro i hi
      exact (hv i (List.mem_range.mp hi)).1
  have hload : resumeFactors d.length dir = .ok ⟨m0, dir.order.isSome && orderChanged d.length m0, T, (F'.filter fun q => !q.2.isEmpty).map fun q => (q.1, q.2.map Factor.loaded)⟩ := by
    unfold resumeFactors
    rw [hm0, show parseFactors dir.fac = _ from hpf1, show parseFactorsRf dir.rf = _ from hrf]
    rfl
  have hchange : (dir.order.isSome && orderChanged d.length m0) = changeOrder (varOrder d) ∧ (changeOrder (varOrder d) = true → m0 = varOrder d) := by
    rcases hm1 with ⟨h1, h2, h3⟩ | ⟨h1, h2⟩
    · rw [h3, h2, orderChanged_eq]; exact ⟨by simp, fun _ => rfl⟩
    · rw [h2, h1]; exact ⟨rfl, fun h => absurd h (by simp)⟩
  refine ⟨_, hload, ?_, ?_, ?_, ?_⟩
  · intro F _ coord
    unfold FacMem.point queueValues
    simp only [hchange.1]
    cases hc : changeOrder (varOrder d)
    · rfl
    · rw [hchange.2 hc]
  · intro i
    rw [hpf2 i, lookup_perm53 hT1 htn]
  · intro i
    show (T.lookup i).isSome = _
    rw [hpf2 i, lookup_perm53 hT1 htn]
    cases hf : factors.lookup i with
    | some fs =>
      obtain ⟨s, nums, dens, -, -, -, h4⟩ := hres.text i fs hf
      rw [h4]
      have hin : (i, factorText nums dens) ∈ texts := by
        have key : ∀ (l : List (ℕ × Str)) v, l.lookup i = some v → (i, v) ∈ l := by
          intro l
          induction l with
          | nil => intro v h; simp at h
          | cons q l ih =>
            intro v h
            rw [List.lookup_cons] at h
            cases hi : i == q.1
            · rw [hi] at h; exact List.mem_cons_of_mem _ (ih v h)
            · rw [hi] at h
              have hq : i = q.1 := by simpa using hi
              obtain rfl := Option.some.inj h
              rw [hq]; exact List.mem_cons_self
        exact key texts _ h4
      rw [Option.bind_some, (htext _ hin).2.2]; rfl
    | none =>
      have : i ∉ texts.map Prod.fst := by
        intro h
        obtain ⟨r, hr, hri⟩ := List.mem_map.mp (hres.tkeys.mem_iff.mp h)
        have := hmem factors r hres.keys hr
        rw [hri, hf] at this
        exact absurd this (by simp)
      rw [lookup_none_of_notMem this]; rfl
  · intro i num den vars
    have hfs : ((((F'.filter fun q => !q.2.isEmpty).map fun q => (q.1, q.2.map Factor.loaded)).lookup i).getD []) = ((factors.lookup i).getD []).map Factor.loaded := by
      rw [lookup_filter (List.map Factor.loaded) [] rfl F' i hF3, lookup_perm53 hF1 hres.keys]
    have hsv : ∀ f ∈ (factors.lookup i).getD [], f.Saved := by
      intro f hf
      cases h : factors.lookup i with
      | none => rw [h] at hf; simp at hf
      | some fs =>
        rw [h] at hf
        have key : ∀ (l : List (ℕ × List Factor)) v, l.lookup i = some v → (i, v) ∈ l := by
          intro l
          induction l with
          | nil => intro v h; simp at h
          | cons q l ih =>
            intro v h
            rw [List.lookup_cons] at h
            cases hi : i == q.1
            · rw [hi] at h; exact List.mem_cons_of_mem _ (ih v h)
            · rw [hi] at h
              have hq : i = q.1 := by simpa using hi
              obtain rfl := Option.some.inj h
              rw [hq]; exact List.mem_cons_self
        exact hres.saved _ (key factors fs h) f hf
    have hord : (if (dir.order.isSome && orderChanged d.length m0) then m0 else []) = if changeOrder (varOrder d) then varOrder d else [] := by
      rw [hchange.1]
      cases hc : changeOrder (varOrder d)
      · rfl
      · rw [hchange.2 hc]
    unfold FacMem.dress dressResult RationalFunction.toStr RationalFunction.generateHorner
    simp only [hfs, hord]
    exact ⟨print_loaded _ num den _ _ hsv vars, print_loaded _ num den _ _ hsv vars⟩

/-- **C53 (the probes of the resumed run).** A function with the factors `fs`: the factor which the resumed run has read gives, for the first prime `p` and any sequence of primes after it, probes that are divided by the value of the factors `fs`, as in the first run. -/
theorem C53_probe [LongDouble] {d : List ℕ} {B : ℕ} {factors : List (ℕ × List Factor)} {texts : List (ℕ × Str)} (hd : d.length ≤ 2 ^ 31) (hres : ScanResult d.length B factors texts) {old dir : FacDir}
    (hold : Leftovers (varOrder d) factors old) (hdir : SameFiles (saveFactors d.length (varOrder d) (factors.map fun q => (q.1, q.2.map Factor.rf)) texts old) dir) :
    ∃ m, resumeFactors d.length dir = .ok m ∧ ∀ i fs, factors.lookup i = some fs → ∃ T, m.parsed.lookup i = some T ∧
      ∀ (p : ℕ) (qs : List ℕ) [Fact (lastPrime p qs).Prime], (∀ q ∈ p :: qs, q.Prime ∧ q < 2 ^ 63 ∧ 3 < q ∧ B < q) →
        ∃ st, preHistory p (facNames d.length) T qs = some st ∧ ∀ values : List ℕ, values.length = d.length → (∀ x ∈ values, x < lastPrime p qs) →
          ∀ v < lastPrime p qs, ∃ c, divideProbe (lastPrime p qs) values [(i, st.1)] i v = some c ∧ c < lastPrime p qs ∧
            (c : ZMod (lastPrime p qs)) = v / facValue fs (fun i => ((values.getD i 0 : ℕ) : ZMod (lastPrime p qs))) := by
  obtain ⟨m, h1, -, h2, -⟩ := C53_resume hd hres hold hdir
  refine ⟨m, h1, ?_⟩
  intro i fs hfs
  have hmem : (i, fs) ∈ factors := by
    have key : ∀ (l : List (ℕ × List Factor)) v, l.lookup i = some v → (i, v) ∈ l := by
      intro l
      induction l with
      | nil => intro v h; simp at h
      | cons q l ih =>
        intro v h
        rw [List.lookup_cons] at h
        cases hi : i == q.1
        · rw [hi] at h; exact List.mem_cons_of_mem _ (ih v h)
        · rw [hi] at h
          have hq : i = q.1 := by simpa using hi
          obtain rfl := Option.some.inj h
          rw [hq]; exact List.mem_cons_self
    exact key factors fs hfs
  obtain ⟨s, nums, dens, g1, g2, g3, g4⟩ := hres.text i fs hfs
  obtain ⟨f, hf⟩ := List.exists_mem_of_ne_nil _ (hres.nonempty _ hmem)
  obtain ⟨s', k1, k2⟩ := C51_probe (B := B) (by omega : d.length ≤ 2 ^ 32) (hres.pos _ hmem) (hres.ok _ hmem) ⟨f, hf, (hres.saved _ hmem f hf).nonempty⟩
  rw [g1] at k1
  obtain rfl := Option.some.inj k1
  obtain ⟨T, k3, k4⟩ := k2 nums dens g2 g3
  refine ⟨T, by rw [h2 i, g4]; exact k3, ?_⟩
  intro p qs _ hqs
  obtain ⟨st, k5, k6⟩ := k4 p qs hqs
  refine ⟨st, k5, ?_⟩
  intro values hv1 hv2 v hv
  exact (k6 i [(i, st.1)] (List.lookup_cons_self) values hv1 hv2).1 v hv

/-- **C53 (a directory of another run).** The assumption on the old files is needed. A run that finds no factors and keeps the order of the variables writes nothing, and nothing is removed: if the directory contains the files of another scan, the resumed run uses the factors
and the order of that other scan. -/
theorem C53_stale {d d' : List ℕ} (hkeep : changeOrder (varOrder d') = false) (factors : List (ℕ × List Factor)) (texts : List (ℕ × Str)) :
    resumeFactors d'.length (saveFactors d'.length (varOrder d') [] [] (saveFactors d.length (varOrder d) (factors.map fun q => (q.1, q.2.map Factor.rf)) texts {})) =
      resumeFactors d'.length (saveFactors d.length (varOrder d) (factors.map fun q => (q.1, q.2.map Factor.rf)) texts {}) := by
  conv_lhs => unfold saveFactors
  rw [hkeep]
  rfl

/-- **C53 (a directory of another run, the points).** If the other scan has changed the order of the variables, the resumed run evaluates its probes at other points than the run it resumes. -/
theorem C53_stale_points {d d' : List ℕ} (hlen : d.length = d'.length) (hd : d.length ≤ 2 ^ 31) (hkeep : changeOrder (varOrder d') = false) (hchange : changeOrder (varOrder d) = true)
    {B : ℕ} {factors : List (ℕ × List Factor)} {texts : List (ℕ × Str)} (hres : ScanResult d.length B factors texts) :
    ∃ m, resumeFactors d'.length (saveFactors d'.length (varOrder d') [] [] (saveFactors d.length (varOrder d) (factors.map fun q => (q.1, q.2.map Factor.rf)) texts {})) = .ok m ∧
      ∃ coord : ℕ → ℕ, m.point d'.length coord ≠ queueValues d'.length (varOrder d') coord := by
  rw [C53_stale hkeep, ← hlen]
  obtain ⟨m, h1, h2, -⟩ := C53_resume (old := {}) hd hres ⟨fun h => absurd rfl h, by simp, by simp⟩ ⟨rfl, List.Perm.refl _, List.Perm.refl _⟩
  refine ⟨m, h1, fun i => i, ?_⟩
  rw [h2 ℕ]
  intro hc
  unfold changeOrder at hchange
  rw [List.any_eq_true] at hchange
  obtain ⟨q, hq, hne⟩ := hchange
  have hi := mem_varOrder hq
  have hp := (C51_point d (fun i : ℕ => i)).2 q.1 q.2 hi
  rw [hc] at hp
  unfold queueValues at hp
  rw [hkeep, if_neg (by simp), List.getElem?_map] at hp
  have hlt : q.2 < d.length := (sorted_mem d).mp (List.mem_of_getElem? hi)
  rw [List.getElem?_range hlt] at hp
  simp at hp
  simp [hp] at hne

/-! ### examples -/

/-- the texts of `twoFactors` -/
def twoTexts : List (ℕ × Str) := [(7, "((x1+1))/(((-1/2)+x2^2))".toList)]

lemma two_result : ScanResult 2 3 [(7, twoFactors)] twoTexts := by
  refine ⟨by decide, by decide, by decide, by decide, ?_, ?_, by exact List.Perm.refl _, ?_⟩
  · intro q hq f hf
    simp only [List.mem_singleton] at hq
    subst hq
    simp only [twoFactors, List.mem_cons, List.not_mem_nil, or_false] at hf
    rcases hf with rfl | rfl
    · exact ⟨by decide, Or.inr ⟨by decide, by decide, by decide, by decide⟩, Or.inl rfl⟩
    · exact ⟨by decide, Or.inl rfl, Or.inr ⟨by decide, by decide, by decide, by decide⟩⟩
  · intro q hq f hf
    simp only [List.mem_singleton] at hq
    subst hq
    simp only [twoFactors, List.mem_cons, List.not_mem_nil, or_false] at hf
    rcases hf with rfl | rfl
    · exact ⟨by decide, by decide, by decide, by decide, by unfold RationalNumber.Valid; decide, by simp⟩
    · exact ⟨by decide, by decide, by decide, by decide, by simp, by unfold RationalNumber.Valid; decide⟩
  · intro i fs h
    have hi : i = 7 := by
      by_contra hc
      have : (i == 7) = false := by simpa using hc
      rw [List.lookup_cons, this] at h
      simp at h
    subst hi
    obtain rfl : twoFactors = fs := by
      rw [List.lookup_cons_self] at h
      exact Option.some.inj h
    exact ⟨(["x1+1".toList], ["(-1/2)+x2^2".toList]), ["x1+1".toList], ["(-1/2)+x2^2".toList], by decide +kernel, List.Perm.refl _, List.Perm.refl _, by decide +kernel⟩

/-- the hypotheses of `C53_resume` and `C53_probe`: an order that changes, a factor in each variable, an empty directory and one with damaged files -/
example : [1, 2].length ≤ 2 ^ 31 ∧ ScanResult [1, 2].length 3 [(7, twoFactors)] twoTexts ∧ changeOrder (varOrder [1, 2]) = true ∧ Leftovers (varOrder [1, 2]) [(7, twoFactors)] {} ∧
    Leftovers (varOrder [1, 2]) [(7, twoFactors)] { order := some ['0'], fac := [("7.gz".toList, "((x1".toList)] } := by
  have hc : changeOrder (varOrder [1, 2]) = true := by
    simp [varOrder, sortedIndices, List.range, List.range.loop, List.mergeSort, List.MergeSort.Internal.splitInTwo, List.merge, changeOrder]
  refine ⟨by norm_num, two_result, hc, ⟨fun _ => hc, by simp, by simp⟩, ⟨fun _ => hc, by simp, by simp, ?_⟩⟩
  intro q hq
  simp only [List.mem_singleton] at hq
  subst hq
  exact ⟨7, by simp, by decide +kernel⟩

/-- the file of the factors -/
example : unlines ((twoFactors.map Factor.rf).map rfLines).flatten = "var\n0\nnumerator\n1 1 1\n0 1 1\ndenominator\nvar\n1\nnumerator\ndenominator\n0 -1 2\n2 1 1\n".toList := by decide +kernel

/-- what a resumed run reads for a function with two factors and an order that changes -/
example : ((resumeFactors 2 (saveFactors 2 [(0, 1), (1, 0)] [(7, twoFactors.map Factor.rf)] twoTexts {})).toOption.map fun m => (m.order, m.change)) = some ([(0, 1), (1, 0)], true) ∧
    ((resumeFactors 2 (saveFactors 2 [(0, 1), (1, 0)] [(7, twoFactors.map Factor.rf)] twoTexts {})).toOption.map fun m => m.rfs.flatMap fun q => q.2.map fun r => (q.1, r.1.varPos, r.1.coefs.length, r.2.coefs.length)) =
    some [(7, some 0, 2, 0), (7, some 1, 0, 2)] := by
  constructor <;> decide +kernel

/-- the hypothesis of `C53_stale` -/
example : changeOrder (varOrder [2, 1]) = false := by
  simp [varOrder, sortedIndices, List.range, List.range.loop, List.mergeSort, List.MergeSort.Internal.splitInTwo, List.merge, changeOrder]

end FireFly
